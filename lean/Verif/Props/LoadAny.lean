import Verif.Model.LoadAny
import Verif.Props.InfoLoad
import Verif.Props.Player

/-! # C20, C22, C23: a player that loaded any file, of any format, is ready -/

namespace Asap.Props
open Asap Asap.Spec Asap.Sap Asap.Module

theorem infoLoad_tmc {fuel : Nat} {filename : Option (List Nat)} {m : List Nat} (hb : AllBytes m) {i : Info}
    (h : infoLoad fuel filename m = .ok i) (ht : i.type = .tmc) : 0 ≤ i.music ∧ 464 ≤ m.length := by
  have key : ∀ f name, PostE (fun _ => True) (fun r => r.type = .tmc → 0 ≤ r.music ∧ 464 ≤ m.length) (parseAs fuel f name m) := by
    intro f name
    have cmc : ∀ kind : CmcKind, PostE (fun _ => True) (fun r => r.type = .tmc → 0 ≤ r.music ∧ 464 ≤ m.length) (loadCmc fuel kind name m) := fun kind =>
      (Tracker.parseCmc_accepted hb fuel _ _ (by cases kind <;> simp) (by cases kind <;> simp) rfl).mono (fun _ h => h) fun r h e => by
        have := h.type_eq
        rw [e] at this
        cases kind <;> exact nomatch this
    have no : ∀ {E : Fault → Prop} {P : Info → Prop} {x : M Info}, PostE E P x → (∀ r, P r → r.type ≠ .tmc) → PostE (fun _ => True) (fun r => r.type = .tmc → 0 ≤ r.music ∧ 464 ≤ m.length) x :=
      fun h k => h.mono (fun _ _ => trivial) fun r hr e => absurd e (k r hr)
    have acc : ∀ {type : ModType} {i r : Info}, Tracker.Accepted type i r → type ≠ .tmc → r.type ≠ .tmc := fun h k => by rw [h.type_eq]; exact k
    have tmc : PostE (fun _ => True) (fun r => r.type = .tmc → 0 ≤ r.music ∧ 464 ≤ m.length) (parseTmc (Info.blank name) m) := by
      by_cases hl : m.length < 0x1d0
      · unfold parseTmc
        rw [if_pos hl]
        trivial
      · exact (Tracker.parseTmc_ends hb (Info.blank name) rfl).mono (fun _ _ => trivial) fun _ h _ => ⟨h.music.1, by omega⟩
    cases f with
    | sap =>
      match hx : parseSap (Info.blank name) m with
      | .ok i =>
        show PostE _ _ (parseSap (Info.blank name) m); rw [hx]
        intro e
        rcases (C08_loaded_sane name m i hx).1.type with h | h | h | h <;> rw [h.1] at e <;> cases e
      | .error e => show PostE _ _ (parseSap (Info.blank name) m); rw [hx]; trivial
    | cmc => exact cmc .cmc
    | cm3 => exact cmc .cm3
    | cmr => exact cmc .cmr
    | cms => exact cmc .cms
    | dmc => exact cmc .dmc
    | dlt =>
      match hx : parseDlt (Info.blank name) m with
      | .error e => show PostE _ _ (parseDlt (Info.blank name) m); rw [hx]; trivial
      | .ok i =>
        show PostE _ _ (parseDlt (Info.blank name) m)
        rw [hx]
        obtain ⟨_, _, _, _, _, _, hi⟩ := C11_songs name m hb i hx
        intro e
        rw [hi] at e
        cases e
    | mpt => exact no (Tracker.parseMpt_ends hb (Info.blank name) (.inl rfl) rfl rfl) fun _ h => acc h (by decide)
    | mpd => exact no (Tracker.parseMpt_ends hb { Info.blank name with fastplay := 156 } (.inr rfl) rfl rfl) fun _ h => acc h (by decide)
    | rmt => exact no (Tracker.parseRmt_accepted hb fuel (Info.blank name) rfl rfl) fun _ h => acc h (by decide)
    | tmc => exact tmc
    | tm8 => exact tmc
    | tm2 => exact no (Tracker.parseTm2_ends hb (Info.blank name) rfl) fun _ h => acc h (by decide)
    | fc =>
      match hx : parseFc (Info.blank name) m with
      | .error e => show PostE _ _ (parseFc (Info.blank name) m); rw [hx]; trivial
      | .ok i =>
        show PostE _ _ (parseFc (Info.blank name) m)
        rw [hx]
        obtain ⟨_, _, _, _, _, _, _, hi⟩ := C12_songs name m hb i hx
        intro e
        rw [hi] at e
        cases e
  have post : PostE (fun _ => True) (fun r => r.type = .tmc → 0 ≤ r.music ∧ 464 ≤ m.length) (infoLoad fuel filename m) := by
    unfold infoLoad
    refine PostE.bind (Tracker.always _) fun r _ => ?_
    obtain ⟨name, ext⟩ := r
    show PostE _ _ (match formatOf ext with | some f => parseAs fuel f name m | none => raise "Unknown filename extension")
    cases formatOf ext with
    | none => trivial
    | some f => exact key f name
  rw [h] at post
  exact post ht

theorem copyTo_bytes {buf : List Nat} {i addr n : Nat} {mem mem' : Int → Int} (hb : AllBytes buf) (hm : ∀ a, 0 ≤ mem a ∧ mem a < 256)
    (h : Loader.copyTo buf i mem addr n = .ok mem') : (∀ a, 0 ≤ mem' a ∧ mem' a < 256) ∧ addr + n ≤ 65536 := by
  unfold Loader.copyTo at h
  split at h
  · rename_i hc
    injection h with h
    refine ⟨fun a => ?_, hc.2⟩
    rw [← h]
    dsimp only
    split
    · have : buf.getD (i + (a.toNat - addr)) 0 < 256 := by
        rw [List.getD_eq_getElem?_getD]
        rcases hx : buf[i + (a.toNat - addr)]? with _ | x
        · decide
        · exact hb x (List.mem_of_getElem? hx)
      omega
    · exact hm a
  · cases h

theorem routine_bytes {info : Info} {r : List Nat} (h : playerRoutine info = some r) : AllBytes r := by
  have key : ∀ l : List Nat, l.all (fun b => decide (b < 256)) = true → AllBytes l := fun l hl b hb => of_decide_eq_true (List.all_eq_true.mp hl b hb)
  unfold playerRoutine at h
  split at h <;> cases h
  all_goals first
    | exact key _ (by decide +kernel)
    | (split <;> exact key _ (by decide +kernel))

/-- What `Load` changes in the player: the information and the memory.  The information is that of `ASAPInfo.Load`, except for the address of the player routine. -/
theorem load_only {fuel : Nat} {filename : Option (List Nat)} {m : List Nat} (hb : AllBytes m) {machine machine' : Machine}
    (hm : ∀ a, 0 ≤ machine.cpu.mem a ∧ machine.cpu.mem a < 256) (h : Loader.load fuel filename m machine = .ok machine') :
    ∃ i, infoLoad fuel filename m = .ok i ∧ machine'.info = { i with player := machine'.info.player } ∧
      machine' = { machine with info := machine'.info, cpu := { machine.cpu with mem := machine'.cpu.mem } } ∧
      (∀ a, 0 ≤ machine'.cpu.mem a ∧ machine'.cpu.mem a < 256) ∧
      (i.type = .tmc → i.music.toNat + (m.length - 6) ≤ 65536) := by
  unfold Loader.load at h
  rcases hi : infoLoad fuel filename m with e | i
  · rw [hi] at h; cases h
  rw [hi] at h
  replace h : Loader.loadMemory i m machine = .ok machine' := h
  refine ⟨i, rfl, ?_⟩
  unfold Loader.loadMemory at h
  rcases hr : playerRoutine i with _ | r
  · rw [hr] at h
    replace h : Loader.loadSapBlocks i m machine = .ok machine' := h
    unfold Loader.loadSapBlocks at h
    rcases hx : Loader.loadBlocks m m.length m.length (i.headerLen + 2).toNat (fun _ => 0) with e | mem
    · rw [hx] at h; cases h
    rw [hx] at h
    injection h with h
    subst h
    refine ⟨rfl, rfl, ?_, fun ht => ?_⟩
    · by_cases h0 : m.length = 0
      · have : Loader.loadBlocks m m.length m.length (i.headerLen + 2).toNat (fun _ => 0) = .error .fuel := by
          rw [h0]; rfl
        rw [this] at hx; cases hx
      · have := Loader.loadBlocks_post (Nat.le_refl _) hb m.length (i.headerLen + 2).toNat (fun _ => 0) (by omega) (by omega) fun _ => ⟨Int.le_refl 0, by decide⟩
        rw [hx] at this
        exact this
    · unfold playerRoutine at hr
      rw [ht] at hr
      cases hr
  · rw [hr] at h
    replace h : Loader.loadNative i r m machine = .ok machine' := h
    unfold Loader.loadNative at h
    rcases h1 : getWord r 2 with e | player
    · rw [h1] at h; cases h
    rcases h2 : getWord r 4 with e | last
    · rw [h1, h2] at h; cases h
    rw [h1, h2] at h
    replace h : (if i.music ≤ last then raise "Module address conflicts with the player routine" else _) = Except.ok machine' := h
    split at h
    · cases h
    rcases h3 : Loader.copyModule i m (fun a => if a = 0x4c00 then 0 else machine.cpu.mem a) with e | mem
    · rw [h3] at h; cases h
    rw [h3] at h
    rcases h4 : Loader.copyTo r 6 mem player (last + 1 - player) with e | mem'
    · rw [show ((Except.ok mem : M (Int → Int)) >>= fun mem => Loader.copyTo r 6 mem player (last + 1 - player) >>= _) = (Loader.copyTo r 6 mem player (last + 1 - player) >>= _) from rfl, h4] at h
      cases h
    · rw [show ((Except.ok mem : M (Int → Int)) >>= fun mem => Loader.copyTo r 6 mem player (last + 1 - player) >>= _) = (Loader.copyTo r 6 mem player (last + 1 - player) >>= _) from rfl, h4] at h
      injection h with h
      subst h
      have hm0 : ∀ a, 0 ≤ (if a = 0x4c00 then 0 else machine.cpu.mem a) ∧ (if a = 0x4c00 then 0 else machine.cpu.mem a) < 256 := by
        intro a
        have := hm a
        split <;> omega
      unfold Loader.copyModule at h3
      have hmem : (∀ a, 0 ≤ mem a ∧ mem a < 256) ∧ (i.type = .tmc → i.music.toNat + (m.length - 6) ≤ 65536) := by
        split at h3
        · rename_i hfc
          exact ⟨(copyTo_bytes hb hm0 h3).1, fun e => by rw [hfc] at e; cases e⟩
        · exact ⟨(copyTo_bytes hb hm0 h3).1, fun _ => (copyTo_bytes hb hm0 h3).2⟩
      exact ⟨rfl, rfl, (copyTo_bytes (routine_bytes hr) hmem.1 h4).1, hmem.2⟩

/-- C20, C22, C23.  Loading any file makes the player ready (the hypotheses of the theorems on histories of calls), whatever it did before. -/
theorem load_canPlay {fuel : Nat} {filename : Option (List Nat)} {m : List Nat} (hb : AllBytes m) {machine machine' : Machine}
    (hm : InRange machine.cpu) (hr : 100 ≤ machine.rate ∧ machine.rate ≤ 48000) (h : Loader.load fuel filename m machine = .ok machine') :
    CanPlay machine' := by
  obtain ⟨i, hi, e1, e2, hmem, htmc⟩ := load_only hb hm.mem h
  have hl := C47_loaded_sane fuel filename m hb i hi
  refine ⟨?_, by rw [e2]; exact hr, by rw [e1]; exact hl.songs, by rw [e1]; exact hl.channels, fun ht => ?_⟩
  · have : machine'.cpu = { machine.cpu with mem := machine'.cpu.mem } := by rw [e2]
    rw [this]
    exact ⟨hmem, hm.a, hm.x, hm.y, hm.s, hm.nz, hm.c, hm.vdi⟩
  · have ht' : i.type = .tmc := by rw [e1] at ht; exact ht
    have hmu : machine'.info.music = i.music := by rw [e1]
    have := infoLoad_tmc hb hi ht'
    have := htmc ht'
    omega

/-- C20, C22, C23.  For every file of every format, every state of the player before and every history of calls that begins with
`Load` and `PlaySong`: the calls return, with all registers and the memory in range, or throw, or end with one of the two known defects. -/
theorem C23_any_file (fuel : Nat) (filename : Option (List Nat)) (file : List Nat) (hb : AllBytes file) (m m' : Machine)
    (hm : InRange m.cpu) (hr : 100 ≤ m.rate ∧ m.rate ≤ 48000) (h : Loader.load fuel filename file m = .ok m')
    (song duration : Int) (cs : List Call) (hv : ∀ c ∈ cs, c.Valid) :
    SafeExcept (fun _ r => InRange r.cpu ∧ r.info = m'.info) (runCalls (.play song duration :: cs) m') :=
  C23_histories m' (load_canPlay hb hm hr h) song duration cs hv

end Asap.Props
