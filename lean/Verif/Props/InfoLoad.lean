import Verif.Lemmas.Sap
import Verif.Props.Cmc
import Verif.Props.Dlt
import Verif.Props.Fc
import Verif.Props.Sap
import Verif.Props.Tracker
import Verif.Spec.Loaded

/-! # C46, C47: loading any file -/

namespace Asap.Props
open Asap Asap.Spec Asap.Sap Asap.Module

theorem guessExt_post (m : List Nat) : Post (fun _ => True) (guessExt m) := by
  unfold guessExt
  refine Post.bind (P := fun _ => True) ?_ fun b _ => Post.ite (fun _ => trivial) fun _ => ?_
  · unfold Sap.validateSap
    refine Post.ite (fun h => ?_) fun _ => trivial
    exact (Sap.hasStringAt_post (by show 0 + 5 ≤ m.length; omega)).mono fun _ _ => trivial
  refine Post.bind (P := fun _ => True) ?_ fun b _ => Post.ite (fun _ => trivial) fun _ => ?_
  · unfold validateFc
    refine Post.ite (fun _ => trivial) fun h => ?_
    exact Post.bind (Post.rd (by omega)) fun _ _ => Post.ite (fun _ => trivial) fun _ => Post.bind (Post.rd (by omega)) fun _ _ => trivial
  refine Post.bind (P := fun _ => True) ?_ fun b _ => Post.ite (fun _ => trivial) fun _ => trivial
  unfold validateRmt
  refine Post.ite (fun _ => trivial) fun h => ?_
  exact Post.bind (Post.rd (by omega)) fun _ _ => Post.bind (Post.rd (by omega)) fun _ _ => Post.bind (Post.rd (by omega)) fun _ _ =>
    Post.bind (Post.rd (by omega)) fun _ _ => trivial

theorem loadExt_post (filename : Option (List Nat)) (m : List Nat) : Post (fun r => r.1.length ≤ 127) (loadExt filename m) := by
  unfold loadExt
  cases filename with
  | none => exact Post.bind (guessExt_post m) fun _ _ => Nat.zero_le _
  | some n =>
    show Post _ (loadName n)
    unfold loadName
    split
    · trivial
    · exact Nat.le_trans (List.length_take_le _ _) (Nat.min_le_right _ _)

theorem loaded_sap {i : Info} (h : Sane i) : Loaded i := by
  have hk : SapKind i.type := by
    rcases h.type with h | h | h | h
    · exact .inl h.1
    · exact .inr (.inl h.1)
    · exact .inr (.inr (.inl h.1))
    · exact .inr (.inr (.inr h.1))
  obtain ⟨n, hn, h1, h2⟩ := h.times
  refine ⟨h.songs.2, fun _ => h.defaultSong, fun e => ?_, h.channels, h.fastplay, fun k => ?_, fun k hk => (h2 k (by omega)).1, fun e => absurd hk e, h.music, h.init, ?_,
    fun e => absurd hk e⟩
  · rcases hk with h | h | h | h <;> rw [h] at e <;> cases e
  · by_cases hk : k < n
    · have := (h1 k hk).1; omega
    · rw [(h2 k (by omega)).1]; decide
  · intro c hc
    rcases hc with hc | hc | hc
    · exact h.author.1 c hc
    · exact h.title.1 c hc
    · exact h.date.1 c hc

theorem loaded_accepted {type : ModType} {i r : Info} (h : Tracker.Accepted type i r) (hfc : type ≠ .fc) (hd : i.defaultSong = 0) (hi : i.init = -1)
    (hdur : i.durations = fun _ => -1) (ha : i.author = []) (hda : i.date = []) (hn : i.ntsc = false) (hco : i.covoxAddr = -1) : Loaded r := by
  have e := h.rest
  have e1 : r.defaultSong = i.defaultSong := by rw [e]
  have e2 : r.init = i.init := by rw [e]
  have e3 : r.author = i.author := by rw [e]
  have e4 : r.date = i.date := by rw [e]
  have hs := h.songs_pos
  have hm := h.music
  refine ⟨h.songs_le, fun _ => by omega, fun _ => by omega, h.channels, ?_, fun k => ?_, fun k hk => ?_, fun _ => h.durations, by omega, by omega, ?_, fun _ => ⟨by rw [e3, ha], by rw [e4, hda], by rw [e]; exact hn, by rw [e]; exact hco, h.title_len⟩⟩
  · have := h.fastplay
    simp only [List.mem_cons, List.not_mem_nil, or_false] at this
    omega
  · by_cases hk : k < r.songs
    · have := h.durations k hk; omega
    · rw [h.beyond k (by omega), hdur]; exact Int.le_refl _
  · rw [h.beyond k (by have := h.songs_le; omega), hdur]
  · intro c hc
    rw [e3, e4, ha, hda] at hc
    rcases hc with hc | hc | hc
    · cases hc
    · have := h.title_valid c hc
      simp only [isValidChar, Bool.and_eq_true, decide_eq_true_eq] at this
      refine ⟨by omega, .inr ?_⟩
      unfold SapChar
      omega
    · cases hc

theorem fcSongs_length {m : List Nat} {pat : Nat → Nat} {limit line : Nat} {l : List (Nat × Bool)} (h : Spec.Fc.Songs m pat limit line l) : l.length ≤ limit := by
  induction h with
  | enough => exact Nat.le_refl _
  | done => exact Nat.zero_le _
  | last => exact Nat.zero_le _
  | more _ _ _ _ ih => exact Nat.succ_le_succ ih

/-- C47.  Every file that `Load` accepts, whatever its name, format and contents, yields sane information. -/
theorem C47_loaded_sane (fuel : Nat) (filename : Option (List Nat)) (m : List Nat) (hb : AllBytes m) (i : Info) (h : infoLoad fuel filename m = .ok i) :
    Loaded i := by
  have key : ∀ f name, PostE (fun _ => True) Loaded (parseAs fuel f name m) := by
    intro f name
    have cmc : ∀ kind : CmcKind, PostE (fun _ => True) Loaded (loadCmc fuel kind name m) := fun kind =>
      (Tracker.parseCmc_accepted hb fuel _ _ (by cases kind <;> simp) (by cases kind <;> simp) rfl).mono (fun _ h => h) fun _ h =>
        loaded_accepted h (by cases kind <;> decide) rfl rfl rfl rfl rfl rfl rfl
    have any : ∀ {P : Info → Prop} {x : M Info}, PostE Ends P x → PostE (fun _ => True) P x := fun h => h.mono (fun _ _ => trivial) fun _ h => h
    cases f with
    | sap =>
      match hx : parseSap (Info.blank name) m with
      | .ok i => show PostE _ _ (parseSap (Info.blank name) m); rw [hx]; exact loaded_sap (C08_loaded_sane name m i hx).1
      | .error e => show PostE _ _ (parseSap (Info.blank name) m); rw [hx]; trivial
    | cmc => exact cmc .cmc
    | cm3 => exact cmc .cm3
    | cmr => exact cmc .cmr
    | cms => exact cmc .cms
    | dmc => exact cmc .dmc
    | dlt =>
      match hx : parseDlt (Info.blank name) m with
      | .error e => show PostE _ _ (parseDlt (Info.blank name) m); rw [hx]; trivial
      | .ok i =>
        show PostE _ _ (parseDlt (Info.blank name) m)
        rw [hx]
        obtain ⟨songs, _, hs, hpos, hdur, hbey, hi⟩ := C11_songs name m hb i hx
        have hk : ∀ k < i.songs, 0 ≤ i.durations k := by
          intro k hk
          obtain ⟨x, hx⟩ : ∃ x, songs[k]? = some x := ⟨songs[k]'(by omega), List.getElem?_eq_getElem _⟩
          rw [(hdur k x hx (by omega)).2.2.1]
          have : 0 ≤ (x.calls : Int) := by omega
          generalize (x.calls : Int) = q at this
          omega
        have acc : Tracker.Accepted .dlt (Info.blank name) i :=
          ⟨by rw [hi], hpos, by omega, hk, hbey, by rw [hi]; exact Nat.zero_le _, by rw [hi]; exact (fun c hc => by cases hc), by rw [hi]; show (312 : Int) ∈ _; decide, by rw [hi]; exact .inl rfl, by rw [hi]; exact ⟨by show (0 : Int) ≤ 0x2000; decide, by show (0x2000 : Int) < 65536; decide⟩, hi ▸ rfl⟩
        exact loaded_accepted acc (by decide) rfl rfl rfl rfl rfl rfl rfl
    | mpt => exact (any (Tracker.parseMpt_ends hb (Info.blank name) (.inl rfl) rfl rfl)).mono (fun _ h => h) fun _ h => loaded_accepted h (by decide) rfl rfl rfl rfl rfl rfl rfl
    | mpd => exact (any (Tracker.parseMpt_ends hb { Info.blank name with fastplay := 156 } (.inr rfl) rfl rfl)).mono (fun _ h => h) fun _ h => loaded_accepted h (by decide) rfl rfl rfl rfl rfl rfl rfl
    | rmt => exact (Tracker.parseRmt_accepted hb fuel (Info.blank name) rfl rfl).mono (fun _ h => h) fun _ h => loaded_accepted h (by decide) rfl rfl rfl rfl rfl rfl rfl
    | tmc => exact (any (Tracker.parseTmc_ends hb (Info.blank name) rfl)).mono (fun _ h => h) fun _ h => loaded_accepted h (by decide) rfl rfl rfl rfl rfl rfl rfl
    | tm8 => exact (any (Tracker.parseTmc_ends hb (Info.blank name) rfl)).mono (fun _ h => h) fun _ h => loaded_accepted h (by decide) rfl rfl rfl rfl rfl rfl rfl
    | tm2 => exact (any (Tracker.parseTm2_ends hb (Info.blank name) rfl)).mono (fun _ h => h) fun _ h => loaded_accepted h (by decide) rfl rfl rfl rfl rfl rfl rfl
    | fc =>
      match hx : parseFc (Info.blank name) m with
      | .error e => show PostE _ _ (parseFc (Info.blank name) m); rw [hx]; trivial
      | .ok i =>
        show PostE _ _ (parseFc (Info.blank name) m)
        rw [hx]
        obtain ⟨pat, _, songs, hs, hn, hdur, hbey, hi⟩ := C12_songs name m hb i hx
        have hl := fcSongs_length hs
        have hk : ∀ k < i.songs, 0 ≤ i.durations k := by
          intro k hk
          obtain ⟨x, hx⟩ : ∃ x, songs[k]? = some x := ⟨songs[k]'(by omega), List.getElem?_eq_getElem _⟩
          rw [(hdur k x hx).1]
          have : 0 ≤ (x.1 : Int) := by omega
          generalize (x.1 : Int) = q at this
          omega
        refine ⟨by omega, fun h => absurd (by rw [hi]) h, fun _ => by rw [hi]; rfl, by rw [hi]; exact .inl rfl, by rw [hi]; show (1 : Int) ≤ 312 ∧ (312 : Int) ≤ 32767; decide, fun k => ?_, fun k hk => hbey k (by omega),
          fun _ => hk, by rw [hi]; show (-1 : Int) ≤ 0xa00 ∧ (0xa00 : Int) ≤ 0xffff; decide, by rw [hi]; show (-1 : Int) ≤ -1 ∧ (-1 : Int) ≤ 0xffff; decide, fun c hc => ?_, fun _ => ?_⟩
        · by_cases h : k < i.songs
          · have := hk k h; omega
          · rw [hbey k (by omega)]; decide
        · rw [hi] at hc
          rcases hc with hc | hc | hc <;> cases hc
        · rw [hi]; exact ⟨rfl, rfl, rfl, rfl, Nat.zero_le _⟩
  unfold infoLoad at h
  have post : PostE (fun _ => True) Loaded (infoLoad fuel filename m) := by
    unfold infoLoad
    refine PostE.bind (Tracker.always _) fun r _ => ?_
    obtain ⟨name, ext⟩ := r
    show PostE _ _ (match formatOf ext with | some f => parseAs fuel f name m | none => raise "Unknown filename extension")
    cases formatOf ext with
    | none => trivial
    | some f => exact key f name
  rw [show infoLoad fuel filename m = .ok i from h] at post
  exact post

/-- The formats that only follow positions in the song, but not the notes of patterns. -/
def Bounded : Format → Prop
  | .mpt | .mpd | .rmt | .tmc | .tm8 | .tm2 => False
  | _ => True

/-- C46.  Loading a file reads only bytes of the file and stays within the tables of the program, for the formats SAP, CMC, CM3, CMR, DMC, DLT and FC,
for CMS modules that are not shorter than 1028 bytes, and for files of unknown formats, whatever the name, also if none is given.  Missing: false for
short CMS modules (`C10_short_stereo`) and for the other formats (`C46_out_of_bounds`). -/
theorem C46_in_bounds_partial (fuel : Nat) (filename : Option (List Nat)) (m : List Nat) (hb : AllBytes m)
    (hf : ∀ name ext f, loadExt filename m = .ok (name, ext) → formatOf ext = some f → Bounded f ∧ (f = .cms → 0x306 ≤ m.length → 0x404 ≤ m.length)) :
    infoLoad fuel filename m ≠ .error .ub := by
  have two : ∀ {x : M Info}, ((∃ i, x = .ok i) ∨ ∃ msg, x = .error (.thrown msg)) → x ≠ .error .ub := by
    intro x h e
    rcases h with ⟨i, h⟩ | ⟨s, h⟩ <;> rw [h] at e <;> cases e
  have hx := loadExt_post filename m
  unfold infoLoad
  match he : loadExt filename m with
  | .error e =>
    rw [he] at hx
    intro h
    cases h
    exact hx
  | .ok (name, ext) =>
    show (match formatOf ext with | some f => parseAs fuel f name m | none => raise "Unknown filename extension") ≠ _
    match hfmt : formatOf ext with
    | none => exact fun h => by cases h
    | some f =>
      obtain ⟨h1, h2⟩ := hf name ext f he hfmt
      cases f with
      | sap => exact two (C07_load_safe_total name m)
      | cmc => exact C10_in_bounds fuel .cmc name m hb (fun h => by cases h)
      | cm3 => exact C10_in_bounds fuel .cm3 name m hb (fun h => by cases h)
      | cmr => exact C10_in_bounds fuel .cmr name m hb (fun h => by cases h)
      | cms => exact C10_in_bounds fuel .cms name m hb (fun _ => h2 rfl)
      | dmc => exact C10_in_bounds fuel .dmc name m hb (fun h => by cases h)
      | dlt => exact two (C11_safe name m hb)
      | fc => exact two (C12_safe name m hb)
      | _ => exact absurd h1 id

/-- C47: names and contents that meet the hypotheses, of four formats; the third file has no name and is recognised by its contents. -/
theorem C47_cases : (∃ i, infoLoad 100 (some (ascii "x/y.sap")) sampleSap = .ok i ∧ i.songs = 2 ∧ i.filename = ascii "y") ∧
    (∃ i, infoLoad 100 (some (ascii "a.MPT")) (sampleMpt 0x41da [0x81, 0xd2, 0x10, 0x10]) = .ok i ∧ i.songs = 1) ∧
    (∃ i, infoLoad 100 none (loopingRmt) = .ok i ∧ i.type = .rmt) ∧
    infoLoad 100 (some (ascii "a.txt")) sampleSap = .error (.thrown "Unknown filename extension") := by
  have aux : ∀ {p : Info → Bool} {x : M Info}, (match x with | .ok i => p i | .error _ => false) = true → ∃ i, x = .ok i ∧ p i = true := by
    intro p x h
    cases x with
    | error e => cases h
    | ok i => exact ⟨i, rfl, h⟩
  refine ⟨?_, ?_, ?_, ?_⟩
  · obtain ⟨i, h, h'⟩ := aux (p := fun i => decide (i.songs = 2 ∧ i.filename = ascii "y")) (x := infoLoad 100 (some (ascii "x/y.sap")) sampleSap) (by decide +kernel)
    exact ⟨i, h, of_decide_eq_true h'⟩
  · obtain ⟨i, h, h'⟩ := aux (p := fun i => decide (i.songs = 1)) (x := infoLoad 100 (some (ascii "a.MPT")) (sampleMpt 0x41da [0x81, 0xd2, 0x10, 0x10])) (by decide +kernel)
    exact ⟨i, h, of_decide_eq_true h'⟩
  · obtain ⟨i, h, h'⟩ := aux (p := fun i => decide (i.type = .rmt)) (x := infoLoad 100 none (loopingRmt)) (by decide +kernel)
    exact ⟨i, h, of_decide_eq_true h'⟩
  · have h : (match infoLoad 100 (some (ascii "a.txt")) sampleSap with | .error (.thrown s) => decide (s = "Unknown filename extension") | _ => false) = true := by decide +kernel
    generalize infoLoad 100 (some (ascii "a.txt")) sampleSap = x at h
    match x, h with
    | .error (.thrown s), h => rw [of_decide_eq_true h]

end Asap.Props
