import Verif.Props.ConvertCases

/-! # C48: modules that begin with `00 00` -/

namespace Asap.Sap
open Asap.Spec

theorem parseLines_skip (p : List Nat) (ls : List Line) (q : List Nat) (fuel : Nat) (s s1 : St)
    (h : Runs ls s s1) (hq : 7 ≤ q.length) :
    parseLines (p ++ (ls.flatMap lineBytes ++ q)) (ls.length + fuel) s p.length =
      parseLines (p ++ (ls.flatMap lineBytes ++ q)) fuel s1 (p.length + (ls.flatMap lineBytes).length) := by
  induction h generalizing p fuel with
  | nil => simp
  | @cons l ls s s1 s2 hl hh hr ih =>
    simp only [List.flatMap_cons, List.append_assoc]
    rw [show (l :: ls).length + fuel = (ls.length + fuel) + 1 by simp; omega]
    rw [parseLines_cons p l _ _ s s1 hl hh (by simp; omega)]
    have := ih (p ++ lineBytes l) fuel
    simp only [List.append_assoc, List.length_append] at this
    rw [this]
    simp [Nat.add_assoc]

/-- A byte above 7C before the end of the line. -/
theorem scanArg_invalid (p l q : List Nat) (c fuel : Nat) (a e : Option Nat) (hl : 10 ∉ l) (hc : 124 < c) (hf : l.length < fuel) :
    scanArg (p ++ (l ++ c :: q)) fuel p.length a e = raise "Invalid character" := by
  induction l generalizing p fuel a e with
  | nil =>
    obtain ⟨k, rfl⟩ : ∃ k, fuel = k + 1 := ⟨fuel - 1, by simp at hf; omega⟩
    rw [List.nil_append, scanArg, rd_mid, ok_bind, if_pos (by omega), if_pos (by unfold isValidChar; simp; omega)]
  | cons x l ih =>
    obtain ⟨k, rfl⟩ : ∃ k, fuel = k + 1 := ⟨fuel - 1, by simp at hf; omega⟩
    have e1 : p ++ (x :: l ++ c :: q) = p ++ [x] ++ (l ++ c :: q) := by simp
    have key : ∀ a e, scanArg (p ++ (x :: l ++ c :: q)) k (p.length + 1) a e = raise "Invalid character" := by
      intro a e
      have := ih (p ++ [x]) k a e (fun h => hl (List.mem_cons_of_mem _ h)) (by simp at hf; omega)
      rw [← e1] at this
      simpa using this
    have hx : x ≠ 10 := fun h => hl (by rw [h]; exact List.mem_cons_self)
    rw [scanArg]
    rw [show rd (p ++ (x :: l ++ c :: q)) p.length = .ok x from rd_mid _ _ _, ok_bind, key]
    have hlen : ¬ p.length + 1 ≥ (p ++ (x :: l ++ c :: q)).length := by simp
    rw [if_neg hlen]
    split
    · split <;> rfl
    · first
      | exact key _ _
      | (dsimp only; rw [if_neg hx, if_neg hlen, key])

/-- The header, and no FF after it. -/
theorem parseSap_unmarked {i : Info} {letter : Nat} {init player : Int} (h : Expressible i letter init player)
    (name l rest : List Nat) (c : Nat) (hl : 10 ∉ l) (hc : 124 < c) (hr : 7 ≤ l.length + rest.length) :
    parseSap (Info.blank name) (headerBytes i letter init player ++ 0 :: (l ++ c :: rest)) = raise "Invalid character" := by
  obtain ⟨s, hruns, hty, hin⟩ := runs_header h name
  unfold parseSap
  have hv : validateSap (headerBytes i letter init player ++ 0 :: (l ++ c :: rest)) = .ok true := by
    unfold validateSap
    rw [if_pos (by have := headerBytes_length i letter init player; simp; omega)]
    have := hasStringAt_self [] (ascii "SAP\r\n") ((headerLines i letter init player).flatMap lineBytes ++ 0 :: (l ++ c :: rest))
    simpa [headerBytes] using this
  rw [hv, ok_bind, if_neg (by decide)]
  have hn := length_le_flatMap (headerLines i letter init player)
  have e : ascii "SAP\r\n" ++ ((headerLines i letter init player).flatMap lineBytes ++ 0 :: (l ++ c :: rest)) =
      headerBytes i letter init player ++ 0 :: (l ++ c :: rest) := by simp [headerBytes]
  have e5 : (ascii "SAP\r\n").length = 5 := by decide
  have e6 : 5 + ((headerLines i letter init player).flatMap lineBytes).length = (headerBytes i letter init player).length := by
    unfold headerBytes; rw [List.length_append, e5]
  obtain ⟨k, hk⟩ : ∃ k, (headerBytes i letter init player ++ 0 :: (l ++ c :: rest)).length = (headerLines i letter init player).length + (k + 1) :=
    ⟨(headerBytes i letter init player ++ 0 :: (l ++ c :: rest)).length - (headerLines i letter init player).length - 1, by
      rw [List.length_append, ← e6]; simp only [List.length_cons]; omega⟩
  have hp := parseLines_skip (ascii "SAP\r\n") (headerLines i letter init player) (0 :: (l ++ c :: rest)) (k + 1) _ s hruns (by simp; omega)
  rw [e, e5, e6, ← hk] at hp
  rw [hp]
  generalize headerBytes i letter init player = b at *
  have hrd : rd (b ++ 0 :: (l ++ c :: rest)) b.length = .ok 0 := rd_mid _ _ _
  have hl0 : (10 : Nat) ∉ 0 :: l := fun h => by
    rcases List.mem_cons.mp h with h | h
    · cases h
    · exact hl h
  rw [parseLines, hrd, ok_bind, if_neg (by decide)]
  have ht : scanTag (b ++ 0 :: (l ++ c :: rest)) (b ++ 0 :: (l ++ c :: rest)).length b.length = .ok b.length := by
    rw [show (b ++ 0 :: (l ++ c :: rest)).length = (b ++ (l ++ c :: rest)).length + 1 by simp; omega, scanTag, hrd, ok_bind, if_neg (by decide)]
  have ha := scanArg_invalid b (0 :: l) rest c (b ++ 0 :: (l ++ c :: rest)).length none none hl0 hc (by simp; omega)
  rw [ht, ok_bind]
  rw [show b ++ (0 :: l ++ c :: rest) = b ++ 0 :: (l ++ c :: rest) from rfl] at ha
  rw [ha]
  rfl

end Asap.Sap

namespace Asap.Props
open Asap Asap.Spec Asap.Spec.Convert Asap.Convert Asap.Loader Asap.Module Asap.Module.Tracker
open Asap.Spec.Relocate (byteAt)

/-- The SAP file for a TMC module, whatever the module begins with. -/
theorem sends_tmc {info : Info} {m r : List Nat} (hm : IsModule info m) (hd : Expressible info 66 0 0) (hlow : (0xf68 : Int) < info.music)
    (ht : info.type = .tmc) (hr : playerRoutine info = some r) (h : Routine r 0x500 0xf68) :
    ∃ init player bs, Expressible info 66 init player ∧ Sends (writeExecutable false info m) (init, player) (Sap.headerBytes info 66 init player ++ (m ++ bs)) ∧ 6 ≤ bs.length := by
  have hfc : info.type ≠ .fc := by rw [ht]; decide
  have hs := hd.songs
  have hmus := hm.music hfc
  have hlen := hm.length hfc
  have hblk := hm.block hfc (by rw [ht]; decide)
  have hrate := hm.rate ht
  have hrd : rd m 0x25 = .ok (byteAt m 0x25) := by
    unfold rd
    rw [List.getElem?_eq_getElem (by omega), byteAt_get (by omega)]
  have h16 : Relocate.word m 2 < 65536 := by
    have b : ∀ i, byteAt m i < 256 := fun i => by
      unfold byteAt
      rcases hi : m[i]? with _ | x
      · decide
      · exact hm.bytes x (List.mem_of_getElem? hi)
    have := b 2
    have := b (2 + 1)
    unfold Relocate.word
    omega
  generalize byteAt m 0x25 = rate at *
  have h2 : 0x4f0 ≤ tmcRate rate ∧ tmcRate rate ≤ 0x500 := by unfold tmcRate; split_ifs <;> omega
  have h3 : tmcFrame rate ≤ 0x503 := by unfold tmcFrame; split_ifs <;> omega
  have hst : tmcStart info rate < 0x500 := by unfold tmcStart; split <;> omega
  refine ⟨tmcStart info rate, tmcFrame rate, word (tmcStart info rate) ++ (word 0xf68 ++ tmcCode info (Relocate.word m 2) rate) ++ r.drop 6,
    described_b hd (by omega) (by omega), ?_, ?_⟩
  · refine sends_executable hr h (by decide) (by decide) (by omega) ?_
    unfold writeModule
    rw [ht]
    unfold writeTmc
    obtain ⟨a, b, ho, e1, e2⟩ := tmc_offsets hrate
    have e3 : ((0x500 : Nat) : Int) + a + b - (if info.songs ≠ 1 then 3 else 0) = tmcStart info rate := by
      unfold tmcStart
      split_ifs <;> omega
    refine Sends.lift_bind hrd (Sends.lift_bind ho ?_)
    show Sends (do
      let ip ← writeExecutableHeader false info 66 (((0x500 : Nat) : Int) + a + b - (if info.songs ≠ 1 then 3 else 0)) (((0x500 : Nat) : Int) + a)
      writeBytes m 0 m.length
      writeTmcInit info rate (((0x500 : Nat) : Int) + a + b - (if info.songs ≠ 1 then 3 else 0)) (0x500 : Nat) (0xf68 : Nat)
      writeBytes r 6 (((0xf68 : Nat) : Int) - (0x500 : Nat) + 7)
      pure ip) _ _
    rw [e3, show ((0x500 : Nat) : Int) + a = tmcFrame rate from e1]
    refine (sends_header (described_b hd (by omega) (by omega))).bind ((Sends.of (emits_rest (a := m) (i := 0) (i' := 0) rfl rfl (by omega))).bind
      ((Sends.of (emits_tmcInit (info := info) hrate (start := tmcStart info rate) (by omega) hmus (by omega))).bind
      ((Sends.of (emits_rest (a := r) (i := 6) (i' := 6) rfl (by rw [h.length]; omega) (by rw [h.length]; omega))).bind (Sends.pure _) rfl) rfl) rfl) ?_
    simp only [List.append_assoc, List.append_nil, List.drop_zero]
  · have : (r.drop 6).length = 0xf68 - 0x500 + 1 := by rw [List.length_drop, h.length]
    rw [List.length_append, this]
    omega

/-- C48.  A TMC module may begin with `00 00` instead of `FF FF`.  This goes to the SAP file, which cannot be loaded: the header does not end
there, and a byte above 7C before the next line feed is an invalid character. -/
theorem C48_unmarked (target : List Nat) (ht : Named target (ascii "sap")) (filename name : List Nat) (hf : loadName filename = .ok (name, packExt (ascii "SAP")))
    (info : Info) (m : List Nat) (hm : IsModule info m) (h1 : info.type = .tmc) (hd : Expressible info 66 0 0) (hlow : (0xf68 : Int) < info.music)
    (k : Nat) (hk : k < m.length) (h0 : m.take 2 = [0, 0]) (hl : 10 ∉ m.take k) (hc : 124 < byteAt m k)
    (fuel : Nat) (tag : Bool) (w w' : Writer) (n : Nat) (hw : w.Valid) (hx : write fuel target info m tag w = (.ok n, w')) (b : Machine) :
    loadSap filename (written w w') (written w w').length b = raise "Invalid character" := by
  have hn : playerRoutine info = some Obx.tmc := by unfold playerRoutine; rw [h1]
  obtain ⟨init, player, bs, hd', hs, hbs⟩ := sends_tmc hm hd hlow h1 hn routine_tmc
  have hw' := (saved_file ht hs fuel tag w hw).2 n w' hx
  subst hw'
  rw [written_put hw]
  obtain ⟨j, rfl⟩ : ∃ j, k = j + 1 := by
    rcases k with _ | k
    · rcases m with _ | ⟨x, m⟩
      · cases h0
      · have : x = 0 := by simp at h0; exact h0.1
        subst this
        exact absurd hc (by show ¬ 124 < 0; decide)
    · exact ⟨k, rfl⟩
  obtain ⟨t, rfl⟩ : ∃ t, m = 0 :: t := by
    rcases m with _ | ⟨x, m⟩
    · cases h0
    · exact ⟨m, by simp at h0; rw [h0.1]⟩
  have hj : j < t.length := by simp at hk; exact hk
  have hb : byteAt (0 :: t) (j + 1) = t[j] := by
    unfold byteAt
    rw [List.getElem?_cons_succ, List.getElem?_eq_getElem hj]
    rfl
  rw [hb] at hc
  have e : t = t.take j ++ t[j] :: t.drop (j + 1) := by
    rw [← List.drop_eq_getElem_cons hj, List.take_append_drop]
  have key := Sap.parseSap_unmarked hd' name (t.take j) (t.drop (j + 1) ++ bs) t[j] (fun h => hl (List.mem_cons_of_mem _ h)) hc (by
    have := hm.length (by rw [h1]; decide)
    simp only [List.length_cons] at this
    rw [List.length_append, List.length_take, List.length_drop]; omega)
  unfold loadSap
  rw [hf]
  simp only [bind, Except.bind]
  rw [if_pos trivial, List.take_length]
  have e3 : t.take j ++ t[j] :: (t.drop (j + 1) ++ bs) = t ++ bs := by
    rw [← List.cons_append, ← List.append_assoc, ← e]
  rw [e3] at key
  rw [show 0 :: t ++ bs = 0 :: (t ++ bs) from rfl, key]
  rfl

/-- `sampleTmc` with other bytes at the beginning. -/
def unmarkedTmc : List Nat := 0 :: 0 :: (sampleTmc 0x41f2 [0xff]).drop 2

theorem tmc_described {m : List Nat} (hb : AllBytes m) {i : Info} (h : infoLoad 0 (some (ascii "a.TMC")) m = .ok i)
    (hi : i.type = .tmc ∧ i.songs = 2 ∧ i.title = ascii "Hic" ∧ i.music = 0x4000 ∧ i.durations 0 = 100 ∧ i.durations 1 = 100) :
    Expressible i 66 0 0 := by
  obtain ⟨h1, h2, h4, h5, h6, h7⟩ := hi
  rw [load_tmc] at h
  have ha := parseTmc_ends hb (Info.blank (ascii "a")) rfl
  have ht := parseTmc_tidy m (i := Info.blank (ascii "a")) fun _ => rfl
  rw [h] at ha ht
  have ha : Accepted .tmc (Info.blank (ascii "a")) i := ha
  have ht : Tidy i := ht
  have he := ha.rest
  have e1 : i.author = [] := by rw [he]; rfl
  have e2 : i.date = [] := by rw [he]; rfl
  have e3 : i.covoxAddr = -1 := by rw [he]; rfl
  have e4 : i.defaultSong = 0 := by rw [he]; rfl
  have hf := ha.fastplay
  refine ⟨?_, ?_, ?_, by omega, by omega, ha.channels, ?_, by decide, by decide, .inl e3, .inl ⟨rfl, by decide, by decide⟩, ?_⟩
  · rw [e1]; exact ⟨fun c hc => (by cases hc), by decide⟩
  · rw [h4]; unfold SapText TextChar SapChar; decide +kernel
  · rw [e2]; exact ⟨fun c hc => (by cases hc), by decide⟩
  · simp only [List.mem_cons, List.not_mem_nil, or_false] at hf
    omega
  · refine ⟨2, by omega, fun k hk => ?_, fun k hk => ⟨?_, ht k (by omega)⟩⟩
    · have : k = 0 ∨ k = 1 := by omega
      rcases this with rfl | rfl
      · rw [h6]; decide
      · rw [h7]; decide
    · rw [ha.beyond k (by omega)]; rfl

/-- C48.  `Load` reads such a module. -/
theorem C48_unmarked_case : ∃ i, infoLoad 0 (some (ascii "a.TMC")) unmarkedTmc = .ok i ∧ IsModule i unmarkedTmc ∧ i.type = .tmc ∧ Expressible i 66 0 0 ∧
    (0xf68 : Int) < i.music ∧ 4 < unmarkedTmc.length ∧ unmarkedTmc.take 2 = [0, 0] ∧ 10 ∉ unmarkedTmc.take 4 ∧ 124 < byteAt unmarkedTmc 4 := by
  have aux : ∀ {p : Info → Bool} {x : M Info}, (match x with | .ok i => p i | .error _ => false) = true → ∃ i, x = .ok i ∧ p i = true := by
    intro p x h
    match x, h with
    | .ok i, h => exact ⟨i, rfl, h⟩
  obtain ⟨i, hx, hi⟩ := aux (p := fun i => decide (i.type = .tmc ∧ i.songs = 2 ∧ i.title = ascii "Hic" ∧ i.music = 0x4000 ∧ i.durations 0 = 100 ∧ i.durations 1 = 100))
    (x := infoLoad 0 (some (ascii "a.TMC")) unmarkedTmc) (by decide +kernel)
  have hi := of_decide_eq_true hi
  have hb : AllBytes unmarkedTmc := by unfold AllBytes; decide +kernel
  have hp : (playerRoutine i).isSome := by unfold playerRoutine; rw [hi.1]; rfl
  exact ⟨i, hx, C48_loaded 0 _ _ hb i hx hp, hi.1, tmc_described hb hx hi, by rw [hi.2.2.2.1]; decide, by decide +kernel, by decide +kernel, by decide +kernel, by decide +kernel⟩

end Asap.Props
