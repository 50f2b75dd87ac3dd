import Verif.Props.ConvertCases

/-! # C48: modules with one song that does not start at position 0 -/

namespace Asap.Props
open Asap Asap.Spec Asap.Spec.Convert Asap.Convert Asap.Loader Asap.Module Asap.Module.Tracker
open Asap.Spec.Relocate (byteAt)

/-- The same module with all songs at position 0. -/
def atZero (info : Info) : Info := { info with songPos := fun _ => 0 }

theorem writeTimes_zero (info : Info) (song n : Nat) : writeTimes (atZero info) song n = writeTimes info song n := by
  induction n generalizing song with
  | zero => rfl
  | succ n ih =>
    unfold writeTimes
    rw [ih]
    rfl

theorem writeSapHeader_zero (info : Info) (type : Nat) (init player : Int) : writeSapHeader (atZero info) type init player = writeSapHeader info type init player := by
  unfold writeSapHeader
  rw [writeTimes_zero]
  rfl

theorem writeExecutableHeader_zero (info : Info) (type : Nat) (init player : Int) :
    writeExecutableHeader false (atZero info) type init player = writeExecutableHeader false info type init player := by
  unfold writeExecutableHeader
  rw [writeSapHeader_zero]

theorem writeForSongPos_zero (info : Info) (player one many offset : Int) :
    writeExecutableHeaderForSongPos false (atZero info) player one many offset = writeExecutableHeaderForSongPos false info player one many offset := by
  unfold writeExecutableHeaderForSongPos
  rw [writeExecutableHeader_zero, writeExecutableHeader_zero]
  rfl

/-- The positions of songs are not written if there is one song. -/
theorem writeExecutable_zero {info : Info} (m : List Nat) (h : info.songs = 1) (ht : Positioned info.type) :
    writeExecutable false (atZero info) m = writeExecutable false info m := by
  have hs : ¬ (atZero info).songs ≠ 1 := fun e => e h
  have hs' : ¬ info.songs ≠ 1 := fun e => e h
  have hd : ∀ a b c, writeDltInit (atZero info) a b c = writeDltInit info a b c := by
    intro a b c
    unfold writeDltInit
    rw [if_neg hs, if_neg hs']
  have hmi : ∀ a b c, writeMptInit (atZero info) a b c = writeMptInit info a b c := by
    intro a b c
    unfold writeMptInit W.when
    rw [if_neg hs, if_neg hs', if_neg hs, if_neg hs']
    rfl
  have hr : writeRmtInit (atZero info) = writeRmtInit info := by
    unfold writeRmtInit
    rw [if_neg hs, if_neg hs']
    rfl
  have key : ∀ r player last, writeModule false (atZero info) m r player last = writeModule false info m r player last := by
    intro r player last
    have e : (atZero info).type = info.type := rfl
    unfold writeModule
    rw [e]
    rcases ht with ht | ht | ht <;> rw [ht] <;> dsimp only
    · unfold writeDlt
      rw [writeForSongPos_zero]
      simp only [hd]
    · unfold writeMpt
      rw [writeForSongPos_zero]
      simp only [hmi]
    · unfold writeRmt
      rw [writeExecutableHeader_zero, hr]
      rfl
  have e : playerRoutine (atZero info) = playerRoutine info := rfl
  unfold writeExecutable
  rw [e]
  rcases h : playerRoutine info with _ | r
  · unfold playerRoutine at h
    rcases ht with ht | ht | ht <;> rw [ht] at h <;> cases h
  · dsimp only
    simp only [key]
    rfl

theorem loadMemory_zero (info : Info) (m : List Nat) (a nat : Machine) (hn : (playerRoutine info).isSome) (h : loadMemory (atZero info) m a = .ok nat) :
    loadMemory info m a = .ok { nat with info := { nat.info with songPos := info.songPos } } := by
  have e : playerRoutine (atZero info) = playerRoutine info := rfl
  unfold loadMemory at h ⊢
  rw [e] at h
  rcases hp : playerRoutine info with _ | r
  · rw [hp] at hn; cases hn
  rw [hp] at h
  dsimp only at h ⊢
  unfold loadNative at h ⊢
  simp only [bind, Except.bind] at h ⊢
  have e1 : ∀ mem, copyModule (atZero info) m mem = copyModule info m mem := fun _ => rfl
  have e2 : (atZero info).music = info.music := rfl
  rw [e2] at h
  simp only [e1] at h
  generalize getWord r 2 = x1 at h ⊢
  rcases x1 with _ | player
  · cases h
  dsimp only at h ⊢
  generalize getWord r 4 = x2 at h ⊢
  rcases x2 with _ | last
  · cases h
  dsimp only at h ⊢
  by_cases hl : info.music ≤ last
  · rw [if_pos hl] at h; cases h
  rw [if_neg hl] at h ⊢
  generalize copyModule info m _ = x3 at h ⊢
  rcases x3 with _ | mem
  · cases h
  dsimp only at h ⊢
  generalize copyTo r 6 mem player (last + 1 - player) = x4 at h ⊢
  rcases x4 with _ | mem
  · cases h
  cases h
  rfl

/-- C48.  The SAP file for a DLT, MPT or RMT module with one song starts it at position 0, wherever the song is in the module. -/
theorem C48_first_position (target : List Nat) (ht : Named target (ascii "sap")) (filename name : List Nat) (hf : loadName filename = .ok (name, packExt (ascii "SAP")))
    (info : Info) (m : List Nat) (hm : IsModule info m) (h1 : Positioned info.type) (h2 : info.songs = 1) (hc : Convertible { info with songPos := fun _ => 0 } m)
    (fuel : Nat) (tag : Bool) (w w' : Writer) (n : Nat) (hw : w.Valid) (hx : write fuel target info m tag w = (.ok n, w')) (a b : Machine) :
    ∃ nat sap, loadMemory info m a = .ok nat ∧ loadSap filename (written w w') (written w w').length b = .ok sap ∧
      PlaysSame info m (fun song => starts info.type nat.info.player nat.info.music song 0) nat sap := by
  have hn : (playerRoutine info).isSome := by
    unfold playerRoutine
    rcases h1 with h | h | h <;> rw [h]
    · rfl
    · rfl
    · split <;> rfl
  have hm' : IsModule (atZero info) m := ⟨hm.bytes, fun _ => by show 0 < 256; decide, hm.start, hm.music, hm.length, hm.block, hm.rmtBlock, hm.fc, hm.rate, hm.player, hm.dlt⟩
  have hx' : write fuel target (atZero info) m tag w = (.ok n, w') := by
    rw [write_sap ht] at hx ⊢
    rw [writeExecutable_zero m h2 h1]
    exact hx
  have htmc : ¬ ((atZero info).type = .tmc ∧ (atZero info).songs = 1) := by
    rintro ⟨e, _⟩
    have e : info.type = .tmc := e
    rcases h1 with h | h | h <;> rw [h] at e <;> cases e
  obtain ⟨nat, sap, e1, e2, e3⟩ := C48_saved_partial target ht filename name hf (atZero info) m hn hm' hc htmc fuel tag w w' n hw hx' a b
  exact ⟨_, sap, loadMemory_zero info m a nat hn e1, e2, e3.memory, e3.texts, e3.songs, e3.hardware, e3.plays⟩

/-! ## An example -/

/-- Nothing is known of songs after the one that is being parsed. -/
def Tidier (i : Info) : Prop := ∀ k, i.songs < k → i.loops k = false

theorem setLoops_tidier {i : Info} (h : Tidier i) (loop : Bool) : Tidier (if loop then setLoops i true else i) := by
  cases loop
  · exact h
  · intro k hk
    have hk : i.songs < k := hk
    show upd i.loops i.songs true k = false
    unfold upd
    rw [if_neg (by omega)]
    exact h k hk

theorem parseMpt_tidier (m : List Nat) {i : Info} (h : ∀ k, i.loops k = false) : Gives Tidier (parseMpt i m) := by
  have song : ∀ len i seen pos, Tidier i → Gives (fun r => Tidier r.1) (parseMptSong m len i seen pos) := by
    intro len i seen pos h
    unfold parseMptSong
    refine PostE.bind (always _) fun _ _ => PostE.bind (always _) fun _ _ => PostE.bind (always _) fun v _ => ?_
    refine PostE.bind (P := Tidier) ?_ fun _ h => h
    have hl := setLoops_tidier h v.1.loop
    unfold addFound
    refine PostE.ite (fun _ => ?_) fun _ => hl
    unfold addSong
    refine PostE.ite (fun _ k hk => hl k ?_) fun _ => trivial
    have hk : (if v.1.loop then setLoops i true else i).songs + 1 < k := hk
    omega
  have each : ∀ len k pos i seen, Tidier i → Gives Tidier (eachSong (parseMptSong m len) k pos i seen) := by
    intro len k
    induction k with
    | zero => exact fun _ _ _ h => h
    | succ k ih =>
      intro pos i seen h
      unfold eachSong
      refine PostE.ite (fun _ => PostE.ite (fun _ => ih _ _ _ h) fun _ => ?_) fun _ => h
      exact PostE.bind (song len (setSongPos i pos) seen pos h) fun r hr => ih _ r.1 r.2 hr
  unfold parseMpt
  refine PostE.ite (fun _ => trivial) fun hlen => PostE.bind (always _) fun music hc => PostE.bind (always _) fun a _ => ?_
  refine PostE.bind (always _) fun t0 _ => PostE.ite (fun _ => trivial) fun _ => PostE.bind (always _) fun t1 _ => PostE.ite (fun _ => trivial) fun hs => ?_
  refine PostE.bind (each _ _ _ { i with type := .mpt, music := music, songs := 0 } _ fun k _ => h k) fun r hr => PostE.ite (fun _ => trivial) fun _ => hr

theorem load_mpt (m : List Nat) : infoLoad 0 (some (ascii "a.MPT")) m = parseMpt (Info.blank (ascii "a")) m := by
  unfold infoLoad
  show (do let (name, ext) ← loadName (ascii "a.MPT"); _ : M Info) = _
  rw [show loadName (ascii "a.MPT") = .ok (ascii "a", packExt (ascii "MPT")) by decide +kernel]
  show (match formatOf (packExt (ascii "MPT")) with
    | some f => parseAs 0 f (ascii "a") m
    | none => raise "Unknown filename extension") = _
  rw [show formatOf (packExt (ascii "MPT")) = some .mpt by decide +kernel]
  rfl

/-- An MPT module like `sampleMpt`, with a jump out of the song in the first line. -/
def jumpMpt : List Nat :=
  [0xff, 0xff, 0, 0x40, 0xdd, 0x41] ++ List.replicate 0x42 0 ++ [0xda, 0x41] ++ List.replicate 0x17c 0 ++
    [0xca, 0xce, 0xd2, 0xd6, 0x41, 0x41, 0x41, 0x41, 4, 6] ++ [0xff, 5, 1, 0] ++ List.replicate 12 0 ++ [0x81, 0xd2, 0x10, 0x10]

theorem mpt_case {m : List Nat} (hb : AllBytes m) {i : Info} (h : infoLoad 0 (some (ascii "a.MPT")) m = .ok i)
    (hi : i.type = .mpt ∧ i.songs = 1 ∧ i.songPos 0 = 1 ∧ i.music = 0x4000 ∧ i.durations 0 = 240 ∧ i.loops 1 = false ∧ i.title = [])
    (hw : Relocate.word m 4 = 0x41dd) (h0 : m.take 2 = [0xff, 0xff]) :
    IsModule i m ∧ Convertible { i with songPos := fun _ => 0 } m := by
  obtain ⟨h1, h2, h3, h5, h6, h7, h8⟩ := hi
  have hp : (playerRoutine i).isSome := by unfold playerRoutine; rw [h1]; rfl
  have hm := C48_loaded 0 _ m hb i h hp
  rw [load_mpt] at h
  have ha := parseMpt_ends hb (Info.blank (ascii "a")) (.inl rfl) rfl rfl
  have ht := parseMpt_tidier m (i := Info.blank (ascii "a")) fun _ => rfl
  rw [h] at ha ht
  have ha : Accepted .mpt (Info.blank (ascii "a")) i := ha
  have ht : Tidier i := ht
  have he := ha.rest
  have e1 : i.author = [] := by rw [he]; rfl
  have e2 : i.date = [] := by rw [he]; rfl
  have e3 : i.covoxAddr = -1 := by rw [he]; rfl
  have e4 : i.defaultSong = 0 := by rw [he]; rfl
  have hf := ha.fastplay
  have hend : moduleEnd { i with songPos := fun _ => 0 } m = 0x41dd := by
    unfold moduleEnd
    show (if i.type = .fc then _ else if i.type = .dlt then _ else ((Relocate.word m 4 : Nat) : Int)) = _
    rw [h1, hw]; rfl
  refine ⟨hm, ⟨⟨?_, ?_, ?_, ?_, ?_, ha.channels, ?_, by decide, by decide, .inl e3, .inl ⟨rfl, by decide, by decide⟩, ?_⟩, fun _ => h0, fun _ _ => rfl, ?_, ?_, ?_, ?_⟩⟩
  · show SapText i.author
    rw [e1]; exact ⟨fun c hc => (by cases hc), by decide⟩
  · show SapText i.title
    rw [h8]; exact ⟨fun c hc => (by cases hc), by decide⟩
  · show SapText i.date
    rw [e2]; exact ⟨fun c hc => (by cases hc), by decide⟩
  · show 1 ≤ i.songs ∧ i.songs ≤ 32
    omega
  · show i.defaultSong < i.songs
    omega
  · show 1 ≤ i.fastplay ∧ i.fastplay ≤ 32767
    simp only [List.mem_cons, List.not_mem_nil, or_false] at hf
    omega
  · refine ⟨1, by show 1 ≤ i.songs; omega, fun k hk => ?_, fun k hk => ⟨?_, ?_⟩⟩
    · have : k = 0 := by omega
      subst this
      show 0 ≤ i.durations 0 ∧ _
      rw [show i.durations 0 = 240 from h6]; decide
    · show i.durations k = -1
      rw [ha.beyond k (by omega)]; rfl
    · show i.loops k = false
      by_cases hk1 : k = 1
      · rw [hk1]; exact h7
      · exact ht k (by omega)
  · show (if i.type = .rmt then _ else if i.type = .tm2 then _ else (routineArea { i with songPos := fun _ => 0 }).2 + 1) ≤ i.music
    unfold routineArea
    dsimp only
    rw [h1, h5]
    show (0xdb3 : Int) ≤ 0x4000
    decide
  · show i.music ≤ _
    rw [hend, h5]; decide
  · rw [hend]; decide
  · exact fun e => by
      have e : i.type = .rmt := e
      rw [h1] at e; cases e

/-- C48.  There is such a module: `Load` reads it, its only song is at position 1, and the calls differ. -/
theorem C48_first_position_case : ∃ i, infoLoad 0 (some (ascii "a.MPT")) jumpMpt = .ok i ∧ Positioned i.type ∧ i.songs = 1 ∧ i.songPos 0 = 1 ∧
    IsModule i jumpMpt ∧ Convertible { i with songPos := fun _ => 0 } jumpMpt ∧ starts i.type 0x500 i.music 0 1 ≠ starts i.type 0x500 i.music 0 0 := by
  have aux : ∀ {p : Info → Bool} {x : M Info}, (match x with | .ok i => p i | .error _ => false) = true → ∃ i, x = .ok i ∧ p i = true := by
    intro p x h
    match x, h with
    | .ok i, h => exact ⟨i, rfl, h⟩
  obtain ⟨i, hx, hi⟩ := aux (p := fun i => decide (i.type = .mpt ∧ i.songs = 1 ∧ i.songPos 0 = 1 ∧ i.music = 0x4000 ∧ i.durations 0 = 240 ∧ i.loops 1 = false ∧ i.title = []))
    (x := infoLoad 0 (some (ascii "a.MPT")) jumpMpt) (by decide +kernel)
  have hi := of_decide_eq_true hi
  obtain ⟨c1, c2⟩ := mpt_case (by unfold AllBytes; decide +kernel) hx hi (by decide +kernel) (by decide +kernel)
  refine ⟨i, hx, .inr (.inl hi.1), hi.2.1, hi.2.2.1, c1, c2, ?_⟩
  rw [hi.1, hi.2.2.2.1]
  decide

end Asap.Props
