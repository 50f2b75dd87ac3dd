import Verif.Props.ConvertPlay

/-! # C48: cases -/

namespace Asap.Props
open Asap Asap.Spec Asap.Spec.Convert Asap.Convert Asap.Loader Asap.Module Asap.Module.Tracker
open Asap.Spec.Relocate (byteAt)

/-- Nothing is known of songs that do not exist. -/
def Tidy (i : Info) : Prop := ∀ k, i.songs ≤ k → i.loops k = false

theorem addSong_tidy {i j : Info} (hi : Tidy i) (hj : j = i ∨ j = setLoops i true) (calls : Int) : Gives Tidy (addSong j calls) := by
  unfold addSong
  refine PostE.ite (fun _ => ?_) fun _ => trivial
  intro k hk
  have hk : j.songs + 1 ≤ k := hk
  show j.loops k = false
  rcases hj with rfl | rfl
  · exact hi k (by omega)
  · have hk : i.songs + 1 ≤ k := hk
    show upd i.loops i.songs true k = false
    unfold upd
    rw [if_neg (by omega)]
    exact hi k (by omega)

theorem parseTmcSong_tidy (m : List Nat) {i : Info} (h : Tidy i) (pos : Nat) : Gives Tidy (parseTmcSong m i pos) := by
  unfold parseTmcSong
  refine PostE.bind (always _) fun _ _ => PostE.bind (always _) fun _ _ => PostE.bind (always _) fun v _ => PostE.bind (always _) fun x _ => ?_
  refine addSong_tidy h ?_ _
  split
  · exact .inr rfl
  · exact .inl rfl

theorem afterJumps_tidy {jump : Int → M Bool} {step : Nat} {song : Info → Nat → M Info} (hs : ∀ i pos, Tidy i → Gives Tidy (song i pos))
    (last : Int) (fuel pos : Nat) {i : Info} (h : Tidy i) : Gives Tidy (afterJumps jump step song last fuel pos i) := by
  induction fuel generalizing pos i with
  | zero => trivial
  | succ k ih =>
    unfold afterJumps
    refine PostE.ite (fun _ => PostE.bind (always _) fun j _ => PostE.ite (fun _ => ?_) fun _ => ih _ h) fun _ => h
    exact PostE.bind (hs i _ h) fun r hr => ih _ hr

theorem parseTmc_tidy (m : List Nat) {i : Info} (h : ∀ k, i.loops k = false) : Gives Tidy (parseTmc i m) := by
  unfold parseTmc
  refine PostE.ite (fun _ => trivial) fun hlen => PostE.bind (always _) fun music hc => PostE.bind (always _) fun a _ => ?_
  refine PostE.bind (always _) fun _ _ => PostE.bind (always _) fun _ _ => PostE.bind (always _) fun _ _ => PostE.ite (fun _ => trivial) fun _ => ?_
  refine PostE.bind (always _) fun last _ => PostE.bind (parseTmcSong_tidy m (i := { i with type := .tmc, music := music, channels := 2, songs := 0 }) (fun k _ => h k) 0) fun j hj => ?_
  refine PostE.bind (afterJumps_tidy (fun i pos h => parseTmcSong_tidy m h pos) _ _ _ hj) fun r hr => PostE.bind (always _) fun b hb' => PostE.ite (fun _ => trivial) fun hrate => ?_
  exact PostE.bind (always _) fun title _ => hr

theorem load_tmc (m : List Nat) : infoLoad 0 (some (ascii "a.TMC")) m = parseTmc (Info.blank (ascii "a")) m := by
  unfold infoLoad
  show (do let (name, ext) ← loadName (ascii "a.TMC"); _ : M Info) = _
  rw [show loadName (ascii "a.TMC") = .ok (ascii "a", packExt (ascii "TMC")) by decide +kernel]
  show (match formatOf (packExt (ascii "TMC")) with
    | some f => parseAs 0 f (ascii "a") m
    | none => raise "Unknown filename extension") = _
  rw [show formatOf (packExt (ascii "TMC")) = some .tmc by decide +kernel]
  rfl

theorem tmc_case {m : List Nat} (hb : AllBytes m) {i : Info} (h : infoLoad 0 (some (ascii "a.TMC")) m = .ok i)
    (hi : i.type = .tmc ∧ i.songs = 2 ∧ i.title = ascii "Hic" ∧ i.music = 0x4000 ∧ i.durations 0 = 100 ∧ i.durations 1 = 100)
    (hw : Relocate.word m 4 = 0x41f2) (h0 : m.take 2 = [0xff, 0xff]) :
    (playerRoutine i).isSome ∧ IsModule i m ∧ Convertible i m := by
  obtain ⟨h1, h2, h4, h5, h6, h7⟩ := hi
  have hp : (playerRoutine i).isSome := by unfold playerRoutine; rw [h1]; rfl
  have hm := C48_loaded 0 _ m hb i h hp
  rw [load_tmc] at h
  have ha := parseTmc_ends hb (Info.blank (ascii "a")) rfl
  have ht := parseTmc_tidy m (i := Info.blank (ascii "a")) fun _ => rfl
  rw [h] at ha ht
  have ha : Accepted .tmc (Info.blank (ascii "a")) i := ha
  have ht : Tidy i := ht
  have he := ha.rest
  have e1 : i.author = [] := by rw [he]; rfl
  have e2 : i.date = [] := by rw [he]; rfl
  have e3 : i.covoxAddr = -1 := by rw [he]; rfl
  have e4 : i.defaultSong = 0 := by rw [he]; rfl
  have hf := ha.fastplay
  refine ⟨hp, hm, ?_⟩
  have hend : moduleEnd i m = 0x41f2 := by
    unfold moduleEnd; rw [h1, hw]; rfl
  refine ⟨⟨?_, ?_, ?_, by omega, by omega, ha.channels, ?_, by decide, by decide, .inl e3, .inl ⟨rfl, by decide, by decide⟩, ?_⟩, fun _ => h0, ?_, ?_, ?_, ?_, ?_⟩
  · rw [e1]; exact ⟨fun c hc => (by cases hc), by decide⟩
  · rw [h4]; unfold SapText TextChar SapChar; decide +kernel
  · rw [e2]; exact ⟨fun c hc => (by cases hc), by decide⟩
  · simp only [List.mem_cons, List.not_mem_nil, or_false] at hf
    omega
  · refine ⟨2, by omega, fun k hk => ?_, fun k hk => ⟨?_, ht k (by omega)⟩⟩
    · have : k = 0 ∨ k = 1 := by omega
      rcases this with rfl | rfl
      · rw [h6]; decide
      · rw [h7]; decide
    · rw [ha.beyond k (by omega)]; rfl
  · rw [h1]; exact fun e => by rcases e with e | e | e <;> cases e
  · unfold lowest routineArea; rw [h1, h5]; show (0xf69 : Int) ≤ 0x4000; decide
  · rw [hend, h5]; decide
  · rw [hend]; decide
  · rw [h1]; exact fun e => by cases e

/-- C48.  A TMC module with two songs, as `Load` reads it, meets the conditions. -/
theorem C48_case : ∃ i, infoLoad 0 (some (ascii "a.TMC")) (sampleTmc 0x41f2 [0xff]) = .ok i ∧ i.type = .tmc ∧ i.songs = 2 ∧ (playerRoutine i).isSome ∧
    IsModule i (sampleTmc 0x41f2 [0xff]) ∧ Convertible i (sampleTmc 0x41f2 [0xff]) := by
  have aux : ∀ {p : Info → Bool} {x : M Info}, (match x with | .ok i => p i | .error _ => false) = true → ∃ i, x = .ok i ∧ p i = true := by
    intro p x h
    match x, h with
    | .ok i, h => exact ⟨i, rfl, h⟩
  obtain ⟨i, hx, hi⟩ := aux (p := fun i => decide (i.type = .tmc ∧ i.songs = 2 ∧ i.title = ascii "Hic" ∧ i.music = 0x4000 ∧ i.durations 0 = 100 ∧ i.durations 1 = 100))
    (x := infoLoad 0 (some (ascii "a.TMC")) (sampleTmc 0x41f2 [0xff])) (by decide +kernel)
  have hi := of_decide_eq_true hi
  obtain ⟨c1, c2, c3⟩ := tmc_case (by unfold AllBytes; decide +kernel) hx hi (by decide +kernel) (by decide +kernel)
  exact ⟨i, hx, hi.1, hi.2.1, c1, c2, c3⟩

end Asap.Props
