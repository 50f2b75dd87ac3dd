import Verif.Lemmas.Fc

/-!
# C12: Future Composer modules
-/

namespace Asap.Props
open Asap Asap.Module Asap.Spec.Fc

/-- C12.  For every file contents, loading an FC module ends, and reads only bytes of the module: it is accepted or rejected. -/
theorem C12_safe (name m : List Nat) (hb : AllBytes m) :
    (∃ i, parseFc (Info.blank name) m = .ok i) ∨ ∃ msg, parseFc (Info.blank name) m = .error (.thrown msg) := by
  have key := Fc.parseFc_post hb (Info.blank name)
  match hx : parseFc (Info.blank name) m with
  | .ok i => exact .inl ⟨i, rfl⟩
  | .error (.thrown msg) => exact .inr ⟨msg, rfl⟩
  | .error .ub => rw [hx] at key; exact absurd key id
  | .error .fuel => rw [hx] at key; exact absurd key id

/-- C12.  The songs of an accepted module are those of the specification, the first 32 of them: each has the duration of its calls of
the player, 312 scan lines each, in milliseconds rounded down, and is marked as looped if the specification says so. -/
theorem C12_songs (name m : List Nat) (hb : AllBytes m) (i : Info) (h : parseFc (Info.blank name) m = .ok i) :
    ∃ pat, (∀ p < 64, PatternAt m p (pat p)) ∧ ∃ songs : List (Nat × Bool), Songs m pat 32 0 songs ∧ i.songs = songs.length ∧
      (∀ k x, songs[k]? = some x → i.durations k = (x.1 : Int) * 312 * 38000 / 591149 ∧ i.loops k = x.2) ∧
      (∀ k, i.songs ≤ k → i.durations k = -1) ∧
      i = { Info.blank name with
        type := .fc, player := 0x400, music := 0xa00, headerLen := -1, songs := i.songs, songPos := i.songPos, loops := i.loops,
        durations := i.durations } := by
  have key := Fc.parseFc_post hb (Info.blank name)
  rw [h] at key
  obtain ⟨pat, h1, _, _, _, l, h2, h3, h4, h5, h6⟩ := key
  refine ⟨pat, h1, l, h2, h3, fun k x hx => ?_, h5, h6⟩
  have := h4 k x hx
  rwa [Nat.zero_add] at this

/-- A module of 6 calls per step whose first channel plays the given lines; the other channels loop at once.  There are two patterns:
two notes of 3 and 1 steps, and nothing. -/
def sampleFc (lines : List Nat) : List Nat :=
  [0x26, 0x23, 6] ++ lines ++ List.replicate (256 - lines.length) 0xff ++ List.replicate 512 0xff ++ List.replicate 128 0 ++
    [0x42, 5, 0x40, 6, 0xff] ++ List.replicate 95 0xff

/-- The hypotheses are met: a song of 8 steps that loops, 48 calls; the lines of LOOP commands after it make 31 empty songs. -/
theorem sampleFc_ok : AllBytes (sampleFc [0, 0]) ∧ ∃ i, parseFc (Info.blank []) (sampleFc [0, 0]) = .ok i ∧ i.songs = 32 ∧
    i.durations 0 = 48 * 312 * 38000 / 591149 ∧ i.loops 0 = true := by
  refine ⟨by unfold AllBytes; decide +kernel, ?_⟩
  have h : (match parseFc (Info.blank []) (sampleFc [0, 0]) with
    | .ok i => decide (i.songs = 32 ∧ i.durations 0 = 48 * 312 * 38000 / 591149 ∧ i.loops 0 = true)
    | .error _ => false) = true := by decide +kernel
  generalize parseFc (Info.blank []) (sampleFc [0, 0]) = x at h
  cases x with
  | error e => cases h
  | ok i => exact ⟨i, rfl, of_decide_eq_true h⟩

/-- C12.  A module can be accepted although it has no song: here the tracks hold patterns only, so that the only song runs into the
end of the track. -/
theorem C12_no_song : ∃ m, AllBytes m ∧ ∃ i, parseFc (Info.blank []) m = .ok i ∧ i.songs = 0 := by
  refine ⟨sampleFc (List.replicate 256 1), by unfold AllBytes; decide +kernel, ?_⟩
  have h : (match parseFc (Info.blank []) (sampleFc (List.replicate 256 1)) with
    | .ok i => decide (i.songs = 0)
    | .error _ => false) = true := by decide +kernel
  generalize parseFc (Info.blank []) (sampleFc (List.replicate 256 1)) = x at h
  cases x with
  | error e => cases h
  | ok i => exact ⟨i, rfl, of_decide_eq_true h⟩

end Asap.Props
