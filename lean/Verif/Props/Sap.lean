import Verif.Lemmas.Sap

/-! # C07 (loading a SAP header is memory-safe and total), C08 (loaded information is sane) -/

namespace Asap.Props
open Asap Asap.Sap Asap.Spec

theorem blank_fresh (name : List Nat) : Fresh (Info.blank name) :=
  ⟨rfl, rfl, rfl, by simp [Info.blank], by simp [Info.blank], by simp [Info.blank], by simp [Info.blank], by simp [Info.blank],
    by simp [Info.blank], rfl, fun _ => rfl, fun _ => rfl⟩

/-- C07.  For every byte string (indeed every list of numbers) and whatever the object contained
before `Load` blanked it, reading the SAP header returns or throws: it never accesses a byte at or
beyond `moduleLen` and the line loop never needs more than `moduleLen` iterations. -/
theorem C07_load_safe_total (name m : List Nat) :
    (∃ i, parseSap (Info.blank name) m = .ok i) ∨
      ∃ msg, parseSap (Info.blank name) m = .error (.thrown msg) := by
  have h := parseSap_post (m := m) (blank_fresh name)
  match hp : parseSap (Info.blank name) m with
  | .ok i => exact .inl ⟨i, rfl⟩
  | .error (.thrown msg) => exact .inr ⟨msg, rfl⟩
  | .error .ub => rw [hp] at h; exact absurd h id
  | .error .fuel => rw [hp] at h; exact absurd h id

/-- C08.  Everything loaded from a SAP file is in its documented range; the binary part starts
inside the file with room for a block header. -/
theorem C08_loaded_sane (name m : List Nat) (i : Info) (h : parseSap (Info.blank name) m = .ok i) :
    Sane i ∧ 0 ≤ i.headerLen ∧ i.headerLen + 6 < m.length :=
  Post.of_eq (P := fun r => Sane r ∧ 0 ≤ r.headerLen ∧ r.headerLen + 6 < m.length) (parseSap_post (blank_fresh name)) h

/-- A small SAP file with two songs, as a concrete case. -/
def sampleSap : List Nat :=
  ascii "SAP\r\nAUTHOR \"X Y\"\r\nSONGS 2\r\nDEFSONG 1\r\nTYPE B\r\nINIT 1000\r\nPLAYER 1003\r\nTIME 1:02.5 LOOP\r\n" ++
    [255, 255, 0, 16, 1, 16, 96, 96, 96]

/-- What a file says, as far as it can be compared. -/
def summary (r : M Info) : Option (List Nat × List Int × Bool) :=
  match r with
  | .ok i => some (i.author, [i.songs, i.defaultSong, i.durations 0, i.durations 1, i.init, i.player, i.fastplay, i.headerLen], i.loops 0)
  | .error _ => none

example : summary (parseSap (Info.blank []) sampleSap) =
    some (ascii "X Y", [2, 1, 62500, -1, 0x1000, 0x1003, 312, 89], true) := by decide +kernel

end Asap.Props
