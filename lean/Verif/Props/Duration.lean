import Verif.Lemmas.Duration

/-! # C01, C02: durations -/

namespace Asap.Props
open Asap Asap.Duration Asap.Spec

/-- C01.  Every duration of 0 .. 99:59.999 survives formatting and parsing. -/
theorem C01_duration_roundtrip (v : Nat) (h : v < 6000000) :
    parseDuration (durationToString v) = .ok v := by
  obtain ⟨w, sec, f, frac, e, hw, hf, hv⟩ := durationToString_text v h
  rw [parseDuration_eq, e, whole_tail_ok hw (.inl hf), hv]

example : durationToString (125050 : Nat) = ascii "02:05.05" := by decide
example : parseDuration (ascii "02:05.05") = .ok 125050 := by rfl

/-- C01.  The text is a `mm:ss[.ff[f]]` text denoting the value, of at most 9 characters
(`MaxDurationLength`), and not empty. -/
theorem C01_duration_text (v : Nat) (h : v < 6000000) :
    DurationText (durationToString v) v ∧ 5 ≤ (durationToString v).length ∧
    (durationToString v).length ≤ 9 ∧ ∀ c ∈ durationToString v, 32 < c ∧ c < 127 := by
  refine ⟨durationToString_text v h, ?_⟩
  unfold durationToString secondsToString twoDigits
  rw [if_neg (by omega)]
  simp only [Int.toNat_natCast]
  split
  · simp; omega
  · split
    · simp; omega
    · simp; omega

/-- C01.  Outside the range nothing is written. -/
theorem C01_out_of_range (v : Int) : durationToString v = [] ↔ (v < 0 ∨ 6000000 ≤ v) := by
  unfold durationToString secondsToString twoDigits
  by_cases h : v < 0 ∨ v ≥ 6000000
  · rw [if_pos h]; simp; omega
  · rw [if_neg h]
    constructor
    · simp only []
      split
      · simp
      · split <;> simp
    · intro h'; omega

/-- C02.  Texts of the documented grammar are accepted with the right value. -/
theorem C02_accepts_grammar (s : List Nat) (ms : Nat) (h : DurationText s ms) :
    parseDuration s = .ok ms := by
  obtain ⟨w, sec, f, frac, rfl, hw, hf, rfl⟩ := h
  rw [parseDuration_eq, whole_tail_ok hw (.inl hf)]

/-- C02.  Exactly these texts are accepted: documented ones, and documented ones with a
three-digit fraction followed by anything. -/
theorem C02_parse_iff (s : List Nat) (ms : Nat) :
    parseDuration s = .ok ms ↔
      DurationText s ms ∨ ∃ s' junk, s = s' ++ junk ∧ DurationText3 s' ms := by
  constructor
  · intro h
    rw [parseDuration_eq] at h
    obtain ⟨w, sec, t, frac, rfl, hw, ht, rfl⟩ := durationL_inv h
    rcases ht with hf | ⟨f, junk, rfl, hl, hf⟩
    · exact .inl ⟨w, sec, t, frac, rfl, hw, hf, rfl⟩
    · right
      cases hf with
      | none => simp at hl
      | f => simp at hl
      | ff => simp at hl
      | fff h1 h2 h3 => exact ⟨_, junk, (List.append_assoc _ _ _).symm, w, sec, _, _, _, _, _, _, rfl, hw, h1, h2, h3, rfl⟩
  · rintro (h | ⟨s', junk, rfl, w, sec, c₁, d₁, c₂, d₂, c₃, d₃, rfl, hw, h1, h2, h3, rfl⟩)
    · exact C02_accepts_grammar s ms h
    · rw [parseDuration_eq, List.append_assoc,
        whole_tail_ok hw (.inr ⟨[46, c₁, c₂, c₃], junk, rfl, rfl, .fff h1 h2 h3⟩)]

/-- C02.  For texts of at most the documented length (9 characters) nothing but the
documented grammar is accepted, except that a short whole part leaves room for junk. -/
theorem C02_rejects_without_full_fraction (s : List Nat) (ms : Nat)
    (hs : ∀ s' junk, s = s' ++ junk → junk ≠ [] → ¬ DurationText3 s' ms) :
    parseDuration s = .ok ms ↔ DurationText s ms := by
  rw [C02_parse_iff]
  constructor
  · rintro (h | ⟨s', junk, rfl, h⟩)
    · exact h
    · by_cases hj : junk = []
      · subst hj
        obtain ⟨w, sec, c₁, d₁, c₂, d₂, c₃, d₃, rfl, hw, h1, h2, h3, rfl⟩ := h
        exact ⟨w, sec, _, _, by simp, hw, .fff h1 h2 h3, rfl⟩
      · exact absurd h (hs s' junk rfl hj)
  · exact .inl

/-- C02.  The result is always below 100 minutes, so it always can be formatted again. -/
theorem C02_parse_range (s : List Nat) (ms : Nat) (h : parseDuration s = .ok ms) : ms < 6000000 :=
  parseDuration_lt h

/-- C02.  Every other text throws; the text is never read outside its length. -/
theorem C02_otherwise_throws (s : List Nat) :
    (∃ ms, parseDuration s = .ok ms) ∨ ∃ msg, parseDuration s = .error (.thrown msg) := by
  have h := durationL_noub s
  rw [parseDuration_eq]
  match hd : durationL s with
  | .ok ms => exact .inl ⟨ms, rfl⟩
  | .error (.thrown msg) => exact .inr ⟨msg, rfl⟩
  | .error .ub => exact absurd hd h.1
  | .error .fuel => exact absurd hd h.2

example : parseDuration (ascii "1:60") = .error (.thrown "Invalid duration") := by rfl
example : parseDuration (ascii "") = .error (.thrown "Invalid duration") := by rfl
example : parseDuration (ascii "7.5") = .ok 7500 := by rfl

/-- C02, finding: text after a third fraction digit is silently accepted, although it is not in
the documented grammar. -/
theorem C02_trailing_garbage_accepted :
    parseDuration (ascii "1:23.456789") = .ok 83456 ∧ ¬ ∃ ms, DurationText (ascii "1:23.456789") ms := by
  refine ⟨by rfl, ?_⟩
  rintro ⟨ms, w, sec, f, frac, e, hw, hf, -⟩
  have h1 := (whole_len hw).1
  have h2 := frac_len hf
  have h3 := congrArg List.length e
  rw [List.length_append, show (ascii "1:23.456789").length = 11 from rfl] at h3
  omega

end Asap.Props
