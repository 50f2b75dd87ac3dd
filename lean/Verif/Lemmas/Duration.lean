import Verif.Model.Duration
import Verif.Spec.Duration

/-! Helper lemmas for C01/C02: the index-based parser as a parser on suffixes. -/

namespace Asap.Duration
open Asap Asap.Spec

theorem rd_append (p t : List Nat) (k : Nat) : rd (p ++ t) (p.length + k) = rd t k := by
  have : (p ++ t)[p.length + k]? = t[k]? := by
    rw [List.getElem?_append_right (by omega)]; congr 1; omega
  simp only [rd, this]

theorem rd_append0 (p t : List Nat) : rd (p ++ t) p.length = rd t 0 := rd_append p t 0

/-- Digit parser on a suffix. -/
def digitL (max : Nat) (t : List Nat) (k : Nat → List Nat → M Nat) : M Nat :=
  match t with
  | [] => invalid
  | c :: t => if 48 ≤ c ∧ c ≤ 48 + max then k (c - 48) t else invalid

theorem parseDigit_bind (p t : List Nat) (max : Nat) (f : Nat × Nat → M Nat) (k : Nat → List Nat → M Nat)
    (hk : ∀ c t', t = c :: t' → f (c - 48, p.length + 1) = k (c - 48) t') :
    (parseDigit (p ++ t) p.length max >>= f) = digitL max t k := by
  unfold parseDigit digitL
  rw [rd_append0]
  cases t with
  | nil => simp [invalid, raise, bind, Except.bind]
  | cons c t =>
    simp only [rd, List.getElem?_cons_zero, bind, Except.bind]
    rw [if_neg (by simp)]
    by_cases h2 : 48 ≤ c ∧ c ≤ 48 + max
    · rw [if_neg (by omega), if_pos h2]
      have : ((c : Int) - 48).toNat = c - 48 := by omega
      simp only [this]
      exact hk c t rfl
    · rw [if_pos (by omega), if_neg h2]; rfl

def frac3L (r : Nat) (t : List Nat) : M Nat :=
  match t with
  | [] => .ok r
  | t => digitL 9 t fun d _ => .ok (r + d)

def frac2L (r : Nat) (t : List Nat) : M Nat :=
  match t with
  | [] => .ok r
  | t => digitL 9 t fun d t => frac3L (r + d * 10) t

def fractionL (sec : Nat) (t : List Nat) : M Nat :=
  match t with
  | [] => .ok (sec * 1000)
  | c :: t => if c ≠ 46 then invalid else digitL 9 t fun d t => frac2L (sec * 1000 + d * 100) t

theorem app_cons (p : List Nat) (c : Nat) (t : List Nat) : p ++ c :: t = (p ++ [c]) ++ t := by simp

theorem len_cons (p : List Nat) (c : Nat) : p.length + 1 = (p ++ [c]).length := by simp

theorem parseFrac3_eq (p t : List Nat) (r : Nat) : parseFrac3 (p ++ t) p.length r = frac3L r t := by
  unfold parseFrac3 frac3L
  cases t with
  | nil => simp
  | cons c t =>
    rw [if_neg (by simp)]
    exact parseDigit_bind p (c :: t) 9 _ _ (by intros; rfl)

theorem parseFrac2_eq (p t : List Nat) (r : Nat) : parseFrac2 (p ++ t) p.length r = frac2L r t := by
  unfold parseFrac2 frac2L
  cases t with
  | nil => simp
  | cons c t =>
    rw [if_neg (by simp)]
    refine parseDigit_bind p (c :: t) 9 _ _ ?_
    intro c t' e
    cases e
    show parseFrac3 _ _ _ = _
    rw [app_cons, len_cons p c, parseFrac3_eq]

theorem parseFraction_eq (p t : List Nat) (sec : Nat) :
    parseFraction (p ++ t) p.length sec = fractionL sec t := by
  unfold parseFraction fractionL
  cases t with
  | nil => simp
  | cons c t =>
    simp only []
    rw [if_neg (by simp), rd_append0]
    simp only [rd, List.getElem?_cons_zero]
    show (if c ≠ 46 then _ else _) = _
    by_cases hc : c = 46
    · subst hc
      simp only [ne_eq, not_true_eq_false, if_false]
      rw [app_cons, len_cons p 46]
      refine parseDigit_bind _ t 9 _ _ ?_
      intro c t' e
      subst e
      show parseFrac2 _ _ _ = _
      rw [app_cons, len_cons _ c, parseFrac2_eq]
    · simp [hc]

def colonL (r : Nat) (t : List Nat) : M Nat :=
  match t with
  | 58 :: t => digitL 5 t fun d1 t => digitL 9 t fun d2 t => fractionL (r * 60 + d1 * 10 + d2) t
  | t => fractionL r t

theorem parseColon_eq (p t : List Nat) (r : Nat) : parseColon (p ++ t) p.length r = colonL r t := by
  unfold parseColon
  cases t with
  | nil =>
    simp only [colonL]
    rw [if_neg (by simp), parseFraction_eq]
  | cons c t =>
    rw [if_pos (by simp), rd_append0]
    simp only [rd, List.getElem?_cons_zero]
    show (if c = 58 then _ else _) = _
    by_cases hc : c = 58
    · subst hc
      simp only [if_true, colonL]
      rw [app_cons, len_cons p 58]
      refine parseDigit_bind _ t 5 _ _ ?_
      intro c t' e
      subst e
      simp only []
      rw [app_cons, len_cons _ c]
      refine parseDigit_bind _ t' 9 _ _ ?_
      intro c t' e
      subst e
      show parseFraction _ _ _ = _
      rw [app_cons, len_cons _ c, parseFraction_eq]
    · rw [if_neg hc, parseFraction_eq]
      unfold colonL
      split
      · rename_i h; cases h; exact absurd rfl hc
      · rfl

def durationL (t : List Nat) : M Nat :=
  digitL 9 t fun d t =>
    match t with
    | [] => fractionL d []
    | c :: t => if 48 ≤ c ∧ c ≤ 57 then colonL (d * 10 + (c - 48)) t else colonL d (c :: t)

theorem parseDuration_eq (s : List Nat) : parseDuration s = durationL s := by
  unfold parseDuration durationL
  refine parseDigit_bind [] s 9 _ _ ?_
  intro c t e
  subst e
  show (if 1 < (c :: t).length then _ else _) = _
  cases t with
  | nil =>
    rw [if_neg (by simp)]
    exact parseFraction_eq [c] [] _
  | cons c2 t =>
    rw [if_pos (by simp)]
    simp only [rd, List.length_nil, Nat.zero_add, List.getElem?_cons_succ, List.getElem?_cons_zero]
    show (if 0 ≤ (c2 : Int) - 48 ∧ (c2 : Int) - 48 ≤ 9 then _ else _) = _
    by_cases h : 48 ≤ c2 ∧ c2 ≤ 57
    · rw [if_pos (by omega), if_pos h]
      have e : ((c2 : Int) - 48).toNat = c2 - 48 := by omega
      rw [e]
      exact parseColon_eq [c, c2] t _
    · rw [if_neg (by omega), if_neg h]
      exact parseColon_eq [c] (c2 :: t) _

theorem isDigit_iff {c d} : IsDigit c d ↔ (48 ≤ c ∧ c ≤ 57) ∧ d = c - 48 := by
  unfold IsDigit; omega

theorem isDigit_mk {c} (h : 48 ≤ c ∧ c ≤ 57) : IsDigit c (c - 48) := isDigit_iff.2 ⟨h, rfl⟩

/-- Fractions as accepted by the code: a fraction, or a full fraction and anything. -/
def Tail (t : List Nat) (frac : Nat) : Prop :=
  Frac t frac ∨ ∃ f junk, t = f ++ junk ∧ f.length = 4 ∧ Frac f frac

theorem digitL_ok {max t k v} : digitL max t k = .ok v ↔
    ∃ c t', t = c :: t' ∧ (48 ≤ c ∧ c ≤ 48 + max) ∧ k (c - 48) t' = .ok v := by
  unfold digitL
  cases t with
  | nil => simp [invalid, raise]
  | cons c t =>
    simp only []
    split
    · rename_i h; constructor
      · intro hk; exact ⟨c, t, rfl, h, hk⟩
      · rintro ⟨_, _, e, _, hk⟩; cases e; exact hk
    · rename_i h; constructor
      · simp [invalid, raise]
      · rintro ⟨_, _, e, h', _⟩; cases e; exact absurd h' h

theorem fractionL_ok (t : List Nat) (sec v : Nat) :
    fractionL sec t = .ok v ↔ ∃ frac, Tail t frac ∧ v = 1000 * sec + frac := by
  constructor
  · intro h
    unfold fractionL at h
    split at h
    · cases h; exact ⟨0, .inl .none, by omega⟩
    · rename_i c t
      split at h
      · cases h
      · rename_i hc
        have hc : c = 46 := by simpa using hc
        subst hc
        obtain ⟨c1, t, rfl, h1, h⟩ := digitL_ok.1 h
        unfold frac2L at h
        split at h
        · cases h; exact ⟨_, .inl (.f (isDigit_mk h1)), by omega⟩
        · obtain ⟨c2, t, rfl, h2, h⟩ := digitL_ok.1 h
          unfold frac3L at h
          split at h
          · cases h; exact ⟨_, .inl (.ff (isDigit_mk h1) (isDigit_mk h2)), by omega⟩
          · obtain ⟨c3, t, rfl, h3, h⟩ := digitL_ok.1 h
            cases h
            exact ⟨_, .inr ⟨[46, c1, c2, c3], t, rfl, rfl,
              .fff (isDigit_mk h1) (isDigit_mk h2) (isDigit_mk h3)⟩, by omega⟩
  · rintro ⟨frac, h, rfl⟩
    have key : ∀ f junk, Frac f frac → (f.length = 4 ∨ junk = []) →
        fractionL sec (f ++ junk) = .ok (1000 * sec + frac) := by
      intro f junk hf hj
      cases hf with
      | none => simp at hj; subst hj; simp [fractionL]; omega
      | f h1 =>
        simp at hj; subst hj
        obtain ⟨h1, rfl⟩ := isDigit_iff.1 h1
        simp only [List.cons_append, List.nil_append, fractionL, digitL, frac2L]
        rw [if_neg (by omega), if_pos (by omega)]
        congr 1; omega
      | ff h1 h2 =>
        simp at hj; subst hj
        obtain ⟨h1, rfl⟩ := isDigit_iff.1 h1
        obtain ⟨h2, rfl⟩ := isDigit_iff.1 h2
        simp only [List.cons_append, List.nil_append, fractionL, digitL, frac2L, frac3L]
        rw [if_neg (by omega), if_pos (by omega), if_pos (by omega)]
        congr 1; omega
      | fff h1 h2 h3 =>
        obtain ⟨h1, rfl⟩ := isDigit_iff.1 h1
        obtain ⟨h2, rfl⟩ := isDigit_iff.1 h2
        obtain ⟨h3, rfl⟩ := isDigit_iff.1 h3
        simp only [List.cons_append, List.nil_append, fractionL, digitL, frac2L, frac3L]
        rw [if_neg (by omega), if_pos (by omega), if_pos (by omega), if_pos (by omega)]
        congr 1; omega
    rcases h with h | ⟨f, junk, rfl, hl, hf⟩
    · simpa using key t [] h (.inr rfl)
    · exact key f junk hf (.inl hl)

theorem tail_head {t frac} (h : Tail t frac) : t = [] ∨ ∃ t', t = 46 :: t' := by
  rcases h with h | ⟨f, junk, rfl, hl, h⟩ <;> cases h <;> simp_all

theorem whole_tail_ok {w sec t frac} (hw : Whole w sec) (ht : Tail t frac) :
    durationL (w ++ t) = .ok (1000 * sec + frac) := by
  have hf : ∀ sec, fractionL sec t = .ok (1000 * sec + frac) :=
    fun sec => (fractionL_ok t sec _).2 ⟨frac, ht, rfl⟩
  have hcol : ∀ r, colonL r t = fractionL r t := by
    intro r
    rcases tail_head ht with rfl | ⟨t', rfl⟩ <;> simp [colonL]
  cases hw with
  | s h =>
    obtain ⟨h, rfl⟩ := isDigit_iff.1 h
    simp only [List.cons_append, List.nil_append, durationL, digitL]
    rw [if_pos (by omega)]
    rcases tail_head ht with rfl | ⟨t', rfl⟩
    · exact hf _
    · simp only []
      rw [if_neg (by omega), hcol, hf]
  | ss h1 h2 =>
    obtain ⟨h1, rfl⟩ := isDigit_iff.1 h1
    obtain ⟨h2, rfl⟩ := isDigit_iff.1 h2
    simp only [List.cons_append, List.nil_append, durationL, digitL]
    rw [if_pos (by omega), if_pos (by omega), hcol, hf]
    congr 1; omega
  | m_ss h1 h2 h2' h3 =>
    obtain ⟨h1, rfl⟩ := isDigit_iff.1 h1
    obtain ⟨h2, rfl⟩ := isDigit_iff.1 h2
    obtain ⟨h3, rfl⟩ := isDigit_iff.1 h3
    simp only [List.cons_append, List.nil_append, durationL, digitL, colonL]
    rw [if_pos (by omega), if_neg (by omega), if_pos (by omega), if_pos (by omega), hf]
    congr 1; omega
  | mm_ss h1 h1b h2 h2' h3 =>
    obtain ⟨h1, rfl⟩ := isDigit_iff.1 h1
    obtain ⟨h1b, rfl⟩ := isDigit_iff.1 h1b
    obtain ⟨h2, rfl⟩ := isDigit_iff.1 h2
    obtain ⟨h3, rfl⟩ := isDigit_iff.1 h3
    simp only [List.cons_append, List.nil_append, durationL, digitL, colonL]
    rw [if_pos (by omega), if_pos (by omega), if_pos (by omega), if_pos (by omega), hf]
    congr 1; omega

theorem durationL_inv {s v} (h : durationL s = .ok v) :
    ∃ w sec t frac, s = w ++ t ∧ Whole w sec ∧ Tail t frac ∧ v = 1000 * sec + frac := by
  unfold durationL at h
  obtain ⟨c, t, rfl, hc, h⟩ := digitL_ok.1 h
  have hcol : ∀ pre r, (∀ c1 c2, 48 ≤ c1 ∧ c1 ≤ 53 → 48 ≤ c2 ∧ c2 ≤ 57 →
        Whole (pre ++ [58, c1, c2]) (r * 60 + (c1 - 48) * 10 + (c2 - 48))) → Whole pre r →
      ∀ t, colonL r t = .ok v →
      ∃ w sec t' frac, pre ++ t = w ++ t' ∧ Whole w sec ∧ Tail t' frac ∧ v = 1000 * sec + frac := by
    intro pre r hp hw t h
    unfold colonL at h
    split at h
    · obtain ⟨c1, t, rfl, h1, h⟩ := digitL_ok.1 h
      obtain ⟨c2, t, rfl, h2, h⟩ := digitL_ok.1 h
      obtain ⟨frac, ht, rfl⟩ := (fractionL_ok _ _ _).1 h
      exact ⟨_, _, t, frac, by simp, hp c1 c2 h1 h2, ht, rfl⟩
    · obtain ⟨frac, ht, rfl⟩ := (fractionL_ok _ _ _).1 h
      exact ⟨pre, r, _, frac, rfl, hw, ht, rfl⟩
  split at h
  · obtain ⟨frac, ht, rfl⟩ := (fractionL_ok _ _ _).1 h
    exact ⟨[c], _, [], frac, rfl, .s (isDigit_mk hc), ht, rfl⟩
  · rename_i c2 t t0
    split at h
    · rename_i h2
      refine hcol [c, c2] _ ?_ ?_ t h
      · intro c3 c4 h3 h4
        have hw := Whole.mm_ss (isDigit_mk hc) (isDigit_mk h2) (isDigit_mk (c := c3) (by omega)) (by omega)
          (isDigit_mk h4)
        have e : 60 * (10 * (c - 48) + (c2 - 48)) + (10 * (c3 - 48) + (c4 - 48)) =
          ((c - 48) * 10 + (c2 - 48)) * 60 + (c3 - 48) * 10 + (c4 - 48) := by omega
        exact e ▸ hw
      · have hw := Whole.ss (isDigit_mk hc) (isDigit_mk h2)
        have e : 10 * (c - 48) + (c2 - 48) = (c - 48) * 10 + (c2 - 48) := by omega
        exact e ▸ hw
    · refine hcol [c] _ ?_ (.s (isDigit_mk hc)) (c2 :: t) h
      intro c3 c4 h3 h4
      have hw := Whole.m_ss (isDigit_mk hc) (isDigit_mk (c := c3) (by omega)) (by omega) (isDigit_mk h4)
      have e : 60 * (c - 48) + (10 * (c3 - 48) + (c4 - 48)) =
        (c - 48) * 60 + (c3 - 48) * 10 + (c4 - 48) := by omega
      exact e ▸ hw

theorem digitL_noub {max t k} (hk : ∀ d t, k d t ≠ .error .ub ∧ k d t ≠ .error .fuel) :
    digitL max t k ≠ .error .ub ∧ digitL max t k ≠ .error .fuel := by
  unfold digitL
  split
  · simp [invalid, raise]
  · split
    · exact hk _ _
    · simp [invalid, raise]

theorem fractionL_noub (t sec) : fractionL sec t ≠ .error .ub ∧ fractionL sec t ≠ .error .fuel := by
  unfold fractionL
  split
  · simp
  · split
    · simp [invalid, raise]
    · apply digitL_noub
      intro d t
      unfold frac2L
      split
      · simp
      · apply digitL_noub
        intro d t
        unfold frac3L
        split
        · simp
        · apply digitL_noub
          intro d t
          simp

theorem colonL_noub (t r) : colonL r t ≠ .error .ub ∧ colonL r t ≠ .error .fuel := by
  unfold colonL
  split
  · apply digitL_noub; intro d t; apply digitL_noub; intro d t; exact fractionL_noub _ _
  · exact fractionL_noub _ _

theorem durationL_noub (t) : durationL t ≠ .error .ub ∧ durationL t ≠ .error .fuel := by
  unfold durationL
  apply digitL_noub
  intro d t
  split
  · exact fractionL_noub _ _
  · split <;> exact colonL_noub _ _

theorem whole_lt {w sec} (h : Whole w sec) : sec < 6000 := by
  cases h <;> simp_all [IsDigit] <;> omega

theorem frac_lt {t frac} (h : Frac t frac) : frac < 1000 := by
  cases h <;> simp_all [IsDigit] <;> omega

theorem frac_len {t frac} (h : Frac t frac) : t.length ≤ 4 := by
  cases h <;> simp

theorem whole_len {w sec} (h : Whole w sec) : w.length ≤ 5 ∧ 0 < w.length := by
  cases h <;> simp

theorem durationToString_text (v : Nat) (h : v < 6000000) :
    DurationText (durationToString v) v := by
  have hw : Whole (twoDigits (v / 1000 / 60) ++ [58] ++ twoDigits (v / 1000 % 60)) (v / 1000) := by
    have := Whole.mm_ss (m₁ := 48 + v / 1000 / 60 / 10) (m₂ := 48 + v / 1000 / 60 % 10)
      (c₁ := 48 + v / 1000 % 60 / 10) (c₂ := 48 + v / 1000 % 60 % 10)
      (isDigit_mk (by omega)) (isDigit_mk (by omega)) (isDigit_mk (by omega)) (by omega) (isDigit_mk (by omega))
    have e : 60 * (10 * (48 + v / 1000 / 60 / 10 - 48) + (48 + v / 1000 / 60 % 10 - 48)) +
       (10 * (48 + v / 1000 % 60 / 10 - 48) + (48 + v / 1000 % 60 % 10 - 48)) = v / 1000 := by omega
    rw [e] at this
    exact this
  unfold durationToString secondsToString
  rw [if_neg (by omega)]
  simp only [Int.toNat_natCast]
  split
  · exact ⟨_, _, [], 0, (List.append_nil _).symm, hw, .none, by omega⟩
  · split
    · refine ⟨_, _, [46] ++ twoDigits (v % 1000 / 10), v % 1000, by simp, hw, ?_, by omega⟩
      have := Frac.ff (c₁ := 48 + v % 1000 / 10 / 10) (c₂ := 48 + v % 1000 / 10 % 10) (isDigit_mk (by omega))
        (isDigit_mk (by omega))
      have e : 100 * (48 + v % 1000 / 10 / 10 - 48) + 10 * (48 + v % 1000 / 10 % 10 - 48) = v % 1000 := by omega
      rw [e] at this
      exact this
    · refine ⟨_, _, [46] ++ twoDigits (v % 1000 / 10) ++ [48 + v % 1000 % 10], v % 1000, by simp, hw, ?_, by omega⟩
      have := Frac.fff (c₁ := 48 + v % 1000 / 10 / 10) (c₂ := 48 + v % 1000 / 10 % 10) (c₃ := 48 + v % 1000 % 10)
        (isDigit_mk (by omega)) (isDigit_mk (by omega)) (isDigit_mk (by omega))
      have e : 100 * (48 + v % 1000 / 10 / 10 - 48) + 10 * (48 + v % 1000 / 10 % 10 - 48) +
        (48 + v % 1000 % 10 - 48) = v % 1000 := by omega
      rw [e] at this
      exact this

theorem parseDuration_lt {s : List Nat} {ms : Nat} (h : parseDuration s = .ok ms) : ms < 6000000 := by
  rw [parseDuration_eq] at h
  obtain ⟨w, sec, t, frac, rfl, hw, ht, rfl⟩ := durationL_inv h
  have h1 := whole_lt hw
  have h2 : frac < 1000 := by
    rcases ht with hf | ⟨f, junk, rfl, hl, hf⟩
    · exact frac_lt hf
    · exact frac_lt hf
  omega

theorem roundtrip (v : Nat) (h : v < 6000000) :
    parseDuration (durationToString v) = .ok v := by
  obtain ⟨w, sec, f, frac, e, hw, hf, hv⟩ := durationToString_text v h
  rw [parseDuration_eq, e, whole_tail_ok hw (.inl hf), hv]

theorem durationToString_chars (v : Nat) (h : v < 6000000) :
    5 ≤ (durationToString v).length ∧
    (durationToString v).length ≤ 9 ∧ ∀ c ∈ durationToString v, 32 < c ∧ c < 127 := by
  unfold durationToString secondsToString twoDigits
  rw [if_neg (by omega)]
  simp only [Int.toNat_natCast]
  split
  · simp; omega
  · split
    · simp; omega
    · simp; omega

theorem durationToString_valid (v : Nat) (h : v < 6000000) : ∀ c ∈ durationToString v, 46 ≤ c ∧ c ≤ 58 := by
  unfold durationToString secondsToString twoDigits
  rw [if_neg (by omega)]
  simp only [Int.toNat_natCast]
  split
  · simp; omega
  · split
    · simp; omega
    · simp; omega

end Asap.Duration
