import Verif.Model.Ext
import Verif.Spec.Ext

/-! Helper lemmas for C03. -/

namespace Asap
open Asap.Spec

theorem lor_split (a b c d : Nat) (ha : a < 256) (hc : c < 256) :
    (a + 256 * b) ||| (c + 256 * d) = (a ||| c) + 256 * (b ||| d) := by
  have h1 := Nat.or_mod_two_pow (a := a + 256 * b) (b := c + 256 * d) (n := 8)
  have h2 := Nat.or_div_two_pow (a := a + 256 * b) (b := c + 256 * d) (n := 8)
  have e1 : (a + 256 * b) % 2 ^ 8 = a := by omega
  have e2 : (c + 256 * d) % 2 ^ 8 = c := by omega
  have e3 : (a + 256 * b) / 2 ^ 8 = b := by omega
  have e4 : (c + 256 * d) / 2 ^ 8 = d := by omega
  rw [e1, e2] at h1
  rw [e3, e4] at h2
  omega

theorem lor_lt (a b : Nat) (ha : a < 256) (hb : b < 256) : a ||| b < 256 :=
  Nat.or_lt_two_pow (n := 8) ha hb

/-- Value of an extension as accumulated by `GetPackedExt` without wrap-around. -/
def extVal : List Nat → Nat
  | [] => 0
  | c :: t => c + 256 * extVal t

/-- Characters allowed in an extension. -/
def ExtChar (c : Nat) : Prop := 32 < c ∧ c ≤ 122

theorem packedExtLoop_spec (r : List Nat) (acc : List Nat) :
    packedExtLoop r (extVal acc % 2 ^ 32) =
      (match r with
       | [] => 0
       | [_] => 0
       | c :: rest => if c ≤ 32 ∨ c > 122 then 0
          else if c = 46 then (extVal acc % 2 ^ 32) ||| 0x202020
          else packedExtLoop rest (extVal (c :: acc) % 2 ^ 32)) := by
  match r with
  | [] => rfl
  | [_] => rfl
  | c :: d :: rest =>
    rw [packedExtLoop]
    · simp only []
      have e : (extVal acc % 2 ^ 32 * 256 + c) % 2 ^ 32 = extVal (c :: acc) % 2 ^ 32 := by
        show _ = (c + 256 * extVal acc) % 2 ^ 32
        omega
      rw [e]
    · intro h; cases h

/-- What `GetPackedExt` computes, relative to the already visited suffix `acc`. -/
theorem packedExtLoop_char (r : List Nat) : ∀ (acc : List Nat), (∀ c ∈ acc, ExtChar c ∧ c ≠ 46) →
    (∃ base ext, base ≠ [] ∧ r.reverse ++ acc = base ++ 46 :: ext ∧ 46 ∉ ext ∧ (∀ c ∈ ext, ExtChar c) ∧
      packedExtLoop r (extVal acc % 2 ^ 32) = (extVal ext % 2 ^ 32) ||| 0x202020) ∨
    (packedExtLoop r (extVal acc % 2 ^ 32) = 0 ∧
      ¬ ∃ base ext, base ≠ [] ∧ r.reverse ++ acc = base ++ 46 :: ext ∧ 46 ∉ ext ∧ (∀ c ∈ ext, ExtChar c)) := by
  induction r with
  | nil =>
    intro acc hacc
    right
    refine ⟨rfl, ?_⟩
    rintro ⟨base, ext, hb, e, -, -⟩
    have : 46 ∈ acc := by simp at e; rw [e]; simp
    exact (hacc _ this).2 rfl
  | cons c r ih =>
    intro acc hacc
    rw [packedExtLoop_spec]
    cases r with
    | nil =>
      right
      refine ⟨rfl, ?_⟩
      rintro ⟨base, ext, hb, e, -, -⟩
      cases base with
      | nil => exact hb rfl
      | cons b base =>
        simp at e
        have : 46 ∈ acc := by rw [e.2]; simp
        exact (hacc _ this).2 rfl
    | cons d r =>
      simp only []
      split
      · rename_i hc
        right
        refine ⟨rfl, ?_⟩
        rintro ⟨base, ext, hb, e, hd, hx⟩
        -- c sits inside ext or is the dot
        rw [List.reverse_cons, List.append_assoc, List.singleton_append] at e
        rcases List.append_eq_append_iff.1 e with ⟨a', e1, e2⟩ | ⟨c', e1, e2⟩
        · cases a' with
          | nil => simp at e2; omega
          | cons x a' =>
            simp at e2
            have : 46 ∈ acc := by rw [e2.2]; simp
            exact (hacc _ this).2 rfl
        · cases c' with
          | nil => simp at e2; omega
          | cons x c' =>
            simp at e2
            have : c ∈ ext := by rw [e2.2]; simp
            have := hx c this
            unfold ExtChar at this
            omega
      · rename_i hc
        split
        · rename_i h46
          subst h46
          left
          refine ⟨(d :: r).reverse, acc, by simp, by simp, ?_, fun c h => (hacc c h).1, rfl⟩
          intro h; exact (hacc _ h).2 rfl
        · rename_i h46
          have := ih (c :: acc) (by
            intro x hx
            rcases List.mem_cons.1 hx with rfl | hx
            · exact ⟨⟨by omega, by omega⟩, h46⟩
            · exact hacc x hx)
          simpa using this

theorem dot_split_unique {b1 e1 b2 e2 : List Nat} (h : b1 ++ 46 :: e1 = b2 ++ 46 :: e2)
    (h1 : 46 ∉ e1) (h2 : 46 ∉ e2) : e1 = e2 ∧ b1 = b2 := by
  rcases List.append_eq_append_iff.1 h with ⟨a', e1', e2'⟩ | ⟨c', e1', e2'⟩
  · cases a' with
    | nil => simp at e2' e1'; exact ⟨e2', e1'.symm⟩
    | cons x a' =>
      simp at e2'
      exact absurd (by rw [e2'.2]; simp) h1
  · cases c' with
    | nil => simp at e2' e1'; exact ⟨e2'.symm, e1'⟩
    | cons x a' =>
      simp at e2'
      exact absurd (by rw [e2'.2]; simp) h2

/-- Packed value of a supported three letter extension given as lower-case characters. -/
theorem extVal_or (ext : List Nat) (h : ∀ c ∈ ext, ExtChar c) (a b c : Nat)
    (ha : a < 256) (hb : b < 256) (hc : c < 256) (hb' : b ≠ 32) :
    ((extVal ext % 2 ^ 32) ||| 0x202020 = a + 256 * (b + 256 * c)) ↔
      (∃ x y z, ext = [x, y, z] ∧ x ||| 32 = a ∧ y ||| 32 = b ∧ z ||| 32 = c) ∨
      (∃ x y, ext = [x, y] ∧ x ||| 32 = a ∧ y ||| 32 = b ∧ 32 = c) := by
  have hx : (0x202020 : Nat) = 32 + 256 * (32 + 256 * 32) := rfl
  match ext, h with
  | [], h => 
    simp [extVal]; omega
  | [x], h =>
    have h0 := h x (by simp)
    unfold ExtChar at h0
    have e : extVal [x] % 2 ^ 32 = x + 256 * 0 := by simp [extVal]; omega
    rw [e, hx, lor_split _ _ _ _ (by omega) (by omega)]
    have := lor_lt x 32 (by omega) (by omega)
    simp; omega
  | [x, y], h =>
    have h0 := h x (by simp)
    have h1 := h y (by simp)
    unfold ExtChar at h0 h1
    have e : extVal [x, y] % 2 ^ 32 = x + 256 * (y + 256 * 0) := by simp [extVal]; omega
    rw [e, hx, lor_split _ _ _ _ (by omega) (by omega), lor_split _ _ _ _ (by omega) (by omega)]
    have := lor_lt x 32 (by omega) (by omega)
    have := lor_lt y 32 (by omega) (by omega)
    rw [Nat.zero_or]
    clear e hx
    constructor
    · intro he; right; exact ⟨x, y, rfl, by omega, by omega, by omega⟩
    · rintro (⟨x', y', z', e, -⟩ | ⟨x', y', e, h1, h2, h3⟩)
      · simp at e
      · simp only [List.cons.injEq, and_true] at e
        obtain ⟨rfl, rfl⟩ := e
        rw [h1, h2, h3]
  | [x, y, z], h =>
    have h0 := h x (by simp)
    have h1 := h y (by simp)
    have h2 := h z (by simp)
    unfold ExtChar at h0 h1 h2
    have e : extVal [x, y, z] % 2 ^ 32 = x + 256 * (y + 256 * z) := by simp [extVal]; omega
    rw [e, hx, lor_split _ _ _ _ (by omega) (by omega), lor_split _ _ _ _ (by omega) (by omega)]
    have := lor_lt x 32 (by omega) (by omega)
    have := lor_lt y 32 (by omega) (by omega)
    have := lor_lt z 32 (by omega) (by omega)
    constructor
    · intro he; left; exact ⟨x, y, z, rfl, by omega, by omega, by omega⟩
    · rintro (⟨x', y', z', e, h1, h2, h3⟩ | ⟨x', y', e, -⟩)
      · simp only [List.cons.injEq, and_true] at e
        obtain ⟨rfl, rfl, rfl⟩ := e
        omega
      · simp at e
  | x :: y :: z :: w :: t, h =>
    have h0 := h x (by simp)
    have h1 := h y (by simp)
    have h2 := h z (by simp)
    have h3 := h w (by simp)
    unfold ExtChar at h0 h1 h2 h3
    have e : extVal (x :: y :: z :: w :: t) % 2 ^ 32 =
        x + 256 * (y + 256 * (z + 256 * (w + 256 * 0))) := by simp [extVal]; omega
    have hx' : (0x202020 : Nat) = 32 + 256 * (32 + 256 * (32 + 256 * 0)) := rfl
    rw [e, hx', lor_split _ _ _ _ (by omega) (by omega), lor_split _ _ _ _ (by omega) (by omega),
      lor_split _ _ _ _ (by omega) (by omega)]
    have := lor_lt x 32 (by omega) (by omega)
    have := lor_lt y 32 (by omega) (by omega)
    have := lor_lt z 32 (by omega) (by omega)
    simp; omega

/-- Setting bit 5 is lower-casing, for the characters that can be in an extension. -/
theorem or32_eq_lower_fin : ∀ c : Fin 123, ∀ l : Fin 123, 32 < c.val →
    ((97 ≤ l.val) ∨ (48 ≤ l.val ∧ l.val ≤ 57)) → (c.val ||| 32 = l.val ↔ lower c.val = l.val) := by
  unfold lower
  decide +kernel

theorem or32_eq_lower (c : Nat) (hc : ExtChar c) (l : Nat)
    (hl : (97 ≤ l ∧ l ≤ 122) ∨ (48 ≤ l ∧ l ≤ 57)) : c ||| 32 = l ↔ lower c = l :=
  or32_eq_lower_fin ⟨c, by unfold ExtChar at hc; omega⟩ ⟨l, by omega⟩ hc.1 (by simp only; omega)

end Asap
