import Verif.Model.Bits

/-! Bit operations on integers. -/

namespace Asap

theorem band_mask (k : Nat) (a : Int) : band a (2 ^ k - 1 : Nat) = a % 2 ^ k := by
  have h2 : (0 : Nat) < 2 ^ k := Nat.pow_pos (by omega)
  cases a with
  | ofNat n =>
    show ((n &&& (2 ^ k - 1) : Nat) : Int) = _
    rw [Nat.and_two_pow_sub_one_eq_mod]
    simp
  | negSucc n =>
    show (((2 ^ k - 1) - (n &&& (2 ^ k - 1)) : Nat) : Int) = _
    rw [Nat.and_two_pow_sub_one_eq_mod]
    have hlt : n % 2 ^ k < 2 ^ k := Nat.mod_lt _ h2
    rw [Int.negSucc_emod _ (by exact_mod_cast h2)]
    have e1 : ((2 ^ k : Nat) : Int) = (2 : Int) ^ k := by simp
    have e2 : (((n % 2 ^ k : Nat)) : Int) = (n : Int) % 2 ^ k := by simp
    rw [← e1] at *
    rw [Int.ofNat_sub (by omega), Int.ofNat_sub (by omega)]
    omega

theorem band_ff (a : Int) : band a 0xff = a % 256 := band_mask 8 a
theorem band_f (a : Int) : band a 0xf = a % 16 := band_mask 4 a
theorem band_7 (a : Int) : band a 7 = a % 8 := band_mask 3 a
theorem band_3 (a : Int) : band a 3 = a % 4 := band_mask 2 a
theorem band_1 (a : Int) : band a 1 = a % 2 := band_mask 1 a
theorem band_ffff (a : Int) : band a 0xffff = a % 65536 := band_mask 16 a

theorem band_comm (a b : Int) : band a b = band b a := by
  cases a <;> cases b <;> simp only [band]
  · rw [Nat.and_comm]
  · rename_i m n; rw [Nat.and_comm]
  · rename_i m n; rw [Nat.and_comm]
  · rw [Nat.or_comm]

/-- A non-negative right operand bounds the result. -/
theorem band_range_right (a : Int) {b : Int} (hb : 0 ≤ b) : 0 ≤ band a b ∧ band a b ≤ b := by
  obtain ⟨n, rfl⟩ := Int.eq_ofNat_of_zero_le hb
  cases a with
  | ofNat m =>
    have : m &&& n ≤ n := Nat.and_le_right
    show 0 ≤ ((m &&& n : Nat) : Int) ∧ ((m &&& n : Nat) : Int) ≤ n
    omega
  | negSucc m =>
    show 0 ≤ ((n - (m &&& n) : Nat) : Int) ∧ ((n - (m &&& n) : Nat) : Int) ≤ n
    omega

theorem band_range_left {a : Int} (b : Int) (ha : 0 ≤ a) : 0 ≤ band a b ∧ band a b ≤ a := by
  rw [band_comm]; exact band_range_right b ha

theorem nat_and_two_pow (n k : Nat) : n &&& 2 ^ k = 0 ∨ n &&& 2 ^ k = 2 ^ k := by
  by_cases h : n.testBit k
  · right
    apply Nat.eq_of_testBit_eq
    intro i
    rw [Nat.testBit_and, Nat.testBit_two_pow]
    by_cases hi : k = i
    · subst hi; simp [h]
    · simp [hi]
  · left
    apply Nat.eq_of_testBit_eq
    intro i
    rw [Nat.testBit_and, Nat.testBit_two_pow]
    by_cases hi : k = i
    · subst hi; simp [h]
    · simp [hi]

/-- Masking with a single bit gives zero or that bit. -/
theorem band_bit (k : Nat) (a : Int) : band a (2 ^ k : Nat) = 0 ∨ band a (2 ^ k : Nat) = (2 ^ k : Nat) := by
  cases a with
  | ofNat n =>
    show ((n &&& 2 ^ k : Nat) : Int) = 0 ∨ ((n &&& 2 ^ k : Nat) : Int) = _
    rcases nat_and_two_pow n k with h | h <;> rw [h] <;> simp
  | negSucc n =>
    show (((2 ^ k) - (n &&& 2 ^ k) : Nat) : Int) = 0 ∨ (((2 ^ k) - (n &&& 2 ^ k) : Nat) : Int) = _
    rcases nat_and_two_pow n k with h | h <;> rw [h] <;> simp

theorem bor_range {a b : Int} (k : Nat) (ha : 0 ≤ a) (ha2 : a < 2 ^ k) (hb : 0 ≤ b) (hb2 : b < 2 ^ k) :
    0 ≤ bor a b ∧ bor a b < 2 ^ k := by
  obtain ⟨m, rfl⟩ := Int.eq_ofNat_of_zero_le ha
  obtain ⟨n, rfl⟩ := Int.eq_ofNat_of_zero_le hb
  show 0 ≤ ((m ||| n : Nat) : Int) ∧ ((m ||| n : Nat) : Int) < 2 ^ k
  have h1 : m < 2 ^ k := by exact_mod_cast ha2
  have h2 : n < 2 ^ k := by exact_mod_cast hb2
  have := Nat.or_lt_two_pow h1 h2
  refine ⟨by omega, by exact_mod_cast this⟩

theorem bxor_range {a b : Int} (k : Nat) (ha : 0 ≤ a) (ha2 : a < 2 ^ k) (hb : 0 ≤ b) (hb2 : b < 2 ^ k) :
    0 ≤ bxor a b ∧ bxor a b < 2 ^ k := by
  obtain ⟨m, rfl⟩ := Int.eq_ofNat_of_zero_le ha
  obtain ⟨n, rfl⟩ := Int.eq_ofNat_of_zero_le hb
  show 0 ≤ ((m ^^^ n : Nat) : Int) ∧ ((m ^^^ n : Nat) : Int) < 2 ^ k
  have h1 : m < 2 ^ k := by exact_mod_cast ha2
  have h2 : n < 2 ^ k := by exact_mod_cast hb2
  have := Nat.xor_lt_two_pow h1 h2
  refine ⟨by omega, by exact_mod_cast this⟩

/-! ### Single bits -/

/-- Bit `k` in two's complement. -/
def ibit (k : Nat) (x : Int) : Bool := decide (x / 2 ^ k % 2 = 1)

theorem ibit_ofNat (k n : Nat) : ibit k (Int.ofNat n) = n.testBit k := by
  rw [Nat.testBit_eq_decide_div_mod_eq]
  unfold ibit
  apply decide_eq_decide.mpr
  have : (Int.ofNat n) / 2 ^ k = ((n / 2 ^ k : Nat) : Int) := by simp
  rw [this]
  omega

theorem ibit_negSucc (k n : Nat) : ibit k (Int.negSucc n) = !n.testBit k := by
  rw [Nat.testBit_eq_decide_div_mod_eq, ← decide_not]
  unfold ibit
  apply decide_eq_decide.mpr
  have : (Int.negSucc n) / 2 ^ k = -((n / 2 ^ k : Nat) : Int) - 1 := by
    rw [Int.negSucc_ediv _ (by exact_mod_cast Nat.pow_pos (by omega))]
    have : (n : Int).ediv (2 ^ k) = ((n / 2 ^ k : Nat) : Int) := by
      show (n : Int) / 2 ^ k = _
      simp
    rw [this]
    omega
  rw [this]
  omega

theorem nat_sub_and_testBit (k : Nat) : ∀ p q : Nat, (q - (p &&& q)).testBit k = (q.testBit k && !p.testBit k) := by
  induction k with
  | zero =>
    intro p q
    have h1 : p &&& q ≤ q := Nat.and_le_right
    have h2 : (p &&& q) % 2 = 1 ↔ p % 2 = 1 ∧ q % 2 = 1 := Nat.and_mod_two_eq_one
    simp only [Nat.testBit_zero]
    rw [← decide_not, ← Bool.decide_and]
    apply decide_eq_decide.mpr
    omega
  | succ k ih =>
    intro p q
    rw [Nat.testBit_succ, Nat.testBit_succ, Nat.testBit_succ, ← ih]
    congr 1
    have h1 : p &&& q ≤ q := Nat.and_le_right
    have h2 : (p &&& q) % 2 = 1 ↔ p % 2 = 1 ∧ q % 2 = 1 := Nat.and_mod_two_eq_one
    have h3 : (p &&& q) / 2 = p / 2 &&& q / 2 := Nat.and_div_two
    rw [← h3]
    omega

theorem ibit_band (k : Nat) (x y : Int) : ibit k (band x y) = (ibit k x && ibit k y) := by
  cases x <;> cases y <;> simp only [band, ibit_ofNat, ibit_negSucc, Nat.testBit_and, Nat.testBit_or]
  · rename_i a b
    rw [Nat.and_comm, nat_sub_and_testBit]
  · rename_i a b
    rw [nat_sub_and_testBit, Bool.and_comm]
  · simp

theorem ibit_bor (k : Nat) (x y : Int) : ibit k (bor x y) = (ibit k x || ibit k y) := by
  cases x <;> cases y <;> simp only [bor, ibit_ofNat, ibit_negSucc, Nat.testBit_and, Nat.testBit_or]
  · rename_i a b
    rw [nat_sub_and_testBit]
    cases a.testBit k <;> cases b.testBit k <;> rfl
  · rename_i a b
    rw [Nat.and_comm, nat_sub_and_testBit]
    cases a.testBit k <;> cases b.testBit k <;> rfl
  · simp

theorem ibit_bxor (k : Nat) (x y : Int) : ibit k (bxor x y) = (ibit k x ^^ ibit k y) := by
  cases x <;> cases y <;> simp only [bxor, ibit_ofNat, ibit_negSucc, Nat.testBit_xor]
  · rename_i a b; cases a.testBit k <;> cases b.testBit k <;> rfl
  · rename_i a b; cases a.testBit k <;> cases b.testBit k <;> rfl
  · rename_i a b; cases a.testBit k <;> cases b.testBit k <;> rfl

theorem ibit_bnot (k : Nat) (x : Int) : ibit k (bnot x) = !ibit k x := by
  cases x with
  | ofNat n =>
    have : bnot (Int.ofNat n) = Int.negSucc n := by unfold bnot; show -(n : Int) - 1 = _; omega
    rw [this, ibit_ofNat, ibit_negSucc]
  | negSucc n =>
    have : bnot (Int.negSucc n) = Int.ofNat n := by unfold bnot; show _ = (n : Int); omega
    rw [this, ibit_ofNat, ibit_negSucc, Bool.not_not]

theorem ibit_pow (k : Nat) : ibit k (2 ^ k : Nat) = true := by
  have := ibit_ofNat k (2 ^ k)
  rw [Nat.testBit_two_pow_self] at this
  exact this

theorem band_pow (k : Nat) (x : Int) : band x (2 ^ k : Nat) = if ibit k x then ((2 ^ k : Nat) : Int) else 0 := by
  have h := ibit_band k x (2 ^ k : Nat)
  rw [ibit_pow, Bool.and_true] at h
  have hz : ibit k 0 = false := by simp [ibit]
  rcases band_bit k x with e | e
  · rw [e, hz] at h
    rw [e, ← h]; rfl
  · rw [e, ibit_pow] at h
    rw [e, ← h]; rfl

theorem band_nat {x y : Int} (hx : 0 ≤ x) (hy : 0 ≤ y) : band x y = ((x.toNat &&& y.toNat : Nat) : Int) := by
  obtain ⟨m, rfl⟩ := Int.eq_ofNat_of_zero_le hx
  obtain ⟨n, rfl⟩ := Int.eq_ofNat_of_zero_le hy
  rfl

theorem bor_nat {x y : Int} (hx : 0 ≤ x) (hy : 0 ≤ y) : bor x y = ((x.toNat ||| y.toNat : Nat) : Int) := by
  obtain ⟨m, rfl⟩ := Int.eq_ofNat_of_zero_le hx
  obtain ⟨n, rfl⟩ := Int.eq_ofNat_of_zero_le hy
  rfl

theorem bxor_nat {x y : Int} (hx : 0 ≤ x) (hy : 0 ≤ y) : bxor x y = ((x.toNat ^^^ y.toNat : Nat) : Int) := by
  obtain ⟨m, rfl⟩ := Int.eq_ofNat_of_zero_le hx
  obtain ⟨n, rfl⟩ := Int.eq_ofNat_of_zero_le hy
  rfl

end Asap
