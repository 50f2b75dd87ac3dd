import Verif.Lemmas.PokeyTick
import Verif.Spec.Noise

/-! The noise tables. -/

namespace Asap
open Asap.Spec

/-- `reg` holds `n` bits of the sequence from `i`. -/
def Holds (n : Nat) (b : Nat → Bool) (i reg : Nat) : Prop := reg < 2 ^ n ∧ ∀ k, k < n → reg.testBit k = b (i + k)

theorem holds_start {n : Nat} {b : Nat → Bool} (h : ShiftRegister n b) : Holds n b 0 (2 ^ n - 1) := by
  have : 0 < 2 ^ n := Nat.pow_pos (by omega)
  refine ⟨by omega, fun k hk => ?_⟩
  rw [Nat.zero_add, h.start k hk, Nat.testBit_two_pow_sub_one]
  simpa using hk

theorem holds_eq {n : Nat} {b : Nat → Bool} {i r s : Nat} (h : Holds n b i r) (k : Holds n b i s) : r = s := by
  apply Nat.eq_of_testBit_eq
  intro j
  by_cases hj : j < n
  · rw [h.2 j hj, k.2 j hj]
  · have : 2 ^ n ≤ 2 ^ j := Nat.pow_le_pow_right (by omega) (by omega)
    rw [Nat.testBit_lt_two_pow (Nat.lt_of_lt_of_le h.1 this), Nat.testBit_lt_two_pow (Nat.lt_of_lt_of_le k.1 this)]

theorem lfsr9_holds {b : Nat → Bool} (h : ShiftRegister 9 b) {i reg : Nat} (hr : Holds 9 b i reg) : Holds 9 b (i + 1) (lfsr9 reg) := by
  have h1 : reg >>> 1 < 2 ^ 8 := by rw [Nat.shiftRight_eq_div_pow]; have := hr.1; omega
  have e : lfsr9 reg = ((reg >>> 5 ^^^ reg) &&& 1) <<< 8 ||| reg >>> 1 := Nat.shiftLeft_add_eq_or_of_lt h1 _
  refine ⟨?_, fun k hk => ?_⟩
  · rw [e]
    apply Nat.or_lt_two_pow
    · have : (reg >>> 5 ^^^ reg) &&& 1 ≤ 1 := Nat.and_le_right
      rw [Nat.shiftLeft_eq]; omega
    · omega
  · rw [e, Nat.testBit_or, Nat.testBit_shiftLeft, Nat.testBit_shiftRight, Nat.testBit_and, Nat.testBit_xor, Nat.testBit_shiftRight]
    by_cases h8 : k = 8
    · subst h8
      have t1 : reg.testBit 9 = false := Nat.testBit_lt_two_pow hr.1
      have : b (i + 1 + 8) = (b i ^^ b (i + 5)) := by have := h.next i; rwa [show i + 9 = i + 1 + 8 by omega] at this
      rw [this, ← hr.2 5 (by omega), show b i = reg.testBit 0 by rw [hr.2 0 (by omega)]; rfl]
      simp [t1, Bool.xor_comm]
    · have : decide (k ≥ 8) = false := by simp; omega
      rw [this, hr.2 (1 + k) (by omega)]
      simp only [Bool.false_and, Bool.false_or]
      congr 1; omega

theorem lfsr17x8_holds {b : Nat → Bool} (h : ShiftRegister 17 b) {i reg : Nat} (hr : Holds 17 b i reg) :
    Holds 17 b (i + 8) (lfsr17x8 reg) := by
  have h1 : reg >>> 8 < 2 ^ 9 := by rw [Nat.shiftRight_eq_div_pow]; have := hr.1; omega
  have e : lfsr17x8 reg = ((reg >>> 5 ^^^ reg) &&& 0xff) <<< 9 ||| reg >>> 8 := Nat.shiftLeft_add_eq_or_of_lt h1 _
  refine ⟨?_, fun k hk => ?_⟩
  · rw [e]
    apply Nat.or_lt_two_pow
    · have : (reg >>> 5 ^^^ reg) &&& 0xff ≤ 0xff := Nat.and_le_right
      rw [Nat.shiftLeft_eq]; omega
    · omega
  · rw [e, Nat.testBit_or, Nat.testBit_shiftLeft, Nat.testBit_shiftRight, Nat.testBit_and, Nat.testBit_xor, Nat.testBit_shiftRight,
      show (0xff : Nat) = 2 ^ 8 - 1 from rfl, Nat.testBit_two_pow_sub_one]
    by_cases h9 : k ≥ 9
    · have t1 : reg.testBit (8 + k) = false := by
        apply Nat.testBit_lt_two_pow
        have : 2 ^ 17 ≤ 2 ^ (8 + k) := Nat.pow_le_pow_right (by omega) (by omega)
        have := hr.1; omega
      have : b (i + 8 + k) = (b (i + (k - 9)) ^^ b (i + (k - 9) + 5)) := by
        have := h.next (i + (k - 9)); rwa [show i + (k - 9) + 17 = i + 8 + k by omega] at this
      rw [this, t1, hr.2 (5 + (k - 9)) (by omega), hr.2 (k - 9) (by omega)]
      have d1 : decide (k - 9 < 8) = true := by simp; omega
      have d2 : decide (k ≥ 9) = true := by simp; omega
      rw [d1, d2, show i + (5 + (k - 9)) = i + (k - 9) + 5 by omega]
      simp [Bool.xor_comm]
    · have : decide (k ≥ 9) = false := by simp; omega
      rw [this, hr.2 (8 + k) (by omega)]
      simp only [Bool.false_and, Bool.false_or]
      congr 1; omega

theorem iter_succ {α : Type} (f : α → α) : ∀ (n : Nat) (a : α), iter f (n + 1) a = f (iter f n a)
  | 0, _ => rfl
  | n + 1, a => iter_succ f n (f a)

theorem iter_add {α : Type} (f : α → α) (m : Nat) : ∀ (n : Nat) (a : α), iter f (m + n) a = iter f m (iter f n a)
  | 0, _ => rfl
  | n + 1, a => iter_add f m n (f a)

theorem iter9_holds {b : Nat → Bool} (h : ShiftRegister 9 b) (n : Nat) : Holds 9 b n (iter lfsr9 n 0x1ff) := by
  induction n with
  | zero => exact holds_start h
  | succ n ih => rw [iter_succ]; exact lfsr9_holds h ih

theorem iter17_holds {b : Nat → Bool} (h : ShiftRegister 17 b) (n : Nat) : Holds 17 b (8 * n) (iter lfsr17x8 n 0x1ffff) := by
  induction n with
  | zero => exact holds_start h
  | succ n ih => rw [iter_succ]; exact lfsr17x8_holds h ih

/-- Bits of a natural number seen as an integer. -/
theorem bit_nat (n k : Nat) : bit (n : Int) k ↔ n.testBit k = true := by
  unfold bit
  rw [Nat.testBit_eq_decide_div_mod_eq, decide_eq_true_iff]
  constructor
  · intro h
    have : ((n / 2 ^ k % 2 : Nat) : Int) = 1 := by push_cast; exact h
    exact_mod_cast this
  · intro h
    have : ((n / 2 ^ k % 2 : Nat) : Int) = 1 := by rw [h]; rfl
    push_cast at this; exact this

theorem window_nat {b : Nat → Bool} {i v : Nat} (h : v < 256) (hb : ∀ k, k < 8 → v.testBit k = b (i + k)) : Window b i v :=
  ⟨by omega, by omega, fun k hk => by rw [bit_nat, hb k hk]⟩

theorem poly9_bits {b : Nat → Bool} (h : ShiftRegister 9 b) (i : Nat) :
    poly9 i < 256 ∧ ∀ k, k < 8 → (poly9 i).testBit k = b (i + 1 + k) := by
  have hh := iter9_holds h (i + 1)
  unfold poly9
  refine ⟨Nat.lt_of_le_of_lt Nat.and_le_right (by omega), fun k hk => ?_⟩
  rw [Nat.testBit_and, hh.2 k (by omega), show (0xff : Nat) = 2 ^ 8 - 1 from rfl, Nat.testBit_two_pow_sub_one]
  simp [hk]

theorem poly17_bits {b : Nat → Bool} (h : ShiftRegister 17 b) (j : Nat) :
    poly17 j < 256 ∧ ∀ k, k < 8 → (poly17 j).testBit k = b (8 * j + 9 + k) := by
  have hh := iter17_holds h (j + 1)
  unfold poly17
  refine ⟨Nat.lt_of_le_of_lt Nat.and_le_right (by omega), fun k hk => ?_⟩
  rw [Nat.testBit_and, Nat.testBit_shiftRight, hh.2 (1 + k) (by omega), show (0xff : Nat) = 2 ^ 8 - 1 from rfl,
    Nat.testBit_two_pow_sub_one, show 8 * (j + 1) + (1 + k) = 8 * j + 9 + k by omega]
  simp [hk]

/-! ### Periods -/

/-- `n` steps, forcing every intermediate value. -/
def force (f : Nat → Nat) (n : Nat) : Nat → Nat :=
  Nat.rec (motive := fun _ => Nat → Nat) (fun a => a)
    (fun _ ih a => Nat.rec (motive := fun _ => Nat) (ih 0) (fun k _ => ih (k + 1)) (f a)) n

theorem force_eq (f : Nat → Nat) : ∀ (n a : Nat), force f n a = iter f n a
  | 0, _ => rfl
  | n + 1, a => by
    have h : force f (n + 1) a = force f n (f a) := by
      show Nat.rec (motive := fun _ => Nat) (force f n 0) (fun k _ => force f n (k + 1)) (f a) = _
      cases f a <;> rfl
    rw [h, force_eq f n]; rfl

theorem period_of_start {n d : Nat} {b : Nat → Bool} (h : ShiftRegister n b) (hn : 5 < n) (hd : ∀ k, k < n → b (d + k) = true) :
    Period b d := by
  intro i
  induction i using Nat.strongRecOn with
  | _ i ih =>
    by_cases hi : i < n
    · rw [h.start i hi, Nat.add_comm]; exact hd i hi
    · have e := h.next (i - n)
      have e2 := h.next (i - n + d)
      rw [show i - n + n = i by omega] at e
      rw [show i - n + d + n = i + d by omega, show i - n + d + 5 = i - n + 5 + d by omega,
        ih (i - n) (by omega), ih (i - n + 5) (by omega)] at e2
      rw [e, e2]

theorem Spec.Period.mul {b : Nat → Bool} {d : Nat} (h : Period b d) (k : Nat) : Period b (k * d) := by
  intro i
  induction k with
  | zero => simp
  | succ k ih => rw [Nat.succ_mul, ← Nat.add_assoc, h, ih]

/-- The greatest common divisor of two periods is a period. -/
theorem Spec.Period.gcd {b : Nat → Bool} (m : Nat) : ∀ n, Period b m → Period b n → Period b (Nat.gcd m n) := by
  induction m using Nat.strongRecOn with
  | _ m ih =>
    intro n hm hn
    by_cases h0 : m = 0
    · subst h0; rw [Nat.gcd_zero_left]; exact hn
    · rw [Nat.gcd_rec]
      refine ih (n % m) (Nat.mod_lt _ (by omega)) m (fun i => ?_) hm
      have h1 := hn i
      have h2 := hm.mul (n / m) (i + n % m)
      rw [← h1, ← h2]
      congr 1
      have := Nat.div_add_mod n m
      rw [Nat.mul_comm] at this
      omega

theorem period511 {b : Nat → Bool} (h : ShiftRegister 9 b) : Period b 511 := by
  apply period_of_start h (by omega)
  intro k hk
  have hh := iter9_holds h 511
  have e : iter lfsr9 511 0x1ff = 0x1ff := by rw [← force_eq]; decide +kernel
  rw [← hh.2 k hk, e, show (0x1ff : Nat) = 2 ^ 9 - 1 from rfl, Nat.testBit_two_pow_sub_one]
  simpa using hk

theorem chunk (n k a m c : Nat) (h : iter lfsr17x8 n 0x1ffff = a) (hk : force lfsr17x8 k a = c) (hm : k + n = m) :
    iter lfsr17x8 m 0x1ffff = c := by
  rw [← hm, iter_add, h, ← force_eq, hk]

theorem run16383 : iter lfsr17x8 16383 0x1ffff = 0x1ff83 := by
  have h0 : iter lfsr17x8 0 0x1ffff = 0x1ffff := rfl
  have h1 := chunk 0 1024 131071 1024 11185 h0 (by decide +kernel) rfl
  have h2 := chunk 1024 1024 11185 2048 112412 h1 (by decide +kernel) rfl
  have h3 := chunk 2048 1024 112412 3072 110904 h2 (by decide +kernel) rfl
  have h4 := chunk 3072 1024 110904 4096 72816 h3 (by decide +kernel) rfl
  have h5 := chunk 4096 1024 72816 5120 125479 h4 (by decide +kernel) rfl
  have h6 := chunk 5120 1024 125479 6144 61503 h5 (by decide +kernel) rfl
  have h7 := chunk 6144 1024 61503 7168 28544 h6 (by decide +kernel) rfl
  have h8 := chunk 7168 1024 28544 8192 16128 h7 (by decide +kernel) rfl
  have h9 := chunk 8192 1024 16128 9216 125283 h8 (by decide +kernel) rfl
  have h10 := chunk 9216 1024 125283 10240 102968 h9 (by decide +kernel) rfl
  have h11 := chunk 10240 1024 102968 11264 51199 h10 (by decide +kernel) rfl
  have h12 := chunk 11264 1024 51199 12288 28672 h11 (by decide +kernel) rfl
  have h13 := chunk 12288 1024 28672 13312 52145 h12 (by decide +kernel) rfl
  have h14 := chunk 13312 1024 52145 14336 8319 h13 (by decide +kernel) rfl
  have h15 := chunk 14336 1024 8319 15360 127431 h14 (by decide +kernel) rfl
  have h16 := chunk 15360 1023 127431 16383 130947 h15 (by decide +kernel) rfl
  exact h16

theorem period131071 {b : Nat → Bool} (h : ShiftRegister 17 b) : Period b 131071 := by
  apply period_of_start h (by omega)
  intro k hk
  have e1 := run16383
  have e2 : iter lfsr17x8 16384 0x1ffff = 0xffff := by rw [iter_succ lfsr17x8 16383, e1]; decide
  by_cases h0 : k = 0
  · subst h0
    have := (iter17_holds h 16383).2 7 (by omega)
    rw [e1] at this
    exact this.symm
  · have := (iter17_holds h 16384).2 (k - 1) (by omega)
    rw [e2, show 8 * 16384 + (k - 1) = 131071 + k by omega, show (0xffff : Nat) = 2 ^ 16 - 1 from rfl,
      Nat.testBit_two_pow_sub_one] at this
    rw [← this]; simp; omega

theorem gcd131071 {d : Nat} (h0 : 0 < d) (h : d < 131071) : Nat.gcd d 131071 = 1 := by
  have table : ∀ k, k < 363 → 131071 % k = 0 → k = 1 := by decide +kernel
  obtain ⟨m, hm⟩ := Nat.gcd_dvd_right d 131071
  have hle : Nat.gcd d 131071 ≤ d := Nat.gcd_le_left _ h0
  have hpos : 0 < Nat.gcd d 131071 := Nat.gcd_pos_of_pos_left _ h0
  generalize Nat.gcd d 131071 = g at hm hle hpos
  by_cases hg : g < 363
  · exact table g hg (by rw [hm]; exact Nat.mul_mod_right g m)
  · have hm2 : m < 363 := by
      apply Decidable.byContradiction
      intro hc
      have : 363 * 363 ≤ g * m := Nat.mul_le_mul (by omega) (by omega)
      omega
    have := table m hm2 (by rw [hm]; exact Nat.mul_mod_left g m)
    subst this
    omega

theorem const_of_period_one {b : Nat → Bool} (h : Period b 1) : ∀ i, b i = b 0
  | 0 => rfl
  | i + 1 => (h i).trans (const_of_period_one h i)

theorem minimal17 {b : Nat → Bool} (h : ShiftRegister 17 b) {d : Nat} (h0 : 0 < d) (hd : d < 131071) : ¬ Period b d := by
  intro hp
  have h1 : Period b 1 := gcd131071 h0 hd ▸ hp.gcd d 131071 (period131071 h)
  have := h.next 0
  rw [Nat.zero_add, const_of_period_one h1 17, const_of_period_one h1 (0 + 5), h.start 0 (by omega)] at this
  cases this

theorem minimal9 {b : Nat → Bool} (h : ShiftRegister 9 b) {d : Nat} (h0 : 0 < d) (hd : d < 511) : ¬ Period b d := by
  intro hp
  have hg := hp.gcd d 511 (period511 h)
  have table : ∀ g, g < 511 → 511 % g = 0 → g = 1 ∨ g = 7 ∨ g = 73 := by decide +kernel
  obtain ⟨m, hm⟩ := Nat.gcd_dvd_right d 511
  have hle : Nat.gcd d 511 ≤ d := Nat.gcd_le_left _ h0
  generalize Nat.gcd d 511 = g at hg hm hle
  have key : g = 1 ∨ g = 7 ∨ g = 73 := table g (by omega) (by rw [hm]; exact Nat.mul_mod_right g m)
  have n9 : b 9 = false := by
    have := h.next 0
    rw [Nat.zero_add, h.start 0 (by omega), h.start (0 + 5) (by omega)] at this
    exact this
  rcases key with rfl | rfl | rfl
  · rw [const_of_period_one hg 9, h.start 0 (by omega)] at n9; cases n9
  · have := hg 2
    rw [h.start 2 (by omega)] at this
    rw [show (9 : Nat) = 2 + 7 by rfl, this] at n9; cases n9
  · have hh := iter9_holds h 73
    have e : iter lfsr9 73 0x1ff ≠ 0x1ff := by rw [← force_eq]; decide +kernel
    apply e
    refine holds_eq (n := 9) (b := b) (i := 73) hh ⟨by omega, fun k hk => ?_⟩
    rw [show (0x1ff : Nat) = 2 ^ 9 - 1 from rfl, Nat.testBit_two_pow_sub_one, Nat.add_comm, hg k, h.start k hk]
    simpa using hk

theorem Spec.Period.mod {b : Nat → Bool} {d : Nat} (h : Period b d) (i k : Nat) : b (i % d + k) = b (i + k) := by
  have := h.mul (i / d) (i % d + k)
  rw [← this]
  congr 1
  have := Nat.div_add_mod i d
  rw [Nat.mul_comm] at this
  omega

/-! ### RANDOM -/

theorem random17 {b : Nat → Bool} (h : ShiftRegister 17 b) (i : Nat) :
    Window b (i + 9) (band (shr (poly17 (i / 8)) (i % 8) + shl (poly17 (i / 8 + 1)) (8 - i % 8)) 0xff) := by
  have hA := poly17_bits h (i / 8)
  have hB := poly17_bits h (i / 8 + 1)
  have hr : i % 8 < 8 := Nat.mod_lt _ (by omega)
  have hi : 8 * (i / 8) + i % 8 = i := Nat.div_add_mod i 8
  generalize poly17 (i / 8) = A at *
  generalize poly17 (i / 8 + 1) = B at *
  generalize i % 8 = r at *
  generalize i / 8 = j at *
  have e : band (shr A r + shl B (8 - r)) 0xff = (((B <<< (8 - r) ||| A >>> r) &&& 0xff : Nat) : Int) := by
    have hlt : A >>> r < 2 ^ (8 - r) := by
      rw [Nat.shiftRight_eq_div_pow, Nat.div_lt_iff_lt_mul (Nat.pow_pos (by omega)), ← Nat.pow_add,
        show 8 - r + r = 8 by omega]
      omega
    rw [← Nat.shiftLeft_add_eq_or_of_lt hlt, Nat.shiftLeft_eq, Nat.shiftRight_eq_div_pow]
    show band _ ((255 : Nat) : Int) = _
    have : shr (A : Int) r + shl (B : Int) (8 - r) = ((B * 2 ^ (8 - r) + A / 2 ^ r : Nat) : Int) := by
      unfold shr shl; push_cast; exact Int.add_comm _ _
    rw [this]; rfl
  rw [e]
  refine window_nat (Nat.lt_of_le_of_lt Nat.and_le_right (by omega)) fun k hk => ?_
  rw [Nat.testBit_and, Nat.testBit_or, Nat.testBit_shiftLeft, Nat.testBit_shiftRight, show (0xff : Nat) = 2 ^ 8 - 1 from rfl,
    Nat.testBit_two_pow_sub_one]
  by_cases hc : k ≥ 8 - r
  · have t1 : A.testBit (r + k) = false := by
      apply Nat.testBit_lt_two_pow
      have : 2 ^ 8 ≤ 2 ^ (r + k) := Nat.pow_le_pow_right (by omega) (by omega)
      omega
    rw [t1, hB.2 (k - (8 - r)) (by omega), show 8 * (j + 1) + 9 + (k - (8 - r)) = i + 9 + k by omega]
    simp [hk, hc]
  · have t0 : decide (k ≥ 8 - r) = false := by simpa using hc
    rw [t0, hA.2 (r + k) (by omega), show 8 * j + 9 + (r + k) = i + 9 + k by omega]
    simp [hk]

/-! ### The position in the sequence -/

namespace Pokey

variable {cfg : Cfg}

/-- Noise state: position, reset state, AUDCTL. -/
def Noise (x : Int) (i : Bool) (a : Int) (p : Pokey) : Prop := p.polyIndex = x ∧ p.init = i ∧ p.audctl = a

theorem noise_stable (x : Int) (i : Bool) (a : Int) : Stable cfg (fun _ => True) (Noise x i a) where
  tick _ _ _ h := h
  out _ _ _ h := h
  slope p j c _ h := by
    refine (slope_frame p j c).mono (fun _ _ => trivial) ?_
    rintro q ⟨b, o, rfl⟩
    exact h
  poly := trivial

variable {x : Int} {i : Bool} {a : Int} {p : Pokey}

theorem noise_until (h : Noise x i a p) (c : Int) : XPost (fun _ => True) (Noise x i a) (generateUntil cfg p c) :=
  (noise_stable x i a).loop trivial c _ p h

theorem noise_tune (h : Noise x i a p) (v : Int) : Noise x i a (tune1 p v) ∧ Noise x i a (tune2 p v) ∧
    Noise x i a (tune3 p v) ∧ Noise x i a (tune4 p v) := by
  unfold tune1 tune2 tune3 tune4
  refine ⟨?_, ?_, ?_, ?_⟩ <;> repeat' split
  all_goals exact h

theorem noise_pairs (h : Noise x i a p) : Noise x i a (audctlPair3 (audctlPair1 p)) := by
  have h1 : Noise x i a (audctlPair1 p) := by unfold audctlPair1; repeat' split
                                              all_goals exact h
  unfold audctlPair3; repeat' split
  all_goals exact h1

theorem noise_pokeAudf (h : Noise x i a p) (n : Nat) {tune : Pokey → Int → Pokey} (ht : ∀ q v, Noise x i a q → Noise x i a (tune q v))
    (d c : Int) : XPost (fun _ => True) (Noise x i a) (pokeAudf cfg p n tune d c) := by
  unfold pokeAudf
  exact XPost.ite (fun _ => h) fun _ => XPost.bind (noise_until h c) fun q hq => ht _ _ hq

theorem noise_addUnmuted (h : Noise x i a p) (n : Nat) (c d : Int) : XPost (fun _ => True) (Noise x i a) (addUnmuted cfg p n c d) := by
  unfold addUnmuted
  refine XPost.ite (fun _ => (addDelta_frame p c d).mono (fun _ _ => trivial) ?_) fun _ => h
  rintro q ⟨b, o, rfl⟩; exact h

theorem noise_setAudc (h : Noise x i a p) (n : Nat) (d c : Int) : XPost (fun _ => True) (Noise x i a) (setAudc cfg p n d c) := by
  unfold setAudc
  refine XPost.ite (fun _ => h) fun _ => XPost.bind (noise_until h c) fun q hq => ?_
  have hq' : Noise x i a (q.setCh n { q.ch n with audc := d }) := hq
  dsimp only
  unfold storeVolume
  refine XPost.ite (fun _ => XPost.bind (noise_addUnmuted hq' n c _) fun r hr => hr) fun _ => ?_
  exact XPost.ite (fun _ => XPost.bind (noise_addUnmuted hq' n c _) fun r hr => hr) fun _ => hq'

theorem noise_irqenOne (h : Noise x i a p) (n : Nat) (d c t : Int) :
    XPost (fun _ => True) (fun r => Noise x i a r.2) (irqenOne p n d c t) := by
  unfold irqenOne
  refine XPost.ite (fun _ => XPost.ite (fun _ => ?_) fun _ => h) fun _ => h
  cases nextTimer (p.ch n).period c (c - (p.ch n).tick).toNat (p.ch n).tick with
  | ok t => exact h
  | error e => trivial

theorem noise_poke (h : Noise x i a p) (addr d c : Int) (hs : addr % 16 ≠ 15) (a' : Int) (h8 : addr % 16 = 8 → a' = d)
    (hn8 : addr % 16 ≠ 8 → a' = a) :
    XPost (fun _ => True) (fun r => Noise x i a' r.2) (poke cfg p addr d c) := by
  have hr : band addr 0xf = addr % 16 := band_f addr
  unfold poke
  rw [hr]
  split <;> rename_i e
  case h_9 =>
    rw [h8 (by omega)]
    refine XPost.noEvent ?_
    unfold pokeAudctl
    refine XPost.ite (fun hd => hd ▸ ⟨h.1, h.2.1, rfl⟩) fun _ => XPost.bind (noise_until h c) fun q hq => ?_
    have : Noise x i d (q.setAudctl d) := ⟨hq.1, hq.2.1, rfl⟩
    exact noise_pairs this
  case h_12 => exact absurd e (by omega)
  case h_13 =>
    rename_i n0 n1 n2 n3 n4 n5 n6 n7 n8 n9 ne nf
    rw [hn8 (by intro h8; rw [h8] at n9; exact n9 rfl)]
    exact h
  all_goals rw [hn8 (by omega)]
  · exact XPost.noEvent (noise_pokeAudf h 0 (fun q v hq => (noise_tune hq v).1) d c)
  · exact XPost.noEvent (noise_setAudc h 0 d c)
  · exact XPost.noEvent (noise_pokeAudf h 1 (fun q v hq => (noise_tune hq v).2.1) d c)
  · exact XPost.noEvent (noise_setAudc h 1 d c)
  · exact XPost.noEvent (noise_pokeAudf h 2 (fun q v hq => (noise_tune hq v).2.2.1) d c)
  · exact XPost.noEvent (noise_setAudc h 2 d c)
  · exact XPost.noEvent (noise_pokeAudf h 3 (fun q v hq => (noise_tune hq v).2.2.2) d c)
  · exact XPost.noEvent (noise_setAudc h 3 d c)
  · exact h
  · unfold pokeIrqen
    have h0 : Noise x i a { p with irqst := bor p.irqst (bxor d 0xff) } := h
    refine XPost.bind (noise_irqenOne h0 3 d c never) fun r hr => ?_
    refine XPost.bind (noise_irqenOne hr 1 d c r.1) fun r1 hr1 => ?_
    exact noise_irqenOne hr1 0 d c r1.1

theorem noise_checkIrq (h : Noise x i a p) (c n : Int) : Noise x i a (checkIrq p c n).2 := by
  have one : ∀ (q : Pokey) (k : Nat) (m : Int), Noise x i a q → Noise x i a (checkIrqOne q k c m).2 := by
    intro q k m hq; unfold checkIrqOne; split <;> exact hq
  exact one _ _ _ (one _ _ _ (one _ _ _ h))

/-- The length of all noise sequences together, as used for the position counter. -/
def cycleLength (nine : Bool) : Int := if nine then 15 * 31 * 511 else 15 * 31 * 131071

/-- The chip is at position `x` of the sequence. -/
structure At (nine : Bool) (x : Int) (p : Pokey) : Prop where
  pos : 0 ≤ p.polyIndex
  congr : (p.polyIndex - x) % cycleLength nine = 0
  running : p.init = false
  mode : bit p.audctl 7 ↔ nine = true

theorem cycleLength_pos (nine : Bool) : 0 < cycleLength nine := by cases nine <;> decide

theorem At.of {nine : Bool} {x : Int} {p q : Pokey} (h : At nine x p) (k : Noise p.polyIndex p.init p.audctl q) : At nine x q :=
  ⟨k.1 ▸ h.pos, k.1 ▸ h.congr, k.2.1.trans h.running, k.2.2 ▸ h.mode⟩

theorem step_at {nine : Bool} {x : Int} {p : Pokey} (h : At nine x p) (e : ChipEvent) (he : e.KeepsNoise nine) :
    XPost (fun _ => True) (At nine (x + elapsed [e])) (step cfg p e) := by
  have hn : Noise p.polyIndex p.init p.audctl p := ⟨rfl, rfl, rfl⟩
  have z : x + 0 = x := by omega
  cases e with
  | write addr d c =>
    show XPost _ (At nine (x + 0)) _
    rw [z]
    refine XPost.map ((noise_poke hn addr d c he.1 (if addr % 16 = 8 then d else p.audctl) (fun k => if_pos k)
      (fun k => if_neg k)).mono (fun _ x => x) fun r hr => ?_)
    refine ⟨hr.1 ▸ h.pos, hr.1 ▸ h.congr, hr.2.1.trans h.running, ?_⟩
    rw [hr.2.2]
    split
    · exact he.2 ‹_›
    · exact h.mode
  | start =>
    show XPost _ (At nine (x + 0)) p.startFrame
    rw [z]
    exact XPost.ite (fun _ => h.of ⟨rfl, rfl, rfl⟩) fun _ => trivial
  | finish c =>
    show XPost _ (At nine (x + (c + 0))) (endFrame cfg p c)
    unfold endFrame
    refine XPost.bind (noise_until hn c) fun q hq => ?_
    have hm : (if band q.audctl 0x80 ≠ 0 then (15 * 31 * 511 : Int) else 15 * 31 * 131071) = cycleLength nine := by
      have k := band_pow_iff q.audctl 7
      rw [hq.2.2] at k ⊢
      have k' : band p.audctl 0x80 ≠ 0 ↔ nine = true := k.trans h.mode
      unfold cycleLength
      by_cases hb : band p.audctl 0x80 ≠ 0
      · rw [if_pos hb, if_pos (k'.1 hb)]
      · rw [if_neg hb, if_neg (fun y => hb (k'.2 y))]
    have hM := cycleLength_pos nine
    have hc : 0 ≤ c := he
    have h0 := h.pos
    have h1 := h.congr
    show At nine _ _
    refine ⟨?_, ?_, hq.2.1.trans h.running, by show bit q.audctl 7 ↔ _; rw [hq.2.2]; exact h.mode⟩
    · dsimp only
      rw [hm, hq.1]
      split <;> omega
    · dsimp only
      rw [hm, hq.1]
      split
      · rw [show p.polyIndex + c - cycleLength nine - (x + (c + 0)) = (p.polyIndex - x) - cycleLength nine by omega,
          Int.sub_emod_right, h1]
      · rw [show p.polyIndex + c - (x + (c + 0)) = p.polyIndex - x by omega, h1]
  | external c d =>
    show XPost _ (At nine (x + 0)) _
    rw [z]
    refine (addExternalDelta_frame p c d).mono (fun _ _ => trivial) ?_
    rintro q ⟨b, rfl⟩
    exact h.of ⟨rfl, rfl, rfl⟩
  | irq c n =>
    show At nine (x + 0) _
    rw [z]; exact h.of (noise_checkIrq hn c n)
  | timers c =>
    show At nine (x + 0) _
    rw [z]; exact h.of ⟨rfl, rfl, rfl⟩
  | mute k =>
    show At nine (x + 0) _
    rw [z]; exact h.of ⟨rfl, rfl, rfl⟩
  | sample n f =>
    show XPost _ (At nine (x + 0)) ((p.storeSample n f).map Prod.snd)
    rw [z]
    unfold storeSample
    refine XPost.map (XPost.ite (fun _ => ?_) fun _ => trivial)
    exact h.of ⟨rfl, rfl, rfl⟩

theorem elapsed_cons (e : ChipEvent) (es : List ChipEvent) : elapsed (e :: es) = elapsed [e] + elapsed es := by
  cases e <;> simp [elapsed]

theorem run_at {nine : Bool} : ∀ (es : List ChipEvent) {x : Int} {p : Pokey}, At nine x p → (∀ e ∈ es, e.KeepsNoise nine) →
    XPost (fun _ => True) (At nine (x + elapsed es)) (run cfg p es)
  | [], x, p, h, _ => by
    show At nine (x + 0) p
    rw [Int.add_zero]; exact h
  | e :: es, x, p, h, hs => by
    refine XPost.bind (step_at h e (hs e (by simp))) fun q hq => ?_
    have := run_at es hq fun y hy => hs y (by simp [hy])
    rw [Int.add_assoc, ← elapsed_cons] at this
    exact this

end Pokey

end Asap
