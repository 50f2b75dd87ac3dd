import Verif.Lemmas.Noise

/-! # C24: the noise generators -/

namespace Asap.Props
open Asap Asap.Spec Asap.Pokey

/-- The sequence of an `n`-bit register, computed from its definition. -/
def register (n i : Nat) : Bool :=
  if h : n ≤ 5 ∨ i < n then true else register n (i - n) ^^ register n (i - n + 5)
termination_by i
decreasing_by all_goals omega

/-- C24.  There is such a sequence, so the theorems below are about something. -/
theorem C24_sequence_exists (n : Nat) (h : 5 < n) : ShiftRegister n (register n) := by
  refine ⟨fun k hk => ?_, fun k => ?_⟩
  · unfold register; rw [dif_pos (Or.inr hk)]
  · rw [register, dif_neg (by omega), show k + n - n = k by omega]

/-- C24.  Entry `i` of the 9-bit table is the window of the 9-bit register sequence at `i + 1`. -/
theorem C24_table9 (b : Nat → Bool) (h : ShiftRegister 9 b) (i : Nat) : Window b (i + 1) (poly9 i) :=
  window_nat (poly9_bits h i).1 (poly9_bits h i).2

/-- C24.  Entry `j` of the 17-bit table is the window of the 17-bit register sequence at `8 j + 9`. -/
theorem C24_table17 (b : Nat → Bool) (h : ShiftRegister 17 b) (j : Nat) : Window b (8 * j + 9) (poly17 j) :=
  window_nat (poly17_bits h j).1 (poly17_bits h j).2

/-- C24.  The 9-bit sequence has the maximal period 511, and no shorter one. -/
theorem C24_period9 (b : Nat → Bool) (h : ShiftRegister 9 b) : Period b 511 ∧ ∀ d, 0 < d → d < 511 → ¬ Period b d :=
  ⟨period511 h, fun _ h0 hd => minimal9 h h0 hd⟩

/-- C24.  The 17-bit sequence has the maximal period 131071, and no shorter one. -/
theorem C24_period17 (b : Nat → Bool) (h : ShiftRegister 17 b) :
    Period b 131071 ∧ ∀ d, 0 < d → d < 131071 → ¬ Period b d :=
  ⟨period131071 h, fun _ h0 hd => minimal17 h h0 hd⟩

theorem at_mod {nine : Bool} {x c : Int} {p : Pokey} (h : At nine x p) (hc : 0 ≤ c) (hx : 0 ≤ x) (d k : Nat)
    (hd : cycleLength nine = d * k) : (c + p.polyIndex) % (d : Int) = ((c + x) % (d : Int)) := by
  have h1 := h.congr
  rw [hd] at h1
  have h2 : (p.polyIndex - x) % (d : Int) = 0 := by
    have := Int.dvd_of_emod_eq_zero h1
    exact Int.emod_eq_zero_of_dvd (Int.dvd_trans ⟨k, rfl⟩ this)
  obtain ⟨m, hm⟩ := Int.dvd_of_emod_eq_zero h2
  have : c + p.polyIndex = c + x + d * m := by omega
  rw [this, Int.add_mul_emod_self_left]

theorem toNat_mod {a : Int} (h : 0 ≤ a) (d : Nat) : (a % (d : Int)).toNat = a.toNat % d := by
  obtain ⟨n, rfl⟩ := Int.eq_ofNat_of_zero_le h
  rfl

theorem window_mod {b : Nat → Bool} {d : Nat} (h : Period b d) {i j : Nat} {v : Int} (hw : Window b (i % d + j) v) :
    Window b (i + j) v := by
  refine ⟨hw.1, hw.2.1, fun k hk => (hw.2.2 k hk).trans ?_⟩
  rw [Nat.add_assoc, h.mod, Nat.add_assoc]

/-- A chip before its initialisation. -/
def junk' : Pokey :=
  { ch := fun _ => ⟨1, 2, 3, 4, 5, 6, 7, 8⟩, audctl := 9, skctl := 10, irqst := 11, init := true, div := 12, reload1 := 13
    reload3 := 14, polyIndex := 15, bufLen := 16, buf := fun i => i, sumIn := 17, sumOut := 0, iirRate := 18
    iirAcc := 19, trailing := 20 }

/-- The chip selected by the address in the pair `q` is `p`. -/
def Selects (q : Pair) (addr : Int) (p : Pokey) : Prop := p = if band addr q.extraMask ≠ 0 then q.extra else q.base

theorem random17_at {q : Pair} {addr c x : Int} {p : Pokey} (hp : Selects q addr p) (ha : addr % 16 = 10)
    (h : At false x p) (hx : 0 ≤ x) (hc : 0 ≤ c) (b : Nat → Bool) (hb : ShiftRegister 17 b) :
    ∃ v, q.peek addr c = .ok v ∧ Window b ((c + x).toNat + 9) v := by
  have h0 := h.pos
  have hm : band p.audctl 0x80 ≠ 0 ↔ false = true := (band_pow_iff p.audctl 7).trans h.mode
  unfold Pair.peek
  rw [← hp, band_f, ha]
  dsimp only
  rw [if_pos rfl, h.running, if_neg (by simp), if_neg (by omega), if_neg (fun y => by cases hm.1 y)]
  refine ⟨_, rfl, ?_⟩
  have e := at_mod h hc hx 131071 465 (by decide)
  rw [show (131071 : Int) = ((131071 : Nat) : Int) from rfl, e, toNat_mod (by omega)]
  exact window_mod (period131071 hb) (random17 hb _)

theorem random9_at {q : Pair} {addr c x : Int} {p : Pokey} (hp : Selects q addr p) (ha : addr % 16 = 10)
    (h : At true x p) (hx : 0 ≤ x) (hc : 0 ≤ c) (b : Nat → Bool) (hb : ShiftRegister 9 b) :
    ∃ v, q.peek addr c = .ok v ∧ Window b ((c + x).toNat + 1) v := by
  have h0 := h.pos
  have hm : band p.audctl 0x80 ≠ 0 ↔ true = true := (band_pow_iff p.audctl 7).trans h.mode
  unfold Pair.peek
  rw [← hp, band_f, ha]
  dsimp only
  rw [if_pos rfl, h.running, if_neg (by simp), if_neg (by omega), if_pos (hm.2 rfl)]
  refine ⟨_, rfl, ?_⟩
  have e := at_mod h hc hx 511 465 (by decide)
  rw [show (511 : Int) = ((511 : Nat) : Int) from rfl, e, toNat_mod (by omega)]
  exact window_mod (period511 hb) (C24_table9 b hb _)

theorem elapsed_nonneg {nine : Bool} : ∀ es : List ChipEvent, (∀ e ∈ es, e.KeepsNoise nine) → 0 ≤ elapsed es
  | [], _ => Int.le_refl 0
  | e :: es, h => by
    rw [elapsed_cons]
    have h1 := elapsed_nonneg es fun y hy => h y (by simp [hy])
    have h2 := h e (by simp)
    cases e <;> simp only [elapsed] <;> first | omega | (have : (0 : Int) ≤ _ := h2; omega)

/-- C24.  On a chip fresh from initialisation, after any history that leaves SKCTL and bit 7 of AUDCTL alone, RANDOM read at
cycle `c` of the current frame is the window of the 17-bit sequence at the number of cycles elapsed since the start. -/
theorem C24_random_after_start (cfg : Cfg) (p₀ p : Pokey) (rate : Int) (es : List ChipEvent) (hs : ∀ e ∈ es, e.KeepsNoise false)
    (hrun : run cfg (p₀.initChip rate) es = .ok p) (q : Pair) (addr c : Int) (hq : Selects q addr p)
    (ha : addr % 16 = 10) (hc : 0 ≤ c) (b : Nat → Bool) (hb : ShiftRegister 17 b) :
    ∃ v, q.peek addr c = .ok v ∧ Window b ((c + elapsed es).toNat + 9) v := by
  have h0 : At false 0 (p₀.initChip rate) := ⟨by show (0 : Int) ≤ 15 * 31 * 131071; decide, by
    show ((15 * 31 * 131071 - 0 : Int)) % cycleLength false = 0; decide, rfl, by show bit 0 7 ↔ _; decide⟩
  have := run_at (cfg := cfg) es h0 hs
  rw [hrun, Int.zero_add] at this
  exact random17_at hq ha this (elapsed_nonneg es hs) hc b hb

/-- C24.  When a song holds the chip in reset (SKCTL bits 0-1 zero) and releases it at cycle `c₀` of a frame, then after any
history that leaves SKCTL and bit 7 of AUDCTL alone, RANDOM is the window of the 9- or 17-bit sequence selected by AUDCTL bit 7,
at the number of cycles elapsed since the release.  (One less: the sequence starts at the cycle after.) -/
theorem C24_random_after_reset (cfg : Cfg) (p p₁ p₂ : Pokey) (nine : Bool) (hmode : bit p.audctl 7 ↔ nine = true)
    (hinit : p.init = true) (waddr data c₀ : Int) (hw : waddr % 16 = 15) (hd : data % 4 ≠ 0) (hne : data ≠ p.skctl)
    (hc0 : 0 ≤ c₀ ∧ c₀ < 100000)
    (hrel : (p.poke cfg waddr data c₀).map Prod.snd = .ok p₁)
    (es : List ChipEvent) (hs : ∀ e ∈ es, e.KeepsNoise nine) (hrun : run cfg p₁ es = .ok p₂)
    (q : Pair) (addr c : Int) (hq : Selects q addr p₂) (ha : addr % 16 = 10) (hc : 0 ≤ c)
    (hlater : c₀ < c + elapsed es)
    (b9 b17 : Nat → Bool) (h9 : ShiftRegister 9 b9) (h17 : ShiftRegister 17 b17) :
    ∃ v, q.peek addr c = .ok v ∧
      if nine then Window b9 ((c + elapsed es - c₀ - 1).toNat + 1) v else Window b17 ((c + elapsed es - c₀ - 1).toNat + 9) v := by
  have hM : 237615 ≤ cycleLength nine := by cases nine <;> decide
  have h1 : At nine (cycleLength nine - 1 - c₀) p₁ := by
    have e15 : (band waddr 0xf).toNat = 0xf := by rw [band_f, hw]; rfl
    unfold poke at hrel
    rw [e15] at hrel
    unfold pokeSkctl at hrel
    rw [if_neg hne] at hrel
    have hu := noise_until (cfg := cfg) (show Noise p.polyIndex p.init p.audctl p from ⟨rfl, rfl, rfl⟩) c₀
    cases hg : generateUntil cfg p c₀ with
    | error e => rw [hg] at hrel; cases hrel
    | ok r =>
      rw [hg] at hrel hu
      have hr : Noise p.polyIndex p.init p.audctl r := hu
      have e : p₁ = ((((r.setSkctl data c₀).initMute c₀).muteCh 2 (decide (band data 0x10 ≠ 0)) muteSerial c₀).muteCh 3
        (decide (band data 0x10 ≠ 0)) muteSerial c₀) := by
        have : (Except.ok _ : X Pokey) = Except.ok p₁ := hrel
        injection this with this
        exact this.symm
      have b3 : band data 3 ≠ 0 := by rw [band_3]; exact hd
      have hpoly : p₁.polyIndex = cycleLength nine - 1 - c₀ := by
        rw [e]
        show (if r.init = true ∧ band data 3 ≠ 0 then _ else r.polyIndex) = _
        rw [if_pos ⟨hr.2.1.trans hinit, b3⟩, hr.2.2]
        have k' : band p.audctl 0x80 ≠ 0 ↔ nine = true := (band_pow_iff p.audctl 7).trans hmode
        unfold cycleLength
        by_cases hb : band p.audctl 0x80 ≠ 0
        · rw [if_pos hb, if_pos (k'.1 hb)]
        · rw [if_neg hb, if_neg (fun y => hb (k'.2 y))]
      refine ⟨by omega, by rw [hpoly, Int.sub_self]; exact Int.zero_emod _, ?_, ?_⟩
      · rw [e]; show decide (band data 3 = 0) = false; simpa using b3
      · rw [e]; show bit r.audctl 7 ↔ _; rw [hr.2.2]; exact hmode
  have h2 := run_at (cfg := cfg) es h1 hs
  rw [hrun] at h2
  have h2 : At nine (cycleLength nine - 1 - c₀ + elapsed es) p₂ := h2
  have he := elapsed_nonneg es hs
  cases nine with
  | true =>
    obtain ⟨v, hv, hwin⟩ := random9_at hq ha h2 (by omega) hc b9 h9
    refine ⟨v, hv, ?_⟩
    rw [if_pos rfl]
    have hl : cycleLength true = 237615 := rfl
    rw [hl] at hwin
    have e : (c + (237615 - 1 - c₀ + elapsed es)).toNat = (c + elapsed es - c₀ - 1).toNat + 465 * 511 := by omega
    refine ⟨hwin.1, hwin.2.1, fun k hk => (hwin.2.2 k hk).trans ?_⟩
    have := (period511 h9).mul 465 ((c + elapsed es - c₀ - 1).toNat + 1 + k)
    rw [← this, e]
    rw [show (c + elapsed es - c₀ - 1).toNat + 465 * 511 + 1 + k = (c + elapsed es - c₀ - 1).toNat + 1 + k + 465 * 511 by omega]
  | false =>
    obtain ⟨v, hv, hwin⟩ := random17_at hq ha h2 (by omega) hc b17 h17
    refine ⟨v, hv, ?_⟩
    rw [if_neg (by simp)]
    have hl : cycleLength false = 60948015 := rfl
    rw [hl] at hwin
    have e : (c + (60948015 - 1 - c₀ + elapsed es)).toNat = (c + elapsed es - c₀ - 1).toNat + 465 * 131071 := by omega
    refine ⟨hwin.1, hwin.2.1, fun k hk => (hwin.2.2 k hk).trans ?_⟩
    have := (period131071 h17).mul 465 ((c + elapsed es - c₀ - 1).toNat + 9 + k)
    rw [← this, e]
    rw [show (c + elapsed es - c₀ - 1).toNat + 465 * 131071 + 9 + k = (c + elapsed es - c₀ - 1).toNat + 9 + k + 465 * 131071 by omega]

/-- C24.  While the chip is held in reset, RANDOM reads 0xFF. -/
theorem C24_random_in_reset (q : Pair) (p : Pokey) (addr c : Int) (hq : Selects q addr p) (ha : addr % 16 = 10)
    (h : p.init = true) : q.peek addr c = .ok 0xff := by
  unfold Pair.peek
  rw [← hq, band_f, ha]
  dsimp only
  rw [if_pos rfl, h]
  rfl

/-- C24.  The noise that drives a channel: the long sequences are sampled at the same position, one bit at a time. -/
theorem C24_noise_bit (audc audctl : Int) (poly : Int) (h : 0 ≤ poly) (b9 b17 : Nat → Bool) (h9 : ShiftRegister 9 b9)
    (h17 : ShiftRegister 17 b17) (hac : band audc 0x40 = 0) :
    polyOut audc audctl poly = if audctl < 0x80 then (if b17 (poly.toNat + 9) then 1 else 0)
      else (if b9 (poly.toNat + 1) then 1 else 0) := by
  unfold polyOut
  rw [if_neg (by simpa using hac), band_1]
  by_cases ha : audctl < 0x80
  · rw [if_pos ha, if_pos ha]
    have hn : 0 ≤ poly % 131071 ∧ poly % 131071 < 131071 := ⟨Int.emod_nonneg _ (by decide), Int.emod_lt_of_pos _ (by decide)⟩
    have e : (poly % 131071).toNat = poly.toNat % 131071 := toNat_mod h 131071
    have hper := (period131071 h17).mod poly.toNat 9
    rw [← e] at hper
    generalize poly % 131071 = i at *
    obtain ⟨n, rfl⟩ := Int.eq_ofNat_of_zero_le hn.1
    rw [band_7]
    have s3 : (shr (n : Int) 3).toNat = n / 8 := by
      show ((n : Int) / 8).toNat = n / 8; omega
    have m7 : ((n : Int) % 8).toNat = n % 8 := by omega
    rw [s3, m7, ← hper]
    have t := (poly17_bits h17 (n / 8)).2 (n % 8) (Nat.mod_lt _ (by omega))
    rw [show 8 * (n / 8) + 9 + n % 8 = n + 9 by omega, Nat.testBit_eq_decide_div_mod_eq] at t
    rw [show ((n : Int)).toNat = n from rfl, ← t]
    unfold shr
    have c : ((poly17 (n / 8) : Int) / 2 ^ (n % 8)) % 2 = ((poly17 (n / 8) / 2 ^ (n % 8) % 2 : Nat) : Int) := by push_cast; rfl
    rw [c]
    have := Nat.mod_lt (poly17 (n / 8) / 2 ^ (n % 8)) (show 0 < 2 by omega)
    generalize poly17 (n / 8) / 2 ^ (n % 8) % 2 = z at *
    by_cases hz : z = 1
    · subst hz; rfl
    · have : z = 0 := by omega
      subst this; rfl
  · rw [if_neg ha, if_neg ha]
    have e : (poly % 511).toNat = poly.toNat % 511 := toNat_mod h 511
    have hper := (period511 h9).mod poly.toNat 1
    rw [e]
    have t := (poly9_bits h9 (poly.toNat % 511)).2 0 (by omega)
    rw [Nat.add_zero, hper, Nat.testBit_eq_decide_div_mod_eq] at t
    rw [← t]
    have := Nat.mod_lt (poly9 (poly.toNat % 511)) (show 0 < 2 by omega)
    have c : ((poly9 (poly.toNat % 511) : Int)) % 2 = ((poly9 (poly.toNat % 511) % 2 : Nat) : Int) := by push_cast; rfl
    rw [c, show poly9 (poly.toNat % 511) / 2 ^ 0 = poly9 (poly.toNat % 511) from Nat.div_one _]
    generalize poly9 (poly.toNat % 511) % 2 = z at *
    by_cases hz : z = 1
    · subst hz; rfl
    · have : z = 0 := by omega
      subst this; rfl

/-- C24.  The short tables are the 4-bit and 5-bit registers (with inverted feedback): every bit of the 15- and 31-bit
patterns obeys the register's recurrence, cyclically. -/
theorem C24_short_patterns :
    (∀ i, i < 15 → (Nat.testBit 0x5370 ((i + 4) % 15)) = !(Nat.testBit 0x5370 i ^^ Nat.testBit 0x5370 ((i + 1) % 15))) ∧
    (∀ i, i < 31 → (Nat.testBit 0x65bd44e0 ((i + 5) % 31)) = !(Nat.testBit 0x65bd44e0 i ^^ Nat.testBit 0x65bd44e0 ((i + 2) % 31))) := by
  decide

/-- C24, a case: RANDOM at cycle 100 of a fresh mono chip. -/
example : ∃ v, (Pair.peek ⟨0, (junk'.initChip 44100), junk', 44100, 0, 0, 0, 0, fun _ _ => 0⟩ 0xd20a 100) = .ok v ∧
    Window (register 17) 109 v := by
  exact C24_random_after_start ⟨0, 0, fun _ _ => 0⟩ junk' (junk'.initChip 44100) 44100 [] (by simp) rfl _ 0xd20a 100
    (by unfold Selects; rw [if_neg (by decide)]) rfl
    (by decide) (register 17) (C24_sequence_exists 17 (by omega))

end Asap.Props
