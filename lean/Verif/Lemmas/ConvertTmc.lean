import Verif.Lemmas.ConvertInit

/-! # The code for Theta Music Composer modules, as the processor sees it -/

namespace Asap.Spec.Convert
open Asap.Isa

/-- The code called before each frame, up to the player. -/
def frameCode (rate : Nat) : List Int :=
  if rate = 2 then [0xa5, 0, 0xe6, 0, 0x4a, 0x90, 5, 0xb0, 6]
  else if rate = 1 then []
  else [0xc6, 0, 0xd0, 12, 0xa0, rate, 0x84, 0, 0xd0, 3]

/-- The code that starts it, up to `frameCode`. -/
def rateCode (rate : Nat) : List Int :=
  if rate = 2 then [0x06, 0, 0x4c, 0, 5]
  else if rate = 1 then []
  else [0xa0, 1, 0x84, 0, 0xd0, 10]

/-- Byte 0 before call `k`. -/
def Phase (rate k : Nat) (v : Int) : Prop :=
  if rate = 2 then v % 2 = (k : Int) % 2
  else if rate = 1 then True
  else v = if k % rate = 0 then 1 else (rate : Int) + 1 - (k : Int) % rate

/-- The address of `frameCode`. -/
def frameAddr (rate : Nat) : Int := if rate = 2 then 0x4f7 else if rate = 1 then 0x503 else 0x4f6

/-- The address of `rateCode`. -/
def rateAddr (rate : Nat) : Int := if rate = 2 then 0x4f2 else if rate = 1 then 0x500 else 0x4f0

theorem goes_rate {rate : Nat} (hr : 1 ≤ rate ∧ rate ≤ 4) {a x y s : Int} {z c : Bool} {mem : Int → Int} (code : Holds mem (rateAddr rate) (rateCode rate)) :
    ∃ y' z' c' mem', Goes ⟨a, x, y, s, rateAddr rate, z, c, mem⟩ ⟨a, x, y', s, 0x500, z', c', mem'⟩ ∧ Phase rate 0 (mem' 0) ∧
      (∀ p, 0 < p → mem' p = mem p) ∧ (rate = 1 → mem' = mem) ∧ OnlyStackM true s mem mem' := by
  obtain rfl | rfl | rfl | rfl : rate = 1 ∨ rate = 2 ∨ rate = 3 ∨ rate = 4 := by omega
  · exact ⟨_, _, _, _, Goes.refl _, trivial, fun _ _ => rfl, fun _ => rfl, OnlyStackM.refl _⟩
  · have code : Holds mem 0x4f2 [0x06, 0, 0x4c, 0, 5] := code
    have code' : Holds (wr mem 0 (2 * mem 0 % 256)) 0x4f2 [0x06, 0, 0x4c, 0, 5] := code.of fun j _ => wr_other (by omega)
    refine ⟨_, _, _, _, (goes_asl (code.at 0 rfl (by decide)) (code.at 1 rfl rfl) rfl (by decide)).trans
      (goes_jmp (v := 0x500) (code'.at 2 rfl rfl) (by rw [code'.at 3 (v := 0) rfl (by decide), code'.at 4 (v := 5) rfl (by decide)]; decide) (by decide)), ?_,
      fun p hp => wr_other (by omega), fun h => by omega, onlyStackM_zero⟩
    rw [wr_self]
    show 2 * mem 0 % 256 % 2 = 0 % 2
    omega
  all_goals
    have code : Holds mem 0x4f0 [0xa0, 1, 0x84, 0, 0xd0, 10] := code
    have code' : Holds (wr mem 0 1) 0x4f0 [0xa0, 1, 0x84, 0, 0xd0, 10] := code.of fun j _ => wr_other (by omega)
    refine ⟨_, _, _, _, (goes_ldy (v := 1) (code.at 0 rfl (by decide)) (code.at 1 rfl rfl) (by decide)).trans
      ((goes_sty (code.at 2 rfl rfl) (code.at 3 rfl rfl) (by decide)).trans
        (goes_bne (d := 10) (code'.at 4 rfl rfl) (code'.at 5 rfl rfl) (by decide) (by decide))), wr_self _ _ _,
      fun p hp => wr_other (by omega), fun h => by omega, onlyStackM_zero⟩

section
variable {keep : Int → Prop} {st : State}

/-- One call of the frame code. -/
theorem goes_frame {rate k : Nat} (hr : 1 ≤ rate ∧ rate ≤ 4) {mem : Int → Int} (code : Holds mem (frameAddr rate) (frameCode rate)) (hph : Phase rate k (mem 0))
    (a x y s : Int) (z c : Bool) : ∃ a' y' z' c' mem', Goes ⟨a, x, y, s, frameAddr rate, z, c, mem⟩ ⟨a', x, y', s, entry .tmc 0x500 rate k, z', c', mem'⟩ ∧
      Phase rate (k + 1) (mem' 0) ∧ (∀ p, p ≠ 0 → mem' p = mem p) := by
  obtain rfl | rfl | rfl | rfl : rate = 1 ∨ rate = 2 ∨ rate = 3 ∨ rate = 4 := by omega
  · refine ⟨a, y, z, c, mem, ?_, trivial, fun _ _ => rfl⟩
    have : entry .tmc 0x500 1 k = frameAddr 1 := if_pos (Nat.mod_one k)
    rw [this]
    exact Goes.refl _
  · have code : Holds mem 0x4f7 [0xa5, 0, 0xe6, 0, 0x4a, 0x90, 5, 0xb0, 6] := code
    have code' : Holds (wr mem 0 ((mem 0 + 1) % 256)) 0x4f7 [0xa5, 0, 0xe6, 0, 0x4a, 0x90, 5, 0xb0, 6] := code.of fun j _ => wr_other (by omega)
    have hph : mem 0 % 2 = (k : Int) % 2 := hph
    have g := (goes_ldaZ (a := a) (x := x) (y := y) (s := s) (z := z) (c := c) (code.at 0 rfl (by decide)) (code.at 1 rfl rfl) rfl (by decide)).trans
      ((goes_inc (code.at 2 rfl rfl) (code.at 3 rfl rfl) rfl (by decide)).trans
      ((goes_lsr (code'.at 4 rfl rfl) (by decide)).trans
      (goes_bcc (d := 5) (code'.at 5 rfl rfl) (code'.at 6 rfl rfl) (by decide) (by decide))))
    refine ⟨mem 0 / 2, y, decide (mem 0 / 2 = 0), decide (mem 0 % 2 = 1), wr mem 0 ((mem 0 + 1) % 256), ?_, ?_, fun p hp => wr_other hp⟩
    · by_cases e : mem 0 % 2 = 1
      · rw [decide_eq_true e] at g ⊢
        have h2 : entry .tmc 0x500 2 k = 0x506 := if_neg (by omega)
        rw [h2]
        exact g.trans (goes_bcs (c := true) (d := 6) (code'.at 7 rfl rfl) (code'.at 8 rfl rfl) (by decide) (by decide))
      · rw [decide_eq_false e] at g ⊢
        have h2 : entry .tmc 0x500 2 k = 0x503 := if_pos (by omega)
        rw [h2]
        exact g
    · rw [wr_self]
      show (mem 0 + 1) % 256 % 2 = ((k + 1 : Nat) : Int) % 2
      omega
  all_goals
    have hph : mem 0 = if k % _ = 0 then 1 else (_ : Int) + 1 - (k : Int) % _ := hph
    have code : Holds mem 0x4f6 [0xc6, 0, 0xd0, 12, 0xa0, _, 0x84, 0, 0xd0, 3] := code
    have code' : Holds (wr mem 0 ((mem 0 - 1) % 256)) 0x4f6 [0xc6, 0, 0xd0, 12, 0xa0, _, 0x84, 0, 0xd0, 3] := code.of fun j _ => wr_other (by omega)
    have g := (goes_dec (a := a) (x := x) (y := y) (s := s) (z := z) (c := c) (code.at 0 rfl (by decide)) (code.at 1 rfl rfl) rfl (by decide)).trans
      (goes_bne (d := 12) (code'.at 2 rfl rfl) (code'.at 3 rfl rfl) (by decide) (by decide))
  · by_cases e : k % 3 = 0
    · rw [if_pos e] at hph
      have code2 : Holds (wr (wr mem 0 ((mem 0 - 1) % 256)) 0 3) 0x4f6 [0xc6, 0, 0xd0, 12, 0xa0, 3, 0x84, 0, 0xd0, 3] := code'.of fun j _ => wr_other (by omega)
      have h2 : entry .tmc 0x500 3 k = 0x503 := if_pos e
      rw [hph] at g code' code2
      refine ⟨a, 3, false, c, wr (wr mem 0 ((1 - 1) % 256)) 0 3, g.trans ((goes_ldy (v := 3) (code'.at 4 rfl rfl) (code'.at 5 rfl rfl) (by decide)).trans
        ((goes_sty (code'.at 6 rfl rfl) (code'.at 7 rfl rfl) (by decide)).trans ?_)), ?_, ?_⟩
      · rw [h2]
        exact goes_bne (z := false) (d := 3) (code2.at 8 rfl rfl) (code2.at 9 rfl rfl) (by decide) (by decide)
      · rw [wr_self]
        show (3 : Int) = if (k + 1) % 3 = 0 then 1 else (3 : Int) + 1 - ((k + 1 : Nat) : Int) % 3
        rw [if_neg (by omega)]
        omega
      · intro p hp
        rw [wr_other hp, wr_other hp]
    · rw [if_neg e] at hph
      have h2 : entry .tmc 0x500 3 k = 0x506 := if_neg e
      have hz : ¬ (mem 0 - 1) % 256 = 0 := by omega
      rw [decide_eq_false hz] at g
      refine ⟨a, y, false, c, wr mem 0 ((mem 0 - 1) % 256), ?_, ?_, ?_⟩
      · rw [h2]; exact g
      · rw [wr_self]
        show (mem 0 - 1) % 256 = if (k + 1) % 3 = 0 then 1 else (3 : Int) + 1 - ((k + 1 : Nat) : Int) % 3
        split <;> omega
      · intro p hp
        rw [wr_other hp]
  · by_cases e : k % 4 = 0
    · rw [if_pos e] at hph
      have code2 : Holds (wr (wr mem 0 ((mem 0 - 1) % 256)) 0 4) 0x4f6 [0xc6, 0, 0xd0, 12, 0xa0, 4, 0x84, 0, 0xd0, 3] := code'.of fun j _ => wr_other (by omega)
      have h2 : entry .tmc 0x500 4 k = 0x503 := if_pos e
      rw [hph] at g code' code2
      refine ⟨a, 4, false, c, wr (wr mem 0 ((1 - 1) % 256)) 0 4, g.trans ((goes_ldy (v := 4) (code'.at 4 rfl rfl) (code'.at 5 rfl rfl) (by decide)).trans
        ((goes_sty (code'.at 6 rfl rfl) (code'.at 7 rfl rfl) (by decide)).trans ?_)), ?_, ?_⟩
      · rw [h2]
        exact goes_bne (z := false) (d := 3) (code2.at 8 rfl rfl) (code2.at 9 rfl rfl) (by decide) (by decide)
      · rw [wr_self]
        show (4 : Int) = if (k + 1) % 4 = 0 then 1 else (4 : Int) + 1 - ((k + 1 : Nat) : Int) % 4
        rw [if_neg (by omega)]
        omega
      · intro p hp
        rw [wr_other hp, wr_other hp]
    · rw [if_neg e] at hph
      have h2 : entry .tmc 0x500 4 k = 0x506 := if_neg e
      have hz : ¬ (mem 0 - 1) % 256 = 0 := by omega
      rw [decide_eq_false hz] at g
      refine ⟨a, y, false, c, wr mem 0 ((mem 0 - 1) % 256), ?_, ?_, ?_⟩
      · rw [h2]; exact g
      · rw [wr_self]
        show (mem 0 - 1) % 256 = if (k + 1) % 4 = 0 then 1 else (4 : Int) + 1 - ((k + 1 : Nat) : Int) % 4
        split <;> omega
      · intro p hp
        rw [wr_other hp]

/-- All calls. -/
theorem tmc_enters {rate : Nat} (hr : 1 ≤ rate ∧ rate ≤ 4) (hkeep : ∀ j : Nat, j < (frameCode rate).length → keep (frameAddr rate + j)) :
    ∀ (n k : Nat) (st : State), Holds st.mem (frameAddr rate) (frameCode rate) → Phase rate k (st.mem 0) →
      Enters keep (frameAddr rate) ((List.range' k n).map (entry .tmc 0x500 rate)) st
  | 0, _, _, _, _ => trivial
  | n + 1, k, st, code, hph => by
    obtain ⟨a', y', z', c', mem', g, hph', hother⟩ := goes_frame hr code hph st.a st.x st.y st.s st.z st.c
    obtain ⟨st', r, e⟩ := g { st with pc := frameAddr rate } rfl
    injection e with e1 e2 e3 e4 e5 e6 e7 e8
    refine ⟨st', r, e5, ?_, e4, ?_⟩
    · intro p hp
      by_cases h0 : p = 0
      · exact Or.inl ⟨rfl, h0⟩
      · rw [e8] at hp; exact absurd (hother p h0) hp
    · intro back hb
      refine tmc_enters hr hkeep n (k + 1) back ?_ ?_
      · refine code.of fun j hj => ?_
        rw [hb _ (Or.inl (hkeep j hj)), e8]
        refine hother _ ?_
        have : 0x4f6 ≤ frameAddr rate := by unfold frameAddr; (repeat' split) <;> decide
        omega
      · rw [hb 0 (Or.inr rfl), e8]; exact hph'

end

section
variable {keep : Int → Prop} {P : State → Prop} {st : State}

/-- The end of the code. -/
theorem rate_last {rate : Nat} (hr : 1 ≤ rate ∧ rate ≤ 4) {s0 a x y : Int} {z c : Bool} (hk : ∀ p, keep p → 512 ≤ p)
    (hg : Goes (cfg st) ⟨a, x, y, s0, rateAddr rate, z, c, st.mem⟩) (code : Holds st.mem (rateAddr rate) (rateCode rate)) {cx : Option Int}
    (hx : ∀ w, cx = some w → x = w)
    (post : ∀ st' : State, (∀ p, keep p → st'.mem p = st.mem p) → Phase rate 0 (st'.mem 0) → P st') :
    Makes keep true s0 P st [⟨0x500, some a, cx, none⟩] := by
  obtain ⟨y', z', c', mem', g, hph, ho, _, hos⟩ := goes_rate hr (a := a) (x := x) (y := y) (s := s0) (z := z) (c := c) code
  exact makes_last (hg.trans g) hos rfl (by simp) hx (by simp) fun st' e => post st' (fun p hp => by rw [e]; exact ho p (by have := hk p hp; omega)) (by rw [e]; exact hph)

theorem tmc_many {rate : Nat} (hr : 1 ≤ rate ∧ rate ≤ 4) {s0 song lo hi : Int} (hk : ∀ p, keep p → 512 ≤ p) (hc : ∀ p, rateAddr rate - 14 ≤ p → p < 0x500 → keep p)
    (code : Holds st.mem (rateAddr rate - 14) [0x48, 0xa0, lo, 0xa2, hi, 0xa9, 0x70, 0x20, 0, 5, 0x68, 0xaa, 0xa9, 0]) (rest : Holds st.mem (rateAddr rate) (rateCode rate))
    (hpc : st.pc = rateAddr rate - 14) (ha : st.a = song) (es : st.s = s0) (hs : 3 ≤ s0 ∧ s0 < 256)
    (post : ∀ st' : State, (∀ p, keep p → st'.mem p = st.mem p) → Phase rate 0 (st'.mem 0) → P st') :
    Makes keep true s0 P st [⟨0x500, some 0x70, some hi, some lo⟩, ⟨0x500, some 0, some song, none⟩] := by
  have hra : 0x4f0 ≤ rateAddr rate ∧ rateAddr rate + (rateCode rate).length ≤ 0x500 := by
    obtain rfl | rfl | rfl | rfl : rate = 1 ∨ rate = 2 ∨ rate = 3 ∨ rate = 4 := by omega
    all_goals decide
  refine head_many hk (v := 0x500) (code.sub 0 rfl) (by omega) (by omega) hs es ?_
  intro back b1 b2 b3 b4
  have code' : Holds back.mem (rateAddr rate - 4) [0x68, 0xaa, 0xa9, 0] := by
    have := code.sub (l' := [0x68, 0xaa, 0xa9, 0]) 10 rfl
    rw [show rateAddr rate - 14 + ((10 : Nat) : Int) = rateAddr rate - 4 by omega] at this
    refine this.of fun j hj => b4 _ ?_
    have : j < 4 := hj
    exact hc _ (by omega) (by omega)
  have rest' : Holds back.mem (rateAddr rate) (rateCode rate) := rest.of fun j hj => b4 _ (hc _ (by omega) (by omega))
  have g := goes_plaTaxLda0 (pc := rateAddr rate - 4) code' (by omega) (by omega) hs b2 (b3.trans ha)
  rw [show rateAddr rate - 4 + 4 = rateAddr rate by omega] at g
  exact rate_last hr hk g rest' (by simp) fun st' h1 h2 => post st' (fun p hp => (h1 p hp).trans (b4 p hp)) h2

theorem tmc_one {rate : Nat} (hr : 1 ≤ rate ∧ rate ≤ 4) {s0 lo hi : Int} (hk : ∀ p, keep p → 512 ≤ p) (hc : ∀ p, rateAddr rate - 11 ≤ p → p < 0x500 → keep p)
    (code : Holds st.mem (rateAddr rate - 11) [0xa0, lo, 0xa2, hi, 0xa9, 0x70, 0x20, 0, 5, 0xa9, 0x60]) (rest : Holds st.mem (rateAddr rate) (rateCode rate))
    (hpc : st.pc = rateAddr rate - 11) (es : st.s = s0) (hs : 3 ≤ s0 ∧ s0 < 256)
    (post : ∀ st' : State, (∀ p, keep p → st'.mem p = st.mem p) → Phase rate 0 (st'.mem 0) → P st') :
    Makes keep true s0 P st [⟨0x500, some 0x70, some hi, some lo⟩, ⟨0x500, some 0x60, none, none⟩] := by
  have hra : 0x4f0 ≤ rateAddr rate ∧ rateAddr rate + (rateCode rate).length ≤ 0x500 := by
    obtain rfl | rfl | rfl | rfl : rate = 1 ∨ rate = 2 ∨ rate = 3 ∨ rate = 4 := by omega
    all_goals decide
  refine head_one hk (v := 0x500) (code.sub 0 rfl) (by omega) (by omega) hs es ?_
  intro back b1 b2 b4
  have code' : Holds back.mem (rateAddr rate - 2) [0xa9, 0x60] := by
    have := code.sub (l' := [0xa9, 0x60]) 9 rfl
    rw [show rateAddr rate - 11 + ((9 : Nat) : Int) = rateAddr rate - 2 by omega] at this
    refine this.of fun j hj => b4 _ ?_
    have : j < 2 := hj
    exact hc _ (by omega) (by omega)
  have rest' : Holds back.mem (rateAddr rate) (rateCode rate) := rest.of fun j hj => b4 _ (hc _ (by omega) (by omega))
  have e0 : cfg back = ⟨back.a, back.x, back.y, s0, rateAddr rate - 2, back.z, back.c, back.mem⟩ := by
    unfold cfg; rw [show back.pc = rateAddr rate - 2 by omega, b2]
  have g := goes_lda (a := back.a) (x := back.x) (y := back.y) (s := s0) (pc := rateAddr rate - 2) (z := back.z) (c := back.c) (mem := back.mem) (v := 0x60)
    (code'.at 0 rfl (by omega)) (code'.at 1 rfl (by omega)) (by omega)
  rw [← e0, show rateAddr rate - 2 + 2 = rateAddr rate by omega] at g
  exact rate_last hr hk g rest' (by simp) fun st' h1 h2 => post st' (fun p hp => (h1 p hp).trans (b4 p hp)) h2

end

end Asap.Spec.Convert
