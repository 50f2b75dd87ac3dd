import Verif.Lemmas.Flat
import Verif.Lemmas.Antic
import Verif.Spec.Countdown

/-! # The program of the title screen -/

namespace Asap.Flat
open Asap.Isa Asap.Spec.Flat Asap.Spec.Countdown
open Asap.Spec.Convert (cfg wr wr_self wr_other)

/-! ## More instructions -/

variable {a x y s pc : Int} {z c : Bool} {mem : Int → Int} {Q : Spec.Convert.Cfg → Prop}

theorem to_clc (h : mem pc = 0x18) (hp : 0 ≤ pc ∧ pc < 0xff00) (hq : To ⟨a, x, y, s, pc + 1, z, false, mem⟩ Q) : To ⟨a, x, y, s, pc, z, c, mem⟩ Q := by
  refine to_step .clc ⟨0x18, .imp, 2⟩ (by decide) h hp.1 (by show pc + 1 ≤ _; omega) ?_ hq
  intro st hst hd
  injection hst with e1 e2 e3 e4 e5 e6 e7 e8
  subst e1 e2 e3 e4 e5 e6 e7 e8
  exact ⟨rfl, hd⟩

theorem to_stx_abs {p : Int} (h : mem pc = 0x8e) (hv : mem (pc + 1) + 256 * mem (pc + 2) = p) (hp : 0 ≤ pc ∧ pc < 0xff00)
    (hq : To ⟨a, x, y, s, pc + 3, z, c, wr mem p x⟩ Q) : To ⟨a, x, y, s, pc, z, c, mem⟩ Q := by
  refine to_step .stx ⟨0x8e, .abs, 4⟩ (by decide) h hp.1 (by show pc + 3 ≤ _; omega) ?_ hq
  intro st hst hd
  injection hst with e1 e2 e3 e4 e5 e6 e7 e8
  subst e1 e2 e3 e4 e5 e6 e7 e8 hv
  exact ⟨rfl, hd⟩

theorem to_sta_absx {p : Int} (h : mem pc = 0x9d) (hv : (mem (pc + 1) + 256 * mem (pc + 2) + x) % 65536 = p) (hp : 0 ≤ pc ∧ pc < 0xff00)
    (hq : To ⟨a, x, y, s, pc + 3, z, c, wr mem p a⟩ Q) : To ⟨a, x, y, s, pc, z, c, mem⟩ Q := by
  refine to_step .sta ⟨0x9d, .absx, 5⟩ (by decide) h hp.1 (by show pc + 3 ≤ _; omega) ?_ hq
  intro st hst hd
  injection hst with e1 e2 e3 e4 e5 e6 e7 e8
  subst e1 e2 e3 e4 e5 e6 e7 e8 hv
  exact ⟨rfl, hd⟩

theorem to_lda_absx {p v : Int} (h : mem pc = 0xbd) (hv : (mem (pc + 1) + 256 * mem (pc + 2) + x) % 65536 = p) (hm : mem p = v) (hp : 0 ≤ pc ∧ pc < 0xff00)
    (hq : To ⟨v, x, y, s, pc + 3, decide (v = 0), c, mem⟩ Q) : To ⟨a, x, y, s, pc, z, c, mem⟩ Q := by
  refine to_step .lda ⟨0xbd, .absx, 4⟩ (by decide) h hp.1 (by show pc + 3 ≤ _; omega) ?_ hq
  intro st hst hd
  injection hst with e1 e2 e3 e4 e5 e6 e7 e8
  subst e1 e2 e3 e4 e5 e6 e7 e8 hv hm
  exact ⟨rfl, hd⟩

theorem to_dec_absx {p v : Int} (h : mem pc = 0xde) (hv : (mem (pc + 1) + 256 * mem (pc + 2) + x) % 65536 = p) (hm : (mem p - 1) % 256 = v) (hp : 0 ≤ pc ∧ pc < 0xff00)
    (hq : To ⟨a, x, y, s, pc + 3, decide (v = 0), c, wr mem p v⟩ Q) : To ⟨a, x, y, s, pc, z, c, mem⟩ Q := by
  refine to_step .dec ⟨0xde, .absx, 7⟩ (by decide) h hp.1 (by show pc + 3 ≤ _; omega) ?_ hq
  intro st hst hd
  injection hst with e1 e2 e3 e4 e5 e6 e7 e8
  subst e1 e2 e3 e4 e5 e6 e7 e8 hv hm
  exact ⟨rfl, hd⟩

theorem to_ora_abs {p : Int} {u v w : Nat} (h : mem pc = 0x0d) (hv : mem (pc + 1) + 256 * mem (pc + 2) = p) (ha : a = u) (hm : mem p = v) (hw : u ||| v = w) (hp : 0 ≤ pc ∧ pc < 0xff00)
    (hq : To ⟨w, x, y, s, pc + 3, decide ((w : Int) = 0), c, mem⟩ Q) : To ⟨a, x, y, s, pc, z, c, mem⟩ Q := by
  refine to_step .ora ⟨0x0d, .abs, 4⟩ (by decide) h hp.1 (by show pc + 3 ≤ _; omega) ?_ hq
  intro st hst hd
  injection hst with e1 e2 e3 e4 e5 e6 e7 e8
  subst e1 e2 e3 e4 e5 e6 e7 e8 hv hw
  have e : ((st.a.toNat ||| (st.mem (st.mem (st.pc + 1) + 256 * st.mem (st.pc + 2))).toNat : Nat) : Int) = ((u ||| v : Nat) : Int) := by
    rw [ha, hm]; rfl
  rw [← e]
  exact ⟨rfl, hd⟩

theorem to_adc_imm {v : Int} (h : mem pc = 0x69) (hv : mem (pc + 1) = v) (hp : 0 ≤ pc ∧ pc < 0xff00)
    (hq : To ⟨(a + v + State.bit c) % 256, x, y, s, pc + 2, decide ((a + v + State.bit c) % 256 = 0), decide (256 ≤ a + v + State.bit c), mem⟩ Q) :
    To ⟨a, x, y, s, pc, z, c, mem⟩ Q := by
  refine to_step .adc ⟨0x69, .imm, 2⟩ (by decide) h hp.1 (by show pc + 2 ≤ _; omega) ?_ hq
  intro st hst hd
  injection hst with e1 e2 e3 e4 e5 e6 e7 e8
  subst e1 e2 e3 e4 e5 e6 e7 e8 hv
  have e : st.after .adc .imm = ({ st with pc := st.pc + 2 } : State).adc (st.mem (st.pc + 1)) := by
    show (if st.d then _ else _) = _
    rw [hd]; rfl
  show cfg (st.after .adc .imm) = _ ∧ (st.after .adc .imm).d = false
  rw [e]
  exact ⟨rfl, hd⟩

theorem to_cmp_imm {v : Int} (h : mem pc = 0xc9) (hv : mem (pc + 1) = v) (hp : 0 ≤ pc ∧ pc < 0xff00)
    (hq : To ⟨a, x, y, s, pc + 2, decide ((a - v) % 256 = 0), decide (v ≤ a), mem⟩ Q) : To ⟨a, x, y, s, pc, z, c, mem⟩ Q := by
  refine to_step .cmp ⟨0xc9, .imm, 2⟩ (by decide) h hp.1 (by show pc + 2 ≤ _; omega) ?_ hq
  intro st hst hd
  injection hst with e1 e2 e3 e4 e5 e6 e7 e8
  subst e1 e2 e3 e4 e5 e6 e7 e8 hv
  exact ⟨rfl, hd⟩

theorem to_cpx_imm {v : Int} (h : mem pc = 0xe0) (hv : mem (pc + 1) = v) (hp : 0 ≤ pc ∧ pc < 0xff00)
    (hq : To ⟨a, x, y, s, pc + 2, decide ((x - v) % 256 = 0), decide (v ≤ x), mem⟩ Q) : To ⟨a, x, y, s, pc, z, c, mem⟩ Q := by
  refine to_step .cpx ⟨0xe0, .imm, 2⟩ (by decide) h hp.1 (by show pc + 2 ≤ _; omega) ?_ hq
  intro st hst hd
  injection hst with e1 e2 e3 e4 e5 e6 e7 e8
  subst e1 e2 e3 e4 e5 e6 e7 e8 hv
  exact ⟨rfl, hd⟩

/-! ## The program -/

/-- The program from 0xFC73 on; the last four bytes are tables. -/
def screenCode : List Nat :=
  [0xad, 0x0b, 0xd4, 0xd0, 0xfb, 0x8d, 0x05, 0xd4, 0xa2, 0x26, 0x8e, 0x16, 0xd0, 0xa2, 0x0a, 0x8e, 0x17, 0xd0, 0xa2, 0x21, 0x8e, 0x00, 0xd4,
   0xa2, 0x50, 0x8e, 0x02, 0xd4, 0xa2, 0xfc, 0x8e, 0x03, 0xd4, 0x8e, 0x09, 0xd4, 0x60,
   0xd8, 0xbd, 0xda, 0xfc, 0x18, 0x69, 0x00, 0x8d, 0x9e, 0xfc, 0xbd, 0xdc, 0xfc, 0x69, 0x00, 0x8d, 0xa6, 0xfc, 0x90, 0x12,
   0xad, 0x4b, 0xfc, 0x0d, 0x4c, 0xfc, 0x0d, 0x4e, 0xfc, 0x0d, 0x4f, 0xfc, 0xc9, 0x31, 0xa2, 0x04, 0xb0, 0x0d, 0x60,
   0xa9, 0x39, 0xe0, 0x03, 0xd0, 0x02, 0xa9, 0x35, 0x9d, 0x4b, 0xfc, 0xca, 0xbd, 0x4b, 0xfc, 0xc9, 0x31, 0x90, 0xed, 0xc9, 0x3a, 0xf0, 0xf4,
   0xde, 0x4b, 0xfc, 0x60, 0x22, 0x45, 0x05, 0x04]

theorem screenCode_eq : Antic.program = screenCode := by decide +kernel

/-- The program is in the memory. -/
def Prog (mem : Int → Int) : Prop := Program screenCode mem

theorem Prog.at {mem : Int → Int} (R : Prog mem) {q : Int} {b : Nat} (j : Nat) (hq : q = 0xfc73 + j := by omega)
    (e : screenCode[j]? = some b := by rfl) (h1 : 0xfc73 + j ≠ 0xfc9e := by decide) (h2 : 0xfc73 + j ≠ 0xfca6 := by decide) : mem q = b := by
  rw [hq]; exact R j b e h1 h2

theorem Prog.put {mem : Int → Int} (R : Prog mem) {q v : Int} (h : q < 0xfc73 ∨ q = 0xfc9e ∨ q = 0xfca6) : Prog (wr mem q v) := by
  intro j b e h1 h2
  rw [wr_other (by omega)]
  exact R j b e h1 h2

/-! ## The digits -/

/-- A digit other than 0. -/
theorem to_digit {d : Int} (R : Prog mem) (hx : 0 ≤ x ∧ x ≤ 4) (hd : mem (0xfc4b + x) = 48 + d) (h0 : 0 < d ∧ d ≤ 9)
    (hq : ∀ z c, To ⟨48 + d, x, y, s, 0xfcd9, z, c, wr mem (0xfc4b + x) (48 + d - 1)⟩ Q) : To ⟨a, x, y, s, 0xfccb, z, c, mem⟩ Q := by
  refine to_lda_absx (p := 0xfc4b + x) (v := 48 + d) (R.at 0x58) (by rw [R.at 0x59 (b := 0x4b), R.at 0x5a (b := 0xfc)]; omega) hd (by omega) ?_
  refine to_cmp_imm (v := 0x31) (R.at 0x5b) (R.at 0x5c) (by omega) ?_
  refine to_bcc (t := 0xfcbf) (d := 0xed) (R.at 0x5d) (R.at 0x5e) (by omega) (by decide) (by omega) ?_
  rw [if_pos (decide_eq_true (by omega))]
  refine to_cmp_imm (v := 0x3a) (R.at 0x5f) (R.at 0x60) (by omega) ?_
  refine to_beq (t := 0xfcca) (d := 0xf4) (R.at 0x61) (R.at 0x62) (by omega) (by decide) (by omega) ?_
  rw [if_neg (by rw [decide_eq_true_eq]; omega)]
  refine to_dec_absx (p := 0xfc4b + x) (v := 48 + d - 1) (R.at 0x63) (by rw [R.at 0x64 (b := 0x4b), R.at 0x65 (b := 0xfc)]; omega) (by rw [hd]; omega) (by omega) ?_
  exact hq _ _

/-- Borrow from the next digit. -/
theorem to_zero (R : Prog mem) (hx : 1 ≤ x ∧ x ≤ 4) (hd : mem (0xfc4b + x) = 48)
    (hq : ∀ a z c, To ⟨a, x - 1, y, s, 0xfccb, z, c, wr mem (0xfc4b + x) (if x = 3 then 53 else 57)⟩ Q) : To ⟨a, x, y, s, 0xfccb, z, c, mem⟩ Q := by
  refine to_lda_absx (p := 0xfc4b + x) (v := 48) (R.at 0x58) (by rw [R.at 0x59 (b := 0x4b), R.at 0x5a (b := 0xfc)]; omega) hd (by omega) ?_
  refine to_cmp_imm (v := 0x31) (R.at 0x5b) (R.at 0x5c) (by omega) ?_
  refine to_bcc (t := 0xfcbf) (d := 0xed) (R.at 0x5d) (R.at 0x5e) (by omega) (by decide) (by omega) ?_
  rw [if_neg (by decide)]
  refine to_lda_imm (v := 0x39) (R.at 0x4c) (R.at 0x4d) (by omega) ?_
  refine to_cpx_imm (v := 0x03) (R.at 0x4e) (R.at 0x4f) (by omega) ?_
  refine to_bne (t := 0xfcc7) (d := 0x02) (R.at 0x50) (R.at 0x51) (by omega) (by decide) (by omega) ?_
  have fin : ∀ v z c, v = (if x = 3 then 53 else 57) → To ⟨v, x, y, s, 0xfcc7, z, c, mem⟩ Q := by
    intro v z c hv
    refine to_sta_absx (p := 0xfc4b + x) (R.at 0x54) (by rw [R.at 0x55 (b := 0x4b), R.at 0x56 (b := 0xfc)]; omega) (by omega) ?_
    have R2 : Prog (wr mem (0xfc4b + x) v) := R.put (by omega)
    refine to_dex (R2.at 0x57) (by omega) ?_
    rw [show (x - 1) % 256 = x - 1 by omega, hv]
    exact hq _ _ _
  by_cases h3 : x = 3
  · rw [if_pos (decide_eq_true (by omega))]
    refine to_lda_imm (v := 0x35) (R.at 0x52) (R.at 0x53) (by omega) ?_
    exact fin _ _ _ (by rw [if_pos h3])
  · rw [if_neg (by rw [decide_eq_true_eq]; omega)]
    exact fin _ _ _ (by rw [if_neg h3])

/-- Over the colon. -/
theorem to_colon (R : Prog mem) (hd : mem 0xfc4d = 58) (hq : ∀ a z c, To ⟨a, 1, y, s, 0xfccb, z, c, mem⟩ Q) : To ⟨a, 2, y, s, 0xfccb, z, c, mem⟩ Q := by
  refine to_lda_absx (p := 0xfc4d) (v := 58) (R.at 0x58) (by rw [R.at 0x59 (b := 0x4b), R.at 0x5a (b := 0xfc)]; omega) hd (by omega) ?_
  refine to_cmp_imm (v := 0x31) (R.at 0x5b) (R.at 0x5c) (by omega) ?_
  refine to_bcc (t := 0xfcbf) (d := 0xed) (R.at 0x5d) (R.at 0x5e) (by omega) (by decide) (by omega) ?_
  rw [if_pos (by decide)]
  refine to_cmp_imm (v := 0x3a) (R.at 0x5f) (R.at 0x60) (by omega) ?_
  refine to_beq (t := 0xfcca) (d := 0xf4) (R.at 0x61) (R.at 0x62) (by omega) (by decide) (by omega) ?_
  rw [if_pos (by decide)]
  refine to_dex (R.at 0x57) (by omega) ?_
  exact hq _ _ _

/-- Back from the subroutine, with a memory that is as wanted and differs only in variables. -/
def Back (mem : Int → Int) (s y : Int) (T : (Int → Int) → Prop) (g : Spec.Convert.Cfg) : Prop :=
  g.pc = (mem (256 + (s + 1) % 256) + 256 * mem (256 + (s + 2) % 256) + 1) % 65536 ∧ g.s = (s + 2) % 256 ∧ g.y = y ∧ T g.mem ∧ ∀ b, ¬ Variable b → g.mem b = mem b

theorem to_back {mem' : Int → Int} {T : (Int → Int) → Prop} {q : Int} (R : Prog mem') (hk : ∀ b, ¬ Variable b → mem' b = mem b) (hT : T mem') (hq : q = 0xfcbe ∨ q = 0xfcd9) :
    To ⟨a, x, y, s, q, z, c, mem'⟩ (Back mem s y T) := by
  have op : mem' q = 0x60 := by
    rcases hq with rfl | rfl
    · exact R.at 0x4b
    · exact R.at 0x66
  refine to_rts op (by omega) rfl (To.refl ⟨?_, rfl, rfl, hT, hk⟩)
  show (mem' (256 + (s + 1) % 256) + 256 * mem' (256 + (s + 2) % 256) + 1) % 65536 = _
  rw [hk _ (by unfold Variable place; omega), hk _ (by unfold Variable place; omega)]

/-- One second less. -/
theorem to_less {mem' : Int → Int} {t : Nat} (R : Prog mem') (hk : ∀ b, ¬ Variable b → mem' b = mem b) (h : Reads mem' (t + 1)) :
    To ⟨a, 4, y, s, 0xfccb, z, c, mem'⟩ (Back mem s y fun m => Reads m t ∧ m 0xfc9e = mem' 0xfc9e ∧ m 0xfca6 = mem' 0xfca6 ∧ Prog m) := by
  obtain ⟨h0, h1, h2, h3, h4, h5⟩ := h
  unfold place at h1 h2 h3 h4 h5
  have h2 : mem' 0xfc4c = _ := h2
  have h3 : mem' 0xfc4d = _ := h3
  have h4 : mem' 0xfc4e = _ := h4
  have h5 : mem' 0xfc4f = _ := h5
  have keep : ∀ {m : Int → Int} {q v : Int}, (∀ b, ¬ Variable b → m b = mem b) → 0xfc4b ≤ q ∧ q ≤ 0xfc4f → ∀ b, ¬ Variable b → wr m q v b = mem b := by
    intro m q v hm hq b hb
    rw [wr_other (by unfold Variable place at hb; omega)]
    exact hm b hb
  obtain ⟨s0, e5⟩ : ∃ d : Int, d = ((t + 1 : Nat) : Int) % 60 % 10 := ⟨_, rfl⟩
  obtain ⟨s1, e4⟩ : ∃ d : Int, d = ((t + 1 : Nat) : Int) % 60 / 10 := ⟨_, rfl⟩
  obtain ⟨m0, e2⟩ : ∃ d : Int, d = ((t + 1 : Nat) : Int) / 60 % 10 := ⟨_, rfl⟩
  obtain ⟨m1, e1⟩ : ∃ d : Int, d = ((t + 1 : Nat) : Int) / 60 / 10 := ⟨_, rfl⟩
  rw [← e1] at h1
  rw [← e2] at h2
  rw [← e4] at h4
  rw [← e5] at h5
  by_cases c5 : 0 < s0
  · refine to_digit R (by omega) h5 (by omega) fun z c => to_back (R.put (by omega)) (keep hk (by omega)) ⟨⟨by omega, ?_, ?_, ?_, ?_, ?_⟩, ?_, ?_, R.put (by omega)⟩ (.inr rfl) <;>
      simp only [wr, place] <;> simp [h1, h2, h3, h4] <;> omega
  · refine to_zero R (by omega) (h5.trans (by omega)) fun a z c => ?_
    have R2 : Prog (wr mem' (0xfc4b + 4) (if (4 : Int) = 3 then 53 else 57)) := R.put (by omega)
    have k2 := keep (q := 0xfc4b + 4) (v := if (4 : Int) = 3 then 53 else 57) hk (by omega)
    by_cases c4 : 0 < s1
    · refine to_digit (x := 3) (d := s1) R2 (by omega) ((wr_other (by decide)).trans h4) (by omega) fun z c => to_back (R2.put (by omega)) (keep k2 (by omega)) ⟨⟨by omega, ?_, ?_, ?_, ?_, ?_⟩, ?_, ?_, R2.put (by omega)⟩ (.inr rfl) <;>
      simp only [wr, place] <;> simp [h1, h2, h3] <;> omega
    · refine to_zero (x := 3) R2 (by omega) (((wr_other (by decide)).trans h4).trans (by omega)) fun a z c => ?_
      have R3 := R2.put (q := 0xfc4b + 3) (v := if (3 : Int) = 3 then 53 else 57) (by omega)
      have k3 := keep (q := 0xfc4b + 3) (v := if (3 : Int) = 3 then 53 else 57) k2 (by omega)
      refine to_colon R3 ((wr_other (by decide)).trans ((wr_other (by decide)).trans h3)) fun a z c => ?_
      by_cases c2 : 0 < m0
      · refine to_digit (x := 1) (d := m0) R3 (by omega) ((wr_other (by decide)).trans ((wr_other (by decide)).trans h2)) (by omega) fun z c => to_back (R3.put (by omega)) (keep k3 (by omega)) ⟨⟨by omega, ?_, ?_, ?_, ?_, ?_⟩, ?_, ?_, R3.put (by omega)⟩ (.inr rfl) <;>
        simp only [wr, place] <;> simp [h1, h3] <;> omega
      · refine to_zero (x := 1) R3 (by omega) (((wr_other (by decide)).trans ((wr_other (by decide)).trans h2)).trans (by omega)) fun a z c => ?_
        have R4 := R3.put (q := 0xfc4b + 1) (v := if (1 : Int) = 3 then 53 else 57) (by omega)
        have k4 := keep (q := 0xfc4b + 1) (v := if (1 : Int) = 3 then 53 else 57) k3 (by omega)
        refine to_digit (x := 0) (d := m1) R4 (by omega) ((wr_other (by decide)).trans ((wr_other (by decide)).trans ((wr_other (by decide)).trans h1))) (by omega) fun z c => to_back (R4.put (by omega)) (keep k4 (by omega)) ⟨⟨by omega, ?_, ?_, ?_, ?_, ?_⟩, ?_, ?_, R4.put (by omega)⟩ (.inr rfl) <;>
        simp only [wr, place] <;> simp [h3] <;> omega

/-! ## A frame -/

theorem bit_nat (b : Bool) : State.bit b = if b then 1 else 0 := by cases b <;> rfl

/-- Counting parts of a second. -/
theorem to_parts {tv p : Nat} (R : Prog mem) (htv : tv = 0 ∨ tv = 1) (hp : Parts mem p)
    (hq : ∀ a z c mem', Prog mem' → Parts mem' ((p + parts tv) % 65536) → (∀ b, b ≠ 0xfc9e → b ≠ 0xfca6 → mem' b = mem b) →
      To ⟨a, tv, y, s, if 65536 ≤ p + parts tv then 0xfcac else 0xfcbe, z, c, mem'⟩ Q) :
    To ⟨a, tv, y, s, 0xfc99, z, c, mem⟩ Q := by
  obtain ⟨hp0, hl, hh⟩ := hp
  obtain ⟨r0, r1, hr0, hr1, hr⟩ : ∃ r0 r1 : Nat, mem (0xfcda + tv) = r0 ∧ mem (0xfcdc + tv) = r1 ∧ (r0 < 256 ∧ r1 < 256 ∧ r0 + 256 * r1 = parts tv) := by
    rcases htv with rfl | rfl
    · exact ⟨0x22, 0x05, R.at 0x67, R.at 0x69, by decide⟩
    · exact ⟨0x45, 0x04, R.at 0x68, R.at 0x6a, by decide⟩
  refine to_lda_absx (p := 0xfcda + tv) (v := r0) (R.at 0x26) (by rw [R.at 0x27 (b := 0xda), R.at 0x28 (b := 0xfc)]; omega) hr0 (by omega) ?_
  refine to_clc (R.at 0x29) (by omega) ?_
  refine to_adc_imm (v := p % 256) (R.at 0x2a) hl (by omega) ?_
  refine to_sta_abs (p := 0xfc9e) (R.at 0x2c) (by rw [R.at 0x2d (b := 0x9e), R.at 0x2e (b := 0xfc)]; omega) (by omega) ?_
  generalize hlo : ((r0 : Int) + (p % 256 : Int) + State.bit false) % 256 = lo
  generalize hc : decide (256 ≤ (r0 : Int) + (p % 256 : Int) + State.bit false) = cy
  have ebit : State.bit cy = if 256 ≤ r0 + p % 256 then 1 else 0 := by
    rw [← hc, bit_nat, bit_nat]
    by_cases g : 256 ≤ r0 + p % 256
    · rw [if_pos g, if_pos (decide_eq_true (by rw [if_neg (by decide)]; omega))]
    · rw [if_neg g, if_neg (by rw [decide_eq_true_eq, if_neg (by decide)]; omega)]
  have elo : lo = (r0 + p % 256) % 256 := by
    rw [← hlo, bit_nat, if_neg (by decide)]
    omega
  have R2 : Prog (wr mem 0xfc9e lo) := R.put (by omega)
  refine to_lda_absx (p := 0xfcdc + tv) (v := r1) (R2.at 0x2f) (by rw [R2.at 0x30 (b := 0xdc), R2.at 0x31 (b := 0xfc)]; omega) ((wr_other (by omega)).trans hr1) (by omega) ?_
  refine to_adc_imm (v := p / 256) (R2.at 0x32) ((wr_other (by decide)).trans hh) (by omega) ?_
  refine to_sta_abs (p := 0xfca6) (R2.at 0x34) (by rw [R2.at 0x35 (b := 0xa6), R2.at 0x36 (b := 0xfc)]; omega) (by omega) ?_
  rw [ebit]
  have R3 := R2.put (q := 0xfca6) (v := ((r1 : Int) + (p / 256 : Int) + (if 256 ≤ r0 + p % 256 then 1 else 0)) % 256) (by omega)
  refine to_bcc (t := 0xfcbe) (d := 0x12) (R3.at 0x37) (R3.at 0x38) (by omega) (by decide) (by omega) ?_
  have final := hq (((r1 : Int) + (p / 256 : Int) + (if 256 ≤ r0 + p % 256 then 1 else 0)) % 256)
    (decide (((r1 : Int) + (p / 256 : Int) + (if 256 ≤ r0 + p % 256 then 1 else 0)) % 256 = 0))
    (decide (256 ≤ ((r1 : Int) + (p / 256 : Int) + (if 256 ≤ r0 + p % 256 then 1 else 0)))) _ R3 ?_ ?_
  · have e : (if decide (256 ≤ ((r1 : Int) + (p / 256 : Int) + (if 256 ≤ r0 + p % 256 then 1 else 0))) = true then (0xfcac : Int) else 0xfcbe) =
        if 65536 ≤ p + parts tv then 0xfcac else 0xfcbe := by
      by_cases g : 65536 ≤ p + parts tv
      · rw [if_pos g, if_pos (decide_eq_true (by split <;> omega))]
      · rw [if_neg g, if_neg (by rw [decide_eq_true_eq]; split <;> omega)]
    rw [← e] at final
    exact final
  · refine ⟨by omega, ?_, ?_⟩
    · rw [wr_other (by decide), wr_self, elo]
      omega
    · rw [wr_self]
      split <;> omega
  · intro b h1 h2
    rw [wr_other h2, wr_other h1]

theorem or_digits (a b : Nat) (ha : 48 ≤ a ∧ a < 64) (hb : 48 ≤ b ∧ b < 64) : 48 ≤ a ||| b ∧ a ||| b < 64 ∧ (a ||| b = 48 ↔ a = 48 ∧ b = 48) := by
  have key : ∀ i j : Fin 16, 48 ≤ (48 + i.val) ||| (48 + j.val) ∧ (48 + i.val) ||| (48 + j.val) < 64 ∧ ((48 + i.val) ||| (48 + j.val) = 48 ↔ i.val = 0 ∧ j.val = 0) := by decide +kernel
  have := key ⟨a - 48, by omega⟩ ⟨b - 48, by omega⟩
  simp only [show 48 + (a - 48) = a by omega, show 48 + (b - 48) = b by omega] at this
  refine ⟨this.1, this.2.1, this.2.2.trans ⟨fun h => by omega, fun h => by omega⟩⟩

/-- Is there any time left? -/
theorem to_check {u0 u1 u3 u4 w : Nat} (R : Prog mem) (h0 : mem 0xfc4b = u0) (h1 : mem 0xfc4c = u1) (h3 : mem 0xfc4e = u3) (h4 : mem 0xfc4f = u4) (hw : u0 ||| u1 ||| u3 ||| u4 = w)
    (hq : ∀ a z c, To ⟨a, 4, y, s, if 49 ≤ w then 0xfccb else 0xfcbe, z, c, mem⟩ Q) : To ⟨a, x, y, s, 0xfcac, z, c, mem⟩ Q := by
  refine to_lda_abs (p := 0xfc4b) (v := u0) (R.at 0x39) (by rw [R.at 0x3a (b := 0x4b), R.at 0x3b (b := 0xfc)]; omega) h0 (by omega) ?_
  refine to_ora_abs (p := 0xfc4c) (R.at 0x3c) (by rw [R.at 0x3d (b := 0x4c), R.at 0x3e (b := 0xfc)]; omega) rfl h1 rfl (by omega) ?_
  refine to_ora_abs (p := 0xfc4e) (R.at 0x3f) (by rw [R.at 0x40 (b := 0x4e), R.at 0x41 (b := 0xfc)]; omega) rfl h3 rfl (by omega) ?_
  refine to_ora_abs (p := 0xfc4f) (R.at 0x42) (by rw [R.at 0x43 (b := 0x4f), R.at 0x44 (b := 0xfc)]; omega) rfl h4 hw (by omega) ?_
  refine to_cmp_imm (v := 0x31) (R.at 0x45) (R.at 0x46) (by omega) ?_
  refine to_ldx_imm (v := 4) (R.at 0x47) (R.at 0x48) (by omega) ?_
  refine to_bcs (t := 0xfccb) (d := 0x0d) (R.at 0x49) (R.at 0x4a) (by omega) (by decide) (by omega) ?_
  by_cases g : 49 ≤ w
  · have := hq (w : Int) (decide ((4 : Int) = 0)) (decide ((0x31 : Int) ≤ w))
    rw [if_pos g] at this
    rw [if_pos (decide_eq_true (by omega))]
    exact this
  · have := hq (w : Int) (decide ((4 : Int) = 0)) (decide ((0x31 : Int) ≤ w))
    rw [if_neg g] at this
    rw [if_neg (by rw [decide_eq_true_eq]; omega)]
    exact this

/-- A frame, when there is a time. -/
theorem to_frame {tv p t : Nat} (R : Prog mem) (htv : tv = 0 ∨ tv = 1) (hp : Parts mem p) (ht : Reads mem t) :
    To ⟨a, tv, y, s, 0xfc99, z, c, mem⟩ (Back mem s y fun m => Reads m (t - (p + parts tv) / 65536) ∧ Parts m ((p + parts tv) % 65536) ∧ Prog m) := by
  have hlt : parts tv < 2000 := by unfold parts; split <;> omega
  refine to_parts R htv hp fun a z c mem' R' hp' hk => ?_
  have hv : ∀ b, ¬ Variable b → mem' b = mem b := fun b hb => hk b (by unfold Variable at hb; omega) (by unfold Variable at hb; omega)
  have ht' : Reads mem' t := by
    obtain ⟨g0, g1, g2, g3, g4, g5⟩ := ht
    exact ⟨g0, (hk _ (by decide) (by decide)).trans g1, (hk _ (by decide) (by decide)).trans g2, (hk _ (by decide) (by decide)).trans g3, (hk _ (by decide) (by decide)).trans g4,
      (hk _ (by decide) (by decide)).trans g5⟩
  have hp0 := hp.1
  by_cases g : 65536 ≤ p + parts tv
  · rw [if_pos g, show (p + parts tv) / 65536 = 1 by omega]
    obtain ⟨g0, g1, g2, g3, g4, g5⟩ := ht'
    unfold place at g1 g2 g3 g4 g5
    have o1 := or_digits (48 + t / 60 / 10) (48 + t / 60 % 10) (by omega) (by omega)
    have o2 := or_digits _ (48 + t % 60 / 10) ⟨o1.1, o1.2.1⟩ (by omega)
    have o3 := or_digits _ (48 + t % 60 % 10) ⟨o2.1, o2.2.1⟩ (by omega)
    refine to_check (u0 := 48 + t / 60 / 10) (u1 := 48 + t / 60 % 10) (u3 := 48 + t % 60 / 10) (u4 := 48 + t % 60 % 10) R' (g1.trans (by omega)) (Eq.trans g2 (by omega)) (Eq.trans g4 (by omega))
      (Eq.trans g5 (by omega)) rfl fun a z c => ?_
    generalize (48 + t / 60 / 10 ||| (48 + t / 60 % 10)) ||| (48 + t % 60 / 10) ||| (48 + t % 60 % 10) = w at o3 ⊢
    generalize (48 + t / 60 / 10 ||| (48 + t / 60 % 10)) ||| (48 + t % 60 / 10) = w2 at o3 o2
    cases t with
    | zero =>
      rw [if_neg (by omega)]
      exact to_back R' hv ⟨⟨g0, g1, g2, g3, g4, g5⟩, hp', R'⟩ (.inl rfl)
    | succ t =>
      rw [if_pos (by omega)]
      refine To.mono (to_less R' hv ⟨g0, g1, g2, g3, g4, g5⟩) fun f ⟨f1, f2, fy, ⟨f3, f4, f5, f6⟩, f7⟩ => ⟨f1, f2, fy, ⟨f3, ⟨hp'.1, f4.trans hp'.2.1, f5.trans hp'.2.2⟩, f6⟩, f7⟩
  · rw [if_neg g, show (p + parts tv) / 65536 = 0 by omega]
    exact to_back R' hv ⟨ht', hp', R'⟩ (.inl rfl)

/-- A frame, when there is no time. -/
theorem to_frame_empty {tv p : Nat} (R : Prog mem) (htv : tv = 0 ∨ tv = 1) (hp : Parts mem p) (ht : Empty mem) :
    To ⟨a, tv, y, s, 0xfc99, z, c, mem⟩ (Back mem s y fun m => Empty m ∧ Parts m ((p + parts tv) % 65536) ∧ Prog m) := by
  refine to_parts R htv hp fun a z c mem' R' hp' hk => ?_
  have hv : ∀ b, ¬ Variable b → mem' b = mem b := fun b hb => hk b (by unfold Variable at hb; omega) (by unfold Variable at hb; omega)
  have ht' : Empty mem' := fun k h1 h2 => (hk _ (by unfold place; omega) (by unfold place; omega)).trans (ht k h1 h2)
  by_cases g : 65536 ≤ p + parts tv
  · rw [if_pos g]
    refine to_check (u0 := 32) (u1 := 32) (u3 := 32) (u4 := 32) (w := 32) R' (ht' 0 (by decide) (by decide)) (ht' 1 (by decide) (by decide)) (ht' 3 (by decide) (by decide)) (ht' 4 (by decide) (by decide)) rfl fun a z c => ?_
    rw [if_neg (by decide)]
    exact to_back R' hv ⟨ht', hp', R'⟩ (.inl rfl)
  · rw [if_neg g]
    exact to_back R' hv ⟨ht', hp', R'⟩ (.inl rfl)

/-- From the beginning, in decimal mode too. -/
theorem returns_of {st : State} {T : (Int → Int) → Prop} {tv : Nat} (R : Prog st.mem) (hpc : st.pc = 0xfc98) (hx : st.x = tv)
    (h : ∀ a y z c, To ⟨a, tv, y, st.s, 0xfc99, z, c, st.mem⟩ (Back st.mem st.s y T)) :
    ∃ st', Returns st st' ∧ T st'.mem ∧ ∀ b, ¬ Variable b → st'.mem b = st.mem b := by
  obtain ⟨st', r, ⟨e1, e2, ey, e3, e4⟩, _⟩ := h st.a st.y st.z st.c { st with pc := 0xfc99, d := false } (by rw [← hx]; rfl) rfl
  refine ⟨st', ⟨.step .cld ⟨0xd8, .imp, 2⟩ (by decide) (by rw [hpc]; exact R.at 0x25) (by omega) (by rw [hpc]; decide) ?_, e1, e2, ey⟩, e3, e4⟩
  have e : st.after .cld .imp = { st with pc := 0xfc99, d := false } := by
    show ({ st with pc := st.pc + 1, d := false } : State) = _
    rw [hpc]; rfl
  rw [e]
  exact r

/-! ## The screen -/

/-- Switching the screen on. -/
theorem to_screen (R : Prog mem) (hv : mem 0xd40b = 0) :
    To ⟨a, x, y, s, 0xfc73, z, c, mem⟩ fun g => g.pc = (mem (256 + (s + 1) % 256) + 256 * mem (256 + (s + 2) % 256) + 1) % 65536 ∧ g.s = (s + 2) % 256 ∧ g.y = y ∧
      g.mem = wr (wr (wr (wr (wr (wr (wr mem 0xd405 0) 0xd016 0x26) 0xd017 0x0a) 0xd400 0x21) 0xd402 0x50) 0xd403 0xfc) 0xd409 0xfc ∧ g.a = 0 := by
  refine to_lda_abs (p := 0xd40b) (v := 0) (R.at 0x00) (by rw [R.at 0x01 (b := 0x0b), R.at 0x02 (b := 0xd4)]; omega) hv (by omega) ?_
  refine to_bne (t := 0xfc73) (d := 0xfb) (R.at 0x03) (R.at 0x04) (by omega) (by decide) (by omega) ?_
  rw [if_pos (by decide)]
  refine to_sta_abs (p := 0xd405) (R.at 0x05) (by rw [R.at 0x06 (b := 0x05), R.at 0x07 (b := 0xd4)]; omega) (by omega) ?_
  have R1 := R.put (q := 0xd405) (v := 0) (by omega)
  refine to_ldx_imm (v := 0x26) (R1.at 0x08) (R1.at 0x09) (by omega) ?_
  refine to_stx_abs (p := 0xd016) (R1.at 0x0a) (by rw [R1.at 0x0b (b := 0x16), R1.at 0x0c (b := 0xd0)]; omega) (by omega) ?_
  have R2 := R1.put (q := 0xd016) (v := 0x26) (by omega)
  refine to_ldx_imm (v := 0x0a) (R2.at 0x0d) (R2.at 0x0e) (by omega) ?_
  refine to_stx_abs (p := 0xd017) (R2.at 0x0f) (by rw [R2.at 0x10 (b := 0x17), R2.at 0x11 (b := 0xd0)]; omega) (by omega) ?_
  have R3 := R2.put (q := 0xd017) (v := 0x0a) (by omega)
  refine to_ldx_imm (v := 0x21) (R3.at 0x12) (R3.at 0x13) (by omega) ?_
  refine to_stx_abs (p := 0xd400) (R3.at 0x14) (by rw [R3.at 0x15 (b := 0x00), R3.at 0x16 (b := 0xd4)]; omega) (by omega) ?_
  have R4 := R3.put (q := 0xd400) (v := 0x21) (by omega)
  refine to_ldx_imm (v := 0x50) (R4.at 0x17) (R4.at 0x18) (by omega) ?_
  refine to_stx_abs (p := 0xd402) (R4.at 0x19) (by rw [R4.at 0x1a (b := 0x02), R4.at 0x1b (b := 0xd4)]; omega) (by omega) ?_
  have R5 := R4.put (q := 0xd402) (v := 0x50) (by omega)
  refine to_ldx_imm (v := 0xfc) (R5.at 0x1c) (R5.at 0x1d) (by omega) ?_
  refine to_stx_abs (p := 0xd403) (R5.at 0x1e) (by rw [R5.at 0x1f (b := 0x03), R5.at 0x20 (b := 0xd4)]; omega) (by omega) ?_
  have R6 := R5.put (q := 0xd403) (v := 0xfc) (by omega)
  refine to_stx_abs (p := 0xd409) (R6.at 0x21) (by rw [R6.at 0x22 (b := 0x09), R6.at 0x23 (b := 0xd4)]; omega) (by omega) ?_
  have R7 := R6.put (q := 0xd409) (v := 0xfc) (by omega)
  refine to_rts (R7.at 0x24) (by omega) rfl (To.refl ⟨?_, rfl, rfl, rfl, rfl⟩)
  have k : ∀ b : Int, b < 0xd000 → wr (wr (wr (wr (wr (wr (wr mem 0xd405 0) 0xd016 0x26) 0xd017 0x0a) 0xd400 0x21) 0xd402 0x50) 0xd403 0xfc) 0xd409 0xfc b = mem b := by
    intro b hb
    rw [wr_other (by omega), wr_other (by omega), wr_other (by omega), wr_other (by omega), wr_other (by omega), wr_other (by omega), wr_other (by omega)]
  dsimp only
  rw [k _ (by omega), k _ (by omega)]

end Asap.Flat
