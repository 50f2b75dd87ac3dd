import Verif.Lemmas.Digital

/-! # The part of executables that resets the POKEYs -/

namespace Asap.Flat
open Asap.Isa Asap.Spec.Flat
open Asap.Spec.Convert (cfg wr wr_self wr_other)

variable {a x y s pc : Int} {z c : Bool} {mem : Int → Int} {Q : Spec.Convert.Cfg → Prop}

theorem dex_n (st : State) : (st.after .dex .imp).n = decide (128 ≤ (st.x - 1) % 256) := rfl

/-- `dex` and `bpl`: the sign of the new value decides. -/
theorem to_dex_bpl {d t : Int} (h1 : mem pc = 0xca) (h2 : mem (pc + 1) = 0x10) (hv : mem (pc + 2) = d) (hp : 0 ≤ pc ∧ pc < 0xff00) (ht : pc + 3 + State.signed d = t) (h0 : 0 ≤ t ∧ t < 65536)
    (hq : To ⟨a, (x - 1) % 256, y, s, if 128 ≤ (x - 1) % 256 then pc + 3 else t, decide ((x - 1) % 256 = 0), c, mem⟩ Q) : To ⟨a, x, y, s, pc, z, c, mem⟩ Q := by
  intro st hst hd
  have k1 : cfg (st.after .dex .imp) = ⟨a, (x - 1) % 256, y, s, pc + 1, decide ((x - 1) % 256 = 0), c, mem⟩ := by
    injection hst with e1 e2 e3 e4 e5 e6 e7 e8
    subst e1 e2 e3 e4 e5 e6 e7 e8
    rfl
  have k2 : (st.after .dex .imp).d = false := hd
  have k3 : (st.after .dex .imp).n = decide (128 ≤ (x - 1) % 256) := by
    have : st.x = x := congrArg Spec.Convert.Cfg.x hst
    rw [dex_n, this]
  have m0 : st.mem = mem := congrArg Spec.Convert.Cfg.mem hst
  have p0 : st.pc = pc := congrArg Spec.Convert.Cfg.pc hst
  generalize hu : st.after .dex .imp = u at k1 k2 k3
  have m1 : u.mem = mem := congrArg Spec.Convert.Cfg.mem k1
  have p1 : u.pc = pc + 1 := congrArg Spec.Convert.Cfg.pc k1
  have tg : u.target = t := by
    have : u.b1 = d := by
      show u.mem (u.pc + 1) = d
      rw [m1, p1, show pc + 1 + 1 = pc + 2 by omega, hv]
    unfold State.target
    rw [this, p1]
    omega
  have k4 : cfg (u.after .bpl .rel) = ⟨a, (x - 1) % 256, y, s, if 128 ≤ (x - 1) % 256 then pc + 3 else t, decide ((x - 1) % 256 = 0), c, mem⟩ := by
    have e : u.after .bpl .rel = { u with pc := if 128 ≤ (x - 1) % 256 then pc + 3 else t } := by
      show { u with pc := if !u.n then u.target else u.pc + 2 } = _
      rw [k3, tg, p1, show pc + 1 + 2 = pc + 3 by omega]
      by_cases h : 128 ≤ (x - 1) % 256
      · rw [decide_eq_true h, if_pos h]; rfl
      · rw [decide_eq_false h, if_neg h]; rfl
    rw [e]
    injection k1 with e1 e2 e3 e4 e5 e6 e7 e8
    unfold cfg
    dsimp only
    rw [e1, e2, e3, e4, e6, e7, e8]
  obtain ⟨st', r, p, d'⟩ := hq _ k4 k2
  refine ⟨st', .step .dex ⟨0xca, .imp, 2⟩ (by decide) (by rw [m0, p0]; exact h1) (by rw [p0]; exact hp.1) (by rw [p0]; show pc + 1 ≤ _; omega) ?_, p, d'⟩
  show Runs (st.after .dex .imp) st'
  rw [hu]
  exact .step .bpl ⟨0x10, .rel, 2⟩ (by decide) (by rw [m1, p1]; exact h2) (by rw [p1]; omega) (by rw [p1]; show pc + 1 + 2 ≤ _; omega) r

/-- The part of the programs, of both kinds. -/
def resetCode : List Nat := [0xa2, 0x08, 0x9d, 0x10, 0xd2, 0x9d, 0x00, 0xd2, 0xca, 0x10, 0xf7, 0xa9, 0x03, 0x8d, 0x1f, 0xd2, 0x8d, 0x00, 0xd2]

/-- It is at `q`. -/
def Resets (q : Int) (mem : Int → Int) : Prop := ∀ j b : Nat, resetCode[j]? = some b → mem (q + j) = b

theorem Resets.at {q p : Int} {mem : Int → Int} (R : Resets q mem) {b : Nat} (j : Nat) (hp : p = q + j := by omega) (e : resetCode[j]? = some b := by decide) : mem p = b := by
  rw [hp]; exact R j b e

theorem Resets.put {q p v : Int} {mem : Int → Int} (R : Resets q mem) (h : q + 19 ≤ p) : Resets q (wr mem p v) := by
  intro j b e
  have := (List.getElem?_eq_some_iff.mp e).1
  rw [show resetCode.length = 19 by decide] at this
  rw [wr_other (by omega)]
  exact R j b e

/-- Registers `n` to 0 of both. -/
def clear : Nat → (Int → Int) → Int → Int
  | 0, mem => wr (wr mem 0xd210 0) 0xd200 0
  | n + 1, mem => clear n (wr (wr mem (0xd210 + (n + 1 : Nat)) 0) (0xd200 + (n + 1 : Nat)) 0)

theorem clear_other (n : Nat) : ∀ {mem : Int → Int} {b : Int}, ¬ (0xd200 ≤ b ∧ b ≤ 0xd200 + n) → ¬ (0xd210 ≤ b ∧ b ≤ 0xd210 + n) → clear n mem b = mem b := by
  induction n with
  | zero => intro mem b h1 h2; unfold clear; rw [wr_other (by omega), wr_other (by omega)]
  | succ n ih => intro mem b h1 h2; unfold clear; rw [ih (by omega) (by omega), wr_other (by omega), wr_other (by omega)]

theorem clear_self (n : Nat) (hn : n ≤ 8) : ∀ {mem : Int → Int} {b : Int}, (0xd200 ≤ b ∧ b ≤ 0xd200 + n) ∨ (0xd210 ≤ b ∧ b ≤ 0xd210 + n) → clear n mem b = 0 := by
  induction n with
  | zero =>
    intro mem b h
    unfold clear
    rcases h with h | h
    · rw [show b = 0xd200 by omega, wr_self]
    · rw [show b = 0xd210 by omega, wr_other (by omega), wr_self]
  | succ n ih =>
    intro mem b h
    unfold clear
    by_cases h' : (0xd200 ≤ b ∧ b ≤ 0xd200 + n) ∨ (0xd210 ≤ b ∧ b ≤ 0xd210 + n)
    · exact ih (by omega) h'
    rw [clear_other n (by omega) (by omega)]
    rcases h with h | h
    · rw [show b = 0xd200 + (n + 1 : Nat) by omega, wr_self]
    · rw [show b = 0xd210 + (n + 1 : Nat) by omega, wr_other (by omega), wr_self]

/-- The loop, from register `n`. -/
theorem to_clear {q : Int} (hq0 : 0 ≤ q ∧ q < 0xc000) (n : Nat) (hn : n ≤ 8) : ∀ {mem : Int → Int} {z : Bool}, Resets q mem → (∀ z, To ⟨0, 255, y, s, q + 11, z, c, clear n mem⟩ Q) →
    To ⟨0, n, y, s, q + 2, z, c, mem⟩ Q := by
  have body : ∀ {mem : Int → Int} {z : Bool} {x : Int}, Resets q mem → 0 ≤ x ∧ x ≤ 8 →
      (∀ z, To ⟨0, (x - 1) % 256, y, s, if 128 ≤ (x - 1) % 256 then q + 11 else q + 2, z, c, wr (wr mem (0xd210 + x) 0) (0xd200 + x) 0⟩ Q) → To ⟨0, x, y, s, q + 2, z, c, mem⟩ Q := by
    intro mem z x R hx hh
    refine to_sta_absx (p := 0xd210 + x) (R.at 2) (by rw [R.at 3 (b := 0x10), R.at 4 (b := 0xd2)]; omega) (by omega) ?_
    have R1 : Resets q (wr mem (0xd210 + x) 0) := R.put (by omega)
    refine to_sta_absx (p := 0xd200 + x) (R1.at 5) (by rw [R1.at 6 (b := 0x00), R1.at 7 (b := 0xd2)]; omega) (by omega) ?_
    have R2 : Resets q (wr (wr mem (0xd210 + x) 0) (0xd200 + x) 0) := R1.put (by omega)
    refine to_dex_bpl (d := 0xf7) (t := q + 2) (R2.at 8) (R2.at 9) (R2.at 10) (by omega) (by rw [show State.signed 0xf7 = -9 by decide]; omega) (by omega) ?_
    rw [show q + 2 + 3 + 3 + 3 = q + 11 by omega]
    exact hh _
  induction n with
  | zero =>
    intro mem z R h
    exact body R (by omega) fun z => h z
  | succ n ih =>
    intro mem z R h
    refine body R (by omega) fun z => ?_
    rw [show (((n + 1 : Nat) : Int) - 1) % 256 = n by omega, if_neg (by omega)]
    exact ih (by omega) ((R.put (by omega)).put (by omega)) h

/-- All of it. -/
theorem to_reset {q : Int} (hq0 : 0 ≤ q ∧ q < 0xc000) (R : Resets q mem) (hq : ∀ z, To ⟨3, 255, y, s, q + 19, z, c, wr (wr (clear 8 mem) 0xd21f 3) 0xd200 3⟩ Q) : To ⟨0, x, y, s, q, z, c, mem⟩ Q := by
  refine to_ldx_imm (v := 8) (R.at 0) (R.at 1) (by omega) ?_
  refine to_clear hq0 8 (by omega) R fun z => ?_
  have R1 : Resets q (clear 8 mem) := by
    intro j b e
    have := (List.getElem?_eq_some_iff.mp e).1
    rw [show resetCode.length = 19 by decide] at this
    rw [clear_other 8 (by omega) (by omega)]
    exact R j b e
  refine to_lda_imm (v := 3) (R1.at 11) (R1.at 12) (by omega) ?_
  refine to_sta_abs (p := 0xd21f) (R1.at 13) (by rw [R1.at 14 (b := 0x1f), R1.at 15 (b := 0xd2)]; omega) (by omega) ?_
  have R2 : Resets q (wr (clear 8 mem) 0xd21f 3) := R1.put (by omega)
  refine to_sta_abs (p := 0xd200) (R2.at 16) (by rw [R2.at 17 (b := 0x00), R2.at 18 (b := 0xd2)]; omega) (by omega) ?_
  rw [show q + 11 + 2 + 3 + 3 = q + 19 by omega]
  exact hq _

end Asap.Flat
