import Verif.Lemmas.Interrupt
import Verif.Spec.Digital

/-! # The program of executables of type D -/

namespace Asap.Flat
open Asap.Isa Asap.Spec.Flat
open Asap.Spec.Convert (cfg wr wr_self wr_other)

variable {a x y s pc : Int} {z c : Bool} {mem : Int → Int} {Q : Spec.Convert.Cfg → Prop}

theorem any_tya (h : mem pc = 0x98) (hp : 0 ≤ pc ∧ pc < 0xff00) (hq : Any ⟨y, x, y, s, pc + 1, decide (y = 0), c, mem⟩ Q) : Any ⟨a, x, y, s, pc, z, c, mem⟩ Q := by
  refine any_step .tya ⟨0x98, .imp, 2⟩ (by decide) h hp.1 (by show pc + 1 ≤ _; omega) ?_ hq
  intro st hst
  injection hst with e1 e2 e3 e4 e5 e6 e7 e8
  subst e1 e2 e3 e4 e5 e6 e7 e8
  rfl

theorem any_tay (h : mem pc = 0xa8) (hp : 0 ≤ pc ∧ pc < 0xff00) (hq : Any ⟨a, x, a, s, pc + 1, decide (a = 0), c, mem⟩ Q) : Any ⟨a, x, y, s, pc, z, c, mem⟩ Q := by
  refine any_step .tay ⟨0xa8, .imp, 2⟩ (by decide) h hp.1 (by show pc + 1 ≤ _; omega) ?_ hq
  intro st hst
  injection hst with e1 e2 e3 e4 e5 e6 e7 e8
  subst e1 e2 e3 e4 e5 e6 e7 e8
  rfl

theorem any_dex (h : mem pc = 0xca) (hp : 0 ≤ pc ∧ pc < 0xff00) (hq : Any ⟨a, (x - 1) % 256, y, s, pc + 1, decide ((x - 1) % 256 = 0), c, mem⟩ Q) : Any ⟨a, x, y, s, pc, z, c, mem⟩ Q := by
  refine any_step .dex ⟨0xca, .imp, 2⟩ (by decide) h hp.1 (by show pc + 1 ≤ _; omega) ?_ hq
  intro st hst
  injection hst with e1 e2 e3 e4 e5 e6 e7 e8
  subst e1 e2 e3 e4 e5 e6 e7 e8
  rfl

theorem any_ldx_imm {v : Int} (h : mem pc = 0xa2) (hv : mem (pc + 1) = v) (hp : 0 ≤ pc ∧ pc < 0xff00) (hq : Any ⟨a, v, y, s, pc + 2, decide (v = 0), c, mem⟩ Q) :
    Any ⟨a, x, y, s, pc, z, c, mem⟩ Q := by
  refine any_step .ldx ⟨0xa2, .imm, 2⟩ (by decide) h hp.1 (by show pc + 2 ≤ _; omega) ?_ hq
  intro st hst
  injection hst with e1 e2 e3 e4 e5 e6 e7 e8
  subst e1 e2 e3 e4 e5 e6 e7 e8 hv
  rfl

theorem any_beq {d t : Int} (h : mem pc = 0xf0) (hv : mem (pc + 1) = d) (hp : 0 ≤ pc ∧ pc < 0xff00) (ht : pc + 2 + State.signed d = t) (h0 : 0 ≤ t ∧ t < 65536)
    (hq : Any ⟨a, x, y, s, if z then t else pc + 2, z, c, mem⟩ Q) : Any ⟨a, x, y, s, pc, z, c, mem⟩ Q := by
  refine any_step .beq ⟨0xf0, .rel, 2⟩ (by decide) h hp.1 (by show pc + 2 ≤ _; omega) ?_ hq
  intro st hst
  injection hst with e1 e2 e3 e4 e5 e6 e7 e8
  subst e1 e2 e3 e4 e5 e6 e7 e8
  have e : (st.pc + 2 + State.signed st.b1) % 65536 = t := by
    unfold State.b1
    rw [hv, ht]
    omega
  show cfg { st with pc := if st.z then (st.pc + 2 + State.signed st.b1) % 65536 else st.pc + 2 } = _
  rw [e]
  rfl

/-! ## The program -/

/-- The program from 0x124 to 0x192. -/
def digitalCode : List Nat := Obx.xexd.drop 6

/-- The program. -/
def Digi (mem : Int → Int) : Prop := Spec.Digital.Program digitalCode mem

theorem Digi.at {mem : Int → Int} (R : Digi mem) {q : Int} {b : Nat} (j : Nat) (hq : q = 0x124 + j := by omega) (e : digitalCode[j]? = some b := by decide +kernel)
    (hj : 22 ≤ j := by decide) : mem q = b := by
  rw [hq]; exact R j b e hj

theorem Digi.kept {mem mem' : Int → Int} (R : Digi mem) (h : ∀ b : Int, 0x124 ≤ b → b ≤ 0x192 → mem' b = mem b) : Digi mem' := by
  intro j b e hj
  have := (List.getElem?_eq_some_iff.mp e).1
  rw [show digitalCode.length = 111 by decide +kernel] at this
  rw [h _ (by omega) (by omega)]
  exact R j b e hj

theorem Digi.stack {mem : Int → Int} (R : Digi mem) {q v : Int} (h : 0x193 ≤ q) : Digi (wr mem q v) := R.kept fun b _ _ => wr_other (by omega)

/-- The stack when the player is called. -/
def playerStack (mem : Int → Int) (s a x y : Int) : Int → Int := wr (wr (wr (wr (wr mem (256 + s) a) (255 + s) x) (254 + s) y) (253 + s) 1) (252 + s) 0x7b

/-- To the player. -/
theorem any_to_player (R : Digi mem) (hs : 0x98 ≤ s ∧ s < 256) (hq : ∀ z, Any ⟨y, x, y, s - 5, 0x195, z, c, playerStack mem s a x y⟩ Q) : Any ⟨a, x, y, s, 0x174, z, c, mem⟩ Q := by
  refine any_pha (R.at 0x50) (by omega) (by omega) ?_
  have R1 := R.stack (q := 256 + s) (v := a) (by omega)
  refine any_txa (R1.at 0x51) (by omega) ?_
  refine any_pha (R1.at 0x52) (by omega) (by omega) ?_
  have R2 := R1.stack (q := 256 + (s - 1)) (v := x) (by omega)
  refine any_tya (R2.at 0x53) (by omega) ?_
  refine any_pha (R2.at 0x54) (by omega) (by omega) ?_
  have R3 := R2.stack (q := 256 + (s - 1 - 1)) (v := y) (by omega)
  refine any_jsr (v := 0x195) (R3.at 0x55) (R3.at 0x56) (R3.at 0x57) (by omega) (by omega) ?_
  have := hq (decide (y = 0))
  unfold playerStack at this
  rw [show (256 : Int) + (s - 1) = 255 + s by omega, show (256 : Int) + (s - 1 - 1) = 254 + s by omega, show (256 : Int) + (s - 1 - 1 - 1) = 253 + s by omega,
    show (255 : Int) + (s - 1 - 1 - 1) = 252 + s by omega, show s - 1 - 1 - 1 - 2 = s - 5 by omega]
  exact this

/-- The registers. -/
theorem any_restore {a' x' y' : Int} (R : Digi mem) (hs : 0 ≤ s ∧ s < 253) (hy : mem (257 + s) = y') (hx : mem (258 + s) = x') (ha : mem (259 + s) = a')
    (hq : ∀ z, Any ⟨a', x', y', s + 3, 0x191, z, c, mem⟩ Q) : Any ⟨a, x, y, s, 0x18c, z, c, mem⟩ Q := by
  refine any_pla (R.at 0x68) (by omega) (by omega) hy ?_
  refine any_tay (R.at 0x69) (by omega) ?_
  refine any_pla (v := x') (R.at 0x6a) (by omega) (by omega) (by rw [show (257 : Int) + (s + 1) = 258 + s by omega, hx]) ?_
  refine any_tax (R.at 0x6b) (by omega) ?_
  refine any_pla (v := a') (R.at 0x6c) (by omega) (by omega) (by rw [show (257 : Int) + (s + 1 + 1) = 259 + s by omega, ha]) ?_
  rw [show s + 1 + 1 + 1 = s + 3 by omega]
  exact hq _

/-- From the player, without the information. -/
theorem any_from_player (R : Digi mem) (h : mem 0x135 = 0) (hq : ∀ x z, Any ⟨a, x, y, s, 0x18c, z, c, mem⟩ Q) : Any ⟨a, x, y, s, 0x17c, z, c, mem⟩ Q := by
  refine any_ldx_abs (p := 0x135) (v := 0) (R.at 0x58) (by rw [R.at 0x59 (b := 0x35), R.at 0x5a (b := 0x01)]; omega) h (by omega) ?_
  refine any_beq (t := 0x18c) (d := 0x0b) (R.at 0x5b) (R.at 0x5c) (by omega) (by decide) (by omega) ?_
  exact hq _ _

/-- From the player to the countdown. -/
theorem any_to_countdown (R : Digi mem) (hs : 0x98 ≤ s ∧ s < 256) (h : mem 0x135 ≠ 0) (hb : 0 ≤ mem 0xd014 ∧ mem 0xd014 < 256)
    (hq : ∀ z, Any ⟨a, ((if mem 0xd014 = 1 then 0 else 1 : Nat) : Int), y, s - 2, 0xfc98, z, c, wr (wr mem (256 + s) 1) (255 + s) 0x8b⟩ Q) : Any ⟨a, x, y, s, 0x17c, z, c, mem⟩ Q := by
  refine any_ldx_abs (p := 0x135) (v := mem 0x135) (R.at 0x58) (by rw [R.at 0x59 (b := 0x35), R.at 0x5a (b := 0x01)]; omega) rfl (by omega) ?_
  refine any_beq (t := 0x18c) (d := 0x0b) (R.at 0x5b) (R.at 0x5c) (by omega) (by decide) (by omega) ?_
  rw [decide_eq_false h, if_neg (by decide)]
  refine any_ldx_abs (p := 0xd014) (v := mem 0xd014) (R.at 0x5d) (by rw [R.at 0x5e (b := 0x14), R.at 0x5f (b := 0xd0)]; omega) rfl (by omega) ?_
  refine any_dex (R.at 0x60) (by omega) ?_
  refine any_beq (t := 0x189) (d := 0x02) (R.at 0x61) (R.at 0x62) (by omega) (by decide) (by omega) ?_
  have fin : ∀ (X : Int) (z : Bool), X = ((if mem 0xd014 = 1 then 0 else 1 : Nat) : Int) → Any ⟨a, X, y, s, 0x189, z, c, mem⟩ Q := by
    intro X z hX
    subst hX
    refine any_jsr (v := 0xfc98) (R.at 0x65) (R.at 0x66) (R.at 0x67) (by omega) (by omega) ?_
    exact hq _
  by_cases g : mem 0xd014 = 1
  · rw [decide_eq_true (by omega), if_pos rfl]
    exact fin _ _ (by rw [if_pos g, g]; rfl)
  · rw [decide_eq_false (by omega), if_neg (by decide)]
    exact any_ldx_imm (v := 1) (R.at 0x63) (R.at 0x64) (by omega) (fin _ _ (by rw [if_neg g]; rfl))

/-- The last instruction restores everything, whether or not the status was pushed by an interrupt. -/
theorem flags_back' : ∀ n v d i z c : Bool,
    let p := 128 * State.bit n + 64 * State.bit v + 32 + 16 * State.bit true + 8 * State.bit d + 4 * State.bit i + 2 * State.bit z + State.bit c
    decide (p / 128 % 2 = 1) = n ∧ decide (p / 64 % 2 = 1) = v ∧ decide (p / 8 % 2 = 1) = d ∧ decide (p / 4 % 2 = 1) = i ∧ decide (p / 2 % 2 = 1) = z ∧ decide (p % 2 = 1) = c := by
  decide

theorem rti_restores' {st st' : State} (hpc : 0 ≤ st.pc ∧ st.pc < 65536) (hs : 3 ≤ st.s ∧ st.s < 256) (h1 : st'.s = st.s - 3) (h2 : st'.a = st.a) (h3 : st'.x = st.x) (h4 : st'.y = st.y)
    (m1 : st'.mem (254 + st.s) = st.status true) (m2 : st'.mem (255 + st.s) = st.pc % 256) (m3 : st'.mem (256 + st.s) = st.pc / 256 % 256) :
    st'.after .rti .imp = { st with mem := st'.mem } := by
  obtain ⟨f1, f2, f3, f4, f5, f6⟩ := flags_back' st.n st.v st.d st.i st.z st.c
  have t1 : st'.mem (256 + (st'.s + 1) % 256) = st.status true := by rw [h1, show (256 : Int) + (st.s - 3 + 1) % 256 = 254 + st.s by omega, m1]
  have t2 : st'.mem (256 + (st'.s + 2) % 256) = st.pc % 256 := by rw [h1, show (256 : Int) + (st.s - 3 + 2) % 256 = 255 + st.s by omega, m2]
  have t3 : st'.mem (256 + (st'.s + 3) % 256) = st.pc / 256 % 256 := by rw [h1, show (256 : Int) + (st.s - 3 + 3) % 256 = 256 + st.s by omega, m3]
  have e : st'.after .rti .imp = { a := st'.a, x := st'.x, y := st'.y, s := (st'.s + 3) % 256, pc := st'.mem (256 + (st'.s + 2) % 256) + 256 * st'.mem (256 + (st'.s + 3) % 256), n := decide (st'.mem (256 + (st'.s + 1) % 256) / 128 % 2 = 1), v := decide (st'.mem (256 + (st'.s + 1) % 256) / 64 % 2 = 1), d := decide (st'.mem (256 + (st'.s + 1) % 256) / 8 % 2 = 1), i := decide (st'.mem (256 + (st'.s + 1) % 256) / 4 % 2 = 1), z := decide (st'.mem (256 + (st'.s + 1) % 256) / 2 % 2 = 1), c := decide (st'.mem (256 + (st'.s + 1) % 256) % 2 = 1), mem := st'.mem } := rfl
  rw [e, t1, t2, t3, h1, h2, h3, h4, show st.pc % 256 + 256 * (st.pc / 256 % 256) = st.pc by omega, show (st.s - 3 + 3) % 256 = st.s by omega]
  unfold State.status
  rw [f1, f2, f3, f4, f5, f6]

/-- The first instructions of the routine: the flags are as before the interrupt. -/
theorem unblocked {st st0 : State} (hs : 3 ≤ st.s ∧ st.s < 256) (h0 : st0 = { st with i := true, s := st.s - 3, pc := 0x172, mem := mem }) (m1 : mem (254 + st.s) = st.status false) :
    (st0.after .plp .imp).after .php .imp = { st with s := st.s - 3, pc := 0x174, mem := wr mem (254 + st.s) (st.status true) } := by
  obtain ⟨f1, f2, f3, f4, f5, f6⟩ := flags_back st.n st.v st.d st.i st.z st.c
  have t1 : mem (256 + (st.s - 3 + 1) % 256) = st.status false := by rw [show (256 : Int) + (st.s - 3 + 1) % 256 = 254 + st.s by omega, m1]
  have e : st0.after .plp .imp = { st with n := decide (mem (256 + (st.s - 3 + 1) % 256) / 128 % 2 = 1), v := decide (mem (256 + (st.s - 3 + 1) % 256) / 64 % 2 = 1), d := decide (mem (256 + (st.s - 3 + 1) % 256) / 8 % 2 = 1), i := decide (mem (256 + (st.s - 3 + 1) % 256) / 4 % 2 = 1), z := decide (mem (256 + (st.s - 3 + 1) % 256) / 2 % 2 = 1), c := decide (mem (256 + (st.s - 3 + 1) % 256) % 2 = 1), s := (st.s - 3 + 1) % 256, pc := 0x173, mem := mem } := by
    rw [h0]; rfl
  rw [t1] at e
  have e' : st0.after .plp .imp = { st with s := st.s - 2, pc := 0x173, mem := mem } := by
    rw [e, show (st.s - 3 + 1) % 256 = st.s - 2 by omega]
    unfold State.status
    rw [f1, f2, f3, f4, f5, f6]
  rw [e']
  have e2 : ({ st with s := st.s - 2, pc := 0x173, mem := mem } : State).after .php .imp = { st with s := (st.s - 2 - 1) % 256, pc := 0x174, mem := wr mem (256 + (st.s - 2)) (st.status true) } := rfl
  rw [e2, show (st.s - 2 - 1) % 256 = st.s - 3 by omega, show (256 : Int) + (st.s - 2) = 254 + st.s by omega]

/-! ## The beginning of the program -/

theorem to_cli (h : mem pc = 0x58) (hp : 0 ≤ pc ∧ pc < 0xff00) (hq : To ⟨a, x, y, s, pc + 1, z, c, mem⟩ Q) : To ⟨a, x, y, s, pc, z, c, mem⟩ Q := by
  refine to_step .cli ⟨0x58, .imp, 2⟩ (by decide) h hp.1 (by show pc + 1 ≤ _; omega) ?_ hq
  intro st hst hd
  injection hst with e1 e2 e3 e4 e5 e6 e7 e8
  subst e1 e2 e3 e4 e5 e6 e7 e8
  exact ⟨rfl, hd⟩

/-- To the program of the song. -/
theorem to_song {v : Int} (R : Digi mem) (hm : mem 0x195 = v) (hb : 0 ≤ v ∧ v < 256)
    (hq : ∀ z c, To ⟨mem 0x198, x, y, s, 0x192, z, c, if v = 0x60 then wr mem 0xd301 0xfe else setUp mem 0x72⟩ Q) : To ⟨a, x, y, s, 0x150, z, c, mem⟩ Q := by
  refine to_lda_imm (v := 0xfe) (R.at 0x2c) (R.at 0x2d) (by omega) ?_
  refine to_sta_abs (p := 0xd301) (R.at 0x2e) (by rw [R.at 0x2f (b := 0x01), R.at 0x30 (b := 0xd3)]; omega) (by omega) ?_
  have R1 := R.stack (q := 0xd301) (v := 0xfe) (by omega)
  refine to_lda_abs (p := 0x195) (v := v) (R1.at 0x31) (by rw [R1.at 0x32 (b := 0x95), R1.at 0x33 (b := 0x01)]; omega) (by rw [wr_other (by omega), hm]) (by omega) ?_
  refine to_cmp_imm (v := 0x60) (R1.at 0x34) (R1.at 0x35) (by omega) ?_
  refine to_beq (t := 0x16b) (d := 0x0f) (R1.at 0x36) (R1.at 0x37) (by omega) (by decide) (by omega) ?_
  have fin : ∀ (A : Int) (z c : Bool) (m : Int → Int), Digi m → m 0x198 = mem 0x198 → (∀ z c, To ⟨mem 0x198, x, y, s, 0x192, z, c, m⟩ Q) → To ⟨A, x, y, s, 0x16b, z, c, m⟩ Q := by
    intro A z c m Rm e hr
    refine to_lda_abs (p := 0x198) (v := mem 0x198) (Rm.at 0x47) (by rw [Rm.at 0x48 (b := 0x98), Rm.at 0x49 (b := 0x01)]; omega) e (by omega) ?_
    refine to_cli (Rm.at 0x4a) (by omega) ?_
    exact to_jmp (v := 0x192) (Rm.at 0x4b) (by rw [Rm.at 0x4c (b := 0x92), Rm.at 0x4d (b := 0x01)]; omega) (by omega) (hr _ _)
  by_cases g : v = 0x60
  · rw [decide_eq_true (by omega), if_pos rfl]
    rw [if_pos g] at hq
    exact fin _ _ _ _ R1 (wr_other (by omega)) hq
  · rw [decide_eq_false (by omega), if_neg (by decide)]
    rw [if_neg g] at hq
    refine to_lda_imm (v := 0x72) (R1.at 0x38) (R1.at 0x39) (by omega) ?_
    refine to_sta_abs (p := 0xfffa) (R1.at 0x3a) (by rw [R1.at 0x3b (b := 0xfa), R1.at 0x3c (b := 0xff)]; omega) (by omega) ?_
    have R2 := R1.stack (q := 0xfffa) (v := 0x72) (by omega)
    refine to_lda_imm (v := 1) (R2.at 0x3d) (R2.at 0x3e) (by omega) ?_
    refine to_sta_abs (p := 0xfffb) (R2.at 0x3f) (by rw [R2.at 0x40 (b := 0xfb), R2.at 0x41 (b := 0xff)]; omega) (by omega) ?_
    have R3 := R2.stack (q := 0xfffb) (v := 1) (by omega)
    refine to_lda_imm (v := 0x40) (R3.at 0x42) (R3.at 0x43) (by omega) ?_
    refine to_sta_abs (p := 0xd40e) (R3.at 0x44) (by rw [R3.at 0x45 (b := 0x0e), R3.at 0x46 (b := 0xd4)]; omega) (by omega) ?_
    have R4 := R3.stack (q := 0xd40e) (v := 0x40) (by omega)
    refine fin _ _ _ _ R4 ?_ hq
    rw [wr_other (by omega), wr_other (by omega), wr_other (by omega), wr_other (by omega)]

end Asap.Flat
