import Verif.Spec.Processor
import Verif.Lemmas.Bits

/-! The emulated processor does what the manual says. -/

namespace Asap
open Machine C

/-- A machine with another processor. -/
def Machine.put (m : Machine) (r : Cpu) : Machine := { m with cpu := r }

/-- A flag as a number. -/
def flag (b : Bool) : Int := if b then 1 else 0

/-- V, D and I as the emulator keeps them. -/
def vdiOf (v d i : Bool) : Int := (if v then 64 else 0) + (if d then 8 else 0) + (if i then 4 else 0)

/-- The processor, field by field. -/
def cpuOf (mem : Int → Int) (cycle pc a x y s nz : Int) (c : Bool) (v d i : Bool) : Cpu :=
  ⟨mem, cycle, pc, a, x, y, s, nz, flag c, vdiOf v d i⟩

section step
variable (m : Machine) (mem : Int → Int) (cycle pc a x y s nz : Int) (c vdi : Int)

theorem c_bind {α β : Type} (f : C α) (g : α → C β) (m : Machine) :
    (f >>= g) m = match f m with | .ok (a, m) => g a m | .error e => .error e := rfl
theorem c_pure {α : Type} (a : α) (m : Machine) : (pure a : C α) m = .ok (a, m) := rfl
theorem c_reg {α : Type} (f : Cpu → α) : C.reg f (m.put ⟨mem, cycle, pc, a, x, y, s, nz, c, vdi⟩) =
    .ok (f ⟨mem, cycle, pc, a, x, y, s, nz, c, vdi⟩, m.put ⟨mem, cycle, pc, a, x, y, s, nz, c, vdi⟩) := rfl
theorem c_setA (w : Int) : setA w (m.put ⟨mem, cycle, pc, a, x, y, s, nz, c, vdi⟩) =
    .ok ((), m.put ⟨mem, cycle, pc, w, x, y, s, nz, c, vdi⟩) := rfl
theorem c_setX (w : Int) : setX w (m.put ⟨mem, cycle, pc, a, x, y, s, nz, c, vdi⟩) =
    .ok ((), m.put ⟨mem, cycle, pc, a, w, y, s, nz, c, vdi⟩) := rfl
theorem c_setY (w : Int) : setY w (m.put ⟨mem, cycle, pc, a, x, y, s, nz, c, vdi⟩) =
    .ok ((), m.put ⟨mem, cycle, pc, a, x, w, s, nz, c, vdi⟩) := rfl
theorem c_setS (w : Int) : setS w (m.put ⟨mem, cycle, pc, a, x, y, s, nz, c, vdi⟩) =
    .ok ((), m.put ⟨mem, cycle, pc, a, x, y, w, nz, c, vdi⟩) := rfl
theorem c_setNz (w : Int) : setNz w (m.put ⟨mem, cycle, pc, a, x, y, s, nz, c, vdi⟩) =
    .ok ((), m.put ⟨mem, cycle, pc, a, x, y, s, w, c, vdi⟩) := rfl
theorem c_setC (w : Int) : setC w (m.put ⟨mem, cycle, pc, a, x, y, s, nz, c, vdi⟩) =
    .ok ((), m.put ⟨mem, cycle, pc, a, x, y, s, nz, w, vdi⟩) := rfl
theorem c_setVdi (w : Int) : setVdi w (m.put ⟨mem, cycle, pc, a, x, y, s, nz, c, vdi⟩) =
    .ok ((), m.put ⟨mem, cycle, pc, a, x, y, s, nz, c, w⟩) := rfl
theorem c_setPc (w : Int) : setPc w (m.put ⟨mem, cycle, pc, a, x, y, s, nz, c, vdi⟩) =
    .ok ((), m.put ⟨mem, cycle, w, a, x, y, s, nz, c, vdi⟩) := rfl
theorem c_addPc (w : Int) : addPc w (m.put ⟨mem, cycle, pc, a, x, y, s, nz, c, vdi⟩) =
    .ok ((), m.put ⟨mem, cycle, pc + w, a, x, y, s, nz, c, vdi⟩) := rfl
theorem c_addCycle (w : Int) : addCycle w (m.put ⟨mem, cycle, pc, a, x, y, s, nz, c, vdi⟩) =
    .ok ((), m.put ⟨mem, cycle + w, pc, a, x, y, s, nz, c, vdi⟩) := rfl
theorem c_setNzA (w : Int) : setNzA w (m.put ⟨mem, cycle, pc, a, x, y, s, nz, c, vdi⟩) =
    .ok ((), m.put ⟨mem, cycle, pc, w, x, y, s, w, c, vdi⟩) := rfl
theorem c_setNzX (w : Int) : setNzX w (m.put ⟨mem, cycle, pc, a, x, y, s, nz, c, vdi⟩) =
    .ok ((), m.put ⟨mem, cycle, pc, a, w, y, s, w, c, vdi⟩) := rfl
theorem c_setNzY (w : Int) : setNzY w (m.put ⟨mem, cycle, pc, a, x, y, s, nz, c, vdi⟩) =
    .ok ((), m.put ⟨mem, cycle, pc, a, x, w, s, w, c, vdi⟩) := rfl
theorem c_setAlu (r : Alu) : setAlu r (m.put ⟨mem, cycle, pc, a, x, y, s, nz, c, vdi⟩) =
    .ok ((), m.put ⟨mem, cycle, pc, r.a, x, y, s, r.nz, r.c, r.vdi⟩) := rfl

theorem c_fetch (h : 0 ≤ pc ∧ pc < 65536) : fetch (m.put ⟨mem, cycle, pc, a, x, y, s, nz, c, vdi⟩) =
    .ok (mem pc, m.put ⟨mem, cycle, pc + 1, a, x, y, s, nz, c, vdi⟩) := by
  have : here (m.put ⟨mem, cycle, pc, a, x, y, s, nz, c, vdi⟩) = .ok (mem pc, m.put ⟨mem, cycle, pc, a, x, y, s, nz, c, vdi⟩) := by
    show (if 0 ≤ pc ∧ pc < 65536 then _ else _) = _
    rw [if_pos h]; rfl
  simp only [fetch, c_bind, this, c_addPc, c_pure]

theorem c_here (h : 0 ≤ pc ∧ pc < 65536) : here (m.put ⟨mem, cycle, pc, a, x, y, s, nz, c, vdi⟩) =
    .ok (mem pc, m.put ⟨mem, cycle, pc, a, x, y, s, nz, c, vdi⟩) := by
  show (if 0 ≤ pc ∧ pc < 65536 then _ else _) = _
  rw [if_pos h]; rfl

theorem c_load (p : Int) (h : 0 ≤ p ∧ p < 65536) : load p (m.put ⟨mem, cycle, pc, a, x, y, s, nz, c, vdi⟩) =
    .ok (mem p, m.put ⟨mem, cycle, pc, a, x, y, s, nz, c, vdi⟩) := by
  show (if 0 ≤ p ∧ p < 65536 then _ else _) = _
  rw [if_pos h]; rfl

theorem c_store (p w : Int) (h : 0 ≤ p ∧ p < 65536) : store p w (m.put ⟨mem, cycle, pc, a, x, y, s, nz, c, vdi⟩) =
    .ok ((), m.put ⟨stored mem p w, cycle, pc, a, x, y, s, nz, c, vdi⟩) := by
  show (if 0 ≤ p ∧ p < 65536 then _ else _) = _
  rw [if_pos h]; rfl

theorem page_table : ∀ k : Fin 256, band (k.val : Int) 0xf9 = 0xd0 → k.val = 0xd0 ∨ k.val = 0xd2 ∨ k.val = 0xd4 ∨ k.val = 0xd6 := by
  decide +kernel

/-- Only four pages reach the hardware. -/
theorem hardware_page {p : Int} (h : 0 ≤ p ∧ p < 65536) (hb : band p 0xf900 = 0xd000) : Spec.hardwarePage (p / 256) := by
  obtain ⟨n, rfl⟩ := Int.eq_ofNat_of_zero_le h.1
  have h2 : (n &&& 0xf900 : Nat) = 0xd000 := by
    have : ((n &&& 0xf900 : Nat) : Int) = 0xd000 := hb
    omega
  have h3 : (n / 2 ^ 8) &&& (0xf900 / 2 ^ 8) = 0xd000 / 2 ^ 8 := by
    rw [← h2]
    apply Nat.eq_of_testBit_eq
    intro i
    simp only [Nat.testBit_div_two_pow, Nat.testBit_and]
  have := page_table ⟨n / 256, by omega⟩ (show (((n / 256) &&& 0xf9 : Nat) : Int) = 0xd0 by
    have h3' : (n / 256) &&& 0xf9 = 0xd0 := h3
    rw [h3']; rfl)
  unfold Spec.hardwarePage
  simp only at this
  omega

theorem c_peek (p : Int) (h : 0 ≤ p ∧ p < 65536) (hh : ¬ Spec.hardwarePage (p / 256)) :
    peek p (m.put ⟨mem, cycle, pc, a, x, y, s, nz, c, vdi⟩) = .ok (mem p, m.put ⟨mem, cycle, pc, a, x, y, s, nz, c, vdi⟩) := by
  unfold peek
  rw [if_neg fun hb => hh (hardware_page h hb), c_load _ _ _ _ _ _ _ _ _ _ _ _ h]

theorem c_poke (p w : Int) (h : 0 ≤ p ∧ p < 65536) (hh : ¬ Spec.hardwarePage (p / 256)) :
    poke p w (m.put ⟨mem, cycle, pc, a, x, y, s, nz, c, vdi⟩) = .ok ((), m.put ⟨stored mem p w, cycle, pc, a, x, y, s, nz, c, vdi⟩) := by
  unfold poke
  rw [if_neg fun hb => hh (hardware_page h hb), c_store _ _ _ _ _ _ _ _ _ _ _ _ _ h]

theorem c_peekRmw (p : Int) (h : 0 ≤ p ∧ p < 65536) (hh : ¬ Spec.hardwarePage (p / 256)) :
    peekRmw p (m.put ⟨mem, cycle, pc, a, x, y, s, nz, c, vdi⟩) = .ok (mem p, m.put ⟨mem, cycle, pc, a, x, y, s, nz, c, vdi⟩) := by
  unfold peekRmw
  rw [if_neg, c_load _ _ _ _ _ _ _ _ _ _ _ _ h]
  intro hb
  exact hh (Or.inr (Or.inl hb))

theorem c_push (w : Int) (h : 0 ≤ s ∧ s < 256) : push w (m.put ⟨mem, cycle, pc, a, x, y, s, nz, c, vdi⟩) =
    .ok ((), m.put ⟨stored mem (256 + s) w, cycle, pc, a, x, y, (s - 1) % 256, nz, c, vdi⟩) := by
  simp only [push, c_bind, c_reg]
  rw [c_store _ _ _ _ _ _ _ _ _ _ _ _ _ (by omega)]
  simp only [c_setS, band_ff]

theorem c_pull : pull (m.put ⟨mem, cycle, pc, a, x, y, s, nz, c, vdi⟩) =
    .ok (mem (256 + (s + 1) % 256), m.put ⟨mem, cycle, pc, a, x, y, (s + 1) % 256, nz, c, vdi⟩) := by
  simp only [pull, c_bind, c_reg, c_setS, band_ff]
  rw [c_load _ _ _ _ _ _ _ _ _ _ _ _ (by omega)]

end step

/-! ### Addresses -/

section modes
variable (m : Machine) (mem : Int → Int) (cycle pc a x y s nz : Int) (c vdi : Int)

/-- The emulator's name of a mode. -/
def modeOf (mn : Isa.Mn) : Isa.Mode → Mode
  | .imm => .imm
  | .zp => .zp
  | .zpx => .zpX
  | .zpy => .zpY
  | .abs | .ind => .abs
  | .absx => if mn.reads then .absXp else .absX
  | .absy => if mn.reads then .absYp else .absY
  | .indx => .indX
  | _ => if mn.reads then .indYp else .indY

theorem c_when (p : Prop) [Decidable p] (w : Int) : C.when p (addCycle w) (m.put ⟨mem, cycle, pc, a, x, y, s, nz, c, vdi⟩) =
    .ok ((), m.put ⟨mem, cycle + (if p then w else 0), pc, a, x, y, s, nz, c, vdi⟩) := by
  unfold C.when
  split
  · rfl
  · simp only [c_pure, Int.add_zero]

end modes

/-- The registers of a processor given field by field. -/
theorem view_mk (mem : Int → Int) (cycle pc a x y s nz c vdi : Int) :
    Spec.view ⟨mem, cycle, pc, a, x, y, s, nz, c, vdi⟩ = ⟨a, x, y, s, pc, decide (0x80 ≤ nz), decide (vdi / 64 % 2 = 1),
      decide (vdi / 8 % 2 = 1), decide (vdi / 4 % 2 = 1), decide (nz % 256 = 0), decide (c = 1), mem⟩ := rfl

/-- Where an address is expected: memory modes only. -/
def Isa.Mode.memory : Isa.Mode → Bool
  | .imm | .zp | .zpx | .zpy | .abs | .absx | .absy | .indx | .indy => true
  | _ => false

theorem page_crossed (w i : Int) (hi : 0 ≤ i ∧ i < 256) : ((w + i) / 256 ≠ w / 256) ↔ w % 256 + i ≥ 256 := by omega

set_option linter.unusedSimpArgs false in
/-- The effective address and the cycle for crossing a page. -/
theorem address_ok (m : Machine) (r : Cpu) (hr : Spec.InRange r) (mn : Isa.Mn) (mode : Isa.Mode) (hm : mode.memory = true)
    (hpc : 0 ≤ r.pc ∧ r.pc + mode.size ≤ 65536) (st : Isa.State) (hst : st = Spec.view r) :
    address (modeOf mn mode) (m.put { r with pc := r.pc + 1 }) =
      .ok (st.effective mode, m.put { r with pc := r.pc + mode.size, cycle := r.cycle + st.extra mn mode }) := by
  subst hst
  obtain ⟨mem, cycle, pc, a, x, y, s, nz, c, vdi⟩ := r
  have hmem := hr.mem
  have hx : 0 ≤ x ∧ x < 256 := hr.x
  have hy : 0 ≤ y ∧ y < 256 := hr.y
  have hp0 : 0 ≤ pc := hpc.1
  have hp1 : pc + mode.size ≤ 65536 := hpc.2
  have h1 := hmem (pc + 1)
  have h2 := hmem (pc + 2)
  have h3 := hmem (mem (pc + 1))
  dsimp only at h1 h2 h3
  cases mode <;> first | exact absurd hm (by decide) | skip
  all_goals simp only [Isa.Mode.size] at hp1
  all_goals simp only [modeOf, Isa.State.effective, Isa.State.extra, Isa.State.crosses, view_mk, Isa.State.b1, Isa.State.word,
    Isa.State.zpWord, Isa.Mode.size, reduceCtorEq, if_false, Bool.and_false]
  case imm =>
    simp only [address, c_bind, c_reg, c_pure, c_fetch m mem cycle (pc + 1) a x y s nz c vdi (by omega), Int.add_assoc, Int.reduceAdd,
      Int.add_zero, Bool.false_eq_true, if_false]
  case zp =>
    simp only [address, c_bind, c_reg, c_pure, c_fetch m mem cycle (pc + 1) a x y s nz c vdi (by omega), Int.add_assoc, Int.reduceAdd,
      Int.add_zero, Bool.false_eq_true, if_false]
  case zpx =>
    simp only [address, c_bind, c_reg, c_pure, c_fetch m mem cycle (pc + 1) a x y s nz c vdi (by omega), Int.add_assoc, Int.reduceAdd,
      Int.add_zero, Bool.false_eq_true, if_false, band_ff]
  case zpy =>
    simp only [address, c_bind, c_reg, c_pure, c_fetch m mem cycle (pc + 1) a x y s nz c vdi (by omega), Int.add_assoc, Int.reduceAdd,
      Int.add_zero, Bool.false_eq_true, if_false, band_ff]
  case abs =>
    simp only [address, c_bind, c_reg, c_pure, c_fetch m mem cycle (pc + 1) a x y s nz c vdi (by omega),
      c_fetch m mem cycle (pc + 2) a x y s nz c vdi (by omega), Int.add_assoc, Int.reduceAdd,
      Int.add_zero, Bool.false_eq_true, if_false, shl, Int.reducePow, Int.mul_comm]
  case indx =>
    simp only [address, zpWord, c_bind, c_reg, c_pure, c_fetch m mem cycle (pc + 1) a x y s nz c vdi (by omega), Int.add_assoc, Int.reduceAdd,
      Int.add_zero, Bool.false_eq_true, if_false, band_ff, c_load m mem cycle (pc + 2) a x y s nz c vdi ((mem (pc + 1) + x) % 256) (by omega),
      c_load m mem cycle (pc + 2) a x y s nz c vdi (((mem (pc + 1) + x) % 256 + 1) % 256) (by omega), shl, Int.reducePow, Int.mul_comm]
  case absx =>
    have e : ((mem (pc + 1) + 256 * mem (pc + 2) + x) / 256 ≠ (mem (pc + 1) + 256 * mem (pc + 2)) / 256) ↔ mem (pc + 1) + x ≥ 0x100 := by omega
    cases hr : mn.reads <;>
    simp only [address, absIndexed, c_bind, c_reg, c_pure, c_fetch m mem cycle (pc + 1) a x y s nz c vdi (by omega), c_when, if_true,
      c_fetch m mem _ (pc + 2) a x y s nz c vdi (by omega), Int.add_assoc, Int.reduceAdd, band_ffff, true_and, false_and,
      Int.add_zero, Bool.false_eq_true, if_false, shl, Int.reducePow, Bool.false_and, Bool.true_and, decide_eq_true_eq]
    · rw [show mem (pc + 1) + (x + mem (pc + 2) * 256) = mem (pc + 1) + (256 * mem (pc + 2) + x) by omega]
    · rw [show mem (pc + 1) + (x + mem (pc + 2) * 256) = mem (pc + 1) + (256 * mem (pc + 2) + x) by omega]
      simp only [Int.add_assoc] at e
      simp only [e]
  case absy =>
    have e : ((mem (pc + 1) + 256 * mem (pc + 2) + y) / 256 ≠ (mem (pc + 1) + 256 * mem (pc + 2)) / 256) ↔ mem (pc + 1) + y ≥ 0x100 := by omega
    cases hr : mn.reads <;>
    simp only [address, absIndexed, c_bind, c_reg, c_pure, c_fetch m mem cycle (pc + 1) a x y s nz c vdi (by omega), c_when, if_true,
      c_fetch m mem _ (pc + 2) a x y s nz c vdi (by omega), Int.add_assoc, Int.reduceAdd, band_ffff, true_and, false_and,
      Int.add_zero, Bool.false_eq_true, if_false, shl, Int.reducePow, Bool.false_and, Bool.true_and, decide_eq_true_eq]
    · rw [show mem (pc + 1) + (y + mem (pc + 2) * 256) = mem (pc + 1) + (256 * mem (pc + 2) + y) by omega]
    · rw [show mem (pc + 1) + (y + mem (pc + 2) * 256) = mem (pc + 1) + (256 * mem (pc + 2) + y) by omega]
      simp only [Int.add_assoc] at e
      simp only [e]
  case indy =>
    have e : ((mem (mem (pc + 1)) + 256 * mem ((mem (pc + 1) + 1) % 256) + y) / 256 ≠ (mem (mem (pc + 1)) + 256 * mem ((mem (pc + 1) + 1) % 256)) / 256)
      ↔ mem (mem (pc + 1)) + y ≥ 0x100 := by omega
    cases hr : mn.reads <;>
    simp only [address, indIndexed, c_bind, c_reg, c_pure, c_fetch m mem cycle (pc + 1) a x y s nz c vdi (by omega), c_when, if_true,
      c_load m mem _ (pc + 2) a x y s nz c vdi (mem (pc + 1)) (by omega),
      c_load m mem _ (pc + 2) a x y s nz c vdi ((mem (pc + 1) + 1) % 256) (by omega),
      Int.add_assoc, Int.reduceAdd, band_ff, band_ffff, true_and, false_and,
      Int.add_zero, Bool.false_eq_true, if_false, shl, Int.reducePow, Bool.false_and, Bool.true_and, decide_eq_true_eq]
    · rw [show mem (mem (pc + 1)) + (y + mem ((mem (pc + 1) + 1) % 256) * 256) = mem (mem (pc + 1)) + (256 * mem ((mem (pc + 1) + 1) % 256) + y) by omega]
    · rw [show mem (mem (pc + 1)) + (y + mem ((mem (pc + 1) + 1) % 256) * 256) = mem (mem (pc + 1)) + (256 * mem ((mem (pc + 1) + 1) % 256) + y) by omega]
      simp only [Int.add_assoc] at e
      simp only [e]

/-! ### Flags -/

theorem vdi_v (v d i : Bool) : decide (vdiOf v d i / 64 % 2 = 1) = v := by cases v <;> cases d <;> cases i <;> rfl
theorem vdi_d (v d i : Bool) : decide (vdiOf v d i / 8 % 2 = 1) = d := by cases v <;> cases d <;> cases i <;> rfl
theorem vdi_i (v d i : Bool) : decide (vdiOf v d i / 4 % 2 = 1) = i := by cases v <;> cases d <;> cases i <;> rfl
theorem vdi_bandD (v d i : Bool) : (band (vdiOf v d i) dFlag = 0) ↔ d = false := by cases v <;> cases d <;> cases i <;> decide
theorem vdi_bandV (v d i : Bool) : (band (vdiOf v d i) vFlag = 0) ↔ v = false := by cases v <;> cases d <;> cases i <;> decide
theorem vdi_bandI (v d i : Bool) : (band (vdiOf v d i) iFlag = 0) ↔ i = false := by cases v <;> cases d <;> cases i <;> decide
theorem vdi_di (v d i : Bool) : band (vdiOf v d i) (bor dFlag iFlag) = vdiOf false d i := by cases v <;> cases d <;> cases i <;> decide
theorem vdi_vi (v d i : Bool) : band (vdiOf v d i) (bor vFlag iFlag) = vdiOf v false i := by cases v <;> cases d <;> cases i <;> decide
theorem vdi_vd (v d i : Bool) : band (vdiOf v d i) (bor vFlag dFlag) = vdiOf v d false := by cases v <;> cases d <;> cases i <;> decide
theorem vdi_setI (v d i : Bool) : bor (vdiOf v d i) iFlag = vdiOf v d true := by cases v <;> cases d <;> cases i <;> decide
theorem vdi_setD (v d i : Bool) : bor (vdiOf v d i) dFlag = vdiOf v true i := by cases v <;> cases d <;> cases i <;> decide
theorem vdi_addV (d i w : Bool) : vdiOf false d i + (if w then 64 else 0) = vdiOf w d i := by
  cases w <;> cases d <;> cases i <;> decide
theorem flag_one (b : Bool) : decide (flag b = 1) = b := by cases b <;> rfl
theorem flag_bit (b : Bool) : Isa.State.bit b = flag b := rfl
theorem flag_range (b : Bool) : flag b = 0 ∨ flag b = 1 := by cases b <;> simp [flag]

/-- The processor given with its flags. -/
theorem view_of (mem : Int → Int) (cycle pc a x y s nz : Int) (c v d i : Bool) :
    Spec.view ⟨mem, cycle, pc, a, x, y, s, nz, flag c, vdiOf v d i⟩ =
      ⟨a, x, y, s, pc, decide (0x80 ≤ nz), v, d, i, decide (nz % 256 = 0), c, mem⟩ := by
  rw [view_mk, vdi_v, vdi_d, vdi_i, flag_one]

theorem stored_same (mem : Int → Int) (p : Int) {w : Int} (h : 0 ≤ w ∧ w < 256) :
    stored mem p w = fun b => if b = p then w else mem b := by
  unfold stored
  rw [Int.emod_eq_of_lt h.1 h.2]

theorem band_v (x : Int) : band x vFlag = if ibit 6 x then 64 else 0 := band_pow 6 x
theorem band_80 (x : Int) : band x 0x80 = if ibit 7 x then 128 else 0 := band_pow 7 x

theorem ibit_shr (k n : Nat) (x : Int) : ibit k (shr x n) = ibit (n + k) x := by
  unfold ibit shr
  rw [Int.ediv_ediv_of_nonneg (by exact_mod_cast Nat.zero_le _), ← Int.pow_add]

/-- Bit 7 tells whether a sum of two signed bytes overflows. -/
theorem adc_overflow {a w c : Int} (ha : 0 ≤ a ∧ a < 256) (hw : 0 ≤ w ∧ w < 256) (hc : c = 0 ∨ c = 1) :
    ibit 6 (shr (band (bnot (bxor w a)) (bxor a (a + w + c))) 1) =
      decide (Isa.State.signed a + Isa.State.signed w + c < -128 ∨ 127 < Isa.State.signed a + Isa.State.signed w + c) := by
  rw [ibit_shr, ibit_band, ibit_bnot, ibit_bxor, ibit_bxor]
  unfold ibit Isa.State.signed
  simp only [Nat.reduceAdd, Int.reducePow]
  by_cases h1 : a < 128 <;> by_cases h2 : w < 128
  all_goals simp only [h1, h2, if_true, if_false]
  · rw [show decide (a / 128 % 2 = 1) = false by simp; omega, show decide (w / 128 % 2 = 1) = false by simp; omega]
    rw [Bool.eq_iff_iff]; simp; omega
  · rw [show decide (a / 128 % 2 = 1) = false by simp; omega, show decide (w / 128 % 2 = 1) = true by simp; omega]
    rw [Bool.eq_iff_iff]; simp; omega
  · rw [show decide (a / 128 % 2 = 1) = true by simp; omega, show decide (w / 128 % 2 = 1) = false by simp; omega]
    rw [Bool.eq_iff_iff]; simp; omega
  · rw [show decide (a / 128 % 2 = 1) = true by simp; omega, show decide (w / 128 % 2 = 1) = true by simp; omega]
    rw [Bool.eq_iff_iff]; simp; omega

/-- Bit 7 tells whether a difference of two signed bytes overflows. -/
theorem sbc_overflow {a w c : Int} (ha : 0 ≤ a ∧ a < 256) (hw : 0 ≤ w ∧ w < 256) (hc : c = 0 ∨ c = 1) :
    ibit 6 (shr (band (bxor w a) (bxor a (a - w + (c - 1)))) 1) =
      decide (Isa.State.signed a - Isa.State.signed w - (1 - c) < -128 ∨ 127 < Isa.State.signed a - Isa.State.signed w - (1 - c)) := by
  rw [ibit_shr, ibit_band, ibit_bxor, ibit_bxor]
  unfold ibit Isa.State.signed
  simp only [Nat.reduceAdd, Int.reducePow]
  by_cases h1 : a < 128 <;> by_cases h2 : w < 128
  all_goals simp only [h1, h2, if_true, if_false]
  · rw [show decide (a / 128 % 2 = 1) = false by simp; omega, show decide (w / 128 % 2 = 1) = false by simp; omega]
    rw [Bool.eq_iff_iff]; simp; omega
  · rw [show decide (a / 128 % 2 = 1) = false by simp; omega, show decide (w / 128 % 2 = 1) = true by simp; omega]
    rw [Bool.eq_iff_iff]; simp; omega
  · rw [show decide (a / 128 % 2 = 1) = true by simp; omega, show decide (w / 128 % 2 = 1) = false by simp; omega]
    rw [Bool.eq_iff_iff]; simp; omega
  · rw [show decide (a / 128 % 2 = 1) = true by simp; omega, show decide (w / 128 % 2 = 1) = true by simp; omega]
    rw [Bool.eq_iff_iff]; simp; omega

/-- The overflow flag in decimal mode. -/
theorem adc_overflowDecimal {a w t low : Int} (ha : 0 ≤ a ∧ a < 256) (hw : 0 ≤ w ∧ w < 256) (hl : 0 ≤ low ∧ low < 32)
    (ht : t = a / 16 * 16 + w / 16 * 16 + low) :
    ibit 6 (shr (band (bnot (bxor w a)) (bxor a t)) 1) =
      decide (Isa.State.signed (a / 16 * 16) + Isa.State.signed (w / 16 * 16) + low < -128 ∨
        127 < Isa.State.signed (a / 16 * 16) + Isa.State.signed (w / 16 * 16) + low) := by
  subst ht
  rw [ibit_shr, ibit_band, ibit_bnot, ibit_bxor, ibit_bxor]
  unfold ibit Isa.State.signed
  simp only [Nat.reduceAdd, Int.reducePow]
  have ea : a / 16 * 16 < 128 ↔ a < 128 := by omega
  have ew : w / 16 * 16 < 128 ↔ w < 128 := by omega
  simp only [ea, ew]
  by_cases h1 : a < 128 <;> by_cases h2 : w < 128
  all_goals simp only [h1, h2, if_true, if_false]
  · rw [show decide (a / 128 % 2 = 1) = false by simp; omega, show decide (w / 128 % 2 = 1) = false by simp; omega]
    rw [Bool.eq_iff_iff]; simp; omega
  · rw [show decide (a / 128 % 2 = 1) = false by simp; omega, show decide (w / 128 % 2 = 1) = true by simp; omega]
    rw [Bool.eq_iff_iff]; simp; omega
  · rw [show decide (a / 128 % 2 = 1) = true by simp; omega, show decide (w / 128 % 2 = 1) = false by simp; omega]
    rw [Bool.eq_iff_iff]; simp; omega
  · rw [show decide (a / 128 % 2 = 1) = true by simp; omega, show decide (w / 128 % 2 = 1) = true by simp; omega]
    rw [Bool.eq_iff_iff]; simp; omega

/-! ### Operations -/

/-- The emulator's name of an operation on memory. -/
def opOf : Isa.Mn → Option Op
  | .adc => some .adc | .and => some .and | .asl => some .asl | .bit => some .bit | .cmp => some .cmp | .cpx => some .cpx
  | .cpy => some .cpy | .dec => some .dec | .eor => some .eor | .inc => some .inc | .lda => some .lda | .ldx => some .ldx
  | .ldy => some .ldy | .lsr => some .lsr | .ora => some .ora | .rol => some .rol | .ror => some .ror | .sbc => some .sbc
  | .sta => some .sta | .stx => some .stx | .sty => some .sty
  | _ => none

theorem decide_flag (p : Prop) [Decidable p] : (if p then (1 : Int) else 0) = flag (decide p) := by
  unfold flag
  by_cases h : p <;> simp [h]

/-- The packed flags are in range. -/
def Tidy (r : Cpu) : Prop := (0 ≤ r.nz ∧ r.nz < 512) ∧ (r.c = 0 ∨ r.c = 1) ∧ ∃ v d i : Bool, r.vdi = vdiOf v d i

theorem tidy_mk (mem : Int → Int) (cycle pc a x y s : Int) {nz : Int} (c v d i : Bool) (h : 0 ≤ nz ∧ nz < 512) :
    Tidy ⟨mem, cycle, pc, a, x, y, s, nz, flag c, vdiOf v d i⟩ := ⟨h, flag_range _, _, _, _, rfl⟩

section operate
variable (m : Machine) (mem : Int → Int) (cycle pc a x y s nz : Int) (c v d i : Bool) (ea : Int)

/-- What is shown of an operation. -/
def Works (op : Op) (mn : Isa.Mn) (r : Cpu) : Prop :=
  ∀ mode : Isa.Mode, mode ≠ .acc → ∃ r', operate op ea (m.put r) = .ok ((), m.put r') ∧
    Spec.view r' = (Spec.view r).exec mn mode ea (r.mem ea) ∧ r'.cycle = r.cycle ∧ Tidy r'

variable (hea : 0 ≤ ea ∧ ea < 65536) (hh : ¬ Spec.hardwarePage (ea / 256)) (hmem : 0 ≤ mem ea ∧ mem ea < 256)
  (ha : 0 ≤ a ∧ a < 256) (hx : 0 ≤ x ∧ x < 256) (hy : 0 ≤ y ∧ y < 256) (hnz : 0 ≤ nz ∧ nz < 512)

include hea hh hmem hnz

theorem works_lda : Works m ea .lda .lda ⟨mem, cycle, pc, a, x, y, s, nz, flag c, vdiOf v d i⟩ := by
  intro mode _
  apply Exists.intro
  refine ⟨?_, ?_, ?_, ?_⟩
  · simp only [operate, c_bind, c_peek _ _ _ _ _ _ _ _ _ _ _ _ hea hh, c_setNzA]
    rfl
  · rw [view_of, view_of]
    simp only [Isa.State.exec, Isa.State.nz, Int.emod_eq_of_lt hmem.1 hmem.2]
  · rfl
  · exact tidy_mk _ _ _ _ _ _ _ _ _ _ _ (by
      omega)

theorem works_ldx : Works m ea .ldx .ldx ⟨mem, cycle, pc, a, x, y, s, nz, flag c, vdiOf v d i⟩ := by
  intro mode _
  apply Exists.intro
  refine ⟨?_, ?_, ?_, ?_⟩
  · simp only [operate, c_bind, c_peek _ _ _ _ _ _ _ _ _ _ _ _ hea hh, c_setNzX]
    rfl
  · rw [view_of, view_of]
    simp only [Isa.State.exec, Isa.State.nz, Int.emod_eq_of_lt hmem.1 hmem.2]
  · rfl
  · exact tidy_mk _ _ _ _ _ _ _ _ _ _ _ (by
      omega)

theorem works_ldy : Works m ea .ldy .ldy ⟨mem, cycle, pc, a, x, y, s, nz, flag c, vdiOf v d i⟩ := by
  intro mode _
  apply Exists.intro
  refine ⟨?_, ?_, ?_, ?_⟩
  · simp only [operate, c_bind, c_peek _ _ _ _ _ _ _ _ _ _ _ _ hea hh, c_setNzY]
    rfl
  · rw [view_of, view_of]
    simp only [Isa.State.exec, Isa.State.nz, Int.emod_eq_of_lt hmem.1 hmem.2]
  · rfl
  · exact tidy_mk _ _ _ _ _ _ _ _ _ _ _ (by
      omega)

theorem works_and (ha : 0 ≤ a ∧ a < 256) : Works m ea .and .and ⟨mem, cycle, pc, a, x, y, s, nz, flag c, vdiOf v d i⟩ := by
  intro mode _
  apply Exists.intro
  refine ⟨?_, ?_, ?_, ?_⟩
  · simp only [operate, c_bind, c_peek _ _ _ _ _ _ _ _ _ _ _ _ hea hh, c_reg, c_setNzA]
    rfl
  · have hr := band_range_right a hmem.1
    rw [view_of, view_of]
    simp only [Isa.State.exec, Isa.State.nz]
    rw [← band_nat ha.1 hmem.1, Int.emod_eq_of_lt hr.1 (by omega)]
  · rfl
  · exact tidy_mk _ _ _ _ _ _ _ _ _ _ _ (by
      have := band_range_right a hmem.1; omega)

theorem works_ora (ha : 0 ≤ a ∧ a < 256) : Works m ea .ora .ora ⟨mem, cycle, pc, a, x, y, s, nz, flag c, vdiOf v d i⟩ := by
  intro mode _
  apply Exists.intro
  refine ⟨?_, ?_, ?_, ?_⟩
  · simp only [operate, c_bind, c_peek _ _ _ _ _ _ _ _ _ _ _ _ hea hh, c_reg, c_setNzA]
    rfl
  · have hr := bor_range 8 ha.1 ha.2 hmem.1 hmem.2
    rw [view_of, view_of]
    simp only [Isa.State.exec, Isa.State.nz]
    rw [← bor_nat ha.1 hmem.1, Int.emod_eq_of_lt hr.1 (show _ < (256 : Int) from hr.2)]
  · rfl
  · exact tidy_mk _ _ _ _ _ _ _ _ _ _ _ (by
      have := bor_range 8 ha.1 ha.2 hmem.1 hmem.2; simp only [Int.reducePow] at this; omega)

theorem works_eor (ha : 0 ≤ a ∧ a < 256) : Works m ea .eor .eor ⟨mem, cycle, pc, a, x, y, s, nz, flag c, vdiOf v d i⟩ := by
  intro mode _
  apply Exists.intro
  refine ⟨?_, ?_, ?_, ?_⟩
  · simp only [operate, c_bind, c_peek _ _ _ _ _ _ _ _ _ _ _ _ hea hh, c_reg, c_setNzA]
    rfl
  · have hr := bxor_range 8 ha.1 ha.2 hmem.1 hmem.2
    rw [view_of, view_of]
    simp only [Isa.State.exec, Isa.State.nz]
    rw [← bxor_nat ha.1 hmem.1, Int.emod_eq_of_lt hr.1 (show _ < (256 : Int) from hr.2)]
  · rfl
  · exact tidy_mk _ _ _ _ _ _ _ _ _ _ _ (by
      have := bxor_range 8 ha.1 ha.2 hmem.1 hmem.2; simp only [Int.reducePow] at this; omega)

theorem works_sta (ha : 0 ≤ a ∧ a < 256) : Works m ea .sta .sta ⟨mem, cycle, pc, a, x, y, s, nz, flag c, vdiOf v d i⟩ := by
  intro mode _
  apply Exists.intro
  refine ⟨?_, ?_, ?_, ?_⟩
  · simp only [operate, c_bind, c_reg, c_poke _ _ _ _ _ _ _ _ _ _ _ _ _ hea hh]
    rfl
  · rw [view_of, view_of, stored_same _ _ ha]
    simp only [Isa.State.exec, Isa.State.write]
  · rfl
  · exact tidy_mk _ _ _ _ _ _ _ _ _ _ _ (by
      omega)

theorem works_stx (hx : 0 ≤ x ∧ x < 256) : Works m ea .stx .stx ⟨mem, cycle, pc, a, x, y, s, nz, flag c, vdiOf v d i⟩ := by
  intro mode _
  apply Exists.intro
  refine ⟨?_, ?_, ?_, ?_⟩
  · simp only [operate, c_bind, c_reg, c_poke _ _ _ _ _ _ _ _ _ _ _ _ _ hea hh]
    rfl
  · rw [view_of, view_of, stored_same _ _ hx]
    simp only [Isa.State.exec, Isa.State.write]
  · rfl
  · exact tidy_mk _ _ _ _ _ _ _ _ _ _ _ (by
      omega)

theorem works_sty (hy : 0 ≤ y ∧ y < 256) : Works m ea .sty .sty ⟨mem, cycle, pc, a, x, y, s, nz, flag c, vdiOf v d i⟩ := by
  intro mode _
  apply Exists.intro
  refine ⟨?_, ?_, ?_, ?_⟩
  · simp only [operate, c_bind, c_reg, c_poke _ _ _ _ _ _ _ _ _ _ _ _ _ hea hh]
    rfl
  · rw [view_of, view_of, stored_same _ _ hy]
    simp only [Isa.State.exec, Isa.State.write]
  · rfl
  · exact tidy_mk _ _ _ _ _ _ _ _ _ _ _ (by
      omega)

theorem works_cmp : Works m ea .cmp .cmp ⟨mem, cycle, pc, a, x, y, s, nz, flag c, vdiOf v d i⟩ := by
  intro mode _
  apply Exists.intro
  refine ⟨?_, ?_, ?_, ?_⟩
  · simp only [operate, Machine.compare, c_bind, c_peek _ _ _ _ _ _ _ _ _ _ _ _ hea hh, c_reg, c_setC, c_setNz, decide_flag]
    rfl
  · rw [view_of, view_of]
    simp only [Isa.State.exec, Isa.State.compare, Isa.State.nz, band_ff, Int.emod_emod_of_dvd _ (Int.dvd_refl 256), ge_iff_le]
  · rfl
  · exact tidy_mk _ _ _ _ _ _ _ _ _ _ _ (by
      rw [band_ff]; omega)

theorem works_cpx : Works m ea .cpx .cpx ⟨mem, cycle, pc, a, x, y, s, nz, flag c, vdiOf v d i⟩ := by
  intro mode _
  apply Exists.intro
  refine ⟨?_, ?_, ?_, ?_⟩
  · simp only [operate, Machine.compare, c_bind, c_peek _ _ _ _ _ _ _ _ _ _ _ _ hea hh, c_reg, c_setC, c_setNz, decide_flag]
    rfl
  · rw [view_of, view_of]
    simp only [Isa.State.exec, Isa.State.compare, Isa.State.nz, band_ff, Int.emod_emod_of_dvd _ (Int.dvd_refl 256), ge_iff_le]
  · rfl
  · exact tidy_mk _ _ _ _ _ _ _ _ _ _ _ (by
      rw [band_ff]; omega)

theorem works_cpy : Works m ea .cpy .cpy ⟨mem, cycle, pc, a, x, y, s, nz, flag c, vdiOf v d i⟩ := by
  intro mode _
  apply Exists.intro
  refine ⟨?_, ?_, ?_, ?_⟩
  · simp only [operate, Machine.compare, c_bind, c_peek _ _ _ _ _ _ _ _ _ _ _ _ hea hh, c_reg, c_setC, c_setNz, decide_flag]
    rfl
  · rw [view_of, view_of]
    simp only [Isa.State.exec, Isa.State.compare, Isa.State.nz, band_ff, Int.emod_emod_of_dvd _ (Int.dvd_refl 256), ge_iff_le]
  · rfl
  · exact tidy_mk _ _ _ _ _ _ _ _ _ _ _ (by
      rw [band_ff]; omega)

theorem works_inc : Works m ea .inc .inc ⟨mem, cycle, pc, a, x, y, s, nz, flag c, vdiOf v d i⟩ := by
  intro mode _
  apply Exists.intro
  refine ⟨?_, ?_, ?_, ?_⟩
  · simp only [operate, increment, c_bind, c_pure, c_peekRmw _ _ _ _ _ _ _ _ _ _ _ _ hea hh, c_poke _ _ _ _ _ _ _ _ _ _ _ _ _ hea hh, c_setNz, band_ff]
    rfl
  · rw [view_of, view_of, stored_same _ _ (by omega)]
    simp only [Isa.State.exec, Isa.State.write, Isa.State.nz, Int.emod_emod_of_dvd _ (Int.dvd_refl 256)]
  · rfl
  · exact tidy_mk _ _ _ _ _ _ _ _ _ _ _ (by
      omega)

theorem works_dec : Works m ea .dec .dec ⟨mem, cycle, pc, a, x, y, s, nz, flag c, vdiOf v d i⟩ := by
  intro mode _
  apply Exists.intro
  refine ⟨?_, ?_, ?_, ?_⟩
  · simp only [operate, decrement, c_bind, c_pure, c_peekRmw _ _ _ _ _ _ _ _ _ _ _ _ hea hh, c_poke _ _ _ _ _ _ _ _ _ _ _ _ _ hea hh, c_setNz, band_ff]
    rfl
  · rw [view_of, view_of, stored_same _ _ (by omega)]
    simp only [Isa.State.exec, Isa.State.write, Isa.State.nz, Int.emod_emod_of_dvd _ (Int.dvd_refl 256)]
  · rfl
  · exact tidy_mk _ _ _ _ _ _ _ _ _ _ _ (by
      omega)

theorem works_asl : Works m ea .asl .asl ⟨mem, cycle, pc, a, x, y, s, nz, flag c, vdiOf v d i⟩ := by
  intro mode hmode
  have hc := flag_range c
  have e1 : mem ea * 2 % 256 = 2 * mem ea % 256 := by omega
  have e2 : mem ea / 128 = flag (decide (128 ≤ mem ea)) := by
    rw [← decide_flag]
    split <;> omega
  apply Exists.intro
  refine ⟨?_, ?_, ?_, ?_⟩
  · simp only [operate, shiftLeft, c_bind, c_pure, c_reg, c_peekRmw _ _ _ _ _ _ _ _ _ _ _ _ hea hh, c_poke _ _ _ _ _ _ _ _ _ _ _ _ _ hea hh, c_setNz, c_setC,
      band_ff, band_1, shr, shl, Int.reducePow, e1, e2]
    rfl
  · rw [view_of, view_of, stored_same _ _ (by omega)]
    simp only [Isa.State.exec, Isa.State.putBack, hmode, if_false, Isa.State.write, Isa.State.nz, flag_bit]
    rw [Int.emod_eq_of_lt (by omega) (by omega : 2 * mem ea % 256 < 256)]
    try congr
  · rfl
  · exact tidy_mk _ _ _ _ _ _ _ _ _ _ _ (by
      omega)

theorem works_rol : Works m ea .rol .rol ⟨mem, cycle, pc, a, x, y, s, nz, flag c, vdiOf v d i⟩ := by
  intro mode hmode
  have hc := flag_range c
  have e1 : (mem ea * 2 + flag c) % 256 = (2 * mem ea + flag c) % 256 := by omega
  have e2 : (mem ea * 2 + flag c) / 256 = flag (decide (128 ≤ mem ea)) := by
    rw [← decide_flag]
    split <;> omega
  apply Exists.intro
  refine ⟨?_, ?_, ?_, ?_⟩
  · simp only [operate, rotateLeft, c_bind, c_pure, c_reg, c_peekRmw _ _ _ _ _ _ _ _ _ _ _ _ hea hh, c_poke _ _ _ _ _ _ _ _ _ _ _ _ _ hea hh, c_setNz, c_setC,
      band_ff, band_1, shr, shl, Int.reducePow, e1, e2]
    rfl
  · rw [view_of, view_of, stored_same _ _ (by omega)]
    simp only [Isa.State.exec, Isa.State.putBack, hmode, if_false, Isa.State.write, Isa.State.nz, flag_bit]
    rw [Int.emod_eq_of_lt (by omega) (by omega : (2 * mem ea + flag c) % 256 < 256)]
    try congr
  · rfl
  · exact tidy_mk _ _ _ _ _ _ _ _ _ _ _ (by
      omega)

theorem works_lsr : Works m ea .lsr .lsr ⟨mem, cycle, pc, a, x, y, s, nz, flag c, vdiOf v d i⟩ := by
  intro mode hmode
  have hc := flag_range c
  have e2 : mem ea % 2 = flag (decide (mem ea % 2 = 1)) := by
    rw [← decide_flag]
    split <;> omega
  apply Exists.intro
  refine ⟨?_, ?_, ?_, ?_⟩
  · simp only [operate, shiftRight, c_bind, c_pure, c_reg, c_peekRmw _ _ _ _ _ _ _ _ _ _ _ _ hea hh, c_poke _ _ _ _ _ _ _ _ _ _ _ _ _ hea hh, c_setNz, c_setC,
      band_ff, band_1, shr, shl, Int.reducePow]
    rw [e2]
  · rw [view_of, view_of, stored_same _ _ (by omega)]
    simp only [Isa.State.exec, Isa.State.putBack, hmode, if_false, Isa.State.write, Isa.State.nz, flag_bit]
    rw [Int.emod_eq_of_lt (by omega) (by omega : mem ea / 2 < 256)]
    try congr
  · rfl
  · exact tidy_mk _ _ _ _ _ _ _ _ _ _ _ (by
      omega)

theorem works_ror : Works m ea .ror .ror ⟨mem, cycle, pc, a, x, y, s, nz, flag c, vdiOf v d i⟩ := by
  intro mode hmode
  have hc := flag_range c
  have e1 : (flag c * 256 + mem ea) / 2 = mem ea / 2 + 128 * flag c := by omega
  have e2 : (flag c * 256 + mem ea) % 2 = flag (decide (mem ea % 2 = 1)) := by
    rw [← decide_flag]
    split <;> omega
  apply Exists.intro
  refine ⟨?_, ?_, ?_, ?_⟩
  · simp only [operate, rotateRight, c_bind, c_pure, c_reg, c_peekRmw _ _ _ _ _ _ _ _ _ _ _ _ hea hh, c_poke _ _ _ _ _ _ _ _ _ _ _ _ _ hea hh, c_setNz, c_setC,
      band_ff, band_1, shr, shl, Int.reducePow, e1, e2]
    rfl
  · rw [view_of, view_of, stored_same _ _ (by omega)]
    simp only [Isa.State.exec, Isa.State.putBack, hmode, if_false, Isa.State.write, Isa.State.nz, flag_bit]
    rw [Int.emod_eq_of_lt (by omega) (by omega : mem ea / 2 + 128 * flag c < 256)]
    try congr
  · rfl
  · exact tidy_mk _ _ _ _ _ _ _ _ _ _ _ (by
      omega)

theorem works_bit (ha : 0 ≤ a ∧ a < 256) : Works m ea .bit .bit ⟨mem, cycle, pc, a, x, y, s, nz, flag c, vdiOf v d i⟩ := by
  intro mode hmode
  apply Exists.intro
  refine ⟨?_, ?_, ?_, ?_⟩
  · simp only [operate, c_bind, c_reg, c_peek _ _ _ _ _ _ _ _ _ _ _ _ hea hh, c_setNz, c_setVdi, vdi_di, band_v, vdi_addV]
    rfl
  · have hr := band_range_right (mem ea) ha.1
    rw [view_of, view_of]
    simp only [Isa.State.exec, band_80]
    have hb : (if ibit 7 (mem ea) = true then (128 : Int) else 0) = if 128 ≤ mem ea then 128 else 0 := by
      unfold ibit
      simp only [decide_eq_true_eq, Int.reducePow]
      by_cases h : 128 ≤ mem ea
      · rw [if_pos h, if_pos (by omega)]
      · rw [if_neg h, if_neg (by omega)]
    rw [hb]
    have hv : ibit 6 (mem ea) = decide (mem ea / 64 % 2 = 1) := rfl
    have hz : decide ((shl (if 128 ≤ mem ea then 128 else 0) 1 + band (mem ea) a) % 256 = 0) = decide (a.toNat &&& (mem ea).toNat = 0) := by
      apply decide_eq_decide.mpr
      have e : band (mem ea) a = ((a.toNat &&& (mem ea).toNat : Nat) : Int) := by rw [band_comm, band_nat ha.1 hmem.1]
      rw [show (a.toNat &&& (mem ea).toNat = 0) ↔ band (mem ea) a = 0 by rw [e]; omega]
      unfold shl
      split <;> omega
    have hn : decide (128 ≤ shl (if 128 ≤ mem ea then 128 else 0) 1 + band (mem ea) a) = decide (128 ≤ mem ea) := by
      apply decide_eq_decide.mpr
      have hr2 := band_range_left a hmem.1
      unfold shl
      split <;> omega
    rw [hz, hn, hv]
  · rfl
  · exact tidy_mk _ _ _ _ _ _ _ _ _ _ _ (by
      have := band_range_right (mem ea) ha.1
      rw [band_80]
      unfold shl
      split <;> omega)

theorem works_adcBinary (ha : 0 ≤ a ∧ a < 256) : Works m ea .adc .adc ⟨mem, cycle, pc, a, x, y, s, nz, flag c, vdiOf v false i⟩ := by
  intro mode hmode
  have hc := flag_range c
  have e1 : band (vdiOf v false i) dFlag = 0 := (vdi_bandD v false i).mpr rfl
  have e2 : shr (a + mem ea + flag c) 8 = flag (decide (256 ≤ a + mem ea + flag c)) := by
    show (a + mem ea + flag c) / 256 = _
    rw [← decide_flag]
    split <;> omega
  apply Exists.intro
  refine ⟨?_, ?_, ?_, ?_⟩
  · simp only [operate, addWithCarry, c_bind, c_reg, c_peek _ _ _ _ _ _ _ _ _ _ _ _ hea hh, adcAlu, e1, if_true, c_setAlu, adcBinary,
      addVdi, vdi_di, band_v, adc_overflow ha hmem hc, vdi_addV, e2, band_ff]
    rfl
  · rw [view_of, view_of]
    simp only [Isa.State.exec, Bool.false_eq_true, if_false, Isa.State.adc, Isa.State.nz, flag_bit]
    rw [Int.emod_eq_of_lt (by omega) (by omega : (a + mem ea + flag c) % 256 < 256)]
    try congr
  · rfl
  · exact tidy_mk _ _ _ _ _ _ _ _ _ _ _ (by
      omega)

theorem works_sbcBinary (ha : 0 ≤ a ∧ a < 256) : Works m ea .sbc .sbc ⟨mem, cycle, pc, a, x, y, s, nz, flag c, vdiOf v false i⟩ := by
  intro mode hmode
  have hc := flag_range c
  have e1 : band (vdiOf v false i) dFlag = 0 := (vdi_bandD v false i).mpr rfl
  apply Exists.intro
  refine ⟨?_, ?_, ?_, ?_⟩
  · simp only [operate, subtractWithCarry, c_bind, c_reg, c_peek _ _ _ _ _ _ _ _ _ _ _ _ hea hh, sbcAlu, sbcA, e1, ne_eq, not_true, if_false,
      c_setAlu, vdi_di, band_v, sbc_overflow ha hmem hc, vdi_addV, band_ff, decide_flag]
    rfl
  · rw [view_of, view_of]
    simp only [Isa.State.exec, Bool.false_eq_true, if_false, Isa.State.sbc, Isa.State.nz, flag_bit]
    rw [show a - mem ea + (flag c - 1) = a - mem ea - (1 - flag c) by omega,
      Int.emod_eq_of_lt (by omega) (by omega : (a - mem ea - (1 - flag c)) % 256 < 256)]
    try congr
  · rfl
  · exact tidy_mk _ _ _ _ _ _ _ _ _ _ _ (by
      omega)

theorem works_adcDecimal (ha : 0 ≤ a ∧ a < 256) : Works m ea .adc .adc ⟨mem, cycle, pc, a, x, y, s, nz, flag c, vdiOf v true i⟩ := by
  intro mode hmode
  have hc := flag_range c
  have e1 : ¬ band (vdiOf v true i) dFlag = 0 := fun h => by have := (vdi_bandD v true i).mp h; contradiction
  generalize hlow : (if a % 16 + mem ea % 16 + flag c < 10 then a % 16 + mem ea % 16 + flag c else (a % 16 + mem ea % 16 + flag c + 6) % 16 + 16) = low
  have hl : 0 ≤ low ∧ low < 32 := by rw [← hlow]; split <;> omega
  generalize ht : a / 16 * 16 + mem ea / 16 * 16 + low = t
  have elow : adcLow a (mem ea) (flag c) = t := by
    unfold adcLow
    simp only [band_f]
    rw [← ht, ← hlow]
    split <;> split <;> first | omega | (split <;> omega)
  have enz : adcNz a (mem ea) (flag c) = if 10 ≤ a % 16 + mem ea % 16 + flag c ∧ (a + mem ea + flag c) % 256 ≠ 0
      then (if t / 128 % 2 = 1 then 128 else 0) + 1 else (a + mem ea + flag c) % 256 := by
    unfold adcNz
    simp only [band_f, band_ff, elow, band_80, ge_iff_le]
    unfold ibit
    simp only [Int.reducePow, decide_eq_true_eq]
  have ev := adc_overflowDecimal ha hmem hl ht.symm
  apply Exists.intro
  refine ⟨?_, ?_, ?_, ?_⟩
  · simp only [operate, addWithCarry, c_bind, c_reg, c_peek _ _ _ _ _ _ _ _ _ _ _ _ hea hh, adcAlu, e1, if_false, c_setAlu, adcDecimal,
      addVdi, vdi_di, band_v, elow, ev, vdi_addV, enz, band_ff, decide_flag]
    rfl
  · rw [view_of, view_of]
    simp only [Isa.State.exec, if_true, Isa.State.adcDecimal, flag_bit, hlow, ht]
    have k1 : (if t ≥ 0xa0 then (t - 0xa0) % 256 else t) = (if t < 160 then t else t + 96) % 256 := by
      split <;> split <;> omega
    have k2 : decide (128 ≤ if 10 ≤ a % 16 + mem ea % 16 + flag c ∧ (a + mem ea + flag c) % 256 ≠ 0
        then (if t / 128 % 2 = 1 then (128 : Int) else 0) + 1 else (a + mem ea + flag c) % 256) = decide (t / 128 % 2 = 1) := by
      apply decide_eq_decide.mpr
      rw [← ht, ← hlow]
      split <;> split <;> first | omega | (split <;> omega)
    have k3 : decide ((if 10 ≤ a % 16 + mem ea % 16 + flag c ∧ (a + mem ea + flag c) % 256 ≠ 0
        then (if t / 128 % 2 = 1 then (128 : Int) else 0) + 1 else (a + mem ea + flag c) % 256) % 256 = 0) =
        decide ((a + mem ea + flag c) % 256 = 0) := by
      apply decide_eq_decide.mpr
      split
      · split <;> omega
      · omega
    rw [k1, k2, k3]
    subst ht
    subst hlow
    congr
  · rfl
  · exact tidy_mk _ _ _ _ _ _ _ _ _ _ _ (by
      split
      · split <;> omega
      · omega)

theorem works_sbcDecimal (ha : 0 ≤ a ∧ a < 256) : Works m ea .sbc .sbc ⟨mem, cycle, pc, a, x, y, s, nz, flag c, vdiOf v true i⟩ := by
  intro mode hmode
  have hc := flag_range c
  have e1 : ¬ band (vdiOf v true i) dFlag = 0 := fun h => by have := (vdi_bandD v true i).mp h; contradiction
  have eA : sbcA a (mem ea) (flag c) (vdiOf v true i) =
      (if a / 16 * 16 - mem ea / 16 * 16 + (if a % 16 - mem ea % 16 - (1 - flag c) < 0 then (a % 16 - mem ea % 16 - (1 - flag c) - 6) % 16 - 16
          else a % 16 - mem ea % 16 - (1 - flag c)) < 0
        then a / 16 * 16 - mem ea / 16 * 16 + (if a % 16 - mem ea % 16 - (1 - flag c) < 0 then (a % 16 - mem ea % 16 - (1 - flag c) - 6) % 16 - 16
          else a % 16 - mem ea % 16 - (1 - flag c)) - 0x60
        else a / 16 * 16 - mem ea / 16 * 16 + (if a % 16 - mem ea % 16 - (1 - flag c) < 0 then (a % 16 - mem ea % 16 - (1 - flag c) - 6) % 16 - 16
          else a % 16 - mem ea % 16 - (1 - flag c))) % 256 := by
    unfold sbcA
    simp only [band_f, band_ff, ne_eq, e1, not_false_eq_true, if_true]
    by_cases h1 : a % 16 - mem ea % 16 - (1 - flag c) < 0
    · have h1' : a % 16 - mem ea % 16 + (flag c - 1) < 0 := by omega
      simp only [h1, h1', if_true]
      by_cases h2 : a % 16 - mem ea % 16 + (flag c - 1) < -10
      · simp only [h2, if_true]
        split <;> split <;> omega
      · simp only [h2, if_false]
        split <;> split <;> omega
    · have h1' : ¬ a % 16 - mem ea % 16 + (flag c - 1) < 0 := by omega
      simp only [h1, h1', if_false]
      split <;> split <;> omega
  apply Exists.intro
  refine ⟨?_, ?_, ?_, ?_⟩
  · simp only [operate, subtractWithCarry, c_bind, c_reg, c_peek _ _ _ _ _ _ _ _ _ _ _ _ hea hh, sbcAlu, eA,
      c_setAlu, vdi_di, band_v, sbc_overflow ha hmem hc, vdi_addV, band_ff, decide_flag]
    rfl
  · rw [view_of, view_of]
    simp only [Isa.State.exec, if_true, Isa.State.sbcDecimal, Isa.State.sbc, Isa.State.nz, flag_bit]
    rw [show a - mem ea + (flag c - 1) = a - mem ea - (1 - flag c) by omega,
      Int.emod_eq_of_lt (by omega) (by omega : (a - mem ea - (1 - flag c)) % 256 < 256)]
    congr
  · rfl
  · exact tidy_mk _ _ _ _ _ _ _ _ _ _ _ (by
      omega)

end operate

end Asap
