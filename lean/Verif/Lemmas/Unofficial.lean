import Verif.Lemmas.IsaRun
import Verif.Spec.Unofficial

/-! The undocumented instructions. -/

namespace Asap
open Machine C Isa

theorem conj_band {p q : Int} (hp : 0 ≤ p) (hq : 0 ≤ q) : band p q = conj p q := band_nat hp hq

theorem conj_range {p q : Int} (hp : 0 ≤ p ∧ p < 256) (hq : 0 ≤ q) : 0 ≤ conj p q ∧ conj p q < 256 := by
  rw [← conj_band hp.1 hq]; have := band_range_left q hp.1; omega

/-! ### Two instructions at once -/

section combine
variable (m : Machine) (r : Cpu) (hr : Spec.InRange r) (ea : Int) (hea : 0 ≤ ea ∧ ea < 65536) (hh : ¬ Spec.hardwarePage (ea / 256))

/-- The emulator does the same as for the documented instructions one after another. -/
def Combines (op op1 op2 : Op) : Prop := operate op ea (m.put r) = (operate op1 ea >>= fun _ => operate op2 ea) (m.put r)

include hr hea hh

theorem combines_aso : Combines m r ea .aso .asl .ora := by
  obtain ⟨mem, cycle, pc, a, x, y, s, nz, c, vdi⟩ := r
  unfold Combines
  simp only [operate, shiftLeft, c_bind, c_pure, c_reg, c_peekRmw _ _ _ _ _ _ _ _ _ _ _ _ hea hh, c_poke _ _ _ _ _ _ _ _ _ _ _ _ _ hea hh, c_setNz, c_setC,
    c_setNzA, c_peek _ _ _ _ _ _ _ _ _ _ _ _ hea hh, stored, if_true, band_ff, Int.emod_emod_of_dvd _ (Int.dvd_refl 256)]

theorem combines_rla : Combines m r ea .rla .rol .and := by
  obtain ⟨mem, cycle, pc, a, x, y, s, nz, c, vdi⟩ := r
  unfold Combines
  simp only [operate, rotateLeft, c_bind, c_pure, c_reg, c_peekRmw _ _ _ _ _ _ _ _ _ _ _ _ hea hh, c_poke _ _ _ _ _ _ _ _ _ _ _ _ _ hea hh, c_setNz, c_setC,
    c_setNzA, c_peek _ _ _ _ _ _ _ _ _ _ _ _ hea hh, stored, if_true, band_ff, Int.emod_emod_of_dvd _ (Int.dvd_refl 256)]

theorem combines_lse : Combines m r ea .lse .lsr .eor := by
  have h := hr.mem ea
  obtain ⟨mem, cycle, pc, a, x, y, s, nz, c, vdi⟩ := r
  dsimp only at h
  have e : mem ea / 2 % 256 = mem ea / 2 := by omega
  unfold Combines
  simp only [operate, shiftRight, c_bind, c_pure, c_reg, c_peekRmw _ _ _ _ _ _ _ _ _ _ _ _ hea hh, c_poke _ _ _ _ _ _ _ _ _ _ _ _ _ hea hh, c_setNz, c_setC,
    c_setNzA, c_peek _ _ _ _ _ _ _ _ _ _ _ _ hea hh, stored, if_true, shr, Int.pow_one, e]

theorem combines_rra : Combines m r ea .rra .ror .adc := by
  have h := hr.mem ea
  have hc := hr.c
  obtain ⟨mem, cycle, pc, a, x, y, s, nz, c, vdi⟩ := r
  dsimp only at h hc
  have e : (c * 256 + mem ea) / 2 % 256 = (c * 256 + mem ea) / 2 := by omega
  unfold Combines
  simp only [operate, rotateRight, addWithCarry, c_bind, c_pure, c_reg, c_peekRmw _ _ _ _ _ _ _ _ _ _ _ _ hea hh, c_poke _ _ _ _ _ _ _ _ _ _ _ _ _ hea hh, c_setNz, c_setC,
    c_setAlu, c_peek _ _ _ _ _ _ _ _ _ _ _ _ hea hh, stored, if_true, shr, shl, Int.pow_one, Int.reducePow, e]

theorem combines_dcm : Combines m r ea .dcm .dec .cmp := by
  obtain ⟨mem, cycle, pc, a, x, y, s, nz, c, vdi⟩ := r
  unfold Combines
  simp only [operate, decrement, Machine.compare, c_bind, c_pure, c_reg, c_peekRmw _ _ _ _ _ _ _ _ _ _ _ _ hea hh, c_poke _ _ _ _ _ _ _ _ _ _ _ _ _ hea hh, c_setNz, c_setC,
    c_peek _ _ _ _ _ _ _ _ _ _ _ _ hea hh, stored, if_true, band_ff, Int.emod_emod_of_dvd _ (Int.dvd_refl 256)]

theorem combines_ins : Combines m r ea .ins .inc .sbc := by
  obtain ⟨mem, cycle, pc, a, x, y, s, nz, c, vdi⟩ := r
  unfold Combines
  simp only [operate, increment, subtractWithCarry, c_bind, c_pure, c_reg, c_peekRmw _ _ _ _ _ _ _ _ _ _ _ _ hea hh, c_poke _ _ _ _ _ _ _ _ _ _ _ _ _ hea hh, c_setNz, c_setC,
    c_setAlu, c_peek _ _ _ _ _ _ _ _ _ _ _ _ hea hh, stored, if_true, band_ff, Int.emod_emod_of_dvd _ (Int.dvd_refl 256)]

theorem combines_lax : Combines m r ea .lax .lda .ldx := by
  obtain ⟨mem, cycle, pc, a, x, y, s, nz, c, vdi⟩ := r
  unfold Combines
  simp only [operate, c_bind, c_pure, c_reg, c_setA, c_setNzA, c_setNzX, c_peek _ _ _ _ _ _ _ _ _ _ _ _ hea hh]

end combine

/-- What is shown of an undocumented instruction, before the opcode is looked up. -/
def RunsUn (m : Machine) (r : Cpu) (instr : Instr) (u : Un) (mode : Isa.Mode) : Prop :=
  ∃ r', execute instr (m.put { r with pc := r.pc + 1 }) = .ok ((), m.put r') ∧
    Spec.view r' = (Spec.view r).afterUn u mode ∧ r'.cycle = r.cycle + (Spec.view r).extraUn u mode ∧ Tidy r'

/-- A pair of documented instructions. -/
theorem runs_both (m : Machine) (r : Cpu) (hr : Spec.InRange r) (op op1 op2 : Op) (mn1 mn2 : Isa.Mn) (h1 : opOf mn1 = some op1) (h2 : opOf mn2 = some op2)
    (mode : Isa.Mode) (hm : mode.memory = true) (hpc : 0 ≤ r.pc ∧ r.pc + mode.size ≤ 65536) (hh : ¬ Spec.hardwarePage ((Spec.view r).effective mode / 256))
    (comb : ∀ m r, Spec.InRange r → ∀ ea, 0 ≤ ea ∧ ea < 65536 → ¬ Spec.hardwarePage (ea / 256) → Combines m r ea op op1 op2)
    (u : Un) (hu : ∀ st : State, st.afterUn u mode = { st with pc := st.pc + mode.size }.both mn1 mn2 mode (st.effective mode) (st.mem (st.effective mode)))
    (hx : ∀ st : State, st.extraUn u mode = st.extra mn1 mode) : RunsUn m r (.op (modeOf mn1 mode) op) u mode := by
  have hr2 : Spec.InRange { r with pc := r.pc + mode.size, cycle := r.cycle + (Spec.view r).extra mn1 mode } :=
    ⟨hr.mem, hr.a, hr.x, hr.y, hr.s, hr.nz, hr.c, hr.vdi⟩
  have hacc : mode ≠ .acc := by rintro rfl; exact absurd hm (by decide)
  have hsize : 1 ≤ mode.size := by cases mode <;> decide
  have hea := effective_range r hr mode hm hpc
  obtain ⟨r1, w1, v1, c1, t1⟩ := works_all m _ hr2 _ hea hh mn1 op1 h1 mode hacc
  have hr3 : Spec.InRange r1 := by
    refine inRange_of_fits ?_ t1
    rw [v1]
    exact (view_fits hr2).exec mn1 mode _ (hr.mem _) ⟨by show 1 ≤ r.pc + mode.size; omega, hpc.2⟩
  obtain ⟨r2, w2, v2, c2, t2⟩ := works_all m _ hr3 _ hea hh mn2 op2 h2 mode hacc
  refine ⟨r2, ?_, ?_, ?_, t2⟩
  · show (address (modeOf mn1 mode) >>= operate op) _ = _
    rw [c_bind, address_ok m r hr mn1 mode hm hpc _ rfl]
    show operate op _ _ = _
    rw [comb m _ hr2 _ hea hh, c_bind, w1]
    exact w2
  · rw [v2, hu]
    have : r1.mem = (Spec.view r1).mem := rfl
    rw [this, v1]
    rfl
  · rw [c2, c1, hx]

theorem runs_sax (m : Machine) (r : Cpu) (hr : Spec.InRange r) (mode : Isa.Mode) (hm : mode.memory = true) (hpc : 0 ≤ r.pc ∧ r.pc + mode.size ≤ 65536)
    (hh : ¬ Spec.hardwarePage ((Spec.view r).effective mode / 256)) : RunsUn m r (.op (modeOf .sta mode) .sax) .sax mode := by
  have hea := effective_range r hr mode hm hpc
  have hj := conj_range hr.a hr.x.1
  have hb := conj_band hr.a.1 hr.x.1
  have hrel : mode ≠ .rel := by rintro rfl; exact absurd hm (by decide)
  have ha := address_ok m r hr .sta mode hm hpc _ rfl
  have hx : (Spec.view r).extra .sta mode = 0 := by
    unfold State.extra
    rw [if_neg hrel]
    rfl
  refine ⟨{ r with pc := r.pc + mode.size, mem := stored r.mem ((Spec.view r).effective mode) (conj r.a r.x) }, ?_, ?_, ?_, hr.nz, hr.c, hr.vdi⟩
  · show (address (modeOf .sta mode) >>= operate .sax) _ = _
    rw [c_bind, ha, hx, Int.add_zero]
    show (C.reg (fun c => band c.a c.x) >>= fun v => poke _ v) _ = _
    rw [c_bind]
    show poke _ (band r.a r.x) (m.put ⟨r.mem, r.cycle, r.pc + mode.size, r.a, r.x, r.y, r.s, r.nz, r.c, r.vdi⟩) = _
    rw [hb, c_poke _ _ _ _ _ _ _ _ _ _ _ _ _ hea hh]
  · rw [stored_same _ _ hj]
    rfl
  · show r.cycle = r.cycle + 0
    omega

theorem runs_las (m : Machine) (r : Cpu) (hr : Spec.InRange r) (mode : Isa.Mode) (hm : mode.memory = true) (hpc : 0 ≤ r.pc ∧ r.pc + mode.size ≤ 65536)
    (hh : ¬ Spec.hardwarePage ((Spec.view r).effective mode / 256)) : RunsUn m r (.op (modeOf .lda mode) .las) .las mode := by
  have hea := effective_range r hr mode hm hpc
  have hv := hr.mem ((Spec.view r).effective mode)
  have hj := conj_range hv hr.s.1
  have hb : band r.s (r.mem ((Spec.view r).effective mode)) = conj (r.mem ((Spec.view r).effective mode)) r.s := by rw [band_comm, conj_band hv.1 hr.s.1]
  have hrel : mode ≠ .rel := by rintro rfl; exact absurd hm (by decide)
  have ha := address_ok m r hr .lda mode hm hpc _ rfl
  have hx : (Spec.view r).extra .lda mode = (Spec.view r).extraUn .las mode := by
    unfold State.extra State.extraUn
    rw [if_neg hrel]
    rfl
  rw [hx] at ha
  refine ⟨⟨r.mem, r.cycle + (Spec.view r).extraUn .las mode, r.pc + mode.size, conj (r.mem ((Spec.view r).effective mode)) r.s,
    conj (r.mem ((Spec.view r).effective mode)) r.s, r.y, conj (r.mem ((Spec.view r).effective mode)) r.s, conj (r.mem ((Spec.view r).effective mode)) r.s, r.c, r.vdi⟩,
    ?_, ?_, rfl, ⟨hj.1, by dsimp only; omega⟩, hr.c, hr.vdi⟩
  · show (address (modeOf .lda mode) >>= operate .las) _ = _
    rw [c_bind, ha]
    show operate .las _ (m.put ⟨r.mem, r.cycle + (Spec.view r).extraUn .las mode, r.pc + mode.size, r.a, r.x, r.y, r.s, r.nz, r.c, r.vdi⟩) = _
    simp only [operate, c_bind, c_peek _ _ _ _ _ _ _ _ _ _ _ _ hea hh, c_reg, c_setS, c_setA, c_setNzX, hb]
  · rw [view_mk]
    have e : conj (r.mem ((Spec.view r).effective mode)) r.s % 256 = conj (r.mem ((Spec.view r).effective mode)) r.s := Int.emod_eq_of_lt hj.1 hj.2
    rw [e]
    rfl

theorem runs_sbcUn (m : Machine) (r : Cpu) (hr : Spec.InRange r) (hpc : 0 ≤ r.pc ∧ r.pc + 2 ≤ 65536)
    (hh : ¬ Spec.hardwarePage ((Spec.view r).effective .imm / 256)) : RunsUn m r (.op .imm .sbc) .sbc .imm := by
  obtain ⟨r', h1, h2, h3, h4⟩ := execute_op m r hr .sbc .sbc rfl .imm rfl hpc hh
  exact ⟨r', h1, h2, h3, h4⟩

/-! ### Immediate operands -/

section immediate
variable (m : Machine) (mem : Int → Int) (cycle pc a x y s nz : Int) (c v d i : Bool)
  (hnz : 0 ≤ nz ∧ nz < 512) (hpc : 0 ≤ pc ∧ pc + 2 ≤ 65536) (hmem : ∀ p, 0 ≤ mem p ∧ mem p < 256) (ha : 0 ≤ a ∧ a < 256) (hx : 0 ≤ x ∧ x < 256)

include hnz hpc hmem ha hx

theorem runs_anc : RunsUn m ⟨mem, cycle, pc, a, x, y, s, nz, flag c, vdiOf v d i⟩ .anc .anc .imm := by
  have hv := hmem (pc + 1)
  have hj := conj_range ha hv.1
  have hb := conj_band ha.1 hv.1
  have e : conj a (mem (pc + 1)) / 128 = flag (decide (128 ≤ conj a (mem (pc + 1)))) := by
    rw [← decide_flag]; split <;> omega
  refine ⟨⟨mem, cycle, pc + 2, conj a (mem (pc + 1)), x, y, s, conj a (mem (pc + 1)), flag (decide (128 ≤ conj a (mem (pc + 1)))), vdiOf v d i⟩, ?_, ?_, ?_,
    tidy_mk _ _ _ _ _ _ _ _ _ _ _ (by omega)⟩
  · simp only [execute, c_bind, c_reg, c_fetch m mem cycle (pc + 1) a x y s nz (flag c) (vdiOf v d i) (by omega), c_setNzA, c_setC, hb, shr, Int.reducePow, e,
      Int.add_assoc, Int.reduceAdd]
  · rw [view_of, view_of]
    simp only [State.afterUn, State.execUn, State.exec, State.nz, State.effective, Isa.Mode.size, Int.emod_eq_of_lt hj.1 hj.2]
    rfl
  · show cycle = cycle + 0
    omega

theorem runs_alr : RunsUn m ⟨mem, cycle, pc, a, x, y, s, nz, flag c, vdiOf v d i⟩ .alr .alr .imm := by
  have hv := hmem (pc + 1)
  have hj := conj_range ha hv.1
  have hb := conj_band ha.1 hv.1
  have e : conj a (mem (pc + 1)) % 2 = flag (decide (conj a (mem (pc + 1)) % 2 = 1)) := by
    rw [← decide_flag]; split <;> omega
  refine ⟨⟨mem, cycle, pc + 2, conj a (mem (pc + 1)) / 2, x, y, s, conj a (mem (pc + 1)) / 2, flag (decide (conj a (mem (pc + 1)) % 2 = 1)), vdiOf v d i⟩, ?_, ?_, ?_,
    tidy_mk _ _ _ _ _ _ _ _ _ _ _ (by omega)⟩
  · simp only [execute, c_bind, c_reg, c_fetch m mem cycle (pc + 1) a x y s nz (flag c) (vdiOf v d i) (by omega), c_setNzA, c_setC, hb, shr, Int.pow_one, band_1,
      Int.add_assoc, Int.reduceAdd]
    rw [← e]
  · rw [view_of, view_of]
    simp only [State.afterUn, State.execUn, State.exec, State.nz, State.putBack, State.effective, Isa.Mode.size, if_true]
    rw [Int.emod_eq_of_lt (by omega) (by omega : conj a (mem (pc + 1)) / 2 < 256)]
    rfl
  · show cycle = cycle + 0
    omega

theorem runs_sbx : RunsUn m ⟨mem, cycle, pc, a, x, y, s, nz, flag c, vdiOf v d i⟩ .sbx .sbx .imm := by
  have hj := conj_range ha hx.1
  have hb : band x a = conj a x := by rw [band_comm, conj_band ha.1 hx.1]
  refine ⟨⟨mem, cycle, pc + 2, a, (conj a x - mem (pc + 1)) % 256, y, s, (conj a x - mem (pc + 1)) % 256, flag (decide (mem (pc + 1) ≤ conj a x)), vdiOf v d i⟩, ?_, ?_, ?_,
    tidy_mk _ _ _ _ _ _ _ _ _ _ _ (by omega)⟩
  · simp only [execute, c_bind, c_reg, c_fetch m mem cycle (pc + 1) a x y s nz (flag c) (vdiOf v d i) (by omega), c_setNzX, c_setC, hb, band_ff,
      Int.add_assoc, Int.reduceAdd, decide_flag, ge_iff_le]
  · rw [view_of, view_of]
    simp only [State.afterUn, State.execUn, State.compare, State.nz, State.effective, Isa.Mode.size, Int.emod_emod_of_dvd _ (Int.dvd_refl 256)]
    congr
  · show cycle = cycle + 0
    omega

theorem runs_anx : RunsUn m ⟨mem, cycle, pc, a, x, y, s, nz, flag c, vdiOf v d i⟩ .anx .anx .imm := by
  have hv := hmem (pc + 1)
  have hj := conj_range ha hv.1
  have hb := conj_band ha.1 hv.1
  refine ⟨⟨mem, cycle, pc + 2, conj a (mem (pc + 1)), conj a (mem (pc + 1)), y, s, conj a (mem (pc + 1)), flag c, vdiOf v d i⟩, ?_, ?_, ?_,
    tidy_mk _ _ _ _ _ _ _ _ _ _ _ (by omega)⟩
  · simp only [execute, c_bind, c_reg, c_fetch m mem cycle (pc + 1) a x y s nz (flag c) (vdiOf v d i) (by omega), c_setNzX, c_setA, hb, Int.add_assoc, Int.reduceAdd]
  · rw [view_of, view_of]
    simp only [State.afterUn, State.execUn, State.exec, State.nz, State.effective, Isa.Mode.size, Int.emod_eq_of_lt hj.1 hj.2]
    rfl
  · show cycle = cycle + 0
    omega

theorem runs_ane : RunsUn m ⟨mem, cycle, pc, a, x, y, s, nz, flag c, vdiOf v d i⟩ .ane .ane .imm := by
  have hv := hmem (pc + 1)
  have hj := conj_range ha hx.1
  have hk := conj_range hj hv.1
  have ho : bor (mem (pc + 1)) 0xef = ((mem (pc + 1)).toNat ||| 0xef : Nat) := bor_nat hv.1 (by decide)
  have e1 : band a (band (bor (mem (pc + 1)) 0xef) x) = conj (conj a x) ((mem (pc + 1)).toNat ||| 0xef : Nat) := by
    rw [ho]
    rw [band_nat (by omega) hx.1, band_nat ha.1 (by omega)]
    unfold conj
    simp only [Int.toNat_natCast]
    congr 1
    rw [Nat.and_comm ((mem (pc + 1)).toNat ||| 239), ← Nat.and_assoc]
  have e2 : band (conj (conj a x) ((mem (pc + 1)).toNat ||| 0xef : Nat)) (mem (pc + 1)) = conj (conj a x) (mem (pc + 1)) := by
    rw [band_nat (by unfold conj; omega) hv.1]
    unfold conj
    simp only [Int.toNat_natCast]
    congr 1
    rw [Nat.and_assoc]
    congr 1
    rw [Nat.and_comm]
    apply Nat.eq_of_testBit_eq
    intro k
    simp only [Nat.testBit_and, Nat.testBit_or]
    cases (mem (pc + 1)).toNat.testBit k <;> simp
  refine ⟨⟨mem, cycle, pc + 2, conj (conj a x) ((mem (pc + 1)).toNat ||| 0xef : Nat), x, y, s, conj (conj a x) (mem (pc + 1)), flag c, vdiOf v d i⟩, ?_, ?_, ?_,
    tidy_mk _ _ _ _ _ _ _ _ _ _ _ (by omega)⟩
  · simp only [execute, c_bind, c_reg, c_fetch m mem cycle (pc + 1) a x y s nz (flag c) (vdiOf v d i) (by omega), c_setNz, c_setA, e1, e2, Int.add_assoc, Int.reduceAdd]
  · rw [view_of, view_of]
    simp only [State.afterUn, State.execUn, State.nz, State.effective, Isa.Mode.size, Int.emod_eq_of_lt hk.1 hk.2]
    congr
  · show cycle = cycle + 0
    omega

end immediate

end Asap
