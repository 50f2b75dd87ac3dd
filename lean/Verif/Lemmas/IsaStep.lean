import Verif.Lemmas.Isa

/-! Instructions without a memory operand, and the step of the processor. -/

namespace Asap
open Machine C

section execute
variable (m : Machine) (mem : Int → Int) (cycle pc a x y s nz : Int) (c v d i : Bool)
  (hnz : 0 ≤ nz ∧ nz < 512)

/-- What is shown of an instruction. -/
def Runs (instr : Instr) (mn : Isa.Mn) (mode : Isa.Mode) : Prop :=
  ∃ r', execute instr (m.put ⟨mem, cycle, pc + 1, a, x, y, s, nz, flag c, vdiOf v d i⟩) = .ok ((), m.put r') ∧
    Spec.view r' = (Spec.view ⟨mem, cycle, pc, a, x, y, s, nz, flag c, vdiOf v d i⟩).after mn mode ∧
    r'.cycle = cycle + (Spec.view ⟨mem, cycle, pc, a, x, y, s, nz, flag c, vdiOf v d i⟩).extra mn mode ∧ Tidy r'

include hnz

theorem runs_clc : Runs m mem cycle pc a x y s nz c v d i .clc .clc .imp := by
  apply Exists.intro
  refine ⟨?_, ?_, ?_, ?_⟩
  · show setC (flag false) _ = _
    rw [c_setC]
  · rw [view_of, view_of]
    simp only [Isa.State.after, Isa.State.exec, Isa.State.nz, reduceCtorEq, if_false, Isa.Mode.size, Int.emod_emod_of_dvd _ (Int.dvd_refl 256)]
  · rw [view_of]
    simp [Isa.State.extra, Isa.Mn.reads]
  · exact tidy_mk _ _ _ _ _ _ _ _ _ _ _ (by omega)

theorem runs_sec : Runs m mem cycle pc a x y s nz c v d i .sec .sec .imp := by
  apply Exists.intro
  refine ⟨?_, ?_, ?_, ?_⟩
  · show setC (flag true) _ = _
    rw [c_setC]
  · rw [view_of, view_of]
    simp only [Isa.State.after, Isa.State.exec, Isa.State.nz, reduceCtorEq, if_false, Isa.Mode.size, Int.emod_emod_of_dvd _ (Int.dvd_refl 256)]
  · rw [view_of]
    simp [Isa.State.extra, Isa.Mn.reads]
  · exact tidy_mk _ _ _ _ _ _ _ _ _ _ _ (by omega)

theorem runs_cld : Runs m mem cycle pc a x y s nz c v d i .cld .cld .imp := by
  apply Exists.intro
  refine ⟨?_, ?_, ?_, ?_⟩
  · simp only [execute, c_bind, c_pure, c_reg, c_setC, c_setVdi, c_setNzA, c_setNzX, c_setNzY, c_setS, vdi_di, vdi_vi, vdi_vd, vdi_setI, vdi_setD, band_ff]
    rfl
  · rw [view_of, view_of]
    simp only [Isa.State.after, Isa.State.exec, Isa.State.nz, reduceCtorEq, if_false, Isa.Mode.size, Int.emod_emod_of_dvd _ (Int.dvd_refl 256)]
  · rw [view_of]
    simp [Isa.State.extra, Isa.Mn.reads]
  · exact tidy_mk _ _ _ _ _ _ _ _ _ _ _ (by omega)

theorem runs_sed : Runs m mem cycle pc a x y s nz c v d i .sed .sed .imp := by
  apply Exists.intro
  refine ⟨?_, ?_, ?_, ?_⟩
  · simp only [execute, c_bind, c_pure, c_reg, c_setC, c_setVdi, c_setNzA, c_setNzX, c_setNzY, c_setS, vdi_di, vdi_vi, vdi_vd, vdi_setI, vdi_setD, band_ff]
    rfl
  · rw [view_of, view_of]
    simp only [Isa.State.after, Isa.State.exec, Isa.State.nz, reduceCtorEq, if_false, Isa.Mode.size, Int.emod_emod_of_dvd _ (Int.dvd_refl 256)]
  · rw [view_of]
    simp [Isa.State.extra, Isa.Mn.reads]
  · exact tidy_mk _ _ _ _ _ _ _ _ _ _ _ (by omega)

theorem runs_clv : Runs m mem cycle pc a x y s nz c v d i .clv .clv .imp := by
  apply Exists.intro
  refine ⟨?_, ?_, ?_, ?_⟩
  · simp only [execute, c_bind, c_pure, c_reg, c_setC, c_setVdi, c_setNzA, c_setNzX, c_setNzY, c_setS, vdi_di, vdi_vi, vdi_vd, vdi_setI, vdi_setD, band_ff]
    rfl
  · rw [view_of, view_of]
    simp only [Isa.State.after, Isa.State.exec, Isa.State.nz, reduceCtorEq, if_false, Isa.Mode.size, Int.emod_emod_of_dvd _ (Int.dvd_refl 256)]
  · rw [view_of]
    simp [Isa.State.extra, Isa.Mn.reads]
  · exact tidy_mk _ _ _ _ _ _ _ _ _ _ _ (by omega)

theorem runs_sei : Runs m mem cycle pc a x y s nz c v d i .sei .sei .imp := by
  apply Exists.intro
  refine ⟨?_, ?_, ?_, ?_⟩
  · simp only [execute, c_bind, c_pure, c_reg, c_setC, c_setVdi, c_setNzA, c_setNzX, c_setNzY, c_setS, vdi_di, vdi_vi, vdi_vd, vdi_setI, vdi_setD, band_ff]
    rfl
  · rw [view_of, view_of]
    simp only [Isa.State.after, Isa.State.exec, Isa.State.nz, reduceCtorEq, if_false, Isa.Mode.size, Int.emod_emod_of_dvd _ (Int.dvd_refl 256)]
  · rw [view_of]
    simp [Isa.State.extra, Isa.Mn.reads]
  · exact tidy_mk _ _ _ _ _ _ _ _ _ _ _ (by omega)

theorem runs_nop : Runs m mem cycle pc a x y s nz c v d i .nop .nop .imp := by
  apply Exists.intro
  refine ⟨?_, ?_, ?_, ?_⟩
  · simp only [execute, c_bind, c_pure, c_reg, c_setC, c_setVdi, c_setNzA, c_setNzX, c_setNzY, c_setS, vdi_di, vdi_vi, vdi_vd, vdi_setI, vdi_setD, band_ff]
    rfl
  · rw [view_of, view_of]
    simp only [Isa.State.after, Isa.State.exec, Isa.State.nz, reduceCtorEq, if_false, Isa.Mode.size, Int.emod_emod_of_dvd _ (Int.dvd_refl 256)]
  · rw [view_of]
    simp [Isa.State.extra, Isa.Mn.reads]
  · exact tidy_mk _ _ _ _ _ _ _ _ _ _ _ (by omega)

theorem runs_inx : Runs m mem cycle pc a x y s nz c v d i .inx .inx .imp := by
  apply Exists.intro
  refine ⟨?_, ?_, ?_, ?_⟩
  · simp only [execute, c_bind, c_pure, c_reg, c_setC, c_setVdi, c_setNzA, c_setNzX, c_setNzY, c_setS, vdi_di, vdi_vi, vdi_vd, vdi_setI, vdi_setD, band_ff]
    rfl
  · rw [view_of, view_of]
    simp only [Isa.State.after, Isa.State.exec, Isa.State.nz, reduceCtorEq, if_false, Isa.Mode.size, Int.emod_emod_of_dvd _ (Int.dvd_refl 256)]
  · rw [view_of]
    simp [Isa.State.extra, Isa.Mn.reads]
  · exact tidy_mk _ _ _ _ _ _ _ _ _ _ _ (by omega)

theorem runs_iny : Runs m mem cycle pc a x y s nz c v d i .iny .iny .imp := by
  apply Exists.intro
  refine ⟨?_, ?_, ?_, ?_⟩
  · simp only [execute, c_bind, c_pure, c_reg, c_setC, c_setVdi, c_setNzA, c_setNzX, c_setNzY, c_setS, vdi_di, vdi_vi, vdi_vd, vdi_setI, vdi_setD, band_ff]
    rfl
  · rw [view_of, view_of]
    simp only [Isa.State.after, Isa.State.exec, Isa.State.nz, reduceCtorEq, if_false, Isa.Mode.size, Int.emod_emod_of_dvd _ (Int.dvd_refl 256)]
  · rw [view_of]
    simp [Isa.State.extra, Isa.Mn.reads]
  · exact tidy_mk _ _ _ _ _ _ _ _ _ _ _ (by omega)

theorem runs_dex : Runs m mem cycle pc a x y s nz c v d i .dex .dex .imp := by
  apply Exists.intro
  refine ⟨?_, ?_, ?_, ?_⟩
  · simp only [execute, c_bind, c_pure, c_reg, c_setC, c_setVdi, c_setNzA, c_setNzX, c_setNzY, c_setS, vdi_di, vdi_vi, vdi_vd, vdi_setI, vdi_setD, band_ff]
    rfl
  · rw [view_of, view_of]
    simp only [Isa.State.after, Isa.State.exec, Isa.State.nz, reduceCtorEq, if_false, Isa.Mode.size, Int.emod_emod_of_dvd _ (Int.dvd_refl 256)]
  · rw [view_of]
    simp [Isa.State.extra, Isa.Mn.reads]
  · exact tidy_mk _ _ _ _ _ _ _ _ _ _ _ (by omega)

theorem runs_dey : Runs m mem cycle pc a x y s nz c v d i .dey .dey .imp := by
  apply Exists.intro
  refine ⟨?_, ?_, ?_, ?_⟩
  · simp only [execute, c_bind, c_pure, c_reg, c_setC, c_setVdi, c_setNzA, c_setNzX, c_setNzY, c_setS, vdi_di, vdi_vi, vdi_vd, vdi_setI, vdi_setD, band_ff]
    rfl
  · rw [view_of, view_of]
    simp only [Isa.State.after, Isa.State.exec, Isa.State.nz, reduceCtorEq, if_false, Isa.Mode.size, Int.emod_emod_of_dvd _ (Int.dvd_refl 256)]
  · rw [view_of]
    simp [Isa.State.extra, Isa.Mn.reads]
  · exact tidy_mk _ _ _ _ _ _ _ _ _ _ _ (by omega)

theorem runs_tax (ha : 0 ≤ a ∧ a < 256) : Runs m mem cycle pc a x y s nz c v d i .tax .tax .imp := by
  apply Exists.intro
  refine ⟨?_, ?_, ?_, ?_⟩
  · simp only [execute, c_bind, c_pure, c_reg, c_setC, c_setVdi, c_setNzA, c_setNzX, c_setNzY, c_setS, vdi_di, vdi_vi, vdi_vd, vdi_setI, vdi_setD, band_ff]
    rfl
  · rw [view_of, view_of]
    simp only [Isa.State.after, Isa.State.exec, Isa.State.nz, reduceCtorEq, if_false, Isa.Mode.size, Int.emod_emod_of_dvd _ (Int.dvd_refl 256), Int.emod_eq_of_lt ha.1 ha.2]
  · rw [view_of]
    simp [Isa.State.extra, Isa.Mn.reads]
  · exact tidy_mk _ _ _ _ _ _ _ _ _ _ _ (by omega)

theorem runs_tay (ha : 0 ≤ a ∧ a < 256) : Runs m mem cycle pc a x y s nz c v d i .tay .tay .imp := by
  apply Exists.intro
  refine ⟨?_, ?_, ?_, ?_⟩
  · simp only [execute, c_bind, c_pure, c_reg, c_setC, c_setVdi, c_setNzA, c_setNzX, c_setNzY, c_setS, vdi_di, vdi_vi, vdi_vd, vdi_setI, vdi_setD, band_ff]
    rfl
  · rw [view_of, view_of]
    simp only [Isa.State.after, Isa.State.exec, Isa.State.nz, reduceCtorEq, if_false, Isa.Mode.size, Int.emod_emod_of_dvd _ (Int.dvd_refl 256), Int.emod_eq_of_lt ha.1 ha.2]
  · rw [view_of]
    simp [Isa.State.extra, Isa.Mn.reads]
  · exact tidy_mk _ _ _ _ _ _ _ _ _ _ _ (by omega)

theorem runs_tsx (hs : 0 ≤ s ∧ s < 256) : Runs m mem cycle pc a x y s nz c v d i .tsx .tsx .imp := by
  apply Exists.intro
  refine ⟨?_, ?_, ?_, ?_⟩
  · simp only [execute, c_bind, c_pure, c_reg, c_setC, c_setVdi, c_setNzA, c_setNzX, c_setNzY, c_setS, vdi_di, vdi_vi, vdi_vd, vdi_setI, vdi_setD, band_ff]
    rfl
  · rw [view_of, view_of]
    simp only [Isa.State.after, Isa.State.exec, Isa.State.nz, reduceCtorEq, if_false, Isa.Mode.size, Int.emod_emod_of_dvd _ (Int.dvd_refl 256), Int.emod_eq_of_lt hs.1 hs.2]
  · rw [view_of]
    simp [Isa.State.extra, Isa.Mn.reads]
  · exact tidy_mk _ _ _ _ _ _ _ _ _ _ _ (by omega)

theorem runs_txa (hx : 0 ≤ x ∧ x < 256) : Runs m mem cycle pc a x y s nz c v d i .txa .txa .imp := by
  apply Exists.intro
  refine ⟨?_, ?_, ?_, ?_⟩
  · simp only [execute, c_bind, c_pure, c_reg, c_setC, c_setVdi, c_setNzA, c_setNzX, c_setNzY, c_setS, vdi_di, vdi_vi, vdi_vd, vdi_setI, vdi_setD, band_ff]
    rfl
  · rw [view_of, view_of]
    simp only [Isa.State.after, Isa.State.exec, Isa.State.nz, reduceCtorEq, if_false, Isa.Mode.size, Int.emod_emod_of_dvd _ (Int.dvd_refl 256), Int.emod_eq_of_lt hx.1 hx.2]
  · rw [view_of]
    simp [Isa.State.extra, Isa.Mn.reads]
  · exact tidy_mk _ _ _ _ _ _ _ _ _ _ _ (by omega)

theorem runs_txs : Runs m mem cycle pc a x y s nz c v d i .txs .txs .imp := by
  apply Exists.intro
  refine ⟨?_, ?_, ?_, ?_⟩
  · simp only [execute, c_bind, c_pure, c_reg, c_setC, c_setVdi, c_setNzA, c_setNzX, c_setNzY, c_setS, vdi_di, vdi_vi, vdi_vd, vdi_setI, vdi_setD, band_ff]
    rfl
  · rw [view_of, view_of]
    simp only [Isa.State.after, Isa.State.exec, Isa.State.nz, reduceCtorEq, if_false, Isa.Mode.size, Int.emod_emod_of_dvd _ (Int.dvd_refl 256)]
  · rw [view_of]
    simp [Isa.State.extra, Isa.Mn.reads]
  · exact tidy_mk _ _ _ _ _ _ _ _ _ _ _ (by omega)

theorem runs_tya (hy : 0 ≤ y ∧ y < 256) : Runs m mem cycle pc a x y s nz c v d i .tya .tya .imp := by
  apply Exists.intro
  refine ⟨?_, ?_, ?_, ?_⟩
  · simp only [execute, c_bind, c_pure, c_reg, c_setC, c_setVdi, c_setNzA, c_setNzX, c_setNzY, c_setS, vdi_di, vdi_vi, vdi_vd, vdi_setI, vdi_setD, band_ff]
    rfl
  · rw [view_of, view_of]
    simp only [Isa.State.after, Isa.State.exec, Isa.State.nz, reduceCtorEq, if_false, Isa.Mode.size, Int.emod_emod_of_dvd _ (Int.dvd_refl 256), Int.emod_eq_of_lt hy.1 hy.2]
  · rw [view_of]
    simp [Isa.State.extra, Isa.Mn.reads]
  · exact tidy_mk _ _ _ _ _ _ _ _ _ _ _ (by omega)

theorem runs_aslA (ha : 0 ≤ a ∧ a < 256) : Runs m mem cycle pc a x y s nz c v d i .aslA .asl .acc := by
  have hc := flag_range c
  have e1 : a * 2 % 256 = 2 * a % 256 := by omega
  have e2 : a / 128 = flag (decide (128 ≤ a)) := by
    rw [← decide_flag]
    split <;> omega
  apply Exists.intro
  refine ⟨?_, ?_, ?_, ?_⟩
  · simp only [execute, c_bind, c_pure, c_reg, c_setC, c_setNzA, band_ff, band_1, shr, shl, Int.reducePow, e1, e2]
    rfl
  · rw [view_of, view_of]
    simp only [Isa.State.after, Isa.State.exec, Isa.State.putBack, reduceCtorEq, if_false, if_true, Isa.State.nz, flag_bit, Isa.Mode.size]
    rw [Int.emod_eq_of_lt (by omega) (by omega : 2 * a % 256 < 256)]
    try congr
  · rw [view_of]
    simp [Isa.State.extra, Isa.Mn.reads]
  · exact tidy_mk _ _ _ _ _ _ _ _ _ _ _ (by omega)

theorem runs_rolA (ha : 0 ≤ a ∧ a < 256) : Runs m mem cycle pc a x y s nz c v d i .rolA .rol .acc := by
  have hc := flag_range c
  have e1 : (a * 2 + flag c) % 256 = (2 * a + flag c) % 256 := by omega
  have e2 : (a * 2 + flag c) / 256 = flag (decide (128 ≤ a)) := by
    rw [← decide_flag]
    split <;> omega
  apply Exists.intro
  refine ⟨?_, ?_, ?_, ?_⟩
  · simp only [execute, c_bind, c_pure, c_reg, c_setC, c_setNzA, band_ff, band_1, shr, shl, Int.reducePow, e1, e2]
    rfl
  · rw [view_of, view_of]
    simp only [Isa.State.after, Isa.State.exec, Isa.State.putBack, reduceCtorEq, if_false, if_true, Isa.State.nz, flag_bit, Isa.Mode.size]
    rw [Int.emod_eq_of_lt (by omega) (by omega : (2 * a + flag c) % 256 < 256)]
    try congr
  · rw [view_of]
    simp [Isa.State.extra, Isa.Mn.reads]
  · exact tidy_mk _ _ _ _ _ _ _ _ _ _ _ (by omega)

theorem runs_lsrA (ha : 0 ≤ a ∧ a < 256) : Runs m mem cycle pc a x y s nz c v d i .lsrA .lsr .acc := by
  have hc := flag_range c
  have e2 : a % 2 = flag (decide (a % 2 = 1)) := by
    rw [← decide_flag]
    split <;> omega
  apply Exists.intro
  refine ⟨?_, ?_, ?_, ?_⟩
  · simp only [execute, c_bind, c_pure, c_reg, c_setC, c_setNzA, band_ff, band_1, shr, shl, Int.reducePow]
    rw [e2]
  · rw [view_of, view_of]
    simp only [Isa.State.after, Isa.State.exec, Isa.State.putBack, reduceCtorEq, if_false, if_true, Isa.State.nz, flag_bit, Isa.Mode.size]
    rw [Int.emod_eq_of_lt (by omega) (by omega : a / 2 < 256)]
    try congr
  · rw [view_of]
    simp [Isa.State.extra, Isa.Mn.reads]
  · exact tidy_mk _ _ _ _ _ _ _ _ _ _ _ (by omega)

theorem runs_rorA (ha : 0 ≤ a ∧ a < 256) : Runs m mem cycle pc a x y s nz c v d i .rorA .ror .acc := by
  have hc := flag_range c
  have e1 : flag c * 128 + a / 2 = a / 2 + 128 * flag c := by omega
  have e2 : a % 2 = flag (decide (a % 2 = 1)) := by
    rw [← decide_flag]
    split <;> omega
  apply Exists.intro
  refine ⟨?_, ?_, ?_, ?_⟩
  · simp only [execute, c_bind, c_pure, c_reg, c_setC, c_setNzA, band_ff, band_1, shr, shl, Int.reducePow, e1]
    rw [e2]
  · rw [view_of, view_of]
    simp only [Isa.State.after, Isa.State.exec, Isa.State.putBack, reduceCtorEq, if_false, if_true, Isa.State.nz, flag_bit, Isa.Mode.size]
    rw [Int.emod_eq_of_lt (by omega) (by omega : a / 2 + 128 * flag c < 256)]
    try congr
  · rw [view_of]
    simp [Isa.State.extra, Isa.Mn.reads]
  · exact tidy_mk _ _ _ _ _ _ _ _ _ _ _ (by omega)

theorem status_ok (pc : Int) :
    flagByte ⟨mem, cycle, pc, a, x, y, s, nz, flag c, vdiOf v d i⟩ 0x30 =
      Isa.State.status ⟨a, x, y, s, pc, decide (0x80 ≤ nz), v, d, i, decide (nz % 256 = 0), c, mem⟩ true := by
  have h7 : band (bor nz (shr nz 1)) 0x80 = 128 * flag (decide (128 ≤ nz)) := by
    rw [band_80, ibit_bor, ibit_shr]
    unfold ibit
    simp only [Nat.reduceAdd, Int.reducePow]
    rw [← decide_flag]
    by_cases h : 128 ≤ nz
    · rw [if_pos, if_pos h]
      · rfl
      · simp; omega
    · rw [if_neg, if_neg h]
      · rfl
      · simp; omega
  have hz : (if band nz 0xff = 0 then zFlag else 0) = 2 * flag (decide (nz % 256 = 0)) := by
    rw [band_ff, ← decide_flag]
    split <;> rfl
  show 0x30 + (band (bor nz (shr nz 1)) 0x80 + vdiOf v d i + flag c) + (if band nz 0xff = 0 then zFlag else 0) = _
  rw [h7, hz]
  simp only [Isa.State.status, flag_bit]
  have : vdiOf v d i = 64 * flag v + 8 * flag d + 4 * flag i := by cases v <;> cases d <;> cases i <;> rfl
  have ht : flag true = 1 := rfl
  omega

omit hnz in
theorem status_range (st : Isa.State) (b : Bool) : 0 ≤ st.status b ∧ st.status b < 256 := by
  unfold Isa.State.status
  simp only [flag_bit]
  have h1 := flag_range st.n
  have h2 := flag_range st.v
  have h3 := flag_range st.d
  have h4 := flag_range st.i
  have h5 := flag_range st.z
  have h6 := flag_range st.c
  have h7 := flag_range b
  omega

theorem runs_pha (ha : 0 ≤ a ∧ a < 256) (hs : 0 ≤ s ∧ s < 256) : Runs m mem cycle pc a x y s nz c v d i .pha .pha .imp := by
  apply Exists.intro
  refine ⟨?_, ?_, ?_, ?_⟩
  · simp only [execute, c_bind, c_reg, c_push _ _ _ _ _ _ _ _ _ _ _ _ hs]
    rfl
  · rw [view_of, view_of, stored_same _ _ ha]
    simp only [Isa.State.after, Isa.State.exec, Isa.State.push, Isa.State.write, reduceCtorEq, if_false, Isa.Mode.size]
  · rw [view_of]
    simp [Isa.State.extra, Isa.Mn.reads]
  · exact tidy_mk _ _ _ _ _ _ _ _ _ _ _ (by omega)

theorem runs_php (hs : 0 ≤ s ∧ s < 256) : Runs m mem cycle pc a x y s nz c v d i .php .php .imp := by
  apply Exists.intro
  refine ⟨?_, ?_, ?_, ?_⟩
  · simp only [execute, pushFlags, c_bind, c_reg, c_push _ _ _ _ _ _ _ _ _ _ _ _ hs, status_ok _ _ _ _ _ _ _ _ _ _ _ hnz]
    rfl
  · rw [view_of, view_of, stored_same _ _ (status_range _ _)]
    simp only [Isa.State.after, Isa.State.exec, Isa.State.push, Isa.State.write, reduceCtorEq, if_false, Isa.Mode.size]
  · rw [view_of]
    simp [Isa.State.extra, Isa.Mn.reads]
  · exact tidy_mk _ _ _ _ _ _ _ _ _ _ _ (by omega)

theorem runs_pla (hmem : ∀ p, 0 ≤ mem p ∧ mem p < 256) : Runs m mem cycle pc a x y s nz c v d i .pla .pla .imp := by
  have h := hmem (256 + (s + 1) % 256)
  apply Exists.intro
  refine ⟨?_, ?_, ?_, ?_⟩
  · simp only [execute, c_bind, c_pull, c_setNzA]
    rfl
  · rw [view_of, view_of]
    simp only [Isa.State.after, Isa.State.exec, Isa.State.drop, Isa.State.top, Isa.State.nz, reduceCtorEq, if_false, Isa.Mode.size,
      Int.emod_eq_of_lt h.1 h.2]
    congr
  · rw [view_of]
    simp [Isa.State.extra, Isa.Mn.reads]
  · exact tidy_mk _ _ _ _ _ _ _ _ _ _ _ (by omega)

omit hnz in
theorem vdi_table : ∀ k : Fin 256, band (k.val : Int) (bor (bor vFlag dFlag) iFlag) =
    vdiOf (decide ((k.val : Int) / 64 % 2 = 1)) (decide ((k.val : Int) / 8 % 2 = 1)) (decide ((k.val : Int) / 4 % 2 = 1)) := by
  decide +kernel

omit hnz in
theorem vdi_byte {w : Int} (h : 0 ≤ w ∧ w < 256) : band w (bor (bor vFlag dFlag) iFlag) =
    vdiOf (decide (w / 64 % 2 = 1)) (decide (w / 8 % 2 = 1)) (decide (w / 4 % 2 = 1)) := by
  obtain ⟨n, rfl⟩ := Int.eq_ofNat_of_zero_le h.1
  exact vdi_table ⟨n, by omega⟩

/-- N and Z as they are kept after pulling a status byte. -/
def pulledNz (w : Int) : Int := (if w / 128 % 2 = 1 then 256 else 0) + (if w / 2 % 2 = 1 then 0 else 2)

omit hnz in
theorem c_pullFlags (hmem : ∀ p, 0 ≤ mem p ∧ mem p < 256) (pc : Int) :
    pullFlags (m.put ⟨mem, cycle, pc, a, x, y, s, nz, flag c, vdiOf v d i⟩) =
      .ok ((), m.put ⟨mem, cycle, pc, a, x, y, (s + 1) % 256, pulledNz (mem (256 + (s + 1) % 256)), flag (decide (mem (256 + (s + 1) % 256) % 2 = 1)),
        vdiOf (decide (mem (256 + (s + 1) % 256) / 64 % 2 = 1)) (decide (mem (256 + (s + 1) % 256) / 8 % 2 = 1))
          (decide (mem (256 + (s + 1) % 256) / 4 % 2 = 1))⟩) := by
  have h := hmem (256 + (s + 1) % 256)
  simp only [pullFlags, c_bind, c_pull, c_setNz, c_setC, c_setVdi]
  generalize mem (256 + (s + 1) % 256) = w at h
  rw [vdi_byte h]
  have e1 : shl (band w 0x80) 1 + band (bnot w) zFlag = pulledNz w := by
    rw [band_80, show band (bnot w) zFlag = if ibit 1 (bnot w) then 2 else 0 from band_pow 1 _, ibit_bnot]
    unfold ibit pulledNz shl
    simp only [Int.reducePow, decide_eq_true_eq, Int.pow_one, Bool.not_eq_true', decide_eq_false_iff_not]
    by_cases h1 : w / 128 % 2 = 1 <;> by_cases h2 : w / 2 % 2 = 1 <;> simp [h1, h2]
  have e2 : band w 1 = flag (decide (w % 2 = 1)) := by
    rw [band_1, ← decide_flag]
    split <;> omega
  rw [e1, e2]

omit hnz in
theorem pulledNz_range (w : Int) : 0 ≤ pulledNz w ∧ pulledNz w < 512 := by
  unfold pulledNz
  split <;> split <;> omega

omit hnz in
theorem pulledNz_n (w : Int) : decide (0x80 ≤ pulledNz w) = decide (w / 128 % 2 = 1) := by
  apply decide_eq_decide.mpr
  unfold pulledNz
  split <;> split <;> omega

omit hnz in
theorem pulledNz_z (w : Int) : decide (pulledNz w % 256 = 0) = decide (w / 2 % 2 = 1) := by
  apply decide_eq_decide.mpr
  unfold pulledNz
  split <;> split <;> omega

omit hnz in
theorem c_checkIrq (hq : m.pk.base.irqst = 0xff) (pc : Int) (c vdi : Int) :
    checkIrq (m.put ⟨mem, cycle, pc, a, x, y, s, nz, c, vdi⟩) = .ok ((), m.put ⟨mem, cycle, pc, a, x, y, s, nz, c, vdi⟩) := by
  have : isIrq (m.put ⟨mem, cycle, pc, a, x, y, s, nz, c, vdi⟩) = .ok (false, m.put ⟨mem, cycle, pc, a, x, y, s, nz, c, vdi⟩) := by
    show Except.ok (decide (m.pk.base.irqst ≠ 0xff), _) = _
    rw [hq]; rfl
  simp only [checkIrq, c_bind, c_reg, this, Bool.false_eq_true, and_false, C.when, if_false, c_pure]

theorem runs_plp (hmem : ∀ p, 0 ≤ mem p ∧ mem p < 256) (hq : m.pk.base.irqst = 0xff) :
    Runs m mem cycle pc a x y s nz c v d i .plp .plp .imp := by
  apply Exists.intro
  refine ⟨?_, ?_, ?_, ?_⟩
  · simp only [execute, c_bind, c_pullFlags _ _ _ _ _ _ _ _ _ _ _ _ hmem, c_checkIrq _ _ _ _ _ _ _ _ hq]
    rfl
  · rw [view_of, view_of, pulledNz_n, pulledNz_z]
    simp only [Isa.State.after, Isa.State.exec, Isa.State.drop, Isa.State.top, Isa.State.setStatus, reduceCtorEq, if_false, Isa.Mode.size]
    congr
  · rw [view_of]
    simp [Isa.State.extra, Isa.Mn.reads]
  · exact tidy_mk _ _ _ _ _ _ _ _ _ _ _ (by exact pulledNz_range _)

theorem runs_cli (hq : m.pk.base.irqst = 0xff) : Runs m mem cycle pc a x y s nz c v d i .cli .cli .imp := by
  apply Exists.intro
  refine ⟨?_, ?_, ?_, ?_⟩
  · simp only [execute, c_bind, c_reg, c_setVdi, vdi_vd, c_checkIrq _ _ _ _ _ _ _ _ hq]
    rfl
  · rw [view_of, view_of]
    simp only [Isa.State.after, Isa.State.exec, reduceCtorEq, if_false, Isa.Mode.size]
  · rw [view_of]
    simp [Isa.State.extra, Isa.Mn.reads]
  · exact tidy_mk _ _ _ _ _ _ _ _ _ _ _ (by omega)

theorem runs_rti (hmem : ∀ p, 0 ≤ mem p ∧ mem p < 256) (hq : m.pk.base.irqst = 0xff) :
    Runs m mem cycle pc a x y s nz c v d i .rti .rti .imp := by
  have e1 : ((s + 1) % 256 + 1) % 256 = (s + 2) % 256 := by omega
  have e2 : ((s + 2) % 256 + 1) % 256 = (s + 3) % 256 := by omega
  apply Exists.intro
  refine ⟨?_, ?_, ?_, ?_⟩
  · simp only [execute, c_bind, c_pullFlags _ _ _ _ _ _ _ _ _ _ _ _ hmem, c_pull, c_setPc, c_checkIrq _ _ _ _ _ _ _ _ hq, e1, e2]
    rfl
  · rw [view_of, view_of, pulledNz_n, pulledNz_z]
    simp only [Isa.State.after, Isa.State.exec, Isa.State.drop, Isa.State.top, Isa.State.setStatus, reduceCtorEq, if_false, Isa.Mode.size,
      shl, Int.reducePow, Int.mul_comm]
    congr
  · rw [view_of]
    simp [Isa.State.extra, Isa.Mn.reads]
  · exact tidy_mk _ _ _ _ _ _ _ _ _ _ _ (by exact pulledNz_range _)

theorem runs_rts (hmem : ∀ p, 0 ≤ mem p ∧ mem p < 256)
    (hw : mem (256 + (s + 1) % 256) + 256 * mem (256 + (s + 2) % 256) ≠ 0xffff) :
    Runs m mem cycle pc a x y s nz c v d i .rts .rts .imp := by
  have e1 : ((s + 1) % 256 + 1) % 256 = (s + 2) % 256 := by omega
  have h1 := hmem (256 + (s + 1) % 256)
  have h2 := hmem (256 + (s + 2) % 256)
  apply Exists.intro
  refine ⟨?_, ?_, ?_, ?_⟩
  · simp only [execute, c_bind, c_pull, c_setPc, e1]
    rfl
  · rw [view_of, view_of]
    simp only [Isa.State.after, Isa.State.exec, Isa.State.drop, Isa.State.top, reduceCtorEq, if_false, Isa.Mode.size, shl, Int.reducePow]
    rw [Int.emod_eq_of_lt (a := _ + _ + 1) (by omega) (by omega), Int.mul_comm 256, Int.add_assoc]
  · rw [view_of]
    simp [Isa.State.extra, Isa.Mn.reads]
  · exact tidy_mk _ _ _ _ _ _ _ _ _ _ _ (by omega)

theorem runs_jmp (hmem : ∀ p, 0 ≤ mem p ∧ mem p < 256) (hpc : 0 ≤ pc ∧ pc + 3 ≤ 65536) :
    Runs m mem cycle pc a x y s nz c v d i .jmp .jmp .abs := by
  apply Exists.intro
  refine ⟨?_, ?_, ?_, ?_⟩
  · simp only [execute, c_bind, c_fetch _ _ _ (pc + 1) _ _ _ _ _ _ _ (by omega), c_here _ _ _ (pc + 2) _ _ _ _ _ _ _ (by omega), c_setPc,
      Int.add_assoc, Int.reduceAdd]
    rfl
  · rw [view_of, view_of]
    simp only [Isa.State.after, Isa.State.exec, Isa.State.effective, Isa.State.word, reduceCtorEq, if_false, Isa.Mode.size, shl, Int.reducePow, Int.mul_comm]
  · rw [view_of]
    simp [Isa.State.extra, Isa.Mn.reads]
  · exact tidy_mk _ _ _ _ _ _ _ _ _ _ _ (by omega)

theorem runs_jmpInd (hmem : ∀ p, 0 ≤ mem p ∧ mem p < 256) (hpc : 0 ≤ pc ∧ pc + 3 ≤ 65536)
    (hw : (mem (pc + 1) + 256 * mem (pc + 2)) % 256 ≠ 255) :
    Runs m mem cycle pc a x y s nz c v d i (.op .abs .jmpInd) .jmp .ind := by
  have h1 := hmem (pc + 1)
  have h2 := hmem (pc + 2)
  have e : mem (pc + 1) + mem (pc + 2) * 256 = mem (pc + 1) + 256 * mem (pc + 2) := by omega
  generalize hp : mem (pc + 1) + 256 * mem (pc + 2) = p at hw e
  apply Exists.intro
  refine ⟨?_, ?_, ?_, ?_⟩
  · simp only [execute, address, operate, jumpIndirect, c_bind, c_pure, c_fetch _ _ _ (pc + 1) _ _ _ _ _ _ _ (by omega),
      c_fetch _ _ _ (pc + 2) _ _ _ _ _ _ _ (by omega),
      Int.add_assoc, Int.reduceAdd, shl, Int.reducePow, e, band_ff]
    rw [if_neg (by omega), c_load _ _ _ _ _ _ _ _ _ _ _ p (by omega)]
    simp only [c_load _ _ _ _ _ _ _ _ _ _ _ (p + 1) (by omega), c_setPc]
    rfl
  · rw [view_of, view_of]
    simp only [Isa.State.after, Isa.State.exec, Isa.State.effective, Isa.State.word, reduceCtorEq, if_false, Isa.Mode.size, hp]
    rw [show p - p % 256 + (p + 1) % 256 = p + 1 by omega, Int.mul_comm 256]
  · rw [view_of]
    simp [Isa.State.extra, Isa.Mn.reads]
  · exact tidy_mk _ _ _ _ _ _ _ _ _ _ _ (by omega)

theorem runs_jsr (hmem : ∀ p, 0 ≤ mem p ∧ mem p < 256) (hpc : 0 ≤ pc ∧ pc + 3 ≤ 65536) (hs : 0 ≤ s ∧ s < 256) :
    Runs m mem cycle pc a x y s nz c v d i .jsr .jsr .abs := by
  have h1 := hmem (pc + 1)
  apply Exists.intro
  refine ⟨?_, ?_, ?_, ?_⟩
  · simp only [execute, pushPc, c_bind, c_reg, c_fetch _ _ _ (pc + 1) _ _ _ _ _ _ _ (by omega), c_push _ _ _ _ _ _ _ _ _ _ _ _ hs,
      c_push _ _ _ _ _ _ _ ((s - 1) % 256) _ _ _ _ (by omega), c_here _ _ _ (pc + 2) _ _ _ _ _ _ _ (by omega), c_setPc,
      Int.add_assoc, Int.reduceAdd, band_ff, shr, Int.reducePow]
    rfl
  · rw [view_of, view_of, stored_same _ _ (by omega), stored_same _ _ (by omega)]
    simp only [Isa.State.after, Isa.State.exec, Isa.State.jsr, Isa.State.push, Isa.State.write, Isa.State.effective, Isa.State.word, reduceCtorEq,
      if_false, Isa.Mode.size, shl, Int.reducePow]
    rw [show pc + 3 - 1 = pc + 2 by omega, show (mem (pc + 1) + 256 * mem (pc + 2)) % 256 = mem (pc + 1) by omega, Int.mul_comm 256]
    congr
  · rw [view_of]
    simp [Isa.State.extra, Isa.Mn.reads]
  · exact tidy_mk _ _ _ _ _ _ _ _ _ _ _ (by omega)

theorem runs_brk (hmem : ∀ p, 0 ≤ mem p ∧ mem p < 256) (hpc : 0 ≤ pc ∧ pc + 1 ≤ 65536) (hs : 0 ≤ s ∧ s < 256) :
    Runs m mem cycle pc a x y s nz c v d i .brk .brk .imp := by
  apply Exists.intro
  refine ⟨?_, ?_, ?_, ?_⟩
  · simp only [execute, executeIrq, pushPc, pushFlags, c_bind, c_reg, c_addPc, c_push _ _ _ _ _ _ _ _ _ _ _ _ hs,
      c_push _ _ _ _ _ _ _ ((s - 1) % 256) _ _ _ _ (by omega), c_push _ _ _ _ _ _ _ (((s - 1) % 256 - 1) % 256) _ _ _ _ (by omega), c_setPc, c_setVdi,
      c_load _ _ _ _ _ _ _ _ _ _ _ 0xfffe (by omega), c_load _ _ _ _ _ _ _ _ _ _ _ 0xffff (by omega), vdi_setI,
      Int.add_assoc, Int.reduceAdd, band_ff, shr, Int.reducePow, status_ok _ _ _ _ _ _ _ _ _ _ _ hnz]
    rfl
  · rw [view_of, view_of, stored_same _ _ (status_range _ _), stored_same _ _ (w := (pc + 2) % 256) (by omega)]
    have e : stored mem (256 + s) ((pc + 2) / 256) = fun b => if b = 256 + s then (pc + 2) / 256 % 256 else mem b := rfl
    rw [e]
    simp only [Isa.State.after, Isa.State.exec, Isa.State.interrupt, Isa.State.push, Isa.State.write, Isa.State.effective, reduceCtorEq,
      if_false, Isa.Mode.size, shl, Int.reducePow, Isa.State.status, Int.add_assoc, Int.reduceAdd]
    rw [if_neg (by omega), if_neg (by omega), if_neg (by omega), if_neg (by omega), if_neg (by omega), if_neg (by omega), Int.mul_comm 256]
  · rw [view_of]
    simp [Isa.State.extra, Isa.Mn.reads]
  · exact tidy_mk _ _ _ _ _ _ _ _ _ _ _ (by omega)

/-! ### Branches -/

omit hnz in
theorem offset_table : ∀ k : Fin 256, bxor (k.val : Int) 0x80 - 0x80 = Isa.State.signed k.val := by decide +kernel

omit hnz in
theorem offset_byte {w : Int} (h : 0 ≤ w ∧ w < 256) : bxor w 0x80 - 0x80 = Isa.State.signed w := by
  obtain ⟨n, rfl⟩ := Int.eq_ofNat_of_zero_le h.1
  exact offset_table ⟨n, by omega⟩

omit hnz in
theorem other_page {p q : Int} (hp : 0 ≤ p) (hq : 0 ≤ q) : shr (bxor p q) 8 ≠ 0 ↔ ¬ p / 256 = q / 256 := by
  obtain ⟨n, rfl⟩ := Int.eq_ofNat_of_zero_le hp
  obtain ⟨k, rfl⟩ := Int.eq_ofNat_of_zero_le hq
  have e : shr (bxor (n : Int) (k : Int)) 8 = (((n ^^^ k) / 2 ^ 8 : Nat) : Int) := by
    show ((n ^^^ k : Nat) : Int) / 2 ^ 8 = _
    omega
  have e2 : (n ^^^ k) / 2 ^ 8 = (n / 2 ^ 8) ^^^ (k / 2 ^ 8) := by
    apply Nat.eq_of_testBit_eq
    intro i
    simp only [Nat.testBit_div_two_pow, Nat.testBit_xor]
  rw [e, e2]
  have e3 : (n / 2 ^ 8) ^^^ (k / 2 ^ 8) = 0 ↔ n / 2 ^ 8 = k / 2 ^ 8 := by
    constructor
    · intro h
      apply Nat.eq_of_testBit_eq
      intro i
      have := congrArg (fun w => Nat.testBit w i) h
      simpa only [Nat.testBit_xor, Nat.zero_testBit, bne_eq_false_iff_eq] using this
    · intro h
      rw [h, Nat.xor_self]
  omega

theorem runs_branch (hmem : ∀ p, 0 ≤ mem p ∧ mem p < 256) (hpc : 0 ≤ pc ∧ pc + 2 ≤ 65536) (cond : Cpu → Prop) [DecidablePred cond] (mn : Isa.Mn)
    (hcond : decide (cond ⟨mem, cycle, pc + 1, a, x, y, s, nz, flag c, vdiOf v d i⟩) =
      (Spec.view ⟨mem, cycle, pc, a, x, y, s, nz, flag c, vdiOf v d i⟩).taken mn)
    (hw : (Spec.view ⟨mem, cycle, pc, a, x, y, s, nz, flag c, vdiOf v d i⟩).taken mn = true →
      0 ≤ pc + 2 + Isa.State.signed (mem (pc + 1)) ∧ pc + 2 + Isa.State.signed (mem (pc + 1)) < 0x10000) :
    ∃ r', branch cond (m.put ⟨mem, cycle, pc + 1, a, x, y, s, nz, flag c, vdiOf v d i⟩) = .ok ((), m.put r') ∧
      Spec.view r' = (Spec.view ⟨mem, cycle, pc, a, x, y, s, nz, flag c, vdiOf v d i⟩).after mn .rel ∧
      r'.cycle = cycle + (Spec.view ⟨mem, cycle, pc, a, x, y, s, nz, flag c, vdiOf v d i⟩).extra mn .rel ∧ Tidy r' := by
  have h1 := hmem (pc + 1)
  simp only [branch, c_bind, c_reg, hcond, Isa.State.after, Isa.State.extra, if_true]
  cases ht : (Spec.view ⟨mem, cycle, pc, a, x, y, s, nz, flag c, vdiOf v d i⟩).taken mn
  · simp only [Bool.false_eq_true, if_false, c_addPc]
    refine ⟨_, rfl, ?_, ?_, tidy_mk _ _ _ _ _ _ _ _ _ _ _ hnz⟩
    · rw [view_of, view_of]
      simp only [Int.add_assoc, Int.reduceAdd]
    · exact (Int.add_zero _).symm
  · have hw := hw ht
    have e : Isa.State.target ⟨a, x, y, s, pc, decide (0x80 ≤ nz), v, d, i, decide (nz % 256 = 0), c, mem⟩ =
        Isa.State.signed (mem (pc + 1)) + (pc + 2) := by
      show (pc + 2 + Isa.State.signed (mem (pc + 1))) % 65536 = _
      omega
    have eo := other_page (p := Isa.State.signed (mem (pc + 1)) + (pc + 2)) (q := pc + 2) (by omega) (by omega)
    simp only [if_true, c_bind, c_fetch _ _ _ (pc + 1) _ _ _ _ _ _ _ (by omega : 0 ≤ pc + 1 ∧ pc + 1 < 65536), c_reg, offset_byte h1,
      c_addCycle, c_setPc, Int.add_assoc, Int.reduceAdd, view_of, e]
    refine ⟨_, rfl, ?_, ?_, tidy_mk _ _ _ _ _ _ _ _ _ _ _ hnz⟩
    · rw [view_of]
    · show cycle + _ = cycle + _
      congr 1
      by_cases hq : (Isa.State.signed (mem (pc + 1)) + (pc + 2)) / 256 = (pc + 2) / 256
      · rw [if_neg (fun h => eo.mp h hq), if_pos hq]
      · rw [if_pos (eo.mpr hq), if_neg hq]

end execute

/-! ### The step -/

/-- The emulator's instruction. -/
def instrOf (mn : Isa.Mn) (mode : Isa.Mode) : Instr :=
  match opOf mn, mode with
  | some .asl, .acc => .aslA
  | some .lsr, .acc => .lsrA
  | some .rol, .acc => .rolA
  | some .ror, .acc => .rorA
  | some op, mode => .op (modeOf mn mode) op
  | none, .ind => .op .abs .jmpInd
  | none, _ =>
    match mn with
    | .bcc => .bcc | .bcs => .bcs | .beq => .beq | .bmi => .bmi | .bne => .bne | .bpl => .bpl | .brk => .brk | .bvc => .bvc
    | .bvs => .bvs | .clc => .clc | .cld => .cld | .cli => .cli | .clv => .clv | .dex => .dex | .dey => .dey | .inx => .inx
    | .iny => .iny | .jmp => .jmp | .jsr => .jsr | .pha => .pha | .php => .php | .pla => .pla | .plp => .plp | .rti => .rti
    | .rts => .rts | .sec => .sec | .sed => .sed | .sei => .sei | .tax => .tax | .tay => .tay | .tsx => .tsx | .txa => .txa
    | .txs => .txs | .tya => .tya | _ => .nop

/-- The tables of the emulator have the documented opcodes and durations. -/
theorem tables (mn : Isa.Mn) : ∀ k ∈ Isa.codes mn, decode.getD k.opcode.toNat .nop = instrOf mn k.mode ∧
    opcodeCycles.getD k.opcode.toNat 0 = k.cycles := by
  cases mn <;> decide

theorem works_all (m : Machine) (r : Cpu) (hr : Spec.InRange r) (ea : Int) (hea : 0 ≤ ea ∧ ea < 65536) (hh : ¬ Spec.hardwarePage (ea / 256))
    (mn : Isa.Mn) (op : Op) (h : opOf mn = some op) : Works m ea op mn r := by
  obtain ⟨v, d, i, hvdi⟩ := hr.vdi
  have hc := hr.c
  have hmem := hr.mem ea
  have ha := hr.a
  have hx := hr.x
  have hy := hr.y
  have hnz := hr.nz
  obtain ⟨mem, cycle, pc, a, x, y, s, nz, c, vdi⟩ := r
  dsimp only at hvdi hc hmem ha hx hy hnz
  obtain ⟨cf, rfl⟩ : ∃ cf : Bool, c = flag cf := by
    rcases hc with h | h
    · exact ⟨false, h⟩
    · exact ⟨true, h⟩
  have hv2 : vdi = vdiOf v d i := hvdi
  subst hv2
  cases mn <;> simp only [opOf, Option.some.injEq, reduceCtorEq] at h <;> subst h
  case adc =>
    cases d
    · exact works_adcBinary _ _ _ _ _ _ _ _ _ _ _ _ _ hea hh hmem hnz ha
    · exact works_adcDecimal _ _ _ _ _ _ _ _ _ _ _ _ _ hea hh hmem hnz ha
  case and => exact works_and _ _ _ _ _ _ _ _ _ _ _ _ _ _ hea hh hmem hnz ha
  case asl => exact works_asl _ _ _ _ _ _ _ _ _ _ _ _ _ _ hea hh hmem hnz
  case bit => exact works_bit _ _ _ _ _ _ _ _ _ _ _ _ _ _ hea hh hmem hnz ha
  case cmp => exact works_cmp _ _ _ _ _ _ _ _ _ _ _ _ _ _ hea hh hmem hnz
  case cpx => exact works_cpx _ _ _ _ _ _ _ _ _ _ _ _ _ _ hea hh hmem hnz
  case cpy => exact works_cpy _ _ _ _ _ _ _ _ _ _ _ _ _ _ hea hh hmem hnz
  case dec => exact works_dec _ _ _ _ _ _ _ _ _ _ _ _ _ _ hea hh hmem hnz
  case eor => exact works_eor _ _ _ _ _ _ _ _ _ _ _ _ _ _ hea hh hmem hnz ha
  case inc => exact works_inc _ _ _ _ _ _ _ _ _ _ _ _ _ _ hea hh hmem hnz
  case lda => exact works_lda _ _ _ _ _ _ _ _ _ _ _ _ _ _ hea hh hmem hnz
  case ldx => exact works_ldx _ _ _ _ _ _ _ _ _ _ _ _ _ _ hea hh hmem hnz
  case ldy => exact works_ldy _ _ _ _ _ _ _ _ _ _ _ _ _ _ hea hh hmem hnz
  case lsr => exact works_lsr _ _ _ _ _ _ _ _ _ _ _ _ _ _ hea hh hmem hnz
  case ora => exact works_ora _ _ _ _ _ _ _ _ _ _ _ _ _ _ hea hh hmem hnz ha
  case rol => exact works_rol _ _ _ _ _ _ _ _ _ _ _ _ _ _ hea hh hmem hnz
  case ror => exact works_ror _ _ _ _ _ _ _ _ _ _ _ _ _ _ hea hh hmem hnz
  case sbc =>
    cases d
    · exact works_sbcBinary _ _ _ _ _ _ _ _ _ _ _ _ _ hea hh hmem hnz ha
    · exact works_sbcDecimal _ _ _ _ _ _ _ _ _ _ _ _ _ hea hh hmem hnz ha
  case sta => exact works_sta _ _ _ _ _ _ _ _ _ _ _ _ _ _ hea hh hmem hnz ha
  case stx => exact works_stx _ _ _ _ _ _ _ _ _ _ _ _ _ _ hea hh hmem hnz hx
  case sty => exact works_sty _ _ _ _ _ _ _ _ _ _ _ _ _ _ hea hh hmem hnz hy

theorem effective_range (r : Cpu) (hr : Spec.InRange r) (mode : Isa.Mode) (hm : mode.memory = true)
    (hpc : 0 ≤ r.pc ∧ r.pc + mode.size ≤ 65536) : 0 ≤ (Spec.view r).effective mode ∧ (Spec.view r).effective mode < 65536 := by
  have h1 := hr.mem (r.pc + 1)
  have h2 := hr.mem (r.pc + 2)
  have z1 := hr.mem ((r.mem (r.pc + 1) + r.x) % 256)
  have z2 := hr.mem (((r.mem (r.pc + 1) + r.x) % 256 + 1) % 256)
  have e : Spec.view r = Spec.view r := rfl
  cases mode <;> first | exact absurd hm (by decide) | skip
  all_goals simp only [Isa.Mode.size] at hpc
  all_goals simp only [Isa.State.effective, Isa.State.b1, Isa.State.word, Isa.State.zpWord, Spec.view]
  all_goals omega

/-- Instructions with a memory operand. -/
theorem execute_op (m : Machine) (r : Cpu) (hr : Spec.InRange r) (mn : Isa.Mn) (op : Op) (h : opOf mn = some op) (mode : Isa.Mode)
    (hm : mode.memory = true) (hpc : 0 ≤ r.pc ∧ r.pc + mode.size ≤ 65536) (hh : ¬ Spec.hardwarePage ((Spec.view r).effective mode / 256)) :
    ∃ r', execute (.op (modeOf mn mode) op) (m.put { r with pc := r.pc + 1 }) = .ok ((), m.put r') ∧
      Spec.view r' = (Spec.view r).after mn mode ∧ r'.cycle = r.cycle + (Spec.view r).extra mn mode ∧ Tidy r' := by
  have hr2 : Spec.InRange { r with pc := r.pc + mode.size, cycle := r.cycle + (Spec.view r).extra mn mode } :=
    ⟨hr.mem, hr.a, hr.x, hr.y, hr.s, hr.nz, hr.c, hr.vdi⟩
  have hacc : mode ≠ .acc := by rintro rfl; exact absurd hm (by decide)
  have hrel : mode ≠ .rel := by rintro rfl; exact absurd hm (by decide)
  obtain ⟨r', h1, h2, h3⟩ := works_all m _ hr2 _ (effective_range r hr mode hm hpc) hh mn op h mode hacc
  refine ⟨r', ?_, ?_, h3.1, h3.2⟩
  · show (address (modeOf mn mode) >>= operate op) _ = _
    rw [c_bind, address_ok m r hr mn mode hm hpc _ rfl]
    exact h1
  · rw [h2]
    unfold Isa.State.after
    rw [if_neg hrel, if_neg hacc]
    rfl

theorem execute_ok (m : Machine) (r : Cpu) (hr : Spec.InRange r) (mn : Isa.Mn) (mode : Isa.Mode)
    (hv : mode ∈ (Isa.codes mn).map (·.mode)) (ord : Spec.Ordinary (Spec.view r) mn mode (decide (m.pk.base.irqst ≠ 0xff))) :
    ∃ r', execute (instrOf mn mode) (m.put { r with pc := r.pc + 1 }) = .ok ((), m.put r') ∧
      Spec.view r' = (Spec.view r).after mn mode ∧ r'.cycle = r.cycle + (Spec.view r).extra mn mode ∧ Tidy r' := by
  cases hop : opOf mn with
  | some op =>
    by_cases hacc : mode = .acc
    · subst hacc
      obtain ⟨v, d, i, hvdi⟩ := hr.vdi
      have hc := hr.c
      have ha := hr.a
      have hnz := hr.nz
      obtain ⟨mem, cycle, pc, a, x, y, s, nz, c, vdi⟩ := r
      dsimp only at hvdi hc ha hnz
      obtain ⟨cf, rfl⟩ : ∃ cf : Bool, c = flag cf := by
        rcases hc with h | h
        · exact ⟨false, h⟩
        · exact ⟨true, h⟩
      have hv2 : vdi = vdiOf v d i := hvdi
      subst hv2
      cases mn <;> first | exact absurd hv (by decide) | skip
      case asl => exact runs_aslA _ _ _ _ _ _ _ _ _ _ _ _ _ hnz ha
      case lsr => exact runs_lsrA _ _ _ _ _ _ _ _ _ _ _ _ _ hnz ha
      case rol => exact runs_rolA _ _ _ _ _ _ _ _ _ _ _ _ _ hnz ha
      case ror => exact runs_rorA _ _ _ _ _ _ _ _ _ _ _ _ _ hnz ha
    · have hm : mode.memory = true := by
        cases mn <;> first | (simp [opOf] at hop; done) | skip
        all_goals cases mode <;> first | rfl | exact absurd hv (by decide) | exact absurd rfl hacc
      have hi : instrOf mn mode = .op (modeOf mn mode) op := by
        unfold instrOf
        rw [hop]
        cases mode <;> first | exact absurd rfl hacc | skip
        all_goals cases op <;> rfl
      rw [hi]
      refine execute_op m r hr mn op hop mode hm ord.inside (ord.ram ⟨?_, hacc, ?_, ?_, ?_⟩)
      · rintro rfl; exact absurd hm (by decide)
      · rintro rfl; exact absurd hm (by decide)
      · rintro rfl; exact absurd hop (by simp [opOf])
      · rintro rfl; exact absurd hop (by simp [opOf])
  | none =>
    obtain ⟨v, d, i, hvdi⟩ := hr.vdi
    have hc := hr.c
    have ha := hr.a
    have hx := hr.x
    have hy := hr.y
    have hs := hr.s
    have hnz := hr.nz
    have hmem := hr.mem
    have hq : mn = .cli ∨ mn = .plp ∨ mn = .rti → m.pk.base.irqst = 0xff := fun h => by simpa using ord.quiet h
    have hins := ord.inside
    have hrts := ord.rts
    have hptr := ord.pointer
    have hbr := ord.branch
    clear ord hr
    obtain ⟨mem, cycle, pc, a, x, y, s, nz, c, vdi⟩ := r
    dsimp only at hvdi hc ha hx hy hs hnz hmem
    obtain ⟨cf, rfl⟩ : ∃ cf : Bool, c = flag cf := by
      rcases hc with h | h
      · exact ⟨false, h⟩
      · exact ⟨true, h⟩
    have hv2 : vdi = vdiOf v d i := hvdi
    subst hv2
    cases mn <;> first | (simp [opOf] at hop; done) | skip
    all_goals
      simp only [Isa.codes, List.map_cons, List.map_nil, List.mem_cons, List.not_mem_nil, or_false] at hv
    case jmp =>
      rcases hv with rfl | rfl
      · exact runs_jmp _ _ _ _ _ _ _ _ _ _ _ _ _ hnz hmem hins
      · exact runs_jmpInd _ _ _ _ _ _ _ _ _ _ _ _ _ hnz hmem hins (hptr rfl)
    all_goals subst hv
    case bcc => exact runs_branch _ _ _ _ _ _ _ _ _ _ _ _ _ hnz hmem hins _ .bcc (by rw [view_of]; cases cf <;> rfl) (hbr rfl)
    case bcs => exact runs_branch _ _ _ _ _ _ _ _ _ _ _ _ _ hnz hmem hins _ .bcs (by rw [view_of]; cases cf <;> rfl) (hbr rfl)
    case beq => exact runs_branch _ _ _ _ _ _ _ _ _ _ _ _ _ hnz hmem hins _ .beq (by rw [view_of]; simp only [band_ff]; rfl) (hbr rfl)
    case bne => exact runs_branch _ _ _ _ _ _ _ _ _ _ _ _ _ hnz hmem hins _ .bne (by rw [view_of]; simp only [band_ff, Isa.State.taken, ne_eq, decide_not]; rfl) (hbr rfl)
    case bmi => exact runs_branch _ _ _ _ _ _ _ _ _ _ _ _ _ hnz hmem hins _ .bmi (by rw [view_of]; rfl) (hbr rfl)
    case bpl => exact runs_branch _ _ _ _ _ _ _ _ _ _ _ _ _ hnz hmem hins _ .bpl (by
      show _ = !decide (0x80 ≤ nz)
      rw [← decide_not]
      simp only [Int.not_le]) (hbr rfl)
    case bvc => exact runs_branch _ _ _ _ _ _ _ _ _ _ _ _ _ hnz hmem hins _ .bvc (by rw [view_of]; cases v <;> cases d <;> cases i <;> rfl) (hbr rfl)
    case bvs => exact runs_branch _ _ _ _ _ _ _ _ _ _ _ _ _ hnz hmem hins _ .bvs (by rw [view_of]; cases v <;> cases d <;> cases i <;> rfl) (hbr rfl)
    case brk => exact runs_brk _ _ _ _ _ _ _ _ _ _ _ _ _ hnz hmem hins hs
    case clc => exact runs_clc _ _ _ _ _ _ _ _ _ _ _ _ _ hnz
    case cld => exact runs_cld _ _ _ _ _ _ _ _ _ _ _ _ _ hnz
    case cli => exact runs_cli _ _ _ _ _ _ _ _ _ _ _ _ _ hnz (hq (by simp))
    case clv => exact runs_clv _ _ _ _ _ _ _ _ _ _ _ _ _ hnz
    case dex => exact runs_dex _ _ _ _ _ _ _ _ _ _ _ _ _ hnz
    case dey => exact runs_dey _ _ _ _ _ _ _ _ _ _ _ _ _ hnz
    case inx => exact runs_inx _ _ _ _ _ _ _ _ _ _ _ _ _ hnz
    case iny => exact runs_iny _ _ _ _ _ _ _ _ _ _ _ _ _ hnz
    case jsr => exact runs_jsr _ _ _ _ _ _ _ _ _ _ _ _ _ hnz hmem hins hs
    case nop => exact runs_nop _ _ _ _ _ _ _ _ _ _ _ _ _ hnz
    case pha => exact runs_pha _ _ _ _ _ _ _ _ _ _ _ _ _ hnz ha hs
    case php => exact runs_php _ _ _ _ _ _ _ _ _ _ _ _ _ hnz hs
    case pla => exact runs_pla _ _ _ _ _ _ _ _ _ _ _ _ _ hnz hmem
    case plp => exact runs_plp _ _ _ _ _ _ _ _ _ _ _ _ _ hnz hmem (hq (by simp))
    case rti => exact runs_rti _ _ _ _ _ _ _ _ _ _ _ _ _ hnz hmem (hq (by simp))
    case rts => exact runs_rts _ _ _ _ _ _ _ _ _ _ _ _ _ hnz hmem (hrts rfl)
    case sec => exact runs_sec _ _ _ _ _ _ _ _ _ _ _ _ _ hnz
    case sed => exact runs_sed _ _ _ _ _ _ _ _ _ _ _ _ _ hnz
    case sei => exact runs_sei _ _ _ _ _ _ _ _ _ _ _ _ _ hnz
    case tax => exact runs_tax _ _ _ _ _ _ _ _ _ _ _ _ _ hnz ha
    case tay => exact runs_tay _ _ _ _ _ _ _ _ _ _ _ _ _ hnz ha
    case tsx => exact runs_tsx _ _ _ _ _ _ _ _ _ _ _ _ _ hnz hs
    case txa => exact runs_txa _ _ _ _ _ _ _ _ _ _ _ _ _ hnz hx
    case txs => exact runs_txs _ _ _ _ _ _ _ _ _ _ _ _ _ hnz
    case tya => exact runs_tya _ _ _ _ _ _ _ _ _ _ _ _ _ hnz hy

/-- One instruction. -/
theorem instruction_ok (m : Machine) (hr : Spec.InRange m.cpu) (mn : Isa.Mn) (k : Isa.Code) (hk : k ∈ Isa.codes mn)
    (hop : m.cpu.mem m.cpu.pc = k.opcode) (ord : Spec.Ordinary (Spec.view m.cpu) mn k.mode (decide (m.pk.base.irqst ≠ 0xff))) :
    ∃ r', instruction m = .ok ((), { m with cpu := r' }) ∧ Spec.view r' = (Spec.view m.cpu).after mn k.mode ∧
      r'.cycle = m.cpu.cycle + k.cycles + (Spec.view m.cpu).extra mn k.mode ∧ Tidy r' := by
  have hsize : 1 ≤ k.mode.size := by cases k.mode <;> decide
  have hpc := ord.inside
  have hpc2 : 0 ≤ m.cpu.pc ∧ m.cpu.pc + k.mode.size ≤ 65536 := hpc
  have hr2 : Spec.InRange { m.cpu with cycle := m.cpu.cycle + k.cycles } :=
    ⟨hr.mem, hr.a, hr.x, hr.y, hr.s, hr.nz, hr.c, hr.vdi⟩
  obtain ⟨r', h1, h2, h3⟩ := execute_ok m _ hr2 mn k.mode (List.mem_map.mpr ⟨k, hk, rfl⟩) ord
  refine ⟨r', ?_, h2, h3.1, h3.2⟩
  have t := tables mn k hk
  have e : instruction m = (fetch >>= fun data => addCycle (opcodeCycles.getD data.toNat 0) >>= fun _ => execute (decode.getD data.toNat .nop))
      (m.put ⟨m.cpu.mem, m.cpu.cycle, m.cpu.pc, m.cpu.a, m.cpu.x, m.cpu.y, m.cpu.s, m.cpu.nz, m.cpu.c, m.cpu.vdi⟩) := rfl
  rw [e, c_bind, c_fetch _ _ _ _ _ _ _ _ _ _ _ (by omega)]
  simp only [hop, c_bind, t.1, t.2, c_addCycle]
  exact h1

end Asap
