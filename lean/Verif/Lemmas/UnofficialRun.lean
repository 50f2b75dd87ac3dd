import Verif.Lemmas.Unofficial

/-! The remaining undocumented instructions, and runs of them. -/

namespace Asap
open Machine C Isa

section special
variable (m : Machine) (mem : Int → Int) (cycle pc a x y s nz : Int) (c v d i : Bool)
  (hnz : 0 ≤ nz ∧ nz < 512) (hmem : ∀ p, 0 ≤ mem p ∧ mem p < 256)

theorem arr_overflow {t r : Int} {c : Bool} (ht : 0 ≤ t ∧ t < 256) (hr : r = t / 2 + flag c * 128) :
    ibit 6 (bxor r t) = decide (t / 64 % 2 ≠ r / 64 % 2) := by
  rw [ibit_bxor]
  unfold ibit
  have := flag_range c
  rw [Bool.eq_iff_iff]
  simp only [Int.reducePow, bne_iff_ne, ne_eq, decide_eq_decide, decide_eq_true_eq]
  omega

theorem hiMask {q : Int} (h : 0 ≤ q ∧ q < 256) : band q 0xf0 = q / 16 * 16 := by
  have key : ∀ k : Fin 256, band (k.val : Int) 0xf0 = (k.val : Int) / 16 * 16 := by decide +kernel
  have := key ⟨q.toNat, by omega⟩
  simpa [Int.toNat_of_nonneg h.1] using this

theorem arr_eq (st : State) (w t r : Int) (ht : conj st.a w = t) (hr : t / 2 + 128 * State.bit st.c = r) : st.arr w =
    if st.d then
      { st with n := st.c, z := decide (r = 0), v := decide (t / 64 % 2 ≠ r / 64 % 2), c := decide (t / 16 + t / 16 % 2 > 5),
                a := if decide (t / 16 + t / 16 % 2 > 5) then ((if t % 16 + t % 2 > 5 then r / 16 * 16 + (r + 6) % 16 else r) + 0x60) % 256
                  else (if t % 16 + t % 2 > 5 then r / 16 * 16 + (r + 6) % 16 else r) }
    else { st.nz r with a := r, c := decide (r / 64 % 2 = 1), v := decide (r / 64 % 2 ≠ r / 32 % 2) } := by
  subst ht
  subst hr
  rfl

theorem after_arr (st : State) : st.afterUn .arr .imm = ({ st with pc := st.pc + 2 } : State).arr (st.mem (st.pc + 1)) := rfl

theorem runs_arr (ha : 0 ≤ a ∧ a < 256) (hpc : 0 ≤ pc ∧ pc + 2 ≤ 65536) (hmem : ∀ p, 0 ≤ mem p ∧ mem p < 256) :
    RunsUn m ⟨mem, cycle, pc, a, x, y, s, nz, flag c, vdiOf v d i⟩ .arr .arr .imm := by
  have hv := hmem (pc + 1)
  have hj := conj_range ha hv.1
  have hb := conj_band ha.1 hv.1
  have hc := flag_range c
  obtain ⟨t, et⟩ : ∃ t, conj a (mem (pc + 1)) = t := ⟨_, rfl⟩
  rw [et] at hj hb
  obtain ⟨r, er⟩ : ∃ r, t / 2 + flag c * 128 = r := ⟨_, rfl⟩
  have hr : 0 ≤ r ∧ r < 256 := by omega
  have ho := arr_overflow hj er.symm
  have hv2 : band (vdiOf v d i) (bor dFlag iFlag) + band (bxor r t) vFlag = vdiOf (decide (t / 64 % 2 ≠ r / 64 % 2)) d i := by
    rw [vdi_di, band_v, ho, vdi_addV]
  have e7 : t / 128 = flag (decide (r / 64 % 2 = 1)) := by
    rw [← decide_flag]; split <;> omega
  have eb : t / 2 + 128 * State.bit c = r := by rw [flag_bit]; omega
  have fe : execute .arr (m.put ⟨mem, cycle, pc + 1, a, x, y, s, nz, flag c, vdiOf v d i⟩) =
      (if band (vdiOf (decide (t / 64 % 2 ≠ r / 64 % 2)) d i) dFlag = 0 then setC (t / 128) else arrDecimal r t)
        (m.put ⟨mem, cycle, pc + 2, r, x, y, s, r, flag c, vdiOf (decide (t / 64 % 2 ≠ r / 64 % 2)) d i⟩) := by
    simp only [execute, arr, c_bind, c_reg, c_fetch m mem cycle (pc + 1) a x y s nz (flag c) (vdiOf v d i) (by omega), c_setNzA, c_setVdi, hb, shr, shl, Int.pow_one,
      Int.reducePow, er, hv2, Int.add_assoc, Int.reduceAdd]
  cases d with
  | false =>
    refine ⟨⟨mem, cycle, pc + 2, r, x, y, s, r, flag (decide (r / 64 % 2 = 1)), vdiOf (decide (t / 64 % 2 ≠ r / 64 % 2)) false i⟩, ?_, ?_, ?_,
      tidy_mk _ _ _ _ _ _ _ _ _ _ _ (by omega)⟩
    · rw [fe, if_pos ((vdi_bandD _ _ _).mpr rfl), c_setC, e7]
    · have e5 : decide (r / 64 % 2 ≠ r / 32 % 2) = decide (t / 64 % 2 ≠ r / 64 % 2) := by
        rw [Bool.eq_iff_iff]; simp only [decide_eq_true_eq]; omega
      rw [view_of, view_of]
      rw [after_arr, arr_eq _ _ t r et eb, if_neg Bool.false_ne_true, e5]
      simp only [State.nz, Int.emod_eq_of_lt hr.1 hr.2]
    · show cycle = cycle + 0
      omega
  | true =>
    have el : band r 0xf0 + band (r + 6) 0xf = r / 16 * 16 + (r + 6) % 16 := by rw [hiMask hr, band_f]
    refine ⟨⟨mem, cycle, pc + 2, (if t ≥ 0x50 then band ((if band t 0xf ≥ 5 then band r 0xf0 + band (r + 6) 0xf else r) + 0x60) 0xff
        else (if band t 0xf ≥ 5 then band r 0xf0 + band (r + 6) 0xf else r)), x, y, s, r, flag (decide (t ≥ 0x50)),
      vdiOf (decide (t / 64 % 2 ≠ r / 64 % 2)) true i⟩, ?_, ?_, ?_, tidy_mk _ _ _ _ _ _ _ _ _ _ _ (by omega)⟩
    · rw [fe, if_neg (by rw [vdi_bandD]; decide)]
      simp only [arrDecimal, c_bind, c_setA, c_setC, decide_flag]
    · have e1 : decide (t / 16 + t / 16 % 2 > 5) = decide (t ≥ 0x50) := by
        rw [Bool.eq_iff_iff]; simp only [decide_eq_true_eq]; omega
      have e2 : (t % 16 + t % 2 > 5) ↔ band t 0xf ≥ 5 := by rw [band_f]; omega
      have e3 : decide (0x80 ≤ r) = c := by
        cases c
        · have : flag false = 0 := rfl
          simp; omega
        · have : flag true = 1 := rfl
          simp; omega
      rw [view_of, view_of]
      rw [after_arr, arr_eq _ _ t r et eb, if_pos rfl, e1, e3, el, Int.emod_eq_of_lt hr.1 hr.2, band_ff]
      simp only [e2, decide_eq_true_eq]
    · show cycle = cycle + 0
      omega

/-! ### Stores with the high byte of the address -/

theorem next_page {g h : Int} (hg : 0 ≤ g ∧ g < 256) (hh : 0 ≤ h ∧ h < 256) : band g (h + 1) = conj g ((h + 1) % 256) := by
  by_cases e : h = 255
  · subst e
    have key : ∀ k : Fin 256, band (k.val : Int) 256 = 0 := by decide +kernel
    have := key ⟨g.toNat, by omega⟩
    simp only [Int.toNat_of_nonneg hg.1] at this
    show band g 256 = conj g 0
    rw [this]
    simp [conj]
  · rw [Int.emod_eq_of_lt (by omega) (by omega), conj_band hg.1 (by omega)]

/-- The store of the emulator. -/
theorem storeHigh_ok (lo hi idx g ea : Int) (hlo : 0 ≤ lo ∧ lo < 256) (hhi : 0 ≤ hi ∧ hi < 256) (hi2 : 0 ≤ idx ∧ idx < 256) (hg : 0 ≤ g ∧ g < 256)
    (hea : ea = if lo + idx ≥ 256 then 256 * conj g ((hi + 1) % 256) + (lo + idx) % 256 else 256 * hi + lo + idx) (hh : ¬ Spec.hardwarePage (ea / 256)) (cc vv : Int) :
    storeHigh (lo + idx) hi g (m.put ⟨mem, cycle, pc, a, x, y, s, nz, cc, vv⟩) =
      .ok ((), m.put ⟨stored mem ea (conj g ((hi + 1) % 256)), cycle, pc, a, x, y, s, nz, cc, vv⟩) := by
  have hb := next_page hg hhi
  have hj : 0 ≤ conj g ((hi + 1) % 256) ∧ conj g ((hi + 1) % 256) < 256 := conj_range hg (by omega)
  have e : lo + idx + shl (if lo + idx ≥ 256 then band g (hi + 1) - 1 else hi) 8 = ea := by
    rw [hea, hb]
    simp only [shl, Int.reducePow]
    split <;> omega
  have hr : 0 ≤ ea ∧ ea < 65536 := by
    rw [hea]
    split <;> omega
  unfold storeHigh
  rw [e, hb, c_poke _ _ _ _ _ _ _ _ _ _ _ _ _ hr hh]

end special

/-- What is left to show of the four instructions: the store and the value of S. -/
theorem runs_high (m : Machine) (mem : Int → Int) (cycle pc a x y s nz cc vdi : Int) (hnz : 0 ≤ nz ∧ nz < 512) (hc : cc = 0 ∨ cc = 1)
    (hv : ∃ v d i : Bool, vdi = vdiOf v d i) (u : Un) (mode : Isa.Mode) (s' lo hi idx g : Int) (instr : Instr)
    (hmem : ∀ p, 0 ≤ mem p ∧ mem p < 256)
    (hlo : 0 ≤ lo ∧ lo < 256) (hhi : 0 ≤ hi ∧ hi < 256) (hi2 : 0 ≤ idx ∧ idx < 256) (hg : 0 ≤ g ∧ g < 256)
    (hx : execute instr (m.put ⟨mem, cycle, pc + 1, a, x, y, s, nz, cc, vdi⟩) = storeHigh (lo + idx) hi g (m.put ⟨mem, cycle, pc + mode.size, a, x, y, s', nz, cc, vdi⟩))
    (hbase : (Spec.view ⟨mem, cycle, pc, a, x, y, s, nz, cc, vdi⟩).base mode = lo + 256 * hi)
    (heff : (Spec.view ⟨mem, cycle, pc, a, x, y, s, nz, cc, vdi⟩).effective mode = (lo + 256 * hi + idx) % 65536)
    (hcross : (Spec.view ⟨mem, cycle, pc, a, x, y, s, nz, cc, vdi⟩).crosses mode = decide ((lo + 256 * hi + idx) / 256 ≠ (lo + 256 * hi) / 256))
    (hreg : (Spec.view ⟨mem, cycle, pc, a, x, y, s, nz, cc, vdi⟩).register u = g) (hreads : u.reads = false)
    (hh : ¬ Spec.hardwarePage ((Spec.view ⟨mem, cycle, pc, a, x, y, s, nz, cc, vdi⟩).highAddress u mode / 256))
    (haft : ∀ st : State, st.afterUn u mode = { ({ st with pc := st.pc + mode.size } : State).write (st.highAddress u mode) (st.high u mode) with
      s := if u = .shs then conj st.a st.x else st.s })
    (hs : s' = if u = .shs then conj a x else s) :
    RunsUn m ⟨mem, cycle, pc, a, x, y, s, nz, cc, vdi⟩ instr u mode := by
  have hhigh : (Spec.view ⟨mem, cycle, pc, a, x, y, s, nz, cc, vdi⟩).high u mode = conj g ((hi + 1) % 256) := by
    unfold State.high
    rw [hreg, hbase, show (lo + 256 * hi) / 256 = hi by omega]
  have hadr : (Spec.view ⟨mem, cycle, pc, a, x, y, s, nz, cc, vdi⟩).highAddress u mode =
      if lo + idx ≥ 256 then 256 * conj g ((hi + 1) % 256) + (lo + idx) % 256 else 256 * hi + lo + idx := by
    unfold State.highAddress
    rw [hhigh, heff, hcross]
    simp only [decide_eq_true_eq]
    by_cases h : lo + idx ≥ 256
    · rw [if_pos h, if_pos (by omega)]
      omega
    · rw [if_neg h, if_neg (by omega)]
      omega
  have hj : 0 ≤ conj g ((hi + 1) % 256) ∧ conj g ((hi + 1) % 256) < 256 := conj_range hg (by omega)
  refine ⟨⟨stored mem ((Spec.view ⟨mem, cycle, pc, a, x, y, s, nz, cc, vdi⟩).highAddress u mode) (conj g ((hi + 1) % 256)), cycle, pc + mode.size, a, x, y, s', nz, cc, vdi⟩,
    ?_, ?_, ?_, hnz, hc, hv⟩
  · show execute instr (m.put ⟨mem, cycle, pc + 1, a, x, y, s, nz, cc, vdi⟩) = _
    rw [hx]
    exact storeHigh_ok m mem cycle _ a x y s' nz lo hi idx g _ hlo hhi hi2 hg hadr hh cc vdi
  · rw [haft, stored_same _ _ hj, hhigh, hs]
    rfl
  · show cycle = cycle + State.extraUn _ u mode
    unfold State.extraUn
    rw [hreads]
    simp


section stores
variable (m : Machine) (mem : Int → Int) (cycle pc a x y s nz cc vdi : Int) (hnz : 0 ≤ nz ∧ nz < 512) (hc : cc = 0 ∨ cc = 1)
    (hv : ∃ v d i : Bool, vdi = vdiOf v d i) (hmem : ∀ p, 0 ≤ mem p ∧ mem p < 256) (ha : 0 ≤ a ∧ a < 256) (hx : 0 ≤ x ∧ x < 256) (hy : 0 ≤ y ∧ y < 256)

theorem shx_ok (hpc : 0 ≤ pc ∧ pc + 3 ≤ 65536) (idx g s' : Int) :
    Machine.shx idx g (m.put ⟨mem, cycle, pc + 1, a, x, y, s', nz, cc, vdi⟩) =
      storeHigh (mem (pc + 1) + idx) (mem (pc + 2)) g (m.put ⟨mem, cycle, pc + 3, a, x, y, s', nz, cc, vdi⟩) := by
  simp only [Machine.shx, c_bind, c_fetch m mem cycle (pc + 1) a x y s' nz cc vdi (by omega), c_fetch m mem cycle (pc + 1 + 1) a x y s' nz cc vdi (by omega)]
  rw [show pc + 1 + 1 = pc + 2 by omega, show pc + 2 + 1 = pc + 3 by omega, Int.add_comm idx]

include hnz hc hv hmem ha hx hy

theorem runs_sha (hpc : 0 ≤ pc ∧ pc + 3 ≤ 65536) (hh : ¬ Spec.hardwarePage ((Spec.view ⟨mem, cycle, pc, a, x, y, s, nz, cc, vdi⟩).highAddress .sha .absy / 256)) :
    RunsUn m ⟨mem, cycle, pc, a, x, y, s, nz, cc, vdi⟩ .sha .sha .absy := by
  refine runs_high m mem cycle pc a x y s nz cc vdi hnz hc hv .sha .absy s (mem (pc + 1)) (mem (pc + 2)) y (conj a x) _ hmem (hmem _) (hmem _) hy
    (conj_range ha hx.1) ?_ rfl rfl rfl rfl rfl hh (fun _ => rfl) rfl
  simp only [execute, c_bind, c_reg, conj_band ha.1 hx.1]
  exact shx_ok m mem cycle pc a x y nz cc vdi hpc _ _ _

theorem runs_shs (hpc : 0 ≤ pc ∧ pc + 3 ≤ 65536) (hh : ¬ Spec.hardwarePage ((Spec.view ⟨mem, cycle, pc, a, x, y, s, nz, cc, vdi⟩).highAddress .shs .absy / 256)) :
    RunsUn m ⟨mem, cycle, pc, a, x, y, s, nz, cc, vdi⟩ .shs .shs .absy := by
  refine runs_high m mem cycle pc a x y s nz cc vdi hnz hc hv .shs .absy (conj a x) (mem (pc + 1)) (mem (pc + 2)) y (conj a x) _ hmem (hmem _) (hmem _) hy
    (conj_range ha hx.1) ?_ rfl rfl rfl rfl rfl hh (fun _ => rfl) rfl
  simp only [execute, c_bind, c_reg, c_setS, conj_band ha.1 hx.1]
  exact shx_ok m mem cycle pc a x y nz cc vdi hpc _ _ _

theorem runs_shx (hpc : 0 ≤ pc ∧ pc + 3 ≤ 65536) (hh : ¬ Spec.hardwarePage ((Spec.view ⟨mem, cycle, pc, a, x, y, s, nz, cc, vdi⟩).highAddress .shx .absy / 256)) :
    RunsUn m ⟨mem, cycle, pc, a, x, y, s, nz, cc, vdi⟩ .shx .shx .absy := by
  refine runs_high m mem cycle pc a x y s nz cc vdi hnz hc hv .shx .absy s (mem (pc + 1)) (mem (pc + 2)) y x _ hmem (hmem _) (hmem _) hy
    hx ?_ rfl rfl rfl rfl rfl hh (fun _ => rfl) rfl
  simp only [execute, c_bind, c_reg]
  exact shx_ok m mem cycle pc a x y nz cc vdi hpc _ _ _

theorem runs_shy (hpc : 0 ≤ pc ∧ pc + 3 ≤ 65536) (hh : ¬ Spec.hardwarePage ((Spec.view ⟨mem, cycle, pc, a, x, y, s, nz, cc, vdi⟩).highAddress .shy .absx / 256)) :
    RunsUn m ⟨mem, cycle, pc, a, x, y, s, nz, cc, vdi⟩ .shy .shy .absx := by
  refine runs_high m mem cycle pc a x y s nz cc vdi hnz hc hv .shy .absx s (mem (pc + 1)) (mem (pc + 2)) x y _ hmem (hmem _) (hmem _) hx
    hy ?_ rfl rfl rfl rfl rfl hh (fun _ => rfl) rfl
  simp only [execute, c_bind, c_reg]
  exact shx_ok m mem cycle pc a x y nz cc vdi hpc _ _ _

theorem runs_shaInd (hpc : 0 ≤ pc ∧ pc + 2 ≤ 65536) (hh : ¬ Spec.hardwarePage ((Spec.view ⟨mem, cycle, pc, a, x, y, s, nz, cc, vdi⟩).highAddress .sha .indy / 256)) :
    RunsUn m ⟨mem, cycle, pc, a, x, y, s, nz, cc, vdi⟩ .shaInd .sha .indy := by
  have h1 := hmem (pc + 1)
  refine runs_high m mem cycle pc a x y s nz cc vdi hnz hc hv .sha .indy s (mem (mem (pc + 1))) (mem ((mem (pc + 1) + 1) % 256)) y (conj a x) _ hmem (hmem _) (hmem _) hy
    (conj_range ha hx.1) ?_ rfl rfl rfl rfl rfl hh (fun _ => rfl) rfl
  simp only [execute, c_bind, c_reg, conj_band ha.1 hx.1, c_fetch m mem cycle (pc + 1) a x y s nz cc vdi (by omega), band_ff,
    c_load m mem cycle (pc + 1 + 1) a x y s nz cc vdi ((mem (pc + 1) + 1) % 256) (by omega), c_load m mem cycle (pc + 1 + 1) a x y s nz cc vdi (mem (pc + 1)) (by omega)]
  rw [show pc + 1 + 1 = pc + Isa.Mode.indy.size by show pc + 1 + 1 = pc + 2; omega]

end stores

/-! ### No operation -/

section nops
variable (m : Machine) (mem : Int → Int) (cycle pc a x y s nz cc vdi : Int) (hnz : 0 ≤ nz ∧ nz < 512) (hc : cc = 0 ∨ cc = 1)
    (hv : ∃ v d i : Bool, vdi = vdiOf v d i)

include hnz hc hv

theorem runs_nop_plain (mode : Isa.Mode) (instr : Instr)
    (h : execute instr (m.put ⟨mem, cycle, pc + 1, a, x, y, s, nz, cc, vdi⟩) = .ok ((), m.put ⟨mem, cycle, pc + mode.size, a, x, y, s, nz, cc, vdi⟩))
    (hcross : (Spec.view ⟨mem, cycle, pc, a, x, y, s, nz, cc, vdi⟩).crosses mode = false) : RunsUn m ⟨mem, cycle, pc, a, x, y, s, nz, cc, vdi⟩ instr .nop mode := by
  refine ⟨_, h, rfl, ?_, hnz, hc, hv⟩
  unfold State.extraUn
  rw [hcross]
  simp

theorem runs_nop_imp : RunsUn m ⟨mem, cycle, pc, a, x, y, s, nz, cc, vdi⟩ .nop .nop .imp :=
  runs_nop_plain m mem cycle pc a x y s nz cc vdi hnz hc hv .imp .nop rfl rfl

theorem runs_skip1 (mode : Isa.Mode) (hm : mode = .imm ∨ mode = .zp ∨ mode = .zpx) : RunsUn m ⟨mem, cycle, pc, a, x, y, s, nz, cc, vdi⟩ .skip1 .nop mode := by
  have hs : mode.size = 2 := by rcases hm with rfl | rfl | rfl <;> rfl
  refine runs_nop_plain m mem cycle pc a x y s nz cc vdi hnz hc hv mode .skip1 ?_ (by rcases hm with rfl | rfl | rfl <;> rfl)
  simp only [execute, c_addPc, hs]
  rw [show pc + 1 + 1 = pc + 2 by omega]

theorem runs_skip2 : RunsUn m ⟨mem, cycle, pc, a, x, y, s, nz, cc, vdi⟩ .skip2 .nop .abs := by
  refine runs_nop_plain m mem cycle pc a x y s nz cc vdi hnz hc hv .abs .skip2 ?_ rfl
  simp only [execute, c_addPc, Isa.Mode.size]
  rw [show pc + 1 + 2 = pc + 3 by omega]

theorem runs_skipX (hpc : 0 ≤ pc ∧ pc + 3 ≤ 65536) (hmem : ∀ p, 0 ≤ mem p ∧ mem p < 256) (hx : 0 ≤ x ∧ x < 256) :
    RunsUn m ⟨mem, cycle, pc, a, x, y, s, nz, cc, vdi⟩ .skipX .nop .absx := by
  have h1 := hmem (pc + 1)
  have e : ((mem (pc + 1) + 256 * mem (pc + 2) + x) / 256 ≠ (mem (pc + 1) + 256 * mem (pc + 2)) / 256) ↔ mem (pc + 1) + x ≥ 0x100 := by omega
  refine ⟨⟨mem, cycle + (if mem (pc + 1) + x ≥ 0x100 then 1 else 0), pc + 3, a, x, y, s, nz, cc, vdi⟩, ?_, rfl, ?_, hnz, hc, hv⟩
  · simp only [execute, c_bind, c_reg, c_here m mem cycle (pc + 1) a x y s nz cc vdi (by omega), c_when, c_addPc]
    rw [show pc + 1 + 2 = pc + 3 by omega]
  · show cycle + _ = cycle + (if true && decide ((mem (pc + 1) + 256 * mem (pc + 2) + x) / 256 ≠ (mem (pc + 1) + 256 * mem (pc + 2)) / 256) then 1 else 0)
    simp only [Bool.true_and, decide_eq_true_eq, e]

end nops

/-! ### The step -/

/-- The emulator's instruction. -/
def unInstr (u : Un) (mode : Isa.Mode) : Instr :=
  match u with
  | .aso => .op (modeOf .asl mode) .aso
  | .rla => .op (modeOf .rol mode) .rla
  | .lse => .op (modeOf .lsr mode) .lse
  | .rra => .op (modeOf .ror mode) .rra
  | .dcm => .op (modeOf .dec mode) .dcm
  | .ins => .op (modeOf .inc mode) .ins
  | .lax => .op (modeOf .lda mode) .lax
  | .sax => .op (modeOf .sta mode) .sax
  | .las => .op (modeOf .lda mode) .las
  | .anc => .anc
  | .alr => .alr
  | .arr => .arr
  | .sbx => .sbx
  | .sbc => .op .imm .sbc
  | .ane => .ane
  | .anx => .anx
  | .sha => if mode = .indy then .shaInd else .sha
  | .shs => .shs
  | .shx => .shx
  | .shy => .shy
  | .nop => if mode = .imp then .nop else if mode = .abs then .skip2 else if mode = .absx then .skipX else .skip1

theorem tablesUn (u : Un) : ∀ k ∈ unofficial u, decode.getD k.opcode.toNat .nop = unInstr u k.mode ∧ opcodeCycles.getD k.opcode.toNat 0 = k.cycles := by
  cases u <;> decide

theorem execute_un (m : Machine) (r : Cpu) (hr : Spec.InRange r) (u : Un) (mode : Isa.Mode) (hk : mode ∈ (unofficial u).map (·.mode))
    (ord : Spec.OrdinaryUn (Spec.view r) u mode) : RunsUn m r (unInstr u mode) u mode := by
  have hpc : 0 ≤ r.pc ∧ r.pc + mode.size ≤ 65536 := ord.inside
  have hram := ord.ram
  by_cases hg : u = .aso ∨ u = .rla ∨ u = .lse ∨ u = .rra ∨ u = .dcm ∨ u = .ins ∨ u = .lax ∨ u = .sax ∨ u = .las ∨ u = .sbc
  · have hm : mode.memory = true := by
      rcases hg with rfl | rfl | rfl | rfl | rfl | rfl | rfl | rfl | rfl | rfl
      all_goals cases mode <;> first | rfl | exact absurd hk (by decide)
    have hh : ¬ Spec.hardwarePage ((Spec.view r).effective mode / 256) := by
      rcases hg with rfl | rfl | rfl | rfl | rfl | rfl | rfl | rfl | rfl | rfl <;> exact hram _ rfl
    have hrel : mode ≠ .rel := by rintro rfl; exact absurd hm (by decide)
    have hx0 : ∀ (mn : Isa.Mn) (u : Un), u.reads = false → mn.reads = false → ∀ st : State, st.extraUn u mode = st.extra mn mode := by
      intro mn u h1 h2 st
      unfold State.extraUn State.extra
      rw [if_neg hrel, h1, h2]
    rcases hg with rfl | rfl | rfl | rfl | rfl | rfl | rfl | rfl | rfl | rfl
    · exact runs_both m r hr .aso .asl .ora .asl .ora rfl rfl mode hm hpc hh (fun m r hr ea h1 h2 => combines_aso m r hr ea h1 h2) .aso (fun _ => rfl) (hx0 _ _ rfl rfl)
    · exact runs_both m r hr .rla .rol .and .rol .and rfl rfl mode hm hpc hh (fun m r hr ea h1 h2 => combines_rla m r hr ea h1 h2) .rla (fun _ => rfl) (hx0 _ _ rfl rfl)
    · exact runs_both m r hr .lse .lsr .eor .lsr .eor rfl rfl mode hm hpc hh (fun m r hr ea h1 h2 => combines_lse m r hr ea h1 h2) .lse (fun _ => rfl) (hx0 _ _ rfl rfl)
    · exact runs_both m r hr .rra .ror .adc .ror .adc rfl rfl mode hm hpc hh (fun m r hr ea h1 h2 => combines_rra m r hr ea h1 h2) .rra (fun _ => rfl) (hx0 _ _ rfl rfl)
    · exact runs_both m r hr .dcm .dec .cmp .dec .cmp rfl rfl mode hm hpc hh (fun m r hr ea h1 h2 => combines_dcm m r hr ea h1 h2) .dcm (fun _ => rfl) (hx0 _ _ rfl rfl)
    · exact runs_both m r hr .ins .inc .sbc .inc .sbc rfl rfl mode hm hpc hh (fun m r hr ea h1 h2 => combines_ins m r hr ea h1 h2) .ins (fun _ => rfl) (hx0 _ _ rfl rfl)
    · refine runs_both m r hr .lax .lda .ldx .lda .ldx rfl rfl mode hm hpc hh (fun m r hr ea h1 h2 => combines_lax m r hr ea h1 h2) .lax (fun _ => rfl) fun st => ?_
      unfold State.extraUn State.extra
      rw [if_neg hrel]
      rfl
    · exact runs_sax m r hr mode hm hpc hh
    · exact runs_las m r hr mode hm hpc hh
    · simp only [unofficial, List.map_cons, List.map_nil, List.mem_cons, List.not_mem_nil, or_false] at hk
      subst hk
      exact runs_sbcUn m r hr hpc hh
  · obtain ⟨v, d, i, hvdi⟩ := hr.vdi
    have hc := hr.c
    have ha := hr.a
    have hx := hr.x
    have hy := hr.y
    have hnz := hr.nz
    have hmem := hr.mem
    clear hr ord
    obtain ⟨mem, cycle, pc, a, x, y, s, nz, c, vdi⟩ := r
    dsimp only at hvdi hc ha hx hy hnz hmem hpc
    have hv2 : vdi = vdiOf v d i := hvdi
    have hv3 : ∃ v d i : Bool, vdi = vdiOf v d i := ⟨v, d, i, hv2⟩
    obtain ⟨cf, ecf⟩ : ∃ cf : Bool, c = flag cf := by
      rcases hc with h | h
      · exact ⟨false, h⟩
      · exact ⟨true, h⟩
    cases u <;> first | exact absurd (by decide) hg | skip
    all_goals simp only [unofficial, List.map_cons, List.map_nil, List.mem_cons, List.not_mem_nil, or_false] at hk
    case anc => 
      rcases hk with rfl | rfl <;> (subst ecf; subst hv2; exact runs_anc m mem cycle pc a x y s nz cf v d i hnz hpc hmem ha hx)
    case alr => subst hk; subst ecf; subst hv2; exact runs_alr m mem cycle pc a x y s nz cf v d i hnz hpc hmem ha hx
    case arr => subst hk; subst ecf; subst hv2; exact runs_arr m mem cycle pc a x y s nz cf v d i ha hpc hmem
    case sbx => subst hk; subst ecf; subst hv2; exact runs_sbx m mem cycle pc a x y s nz cf v d i hnz hpc hmem ha hx
    case ane => subst hk; subst ecf; subst hv2; exact runs_ane m mem cycle pc a x y s nz cf v d i hnz hpc hmem ha hx
    case anx => subst hk; subst ecf; subst hv2; exact runs_anx m mem cycle pc a x y s nz cf v d i hnz hpc hmem ha hx
    case sha =>
      rcases hk with rfl | rfl
      · exact runs_sha m mem cycle pc a x y s nz c vdi hnz hc hv3 hmem ha hx hy hpc (hram _ rfl)
      · exact runs_shaInd m mem cycle pc a x y s nz c vdi hnz hc hv3 hmem ha hx hy hpc (hram _ rfl)
    case shs => subst hk; exact runs_shs m mem cycle pc a x y s nz c vdi hnz hc hv3 hmem ha hx hy hpc (hram _ rfl)
    case shx => subst hk; exact runs_shx m mem cycle pc a x y s nz c vdi hnz hc hv3 hmem ha hx hy hpc (hram _ rfl)
    case shy => subst hk; exact runs_shy m mem cycle pc a x y s nz c vdi hnz hc hv3 hmem ha hx hy hpc (hram _ rfl)
    case nop =>
      have hm : mode = .imp ∨ (mode = .imm ∨ mode = .zp ∨ mode = .zpx) ∨ mode = .abs ∨ mode = .absx := by
        cases mode <;> simp at hk ⊢
      clear hk
      rcases hm with rfl | hm | rfl | rfl
      · exact runs_nop_imp m mem cycle pc a x y s nz c vdi hnz hc hv3
      · have : unInstr .nop mode = .skip1 := by rcases hm with rfl | rfl | rfl <;> rfl
        rw [this]
        exact runs_skip1 m mem cycle pc a x y s nz c vdi hnz hc hv3 mode hm
      · exact runs_skip2 m mem cycle pc a x y s nz c vdi hnz hc hv3
      · exact runs_skipX m mem cycle pc a x y s nz c vdi hnz hc hv3 hpc hmem hx

/-! ### The ranges -/

namespace Isa.State
variable {st : State}

theorem register_range (h : st.Fits) (u : Un) : 0 ≤ st.register u ∧ st.register u < 256 := by
  have := conj_range h.a h.x.1
  cases u <;> simp only [register] <;> first | exact this | exact h.x | exact h.y | omega

theorem high_range (h : st.Fits) (u : Un) (mode : Isa.Mode) : 0 ≤ st.high u mode ∧ st.high u mode < 256 :=
  conj_range (register_range h u) (by omega)

theorem exec_pc_same (mn : Isa.Mn) (mode : Isa.Mode) (ea v : Int)
    (h : mn = .asl ∨ mn = .rol ∨ mn = .lsr ∨ mn = .ror ∨ mn = .dec ∨ mn = .inc ∨ mn = .lda ∨ mn = .and) : (st.exec mn mode ea v).pc = st.pc := by
  rcases h with rfl | rfl | rfl | rfl | rfl | rfl | rfl | rfl
  all_goals simp only [exec, State.nz, putBack, State.write]
  all_goals first | rfl | (split <;> rfl)

theorem Fits.both (h : st.Fits) (mn1 mn2 : Isa.Mn) (mode : Isa.Mode) (ea : Int) {v : Int} (hv : 0 ≤ v ∧ v < 256) (hpc : 1 ≤ st.pc ∧ st.pc ≤ 65536)
    (hm : mn1 = .asl ∨ mn1 = .rol ∨ mn1 = .lsr ∨ mn1 = .ror ∨ mn1 = .dec ∨ mn1 = .inc ∨ mn1 = .lda ∨ mn1 = .and) : (st.both mn1 mn2 mode ea v).Fits := by
  have h1 := h.exec mn1 mode ea hv hpc
  exact h1.exec mn2 mode ea (h1.mem ea) (by rw [exec_pc_same mn1 mode ea v hm]; exact hpc)

theorem Fits.afterUn (h : st.Fits) (u : Un) (mode : Isa.Mode) (hpc : 0 ≤ st.pc ∧ st.pc + mode.size ≤ 65536) : (st.afterUn u mode).Fits := by
  have hsize : 1 ≤ mode.size := by cases mode <;> decide
  have hp : 1 ≤ ({ st with pc := st.pc + mode.size } : State).pc ∧ ({ st with pc := st.pc + mode.size } : State).pc ≤ 65536 := by
    show 1 ≤ st.pc + mode.size ∧ st.pc + mode.size ≤ 65536
    omega
  have h0 := h.setPc (st.pc + mode.size)
  have hm := h.mem (st.effective mode)
  have hax := conj_range h.a h.x.1
  have hav := conj_range h.a hm.1
  have hvs := conj_range hm h.s.1
  cases u
  case aso => exact h0.both .asl .ora mode _ hm hp (by simp)
  case rla => exact h0.both .rol .and mode _ hm hp (by simp)
  case lse => exact h0.both .lsr .eor mode _ hm hp (by simp)
  case rra => exact h0.both .ror .adc mode _ hm hp (by simp)
  case dcm => exact h0.both .dec .cmp mode _ hm hp (by simp)
  case ins => exact h0.both .inc .sbc mode _ hm hp (by simp)
  case lax => exact h0.both .lda .ldx mode _ hm hp (by simp)
  case sax => exact h0.write _ hax
  case las => exact ⟨h.mem, hvs, hvs, h.y, hvs⟩
  case anc => exact ⟨h.mem, hav, h.x, h.y, h.s⟩
  case alr =>
    have := (h0.exec .and mode (st.effective mode) hm hp).exec .lsr .acc 0 hav (by rw [exec_pc_same .and mode _ _ (by simp)]; exact hp)
    exact this
  case arr =>
    have hb := bit_range st.c
    show (State.arr _ _).Fits
    rw [arr_eq _ _ _ _ rfl rfl]
    have key : 0 ≤ conj st.a (st.mem (st.effective mode)) / 2 + 128 * bit st.c ∧ conj st.a (st.mem (st.effective mode)) / 2 + 128 * bit st.c < 256 := by omega
    split
    · refine ⟨h.mem, ?_, h.x, h.y, h.s⟩
      dsimp only
      generalize conj st.a (st.mem (st.effective mode)) / 2 + 128 * bit st.c = r at key ⊢
      split
      · omega
      · split <;> omega
    · exact ⟨h.mem, key, h.x, h.y, h.s⟩
  case sbx => exact ⟨h.mem, h.a, (by show 0 ≤ (_ : Int) % 256 ∧ (_ : Int) % 256 < 256; omega), h.y, h.s⟩
  case sbc => exact h0.exec .sbc mode (st.effective mode) hm hp
  case ane => exact ⟨h.mem, conj_range hax (by omega), h.x, h.y, h.s⟩
  case anx => exact ⟨h.mem, hav, hav, h.y, h.s⟩
  case nop => exact h0
  case sha => exact h0.write _ (high_range h .sha mode)
  case shx => exact h0.write _ (high_range h .shx mode)
  case shy => exact h0.write _ (high_range h .shy mode)
  case shs => exact (h0.write _ (high_range h .shs mode)).setS hax

end Isa.State

/-- An undocumented instruction. -/
theorem instruction_un (m : Machine) (hr : Spec.InRange m.cpu) (u : Un) (k : Code) (hk : k ∈ unofficial u)
    (hop : m.cpu.mem m.cpu.pc = k.opcode) (ord : Spec.OrdinaryUn (Spec.view m.cpu) u k.mode) :
    ∃ r', instruction m = .ok ((), { m with cpu := r' }) ∧ Spec.view r' = (Spec.view m.cpu).afterUn u k.mode ∧
      r'.cycle = m.cpu.cycle + k.cycles + (Spec.view m.cpu).extraUn u k.mode ∧ Spec.InRange r' := by
  have hsize : 1 ≤ k.mode.size := by cases k.mode <;> decide
  have hpc2 : 0 ≤ m.cpu.pc ∧ m.cpu.pc + k.mode.size ≤ 65536 := ord.inside
  have hr2 : Spec.InRange { m.cpu with cycle := m.cpu.cycle + k.cycles } :=
    ⟨hr.mem, hr.a, hr.x, hr.y, hr.s, hr.nz, hr.c, hr.vdi⟩
  obtain ⟨r', h1, h2, h3, h4⟩ := execute_un m _ hr2 u k.mode (List.mem_map.mpr ⟨k, hk, rfl⟩) ord
  refine ⟨r', ?_, h2, h3, inRange_of_fits ?_ h4⟩
  · have t := tablesUn u k hk
    have e : instruction m = (fetch >>= fun data => addCycle (opcodeCycles.getD data.toNat 0) >>= fun _ => execute (decode.getD data.toNat .nop))
        (m.put ⟨m.cpu.mem, m.cpu.cycle, m.cpu.pc, m.cpu.a, m.cpu.x, m.cpu.y, m.cpu.s, m.cpu.nz, m.cpu.c, m.cpu.vdi⟩) := rfl
    rw [e, c_bind, c_fetch _ _ _ _ _ _ _ _ _ _ _ (by omega)]
    simp only [hop, c_bind, t.1, t.2, c_addCycle]
    exact h1
  · rw [h2]
    exact (view_fits hr).afterUn u k.mode ord.inside

theorem unofficial_cycles (u : Un) : ∀ k ∈ unofficial u, 2 ≤ k.cycles := by
  cases u <;> decide

theorem extraUn_nonneg (st : State) (u : Un) (mode : Isa.Mode) : 0 ≤ st.extraUn u mode := by
  unfold State.extraUn
  split <;> decide

theorem program_time {p : Bool} {st st' : State} {n : Nat} {t : Int} (h : Spec.Program p st n st' t) : 0 ≤ t := by
  induction h with
  | none => exact Int.le_refl 0
  | @documented st _ _ _ mn k hk _ _ _ ih =>
    have := codes_cycles mn k hk
    have := extra_nonneg st mn k.mode
    omega
  | @undocumented st _ _ _ u k hk _ _ _ ih =>
    have := unofficial_cycles u k hk
    have := extraUn_nonneg st u k.mode
    omega

/-- One instruction before the next event, then the others. -/
theorem instructions_next (limit : Int) (n : Nat) (m : Machine) (r1 : Cpu) (e1 : instruction m = .ok ((), { m with cpu := r1 })) (hl : m.cpu.cycle < limit)
    (he : m.cpu.cycle < m.nextEvent) : Spec.instructions limit (n + 1) m = Spec.instructions limit n { m with cpu := r1 } := by
  have hs : cpuStep m = instruction m := by
    show (C.bind (C.when (m.cpu.cycle ≥ m.nextEvent) (do handleEvent; checkIrq)) fun _ => instruction) m = _
    unfold C.when
    rw [if_neg (by omega)]
    rfl
  show (if m.cpu.cycle < limit then (C.bind cpuStep fun _ => Spec.instructions limit n) else pure ()) m = _
  rw [if_pos (by omega)]
  unfold C.bind
  rw [hs, e1]

/-- A run before the next event. -/
theorem program_ok {p : Bool} {st st' : State} {n : Nat} {t : Int} (h : Spec.Program p st n st' t) (limit : Int) (m : Machine)
    (hr : Spec.InRange m.cpu) (hst : Spec.view m.cpu = st) (hp : Spec.interruptPending m = p) (hl : m.cpu.cycle + t ≤ limit)
    (he : m.cpu.cycle + t ≤ m.nextEvent) :
    ∃ r', Spec.instructions limit n m = .ok ((), { m with cpu := r' }) ∧ Spec.view r' = st' ∧ r'.cycle = m.cpu.cycle + t ∧
      Spec.InRange r' := by
  induction h generalizing m with
  | none st => exact ⟨m.cpu, rfl, hst, by omega, hr⟩
  | @documented st st' n t mn k hk hf ho hrest ih =>
    subst hst
    subst hp
    have h2 := codes_cycles mn k hk
    have h3 := extra_nonneg (Spec.view m.cpu) mn k.mode
    have h4 := program_time hrest
    obtain ⟨r1, e1, v1, c1, i1⟩ := instruction_full m hr mn k hk hf ho
    obtain ⟨r2, e2, v2, c2, i2⟩ := ih { m with cpu := r1 } i1 v1 rfl (by dsimp only; omega) (by dsimp only; omega)
    refine ⟨r2, ?_, v2, by rw [c2]; dsimp only; omega, i2⟩
    rw [instructions_next limit n m r1 e1 (by omega) (by omega)]
    exact e2
  | @undocumented st st' n t u k hk hf ho hrest ih =>
    subst hst
    subst hp
    have h2 := unofficial_cycles u k hk
    have h3 := extraUn_nonneg (Spec.view m.cpu) u k.mode
    have h4 := program_time hrest
    obtain ⟨r1, e1, v1, c1, i1⟩ := instruction_un m hr u k hk hf ho
    obtain ⟨r2, e2, v2, c2, i2⟩ := ih { m with cpu := r1 } i1 v1 rfl (by dsimp only; omega) (by dsimp only; omega)
    refine ⟨r2, ?_, v2, by rw [c2]; dsimp only; omega, i2⟩
    rw [instructions_next limit n m r1 e1 (by omega) (by omega)]
    exact e2

/-! ### Stopping -/

theorem tablesStop : ∀ b ∈ stopping, decode.getD b.toNat .nop = .cim ∧ 0 ≤ opcodeCycles.getD b.toNat 0 := by decide

/-- The instruction that stops: only time passes. -/
theorem instruction_stop (m : Machine) (hpc : 0 ≤ m.cpu.pc ∧ m.cpu.pc < 65536) (hop : m.cpu.mem m.cpu.pc ∈ stopping) :
    instruction m = .ok ((), { m with cpu := { m.cpu with cycle := m.nextEvent } }) := by
  have t := tablesStop _ hop
  have e : instruction m = (fetch >>= fun data => addCycle (opcodeCycles.getD data.toNat 0) >>= fun _ => execute (decode.getD data.toNat .nop))
      (m.put ⟨m.cpu.mem, m.cpu.cycle, m.cpu.pc, m.cpu.a, m.cpu.x, m.cpu.y, m.cpu.s, m.cpu.nz, m.cpu.c, m.cpu.vdi⟩) := rfl
  rw [e, c_bind, c_fetch _ _ _ _ _ _ _ _ _ _ _ (by omega)]
  simp only [c_bind, t.1, c_addCycle, execute, c_addPc]
  show Except.ok ((), m.put ⟨_, _, m.cpu.pc + 1 + -1, _, _, _, _, _, _, _⟩) = _
  rw [show m.cpu.pc + 1 + -1 = m.cpu.pc by omega]
  rfl

end Asap
