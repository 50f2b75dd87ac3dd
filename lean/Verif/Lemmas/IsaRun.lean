import Verif.Lemmas.IsaStep

/-! # Runs of instructions -/

namespace Asap.Isa

/-- The registers and the memory are bytes. -/
structure State.Fits (st : State) : Prop where
  mem : ∀ a, 0 ≤ st.mem a ∧ st.mem a < 256
  a : 0 ≤ st.a ∧ st.a < 256
  x : 0 ≤ st.x ∧ st.x < 256
  y : 0 ≤ st.y ∧ st.y < 256
  s : 0 ≤ st.s ∧ st.s < 256

namespace State
variable {st : State}

theorem Fits.setPc (h : st.Fits) (pc : Int) : Fits { st with pc := pc } := ⟨h.mem, h.a, h.x, h.y, h.s⟩
theorem Fits.nz (h : st.Fits) (v : Int) : (st.nz v).Fits := ⟨h.mem, h.a, h.x, h.y, h.s⟩
theorem Fits.write (h : st.Fits) (p : Int) {v : Int} (hv : 0 ≤ v ∧ v < 256) : (st.write p v).Fits :=
  ⟨fun b => by
    show 0 ≤ (if b = p then v else st.mem b) ∧ (if b = p then v else st.mem b) < 256
    split
    · exact hv
    · exact h.mem b, h.a, h.x, h.y, h.s⟩
theorem Fits.setA (h : st.Fits) {v : Int} (hv : 0 ≤ v ∧ v < 256) : Fits { st with a := v } := ⟨h.mem, hv, h.x, h.y, h.s⟩
theorem Fits.setX (h : st.Fits) {v : Int} (hv : 0 ≤ v ∧ v < 256) : Fits { st with x := v } := ⟨h.mem, h.a, hv, h.y, h.s⟩
theorem Fits.setY (h : st.Fits) {v : Int} (hv : 0 ≤ v ∧ v < 256) : Fits { st with y := v } := ⟨h.mem, h.a, h.x, hv, h.s⟩
theorem Fits.setS (h : st.Fits) {v : Int} (hv : 0 ≤ v ∧ v < 256) : Fits { st with s := v } := ⟨h.mem, h.a, h.x, h.y, hv⟩
theorem Fits.flags (h : st.Fits) {n v d i z c : Bool} : Fits { st with n := n, v := v, d := d, i := i, z := z, c := c } :=
  ⟨h.mem, h.a, h.x, h.y, h.s⟩
theorem Fits.push (h : st.Fits) {v : Int} (hv : 0 ≤ v ∧ v < 256) : (st.push v).Fits :=
  (h.write _ hv).setS (by omega)
theorem Fits.drop (h : st.Fits) (k : Int) : (st.drop k).Fits := h.setS (by omega)
theorem Fits.setStatus (h : st.Fits) (p : Int) : (st.setStatus p).Fits := h.flags
theorem Fits.putBack (h : st.Fits) (mode : Mode) (p : Int) {v : Int} (hv : 0 ≤ v ∧ v < 256) : (st.putBack mode p v).Fits := by
  unfold State.putBack
  split
  · exact h.setA hv
  · exact h.write p hv

theorem bit_range (b : Bool) : 0 ≤ bit b ∧ bit b ≤ 1 := by cases b <;> decide

theorem status_range (st : State) (b : Bool) : 0 ≤ st.status b ∧ st.status b < 256 := by
  unfold status
  have := bit_range st.n; have := bit_range st.v; have := bit_range b; have := bit_range st.d; have := bit_range st.i
  have := bit_range st.z; have := bit_range st.c
  omega

theorem Fits.interrupt (h : st.Fits) (b : Bool) : (st.interrupt b).Fits := by
  unfold State.interrupt
  have := (((h.push (v := st.pc / 256 % 256) (by omega)).push (v := st.pc % 256) (by omega)).push (status_range st b))
  exact ⟨this.mem, this.a, this.x, this.y, this.s⟩

theorem Fits.exec (h : st.Fits) (mn : Mn) (mode : Mode) (ea : Int) {v : Int} (hv : 0 ≤ v ∧ v < 256) (hpc : 1 ≤ st.pc ∧ st.pc ≤ 65536) :
    (st.exec mn mode ea v).Fits := by
  have hb := bit_range st.c
  have ha := h.a
  have hx := h.x
  have hy := h.y
  have hs := h.s
  have hand : 0 ≤ ((st.a.toNat &&& v.toNat : Nat) : Int) ∧ ((st.a.toNat &&& v.toNat : Nat) : Int) < 256 := by
    rw [← band_nat ha.1 hv.1]; have := band_range_left v ha.1; omega
  have hor : 0 ≤ ((st.a.toNat ||| v.toNat : Nat) : Int) ∧ ((st.a.toNat ||| v.toNat : Nat) : Int) < 256 := by
    rw [← bor_nat ha.1 hv.1]; exact bor_range 8 ha.1 ha.2 hv.1 hv.2
  have hxor : 0 ≤ ((st.a.toNat ^^^ v.toNat : Nat) : Int) ∧ ((st.a.toNat ^^^ v.toNat : Nat) : Int) < 256 := by
    rw [← bxor_nat ha.1 hv.1]; exact bxor_range 8 ha.1 ha.2 hv.1 hv.2
  have htop (k : Int) := h.mem (256 + (st.s + k) % 256)
  cases mn with
  | adc =>
    simp only [State.exec]
    split
    · exact ⟨h.mem, (by dsimp only [adcDecimal]; omega), h.x, h.y, h.s⟩
    · exact ⟨h.mem, (by dsimp only [adc]; omega), h.x, h.y, h.s⟩
  | sbc =>
    simp only [State.exec]
    split
    · exact ⟨h.mem, (by dsimp only [sbcDecimal]; omega), h.x, h.y, h.s⟩
    · exact ⟨h.mem, (by dsimp only [sbc]; omega), h.x, h.y, h.s⟩
  | and => exact (h.nz _).setA hand
  | ora => exact (h.nz _).setA hor
  | eor => exact (h.nz _).setA hxor
  | lda => exact (h.nz _).setA hv
  | ldx => exact (h.nz _).setX hv
  | ldy => exact (h.nz _).setY hv
  | txa => exact (h.nz _).setA hx
  | tya => exact (h.nz _).setA hy
  | tax => exact (h.nz _).setX ha
  | tsx => exact (h.nz _).setX hs
  | tay => exact (h.nz _).setY ha
  | txs => exact h.setS hx
  | dex => exact (h.nz _).setX (by omega)
  | inx => exact (h.nz _).setX (by omega)
  | dey => exact (h.nz _).setY (by omega)
  | iny => exact (h.nz _).setY (by omega)
  | asl => exact ((h.putBack mode ea (v := 2 * v % 256) (by omega)).nz _).flags
  | rol => exact ((h.putBack mode ea (v := (2 * v + bit st.c) % 256) (by omega)).nz _).flags
  | lsr => exact ((h.putBack mode ea (v := v / 2) (by omega)).nz _).flags
  | ror => exact ((h.putBack mode ea (v := v / 2 + 128 * bit st.c) (by omega)).nz _).flags
  | dec => exact (h.write ea (v := (v - 1) % 256) (by omega)).nz _
  | inc => exact (h.write ea (v := (v + 1) % 256) (by omega)).nz _
  | sta => exact h.write ea ha
  | stx => exact h.write ea hx
  | sty => exact h.write ea hy
  | pha => exact h.push ha
  | php => exact h.push (status_range st true)
  | pla => exact ((h.drop 1).nz _).setA (htop 1)
  | plp => exact (h.drop 1).setStatus _
  | rti => exact ((h.drop 3).setStatus _).setPc _
  | rts => exact (h.drop 2).setPc _
  | brk => exact (h.setPc (st.pc + 1)).interrupt true
  | jsr =>
    exact ((h.push (v := (st.pc - 1) / 256) (by omega)).push (v := (st.pc - 1) % 256) (by omega)).setPc _
  | jmp => exact h.setPc _
  | cmp => exact (h.nz _).flags
  | cpx => exact (h.nz _).flags
  | cpy => exact (h.nz _).flags
  | _ => exact h.flags

theorem Fits.after (h : st.Fits) (mn : Mn) (mode : Mode) (hpc : 0 ≤ st.pc ∧ st.pc + mode.size ≤ 65536) : (st.after mn mode).Fits := by
  have hsize : 1 ≤ mode.size := by cases mode <;> decide
  unfold State.after
  split
  · exact h.setPc _
  · refine (h.setPc _).exec mn mode _ ?_ ?_
    · split
      · exact h.a
      · exact h.mem _
    · dsimp only; omega

end State
end Asap.Isa

namespace Asap
open C Machine

theorem view_fits {r : Cpu} (h : Spec.InRange r) : (Spec.view r).Fits := ⟨h.mem, h.a, h.x, h.y, h.s⟩

theorem inRange_of_fits {r : Cpu} (h : (Spec.view r).Fits) (t : Tidy r) : Spec.InRange r :=
  ⟨h.mem, h.a, h.x, h.y, h.s, t.1, t.2.1, t.2.2⟩

/-- An ordinary instruction, with the range of the result. -/
theorem instruction_full (m : Machine) (hr : Spec.InRange m.cpu) (mn : Isa.Mn) (k : Isa.Code) (hk : k ∈ Isa.codes mn)
    (hop : m.cpu.mem m.cpu.pc = k.opcode) (ord : Spec.Ordinary (Spec.view m.cpu) mn k.mode (Spec.interruptPending m)) :
    ∃ r', instruction m = .ok ((), { m with cpu := r' }) ∧ Spec.view r' = (Spec.view m.cpu).after mn k.mode ∧
      r'.cycle = m.cpu.cycle + k.cycles + (Spec.view m.cpu).extra mn k.mode ∧ Spec.InRange r' := by
  obtain ⟨r', h1, h2, h3, h4⟩ := instruction_ok m hr mn k hk hop ord
  refine ⟨r', h1, h2, h3, inRange_of_fits ?_ h4⟩
  rw [h2]
  exact (view_fits hr).after mn k.mode ord.inside

theorem status_irq (mem : Int → Int) (cycle pc a x y s nz : Int) (c v d i : Bool) (hnz : 0 ≤ nz ∧ nz < 512) :
    flagByte ⟨mem, cycle, pc, a, x, y, s, nz, flag c, vdiOf v d i⟩ 0x20 =
      Isa.State.status ⟨a, x, y, s, pc, decide (0x80 ≤ nz), v, d, i, decide (nz % 256 = 0), c, mem⟩ false := by
  have h := status_ok mem cycle a x y s nz c v d i hnz pc
  have e : flagByte ⟨mem, cycle, pc, a, x, y, s, nz, flag c, vdiOf v d i⟩ 0x30 =
      16 + flagByte ⟨mem, cycle, pc, a, x, y, s, nz, flag c, vdiOf v d i⟩ 0x20 := by
    unfold flagByte; omega
  rw [e] at h
  have h1 : Isa.State.bit true = 1 := rfl
  have h2 : Isa.State.bit false = 0 := rfl
  unfold Isa.State.status at h ⊢
  omega

/-- A request for an interrupt that is not masked. -/
theorem checkIrq_ok (m : Machine) (hr : Spec.InRange m.cpu) (hp : Spec.interruptPending m = true) (hi : (Spec.view m.cpu).i = false)
    (hpc : 0 ≤ m.cpu.pc ∧ m.cpu.pc < 65536) :
    ∃ r', checkIrq m = .ok ((), { m with cpu := r' }) ∧ Spec.view r' = (Spec.view m.cpu).interrupt false ∧
      r'.cycle = m.cpu.cycle + 7 ∧ Spec.InRange r' := by
  have key : ∃ r', checkIrq m = .ok ((), { m with cpu := r' }) ∧ Spec.view r' = (Spec.view m.cpu).interrupt false ∧
      r'.cycle = m.cpu.cycle + 7 ∧ Tidy r' := by
    obtain ⟨v, d, i, hvdi⟩ := hr.vdi
    have hc := hr.c
    have hmem := hr.mem
    have hs := hr.s
    have hnz := hr.nz
    obtain ⟨r, e⟩ : ∃ r, m.cpu = r := ⟨_, rfl⟩
    have em : m = m.put r := by rw [← e]; rfl
    have ep : m.pk.base.irqst ≠ 0xff := by
      unfold Spec.interruptPending at hp
      exact of_decide_eq_true hp
    rw [e] at hvdi hc hmem hs hnz hi hpc ⊢
    show ∃ r', checkIrq m = .ok ((), m.put r') ∧ _
    rw [em]
    obtain ⟨mem, cycle, pc, a, x, y, s, nz, c, vdi⟩ := r
    dsimp only at hvdi hc hmem hs hnz hpc
    obtain ⟨cf, rfl⟩ : ∃ cf : Bool, c = flag cf := by
      rcases hc with h | h
      · exact ⟨false, h⟩
      · exact ⟨true, h⟩
    have hv2 : vdi = vdiOf v d i := hvdi
    subst hv2
    rw [view_of] at hi
    dsimp only at hi
    subst hi
    have hirq : isIrq (m.put ⟨mem, cycle, pc, a, x, y, s, nz, flag cf, vdiOf v d false⟩) =
        .ok (true, m.put ⟨mem, cycle, pc, a, x, y, s, nz, flag cf, vdiOf v d false⟩) := by
      show Except.ok (decide (m.pk.base.irqst ≠ 0xff), _) = _
      rw [decide_eq_true ep]
    apply Exists.intro
    refine ⟨?_, ?_, ?_, ?_⟩
    · simp only [checkIrq, c_bind, c_reg, hirq, vdi_bandI, and_self, C.when, if_true, c_addCycle, executeIrq, pushPc, pushFlags,
        c_push _ _ _ _ _ _ _ _ _ _ _ _ hs, c_push _ _ _ _ _ _ _ ((s - 1) % 256) _ _ _ _ (by omega),
        c_push _ _ _ _ _ _ _ (((s - 1) % 256 - 1) % 256) _ _ _ _ (by omega), c_setPc, c_setVdi,
        c_load _ _ _ _ _ _ _ _ _ _ _ 0xfffe (by omega), c_load _ _ _ _ _ _ _ _ _ _ _ 0xffff (by omega), vdi_setI,
        band_ff, shr, Int.reducePow, status_irq _ _ _ _ _ _ _ _ _ _ _ _ hnz]
      rfl
    · rw [view_of, view_of, stored_same _ _ (status_range _ _), stored_same _ _ (w := pc % 256) (by omega)]
      have e : stored mem (256 + s) (pc / 256) = fun b => if b = 256 + s then pc / 256 % 256 else mem b := rfl
      rw [e]
      simp only [Isa.State.interrupt, Isa.State.push, Isa.State.write, shl, Int.reducePow, Isa.State.status]
      rw [if_neg (by omega), if_neg (by omega), if_neg (by omega), if_neg (by omega), if_neg (by omega), if_neg (by omega), Int.mul_comm 256]
    · rfl
    · exact tidy_mk _ _ _ _ _ _ _ _ _ _ _ (by omega)
  obtain ⟨r', h1, h2, h3, h4⟩ := key
  refine ⟨r', h1, h2, h3, inRange_of_fits ?_ h4⟩
  rw [h2]
  exact (view_fits hr).interrupt false

theorem codes_cycles (mn : Isa.Mn) : ∀ k ∈ Isa.codes mn, 2 ≤ k.cycles := by
  cases mn <;> decide

theorem extra_nonneg (st : Isa.State) (mn : Isa.Mn) (mode : Isa.Mode) : 0 ≤ st.extra mn mode := by
  unfold Isa.State.extra
  repeat' split
  all_goals decide

theorem manual_time {p : Bool} {st st' : Isa.State} {n : Nat} {t : Int} (h : Spec.Manual p st n st' t) : 0 ≤ t := by
  induction h with
  | none => exact Int.le_refl 0
  | @next st _ _ _ mn k hk _ _ _ ih =>
    have := codes_cycles mn k hk
    have := extra_nonneg st mn k.mode
    omega

/-- A run of ordinary instructions before the next event. -/
theorem instructions_ok {p : Bool} {st st' : Isa.State} {n : Nat} {t : Int} (h : Spec.Manual p st n st' t) (limit : Int) (m : Machine)
    (hr : Spec.InRange m.cpu) (hst : Spec.view m.cpu = st) (hp : Spec.interruptPending m = p) (hl : m.cpu.cycle + t ≤ limit)
    (he : m.cpu.cycle + t ≤ m.nextEvent) :
    ∃ r', Spec.instructions limit n m = .ok ((), { m with cpu := r' }) ∧ Spec.view r' = st' ∧ r'.cycle = m.cpu.cycle + t ∧
      Spec.InRange r' := by
  induction h generalizing m with
  | none st => exact ⟨m.cpu, rfl, hst, by omega, hr⟩
  | @next st st' n t mn k hk hf ho hrest ih =>
    subst hst
    subst hp
    have h2 := codes_cycles mn k hk
    have h3 := extra_nonneg (Spec.view m.cpu) mn k.mode
    have h4 := manual_time hrest
    obtain ⟨r1, e1, v1, c1, i1⟩ := instruction_full m hr mn k hk hf ho
    obtain ⟨r2, e2, v2, c2, i2⟩ := ih { m with cpu := r1 } i1 v1 rfl (by dsimp only; omega) (by dsimp only; omega)
    refine ⟨r2, ?_, v2, by rw [c2]; dsimp only; omega, i2⟩
    have hs : cpuStep m = instruction m := by
      show (C.bind (C.when (m.cpu.cycle ≥ m.nextEvent) (do handleEvent; checkIrq)) fun _ => instruction) m = _
      unfold C.when
      rw [if_neg (by omega)]
      rfl
    show (if m.cpu.cycle < limit then (C.bind cpuStep fun _ => Spec.instructions limit n) else pure ()) m = _
    rw [if_pos (by omega)]
    unfold C.bind
    rw [hs, e1]
    exact e2

/-! ### Decimal arithmetic -/

theorem adc_digits {st : Isa.State} {v : Int} (ha : 0 ≤ st.a) (hv : 0 ≤ v) (hda : Spec.IsDecimal st.a) (hdv : Spec.IsDecimal v) :
    Spec.IsDecimal (st.adcDecimal v).a ∧
      Spec.decimal (st.adcDecimal v).a + 100 * Isa.State.bit (st.adcDecimal v).c = Spec.decimal st.a + Spec.decimal v + Isa.State.bit st.c := by
  unfold Spec.IsDecimal at *
  have hc := Isa.State.bit_range st.c
  unfold Spec.decimal
  dsimp only [Isa.State.adcDecimal]
  generalize Isa.State.bit st.c = c at *
  generalize st.a = a at *
  unfold Isa.State.bit
  simp only [decide_eq_true_eq]
  obtain ⟨ah, eah⟩ : ∃ ah, a / 16 = ah := ⟨_, rfl⟩
  obtain ⟨al, eal⟩ : ∃ al, a % 16 = al := ⟨_, rfl⟩
  obtain ⟨vh, evh⟩ : ∃ vh, v / 16 = vh := ⟨_, rfl⟩
  obtain ⟨vl, evl⟩ : ∃ vl, v % 16 = vl := ⟨_, rfl⟩
  rw [eah, eal] at hda ⊢
  rw [evh, evl] at hdv ⊢
  by_cases h1 : al + vl + c < 10
  · rw [if_pos h1]
    by_cases h2 : ah * 16 + vh * 16 + (al + vl + c) < 160
    · rw [if_pos h2, if_neg (by omega)]
      omega
    · rw [if_neg h2, if_pos (by omega)]
      omega
  · rw [if_neg h1]
    have e : (al + vl + c + 6) % 16 = al + vl + c - 10 := by omega
    rw [e]
    by_cases h2 : ah * 16 + vh * 16 + (al + vl + c - 10 + 16) < 160
    · rw [if_pos h2, if_neg (by omega)]
      omega
    · rw [if_neg h2, if_pos (by omega)]
      omega

theorem sbc_digits {st : Isa.State} {v : Int} (ha : 0 ≤ st.a) (hv : 0 ≤ v) (hda : Spec.IsDecimal st.a) (hdv : Spec.IsDecimal v) :
    Spec.IsDecimal (st.sbcDecimal v).a ∧
      Spec.decimal (st.sbcDecimal v).a - 100 * (1 - Isa.State.bit (st.sbcDecimal v).c) =
        Spec.decimal st.a - Spec.decimal v - (1 - Isa.State.bit st.c) := by
  unfold Spec.IsDecimal at *
  have hc := Isa.State.bit_range st.c
  unfold Spec.decimal
  dsimp only [Isa.State.sbcDecimal, Isa.State.sbc]
  generalize Isa.State.bit st.c = c at *
  generalize st.a = a at *
  unfold Isa.State.bit
  simp only [decide_eq_true_eq]
  obtain ⟨ah, eah⟩ : ∃ ah, a / 16 = ah := ⟨_, rfl⟩
  obtain ⟨al, eal⟩ : ∃ al, a % 16 = al := ⟨_, rfl⟩
  obtain ⟨vh, evh⟩ : ∃ vh, v / 16 = vh := ⟨_, rfl⟩
  obtain ⟨vl, evl⟩ : ∃ vl, v % 16 = vl := ⟨_, rfl⟩
  have hac : a = 16 * ah + al := by omega
  have hvc : v = 16 * vh + vl := by omega
  rw [eah, eal] at hda ⊢
  rw [evh, evl] at hdv ⊢
  by_cases h1 : al - vl - (1 - c) < 0
  · rw [if_pos h1]
    have e : (al - vl - (1 - c) - 6) % 16 = al - vl - (1 - c) + 10 := by omega
    rw [e]
    by_cases h2 : ah * 16 - vh * 16 + (al - vl - (1 - c) + 10 - 16) < 0
    · rw [if_pos h2, if_neg (by omega)]
      omega
    · rw [if_neg h2, if_pos (by omega)]
      omega
  · rw [if_neg h1]
    by_cases h2 : ah * 16 - vh * 16 + (al - vl - (1 - c)) < 0
    · rw [if_pos h2, if_neg (by omega)]
      omega
    · rw [if_neg h2, if_pos (by omega)]
      omega

end Asap
