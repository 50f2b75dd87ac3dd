import Verif.Lemmas.IsaRun
import Verif.Props.Player

/-! # C19, C21, C41, C42: the emulated processor is a 6502 -/

namespace Asap.Props
open Asap Asap.Spec Asap.Machine

/-! ### C42: every documented instruction -/

/-- C42.  Every documented instruction in every addressing mode, executed from every state, changes the registers, the flags and
the memory as the programming manual says, and takes the documented time.  Nothing else of the player changes.  (The cases with
hardware registers, wrap around the end of memory and waiting interrupts are excluded by `Ordinary`.) -/
theorem C42_instructions (m : Machine) (hr : InRange m.cpu) (mn : Isa.Mn) (k : Isa.Code) (hk : k ∈ Isa.codes mn)
    (hop : m.cpu.mem m.cpu.pc = k.opcode) (ord : Ordinary (view m.cpu) mn k.mode (interruptPending m)) :
    ∃ r', instruction m = .ok ((), { m with cpu := r' }) ∧ view r' = (view m.cpu).after mn k.mode ∧
      r'.cycle = m.cpu.cycle + k.cycles + (view m.cpu).extra mn k.mode ∧ InRange r' :=
  instruction_full m hr mn k hk hop ord

/-- C42.  The same for programs: as long as no hardware event is due, the main loop of the emulator goes through the states of
the manual, and the clock shows the sum of the documented durations. -/
theorem C42_programs (m : Machine) (hr : InRange m.cpu) (n : Nat) (st : Isa.State) (t limit : Int)
    (h : Manual (interruptPending m) (view m.cpu) n st t) (hl : m.cpu.cycle + t ≤ limit) (he : m.cpu.cycle + t ≤ m.nextEvent) :
    ∃ r', Spec.instructions limit n m = .ok ((), { m with cpu := r' }) ∧ view r' = st ∧ r'.cycle = m.cpu.cycle + t ∧ InRange r' :=
  instructions_ok h limit m hr rfl rfl hl he

/-- C42.  A request for an interrupt is served when interrupts are enabled: the return address and the status are pushed with B
clear, further interrupts are disabled, and execution goes on at the address in FFFE. -/
theorem C42_irq (m : Machine) (hr : InRange m.cpu) (hp : interruptPending m = true) (hi : (view m.cpu).i = false)
    (hpc : 0 ≤ m.cpu.pc ∧ m.cpu.pc < 0x10000) :
    ∃ r', checkIrq m = .ok ((), { m with cpu := r' }) ∧ view r' = (view m.cpu).interrupt false ∧
      r'.cycle = m.cpu.cycle + 7 ∧ InRange r' :=
  checkIrq_ok m hr hp hi hpc

/-! ### C19: arithmetic -/

/-- The operand of an instruction. -/
def operand (m : Machine) (mode : Isa.Mode) : Int := m.cpu.mem ((view m.cpu).effective mode)

theorem adc_state (m : Machine) (mn : Isa.Mn) (mode : Isa.Mode) (h1 : mode ≠ .rel) (h2 : mode ≠ .acc) :
    (view m.cpu).after mn mode = { view m.cpu with pc := m.cpu.pc + mode.size }.exec mn mode ((view m.cpu).effective mode) (operand m mode) := by
  unfold Isa.State.after
  rw [if_neg h1, if_neg h2]
  rfl

theorem arithmetic_modes : ∀ k ∈ Isa.codes .adc ++ Isa.codes .sbc, k.mode ≠ .rel ∧ k.mode ≠ .acc := by decide

/-- C19.  `ADC` in binary mode, for every accumulator, operand, carry and addressing mode. -/
theorem C19_adc (m : Machine) (hr : InRange m.cpu) (k : Isa.Code) (hk : k ∈ Isa.codes .adc) (hop : m.cpu.mem m.cpu.pc = k.opcode)
    (ord : Ordinary (view m.cpu) .adc k.mode (interruptPending m)) (hd : (view m.cpu).d = false) :
    ∃ r', instruction m = .ok ((), { m with cpu := r' }) ∧
      r'.a = (m.cpu.a + operand m k.mode + m.cpu.c) % 256 ∧
      ((view r').c = true ↔ 256 ≤ m.cpu.a + operand m k.mode + m.cpu.c) ∧
      ((view r').v = true ↔ ¬ (-128 ≤ Isa.State.signed m.cpu.a + Isa.State.signed (operand m k.mode) + m.cpu.c ∧
        Isa.State.signed m.cpu.a + Isa.State.signed (operand m k.mode) + m.cpu.c ≤ 127)) ∧
      ((view r').n = true ↔ 128 ≤ r'.a) ∧ ((view r').z = true ↔ r'.a = 0) := by
  obtain ⟨r', h1, h2, _, _⟩ := instruction_full m hr .adc k hk hop ord
  have hm := arithmetic_modes k (List.mem_append_left _ hk)
  rw [adc_state m _ _ hm.1 hm.2] at h2
  simp only [Isa.State.exec, hd, Bool.false_eq_true, if_false] at h2
  have hc : Isa.State.bit (view m.cpu).c = m.cpu.c := by
    rcases hr.c with h | h <;> simp [Isa.State.bit, view, h]
  have ha : r'.a = (m.cpu.a + operand m k.mode + m.cpu.c) % 256 := by rw [← hc]; exact congrArg (·.a) h2
  refine ⟨r', h1, ha, ?_, ?_, ?_, ?_⟩
  · have : (view r').c = decide (256 ≤ m.cpu.a + operand m k.mode + Isa.State.bit (view m.cpu).c) := congrArg (·.c) h2
    rw [this, hc]; exact decide_eq_true_iff
  · have : (view r').v = decide (Isa.State.signed m.cpu.a + Isa.State.signed (operand m k.mode) + Isa.State.bit (view m.cpu).c < -128 ∨
      127 < Isa.State.signed m.cpu.a + Isa.State.signed (operand m k.mode) + Isa.State.bit (view m.cpu).c) := congrArg (·.v) h2
    rw [this, hc, decide_eq_true_iff]; omega
  · have : (view r').n = decide (128 ≤ (m.cpu.a + operand m k.mode + Isa.State.bit (view m.cpu).c) % 256) := congrArg (·.n) h2
    rw [this, hc, ← ha]; exact decide_eq_true_iff
  · have : (view r').z = decide ((m.cpu.a + operand m k.mode + Isa.State.bit (view m.cpu).c) % 256 = 0) := congrArg (·.z) h2
    rw [this, hc, ← ha]; exact decide_eq_true_iff

/-- C19.  `SBC` in binary mode: the carry is the opposite of a borrow. -/
theorem C19_sbc (m : Machine) (hr : InRange m.cpu) (k : Isa.Code) (hk : k ∈ Isa.codes .sbc) (hop : m.cpu.mem m.cpu.pc = k.opcode)
    (ord : Ordinary (view m.cpu) .sbc k.mode (interruptPending m)) (hd : (view m.cpu).d = false) :
    ∃ r', instruction m = .ok ((), { m with cpu := r' }) ∧
      r'.a = (m.cpu.a - operand m k.mode - (1 - m.cpu.c)) % 256 ∧
      ((view r').c = true ↔ 0 ≤ m.cpu.a - operand m k.mode - (1 - m.cpu.c)) ∧
      ((view r').v = true ↔ ¬ (-128 ≤ Isa.State.signed m.cpu.a - Isa.State.signed (operand m k.mode) - (1 - m.cpu.c) ∧
        Isa.State.signed m.cpu.a - Isa.State.signed (operand m k.mode) - (1 - m.cpu.c) ≤ 127)) ∧
      ((view r').n = true ↔ 128 ≤ r'.a) ∧ ((view r').z = true ↔ r'.a = 0) := by
  obtain ⟨r', h1, h2, _, _⟩ := instruction_full m hr .sbc k hk hop ord
  have hm := arithmetic_modes k (List.mem_append_right _ hk)
  rw [adc_state m _ _ hm.1 hm.2] at h2
  simp only [Isa.State.exec, hd, Bool.false_eq_true, if_false] at h2
  have hc : Isa.State.bit (view m.cpu).c = m.cpu.c := by
    rcases hr.c with h | h <;> simp [Isa.State.bit, view, h]
  have ha : r'.a = (m.cpu.a - operand m k.mode - (1 - m.cpu.c)) % 256 := by rw [← hc]; exact congrArg (·.a) h2
  refine ⟨r', h1, ha, ?_, ?_, ?_, ?_⟩
  · have : (view r').c = decide (0 ≤ m.cpu.a - operand m k.mode - (1 - Isa.State.bit (view m.cpu).c)) := congrArg (·.c) h2
    rw [this, hc]; exact decide_eq_true_iff
  · have : (view r').v = decide (Isa.State.signed m.cpu.a - Isa.State.signed (operand m k.mode) - (1 - Isa.State.bit (view m.cpu).c) < -128 ∨
      127 < Isa.State.signed m.cpu.a - Isa.State.signed (operand m k.mode) - (1 - Isa.State.bit (view m.cpu).c)) := congrArg (·.v) h2
    rw [this, hc, decide_eq_true_iff]; omega
  · have : (view r').n = decide (128 ≤ (m.cpu.a - operand m k.mode - (1 - Isa.State.bit (view m.cpu).c)) % 256) := congrArg (·.n) h2
    rw [this, hc, ← ha]; exact decide_eq_true_iff
  · have : (view r').z = decide ((m.cpu.a - operand m k.mode - (1 - Isa.State.bit (view m.cpu).c)) % 256 = 0) := congrArg (·.z) h2
    rw [this, hc, ← ha]; exact decide_eq_true_iff

/-- C19.  `ADC` in decimal mode adds decimal numbers: the digits of the result are decimal, and with the carry as the hundreds
the result is the sum. -/
theorem C19_adc_decimal (m : Machine) (hr : InRange m.cpu) (k : Isa.Code) (hk : k ∈ Isa.codes .adc) (hop : m.cpu.mem m.cpu.pc = k.opcode)
    (ord : Ordinary (view m.cpu) .adc k.mode (interruptPending m)) (hd : (view m.cpu).d = true)
    (ha : IsDecimal m.cpu.a) (hv : IsDecimal (operand m k.mode)) :
    ∃ r', instruction m = .ok ((), { m with cpu := r' }) ∧ IsDecimal r'.a ∧
      decimal r'.a + 100 * r'.c = decimal m.cpu.a + decimal (operand m k.mode) + m.cpu.c := by
  obtain ⟨r', h1, h2, _, h4⟩ := instruction_full m hr .adc k hk hop ord
  have hm := arithmetic_modes k (List.mem_append_left _ hk)
  rw [adc_state m _ _ hm.1 hm.2] at h2
  simp only [Isa.State.exec, hd, if_true] at h2
  have hc : Isa.State.bit (view m.cpu).c = m.cpu.c := by
    rcases hr.c with h | h <;> simp [Isa.State.bit, view, h]
  have hc' : Isa.State.bit (view r').c = r'.c := by
    rcases h4.c with h | h <;> simp [Isa.State.bit, view, h]
  have key := adc_digits (st := { view m.cpu with pc := m.cpu.pc + k.mode.size, d := true }) hr.a.1 (hr.mem _).1 ha hv
  have ea : r'.a = (({ view m.cpu with pc := m.cpu.pc + k.mode.size, d := true } : Isa.State).adcDecimal (operand m k.mode)).a := congrArg (·.a) h2
  refine ⟨r', h1, by rw [ea]; exact key.1, ?_⟩
  rw [← hc', ← hc, ea, congrArg (·.c) h2]
  exact key.2

/-- C19.  `SBC` in decimal mode subtracts decimal numbers: without a borrow the result is the difference, with a borrow (carry
clear) it is the difference plus a hundred. -/
theorem C19_sbc_decimal (m : Machine) (hr : InRange m.cpu) (k : Isa.Code) (hk : k ∈ Isa.codes .sbc) (hop : m.cpu.mem m.cpu.pc = k.opcode)
    (ord : Ordinary (view m.cpu) .sbc k.mode (interruptPending m)) (hd : (view m.cpu).d = true)
    (ha : IsDecimal m.cpu.a) (hv : IsDecimal (operand m k.mode)) :
    ∃ r', instruction m = .ok ((), { m with cpu := r' }) ∧ IsDecimal r'.a ∧
      decimal r'.a - 100 * (1 - r'.c) = decimal m.cpu.a - decimal (operand m k.mode) - (1 - m.cpu.c) := by
  obtain ⟨r', h1, h2, _, h4⟩ := instruction_full m hr .sbc k hk hop ord
  have hm := arithmetic_modes k (List.mem_append_right _ hk)
  rw [adc_state m _ _ hm.1 hm.2] at h2
  simp only [Isa.State.exec, hd, if_true] at h2
  have hc : Isa.State.bit (view m.cpu).c = m.cpu.c := by
    rcases hr.c with h | h <;> simp [Isa.State.bit, view, h]
  have hc' : Isa.State.bit (view r').c = r'.c := by
    rcases h4.c with h | h <;> simp [Isa.State.bit, view, h]
  have key := sbc_digits (st := { view m.cpu with pc := m.cpu.pc + k.mode.size, d := true }) hr.a.1 (hr.mem _).1 ha hv
  have ea : r'.a = (({ view m.cpu with pc := m.cpu.pc + k.mode.size, d := true } : Isa.State).sbcDecimal (operand m k.mode)).a := congrArg (·.a) h2
  refine ⟨r', h1, by rw [ea]; exact key.1, ?_⟩
  rw [← hc', ← hc, ea, congrArg (·.c) h2]
  exact key.2

/-! ### C21: the stack -/

/-- C21.  `PLA` executed later, at any place, with the stack pointer `PHA` left and the byte it pushed still there, returns the
accumulator and the stack pointer, for every stack pointer. -/
theorem C21_pha_pla (m : Machine) (hr : InRange m.cpu) (hpc : 0 ≤ m.cpu.pc ∧ m.cpu.pc < 0x10000) (hop : m.cpu.mem m.cpu.pc = 0x48) :
    ∃ r, instruction m = .ok ((), { m with cpu := r }) ∧ InRange r ∧ r.pc = m.cpu.pc + 1 ∧ r.a = m.cpu.a ∧
      (∀ p, p ≠ 0x100 + m.cpu.s → r.mem p = m.cpu.mem p) ∧
      ∀ m2 : Machine, InRange m2.cpu → 0 ≤ m2.cpu.pc ∧ m2.cpu.pc < 0x10000 → m2.cpu.mem m2.cpu.pc = 0x68 →
        m2.cpu.s = r.s → m2.cpu.mem (0x100 + m.cpu.s) = r.mem (0x100 + m.cpu.s) →
        ∃ r2, instruction m2 = .ok ((), { m2 with cpu := r2 }) ∧ r2.a = m.cpu.a ∧ r2.s = m.cpu.s ∧ r2.pc = m2.cpu.pc + 1 ∧
          r2.mem = m2.cpu.mem ∧ ((view r2).n = true ↔ 128 ≤ m.cpu.a) ∧ ((view r2).z = true ↔ m.cpu.a = 0) := by
  have hs := hr.s
  obtain ⟨r, h1, h2, _, h4⟩ := instruction_full m hr .pha ⟨0x48, .imp, 3⟩ (by decide) hop
    ⟨⟨hpc.1, by show m.cpu.pc + 1 ≤ _; omega⟩, fun h => absurd rfl h.1, fun h => (by cases h), fun h => (by cases h), fun h => (by cases h),
      fun h => (by rcases h with h | h | h <;> cases h)⟩
  have e : view r = ({ view m.cpu with pc := m.cpu.pc + 1 } : Isa.State).push m.cpu.a := h2
  have emem : r.mem = fun b => if b = 256 + m.cpu.s then m.cpu.a else m.cpu.mem b := congrArg (·.mem) e
  have es : r.s = (m.cpu.s - 1) % 256 := congrArg (·.s) e
  refine ⟨r, h1, h4, congrArg (·.pc) e, congrArg (·.a) e, fun p hp => by rw [emem]; exact if_neg hp, ?_⟩
  intro m2 hr2 hpc2 hop2 hs2 hm2
  obtain ⟨r2, k1, k2, _, _⟩ := instruction_full m2 hr2 .pla ⟨0x68, .imp, 4⟩ (by decide) hop2
    ⟨⟨hpc2.1, by show m2.cpu.pc + 1 ≤ _; omega⟩, fun h => absurd rfl h.1, fun h => (by cases h), fun h => (by cases h), fun h => (by cases h),
      fun h => (by rcases h with h | h | h <;> cases h)⟩
  have etop : m2.cpu.mem (256 + (m2.cpu.s + 1) % 256) = m.cpu.a := by
    have : (m2.cpu.s + 1) % 256 = m.cpu.s := by rw [hs2, es]; omega
    rw [this, hm2, emem]
    exact if_pos rfl
  have ea : r2.a = m.cpu.a := (congrArg (·.a) k2).trans etop
  refine ⟨r2, k1, ea, ?_, congrArg (·.pc) k2, congrArg (·.mem) k2, ?_, ?_⟩
  · have : r2.s = (m2.cpu.s + 1) % 256 := congrArg (·.s) k2
    rw [this, hs2, es]; omega
  · have : (view r2).n = decide (128 ≤ m2.cpu.mem (256 + (m2.cpu.s + 1) % 256)) := congrArg (·.n) k2
    rw [this, etop, decide_eq_true_iff]
  · have : (view r2).z = decide (m2.cpu.mem (256 + (m2.cpu.s + 1) % 256) = 0) := congrArg (·.z) k2
    rw [this, etop, decide_eq_true_iff]

/-- The six flags. -/
def flags (r : Cpu) : Bool × Bool × Bool × Bool × Bool × Bool :=
  ((view r).n, (view r).v, (view r).d, (view r).i, (view r).z, (view r).c)

theorem bit_cases (b : Bool) : Isa.State.bit b = 0 ∨ Isa.State.bit b = 1 := by cases b <;> decide

/-- The status register survives the stack. -/
theorem status_back (st st2 : Isa.State) (b : Bool) :
    let st' := st2.setStatus (st.status b)
    st'.n = st.n ∧ st'.v = st.v ∧ st'.d = st.d ∧ st'.i = st.i ∧ st'.z = st.z ∧ st'.c = st.c := by
  obtain ⟨_, _, _, _, _, n, v, d, i, z, c, _⟩ := st
  dsimp only [Isa.State.setStatus, Isa.State.status]
  cases n <;> cases v <;> cases d <;> cases i <;> cases z <;> cases c <;> cases b <;> decide

/-- C21.  `PLP` restores all flags pushed by `PHP`. -/
theorem C21_php_plp (m : Machine) (hr : InRange m.cpu) (hpc : 0 ≤ m.cpu.pc ∧ m.cpu.pc < 0x10000) (hop : m.cpu.mem m.cpu.pc = 0x08) :
    ∃ r, instruction m = .ok ((), { m with cpu := r }) ∧ InRange r ∧ r.pc = m.cpu.pc + 1 ∧
      (∀ p, p ≠ 0x100 + m.cpu.s → r.mem p = m.cpu.mem p) ∧
      ∀ m2 : Machine, InRange m2.cpu → 0 ≤ m2.cpu.pc ∧ m2.cpu.pc < 0x10000 → m2.cpu.mem m2.cpu.pc = 0x28 →
        interruptPending m2 = false → m2.cpu.s = r.s → m2.cpu.mem (0x100 + m.cpu.s) = r.mem (0x100 + m.cpu.s) →
        ∃ r2, instruction m2 = .ok ((), { m2 with cpu := r2 }) ∧ flags r2 = flags m.cpu ∧ r2.s = m.cpu.s ∧ r2.pc = m2.cpu.pc + 1 ∧
          r2.mem = m2.cpu.mem ∧ r2.a = m2.cpu.a := by
  have hs := hr.s
  obtain ⟨r, h1, h2, _, h4⟩ := instruction_full m hr .php ⟨0x08, .imp, 3⟩ (by decide) hop
    ⟨⟨hpc.1, by show m.cpu.pc + 1 ≤ _; omega⟩, fun h => absurd rfl h.1, fun h => (by cases h), fun h => (by cases h), fun h => (by cases h),
      fun h => (by rcases h with h | h | h <;> cases h)⟩
  have e : view r = ({ view m.cpu with pc := m.cpu.pc + 1 } : Isa.State).push ((view m.cpu).status true) := h2
  have emem : r.mem = fun b => if b = 256 + m.cpu.s then (view m.cpu).status true else m.cpu.mem b := congrArg (·.mem) e
  have es : r.s = (m.cpu.s - 1) % 256 := congrArg (·.s) e
  refine ⟨r, h1, h4, congrArg (·.pc) e, fun p hp => by rw [emem]; exact if_neg hp, ?_⟩
  intro m2 hr2 hpc2 hop2 hq hs2 hm2
  obtain ⟨r2, k1, k2, _, _⟩ := instruction_full m2 hr2 .plp ⟨0x28, .imp, 4⟩ (by decide) hop2
    ⟨⟨hpc2.1, by show m2.cpu.pc + 1 ≤ _; omega⟩, fun h => absurd rfl h.1, fun h => (by cases h), fun h => (by cases h), fun h => (by cases h),
      fun _ => hq⟩
  have etop : m2.cpu.mem (256 + (m2.cpu.s + 1) % 256) = (view m.cpu).status true := by
    have : (m2.cpu.s + 1) % 256 = m.cpu.s := by rw [hs2, es]; omega
    rw [this, hm2, emem]
    exact if_pos rfl
  have e2 : view r2 = (({ view m2.cpu with pc := m2.cpu.pc + 1 } : Isa.State).drop 1).setStatus (m2.cpu.mem (256 + (m2.cpu.s + 1) % 256)) := k2
  rw [etop] at e2
  have key := status_back (view m.cpu) (({ view m2.cpu with pc := m2.cpu.pc + 1 } : Isa.State).drop 1) true
  rw [← e2] at key
  refine ⟨r2, k1, ?_, ?_, congrArg (·.pc) e2, congrArg (·.mem) e2, congrArg (·.a) e2⟩
  · obtain ⟨f1, f2, f3, f4, f5, f6⟩ := key
    unfold flags
    rw [f1, f2, f3, f4, f5, f6]
  · have : r2.s = (m2.cpu.s + 1) % 256 := congrArg (·.s) e2
    rw [this, hs2, es]; omega

/-- C21.  `RTS` goes on after the `JSR` that pushed its address. -/
theorem C21_jsr_rts (m : Machine) (hr : InRange m.cpu) (hpc : 0 ≤ m.cpu.pc ∧ m.cpu.pc + 3 < 0x10000) (hop : m.cpu.mem m.cpu.pc = 0x20) :
    ∃ r, instruction m = .ok ((), { m with cpu := r }) ∧ InRange r ∧
      (∀ p, p ≠ 0x100 + m.cpu.s → p ≠ 0x100 + (m.cpu.s - 1) % 256 → r.mem p = m.cpu.mem p) ∧
      r.pc = m.cpu.mem (m.cpu.pc + 1) + 256 * r.mem (m.cpu.pc + 2) ∧
      ∀ m2 : Machine, InRange m2.cpu → 0 ≤ m2.cpu.pc ∧ m2.cpu.pc < 0x10000 → m2.cpu.mem m2.cpu.pc = 0x60 →
        m2.cpu.s = r.s → m2.cpu.mem (0x100 + m.cpu.s) = r.mem (0x100 + m.cpu.s) →
        m2.cpu.mem (0x100 + (m.cpu.s - 1) % 256) = r.mem (0x100 + (m.cpu.s - 1) % 256) →
        ∃ r2, instruction m2 = .ok ((), { m2 with cpu := r2 }) ∧ r2.pc = m.cpu.pc + 3 ∧ r2.s = m.cpu.s ∧
          r2.mem = m2.cpu.mem ∧ flags r2 = flags m2.cpu ∧ r2.a = m2.cpu.a := by
  have hs := hr.s
  have hw1 := hr.mem (m.cpu.pc + 1)
  have hw2 := hr.mem (m.cpu.pc + 2)
  obtain ⟨r, h1, h2, _, h4⟩ := instruction_full m hr .jsr ⟨0x20, .abs, 6⟩ (by decide) hop
    ⟨⟨hpc.1, by show m.cpu.pc + 3 ≤ _; omega⟩, fun h => absurd rfl h.2.2.2.2, fun h => (by cases h), fun h => (by cases h), fun h => (by cases h),
      fun h => (by rcases h with h | h | h <;> cases h)⟩
  have e : view r = ({ view m.cpu with pc := m.cpu.pc + 3 } : Isa.State).jsr (view m.cpu).word := h2
  have emem : r.mem = fun b => if b = 256 + (m.cpu.s - 1) % 256 then (m.cpu.pc + 3 - 1) % 256 else
      if b = 256 + m.cpu.s then (m.cpu.pc + 3 - 1) / 256 else m.cpu.mem b := congrArg (·.mem) e
  have es : r.s = ((m.cpu.s - 1) % 256 - 1) % 256 := congrArg (·.s) e
  have epc : r.pc = (view m.cpu).word % 256 + 256 * r.mem (m.cpu.pc + 3 - 1) := by
    rw [emem]
    exact congrArg (·.pc) e
  refine ⟨r, h1, h4, fun p hp hp2 => by rw [emem]; dsimp only; rw [if_neg hp2, if_neg hp], ?_, ?_⟩
  · rw [epc, show m.cpu.pc + 3 - 1 = m.cpu.pc + 2 by omega]
    have : (view m.cpu).word % 256 = m.cpu.mem (m.cpu.pc + 1) := by
      show (m.cpu.mem (m.cpu.pc + 1) + 256 * m.cpu.mem (m.cpu.pc + 2)) % 256 = _
      omega
    rw [this]
  intro m2 hr2 hpc2 hop2 hs2 hm2 hm3
  have et1 : m2.cpu.mem (256 + (m2.cpu.s + 1) % 256) = (m.cpu.pc + 3 - 1) % 256 := by
    have : (m2.cpu.s + 1) % 256 = (m.cpu.s - 1) % 256 := by rw [hs2, es]; omega
    rw [this, hm3, emem]
    exact if_pos rfl
  have et2 : m2.cpu.mem (256 + (m2.cpu.s + 2) % 256) = (m.cpu.pc + 3 - 1) / 256 := by
    have : (m2.cpu.s + 2) % 256 = m.cpu.s := by rw [hs2, es]; omega
    rw [this, hm2, emem]
    dsimp only
    rw [if_neg (by omega), if_pos rfl]
  obtain ⟨r2, k1, k2, _, _⟩ := instruction_full m2 hr2 .rts ⟨0x60, .imp, 6⟩ (by decide) hop2
    ⟨⟨hpc2.1, by show m2.cpu.pc + 1 ≤ _; omega⟩, fun h => absurd rfl h.1, fun h => (by cases h), fun _ => (by
      show m2.cpu.mem (256 + (m2.cpu.s + 1) % 256) + 256 * m2.cpu.mem (256 + (m2.cpu.s + 2) % 256) ≠ 0xffff
      rw [et1, et2]; omega), fun h => (by cases h),
      fun h => (by rcases h with h | h | h <;> cases h)⟩
  refine ⟨r2, k1, ?_, ?_, congrArg (·.mem) k2, ?_, congrArg (·.a) k2⟩
  · have : r2.pc = (m2.cpu.mem (256 + (m2.cpu.s + 1) % 256) + 256 * m2.cpu.mem (256 + (m2.cpu.s + 2) % 256) + 1) % 65536 := congrArg (·.pc) k2
    rw [this, et1, et2]; omega
  · have : r2.s = (m2.cpu.s + 2) % 256 := congrArg (·.s) k2
    rw [this, hs2, es]; omega
  · unfold flags
    rw [show (view r2).n = (view m2.cpu).n from congrArg (·.n) k2, show (view r2).v = (view m2.cpu).v from congrArg (·.v) k2,
      show (view r2).d = (view m2.cpu).d from congrArg (·.d) k2, show (view r2).i = (view m2.cpu).i from congrArg (·.i) k2,
      show (view r2).z = (view m2.cpu).z from congrArg (·.z) k2, show (view r2).c = (view m2.cpu).c from congrArg (·.c) k2]

/-- `RTI` after an interrupt. -/
theorem rti_after (r0 r : Cpu) (st : Isa.State) (b : Bool) (hr0 : InRange r0) (hst : st.s = r0.s) (hpc0 : 0 ≤ st.pc ∧ st.pc < 0x10000)
    (hfl : st.status b = (view r0).status b)
    (e : view r = st.interrupt b) (m2 : Machine) (hr2 : InRange m2.cpu) (hpc2 : 0 ≤ m2.cpu.pc ∧ m2.cpu.pc < 0x10000)
    (hop2 : m2.cpu.mem m2.cpu.pc = 0x40) (hq : interruptPending m2 = false) (hs2 : m2.cpu.s = r.s)
    (hm : ∀ k, 0 ≤ k ∧ k < 3 → m2.cpu.mem (0x100 + (r0.s - k) % 256) = r.mem (0x100 + (r0.s - k) % 256)) :
    ∃ r2, instruction m2 = .ok ((), { m2 with cpu := r2 }) ∧ flags r2 = flags r0 ∧ r2.s = r0.s ∧ r2.pc = st.pc ∧
      r2.mem = m2.cpu.mem ∧ r2.a = m2.cpu.a := by
  have hs := hr0.s
  have emem : r.mem = fun p => if p = 256 + ((st.s - 1) % 256 - 1) % 256 then st.status b else
      if p = 256 + (st.s - 1) % 256 then st.pc % 256 else if p = 256 + st.s then st.pc / 256 % 256 else st.mem p := congrArg (·.mem) e
  have es : r.s = (((st.s - 1) % 256 - 1) % 256 - 1) % 256 := congrArg (·.s) e
  rw [hst] at emem es
  have et1 : m2.cpu.mem (256 + (m2.cpu.s + 1) % 256) = st.status b := by
    rw [show (m2.cpu.s + 1) % 256 = (r0.s - 2) % 256 by rw [hs2, es]; omega, hm 2 (by omega), emem]
    dsimp only
    rw [if_pos (by omega)]
  have et2 : m2.cpu.mem (256 + (m2.cpu.s + 2) % 256) = st.pc % 256 := by
    rw [show (m2.cpu.s + 2) % 256 = (r0.s - 1) % 256 by rw [hs2, es]; omega, hm 1 (by omega), emem]
    dsimp only
    rw [if_neg (by omega), if_pos (by omega)]
  have et3 : m2.cpu.mem (256 + (m2.cpu.s + 3) % 256) = st.pc / 256 % 256 := by
    rw [show (m2.cpu.s + 3) % 256 = (r0.s - 0) % 256 by rw [hs2, es]; omega, hm 0 (by omega), emem]
    dsimp only
    rw [if_neg (by omega), if_neg (by omega), if_pos (by omega)]
  obtain ⟨r2, k1, k2, _, _⟩ := instruction_full m2 hr2 .rti ⟨0x40, .imp, 6⟩ (by decide) hop2
    ⟨⟨hpc2.1, by show m2.cpu.pc + 1 ≤ _; omega⟩, fun h => absurd rfl h.1, fun h => (by cases h), fun h => (by cases h), fun h => (by cases h),
      fun _ => hq⟩
  have e2 : view r2 = { (({ view m2.cpu with pc := m2.cpu.pc + 1 } : Isa.State).drop 3).setStatus (m2.cpu.mem (256 + (m2.cpu.s + 1) % 256)) with
    pc := m2.cpu.mem (256 + (m2.cpu.s + 2) % 256) + 256 * m2.cpu.mem (256 + (m2.cpu.s + 3) % 256) } := k2
  rw [et1, et2, et3, hfl] at e2
  have key := status_back (view r0) (({ view m2.cpu with pc := m2.cpu.pc + 1 } : Isa.State).drop 3) b
  refine ⟨r2, k1, ?_, ?_, ?_, congrArg (·.mem) e2, congrArg (·.a) e2⟩
  · obtain ⟨f1, f2, f3, f4, f5, f6⟩ := key
    unfold flags
    rw [e2]
    dsimp only
    rw [f1, f2, f3, f4, f5, f6]
  · have : r2.s = (m2.cpu.s + 3) % 256 := congrArg (·.s) e2
    rw [this, hs2, es]; omega
  · have : r2.pc = st.pc % 256 + 256 * (st.pc / 256 % 256) := congrArg (·.pc) e2
    rw [this]; omega

/-- C21.  `RTI` after `BRK` restores the flags and goes on at the second byte after the `BRK`. -/
theorem C21_brk_rti (m : Machine) (hr : InRange m.cpu) (hpc : 0 ≤ m.cpu.pc ∧ m.cpu.pc + 2 < 0x10000) (hop : m.cpu.mem m.cpu.pc = 0) :
    ∃ r, instruction m = .ok ((), { m with cpu := r }) ∧ InRange r ∧ (view r).i = true ∧
      r.pc = m.cpu.mem 0xfffe + 256 * m.cpu.mem 0xffff ∧
      ∀ m2 : Machine, InRange m2.cpu → 0 ≤ m2.cpu.pc ∧ m2.cpu.pc < 0x10000 → m2.cpu.mem m2.cpu.pc = 0x40 →
        interruptPending m2 = false → m2.cpu.s = r.s →
        (∀ k, 0 ≤ k ∧ k < 3 → m2.cpu.mem (0x100 + (m.cpu.s - k) % 256) = r.mem (0x100 + (m.cpu.s - k) % 256)) →
        ∃ r2, instruction m2 = .ok ((), { m2 with cpu := r2 }) ∧ flags r2 = flags m.cpu ∧ r2.s = m.cpu.s ∧ r2.pc = m.cpu.pc + 2 ∧
          r2.mem = m2.cpu.mem ∧ r2.a = m2.cpu.a := by
  obtain ⟨r, h1, h2, _, h4⟩ := instruction_full m hr .brk ⟨0x00, .imp, 7⟩ (by decide) hop
    ⟨⟨hpc.1, by show m.cpu.pc + 1 ≤ _; omega⟩, fun h => absurd rfl h.1, fun h => (by cases h), fun h => (by cases h), fun h => (by cases h),
      fun h => (by rcases h with h | h | h <;> cases h)⟩
  have e : view r = ({ view m.cpu with pc := m.cpu.pc + 1 + 1 } : Isa.State).interrupt true := h2
  refine ⟨r, h1, h4, congrArg (·.i) e, congrArg (·.pc) e, ?_⟩
  intro m2 hr2 hpc2 hop2 hq hs2 hm
  obtain ⟨r2, k1, k2, k3, k4, k5⟩ := rti_after m.cpu r { view m.cpu with pc := m.cpu.pc + 1 + 1 } true hr rfl (by dsimp only; omega) rfl e m2 hr2 hpc2 hop2 hq hs2 hm
  exact ⟨r2, k1, k2, k3, by rw [k4]; show m.cpu.pc + 1 + 1 = _; omega, k5⟩

/-- C21.  `RTI` after an interrupt restores the flags and goes on where the program was interrupted. -/
theorem C21_irq_rti (m : Machine) (hr : InRange m.cpu) (hp : interruptPending m = true) (hi : (view m.cpu).i = false)
    (hpc : 0 ≤ m.cpu.pc ∧ m.cpu.pc < 0x10000) :
    ∃ r, checkIrq m = .ok ((), { m with cpu := r }) ∧ InRange r ∧ (view r).i = true ∧
      r.pc = m.cpu.mem 0xfffe + 256 * m.cpu.mem 0xffff ∧ r.a = m.cpu.a ∧ r.x = m.cpu.x ∧ r.y = m.cpu.y ∧
      ∀ m2 : Machine, InRange m2.cpu → 0 ≤ m2.cpu.pc ∧ m2.cpu.pc < 0x10000 → m2.cpu.mem m2.cpu.pc = 0x40 →
        interruptPending m2 = false → m2.cpu.s = r.s →
        (∀ k, 0 ≤ k ∧ k < 3 → m2.cpu.mem (0x100 + (m.cpu.s - k) % 256) = r.mem (0x100 + (m.cpu.s - k) % 256)) →
        ∃ r2, instruction m2 = .ok ((), { m2 with cpu := r2 }) ∧ flags r2 = flags m.cpu ∧ r2.s = m.cpu.s ∧ r2.pc = m.cpu.pc ∧
          r2.mem = m2.cpu.mem ∧ r2.a = m2.cpu.a := by
  obtain ⟨r, h1, h2, _, h4⟩ := checkIrq_ok m hr hp hi hpc
  refine ⟨r, h1, h4, congrArg (·.i) h2, congrArg (·.pc) h2, congrArg (·.a) h2, congrArg (·.x) h2, congrArg (·.y) h2, ?_⟩
  intro m2 hr2 hpc2 hop2 hq hs2 hm
  exact rti_after m.cpu r _ false hr rfl hpc rfl h2 m2 hr2 hpc2 hop2 hq hs2 hm

/-! ### C41: indirect jumps -/

/-- C41, the part that holds.  `JMP (p)` goes to the address in the word at `p`, if `p` is not the last byte of a page.
Missing (and false, see `C41_page_end`): for the last byte of a page the high byte is that of the first byte of the page. -/
theorem C41_indirect_jump_partial (m : Machine) (hr : InRange m.cpu) (hpc : 0 ≤ m.cpu.pc ∧ m.cpu.pc + 3 ≤ 0x10000) (p : Int)
    (hop : m.cpu.mem m.cpu.pc = 0x6c) (hp : m.cpu.mem (m.cpu.pc + 1) + 256 * m.cpu.mem (m.cpu.pc + 2) = p) (hend : p % 256 ≠ 255) :
    ∃ r', instruction m = .ok ((), { m with cpu := r' }) ∧ r'.pc = m.cpu.mem p + 256 * m.cpu.mem (p + 1) := by
  obtain ⟨r', h1, h2, _, _⟩ := instruction_full m hr .jmp ⟨0x6c, .ind, 5⟩ (by decide) hop
    ⟨hpc, fun h => absurd rfl h.2.2.2.1, fun h => (by cases h), fun h => (by cases h), fun _ => (by
      show (m.cpu.mem (m.cpu.pc + 1) + 256 * m.cpu.mem (m.cpu.pc + 2)) % 256 ≠ 255
      rw [hp]; exact hend),
      fun h => (by rcases h with h | h | h <;> cases h)⟩
  refine ⟨r', h1, ?_⟩
  have e : r'.pc = m.cpu.mem (m.cpu.mem (m.cpu.pc + 1) + 256 * m.cpu.mem (m.cpu.pc + 2)) +
    256 * m.cpu.mem (m.cpu.mem (m.cpu.pc + 1) + 256 * m.cpu.mem (m.cpu.pc + 2) -
      (m.cpu.mem (m.cpu.pc + 1) + 256 * m.cpu.mem (m.cpu.pc + 2)) % 256 +
      (m.cpu.mem (m.cpu.pc + 1) + 256 * m.cpu.mem (m.cpu.pc + 2) + 1) % 256) := congrArg (·.pc) h2
  rw [e, hp, show p - p % 256 + (p + 1) % 256 = p + 1 by omega]

/-- Bytes in an otherwise empty memory. -/
def memory (blocks : List (Int × List Int)) (p : Int) : Int :=
  match blocks with
  | [] => 0
  | b :: bs => if b.1 ≤ p ∧ p < b.1 + b.2.length then b.2.getD (p - b.1).toNat 0 else memory bs p

theorem memory_range (blocks : List (Int × List Int)) (h : ∀ b ∈ blocks, ∀ v ∈ b.2, 0 ≤ v ∧ v < 256) (p : Int) :
    0 ≤ memory blocks p ∧ memory blocks p < 256 := by
  induction blocks with
  | nil => exact ⟨Int.le_refl 0, show (0 : Int) < 256 by decide⟩
  | cons b bs ih =>
    unfold memory
    split
    · rw [List.getD_eq_getElem?_getD]
      cases hx : b.2[(p - b.1).toNat]? with
      | none => exact ⟨Int.le_refl 0, show (0 : Int) < 256 by decide⟩
      | some v => exact h b List.mem_cons_self v (List.mem_of_getElem? hx)
    · exact ih fun b' hb' => h b' (List.mem_cons_of_mem _ hb')

/-- A player about to execute the code at 2000, in decimal mode if `d`. -/
def at2000 (blocks : List (Int × List Int)) (a s : Int) (d : Bool) : Machine :=
  { newPlayer with
    cpu := { newPlayer.cpu with mem := memory blocks, pc := 0x2000, a := a, s := s, c := 1, vdi := if d then 8 else 0 }
    nextEvent := 100
    pk := { newPlayer.pk with base := { newPlayer.pk.base with irqst := 0xff } } }

theorem at2000_range (blocks : List (Int × List Int)) (a s : Int) (d : Bool) (h : ∀ b ∈ blocks, ∀ v ∈ b.2, 0 ≤ v ∧ v < 256)
    (ha : 0 ≤ a ∧ a < 256) (hs : 0 ≤ s ∧ s < 256) : InRange (at2000 blocks a s d).cpu :=
  ⟨memory_range blocks h, ha, by show (0 : Int) ≤ 0 ∧ (0 : Int) < 256; decide, by show (0 : Int) ≤ 0 ∧ (0 : Int) < 256; decide, hs,
    by show (0 : Int) ≤ 0 ∧ (0 : Int) < 512; decide, Or.inr rfl, false, d, false, by cases d <;> rfl⟩

/-- The program counter after an instruction. -/
def pcAfter (m : Machine) : Option Int :=
  match instruction m with
  | .ok (_, m) => some m.cpu.pc
  | .error _ => none

/-- C41 fails for the last byte of a page: the documented target of this `JMP (10FF)` is 1234, the emulator goes to 5634. -/
theorem C41_page_end : ∃ m : Machine, InRange m.cpu ∧ m.cpu.mem m.cpu.pc = 0x6c ∧ (view m.cpu).effective .ind = 0x1234 ∧
    ∃ m', instruction m = .ok ((), m') ∧ m'.cpu.pc = 0x5634 := by
  refine ⟨at2000 [(0x2000, [0x6c, 0xff, 0x10]), (0x10ff, [0x34]), (0x1000, [0x12, 0x56])] 0 0xff false,
    at2000_range _ _ _ _ (by decide) (by decide) (by decide), by decide +kernel, by decide +kernel, ?_⟩
  have h : pcAfter (at2000 [(0x2000, [0x6c, 0xff, 0x10]), (0x10ff, [0x34]), (0x1000, [0x12, 0x56])] 0 0xff false) = some 0x5634 := by
    decide +kernel
  unfold pcAfter at h
  split at h
  · next x m' hx =>
    injection h with h
    exact ⟨m', hx, h⟩
  · cases h

/-! ### Concrete cases -/

instance (mn : Isa.Mn) (mode : Isa.Mode) : Decidable (usesMemory mn mode) := by unfold usesMemory; infer_instance
instance (page : Int) : Decidable (hardwarePage page) := by unfold hardwarePage; infer_instance
instance (v : Int) : Decidable (IsDecimal v) := by unfold IsDecimal; infer_instance

instance (st : Isa.State) (mn : Isa.Mn) (mode : Isa.Mode) (pending : Bool) : Decidable (Ordinary st mn mode pending) :=
  decidable_of_iff ((0 ≤ st.pc ∧ st.pc + mode.size ≤ 0x10000) ∧ (usesMemory mn mode → ¬ hardwarePage (st.effective mode / 256)) ∧
    (mode = .rel → st.taken mn = true → 0 ≤ st.pc + 2 + Isa.State.signed st.b1 ∧ st.pc + 2 + Isa.State.signed st.b1 < 0x10000) ∧
    (mn = .rts → st.top 1 + 256 * st.top 2 ≠ 0xffff) ∧ (mode = .ind → st.word % 256 ≠ 255) ∧
    (mn = .cli ∨ mn = .plp ∨ mn = .rti → pending = false))
    ⟨fun ⟨h1, h2, h3, h4, h5, h6⟩ => ⟨h1, h2, h3, h4, h5, h6⟩, fun ⟨h1, h2, h3, h4, h5, h6⟩ => ⟨h1, h2, h3, h4, h5, h6⟩⟩

/-- `LDX #2`, at 2002: `CLC`, `ADC 80,X`, `DEX`, `BNE 2002`, then `STA 1FFF,X`. -/
def loop2000 : Machine :=
  at2000 [(0x2000, [0xa2, 0x02, 0x18, 0x75, 0x80, 0xca, 0xd0, 0xfa, 0x9d, 0xff, 0x1f]), (0x80, [0x00, 0x19, 0x70])] 0x11 0xff false

/-- A decidable form of `Manual`, for a given list of instructions. -/
def follow (pending : Bool) : List (Isa.Mn × Isa.Code) → Isa.State → Option (Isa.State × Int)
  | [], st => some (st, 0)
  | (mn, k) :: l, st =>
    if k ∈ Isa.codes mn ∧ st.mem st.pc = k.opcode ∧ Ordinary st mn k.mode pending then
      (follow pending l (st.after mn k.mode)).map fun r => (r.1, k.cycles + st.extra mn k.mode + r.2)
    else none

theorem follow_manual {pending : Bool} {l : List (Isa.Mn × Isa.Code)} {st : Isa.State} {r : Isa.State × Int}
    (h : follow pending l st = some r) : Manual pending st l.length r.1 r.2 := by
  induction l generalizing st r with
  | nil => injection h with h; rw [← h]; exact .none st
  | cons x l ih =>
    obtain ⟨mn, k⟩ := x
    simp only [follow] at h
    split at h
    · next hc =>
      cases hf : follow pending l (st.after mn k.mode) with
      | none => rw [hf] at h; cases h
      | some r' =>
        rw [hf] at h
        injection h with h
        rw [← h]
        exact .next mn k hc.1 hc.2.1 hc.2.2 (ih hf)
    · cases h

/-- A case of C42: ten instructions. -/
def loopCode : List (Isa.Mn × Isa.Code) :=
  [(.ldx, ⟨0xa2, .imm, 2⟩), (.clc, ⟨0x18, .imp, 2⟩), (.adc, ⟨0x75, .zpx, 4⟩), (.dex, ⟨0xca, .imp, 2⟩), (.bne, ⟨0xd0, .rel, 2⟩),
    (.clc, ⟨0x18, .imp, 2⟩), (.adc, ⟨0x75, .zpx, 4⟩), (.dex, ⟨0xca, .imp, 2⟩), (.bne, ⟨0xd0, .rel, 2⟩), (.sta, ⟨0x9d, .absx, 5⟩)]

/-- They take 28 cycles. -/
example : ∃ st, Manual (interruptPending loop2000) (view loop2000.cpu) 10 st 28 ∧ st.a = 0x9a ∧ st.x = 0 ∧ st.mem 0x1fff = 0x9a := by
  have h : (follow (interruptPending loop2000) loopCode (view loop2000.cpu)).map
      (fun r => (r.2, r.1.a, r.1.x, r.1.mem 0x1fff)) = some (28, 0x9a, 0, 0x9a) := by decide +kernel
  cases hf : follow (interruptPending loop2000) loopCode (view loop2000.cpu) with
  | none => rw [hf] at h; cases h
  | some r =>
    rw [hf] at h
    injection h with h
    injection h with h1 h
    injection h with h2 h
    injection h with h3 h4
    have := follow_manual hf
    rw [h1] at this
    exact ⟨r.1, this, h2, h3, h4⟩

example : InRange loop2000.cpu := at2000_range _ _ _ _ (by decide) (by decide) (by decide)
example : loop2000.cpu.cycle + 28 ≤ loop2000.nextEvent := by decide

/-- A case of C19: `ADC #$49` in decimal mode, with the carry set. -/
def decimal2000 : Machine := at2000 [(0x2000, [0x69, 0x49])] 0x58 0xff true

example : InRange decimal2000.cpu ∧ decimal2000.cpu.mem decimal2000.cpu.pc = 0x69 ∧
    Ordinary (view decimal2000.cpu) .adc .imm (interruptPending decimal2000) ∧ (view decimal2000.cpu).d = true ∧
    IsDecimal decimal2000.cpu.a ∧ operand decimal2000 .imm = 0x49 ∧ IsDecimal (operand decimal2000 .imm) :=
  ⟨at2000_range _ _ _ _ (by decide) (by decide) (by decide), by decide +kernel, by decide +kernel, by decide +kernel, by decide +kernel,
    by decide +kernel, by decide +kernel⟩

/-- The registers A, S and PC after `n` instructions. -/
def registers (n : Nat) (m : Machine) : Option (Int × Int × Int) :=
  match Spec.instructions 100 n m with
  | .ok (_, m) => some (m.cpu.a, m.cpu.s, m.cpu.pc)
  | .error _ => none

/-- 58 + 49 + 1 = 108. -/
example : registers 1 decimal2000 = some (0x08, 0xff, 0x2002) := by decide +kernel

/-- A case of C21 with a stack pointer that wraps: `JSR 2010`, where `PHA`, `LDA #0`, `PLA`, `RTS`. -/
example : registers 5 (at2000 [(0x2000, [0x20, 0x10, 0x20]), (0x2010, [0x48, 0xa9, 0x00, 0x68, 0x60])] 0x33 0 false) =
    some (0x33, 0, 0x2003) := by decide +kernel

/-- A case of C21: `BRK` and `RTI` at 3000. -/
example : registers 2 (at2000 [(0x2000, [0x00]), (0x3000, [0x40]), (0xfffe, [0x00, 0x30])] 0x33 1 false) = some (0x33, 1, 0x2002) := by
  decide +kernel

end Asap.Props
