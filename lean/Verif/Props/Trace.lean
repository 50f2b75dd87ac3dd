import Verif.Model.Trace
import Verif.Spec.Trace
import Verif.Props.Unofficial

/-! # C57: disassembly and traces -/

namespace Asap.Props
open Asap Asap.Spec Asap.Spec.Trace Asap.Scan

/-! ### Numbers -/

theorem digit_hex (k : Nat) : (ascii "0123456789ABCDEF").getD (k % 16) 0 = Txt.digit (k % 16) := by
  have h : ∀ k : Fin 16, (ascii "0123456789ABCDEF").getD k.val 0 = Txt.digit k.val := by decide +kernel
  exact h ⟨k % 16, Nat.mod_lt _ (by decide)⟩

theorem hex_2 (n : Nat) : hex 2 n = hex2 n := by
  simp only [hex, hex2, digit_hex, List.nil_append, List.singleton_append]

theorem hex_4 (n : Nat) : hex 4 n = Txt.hex4 n := by
  simp only [hex, Txt.hex4, digit_hex, List.nil_append, List.cons_append, Nat.div_div_eq_div_mul, Nat.reduceMul]

theorem hex_word {lo hi : Nat} (h1 : lo < 256) (h2 : hi < 256) : hex2 hi ++ hex2 lo = Txt.hex4 (lo + 256 * hi) := by
  simp only [hex2, Txt.hex4, List.cons_append, List.nil_append]
  rw [show (lo + 256 * hi) / 4096 % 16 = hi / 16 % 16 by omega, show (lo + 256 * hi) / 256 % 16 = hi % 16 by omega,
    show (lo + 256 * hi) / 16 % 16 = lo / 16 % 16 by omega, show (lo + 256 * hi) % 16 = lo % 16 by omega]

/-! ### The table -/

/-- The character that stands for the number. -/
def numberMark (mode : Isa.Mode) : List Nat := if mode = .rel then [48] else if mode.size = 2 then [49] else if mode.size = 3 then [50] else []

/-- The entry shown with the wrong register. -/
def laxY : Isa.Meaning := .undocumented .lax .zpy 4

theorem table_text : ∀ p ∈ meanings, p.2 ≠ laxY →
    ascii (mnemonics.getD p.1.toNat "") = p.2.text (numberMark p.2.mode) ∧ (ascii p.2.name).length = 3 ∧
    placeholder ((ascii (mnemonics.getD p.1.toNat "")).drop 3) 3 =
      (numberMark p.2.mode).head?.map fun c => (c, (ascii p.2.name ++ ascii p.2.mode.before).length) := by
  have h : (meanings.all fun p => decide (p.2 = laxY) || (decide (ascii (mnemonics.getD p.1.toNat "") = p.2.text (numberMark p.2.mode)) &&
    decide ((ascii p.2.name).length = 3) && decide (placeholder ((ascii (mnemonics.getD p.1.toNat "")).drop 3) 3 =
      (numberMark p.2.mode).head?.map fun c => (c, (ascii p.2.name ++ ascii p.2.mode.before).length)))) = true := by decide +kernel
  intro p hp hne
  have := List.all_eq_true.mp h p hp
  simp only [Bool.or_eq_true, Bool.and_eq_true, decide_eq_true_eq] at this
  rcases this with h | h
  · exact absurd h hne
  · exact ⟨h.1.1, h.1.2, h.2⟩

theorem rel_before : ∀ p ∈ meanings, p.2.mode = .rel → p.2.mark = "" := by
  have h : (meanings.all fun p => !decide (p.2.mode = .rel) || decide (p.2.mark = "")) = true := by decide +kernel
  intro p hp hr
  have := List.all_eq_true.mp h p hp
  simpa [hr] using this

/-- The parts of a text around the number. -/
theorem text_parts (x : Isa.Meaning) (c : Nat) (i : Nat) (hi : i = (ascii x.name ++ ascii x.mode.before).length) :
    (x.text [c]).take i = ascii x.name ++ ascii x.mode.before ∧ (x.text [c]).drop (i + 1) = ascii x.mode.behind ++ ascii x.mark := by
  subst hi
  have e : x.text [c] = (ascii x.name ++ ascii x.mode.before) ++ ([c] ++ (ascii x.mode.behind ++ ascii x.mark)) := by
    unfold Isa.Meaning.text; simp only [List.append_assoc]
  rw [e]
  constructor
  · rw [List.take_left]
  · rw [List.drop_append]
    simp

theorem mode_size (mode : Isa.Mode) : mode.size = 1 ∨ mode.size = 2 ∨ mode.size = 3 := by cases mode <;> decide

theorem read_ok (mem : Int → Int) {pc : Int} (h : 0 ≤ pc ∧ pc < 0x10000) : readMemory mem pc = .ok (mem pc).toNat := if_pos h

/-- C57.  For every memory and every address, the disassembler prints the address, the bytes of the instruction, its mnemonic and
its operand in the notation of its addressing mode.  The number shown is the operand in memory, for branches the address where
they go.  (The exception is `LAX` with an address in page zero indexed by Y.) -/
theorem C57_line_partial (mem : Int → Int) (hmem : ∀ p, 0 ≤ mem p ∧ mem p < 256) (pc : Int) (x : Isa.Meaning) (hx : Isa.Means (mem pc) x)
    (hpc : 0 ≤ pc ∧ pc + x.mode.size ≤ 0x10000) (hne : x ≠ laxY) : showInstruction mem pc = .ok (line mem pc x) := by
  have hsize : 1 ≤ x.mode.size := by cases x.mode <;> decide
  obtain ⟨h1, h2, h3⟩ := table_text _ ((means_iff _ _).mp hx) hne
  dsimp only at h1 h2 h3
  have hmark := rel_before _ ((means_iff _ _).mp hx)
  dsimp only at hmark
  unfold showInstruction
  rw [read_ok mem (by omega)]
  show showText mem pc (mem pc).toNat (ascii (mnemonics.getD (mem pc).toNat "")) = _
  unfold showText
  rw [h3]
  unfold line
  simp only [hex_2, hex_4]
  by_cases hrel : x.mode = .rel
  · have e0 : numberMark x.mode = [48] := by rw [hrel]; rfl
    have es : x.mode.size = 2 := by rw [hrel]; rfl
    rw [e0] at h1
    obtain ⟨t1, t2⟩ := text_parts x 48 _ rfl
    have el : (ascii x.name ++ ascii x.mode.before).length = 4 := by rw [List.length_append, h2, hrel]; rfl
    rw [el] at t1 t2
    rw [e0]
    simp only [List.head?_cons, Option.map_some]
    rw [if_neg (by decide), if_neg (by decide)]
    unfold showBranch
    rw [read_ok mem (by omega)]
    have en : number mem pc x = ascii "$" ++ Txt.hex4 (band (pc + 2 + signedChar (mem (pc + 1)).toNat) 0xffff).toNat := by
      unfold number
      rw [if_pos hrel, hex_4, band_ffff]
      congr 3
      have := hmem (pc + 1)
      unfold signedChar Isa.State.signed
      by_cases hc : mem (pc + 1) < 128
      · rw [if_pos hc, if_pos (by omega)]; omega
      · rw [if_neg hc, if_neg (by omega)]; omega
    rw [en, h1, es]
    show Except.ok _ = _
    rw [t1]
    have eb : bytes mem pc x = [(mem pc).toNat, (mem (pc + 1)).toNat] := by
      unfold bytes
      rw [es]
      show [_, _] = _
      simp
    have e1 : ascii x.mode.behind = [] := by rw [hrel]; rfl
    have e2 : ascii x.mark = [] := by rw [hmark hrel]; rfl
    rw [eb]
    unfold Isa.Meaning.text
    rw [e1, e2]
    simp [ascii, spaces, List.replicate]
  · by_cases hs2 : x.mode.size = 2
    · have e0 : numberMark x.mode = [49] := by unfold numberMark; rw [if_neg hrel, if_pos hs2]
      rw [e0] at h1
      obtain ⟨t1, t2⟩ := text_parts x 49 _ rfl
      rw [e0]
      simp only [List.head?_cons, Option.map_some]
      rw [if_pos trivial]
      unfold showByte
      rw [read_ok mem (by omega), h1]
      show Except.ok _ = _
      rw [t1, t2]
      have en : number mem pc x = ascii "$" ++ hex2 (mem (pc + 1)).toNat := by
        unfold number; rw [if_neg hrel, if_pos hs2, hex_2]
      have eb : bytes mem pc x = [(mem pc).toNat, (mem (pc + 1)).toNat] := by
        unfold bytes
        rw [hs2]
        show [_, _] = _
        simp
      rw [en, eb, hs2]
      unfold Isa.Meaning.text
      simp [ascii, spaces, List.replicate]
    · by_cases hs3 : x.mode.size = 3
      · have e0 : numberMark x.mode = [50] := by unfold numberMark; rw [if_neg hrel, if_neg hs2, if_pos hs3]
        rw [e0] at h1
        obtain ⟨t1, t2⟩ := text_parts x 50 _ rfl
        rw [e0]
        simp only [List.head?_cons, Option.map_some]
        rw [if_neg (by decide), if_pos trivial]
        unfold showWord
        rw [read_ok mem (by omega), h1]
        show (readMemory mem (pc + 2) >>= _) = _
        rw [read_ok mem (by omega)]
        show Except.ok _ = _
        rw [t1, t2]
        have m1 := hmem (pc + 1)
        have m2 := hmem (pc + 2)
        have en : number mem pc x = ascii "$" ++ (hex2 (mem (pc + 2)).toNat ++ hex2 (mem (pc + 1)).toNat) := by
          unfold number
          rw [if_neg hrel, if_neg hs2, if_pos hs3, hex_4, hex_word (by omega) (by omega)]
          congr 2
          omega
        have eb : bytes mem pc x = [(mem pc).toNat, (mem (pc + 1)).toNat, (mem (pc + 2)).toNat] := by
          unfold bytes
          rw [hs3]
          show [_, _, _] = _
          simp
        rw [en, eb, hs3]
        unfold Isa.Meaning.text
        simp [ascii, spaces, List.replicate]
      · have e0 : numberMark x.mode = [] := by unfold numberMark; rw [if_neg hrel, if_neg hs2, if_neg hs3]
        have hs1 : x.mode.size = 1 := by
          rcases mode_size x.mode with h | h | h
          · exact h
          · exact absurd h hs2
          · exact absurd h hs3
        rw [e0] at h1
        rw [e0, h1]
        have en : number mem pc x = [] := by unfold number; rw [if_neg hrel, if_neg hs2, if_neg hs3]
        have eb : bytes mem pc x = [(mem pc).toNat] := by
          unfold bytes
          rw [hs1]
          show [_] = _
          simp
        rw [en, eb, hs1]
        unfold Isa.Meaning.text
        simp [ascii, spaces, List.replicate]

/-- C57.  The target shown for a branch is where the processor goes when it is taken, the one shown for `JMP` and `JSR` with an
absolute address is where it goes.  (For `JSR` the instruction is not in the page of the stack, where it would be overwritten while
it is executed.) -/
theorem C57_target (st : Isa.State) (hst : st.Fits) (mn : Isa.Mn) (mode : Isa.Mode) (cycles : Int)
    (h : mode = .rel ∧ st.taken mn = true ∨ mode = .abs ∧ (mn = .jmp ∨ mn = .jsr ∧ (st.pc + 2) / 256 ≠ 1)) :
    number st.mem st.pc (.documented mn mode cycles) = ascii "$" ++ hex 4 (st.after mn mode).pc.toNat := by
  rcases h with ⟨rfl, ht⟩ | ⟨rfl, rfl | ⟨rfl, hp⟩⟩
  · have e : (st.after mn .rel).pc = (st.pc + 2 + Isa.State.signed st.b1) % 65536 := by
      unfold Isa.State.after
      rw [if_pos rfl]
      show (if st.taken mn = true then _ else _) = _
      rw [ht, if_pos rfl]
      rfl
    rw [e]
    rfl
  · rfl
  · have hm := hst.mem (st.pc + 1)
    have hs := hst.s
    have e : (st.after .jsr .abs).pc = st.mem (st.pc + 1) + 256 * st.mem (st.pc + 2) := by
      show (st.mem (st.pc + 1) + 256 * st.mem (st.pc + 2)) % 256 + 256 * (if st.pc + 3 - 1 = 256 + (st.s - 1) % 256 then _ else
        if st.pc + 3 - 1 = 256 + st.s then _ else st.mem (st.pc + 3 - 1)) = _
      rw [if_neg (by omega), if_neg (by omega), show st.pc + 3 - 1 = st.pc + 2 by omega]
      omega
    rw [e]
    rfl

/-- C57 fails for opcode B7: it is shown as indexed by X, but the processor uses Y. -/
theorem C57_lax_index (mem : Int → Int) (pc : Int) (hpc : 0 ≤ pc ∧ pc + 2 ≤ 0x10000) (hop : mem pc = 0xb7) :
    Isa.Means (mem pc) (.undocumented .lax .zpy 4) ∧
    showInstruction mem pc = .ok (hex 4 pc.toNat ++ ascii ": B7 " ++ hex 2 (mem (pc + 1)).toNat ++ ascii "     LAX $" ++ hex 2 (mem (pc + 1)).toNat ++ ascii ",X\n") := by
  constructor
  · rw [hop]
    exact .undocumented .lax ⟨0xb7, .zpy, 4⟩ (by decide)
  · unfold showInstruction
    rw [read_ok mem (by omega), hop]
    show showText mem pc 0xb7 (ascii "LAX 1,X") = _
    have e : placeholder ((ascii "LAX 1,X").drop 3) 3 = some (49, 4) := by decide +kernel
    unfold showText
    rw [e]
    simp only [if_true]
    unfold showByte
    rw [read_ok mem (by omega)]
    show Except.ok _ = _
    simp only [hex_2, hex_4]
    have e2 : (ascii "LAX 1,X").take 4 = ascii "LAX " := by decide +kernel
    have e3 : (ascii "LAX 1,X").drop 5 = ascii ",X" := by decide +kernel
    have e4 : hex2 0xb7 = ascii "B7" := by decide +kernel
    rw [e2, e3, e4]
    simp [ascii]

/-- C57.  An instruction that does not end before the end of memory is read from outside the array. -/
theorem C57_end_ub (mem : Int → Int) (hop : mem 0xffff = 0xa9) : showInstruction mem 0xffff = .error .ub := by
  unfold showInstruction
  rw [read_ok mem (by omega), hop]
  show showText mem 0xffff 0xa9 (ascii "LDA #1") = _
  have e : placeholder ((ascii "LDA #1").drop 3) 3 = some (49, 5) := by decide +kernel
  unfold showText
  rw [e]
  simp only [if_true]
  unfold showByte readMemory
  rw [if_neg (by omega)]
  rfl

/-! ### The trace -/

theorem vdi_shown {vdi : Int} (h : ∃ v d i : Bool, vdi = vdiOf v d i) :
    decide (band vdi 0x40 ≠ 0) = decide (vdi / 64 % 2 = 1) ∧ decide (band vdi 8 ≠ 0) = decide (vdi / 8 % 2 = 1) ∧
      decide (band vdi 4 ≠ 0) = decide (vdi / 4 % 2 = 1) := by
  obtain ⟨v, d, i, rfl⟩ := h
  cases v <;> cases d <;> cases i <;> decide

/-- C57.  A line of the trace shows the registers and the flags before the instruction, then the instruction. -/
theorem C57_registers (r : Cpu) (hr : InRange r) (hc : 0 ≤ r.cycle) : registersText r = Trace.registers (view r) r.cycle := by
  obtain ⟨v1, v2, v3⟩ := vdi_shown hr.vdi
  have e1 : decide (r.c ≠ 0) = decide (r.c = 1) := by rcases hr.c with h | h <;> rw [h] <;> decide
  have e2 : r.cycle.toNat / 114 = (r.cycle / 114).toNat := by omega
  have e3 : r.cycle.toNat % 114 = (r.cycle % 114).toNat := by omega
  unfold registersText Trace.registers
  rw [v1, v2, v3, e1, e2, e3, band_ff]
  simp only [hex_2]
  rfl

/-- What comes before an instruction if a hardware event is due. -/
def events : C Unit := do
  let cycle ← C.reg (·.cycle)
  let nextEvent ← C.get (·.nextEvent)
  C.when (cycle ≥ nextEvent) do
    Machine.handleEvent
    Machine.checkIrq

theorem events_none (m : Machine) (h : m.cpu.cycle < m.nextEvent) : events m = .ok ((), m) := by
  show (C.when (m.cpu.cycle ≥ m.nextEvent) _) m = _
  unfold C.when
  rw [if_neg (by omega)]
  rfl

theorem step_events (m : Machine) : Machine.cpuStep m = (match events m with | .ok r => Machine.instruction r.2 | .error e => .error e) := by
  show (events >>= fun _ => Machine.instruction) m = _
  show C.bind _ _ m = _
  unfold C.bind
  cases events m <;> rfl

theorem traced_events (m : Machine) : Machine.tracedStep m =
    (match events m with | .ok r => (match Machine.instruction r.2 with | .ok r' => .ok (r.2.cpu, r'.2) | .error e => .error e) | .error e => .error e) := by
  show C.bind events (fun _ => C.bind (C.reg id) fun r => C.bind Machine.instruction fun _ => pure r) m = _
  unfold C.bind
  cases events m with
  | error e => rfl
  | ok r =>
    dsimp only
    show (match Machine.instruction r.2 with | _ => _) = _
    cases Machine.instruction r.2 <;> rfl

theorem traced_step {m m1 : Machine} {r : Cpu} (h : Machine.tracedStep m = .ok (r, m1)) :
    Machine.cpuStep m = .ok ((), m1) ∧ ∃ m2, events m = .ok ((), m2) ∧ r = m2.cpu := by
  rw [traced_events] at h
  rw [step_events]
  cases he : events m with
  | error e => rw [he] at h; cases h
  | ok r1 =>
    rw [he] at h
    dsimp only at h ⊢
    cases hi : Machine.instruction r1.2 with
    | error e => rw [hi] at h; cases h
    | ok r2 =>
      rw [hi] at h
      injection h with h
      injection h with h1 h2
      exact ⟨by rw [← h2], r1.2, rfl, h1.symm⟩

theorem step_traced {m m1 : Machine} (h : Machine.cpuStep m = .ok ((), m1)) : ∃ r, Machine.tracedStep m = .ok (r, m1) := by
  rw [step_events] at h
  rw [traced_events]
  cases he : events m with
  | error e => rw [he] at h; cases h
  | ok r1 =>
    rw [he] at h
    dsimp only at h ⊢
    rw [h]
    exact ⟨_, rfl⟩

theorem instructions_step (limit : Int) (n : Nat) (m m1 : Machine) (h : Machine.cpuStep m = .ok ((), m1)) (hl : m.cpu.cycle < limit) :
    Spec.instructions limit (n + 1) m = Spec.instructions limit n m1 := by
  show (if m.cpu.cycle < limit then (C.bind Machine.cpuStep fun _ => Spec.instructions limit n) else pure ()) m = _
  rw [if_pos hl]
  unfold C.bind
  rw [h]

theorem frame_step (limit : Int) (n : Nat) (m : Machine) : Machine.cpuFrame limit (n + 1) m =
    if m.cpu.cycle < limit then (match Machine.cpuStep m with | .ok r => Machine.cpuFrame limit n r.2 | .error e => .error e) else .ok ((), m) := by
  show (C.when (m.cpu.cycle < limit) _) m = _
  unfold C.when
  split
  · show C.bind _ _ m = _
    unfold C.bind
    cases Machine.cpuStep m <;> rfl
  · rfl

theorem tracedFrame_step (limit : Int) (n : Nat) (m : Machine) : Machine.tracedFrame limit (n + 1) m =
    if m.cpu.cycle < limit then (match Machine.tracedStep m with
      | .ok r => (match Machine.tracedFrame limit n r.2 with | .ok r' => .ok (r.1 :: r'.1, r'.2) | .error e => .error e)
      | .error e => .error e) else .ok ([], m) := by
  show (if m.cpu.cycle < limit then C.bind Machine.tracedStep fun r => C.bind (Machine.tracedFrame limit n) fun rs => pure (r :: rs) else pure [] : C (List Cpu)) m = _
  split
  · unfold C.bind
    cases Machine.tracedStep m with
    | error e => rfl
    | ok r =>
      dsimp only
      cases Machine.tracedFrame limit n r.2 <;> rfl
  · rfl

/-- C57.  Tracing does not change the emulation, and the lines of the trace are the registers before each instruction, in order:
line `i` is printed after `i` instructions (and the hardware event due then). -/
theorem C57_trace (limit : Int) (n : Nat) (m : Machine) :
    (∀ m', Machine.cpuFrame limit n m = .ok ((), m') ↔ ∃ rs, Machine.tracedFrame limit n m = .ok (rs, m')) ∧
    ∀ rs m', Machine.tracedFrame limit n m = .ok (rs, m') → Spec.instructions limit rs.length m = .ok ((), m') ∧
      ∀ i (hi : i < rs.length), ∃ mi me, Spec.instructions limit i m = .ok ((), mi) ∧ mi.cpu.cycle < limit ∧ events mi = .ok ((), me) ∧
        rs[i] = me.cpu ∧ (mi.cpu.cycle < mi.nextEvent → rs[i] = mi.cpu) := by
  induction n generalizing m with
  | zero =>
    by_cases hc : m.cpu.cycle < limit
    · have e1 : Machine.cpuFrame limit 0 m = .error .fuel := by
        show (C.when (m.cpu.cycle < limit) _) m = _
        unfold C.when
        rw [if_pos hc]
        rfl
      have e2 : Machine.tracedFrame limit 0 m = .error .fuel := by
        show (C.bind (C.when (m.cpu.cycle < limit) _) _) m = _
        unfold C.bind C.when
        rw [if_pos hc]
        rfl
      rw [e1, e2]
      exact ⟨fun m' => ⟨fun h => (nomatch h), fun ⟨_, h⟩ => (nomatch h)⟩, fun _ _ h => (nomatch h)⟩
    · have e1 : Machine.cpuFrame limit 0 m = .ok ((), m) := by
        show (C.when (m.cpu.cycle < limit) _) m = _
        unfold C.when
        rw [if_neg hc]
        rfl
      have e2 : Machine.tracedFrame limit 0 m = .ok ([], m) := by
        show (C.bind (C.when (m.cpu.cycle < limit) _) _) m = _
        unfold C.bind C.when
        rw [if_neg hc]
        rfl
      rw [e1, e2]
      refine ⟨fun m' => ⟨fun h => ?_, fun ⟨rs, h⟩ => ?_⟩, fun rs m' h => ?_⟩
      · injection h with h; injection h with _ h; subst h; exact ⟨[], rfl⟩
      · injection h with h; injection h with _ h; subst h; rfl
      · injection h with h; injection h with h1 h2
        subst h1; subst h2
        exact ⟨rfl, fun i hi => absurd hi (Nat.not_lt_zero i)⟩
  | succ n ih =>
    rw [frame_step, tracedFrame_step]
    by_cases hc : m.cpu.cycle < limit
    · rw [if_pos hc, if_pos hc]
      cases ht : Machine.tracedStep m with
      | error e =>
        have e1 : ∃ e, Machine.cpuStep m = .error e := by
          cases hs : Machine.cpuStep m with
          | error e => exact ⟨e, rfl⟩
          | ok r =>
            obtain ⟨q, hq⟩ := step_traced (m1 := r.2) hs
            rw [ht] at hq
            cases hq
        obtain ⟨e1, h1⟩ := e1
        rw [h1]
        exact ⟨fun m' => ⟨fun h => (nomatch h), fun ⟨_, h⟩ => (nomatch h)⟩, fun _ _ h => (nomatch h)⟩
      | ok r1 =>
        obtain ⟨r, m1⟩ := r1
        obtain ⟨hs, me, he, hr⟩ := traced_step ht
        rw [hs]
        dsimp only
        obtain ⟨ih1, ih2⟩ := ih m1
        cases hf : Machine.tracedFrame limit n m1 with
        | error e =>
          dsimp only
          refine ⟨fun m' => ⟨fun h => ?_, fun ⟨_, h⟩ => (nomatch h)⟩, fun _ _ h => (nomatch h)⟩
          obtain ⟨rs, h2⟩ := (ih1 m').mp h
          rw [hf] at h2
          cases h2
        | ok r2 =>
          obtain ⟨rs, m2⟩ := r2
          dsimp only
          obtain ⟨i1, i2⟩ := ih2 rs m2 hf
          refine ⟨fun m' => ⟨fun h => ?_, fun ⟨rs', h⟩ => ?_⟩, fun rs' m' h => ?_⟩
          · obtain ⟨rs', h2⟩ := (ih1 m').mp h
            rw [hf] at h2
            injection h2 with h2
            injection h2 with _ h2
            exact ⟨r :: rs, by rw [h2]⟩
          · injection h with h
            injection h with _ h
            rw [← h]
            exact (ih1 m2).mpr ⟨rs, hf⟩
          · injection h with h
            injection h with h1 h2
            subst h1
            subst h2
            refine ⟨?_, fun i hi => ?_⟩
            · rw [List.length_cons, instructions_step limit _ m m1 hs hc]
              exact i1
            · cases i with
              | zero =>
                refine ⟨m, me, rfl, hc, he, hr, fun h => ?_⟩
                have := events_none m h
                rw [he] at this
                injection this with this
                injection this with _ this
                show r = _
                rw [hr, this]
              | succ i =>
                obtain ⟨mi, me', a1, a2, a3, a4, a5⟩ := i2 i (by simpa using hi)
                exact ⟨mi, me', by rw [instructions_step limit _ m m1 hs hc]; exact a1, a2, a3, a4, a5⟩
    · rw [if_neg hc, if_neg hc]
      refine ⟨fun m' => ⟨fun h => ?_, fun ⟨rs, h⟩ => ?_⟩, fun rs m' h => ?_⟩
      · injection h with h; injection h with _ h; subst h; exact ⟨[], rfl⟩
      · injection h with h; injection h with _ h; subst h; rfl
      · injection h with h; injection h with h1 h2
        subst h1; subst h2
        exact ⟨rfl, fun i hi => absurd hi (Nat.not_lt_zero i)⟩

/-! ### The list of undocumented instructions -/

theorem table_flags : ∀ p ∈ meanings, opcodeFlags.getD p.1.toNat 0 = if p.2.unusual = true then 1 else 0 := by
  have h : (meanings.all fun p => decide (opcodeFlags.getD p.1.toNat 0 = if p.2.unusual = true then 1 else 0)) = true := by decide +kernel
  intro p hp
  exact of_decide_eq_true (List.all_eq_true.mp h p hp)

theorem table_listed : ∀ p ∈ meanings, p.2.unusual = true → p.2 ≠ laxY → unofficialText p.1.toNat = listed p.1.toNat p.2 := by
  have h : (meanings.all fun p => !p.2.unusual || decide (p.2 = laxY) || decide (unofficialText p.1.toNat = listed p.1.toNat p.2)) = true := by decide +kernel
  intro p hp hu hne
  have := List.all_eq_true.mp h p hp
  simpa [hu, hne] using this

/-- Counted as used: not at the two addresses where the emulator puts its own code. -/
def Counts (trace : List Cpu) (b : Nat) : Prop := ∃ r ∈ trace, r.pc ≠ 0xd200 ∧ r.pc ≠ 0xd203 ∧ r.mem r.pc = (b : Int)

instance (trace : List Cpu) (b : Nat) : Decidable (Counts trace b) := by unfold Counts; infer_instance

theorem or_two {x : Nat} (h : x = 0 ∨ x = 1 ∨ x = 2 ∨ x = 3) : (x ||| 2) ||| 2 = x ||| 2 := by
  rcases h with rfl | rfl | rfl | rfl <;> rfl

theorem mark_all (trace : List Cpu) (hr : ∀ r ∈ trace, (0 ≤ r.pc ∧ r.pc < 0x10000) ∧ 0 ≤ r.mem r.pc) (flags : Nat → Nat)
    (hfl : ∀ b, flags b = 0 ∨ flags b = 1 ∨ flags b = 2 ∨ flags b = 3) :
    markAll flags trace = .ok fun b => if Counts trace b then flags b ||| 2 else flags b := by
  induction trace generalizing flags with
  | nil =>
    show Except.ok flags = _
    congr 1
  | cons r rs ih =>
    have h1 := hr r List.mem_cons_self
    have h2 : ∀ r ∈ rs, (0 ≤ r.pc ∧ r.pc < 0x10000) ∧ 0 ≤ r.mem r.pc := fun q hq => hr q (List.mem_cons_of_mem _ hq)
    unfold markAll markUsed
    by_cases hp : r.pc ≠ 0xd200 ∧ r.pc ≠ 0xd203
    · rw [if_pos hp, read_ok r.mem h1.1]
      show markAll (fun b => if b = (r.mem r.pc).toNat then flags b ||| 2 else flags b) rs = _
      rw [ih h2 _ (fun b => by
        split
        · rcases hfl b with h | h | h | h <;> rw [h] <;> decide
        · exact hfl b)]
      congr 1
      funext b
      by_cases hb : b = (r.mem r.pc).toNat
      · have hc : Counts (r :: rs) b := ⟨r, List.mem_cons_self, hp.1, hp.2, by omega⟩
        rw [if_pos hc, if_pos hb]
        split
        · exact or_two (hfl b)
        · rfl
      · rw [if_neg hb]
        have e : Counts rs b ↔ Counts (r :: rs) b := by
          constructor
          · rintro ⟨q, hq, h⟩
            exact ⟨q, List.mem_cons_of_mem _ hq, h⟩
          · rintro ⟨q, hq, h⟩
            rcases List.mem_cons.mp hq with rfl | hq
            · exact absurd (by omega) hb
            · exact ⟨q, hq, h⟩
        simp only [e]
    · rw [if_neg hp]
      show markAll flags rs = _
      rw [ih h2 _ hfl]
      congr 1
      funext b
      have e : Counts rs b ↔ Counts (r :: rs) b := by
        constructor
        · rintro ⟨q, hq, h⟩
          exact ⟨q, List.mem_cons_of_mem _ hq, h⟩
        · rintro ⟨q, hq, h⟩
          rcases List.mem_cons.mp hq with rfl | hq
          · exact absurd ⟨h.1, h.2.1⟩ hp
          · exact ⟨q, hq, h⟩
      simp only [e]

/-- C57.  `-u` lists, in the order of the opcodes, exactly the undocumented instructions, the stopping ones and `BRK` that were
executed, each with its opcode, its mnemonic and its addressing mode.  (`LAX` of page zero with Y is listed with X.) -/
theorem C57_used_partial (trace : List Cpu) (hr : ∀ r ∈ trace, (0 ≤ r.pc ∧ r.pc < 0x10000) ∧ 0 ≤ r.mem r.pc) (hne : ¬ Counts trace 0xb7)
    (f : Nat → Isa.Meaning) (hf : ∀ b : Nat, b < 256 → Isa.Means b (f b)) :
    listUsed trace = .ok (((List.range 256).filter fun b => (f b).unusual && decide (Counts trace b)).flatMap fun b => listed b (f b)) := by
  have hflag : ∀ b : Nat, b < 256 → opcodeFlags.getD b 0 = if (f b).unusual = true then 1 else 0 := fun b hb => by
    have := table_flags _ ((means_iff _ _).mp (hf b hb))
    simpa using this
  have hfl : ∀ b, opcodeFlags.getD b 0 = 0 ∨ opcodeFlags.getD b 0 = 1 ∨ opcodeFlags.getD b 0 = 2 ∨ opcodeFlags.getD b 0 = 3 := fun b => by
    by_cases hb : b < 256
    · rw [hflag b hb]; split <;> simp
    · left
      have hl : opcodeFlags.length = 256 := by decide +kernel
      rw [List.getD_eq_getElem?_getD, List.getElem?_eq_none (by omega)]
      rfl
  unfold listUsed
  rw [mark_all trace hr _ hfl]
  show Except.ok (unofficialList _) = _
  congr 1
  unfold unofficialList
  have e : (List.range 256).filter (fun b => decide ((if Counts trace b then opcodeFlags.getD b 0 ||| 2 else opcodeFlags.getD b 0) = 3)) =
      (List.range 256).filter fun b => (f b).unusual && decide (Counts trace b) := by
    apply List.filter_congr
    intro b hb
    rw [hflag b (List.mem_range.mp hb)]
    by_cases hu : (f b).unusual = true <;> by_cases hc : Counts trace b <;> simp [hu, hc]
  rw [e]
  have hmem : ∀ b ∈ (List.range 256).filter fun b => (f b).unusual && decide (Counts trace b), unofficialText b = listed b (f b) := by
    intro b hb
    obtain ⟨h1, h2⟩ := List.mem_filter.mp hb
    simp only [Bool.and_eq_true, decide_eq_true_eq] at h2
    have hlt := List.mem_range.mp h1
    have := table_listed _ ((means_iff _ _).mp (hf b hlt)) h2.1 (fun h => by
      have h3 := hf b hlt
      rw [show f b = laxY from h] at h3
      have hb7 : (b : Int) = 0xb7 := by
        have h4 := (means_iff _ _).mp h3
        have h5 : ∀ p ∈ meanings, p.2 = laxY → p.1 = 0xb7 := by
          have h : (meanings.all fun p => !decide (p.2 = laxY) || decide (p.1 = 0xb7)) = true := by decide +kernel
          intro p hp he
          have := List.all_eq_true.mp h p hp
          simpa [he] using this
        exact h5 _ h4 rfl
      have : b = 0xb7 := by omega
      subst this
      exact hne h2.2)
    simpa using this
  clear e
  generalize (List.range 256).filter (fun b => (f b).unusual && decide (Counts trace b)) = l at hmem ⊢
  induction l with
  | nil => rfl
  | cons b l ih =>
    rw [List.flatMap_cons, List.flatMap_cons, hmem b List.mem_cons_self, ih fun q hq => hmem q (List.mem_cons_of_mem _ hq)]

/-- C57.  The whole line of `-c`. -/
theorem C57_trace_line_partial (r : Cpu) (hr : InRange r) (hc : 0 ≤ r.cycle) (x : Isa.Meaning) (hx : Isa.Means (r.mem r.pc) x) (hend : 0 ≤ r.pc ∧ r.pc + x.mode.size ≤ 0x10000)
    (hne : x ≠ laxY) : traceLine r = .ok (Trace.registers (view r) r.cycle ++ line r.mem r.pc x) := by
  unfold traceLine
  rw [C57_line_partial r.mem hr.mem r.pc x hx hend hne]
  show Except.ok _ = _
  rw [C57_registers r hr hc]

/-! ### Cases -/

/-- The opcode `CB` in the program of `C56_programs`. -/
example : traceLine { odd2000.cpu with pc := 0x2002, cycle := 233 } =
    .ok (ascii "  2   5 A=11 X=00 Y=00 S=FF P=--*-D-ZC PC=2002: CB 03     SBX #$03\n") := by decide +kernel

example : Isa.Means 0xcb (.undocumented .sbx .imm 2) := .undocumented .sbx ⟨0xcb, .imm, 2⟩ (by decide)

example : Isa.Meaning.undocumented .sbx .imm 2 ≠ laxY := by decide

/-- A trace of the first four instructions of that program. -/
example : ((Machine.tracedFrame 10 20 odd2000).toOption.map fun r => r.1.map (·.pc)) = some [0x2000, 0x2002, 0x2004, 0x2007] := by decide +kernel

/-- What `-u` prints of them. -/
example : ((Machine.tracedFrame 10 20 odd2000).toOption.map fun r => listUsed r.1) =
    some (.ok (ascii "8F: SAX $xxxx\nA7: LAX $xx\nCB: SBX #$xx\n")) := by decide +kernel

/-- There is a choice of meanings as needed by `C57_used_partial`. -/
example : ∃ f : Nat → Isa.Meaning, ∀ b : Nat, b < 256 → Isa.Means b (f b) := by
  have h : ∀ b : Nat, ∃ x, b < 256 → Isa.Means (b : Int) x := fun b => by
    by_cases hb : b < 256
    · obtain ⟨x, hx, _⟩ := C56_complete (b : Int) (by omega)
      exact ⟨x, fun _ => hx⟩
    · exact ⟨.stop, fun h => absurd h hb⟩
  exact ⟨fun b => Classical.choose (h b), fun b hb => Classical.choose_spec (h b) hb⟩

end Asap.Props
