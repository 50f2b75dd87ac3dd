import Verif.Lemmas.UnofficialRun
import Verif.Props.Isa

/-! # C56: undocumented instructions of the 6502 -/

namespace Asap.Props
open Asap Asap.Spec Asap.Machine

/-- C56.  Every undocumented instruction in every addressing mode, executed from every state, changes the registers, the flags and
the memory as descriptions of the chip say, and takes the time they say.  Nothing else of the player changes.  (The cases with
hardware registers and wrap around the end of memory are excluded by `OrdinaryUn`.) -/
theorem C56_instructions (m : Machine) (hr : InRange m.cpu) (u : Isa.Un) (k : Isa.Code) (hk : k ∈ Isa.unofficial u)
    (hop : m.cpu.mem m.cpu.pc = k.opcode) (ord : OrdinaryUn (view m.cpu) u k.mode) :
    ∃ r', instruction m = .ok ((), { m with cpu := r' }) ∧ view r' = (view m.cpu).afterUn u k.mode ∧
      r'.cycle = m.cpu.cycle + k.cycles + (view m.cpu).extraUn u k.mode ∧ InRange r' :=
  instruction_un m hr u k hk hop ord

/-- C56.  Programs that mix documented and undocumented instructions: as long as no hardware event is due, the main loop of the
emulator goes through the states of the descriptions, and the clock shows the sum of the durations. -/
theorem C56_programs (m : Machine) (hr : InRange m.cpu) (n : Nat) (st : Isa.State) (t limit : Int)
    (h : Program (interruptPending m) (view m.cpu) n st t) (hl : m.cpu.cycle + t ≤ limit) (he : m.cpu.cycle + t ≤ m.nextEvent) :
    ∃ r', Spec.instructions limit n m = .ok ((), { m with cpu := r' }) ∧ view r' = st ∧ r'.cycle = m.cpu.cycle + t ∧ InRange r' :=
  program_ok h limit m hr rfl rfl hl he

/-- C56.  The opcodes that stop the processor change nothing but the clock, which goes to the next hardware event. -/
theorem C56_stop (m : Machine) (hpc : 0 ≤ m.cpu.pc ∧ m.cpu.pc < 0x10000) (hop : m.cpu.mem m.cpu.pc ∈ Isa.stopping) :
    instruction m = .ok ((), { m with cpu := { m.cpu with cycle := m.nextEvent } }) :=
  instruction_stop m hpc hop

/-- The tables, with the opcodes. -/
def meanings : List (Int × Isa.Meaning) :=
  ([.adc, .and, .asl, .bcc, .bcs, .beq, .bit, .bmi, .bne, .bpl, .brk, .bvc, .bvs, .clc, .cld, .cli, .clv, .cmp, .cpx, .cpy, .dec,
    .dex, .dey, .eor, .inc, .inx, .iny, .jmp, .jsr, .lda, .ldx, .ldy, .lsr, .nop, .ora, .pha, .php, .pla, .plp, .rol, .ror, .rti,
    .rts, .sbc, .sec, .sed, .sei, .sta, .stx, .sty, .tax, .tay, .tsx, .txa, .txs, .tya] : List Isa.Mn).flatMap
      (fun mn => (Isa.codes mn).map fun k => (k.opcode, .documented mn k.mode k.cycles)) ++
  ([.aso, .rla, .lse, .rra, .dcm, .ins, .lax, .sax, .las, .anc, .alr, .arr, .sbx, .sbc, .ane, .anx, .sha, .shs, .shx, .shy, .nop]
    : List Isa.Un).flatMap (fun u => (Isa.unofficial u).map fun k => (k.opcode, .undocumented u k.mode k.cycles)) ++
  Isa.stopping.map fun b => (b, .stop)

theorem means_iff (b : Int) (x : Isa.Meaning) : Isa.Means b x ↔ (b, x) ∈ meanings := by
  unfold meanings
  simp only [List.mem_append, List.mem_flatMap, List.mem_map, Prod.mk.injEq]
  constructor
  · intro h
    cases h with
    | documented mn k hk => exact .inl (.inl ⟨mn, by cases mn <;> decide, k, hk, rfl, rfl⟩)
    | undocumented u k hk => exact .inl (.inr ⟨u, by cases u <;> decide, k, hk, rfl, rfl⟩)
    | stop b hb => exact .inr ⟨b, hb, rfl, rfl⟩
  · rintro ((⟨mn, _, k, hk, rfl, rfl⟩ | ⟨u, _, k, hk, rfl, rfl⟩) | ⟨_, hb, rfl, rfl⟩)
    · exact .documented mn k hk
    · exact .undocumented u k hk
    · exact .stop _ hb

theorem meanings_once : ∀ b : Fin 256, (meanings.filter fun p => p.1 = (b.val : Int)).length = 1 := by decide +kernel

/-- C56.  Every byte is an opcode: it stands for exactly one documented instruction, one undocumented instruction or the end of
execution. -/
theorem C56_complete (b : Int) (hb : 0 ≤ b ∧ b < 256) : ∃ x, Isa.Means b x ∧ ∀ y, Isa.Means b y → y = x := by
  have h := meanings_once ⟨b.toNat, by omega⟩
  simp only [Int.toNat_of_nonneg hb.1] at h
  obtain ⟨p, hp⟩ := List.length_eq_one_iff.mp h
  have hm : p ∈ meanings ∧ p.1 = b := by
    have : p ∈ meanings.filter fun p => p.1 = b := by rw [hp]; exact List.mem_singleton_self p
    simpa using this
  refine ⟨p.2, (means_iff b p.2).mpr (by rw [← hm.2]; exact hm.1), fun y hy => ?_⟩
  have hy2 := (means_iff b y).mp hy
  have : (b, y) ∈ meanings.filter fun p => p.1 = b := List.mem_filter.mpr ⟨hy2, by simp⟩
  rw [hp, List.mem_singleton] at this
  rw [← this]

/-! ### A concrete case -/

instance (st : Isa.State) (u : Isa.Un) (mode : Isa.Mode) : Decidable (OrdinaryUn st u mode) :=
  decidable_of_iff ((0 ≤ st.pc ∧ st.pc + mode.size ≤ 0x10000) ∧ (∀ p ∈ st.touched u mode, ¬ hardwarePage (p / 256)))
    ⟨fun ⟨h1, h2⟩ => ⟨h1, h2⟩, fun ⟨h1, h2⟩ => ⟨h1, h2⟩⟩

/-- A decidable form of `Program`, for a given list of instructions. -/
def followAll (pending : Bool) : List ((Isa.Mn ⊕ Isa.Un) × Isa.Code) → Isa.State → Option (Isa.State × Int)
  | [], st => some (st, 0)
  | (.inl mn, k) :: l, st =>
    if k ∈ Isa.codes mn ∧ st.mem st.pc = k.opcode ∧ Ordinary st mn k.mode pending then
      (followAll pending l (st.after mn k.mode)).map fun r => (r.1, k.cycles + st.extra mn k.mode + r.2)
    else none
  | (.inr u, k) :: l, st =>
    if k ∈ Isa.unofficial u ∧ st.mem st.pc = k.opcode ∧ OrdinaryUn st u k.mode then
      (followAll pending l (st.afterUn u k.mode)).map fun r => (r.1, k.cycles + st.extraUn u k.mode + r.2)
    else none

theorem followAll_program {pending : Bool} {l : List ((Isa.Mn ⊕ Isa.Un) × Isa.Code)} {st : Isa.State} {r : Isa.State × Int}
    (h : followAll pending l st = some r) : Program pending st l.length r.1 r.2 := by
  induction l generalizing st r with
  | nil => injection h with h; rw [← h]; exact .none st
  | cons x l ih =>
    obtain ⟨mn | u, k⟩ := x
    · simp only [followAll] at h
      split at h
      · next hc =>
        cases hf : followAll pending l (st.after mn k.mode) with
        | none => rw [hf] at h; cases h
        | some r' =>
          rw [hf] at h
          injection h with h
          rw [← h]
          exact .documented mn k hc.1 hc.2.1 hc.2.2 (ih hf)
      · cases h
    · simp only [followAll] at h
      split at h
      · next hc =>
        cases hf : followAll pending l (st.afterUn u k.mode) with
        | none => rw [hf] at h; cases h
        | some r' =>
          rw [hf] at h
          injection h with h
          rw [← h]
          exact .undocumented u k hc.1 hc.2.1 hc.2.2 (ih hf)
      · cases h

/-- `LAX 80`, `SBX #3`, `SAX 3000`, `LDY #1`, `ASO 2FFF,Y`, `ARR #F5`, `SHX 2F10,Y`. -/
def odd2000 : Machine :=
  at2000 [(0x2000, [0xa7, 0x80, 0xcb, 0x03, 0x8f, 0x00, 0x30, 0xa0, 0x01, 0x1b, 0xff, 0x2f, 0x6b, 0xf5, 0x9e, 0x10, 0x2f]), (0x80, [0xb6])] 0x11 0xff true

def oddCode : List ((Isa.Mn ⊕ Isa.Un) × Isa.Code) :=
  [(.inr .lax, ⟨0xa7, .zp, 3⟩), (.inr .sbx, ⟨0xcb, .imm, 2⟩), (.inr .sax, ⟨0x8f, .abs, 4⟩), (.inl .ldy, ⟨0xa0, .imm, 2⟩), (.inr .aso, ⟨0x1b, .absy, 7⟩),
    (.inr .arr, ⟨0x6b, .imm, 2⟩), (.inr .shx, ⟨0x9e, .absy, 5⟩)]

/-- They take 25 cycles. -/
example : ∃ st, Program (interruptPending odd2000) (view odd2000.cpu) 7 st 25 ∧ st.a = 0x5a ∧ st.x = 0xb3 ∧ st.mem 0x3000 = 0x64 ∧ st.mem 0x2f11 = 0x30 := by
  have h : (followAll (interruptPending odd2000) oddCode (view odd2000.cpu)).map
      (fun r => (r.2, r.1.a, r.1.x, r.1.mem 0x3000, r.1.mem 0x2f11)) = some (25, 0x5a, 0xb3, 0x64, 0x30) := by decide +kernel
  cases hf : followAll (interruptPending odd2000) oddCode (view odd2000.cpu) with
  | none => rw [hf] at h; cases h
  | some r =>
    rw [hf] at h
    injection h with h
    injection h with h1 h
    injection h with h2 h
    injection h with h3 h
    injection h with h4 h5
    have := followAll_program hf
    rw [h1] at this
    exact ⟨r.1, this, h2, h3, h4, h5⟩

example : InRange odd2000.cpu := at2000_range _ _ _ _ (by decide) (by decide) (by decide)
example : odd2000.cpu.cycle + 25 ≤ odd2000.nextEvent := by decide

/-- A case of `C56_stop`. -/
example : (at2000 [(0x2000, [0x02])] 0 0xff false).cpu.mem 0x2000 ∈ Isa.stopping := by decide +kernel

end Asap.Props
