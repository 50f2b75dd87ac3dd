import Verif.Spec.Isa
import Verif.Spec.Player

/-!
# The emulated processor seen as a 6502
-/

namespace Asap.Spec

/-- The registers and flags kept by the emulator, as a programmer sees them. -/
def view (r : Cpu) : Isa.State where
  a := r.a
  x := r.x
  y := r.y
  s := r.s
  pc := r.pc
  n := decide (0x80 ≤ r.nz)
  v := decide (r.vdi / 64 % 2 = 1)
  d := decide (r.vdi / 8 % 2 = 1)
  i := decide (r.vdi / 4 % 2 = 1)
  z := decide (r.nz % 256 = 0)
  c := decide (r.c = 1)
  mem := r.mem

/-- Pages with hardware registers: GTIA and PIA, POKEY, ANTIC, COVOX. -/
def hardwarePage (page : Int) : Prop := page = 0xd0 ∨ page = 0xd2 ∨ page = 0xd4 ∨ page = 0xd6

/-- Does the instruction read or write its effective address? -/
def usesMemory (mn : Isa.Mn) (mode : Isa.Mode) : Prop :=
  mode ≠ .imp ∧ mode ≠ .acc ∧ mode ≠ .rel ∧ mn ≠ .jmp ∧ mn ≠ .jsr

/-- The cases in which the emulator has to do what the manual says: memory without hardware registers, no wrap of the program
counter around the end of memory, no pointer across a page, and no interrupt waiting when interrupts get enabled. -/
structure Ordinary (st : Isa.State) (mn : Isa.Mn) (mode : Isa.Mode) (pending : Bool) : Prop where
  inside : 0 ≤ st.pc ∧ st.pc + mode.size ≤ 0x10000
  ram : usesMemory mn mode → ¬ hardwarePage (st.effective mode / 256)
  branch : mode = .rel → st.taken mn = true → 0 ≤ st.pc + 2 + Isa.State.signed st.b1 ∧ st.pc + 2 + Isa.State.signed st.b1 < 0x10000
  rts : mn = .rts → st.top 1 + 256 * st.top 2 ≠ 0xffff
  pointer : mode = .ind → st.word % 256 ≠ 255
  quiet : mn = .cli ∨ mn = .plp ∨ mn = .rti → pending = false

/-- What the manual says about `n` instructions from `st`, all of them ordinary: the state after them and their duration.
`pending` tells if POKEY requests an interrupt. -/
inductive Manual (pending : Bool) : Isa.State → Nat → Isa.State → Int → Prop
  | none (st : Isa.State) : Manual pending st 0 st 0
  | next {st st' : Isa.State} {n : Nat} {t : Int} (mn : Isa.Mn) (k : Isa.Code) (documented : k ∈ Isa.codes mn)
      (fetched : st.mem st.pc = k.opcode) (ordinary : Ordinary st mn k.mode pending)
      (rest : Manual pending (st.after mn k.mode) n st' t) : Manual pending st (n + 1) st' (k.cycles + st.extra mn k.mode + t)

/-- The value of two decimal digits. -/
def decimal (v : Int) : Int := 10 * (v / 16) + v % 16

/-- Both digits are decimal. -/
def IsDecimal (v : Int) : Prop := v / 16 < 10 ∧ v % 16 < 10

/-- Does POKEY request an interrupt? -/
def interruptPending (m : Machine) : Bool := decide (m.pk.base.irqst ≠ 0xff)

end Asap.Spec
