import Verif.Spec.Isa

/-!
# A 6502 with nothing but memory

All addresses are memory, there are no interrupts.
-/

namespace Asap.Spec.Flat
open Asap.Isa

/-- `Runs st st'`: documented instructions, one after another, get the machine from `st` to `st'`. -/
inductive Runs : State → State → Prop
  | refl (st) : Runs st st
  | step {st st'} (mn : Mn) (k : Code) : k ∈ codes mn → st.mem st.pc = k.opcode → 0 ≤ st.pc → st.pc + k.mode.size ≤ 65536 →
      Runs (st.after mn k.mode) st' → Runs st st'

/-- What the depacker in an executable with the image `packed` uses for itself: four variables, two bytes of the stack (`s` is the stack
pointer), the stream and the code. -/
def Spare (packed : Nat → Option Nat) (s : Int) (a : Nat) : Prop :=
  (0xfc ≤ a ∧ a ≤ 0xff) ∨ (a : Int) = 256 + s ∨ (a : Int) = 256 + (s - 1) % 256 ∨ (0x2000 ≤ a ∧ a < 0xc000 ∧ packed a ≠ none)

/-- Started: the executable is in the memory, and the program counter is at its start. -/
structure Started (packed : Nat → Option Nat) (start : Nat) (st : State) : Prop where
  loaded : ∀ a b, packed a = some b → st.mem a = b
  bytes : ∀ a, 0 ≤ st.mem a ∧ st.mem a < 256
  stack : 0 ≤ st.s ∧ st.s < 256
  pc : st.pc = start
  binary : st.d = false

end Asap.Spec.Flat
