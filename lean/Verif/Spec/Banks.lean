import Verif.Spec.Flat

/-!
# ROM and the memory under it

From 0xC000 on, except for the hardware registers from 0xD000 to 0xD7FF, there are ROM and memory.  If PORTB (0xD301) is odd, reading gives ROM and writing does nothing; if it is even, it is
the memory that is read and written.  Other bits of PORTB (BASIC at 0xA000, the self test at 0x5000) are as in 0xFF and are not modelled.
-/

namespace Asap.Spec.Banks
open Asap.Isa

/-- ROM, or memory. -/
def Rom (a : Int) : Prop := (0xc000 ≤ a ∧ a < 0xd000) ∨ (0xd800 ≤ a ∧ a < 0x10000)

instance (a : Int) : Decidable (Rom a) := inferInstanceAs (Decidable (_ ∨ _))

/-- What is read, when the memory is `mem`. -/
def see (rom mem : Int → Int) (a : Int) : Int := if Rom a ∧ mem 0xd301 % 2 = 1 then rom a else mem a

/-- What there is in memory, when `mem` was there and `mem'` would be without ROM. -/
def put (mem mem' : Int → Int) (a : Int) : Int := if Rom a ∧ mem 0xd301 % 2 = 1 then mem a else mem' a

/-- One instruction. -/
def stepRom (rom : Int → Int) (mn : Mn) (mode : Mode) (st : State) : State :=
  { { st with mem := see rom st.mem }.after mn mode with mem := put st.mem ({ st with mem := see rom st.mem }.after mn mode).mem }

/-- As `Spec.Flat.Runs`, with ROM. -/
inductive RunsRom (rom : Int → Int) : State → State → Prop
  | refl (st) : RunsRom rom st st
  | step {st st'} (mn : Mn) (k : Code) : k ∈ codes mn → see rom st.mem st.pc = k.opcode → 0 ≤ st.pc → st.pc + k.mode.size ≤ 65536 →
      RunsRom rom (stepRom rom mn k.mode st) st' → RunsRom rom st st'

/-- As `Spec.Start.Ready`, with ROM. -/
structure ReadyRom (rom : Int → Int) (st st' : State) : Prop where
  runs : RunsRom rom st st'
  pc : st'.pc = 0x13a
  a : st'.a = 0
  s : st'.s = st.s
  binary : st'.d = false
  interrupts : st'.mem 0xd40e = 0
  gtia : ∀ r : Int, 0 ≤ r → r ≤ 29 → r ≠ 0x16 → r ≠ 0x17 → st'.mem (0xd000 + r) = 0

end Asap.Spec.Banks
