import Verif.Spec.Schedule
import Verif.Spec.Countdown

/-!
# The interrupt of executables of type D

The program of the song runs by itself; the player is called in interrupts.
-/

namespace Asap.Spec.Digital
open Asap.Isa Asap.Spec.Flat Asap.Spec.Schedule

/-- The program `code` from 0x124 on, of which the title screen replaces what is below 0x13A. -/
def Program (code : List Nat) (mem : Int → Int) : Prop := ∀ j b : Nat, code[j]? = some b → 22 ≤ j → mem (0x124 + j) = b

/-- `Called st st1`: after an interrupt in the state `st`, the player, at 0x195, is called in the state `st1`.  Only eight free bytes of the stack have changed. -/
structure Called (st st1 : State) : Prop where
  runs : Runs (nmi st) st1
  pc : st1.pc = 0x195
  sp : st1.s = st.s - 8
  mem : ∀ b, ¬ (256 + st.s - 8 < b ∧ b ≤ 256 + st.s) → st1.mem b = st.mem b

/-- `Returned st st1 st2`: the player has returned, in any state that has what was on the stack, and the program. -/
structure Returned (st st1 st2 : State) : Prop where
  pc : st2.pc = Countdown.back st1
  sp : st2.s = (st1.s + 2) % 256
  stack : ∀ b, 256 + st.s - 6 < b → b ≤ 256 + st.s → st2.mem b = st1.mem b
  program : ∀ b, 0x124 ≤ b → b ≤ 0x198 → st2.mem b = st1.mem b

end Asap.Spec.Digital
