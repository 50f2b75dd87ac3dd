import Verif.Spec.Flat

/-!
# The start of executables

Hardware registers are plain memory.  GTIA is at 0xD000, ANTIC at 0xD400; PORTB (0xD301) is 0xFF for ROM, 0xFE for the memory under it.
-/

namespace Asap.Spec.Start
open Asap.Isa Asap.Spec.Flat

/-- `code` is in the memory at `q`. -/
def At (code : List Nat) (q : Int) (mem : Int → Int) : Prop := ∀ j b : Nat, code[j]? = some b → mem (q + j) = b

/-- The executable has been loaded and is started at `q`, when VCOUNT is 0; the stack is not where the program is. -/
structure Starts (q : Int) (st : State) : Prop where
  pc : st.pc = q
  binary : st.d = false
  stack : 0xe2 ≤ st.s ∧ st.s < 256
  vcount : st.mem 0xd40b = 0

/-- The program at 0x13A, which resets POKEYs (C67), is reached with 0 in A and the stack as it was.  Interrupts of ANTIC are off, players and missiles too. -/
structure Ready (st st' : State) : Prop where
  runs : Runs st st'
  pc : st'.pc = 0x13a
  a : st'.a = 0
  s : st'.s = st.s
  binary : st'.d = false
  interrupts : st'.mem 0xd40e = 0
  gtia : ∀ r : Int, 0 ≤ r → r ≤ 29 → r ≠ 0x16 → r ≠ 0x17 → st'.mem (0xd000 + r) = 0

/-- The font: characters have ASCII codes, punctuation and digits, upper case, lower case, from the pages of the font in ROM. -/
def Font (before after : Int → Int) : Prop :=
  ∀ i : Int, 0 ≤ i → i ≤ 255 → after (0xfd00 + i) = before (0xe000 + i) ∧ after (0xfe00 + i) = before (0xe100 + i) ∧ after (0xff00 + i) = before (0xe300 + i)

/-- The screen: display list at 0xFC50, the font at 0xFC00, and the colours. -/
structure Screen (mem : Int → Int) : Prop where
  list : mem 0xd402 = 0x50 ∧ mem 0xd403 = 0xfc
  font : mem 0xd409 = 0xfc
  on : mem 0xd400 = 0x21
  colours : mem 0xd016 = 0x26 ∧ mem 0xd017 = 0x0a
  scroll : mem 0xd405 = 0

end Asap.Spec.Start
