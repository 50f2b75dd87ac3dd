import Verif.Spec.Flat

/-!
# POKEYs at the start of a song

The registers of a POKEY: 0 to 7 are the periods and the controls of four channels, 8 is AUDCTL, 15 is SKCTL.
-/

namespace Asap.Spec.Reset

/-- The registers of the POKEY at `chip` have the values a song expects, with which ASAP starts: no channel plays, and the keyboard and serial port are out of reset,
in the only mode that leaves all channels alone. -/
structure Fresh (chip : Int) (mem : Int → Int) : Prop where
  silent : ∀ r : Int, 0 ≤ r → r ≤ 8 → mem (chip + r) = 0
  skctl : mem (chip + 15) = 3

/-- What is left in memory: the second POKEY is fresh; of the first one, all but the period of the first channel, and SKCTL, which is not written. -/
structure Started (before after : Int → Int) (changed : Int → Prop) : Prop where
  second : Fresh 0xd210 after
  silent : ∀ r : Int, 1 ≤ r → r ≤ 8 → after (0xd200 + r) = 0
  period : after 0xd200 = 3
  skctl : after 0xd20f = before 0xd20f
  kept : ∀ b, ¬ (0xd200 ≤ b ∧ b ≤ 0xd208) → ¬ (0xd210 ≤ b ∧ b ≤ 0xd218) → b ≠ 0xd21f → ¬ changed b → after b = before b

end Asap.Spec.Reset
