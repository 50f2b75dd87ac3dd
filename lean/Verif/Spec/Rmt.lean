import Verif.Model.Base

/-!
# Patterns of Raster Music Tracker

Commands in a pattern (the lowest six bits of a byte, with the highest two as argument): 0-61 a note or a change of volume, 62 a
pause, 63 with 0 or 1 a new tempo, 63 with 2 a jump inside the pattern, 63 with 3 the end.
-/

namespace Asap.Spec.Rmt

/-- The byte at an offset, if it is in the module. -/
def byteAt (m : List Nat) (o : Int) : Option Nat := if 0 ≤ o then m[o.toNat]? else none

/-- The offset of an address, given as two bytes: the module in the file follows a header of six bytes. -/
def offsetOf (m : List Nat) (lo hi : Nat) : Int := (lo : Int) + 256 * hi - ((m.getD 2 0 : Int) + 256 * m.getD 3 0 - 6)

/-- The offset of a table, whose address is in the module. -/
def table (m : List Nat) (at_ : Nat) : Int := offsetOf m (m.getD at_ 0) (m.getD (at_ + 1) 0)

/-- A pattern that is played in the song begins at an offset. -/
def Pattern (m : List Nat) (start : Int) : Prop :=
  ∃ k p lo hi : Nat, byteAt m (table m 0x14 + k) = some p ∧ p ≠ 0xff ∧ byteAt m (table m 0x10 + p) = some lo ∧ byteAt m (table m 0x12 + p) = some hi ∧
    start = offsetOf m lo hi

/-- Places in a pattern that are reached from its beginning. -/
inductive Reached (m : List Nat) (start : Int) : Int → Prop
  | start : Reached m start start
  | note {o b} : Reached m start o → byteAt m o = some b → b % 64 < 62 → Reached m start (o + 2)
  | longPause {o} : Reached m start o → byteAt m o = some 62 → Reached m start (o + 2)
  | pause {o b} : Reached m start o → byteAt m o = some b → b % 64 = 62 → b ≠ 62 → Reached m start (o + 1)
  | tempo {o b} : Reached m start o → byteAt m o = some b → b = 63 ∨ b = 127 → Reached m start (o + 2)
  | jump {o j : _} : Reached m start o → byteAt m o = some 191 → byteAt m (o + 1) = some j → Reached m start (start + (j : Nat))

/-- From this place, changes of the tempo and jumps lead to a note, a pause, the end of the pattern or out of the module. -/
inductive Settles (m : List Nat) (start : Int) : Int → Prop
  | out {o} : byteAt m o = none → Settles m start o
  | row {o b} : byteAt m o = some b → b ≠ 63 → b ≠ 127 → b ≠ 191 → Settles m start o
  | tempo {o b} : byteAt m o = some b → b = 63 ∨ b = 127 → Settles m start (o + 2) → Settles m start o
  | brokenJump {o} : byteAt m o = some 191 → byteAt m (o + 1) = none → Settles m start o
  | jump {o} {j : Nat} : byteAt m o = some 191 → byteAt m (o + 1) = some j → Settles m start (start + j) → Settles m start o

/-- No pattern of the song can be entered that has jumps, and nothing but changes of the tempo between them, forever. -/
def NoEmptyLoop (m : List Nat) : Prop := ∀ start, Pattern m start → ∀ o, Reached m start o → Settles m start o

end Asap.Spec.Rmt
