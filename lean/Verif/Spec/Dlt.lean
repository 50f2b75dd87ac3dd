/-!
# Delta Music Composer modules, as the player routine plays them

A song is a sequence of up to 128 lines.  A line holds a pattern number for each of the four tracks, or a command in the first
track.  A pattern has 64 rows of two bytes.
-/

namespace Asap.Spec.Dlt

variable (m : List Nat)

/-- Byte of the module. -/
def byte (i : Nat) : Nat := m.getD i 0

/-- Entry of a line for a track. -/
def track (line ch : Nat) : Nat := byte m (0x2006 + 256 * ch + line)

/-- Argument of a command. -/
def arg (line : Nat) : Nat := byte m (0x2086 + line)

/-- A line on which nothing is played. -/
def Blank (line : Nat) : Prop := 0x43 ≤ track m line 0 ∧ 0x40 ≤ track m line 1 ∧ 0x40 ≤ track m line 2 ∧ 0x40 ≤ track m line 3

/-- A pattern of the line ends at the row: bit 7 is clear in the first and set in the second byte. -/
def EndRow (line row : Nat) : Prop :=
  ∃ ch < 4, track m line ch < 64 ∧ byte m (6 + 128 * track m line ch + 2 * row) < 0x80 ∧
    0x80 ≤ byte m (6 + 128 * track m line ch + 2 * row + 1)

/-- The number of rows of a line. -/
def Rows (line n : Nat) : Prop := n ≤ 64 ∧ (∀ r < n, ¬ EndRow m line r) ∧ (n < 64 → EndRow m line n)

/-- The lines marked as visited, with one more. -/
def visit (seen : Nat → Bool) (line : Nat) : Nat → Bool := fun l => if l = line then true else seen l

/-- `Plays m seen line tempo calls loop seen'`: from `line` on, the song takes `calls` calls of the player until it stops
(`loop = false`) or comes to a line visited before (`loop = true`); it visits the lines of `seen'` that are not in `seen`. -/
inductive Plays : (Nat → Bool) → Nat → Nat → Nat → Bool → (Nat → Bool) → Prop
  | off {seen line tempo} : 128 ≤ line → Plays seen line tempo 0 false seen
  | again {seen line tempo} : line < 128 → seen line = true → Plays seen line tempo 0 true seen
  | stop {seen line tempo} : line < 128 → seen line = false → (track m line 0 = 0x40 ∨ Blank m line) →
      Plays seen line tempo 0 false (visit seen line)
  | jump {seen line tempo calls loop seen'} : line < 128 → seen line = false → track m line 0 = 0x41 →
      Plays (visit seen line) (arg m line) tempo calls loop seen' → Plays seen line tempo calls loop seen'
  | tempo {seen line tempo calls loop seen'} : line < 128 → seen line = false → track m line 0 = 0x42 →
      Plays (visit seen line) (line + 1) (arg m line) calls loop seen' → Plays seen line tempo calls loop seen'
  | rows {seen line tempo n calls loop seen'} : line < 128 → seen line = false →
      ¬ (0x40 ≤ track m line 0 ∧ track m line 0 ≤ 0x42) → ¬ Blank m line → Rows m line n →
      Plays (visit seen line) (line + 1) tempo calls loop seen' → Plays seen line tempo (n * tempo + calls) loop seen'

/-- Blank lines before a song are skipped. -/
inductive Skips : (Nat → Bool) → Nat → (Nat → Bool) → Nat → Prop
  | blank {seen line seen' start} : line < 128 → seen line = false → Blank m line →
      Skips (visit seen line) (line + 1) seen' start → Skips seen line seen' start
  | here {seen line} : (line < 128 → seen line = true ∨ ¬ Blank m line) → Skips seen line seen line

/-- A song: where it starts, how many calls of the player it takes and whether it loops. -/
structure Song where
  start : Nat
  calls : Nat
  loop : Bool

/-- The songs that start at `line` or later, given the lines visited so far.  A song begins at every line that no song before it
visits, and is played at the initial tempo of 6; silent ones do not count. -/
inductive Songs : (Nat → Bool) → Nat → List Song → Prop
  | done {seen line} : 128 ≤ line → Songs seen line []
  | visited {seen line songs} : line < 128 → seen line = true → Songs seen (line + 1) songs → Songs seen line songs
  | silent {seen line seen' start loop seen'' songs} : line < 128 → seen line = false → Skips m seen line seen' start →
      Plays m seen' start 6 0 loop seen'' → Songs seen'' (line + 1) songs → Songs seen line songs
  | song {seen line seen' start calls loop seen'' songs} : line < 128 → seen line = false → Skips m seen line seen' start →
      Plays m seen' start 6 calls loop seen'' → 0 < calls → Songs seen'' (line + 1) songs →
      Songs seen line (⟨start, calls, loop⟩ :: songs)

end Asap.Spec.Dlt
