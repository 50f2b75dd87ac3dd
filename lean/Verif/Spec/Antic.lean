import Verif.Spec.FlashPack

/-!
# The screen of the Atari

ANTIC, the video chip, reads a list of instructions, one or more bytes for each strip of the screen, from the top to the bottom.
Here, with a playfield of 32 columns.
-/

namespace Asap.Spec.Antic

/-- A strip of the screen. -/
inductive Strip
  /-- Empty scan lines. -/
  | blank (height : Nat)
  /-- Graphics of a mode, which bytes, and whether they scroll vertically. -/
  | row (mode : Nat) (scroll : Bool) (bytes : List Nat)

/-- The bytes in a row: 32 characters in mode 2, 8 bytes with 32 pixels in mode 8. -/
def width (mode : Nat) : Nat := if mode = 2 then 32 else 8

/-- The address of the next byte of instructions: ANTIC counts them in ten bits. -/
def nextIns (a : Nat) : Nat := a / 1024 * 1024 + (a + 1) % 1024

/-- The address of the next row: ANTIC counts bytes on the screen in twelve bits. -/
def nextRow (a n : Nat) : Nat := a / 4096 * 4096 + (a + n) % 4096

/-- The `n` bytes from the address `a` on. -/
def bytesAt (mem : Nat → Nat) (a n : Nat) : List Nat := (List.range n).map fun k => mem (a + k)

/-- `Frame mem pc scan strips again`: from the instruction at `pc`, with the next row at `scan`, these strips appear, down to the end of
the frame; the next one begins with the instruction at `again`. -/
inductive Frame (mem : Nat → Nat) : Nat → Nat → List Strip → Nat → Prop
  /-- End of the frame. -/
  | wait {pc scan} : mem pc = 0x41 → Frame mem pc scan [] (mem (nextIns pc) + 256 * mem (nextIns (nextIns pc)))
  /-- One to eight empty lines. -/
  | blank {pc scan n strips again} : n < 8 → mem pc = 16 * n → Frame mem (nextIns pc) scan strips again →
      Frame mem pc scan (.blank (n + 1) :: strips) again
  /-- A row that follows the previous one in the memory. -/
  | row {pc scan mode scroll strips again} : mode = 2 ∨ mode = 8 → mem pc = mode + (if scroll then 0x20 else 0) →
      Frame mem (nextIns pc) (nextRow scan (width mode)) strips again →
      Frame mem pc scan (.row mode scroll (bytesAt mem scan (width mode)) :: strips) again
  /-- A row from another place. -/
  | rowFrom {pc scan mode scroll place strips again} : mode = 2 ∨ mode = 8 → mem pc = 0x40 + mode + (if scroll then 0x20 else 0) →
      place = mem (nextIns pc) + 256 * mem (nextIns (nextIns pc)) →
      Frame mem (nextIns (nextIns (nextIns pc))) (nextRow place (width mode)) strips again →
      Frame mem pc scan (.row mode scroll (bytesAt mem place (width mode)) :: strips) again

/-- `n` lines of text; `last` says if the last of them scrolls. -/
def text (last : Bool) : Nat → List Nat → List Strip
  | 0, _ => []
  | n + 1, s => .row 2 (last && n == 0) (s.take 32) :: text last n (s.drop 32)

/-- The title screen: first as many empty lines as bring the last line of text to a fixed place; the title, a bar, the author or authors, the date line. -/
def titleScreen (title author date : List Nat) : List Strip :=
  List.replicate (26 - (title.length / 32 + author.length / 32 + date.length / 32)) (.blank 8) ++ [.blank 4] ++
  text true (title.length / 32) title ++ [.row 8 false (List.replicate 8 0x55), .blank 1] ++
  text false (author.length / 32) author ++ [.blank 2] ++ text false (date.length / 32) date

/-- The number of scan lines: rows of either mode have eight. -/
def height : List Strip → Nat
  | [] => 0
  | .blank n :: rest => n + height rest
  | .row _ _ _ :: rest => 8 + height rest

/-- The characters in mode 2, from the top to the bottom. -/
def characters : List Strip → List Nat
  | [] => []
  | .blank _ :: rest => characters rest
  | .row mode _ bytes :: rest => (if mode = 2 then bytes else []) ++ characters rest

/-- `Shows image list strips`: whatever else is in the memory, the instructions at `list` show these strips over and over. -/
def Shows (image : Nat → Option Nat) (list : Nat) (strips : List Strip) : Prop :=
  ∀ mem : Nat → Nat, (∀ a b, image a = some b → mem a = b) → ∀ scan, Frame mem list scan strips list

end Asap.Spec.Antic
