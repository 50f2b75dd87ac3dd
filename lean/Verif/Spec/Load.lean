import Verif.Model.Info

/-! # Binary blocks of a SAP file -/

namespace Asap.Spec

/-- A block: bytes and the address of the first one, optionally preceded by `FF FF`. -/
structure Block where
  marked : Bool
  start : Nat
  bytes : List Nat

/-- Blocks that can be told apart: not empty, inside the memory; a block at `FFFF` has to be marked. -/
structure Block.WellFormed (b : Block) : Prop where
  nonempty : b.bytes ≠ []
  bytes : AllBytes b.bytes
  room : b.start + b.bytes.length ≤ 65536
  marker : b.marked = false → b.start ≠ 0xffff

/-- A 16-bit number, low byte first. -/
def word (n : Nat) : List Nat := [n % 256, n / 256]

/-- Addresses of the first and the last byte, then the bytes. -/
def Block.body (b : Block) : List Nat := word b.start ++ word (b.start + b.bytes.length - 1) ++ b.bytes

/-- A block in the file. -/
def Block.encode (b : Block) : List Nat := (if b.marked then [0xff, 0xff] else []) ++ b.body

/-- Blocks in the file. -/
def encodeBlocks (bs : List Block) : List Nat := bs.flatMap Block.encode

/-- The memory after a block is put into it. -/
def Block.put (b : Block) (mem : Int → Int) : Int → Int := fun a =>
  if (b.start : Int) ≤ a ∧ a < b.start + b.bytes.length then (b.bytes.getD (a - b.start).toNat 0 : Nat) else mem a

/-- The memory after all blocks are put into an empty memory, in order. -/
def image (bs : List Block) : Int → Int := bs.foldl (fun mem b => b.put mem) fun _ => 0

end Asap.Spec
