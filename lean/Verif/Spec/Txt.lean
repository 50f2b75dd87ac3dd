import Verif.Model.Txt
import Verif.Spec.Load

/-!
# Texts for SAP files
-/

namespace Asap.Spec.Txt
open Asap

/-- The header of a SAP file as it can be edited: complete lines, which are not binary and do not look like the lines about blocks. -/
inductive Header : List Nat → Prop
  | nil : Header []
  | line (l rest : List Nat) : 10 ∉ l → 0xff ∉ l → ¬ ascii "LOAD " <+: l → Header rest → Header (l ++ 10 :: rest)

/-- What may follow the header in a text: nothing, the lines about blocks, the binary part. -/
def Tail (s : List Nat) : Prop := s = [] ∨ ascii "LOAD " <+: s ∨ [0xff, 0xff] <+: s

/-- The line about a block: the addresses and the checksum. -/
def line (crc : List Nat → Nat) (marked : Bool) (b : Block) : List Nat :=
  (if marked = true then ascii "FFFF " else []) ++ ascii "LOAD " ++ Txt.hex4 b.start ++ ascii "-" ++ Txt.hex4 (b.start + b.bytes.length - 1) ++
    ascii " CRC32=" ++ Txt.hex8 (crc b.bytes) ++ ascii "\r\n"

/-- The lines about the blocks of a file, the first of which is always preceded by `FF FF`. -/
def lines (crc : List Nat → Nat) (b : Block) (bs : List Block) : List Nat := line crc false b ++ bs.flatMap fun x => line crc x.marked x

/-- The value of upper case hexadecimal digits. -/
def value : List Nat → Option Nat
  | [] => some 0
  | s => s.foldl (fun v c => v.bind fun n => if 48 ≤ c ∧ c ≤ 57 then some (16 * n + (c - 48)) else if 65 ≤ c ∧ c ≤ 70 then some (16 * n + (c - 55)) else none) (some 0)

/-- A SAP file: a header and blocks. -/
def sap (h : List Nat) (b : Block) (bs : List Block) : List Nat := h ++ encodeBlocks (b :: bs)

/-- The blocks of a file: the first one is marked, and not again. -/
structure Blocks (b : Block) (bs : List Block) : Prop where
  marked : b.marked = true
  start : b.start ≠ 0xffff
  all : ∀ x ∈ b :: bs, x.WellFormed

end Asap.Spec.Txt
