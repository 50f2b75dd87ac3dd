import Verif.Model.Base

/-!
# The format of FlashPack streams, and Atari executables

A stream consists of items in groups of eight.  Eight groups have a common byte that tells, from the highest bit on, which groups have
a byte of flags; the flags, from the highest bit on, tell literals (0) from the other items (1).
-/

namespace Asap.Spec.FlashPack

/-- The bits of a byte, the highest one first. -/
def bits (b : Nat) : List Bool := [7, 6, 5, 4, 3, 2, 1, 0].map fun k => b.testBit k

/-- The state of a depacker. -/
structure Depacker where
  /-- The memory. -/
  ram : Nat → Nat
  /-- Where the next byte goes. -/
  out : Nat
  /-- How far back copies come from. -/
  dist : Nat
  /-- The kinds of the remaining groups. -/
  groups : List Bool
  /-- The kinds of the remaining items in the group. -/
  flags : List Bool
  /-- The rest of the stream. -/
  input : List Nat
  /-- The addresses read or written so far. -/
  used : List Nat

/-- Writing a byte. -/
def Depacker.put (d : Depacker) (b : Nat) : Depacker :=
  { d with ram := fun a => if a = d.out then b else d.ram a, out := (d.out + 1) % 65536, used := d.out :: d.used }

/-- Copying bytes one by one. -/
def Depacker.copy : Nat → Depacker → Depacker
  | 0, d => d
  | n + 1, d =>
    Depacker.copy n (Depacker.put { d with used := (d.out + 65536 - d.dist) % 65536 :: d.used } (d.ram ((d.out + 65536 - d.dist) % 65536)))

/-- `Steps d d'`: the depacker gets from `d` to `d'`. -/
inductive Steps : Depacker → Depacker → Prop
  | done {d} : Steps d d
  /-- The kinds of eight groups. -/
  | groups {d d' b input} : d.flags = [] → d.groups = [] → d.input = b :: input → Steps { d with groups := bits b, input := input } d' → Steps d d'
  /-- A group of literals. -/
  | plain {d d' groups} : d.flags = [] → d.groups = false :: groups → Steps { d with groups := groups, flags := List.replicate 8 false } d' → Steps d d'
  /-- A group with flags. -/
  | mixed {d d' groups b input} : d.flags = [] → d.groups = true :: groups → d.input = b :: input →
      Steps { d with groups := groups, flags := bits b, input := input } d' → Steps d d'
  /-- A literal. -/
  | literal {d d' flags b input} : d.flags = false :: flags → d.input = b :: input →
      Steps (Depacker.put { d with flags := flags, input := input } b) d' → Steps d d'
  /-- A copy of two or three bytes from a new distance. -/
  | copy {d d' flags b input} : d.flags = true :: flags → d.input = b :: input → 2 ≤ b →
      Steps (Depacker.copy (2 + b % 2) { d with flags := flags, input := input, dist := 128 - b / 2 }) d' → Steps d d'
  /-- A copy from the same distance. -/
  | again {d d' flags n input} : d.flags = true :: flags → d.input = 1 :: n :: input → n ≠ 0 →
      Steps (Depacker.copy n { d with flags := flags, input := input }) d' → Steps d d'
  /-- An address. -/
  | goto {d d' flags lo hi input} : d.flags = true :: flags → d.input = 0 :: lo :: hi :: input →
      Steps { d with flags := flags, input := input, out := (lo + 256 * hi + 128) % 65536 } d' → Steps d d'

/-- `Depacks input ram ram' ok`: the stream up to its end mark turns the memory `ram` into `ram'`, and no addresses other than `ok` are
read or written meanwhile. -/
def Depacks (input : List Nat) (ram ram' : Nat → Nat) (ok : Nat → Prop) : Prop :=
  ∀ out dist, ∃ d flags rest, Steps ⟨ram, out, dist, [], [], input, []⟩ d ∧ d.flags = true :: flags ∧ d.input = 1 :: 0 :: rest ∧ d.ram = ram' ∧
    ∀ a ∈ d.used, ok a

/-- `Block b first last data`: the bytes `b` of a file are a block with the data for addresses from `first` to `last`. -/
def Block (b : List Nat) (first last : Nat) (data : List Nat) : Prop :=
  first ≤ last ∧ last < 65536 ∧ data.length = last + 1 - first ∧
  (b = [first % 256, first / 256, last % 256, last / 256] ++ data ∨ b = [255, 255, first % 256, first / 256, last % 256, last / 256] ++ data) ∧
  (first = 65535 → b ≠ [first % 256, first / 256, last % 256, last / 256] ++ data)

/-- `Image file mem`: the file, an Atari executable, puts these bytes into the memory; later blocks override earlier ones. -/
inductive Image : List Nat → (Nat → Option Nat) → Prop
  | empty : Image [] fun _ => none
  | block {file mem b first last data} : Image file mem → Block b first last data →
      Image (file ++ b) fun a => if first ≤ a ∧ a ≤ last then data[a - first]? else mem a

/-- `HasAt mem a l`: the bytes `l` are at the addresses from `a` on. -/
def HasAt (mem : Nat → Option Nat) (a : Nat) (l : List Nat) : Prop := ∀ k, k < l.length → mem (a + k) = l[k]?

/-- `RunsAt mem a`: an executable with this image starts at `a`: the address is at 0x2E0. -/
def RunsAt (mem : Nat → Option Nat) (a : Nat) : Prop := a < 65536 ∧ HasAt mem 0x2e0 [a % 256, a / 256]

/-- The registers NMIEN, IRQEN, DMACTL and PORTB, and COLDST. -/
def Register (a : Nat) : Prop := a = 0xd40e ∨ a = 0xd20e ∨ a = 0xd400 ∨ a = 0xd301 ∨ a = 0x244

/-- Interrupts (NMIEN, IRQEN), screen (DMACTL) and ROM (PORTB) switched off, and a cold start after Reset (COLDST). -/
def quiet (ram : Nat → Nat) (a : Nat) : Nat :=
  if a = 0xd40e ∨ a = 0xd20e ∨ a = 0xd400 then 0 else if a = 0xd301 then 0xfe else if a = 0x244 then 0xff else ram a

/-- The addresses of the image except for 0x2E0 and 0x2E1, and the registers. -/
def Touched (image : Nat → Option Nat) (a : Nat) : Prop := Register a ∨ a ≠ 0x2e0 ∧ a ≠ 0x2e1 ∧ image a ≠ none

/-- `LoadedInto image ram ram'`: the bytes of the image, except for the address at 0x2E0, are in the memory `ram'`, which is otherwise
`ram` with the hardware made quiet. -/
def LoadedInto (image : Nat → Option Nat) (ram ram' : Nat → Nat) : Prop :=
  ∀ a, (a = 0x2e0 ∨ a = 0x2e1 ∨ image a = none → ram' a = quiet ram a) ∧ ∀ b, a ≠ 0x2e0 → a ≠ 0x2e1 → image a = some b → ram' a = b

end Asap.Spec.FlashPack
