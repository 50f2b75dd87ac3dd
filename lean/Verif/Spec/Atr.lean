import Verif.Model.Base

/-!
# ATR disk images

What sectors, files and directory entries are, given the bytes of the image.
-/

namespace Asap.Spec.Atr

/-- The kind of a file: DOS 1; DOS 2 and 2.5; MyDOS, with sectors above 1023. -/
inductive Kind where
  | dos1
  | dos2
  | mydos
  deriving DecidableEq

/-- An image with a header of 16 bytes; `start` is where the fourth sector begins. -/
structure Image where
  bytes : List Nat
  sectorSize : Nat
  start : Nat

/-- The image has the header of a disk with sectors of 128 bytes, or 256 bytes with the three boot sectors shortened to 128 bytes or padded. -/
def IsImage (i : Image) : Prop :=
  6 ≤ i.bytes.length ∧ i.bytes[0]? = some 0x96 ∧ i.bytes[1]? = some 2 ∧ (∃ lo hi, i.bytes[4]? = some lo ∧ i.bytes[5]? = some hi ∧ i.sectorSize = lo + 256 * hi) ∧
  (i.sectorSize = 128 ∧ i.start = 16 + 3 * 128 ∨
    i.sectorSize = 256 ∧ ∃ b, i.bytes[2]? = some b ∧ i.start = 16 + 3 * (if b % 16 = 0 then 256 else 128))

/-- Where a sector begins, counted from 1.  The boot sectors are 128 bytes long. -/
def place (i : Image) (n : Nat) : Nat := if n < 4 then 16 + (n - 1) * 128 else i.start + (n - 4) * i.sectorSize

/-- The full sector of this number.  Boot sectors are not full if sectors have 256 bytes. -/
def sector (i : Image) (n : Nat) : Option (List Nat) :=
  if n = 0 ∨ (n < 4 ∧ i.sectorSize ≠ 128) then none
  else if place i n + i.sectorSize ≤ i.bytes.length then some ((i.bytes.drop (place i n)).take i.sectorSize)
  else none

/-- A byte, counted from the end of the sector: 1 is the last one. -/
def fromEnd (data : List Nat) (k : Nat) : Nat := data[data.length - k]?.getD 0

/-- How many bytes of the sector belong to the file: the last byte of the sector.  In DOS 1 there are 125, and in the last sector, marked with the highest
bit, those many.  `none` if there cannot be as many. -/
def used (kind : Kind) (data : List Nat) : Option Nat :=
  match kind with
  | .dos1 => some (if fromEnd data 1 < 128 then 125 else fromEnd data 1 - 128)
  | _ => if fromEnd data 1 ≤ data.length then some (fromEnd data 1) else none

/-- The number of the next sector: the third byte from the end (in DOS, the other six bits of it are the number of the file) and the second one. -/
def next (kind : Kind) (data : List Nat) : Nat :=
  (match kind with | .mydos => fromEnd data 3 | _ => fromEnd data 3 % 4) * 256 + fromEnd data 2

/-- `Chain i kind n sectors contents`: the file that begins in sector `n` ends after that many sectors, and these are its contents. It ends with a link to a sector which
is not there, such as 0. -/
inductive Chain (i : Image) (kind : Kind) : Nat → Nat → List Nat → Prop
  | stop {n : Nat} : sector i n = none → Chain i kind n 0 []
  | link {n k c : Nat} {data rest : List Nat} : sector i n = some data → used kind data = some c → Chain i kind (next kind data) k rest →
      Chain i kind n (k + 1) (data.take c ++ rest)

/-- A sector with no bytes of the file. -/
def Empty (i : Image) (kind : Kind) (n : Nat) : Prop := ∃ data, sector i n = some data ∧ used kind data = some 0

/-- `Linked i kind n m`: sector `n` is empty and followed by sector `m`. -/
def Linked (i : Image) (kind : Kind) (n m : Nat) : Prop := ∃ data, sector i n = some data ∧ used kind data = some 0 ∧ m = next kind data

/-- `Path i kind n m k`: `k > 0` links through empty sectors lead from `n` to `m`. -/
inductive Path (i : Image) (kind : Kind) : Nat → Nat → Nat → Prop
  | one {n m : Nat} : Linked i kind n m → Path i kind n m 1
  | more {n m l k : Nat} : Linked i kind n m → Path i kind m l k → Path i kind n l (k + 1)

/-! ## Directories -/

/-- A character of file names. -/
def NameChar (c : Nat) : Prop := (65 ≤ c ∧ c ≤ 90) ∨ (48 ≤ c ∧ c ≤ 57) ∨ c = 95

instance (c : Nat) : Decidable (NameChar c) := inferInstanceAs (Decidable (_ ∨ _))

/-- A file name: up to eight characters, or up to eight characters, a dot and one to three characters. -/
def FileName (name : List Nat) : Prop :=
  (∃ base, name = base ∧ 1 ≤ base.length ∧ base.length ≤ 8 ∧ ∀ c ∈ base, NameChar c) ∨
  ∃ base ext, name = base ++ 46 :: ext ∧ base.length ≤ 8 ∧ 1 ≤ ext.length ∧ ext.length ≤ 3 ∧ (∀ c ∈ base, NameChar c) ∧ ∀ c ∈ ext, NameChar c

/-- The path of a file: names separated with slashes, in that many directories. -/
inductive FilePath : Nat → List Nat → Prop
  | file {name : List Nat} : FileName name → FilePath 0 name
  | dir {name path : List Nat} {k : Nat} : FileName name → FilePath k path → FilePath (k + 1) (name ++ 47 :: path)

/-- The first 128 bytes of a sector. -/
def dirSector (i : Image) (n : Nat) : Option (List Nat) :=
  if n = 0 then none
  else if place i n + 128 ≤ i.bytes.length then some ((i.bytes.drop (place i n)).take 128)
  else none

/-- A directory is eight consecutive sectors, each with eight entries of 16 bytes. -/
def entry (i : Image) (first k : Nat) : Option (List Nat) := (dirSector i (first + k / 8)).map fun s => (s.drop (k % 8 * 16)).take 16

/-- The type of an entry, without the bits that are not used or mean that it is locked. -/
def entryType (e : List Nat) : Nat := e[0]?.getD 0 &&& 0xd7

/-- Files of DOS 1 (with sectors of 128 bytes only), DOS 2, DOS 2.5 and MyDOS, and directories. -/
def isKnown (size type : Nat) : Bool := (type = 0x40 ∧ size = 128) ∨ type = 0x42 ∨ type = 0x03 ∨ type = 0x46 ∨ type = 0x10

/-- A part of a name, padded with spaces. -/
def part (field : List Nat) : Option (List Nat) :=
  let name := field.takeWhile (· ≠ 32)
  if (∀ c ∈ name, NameChar c) ∧ ∀ c ∈ field.drop name.length, c = 32 then some name else none

/-- The name in an entry, if there is a correct one. -/
def entryName (e : List Nat) : Option (List Nat) :=
  match part ((e.drop 5).take 8), part ((e.drop 13).take 3) with
  | some base, some ext => if ext = [] then (if base = [] then none else some base) else some (base ++ 46 :: ext)
  | _, _ => none

/-- The name of an entry that is listed. -/
def listed (size : Nat) (e : List Nat) : Option (List Nat) := if isKnown size (entryType e) then entryName e else none

/-- Whether the directory goes on with this entry: a type of 0 is the end. -/
def goesOn (e : Option (List Nat)) : Bool := e.any fun e => entryType e ≠ 0

/-- The entries of a directory from the given one on. -/
def entries (i : Image) (first k : Nat) : List (List Nat) := (((List.range' k (64 - k)).map (entry i first)).takeWhile goesOn).filterMap id

/-- The names listed for a directory. -/
def names (i : Image) (first : Nat) : List (List Nat) := (entries i first 0).filterMap (listed i.sectorSize)

/-- The sector in which the file or directory begins. -/
def entryStart (e : List Nat) : Nat := e[3]?.getD 0 + 256 * e[4]?.getD 0

/-- The kind of a file, from the type of its entry. -/
def fileKind (type : Nat) : Kind := if type = 0x40 then .dos1 else if type = 0x46 then .mydos else .dos2

/-- The paths that an entry of a directory with this path stands for; `inside` gives those in a directory. -/
def pathsOf (i : Image) (inside : Nat → List Nat → List (List Nat)) (path e : List Nat) : List (List Nat) :=
  match listed i.sectorSize e with
  | none => []
  | some name => if entryType e = 0x10 then inside (entryStart e) (path ++ name ++ [47]) else [path ++ name]

/-- The paths of the files in the rest of a directory and, where they are, in the directories in it, directories in those, and so on, up to the given depth. -/
def files (i : Image) : Nat → Nat → Nat → List Nat → List (List Nat)
  | 0, first, k, path => (entries i first k).flatMap (pathsOf i (fun _ _ => []) path)
  | depth + 1, first, k, path => (entries i first k).flatMap (pathsOf i (fun start path => files i depth start 0 path) path)

/-- The first entry of this name. -/
def find (i : Image) (first : Nat) (name : List Nat) : Option (List Nat) := (entries i first 0).find? fun e => listed i.sectorSize e = some name

/-- The entry at a path, given as names of directories and of the last entry. -/
def resolve (i : Image) : Nat → List (List Nat) → Option (List Nat)
  | _, [] => none
  | first, [name] => find i first name
  | first, name :: path => do
    let e ← find i first name
    if entryType e = 0x10 then resolve i (entryStart e) path else none

end Asap.Spec.Atr
