import Verif.Model.Base

/-!
# Executable compression: flashpack.fu 22-361

`Memory` (shorts, -1 for "not used") is a function to `Option Nat`.  `Compressed` is a list: the check of its size, 65536, is made
once after the last byte, as nothing is thrown while it is filled.
-/

namespace Asap.FlashPack
open Asap

/-- `FlashPackItemType`, flashpack.fu:22-30. -/
inductive ItemType where
  | literal | copyTwoBytes | copyThreeBytes | copyManyBytes | setAddress | endOfStream
  deriving DecidableEq

/-- `FlashPackItem`, flashpack.fu:32-35. -/
structure Item where
  type : ItemType
  value : Int
  deriving DecidableEq

/-- Store into a byte array, flashpack.fu:41. -/
def byte (v : Int) : Nat := (v % 256).toNat

/-- `WriteValueTo`, flashpack.fu:37-64. -/
def Item.bytes (i : Item) : List Nat :=
  match i.type with
  | .literal => [byte i.value]
  | .copyTwoBytes => [byte ((0x80 - i.value) * 2)]
  | .copyThreeBytes => [byte ((0x80 - i.value) * 2 + 1)]
  | .copyManyBytes => [1, byte i.value]
  | .setAddress => [0, byte (i.value - 0x80), byte ((i.value - 0x80) / 256)]
  | .endOfStream => [1, 0]

/-- `Memory`, flashpack.fu:69. -/
abbrev Mem := Nat → Option Nat

/-! ## The hole for the depacker -/

/-- The first loop of `FindHole`, flashpack.fu:79-81; the argument is `end`. -/
def skipUsed (mem : Mem) : Nat → M Nat
  | 0 => if (mem 0).isSome then raise "Too much data to compress" else .ok 0
  | e + 1 =>
    if (mem (e + 1)).isSome then
      if e < 0x2000 + 0x400 then raise "Too much data to compress" else skipUsed mem e
    else .ok (e + 1)

/-- The second loop of `FindHole`, flashpack.fu:82-86: `none` if the hole is large enough, otherwise the new `end`.  The second argument
is `start` before it is decremented. -/
def scanHole (mem : Mem) (stop : Nat) : Nat → M (Option Nat)
  | 0 => .error .ub
  | s + 1 =>
    if (mem s).isSome then .ok (some s)
    else if stop - s ≥ 0x400 - 1 then .ok none
    else scanHole mem stop s

/-- The loop of `FindHole`, flashpack.fu:78-87.  The first argument is fuel. -/
def findHoleLoop (mem : Mem) : Nat → Nat → M Nat
  | 0, _ => .error .fuel
  | fuel + 1, e => do
    let e ← skipUsed mem e
    let r ← scanHole mem e e
    match r with
    | none => .ok e
    | some s => findHoleLoop mem fuel s

/-- `FindHole`, flashpack.fu:73-88. -/
def findHole (mem : Mem) : M Nat := findHoleLoop mem 65536 0xbc1f

/-! ## The stream -/

/-- `Items[0..ItemsCount)` and `Compressed[0..CompressedLength)`, flashpack.fu:90-94. -/
structure Packer where
  items : List Item := []
  out : List Nat := []
  deriving DecidableEq

/-- The loop of `GetInnerFlags`, flashpack.fu:98-106: eight turns, as `flags` is doubled in each. -/
def innerFlagsLoop (items : List Item) : Nat → Nat → Nat → Nat
  | 0, _, flags => flags
  | k + 1, index, flags =>
    match items[index]? with
    | none => innerFlagsLoop items k index (flags * 2)
    | some i => innerFlagsLoop items k (index + 1) (flags * 2 + if i.type = .literal then 0 else 1)

/-- `GetInnerFlags`, flashpack.fu:96-107. -/
def innerFlags (items : List Item) (index : Nat) : Nat := innerFlagsLoop items 8 index 1 % 256

/-- The loop of flashpack.fu:112-115; the arguments are the number of groups left, the group and `outerFlags`. -/
def outerFlagsLoop (items : List Item) : Nat → Nat → Nat → Nat
  | 0, _, flags => flags
  | k + 1, g, flags =>
    if 8 * g < items.length then
      outerFlagsLoop items k (g + 1) (if innerFlags items (8 * g) ≠ 0 then flags ||| (0x80 / 2 ^ g) else flags)
    else flags

/-- The loop of flashpack.fu:117-124: the bytes of the items from the given index on. -/
def itemBytes (items : List Item) : List Item → Nat → List Nat
  | [], _ => []
  | i :: rest, k =>
    (if k % 8 = 0 ∧ innerFlags items k ≠ 0 then [innerFlags items k] else []) ++ i.bytes ++ itemBytes items rest (k + 1)

/-- `PutItems`, flashpack.fu:109-125. -/
def Packer.putItems (p : Packer) : Packer :=
  { p with out := p.out ++ [outerFlagsLoop p.items 8 0 0] ++ itemBytes p.items p.items 0 }

/-- `PutItem`, flashpack.fu:127-136. -/
def Packer.putItem (p : Packer) (i : Item) : Packer :=
  if p.items.length ≥ 64 then { p.putItems with items := [i] } else { p with items := p.items ++ [i] }

/-- Several calls of `PutItem`, e.g. flashpack.fu:185-186. -/
def Packer.putAll (p : Packer) (l : List Item) : Packer := l.foldl Packer.putItem p

/-- `IsLiteralPreferred`, flashpack.fu:138-139. -/
def Packer.literalPreferred (p : Packer) : Bool :=
  decide (p.items.length % 8 = 7 ∧ innerFlags p.items (p.items.length - 7) = 0)

/-! ## Matching -/

/-- The loop of flashpack.fu:157-161: the length of a match; the first argument is the number of addresses left. -/
def matchLen (mem : Mem) (address back : Nat) : Nat → Nat → Nat
  | 0, n => n
  | k + 1, n =>
    match mem (address + n) with
    | none => n
    | some data => if mem (back + n) = some data then matchLen mem address back k (n + 1) else n

/-- The loop of flashpack.fu:155-168: `bestMatch` and `bestDistance`.  The first argument is the number of distances left, the second one
the distance. -/
def bestLoop (mem : Mem) (start stop address : Nat) (last : Int) : Nat → Nat → Nat → Int → Nat × Int
  | 0, _, best, dist => (best, dist)
  | k + 1, d, best, dist =>
    if start + d ≤ address then
      let n := matchLen mem address (address - d) (stop + 1 - address) 0
      if best < n then bestLoop mem start stop address last k (d + 1) n d
      else if best = n ∧ (d : Int) = last then bestLoop mem start stop address last k (d + 1) best last
      else bestLoop mem start stop address last k (d + 1) best dist
    else (best, dist)

/-- `Memory[a]` as the value of an item, flashpack.fu:173. -/
def memValue (mem : Mem) (a : Nat) : Int := ((mem a).getD 0 : Nat)

/-- The loop and the `switch` of flashpack.fu:223-240: items for the given length.  The first argument is fuel. -/
def manyItems (lit : Int) (dist : Int) : Nat → Nat → List Item
  | 0, _ => []
  | fuel + 1, n =>
    if n > 255 then ⟨.copyManyBytes, 255⟩ :: manyItems lit dist fuel (n - 255)
    else if n = 0 then []
    else if n = 1 then [⟨.literal, lit⟩]
    else if n = 2 then [⟨.copyTwoBytes, dist⟩]
    else if n = 3 then [⟨.copyThreeBytes, dist⟩]
    else [⟨.copyManyBytes, n⟩]

/-- The items for a match of at least two bytes, flashpack.fu:175-241; `pref` is `IsLiteralPreferred()`. -/
def matchItems (mem : Mem) (address best : Nat) (dist last : Int) (pref : Bool) : List Item :=
  if best = 2 then [⟨.copyTwoBytes, dist⟩]
  else if best = 3 then [⟨.copyThreeBytes, dist⟩]
  else if best = 4 then
    if dist = last then [⟨.copyManyBytes, 4⟩]
    else if pref then [⟨.literal, memValue mem address⟩, ⟨.copyThreeBytes, dist⟩]
    else [⟨.copyThreeBytes, dist⟩, ⟨.literal, memValue mem (address + 3)⟩]
  else if best = 5 then
    if dist = last then [⟨.copyManyBytes, 5⟩] else [⟨.copyThreeBytes, dist⟩, ⟨.copyTwoBytes, dist⟩]
  else if best = 6 then
    if dist = last then [⟨.copyManyBytes, 6⟩] else [⟨.copyThreeBytes, dist⟩, ⟨.copyThreeBytes, dist⟩]
  else
    let lit := memValue mem (address + best - 1)
    if dist ≠ last then
      if pref = true ∧ best % 255 = 4 then
        [⟨.literal, memValue mem address⟩, ⟨.copyThreeBytes, dist⟩] ++ manyItems lit dist best (best - 1 - 3)
      else [⟨.copyThreeBytes, dist⟩] ++ manyItems lit dist best (best - 3)
    else if pref = true ∧ best % 255 = 1 then [⟨.literal, memValue mem address⟩] ++ manyItems lit dist best (best - 1)
    else manyItems lit dist best best

/-- The inner loop of `CompressMemoryArea`, flashpack.fu:151-245: the packer, `address` and `lastDistance`.  The first argument is fuel. -/
def packRun (mem : Mem) (start stop : Nat) : Nat → Nat → Int → Packer → M (Packer × Nat × Int)
  | 0, _, _, _ => .error .fuel
  | fuel + 1, address, last, p =>
    if address ≤ stop ∧ (mem address).isSome then
      let r := bestLoop mem start stop address last 127 1 0 (-1)
      if r.1 < 2 then packRun mem start stop fuel (address + 1) last (p.putItem ⟨.literal, memValue mem address⟩)
      else
        packRun mem start stop fuel (address + r.1) r.2 (p.putAll (matchItems mem address r.1 r.2 last p.literalPreferred))
    else .ok (p, address, last)

/-- The loop of flashpack.fu:146-148: the next address in use, or `none`; the first argument is the number of addresses left. -/
def skipFree (mem : Mem) : Nat → Nat → Option Nat
  | 0, _ => none
  | k + 1, address => if (mem address).isSome then some address else skipFree mem k (address + 1)

/-- The loop of `CompressMemoryArea`, flashpack.fu:145-246.  The first argument is fuel. -/
def packArea (mem : Mem) (start stop : Nat) : Nat → Nat → Int → Packer → M Packer
  | 0, _, _, _ => .error .fuel
  | fuel + 1, address, last, p =>
    if address ≤ stop then
      match skipFree mem (stop + 1 - address) address with
      | none => .ok p
      | some a => do
        let (p, a, last) ← packRun mem start stop 65537 a last (p.putItem ⟨.setAddress, a⟩)
        packArea mem start stop fuel a last p
    else .ok p

/-- `CompressMemoryArea`, flashpack.fu:141-247. -/
def compressArea (mem : Mem) (start stop : Nat) (p : Packer) : M Packer := packArea mem start stop 65537 start (-1) p

/-- `PutPoke`, flashpack.fu:249-253. -/
def Packer.putPoke (p : Packer) (address value : Int) : Packer := p.putAll [⟨.setAddress, address⟩, ⟨.literal, value⟩]

/-! ## Files -/

/-- The stores of a block, flashpack.fu:273-274. -/
def storeBlock (mem : Mem) (address : Nat) : List Nat → Mem
  | [] => mem
  | b :: rest => storeBlock (fun a => if a = address then some b else mem a) (address + 1) rest

/-- The body of the loop of flashpack.fu:261-275: memory and the new index. -/
def loadXexBlock (xex : List Nat) (mem : Mem) (i : Nat) : M (Mem × Nat) := do
  let w ← getWord xex i
  let i := if w = 0xffff then i + 2 else i
  let start ← getWord xex i
  let stop ← getWord xex (i + 2)
  if start > stop then raise "Start address greater than end address"
  else if i + 4 + stop - start ≥ xex.length then raise "Truncated block"
  else .ok (storeBlock mem start ((xex.drop (i + 4)).take (stop + 1 - start)), i + 4 + (stop + 1 - start))

/-- The loop of flashpack.fu:261-275.  The first argument is fuel. -/
def loadXexLoop (xex : List Nat) : Nat → Nat → Mem → M Mem
  | 0, _, _ => .error .fuel
  | fuel + 1, i, mem =>
    if i + 5 ≤ xex.length then do
      let (mem, i) ← loadXexBlock xex mem i
      loadXexLoop xex fuel i mem
    else .ok mem

/-- The executable in memory, flashpack.fu:259-275; `xex` is `w.Output[0..w.OutputOffset)`. -/
def loadXex (xex : List Nat) : M Mem := loadXexLoop xex (xex.length + 1) 0 (fun _ => none)

/-- The five pokes, flashpack.fu:287-291. -/
def pokes (p : Packer) : Packer :=
  ((((p.putPoke 0xd40e 0).putPoke 0xd20e 0).putPoke 0xd400 0).putPoke 0xd301 0xfe).putPoke 0x244 0xff

/-- The stream, flashpack.fu:285-295. -/
def stream (mem : Mem) (hole : Nat) : M (List Nat) := do
  let p ← compressArea mem hole 0xffff (pokes {})
  let p ← compressArea mem 0 hole p
  let p := (p.putItem ⟨.endOfStream, 0⟩).putItems
  if p.out.length > 65536 then .error .ub else .ok p.out

/-- `WriteWord`, asapwriter.fu:268-273. -/
def word (v : Int) : List Nat := [byte v, byte (v / 256)]

/-- The depacker, flashpack.fu:312-356. -/
def depacker (compressed start run : Int) : List Nat :=
  [0xad] ++ word compressed ++ [0xee] ++ word (start + 1) ++ [0xd0, 0x03] ++ [0xee] ++ word (start + 2) ++ [0x60] ++
  [0x4c] ++ word run ++
  [0x85, 0xfe, 0x8a, 0x2a, 0xaa, 0xf0, 0xf6, 0xb1, 0xfe, 0x99, 0x80, 0x80, 0xc8, 0xd0, 0x09, 0x98, 0x38, 0x65, 0xff, 0x85, 0xff] ++
  [0x8d] ++ word (start + 0x1a) ++ [0xca, 0xd0, 0xec, 0x06, 0xfd, 0xd0, 0x15, 0x06, 0xfc, 0xd0, 0x07, 0x38] ++
  [0x20] ++ word start ++ [0x2a, 0x85, 0xfc, 0xa9, 0x01, 0x90, 0x04] ++ [0x20] ++ word start ++ [0x2a, 0x85, 0xfd] ++
  [0x20] ++ word start ++ [0xa2, 0x01, 0x90, 0xce, 0x4a, 0xd0, 0xc2] ++ [0x20] ++ word start ++ [0xb0, 0xc1, 0xa8] ++
  [0x20] ++ word start ++ [0x90, 0xca]

/-- `Compress`, flashpack.fu:255-361: the new contents of the output.  That it may not fit in the output is not modelled here. -/
def compress (xex : List Nat) : M (List Nat) := do
  let mem ← loadXex xex
  match mem 0x2e0, mem 0x2e1 with
  | some lo, some hi =>
    if (mem 0xfc).isSome ∨ (mem 0xfd).isSome ∨ (mem 0xfe).isSome ∨ (mem 0xff).isSome then raise "Conflict with decompressor variables"
    else do
      let run := lo + 256 * hi
      let mem := fun a => if a = 0x2e0 ∨ a = 0x2e1 then none else mem a
      let hole ← findHole mem
      let s ← stream mem hole
      let start : Int := (hole : Int) - (0x58 - 1)
      let compressed := start - s.length
      if compressed < 0x2000 then raise "Too much compressed data"
      else .ok (word 0xffff ++ word 0xd301 ++ word 0xd301 ++ [0xff] ++ word compressed ++ word hole ++ s ++ depacker compressed start run ++
        word 0x2e0 ++ word 0x2e1 ++ word (start + 0x32))
  | _, _ => raise "Missing run address"

end Asap.FlashPack
