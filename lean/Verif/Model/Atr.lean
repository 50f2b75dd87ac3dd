import Verif.Model.Base

/-!
# Reading ATR disk images

`aatr.fu`: disks, directories, the recursive lister and file streams.  The disk image is read with
`AATRStdio_Read` of `aatr-stdio.c`.
-/

namespace Asap.Atr
open Asap

/-- `AATRStdio_Read`, aatr-stdio.c:33-38, for an image that is a regular file: what there is is stored, success means that
all of it was there.  A read error other than the end of the file is not modelled.  Storing outside of the buffer is `ub`. -/
def readAt (image : List Nat) (offset : Nat) (buffer : List Nat) (length : Nat) : M (Bool × List Nat) :=
  if length > buffer.length then .error .ub
  else
    let got := (image.drop offset).take length
    .ok (got.length = length, got ++ buffer.drop got.length)

/-- `AATR`, aatr.fu:23-35, with the contents of the image. -/
structure Disk where
  image : List Nat
  bytesPerSector : Nat
  sector4Offset : Nat

/-- `Open`, aatr.fu:39-67; `none` stands for `false`. -/
def openDisk (image : List Nat) : M (Option Disk) := do
  let r ← readAt image 0 [0, 0, 0, 0, 0, 0] 6
  let h0 ← rd r.2 0
  let h1 ← rd r.2 1
  let h2 ← rd r.2 2
  let h4 ← rd r.2 4
  let h5 ← rd r.2 5
  let bytesPerSector := h4 + 256 * h5
  if r.1 = false ∨ h0 ≠ 0x96 ∨ h1 ≠ 2 then .ok none
  else if bytesPerSector = 0x80 then .ok (some ⟨image, bytesPerSector, 0x190⟩)
  else if bytesPerSector = 0x100 then .ok (some ⟨image, bytesPerSector, if h2 % 16 = 0 then 0x310 else 0x190⟩)
  else .ok none

/-- `ReadSector`, aatr.fu:72-83.  Sector numbers are never negative here: aatr.fu:140, aatr.fu:362. -/
def Disk.readSector (d : Disk) (sectorNo : Nat) (buffer : List Nat) (length : Nat) : M (Bool × List Nat) :=
  if sectorNo < 4 then
    if sectorNo < 1 ∨ length > 128 then .ok (false, buffer)
    else readAt d.image (sectorNo * 128 - 0x70) buffer length
  else readAt d.image (d.sector4Offset + (sectorNo - 4) * d.bytesPerSector) buffer length

/-! ## Directories -/

/-- `AATRDirectory`, aatr.fu:87-93; the name is the result of `nextEntry`. -/
structure Dir where
  disk : Disk
  firstSector : Nat
  fileNo : Int
  sector : List Nat

/-- `OpenRoot`, aatr.fu:100-107, on a directory with any sector buffer. -/
def Dir.openRoot (d : Dir) (disk : Disk) : Dir := { d with disk := disk, firstSector := 361, fileNo := -1 }

/-- The loop for spaces, aatr.fu:116-119: `n` more characters from `i` on. -/
def padded (sec : List Nat) (i : Nat) : Nat → M Bool
  | 0 => .ok true
  | n + 1 => do
    let c ← rd sec i
    if c ≠ 32 then .ok false else padded sec (i + 1) n

/-- The characters of names, aatr.fu:122-124. -/
def isNameChar (c : Nat) : Bool := (65 ≤ c && c ≤ 90) || (48 ≤ c && c ≤ 57) || c == 95

/-- `GetFilenamePart`, aatr.fu:109-129, after `length` characters, with `n` characters left; `none` stands for -1. -/
def namePart (sec : List Nat) (start : Nat) (length : Nat) : Nat → M (Option Nat)
  | 0 => .ok (some length)
  | n + 1 => do
    let c ← rd sec (start + length)
    if c = 32 then do
      let p ← padded sec (start + length + 1) n
      .ok (if p then some length else none)
    else if isNameChar c then namePart sec start (length + 1) n
    else .ok none

/-- `Encoding.UTF8.GetString`, aatr.fu:163. -/
def getString (sec : List Nat) (start length : Nat) : M (List Nat) :=
  if start + length ≤ sec.length then .ok ((sec.drop start).take length) else .error .ub

/-- The name from its two parts, aatr.fu:163-169, and the changed sector buffer. -/
def fullName (sec : List Nat) (offset nameLength extLength : Nat) : M (List Nat × List Nat) := do
  let name ← getString sec (offset + 5) nameLength
  if extLength > 0 then do
    let sec' := sec.set (offset + 12) 46
    let ext ← getString sec' (offset + 12) (1 + extLength)
    .ok (name ++ ext, sec')
  else .ok (name, sec)

/-- The name of an entry, aatr.fu:157-169; `none` is the `continue`. -/
def entryName (sec : List Nat) (offset : Nat) : M (Option (List Nat × List Nat)) := do
  let n ← namePart sec (offset + 5) 0 8
  match n with
  | none => .ok none
  | some nameLength => do
    let e ← namePart sec (offset + 13) 0 3
    match e with
    | none => .ok none
    | some extLength =>
      if nameLength = 0 ∧ extLength = 0 then .ok none
      else do
        let r ← fullName sec offset nameLength extLength
        .ok (some r)

/-- The low bits and the two highest bits of the first byte of an entry: `& 0xd7`, aatr.fu:142. -/
def maskType (b : Nat) : Nat := b % 8 + b / 16 % 2 * 16 + b / 64 % 4 * 64

/-- The `switch`, aatr.fu:142-156, without the end of the directory: whether the entry is listed. -/
def isListed (bytesPerSector type : Nat) : Bool :=
  if type = 0x40 then bytesPerSector == 128 else type == 0x42 || type == 0x03 || type == 0x46 || type == 0x10

/-- Reading of the sector of an entry, aatr.fu:140-141; `false` is the return of `null`. -/
def Dir.fetch (d : Dir) (offset : Nat) : M (Bool × List Nat) :=
  if offset = 0 then d.disk.readSector (d.firstSector + (d.fileNo / 8).toNat) d.sector 128 else .ok (true, d.sector)

/-- `NextEntry`, aatr.fu:133-171; `none` stands for `null`. -/
def Dir.nextEntry : Nat → Dir → M (Option (List Nat) × Dir)
  | 0, _ => .error .fuel
  | fuel + 1, d =>
    if d.fileNo ≥ 63 then .ok (none, d)
    else do
      let d := { d with fileNo := d.fileNo + 1 }
      let offset := (d.fileNo % 8).toNat * 16
      let r ← d.fetch offset
      let d := { d with sector := r.2 }
      if r.1 = false then .ok (none, d)
      else do
        let b ← rd d.sector offset
        let type := maskType b
        if type = 0 then .ok (none, d)
        else if isListed d.disk.bytesPerSector type = false then Dir.nextEntry fuel d
        else do
          let n ← entryName d.sector offset
          match n with
          | none => Dir.nextEntry fuel d
          | some (name, sec) => .ok (some name, { d with sector := sec })

/-- `GetEntryType`, aatr.fu:173-177. -/
def Dir.entryType (d : Dir) : M Nat := do
  let b ← rd d.sector ((d.fileNo % 8).toNat * 16)
  .ok (maskType b)

/-- `IsEntryDirectory`, aatr.fu:180. -/
def Dir.isEntryDirectory (d : Dir) : M Bool := do
  let t ← d.entryType
  .ok (t == 0x10)

/-- `GetEntryFirstSector`, aatr.fu:182-186. -/
def Dir.entryFirstSector (d : Dir) : M Nat := do
  let lo ← rd d.sector ((d.fileNo % 8).toNat * 16 + 3)
  let hi ← rd d.sector ((d.fileNo % 8).toNat * 16 + 4)
  .ok (lo + 256 * hi)

/-- `Open`, aatr.fu:189-196: `d`, with its sector buffer, opens the subdirectory at which `source` points. -/
def Dir.openSub (d : Dir) (source : Dir) : M Dir := do
  let first ← source.entryFirstSector
  .ok { d with disk := source.disk, firstSector := first, fileNo := -1 }

/-- `FindEntry`, aatr.fu:200-211. -/
def Dir.findEntry : Nat → Dir → List Nat → M (Bool × Dir)
  | 0, _, _ => .error .fuel
  | fuel + 1, d, name => do
    let r ← Dir.nextEntry 65 d
    match r.1 with
    | none => .ok (false, r.2)
    | some n => if n = name then .ok (true, r.2) else Dir.findEntry fuel r.2 name

/-- One directory of a path, aatr.fu:223-228. -/
def Dir.enter (d : Dir) (name : List Nat) : M (Option Dir) :=
  if name.length > 12 then .ok none
  else do
    let r ← Dir.findEntry 65 d name
    if r.1 = false then .ok none
    else do
      let isDir ← r.2.isEntryDirectory
      if isDir = false then .ok none
      else do
        let d' ← r.2.openSub r.2
        .ok (some d')

/-- `FindEntryRecursively`, aatr.fu:215-236: the path is what is left from `j` on, `part` is what there is from `i` to `j`. -/
def Dir.findPath (d : Dir) (part : List Nat) : List Nat → M (Bool × Dir)
  | [] => if part.length > 12 then .ok (false, d) else Dir.findEntry 65 d part
  | c :: path =>
    if c = 47 then do
      let r ← d.enter part
      match r with
      | none => .ok (false, d)
      | some d' => Dir.findPath d' [] path
    else Dir.findPath d (part ++ [c]) path

/-! ## The recursive lister -/

/-- `AATRRecursiveLister`, aatr.fu:240-246.  The 20 directories are a list, so that an access outside is visible. -/
structure Lister where
  dirs : List Dir
  depth : Nat
  path : List Nat

/-- `Open`, aatr.fu:253-260. -/
def Lister.openDisk (l : Lister) (disk : Disk) : M Lister :=
  match l.dirs[0]? with
  | none => .error .ub
  | some d => .ok { dirs := l.dirs.set 0 (d.openRoot disk), depth := 0, path := [] }

/-- The path without its last directory, aatr.fu:272-275: everything up to the last slash before the final one. -/
def parentPath (path : List Nat) : List Nat := (path.dropLast.reverse.dropWhile (· ≠ 47)).reverse

/-- Entering a subdirectory, aatr.fu:281-283. -/
def Lister.descend (l : Lister) (d : Dir) (name : List Nat) : M Lister :=
  match l.dirs[l.depth + 1]? with
  | none => .error .ub
  | some sub => do
    let sub' ← sub.openSub d
    .ok { dirs := l.dirs.set (l.depth + 1) sub', depth := l.depth + 1, path := l.path ++ name ++ [47] }

/-- `NextFile`, aatr.fu:264-292. -/
def Lister.nextFile : Nat → Lister → M (Option (List Nat) × Lister)
  | 0, _ => .error .fuel
  | fuel + 1, l =>
    match l.dirs[l.depth]? with
    | none => .error .ub
    | some d => do
      let r ← Dir.nextEntry 65 d
      let l := { l with dirs := l.dirs.set l.depth r.2 }
      match r.1 with
      | none =>
        if l.depth = 0 then .ok (none, l)
        else Lister.nextFile fuel { l with path := parentPath l.path, depth := l.depth - 1 }
      | some name => do
        let isDir ← r.2.isEntryDirectory
        if isDir = false then .ok (some (l.path ++ name), l)
        else if l.depth ≥ 19 then Lister.nextFile fuel l
        else do
          let l' ← l.descend r.2 name
          Lister.nextFile fuel l'

/-! ## File streams -/

/-- `AATRFileStream`, aatr.fu:299-307. -/
structure Stream where
  disk : Disk
  firstSector : Nat
  fileType : Nat
  position : Nat
  nextSector : Nat
  sector : List Nat
  sectorOffset : Nat

/-- `Rewind`, aatr.fu:313-318. -/
def Stream.rewind (s : Stream) : Stream := { s with position := 0, nextSector := s.firstSector, sectorOffset := 255 }

/-- The bits `& 6`, aatr.fu:327. -/
def fileBits (type : Nat) : Nat := type / 2 % 4 * 2

/-- `Open`, aatr.fu:321-329: on a stream with any sector buffer. -/
def Stream.openFile (s : Stream) (d : Dir) : M Stream := do
  let first ← d.entryFirstSector
  let type ← d.entryType
  .ok ({ s with disk := d.disk, firstSector := first, fileType := fileBits type }).rewind

/-- Number of bytes in a sector, given its last byte, aatr.fu:344-353; `none` is the return of -1. -/
def sectorCount (fileType bytesPerSector last : Nat) : Option Nat :=
  if fileType = 0 then some (if last < 128 then 125 else last - 128)
  else if last > bytesPerSector then none
  else some last

/-- The number of the next sector, aatr.fu:359-362. -/
def nextOf (fileType bytesPerSector : Nat) (sec : List Nat) : M Nat := do
  let hi ← rd sec (bytesPerSector - 3)
  let lo ← rd sec (bytesPerSector - 2)
  .ok ((if fileType = 6 then hi else hi % 4) * 256 + lo)

/-- `Sector.CopyTo`, aatr.fu:367-368; nothing is stored if there is no buffer. -/
def copyOut (sec : List Nat) (offset : Nat) (buffer : Option (List Nat)) (at' n : Nat) : M (Option (List Nat)) :=
  match buffer with
  | none => .ok none
  | some b =>
    if offset + n ≤ sec.length ∧ at' + n ≤ b.length then .ok (some (b.take at' ++ (sec.drop offset).take n ++ b.drop (at' + n)))
    else .error .ub

/-- The loop of `Read`, aatr.fu:343-375: the result, the buffer and the stream. -/
def Stream.readLoop : Nat → Stream → Option (List Nat) → Nat → Nat → Nat → M (Int × Option (List Nat) × Stream)
  | 0, _, _, _, _, _ => .error .fuel
  | fuel + 1, s, buffer, offset, total, length =>
    if length = 0 then .ok ((total : Int), buffer, s)
    else do
      let last ← rd s.sector (s.disk.bytesPerSector - 1)
      match sectorCount s.fileType s.disk.bytesPerSector last with
      | none => .ok (-1, buffer, s)
      | some got =>
        if got ≤ s.sectorOffset then do
          let r ← s.disk.readSector s.nextSector s.sector s.disk.bytesPerSector
          let s := { s with sector := r.2 }
          if r.1 = false then .ok ((total : Int), buffer, s)
          else do
            let next ← nextOf s.fileType s.disk.bytesPerSector s.sector
            Stream.readLoop fuel { s with sectorOffset := 0, nextSector := next } buffer offset total length
        else do
          let n := min (got - s.sectorOffset) length
          let b ← copyOut s.sector s.sectorOffset buffer (offset + total) n
          Stream.readLoop fuel { s with position := s.position + n, sectorOffset := s.sectorOffset + n } b offset (total + n) (length - n)

/-- `Read`, aatr.fu:333-376; a negative length is the same as 0. -/
def Stream.read (fuel : Nat) (s : Stream) (buffer : Option (List Nat)) (offset : Nat) (length : Int) : M (Int × Option (List Nat) × Stream) :=
  s.readLoop fuel buffer offset 0 length.toNat

/-- `SetPosition`, aatr.fu:386-395. -/
def Stream.setPosition (fuel : Nat) (s : Stream) (position : Int) : M (Bool × Stream) :=
  let toSkip := position - s.position
  if toSkip ≥ 0 then do
    let r ← s.read fuel none 0 toSkip
    .ok (r.1 = toSkip, r.2.2)
  else do
    let r ← s.rewind.read fuel none 0 position
    .ok (r.1 = position, r.2.2)

/-- `GetLength`, aatr.fu:398-404. -/
def Stream.getLength (fuel : Nat) (s : Stream) : M (Int × Stream) := do
  let position : Int := s.position
  let r ← s.read fuel none 0 (0x7fffffff - position)
  let p ← r.2.2.setPosition fuel position
  .ok (position + r.1, p.2)

end Asap.Atr
