import Verif.Model.Info

/-!
# Filename extensions: asapinfo.fu 1350-1421, 1424-1462 (asap.c 3983-4060)

`int` is 32 bits wide; the packed extension is kept modulo 2^32.  (In C the left shift of a
large `int` is formally undefined; every compiler in use wraps.)
-/

namespace Asap

/-- `PackExt`, asapinfo.fu:1350-1353. -/
def packExt (ext : List Nat) : Nat :=
  match ext with
  | [a, b] => if a ≤ 122 ∧ b ≤ 122 then a ||| (b * 256) ||| 0x202020 else 0
  | [a, b, c] =>
    if a ≤ 122 ∧ b ≤ 122 ∧ c ≤ 122 then a ||| (b * 256) ||| (c * 65536) ||| 0x202020 else 0
  | _ => 0

/-- Loop of `GetPackedExt`, asapinfo.fu:1358-1365, walking down the characters: the argument is
the reversed not yet visited part of the filename.  The loop condition `--i > 0` never looks at
the first character. -/
def packedExtLoop (rev : List Nat) (ext : Nat) : Nat :=
  match rev with
  | [] => 0
  | [_] => 0
  | c :: rest =>
    if c ≤ 32 ∨ c > 122 then 0
    else if c = 46 then ext ||| 0x202020
    else packedExtLoop rest ((ext * 256 + c) % 2 ^ 32)

/-- `GetPackedExt`, asapinfo.fu:1355-1367. -/
def getPackedExt (filename : List Nat) : Nat := packedExtLoop filename.reverse 0

/-- The formats `Load` dispatches to, asapinfo.fu:1483-1538. -/
inductive Format where
  | sap | cmc | cm3 | cmr | cms | dmc | dlt | mpt | mpd | rmt | tmc | tm8 | tm2 | fc
  deriving DecidableEq, Repr

/-- The `switch (ext)` in `Load`, asapinfo.fu:1483-1538 (asap.c:4092-4125). -/
def formatOf (ext : Nat) : Option Format :=
  if ext = packExt (ascii "SAP") then some .sap
  else if ext = packExt (ascii "CMC") then some .cmc
  else if ext = packExt (ascii "CM3") then some .cm3
  else if ext = packExt (ascii "CMR") then some .cmr
  else if ext = packExt (ascii "CMS") then some .cms
  else if ext = packExt (ascii "DMC") then some .dmc
  else if ext = packExt (ascii "DLT") then some .dlt
  else if ext = packExt (ascii "MPT") then some .mpt
  else if ext = packExt (ascii "MPD") then some .mpd
  else if ext = packExt (ascii "RMT") then some .rmt
  else if ext = packExt (ascii "TMC") then some .tmc
  else if ext = packExt (ascii "TM8") then some .tm8
  else if ext = packExt (ascii "TM2") then some .tm2
  else if ext = packExt (ascii "FC") then some .fc
  else none

/-- `IsOurPackedExt`, asapinfo.fu:1369-1395 (asap.c:4002-4023). -/
def isOurPackedExt (ext : Nat) : Bool :=
  [packExt (ascii "SAP"), packExt (ascii "CMC"), packExt (ascii "CM3"), packExt (ascii "CMR"),
   packExt (ascii "CMS"), packExt (ascii "DMC"), packExt (ascii "DLT"), packExt (ascii "MPT"),
   packExt (ascii "MPD"), packExt (ascii "RMT"), packExt (ascii "TMC"), packExt (ascii "TM8"),
   packExt (ascii "TM2"), packExt (ascii "FC")].contains ext

/-- `IsOurFile`, asapinfo.fu:1399-1402. -/
def isOurFile (filename : List Nat) : Bool := isOurPackedExt (getPackedExt filename)

/-- `IsOurExt`, asapinfo.fu:1406-1409. -/
def isOurExt (ext : List Nat) : Bool := isOurPackedExt (packExt ext)

/-- The loop of `Load`, asapinfo.fu:1437-1446, scanning down from the end of the filename:
returns `(ext, basename)`, `ext = none` when no dot was met in the base name. -/
def splitName (rev : List Nat) (ext : Option Nat) : Option Nat × Nat :=
  match rev with
  | [] => (ext, 0)
  | c :: rest =>
    if c = 47 ∨ c = 92 then (ext, rest.length + 1)
    else splitName rest (if c = 46 then some rest.length else ext)

/-- Filename handling of `Load`, asapinfo.fu:1433-1455: the stored `Filename` and the packed
extension. -/
def loadName (filename : List Nat) : M (List Nat × Nat) :=
  match splitName filename.reverse none with
  | (none, _) => raise "Filename has no extension"
  | (some ext, basename) =>
    .ok ((filename.drop basename).take (min (ext - basename) maxTextLength), getPackedExt filename)

end Asap
