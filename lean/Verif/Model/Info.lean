import Verif.Model.Duration

/-!
# `ASAPInfo`: the record and its accessors
asapinfo.fu 22-42, 144-177, 1543-1802 (asap.c 2808-2856, 4128-4365)
-/

namespace Asap

/-- `ASAPModuleType`, asapinfo.fu:22-42 (without the experimental XEX, which the default build
leaves out). -/
inductive ModType where
  | sapB | sapC | sapD | sapS | cmc | cm3 | cmr | cms | dlt | mpt | rmt | tmc | tm2 | fc
  deriving DecidableEq, Repr

/-- `MaxSongs`, asapinfo.fu:142. -/
def maxSongs : Nat := 32

/-- `MaxTextLength`, asapinfo.fu:139. -/
def maxTextLength : Nat := 127

/-- The fields of `ASAPInfo`, asapinfo.fu:144-165.  `Durations`, `Loops` and `SongPos` are
arrays of 32 entries, here functions on the index; every index used by the code is checked by the
model to be below 32. -/
structure Info where
  filename : List Nat := []
  author : List Nat := []
  title : List Nat := []
  date : List Nat := []
  channels : Nat := 1
  songs : Nat := 1
  defaultSong : Nat := 0
  durations : Nat → Int := fun _ => -1
  loops : Nat → Bool := fun _ => false
  ntsc : Bool := false
  type : ModType := .sapB
  fastplay : Int := 312
  music : Int := -1
  init : Int := -1
  player : Int := -1
  covoxAddr : Int := -1
  headerLen : Int := 0
  songPos : Nat → Nat := fun _ => 0

/-- Pointwise update of an array modelled as a function, e.g. asapinfo.fu:1704-1714. -/
def upd {α : Type} (f : Nat → α) (i : Nat) (v : α) : Nat → α := fun j => if j = i then v else f j

/-- `IsValidChar`, asapinfo.fu:169 (asap.c:2840-2843). -/
def isValidChar (c : Nat) : Bool := decide (32 ≤ c) && decide (c ≤ 124) && decide (c ≠ 96) && decide (c ≠ 123)

/-- The fields as `Load` leaves them before the format-specific parser runs, asapinfo.fu:1464-1482. -/
def Info.blank (filename : List Nat) : Info := { filename := filename }

/-- `CheckValidText`, asapinfo.fu:1543-1550. -/
def checkValidText (s : List Nat) : M Unit :=
  if s.length > maxTextLength then raise "Text too long"
  else if s.all isValidChar then .ok ()
  else raise "Invalid character"

/-- `SetAuthor`, asapinfo.fu:1562-1569.  Setters return the outcome and the object afterwards, so
that "unchanged on failure" is observable. -/
def Info.setAuthor (i : Info) (s : List Nat) : M Unit × Info :=
  match checkValidText s with
  | .error e => (.error e, i)
  | .ok () => (.ok (), { i with author := s })

/-- `SetTitle`, asapinfo.fu:1577-1584. -/
def Info.setTitle (i : Info) (s : List Nat) : M Unit × Info :=
  match checkValidText s with
  | .error e => (.error e, i)
  | .ok () => (.ok (), { i with title := s })

/-- `SetDate`, asapinfo.fu:1608-1615. -/
def Info.setDate (i : Info) (s : List Nat) : M Unit × Info :=
  match checkValidText s with
  | .error e => (.error e, i)
  | .ok () => (.ok (), { i with date := s })

/-- `SetDefaultSong`, asapinfo.fu:1685-1693. -/
def Info.setDefaultSong (i : Info) (song : Int) : M Unit × Info :=
  if song < 0 ∨ song ≥ i.songs then (raise "Song out of range", i)
  else (.ok (), { i with defaultSong := song.toNat })

/-- `SetDuration`, asapinfo.fu:1704-1714. -/
def Info.setDuration (i : Info) (song duration : Int) : M Unit × Info :=
  if song < 0 ∨ song ≥ i.songs then (raise "Song out of range", i)
  else (.ok (), { i with durations := upd i.durations song.toNat duration })

/-- `SetLoop`, asapinfo.fu:1729-1739. -/
def Info.setLoop (i : Info) (song : Int) (loop : Bool) : M Unit × Info :=
  if song < 0 ∨ song ≥ i.songs then (raise "Song out of range", i)
  else (.ok (), { i with loops := upd i.loops song.toNat loop })

/-- `SetMusicAddress`, asapinfo.fu:1794-1802. -/
def Info.setMusicAddress (i : Info) (address : Int) : M Unit × Info :=
  if address < 0 ∨ address ≥ 0xffff then (raise "Invalid music address", i)
  else (.ok (), { i with music := address })

/-- `CanSetNtsc`, asapinfo.fu:1745. -/
def Info.canSetNtsc (i : Info) : Bool :=
  decide (i.type = .sapB) && decide (i.fastplay = if i.ntsc then 262 else 312)

/-- The loop body of `SetNtsc`, asapinfo.fu:1754-1762 (asap.c:4294-4304); C division truncates,
but only positive durations are divided.  The result is stored in an `int`. -/
def scaleDuration (ntsc : Bool) (duration : Int) : Int :=
  if duration > 0 then
    if ntsc then duration * (1773447 * 262 / 78) / (3579545 * 312 / 2 / 78)
    else duration * (3579545 * 312 / 2 / 78) / (1773447 * 262 / 78)
  else duration

/-- `SetNtsc`, asapinfo.fu:1748-1763. -/
def Info.setNtsc (i : Info) (ntsc : Bool) : Info :=
  { i with
    ntsc := ntsc
    fastplay := if ntsc then 262 else 312
    durations := fun s => if s < i.songs then scaleDuration ntsc (i.durations s) else i.durations s }

/-- The loop of `CheckDate`, asapinfo.fu:1628-1636: position `k` of a date of length `n`. -/
def dateCharOk (n k c : Nat) : Bool :=
  if (k : Int) = (n : Int) - 5 ∨ (k : Int) = (n : Int) - 8 then decide (c = 47)
  else !(decide (c < 48) || decide (c > 57))

/-- `CheckDate`, asapinfo.fu:1617-1638; `none` is -1. -/
def checkDate (date : List Nat) : Option Nat :=
  let n := date.length
  if n = 4 ∨ n = 7 ∨ n = 10 then
    if (date.mapIdx (fun k c => dateCharOk n k c)).all id then some n else none
  else none

/-- `GetTwoDateDigits`, asapinfo.fu:1640. -/
def twoDateDigits (date : List Nat) (i : Nat) : M Int := do
  let a ← rd date i
  let b ← rd date (i + 1)
  .ok (((a : Int) - 48) * 10 + b - 48)

/-- `GetYear`, asapinfo.fu:1644-1650. -/
def getYear (date : List Nat) : M Int :=
  match checkDate date with
  | none => .ok (-1)
  | some n => do
    let a ← twoDateDigits date (n - 4)
    let b ← twoDateDigits date (n - 2)
    .ok (a * 100 + b)

/-- `GetMonth`, asapinfo.fu:1654-1660. -/
def getMonth (date : List Nat) : M Int :=
  match checkDate date with
  | none => .ok (-1)
  | some n => if n < 7 then .ok (-1) else twoDateDigits date (n - 7)

/-- `GetDayOfMonth`, asapinfo.fu:1664-1670. -/
def getDayOfMonth (date : List Nat) : M Int :=
  match checkDate date with
  | none => .ok (-1)
  | some n => if n ≠ 10 then .ok (-1) else twoDateDigits date 0

/-- `GetPlayerRateHz`, asapinfo.fu:1782-1786, for a positive `Fastplay`. -/
def Info.playerRateHz (i : Info) : Int :=
  let scanlineClock : Int := if i.ntsc then 1789772 / 114 else 1773447 / 114
  (scanlineClock + i.fastplay / 2) / i.fastplay

/-- `GetTypeLetter`, asapinfo.fu:1767-1776. -/
def typeLetter : ModType → Nat
  | .sapB => 66
  | .sapC => 67
  | .sapD => 68
  | .sapS => 83
  | _ => 0

end Asap
