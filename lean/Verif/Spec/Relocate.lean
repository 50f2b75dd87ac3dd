import Verif.Model.Info

/-!
# Moving native modules to another address

Where modules hold addresses.  All indices are into the file, that begins with the address of the first byte and that of the last one
at 2 and 4, and has the module from 6 on.
-/

namespace Asap.Spec.Relocate

/-- A byte of a module is the low or the high byte of an address, the other byte of which is at the given index, or something else. -/
inductive Role where
  | plain
  | low (high : Nat)
  | high (low : Nat)
  deriving DecidableEq

/-- Addresses one after the other. -/
def pair (i : Nat) : Role := if i % 2 = 0 then .low (i + 1) else .high (i - 1)

/-- Chaos Music Composer: the header of the file and 64 patterns. -/
def cmc (i : Nat) : Role :=
  if i < 6 then pair i
  else if 0x1a ≤ i ∧ i < 0x5a then .low (i + 64)
  else if 0x5a ≤ i ∧ i < 0x9a then .high (i - 64)
  else .plain

/-- Delta Music Composer: the header of the file only. -/
def dlt (i : Nat) : Role := if i < 6 then pair i else .plain

/-- Music ProTracker: the header of the file, 32 instruments, 64 patterns and, after 256 other bytes, four tracks. -/
def mpt (i : Nat) : Role :=
  if i < 0xc6 then pair i
  else if 0x1c6 ≤ i ∧ i < 0x1ca then .low (i + 4)
  else if 0x1ca ≤ i ∧ i < 0x1ce then .high (i - 4)
  else .plain

/-- Theta Music Composer: the header of the file and, after 32 other bytes, 64 instruments and 128 patterns. -/
def tmc (i : Nat) : Role :=
  if i < 6 then pair i
  else if 0x26 ≤ i ∧ i < 0x66 then .low (i + 64)
  else if 0x66 ≤ i ∧ i < 0xa6 then .high (i - 64)
  else if 0xa6 ≤ i ∧ i < 0x126 then .low (i + 128)
  else if 0x126 ≤ i ∧ i < 0x1a6 then .high (i - 128)
  else .plain

/-- Theta Music Composer 2: the header of the file and, after 128 other bytes, 128 instruments and 256 patterns: low bytes of instruments, those of
patterns, high bytes of patterns, those of instruments. -/
def tm2 (i : Nat) : Role :=
  if i < 6 then pair i
  else if 0x86 ≤ i ∧ i < 0x106 then .low (i + 640)
  else if 0x106 ≤ i ∧ i < 0x206 then .low (i + 256)
  else if 0x206 ≤ i ∧ i < 0x306 then .high (i - 256)
  else if 0x306 ≤ i ∧ i < 0x386 then .high (i - 640)
  else .plain

/-- A byte of the file. -/
def byteAt (m : List Nat) (i : Nat) : Nat := m[i]?.getD 0

/-- An address in the file. -/
def word (m : List Nat) (i : Nat) : Nat := byteAt m i + 256 * byteAt m (i + 1)

/-- Raster Music Tracker: where the tables of patterns, the song and the end of the song are, and the number of patterns and channels. -/
structure RmtLayout where
  patterns : Nat
  count : Nat
  song : Nat
  stop : Nat
  channels : Nat

/-- The layout of a module. -/
structure IsRmt (m : List Nat) (l : RmtLayout) : Prop where
  patterns : word m 0x10 + 6 = word m 2 + l.patterns
  count : word m 0x12 = word m 0x10 + l.count
  song : word m 0x14 + 6 = word m 2 + l.song
  stop : word m 4 + 7 = word m 2 + l.stop
  channels : byteAt m 9 = 48 + l.channels
  even : l.patterns % 2 = 0
  after : 22 ≤ l.patterns
  disjoint : l.patterns + 2 * l.count ≤ l.song
  inside : l.song < l.stop
  whole : l.stop ≤ m.length
  wide : 4 ≤ l.channels

/-- Raster Music Tracker: the header of the file, four addresses and the instruments, the patterns, the jumps of the song (0xFE, a line and an
address at the beginning of a line of the song), the header of the second block if there is one. -/
def rmt (m : List Nat) (l : RmtLayout) (i : Nat) : Role :=
  if i < 2 then .plain
  else if i < 6 then pair i
  else if i < 14 then .plain
  else if i < l.patterns then pair i
  else if i < l.patterns + l.count then .low (i + l.count)
  else if i < l.patterns + 2 * l.count then .high (i - l.count)
  else if i < l.song then .plain
  else if i < l.stop then
    let column := (i - l.song) % l.channels
    if byteAt m (i - column) = 0xfe ∧ i - column + 3 < l.stop then
      if column = 2 then .low (i + 1) else if column = 3 then .high (i - 1) else .plain
    else .plain
  else if i < l.stop + 4 ∧ l.stop + 5 ≤ m.length then
    if (i - l.stop) % 2 = 0 then .low (i + 1) else .high (i - 1)
  else .plain

/-- `Layout type m role`: the file `m` of this type is long enough to have all its addresses, and `role` tells where they are. -/
def Layout (type : ModType) (m : List Nat) (role : Nat → Role) : Prop :=
  match type with
  | .cmc | .cm3 | .cmr | .cms => role = cmc ∧ 0x9a ≤ m.length
  | .dlt => role = dlt ∧ 7 ≤ m.length
  | .mpt => role = mpt ∧ 0x1ce ≤ m.length
  | .tmc => role = tmc ∧ 0x1a6 ≤ m.length
  | .tm2 => role = tm2 ∧ 0x386 ≤ m.length
  | .rmt => ∃ l, IsRmt m l ∧ role = rmt m l ∧ byteAt m 0 = 0xff ∧ byteAt m 1 = 0xff
  | _ => False

/-- An address after the module was moved by `diff`; 0 and 0xFFFF stand for nothing. -/
def move (diff : Int) (a : Nat) : Nat := if a = 0 ∨ a = 0xffff then a else ((a + diff) % 65536).toNat

/-- A byte after the module was moved. -/
def movedByte (role : Role) (diff : Int) (m : List Nat) (i : Nat) : Nat :=
  match role with
  | .plain => byteAt m i
  | .low h => move diff (byteAt m i + 256 * byteAt m h) % 256
  | .high l => move diff (byteAt m l + 256 * byteAt m i) / 256

/-- The file after the module was moved. -/
def moved (role : Nat → Role) (diff : Int) (m : List Nat) : List Nat := (List.range m.length).map fun i => movedByte (role i) diff m i

end Asap.Spec.Relocate
