import Verif.Model.Asap
import Verif.Model.Writer

/-!
# WAV header
asap.fu 504-590 (asap.c 2595-2696)
-/

namespace Asap.Wav

/-- `buffer[i] = v`, e.g. asap.fu:506. -/
def put (i : Nat) (v : Int) (buffer : List Nat) : M (List Nat) :=
  if i < buffer.length then .ok (buffer.set i (toByte v)) else .error .ub

/-- `PutLittleEndian`, asap.fu:504-510; `>> 8 * k & 0xff` is a byte of the two's complement. -/
def putLittleEndian (offset : Nat) (value : Int) (buffer : List Nat) : M (List Nat) := do
  let b ← put offset (value % 256) buffer
  let b ← put (offset + 1) (value / 256 % 256) b
  let b ← put (offset + 2) (value / 65536 % 256) b
  put (offset + 3) (value / 16777216 % 256) b

/-- `FourCC`, asap.fu:512-513; the bits of different characters do not overlap. -/
def fourCC (a b c d : Nat) : Int := ((a + b * 256 + c * 65536 + d * 16777216 : Nat) : Int) % 2147483648

/-- `PutLittleEndians`, asap.fu:515-519. -/
def putLittleEndians (offset : Nat) (value1 value2 : Int) (buffer : List Nat) : M (List Nat) := do
  let b ← putLittleEndian offset value1 buffer
  putLittleEndian (offset + 4) value2 b

/-- The loop over the characters in `PutWavMetadata`, asap.fu:529-530. -/
def putText (offset : Nat) : List Nat → List Nat → M (List Nat)
  | [], buffer => .ok buffer
  | c :: s, buffer => do
    let b ← put offset c buffer
    putText (offset + 1) s b

/-- The terminator in `PutWavMetadata`, asap.fu:531-533. -/
def putEnd (offset len : Nat) (buffer : List Nat) : M (Nat × List Nat) := do
  let b ← put offset 0 buffer
  if len % 2 = 0 then do
    let b ← put (offset + 1) 0 b
    .ok (offset + 2, b)
  else .ok (offset + 1, b)

/-- `PutWavMetadata`, asap.fu:522-536: the new offset and the buffer.  `(len | 1) + 1` is the next
even number greater than `len`. -/
def putWavMetadata (offset : Nat) (id : Int) (value : List Nat) (buffer : List Nat) : M (Nat × List Nat) :=
  let len := value.length
  if len > 0 then do
    let b ← putLittleEndians offset id (len / 2 * 2 + 2 : Nat) buffer
    let b ← putText (offset + 8) value b
    putEnd (offset + 8 + len) len b
  else .ok (offset, buffer)

/-- The digits of the year, asap.fu:571-574: from `buffer[i + 8 + 3]` down. -/
def putYear (i : Nat) (year : Int) (buffer : List Nat) : M (List Nat) := do
  let b ← put (i + 11) (48 + Int.tmod year 10) buffer
  let b ← put (i + 10) (48 + Int.tmod (Int.tdiv year 10) 10) b
  let b ← put (i + 9) (48 + Int.tmod (Int.tdiv (Int.tdiv year 10) 10) 10) b
  put (i + 8) (48 + Int.tmod (Int.tdiv (Int.tdiv (Int.tdiv year 10) 10) 10) 10) b

/-- The chunk with the year, asap.fu:569-578. -/
def putDate (i : Nat) (year : Int) (buffer : List Nat) : M (Nat × List Nat) :=
  if year > 0 then do
    let b ← putLittleEndians i (fourCC 73 67 82 68) 6 buffer
    let b ← putYear i year b
    let b ← put (i + 12) 0 b
    let b ← put (i + 13) 0 b
    .ok (i + 14, b)
  else .ok (i, buffer)

/-- The list of texts, asap.fu:565-580: the new `i` and the buffer. -/
def putList (info : Info) (buffer : List Nat) : M (Nat × List Nat) := do
  let year ← getYear info.date
  if info.title.length > 0 ∨ info.author.length > 0 ∨ year > 0 then do
    let b ← putLittleEndian 44 (fourCC 73 78 70 79) buffer
    let r ← putWavMetadata 48 (fourCC 73 78 65 77) info.title b
    let r ← putWavMetadata r.1 (fourCC 73 65 82 84) info.author r.2
    let r ← putDate r.1 year r.2
    let b ← putLittleEndians 36 (fourCC 76 73 83 84) ((r.1 : Int) - 44) r.2
    .ok (r.1, b)
  else .ok (36, buffer)

/-- The fixed part, asap.fu:555-562. -/
def putFormat (channels : Nat) (rate blockSize bits : Int) (buffer : List Nat) : M (List Nat) := do
  let b ← putLittleEndian 8 (fourCC 87 65 86 69) buffer
  let b ← putLittleEndians 12 (fourCC 102 109 116 32) 16 b
  let b ← put 20 1 b
  let b ← put 21 0 b
  let b ← put 22 channels b
  let b ← put 23 0 b
  let b ← putLittleEndians 24 rate (rate * blockSize) b
  let b ← put 32 blockSize b
  let b ← put 33 0 b
  let b ← put 34 bits b
  put 35 0 b

/-- `if (metadata)`, asap.fu:565. -/
def putMetadata (metadata : Bool) (info : Info) (buffer : List Nat) : M (Nat × List Nat) :=
  if metadata = true then putList info buffer else .ok (36, buffer)

/-- Bytes in a block, asap.fu:549-550. -/
def blockSize (channels : Nat) (format : SampleFormat) : Int := if format = .u8 then channels else channels * 2

/-- `GetWavHeader`, asap.fu:541-590: the number returned and the buffer. -/
def getWavHeader (m : Machine) (format : SampleFormat) (metadata : Bool) (buffer : List Nat) : M (Nat × List Nat) := do
  let size := blockSize m.info.channels format
  let total := Machine.millisecondsToBlocks m.rate m.duration
  let bytes := (total - m.played) * size
  let b ← putFormat m.info.channels m.rate size (if format = .u8 then 8 else 16) buffer
  let r ← putMetadata metadata m.info b
  let b ← putLittleEndians 0 (fourCC 82 73 70 70) (r.1 + bytes) r.2
  let b ← putLittleEndians r.1 (fourCC 100 97 116 97) bytes b
  .ok (r.1 + 8, b)

end Asap.Wav
