import Verif.Model.Wav

/-!
# Playback with 32-bit integers

The functions of asap.fu that count samples over the length of a song, with every sum, difference and product checked to be
an `int` of C.  What happens inside one frame (`DoFrame`, `PlaySong`, `Pokeys.Generate`) is taken from the model with
unbounded integers.
-/

namespace Asap.Int32

/-- Computations in which signed overflow, undefined in C, is the outcome `none`, e.g. in asap.c:2580. -/
def I (α : Type) : Type := Machine → Option (X (α × Machine))

/-- Sequencing, e.g. asap.c:2593-2600.  Model only. -/
def I.pure {α : Type} (a : α) : I α := fun m => some (.ok (a, m))

/-- Sequencing, e.g. asap.c:2593-2600.  Model only. -/
def I.bind {α β : Type} (x : I α) (f : α → I β) : I β := fun m =>
  match x m with
  | none => none
  | some (.error e) => some (.error e)
  | some (.ok r) => f r.1 r.2

/-- Sequencing, e.g. asap.c:2593-2600.  Model only. -/
instance : Monad I where
  pure := I.pure
  bind := I.bind

/-- Something computed without sums over the song, e.g. asap.fu:609. -/
def within {α : Type} (x : C α) : I α := fun m => some (x m)

/-- The result of an operation on `int`, e.g. asap.c:2580. -/
def int (v : Int) : I Int := fun m => if -2147483648 ≤ v ∧ v ≤ 2147483647 then some (.ok (v, m)) else none

/-- `(int)` of a `long`, e.g. asap.c:2586: the low 32 bits. -/
def truncate (v : Int) : Int := (v + 2147483648) % 4294967296 - 2147483648

/-- `GetPosition`, asap.fu:472, asap.c:2578-2581. -/
def getPosition : I Int := do
  let played ← within (C.get (·.played))
  let rate ← within (C.get (·.rate))
  let p ← int (played * 10)
  pure (Int.tdiv p (Int.tdiv rate 100))

/-- `MillisecondsToBlocks`, asap.fu:474-477, asap.c:2583-2587.  The product of two `int`s fits in the `long`. -/
def millisecondsToBlocks (rate milliseconds : Int) : Int := truncate (Int.tdiv (milliseconds * rate) 1000)

/-- `DetectSilence`, asap.fu:82-88. -/
def detectSilence (seconds : Int) : I Unit := do
  let _ ← int (seconds * 1773447)
  within (C.modify fun m => m.detectSilence seconds)

/-- The loop of `SeekSample`, asap.fu:487-490. -/
def seekFrames (block : Int) : Nat → I Unit
  | 0 => do
    let played ← within (C.get (·.played))
    let ready ← within (C.get (·.pk.readyEnd))
    let here ← int (played + ready)
    if here < block then within (C.fail .fuel) else pure ()
  | fuel + 1 => do
    let played ← within (C.get (·.played))
    let ready ← within (C.get (·.pk.readyEnd))
    let here ← int (played + ready)
    if here < block then do
      within (Machine.setPlayed here)
      let _ ← within Machine.doFrame
      seekFrames block fuel
    else pure ()

/-- `SeekSample`, asap.fu:480-493. -/
def seekSample (block : Int) : I Unit := do
  within (Machine.rewind block)
  let played ← within (C.get (·.played))
  seekFrames block ((block - played).toNat + 1)
  let played ← within (C.get (·.played))
  let _ ← int (block - played)
  within (Machine.seekTo block)

/-- `Seek`, asap.fu:496-502. -/
def seek (position : Int) : I Unit := do
  let rate ← within (C.get (·.rate))
  seekSample (millisecondsToBlocks rate position)

/-- Silence detection after a frame: does playback go on?  asap.fu:611-619. -/
def listen (cycles : Int) : I Bool := do
  let silence ← within (C.get (·.silence))
  if silence > 0 then do
    let quiet ← within (C.get fun m => m.pk.isSilent && !m.external)
    if quiet = true then do
      let left ← within (C.get (·.silenceLeft))
      let left ← int (left - cycles)
      within (Machine.setSilenceLeft left)
      pure (decide (left > 0))
    else do
      within (Machine.setSilenceLeft silence)
      pure true
  else pure true

/-- `Pokeys.Generate` and the update of the position, asap.fu:605-606. -/
def generateBlocks (blocks : Int) (format : SampleFormat) : I (List Int × Int) := do
  let r ← within (C.chips fun q => do
    let r ← q.generate blocks format
    .ok ((r.1, r.2.1), r.2.2))
  let played ← within (C.get (·.played))
  let played ← int (played + r.2)
  within (Machine.setPlayed played)
  pure r

/-- The loop of `GenerateAt`, asap.fu:604-620, for `blocks` blocks when `block` of them are done: the bytes and the number of
blocks done here.  A negative number is shifted like in `shl`. -/
def generateLoop (format : SampleFormat) (shift : Nat) (blocks : Int) : Nat → Int → I (List Int × Int)
  | 0, _ => within (C.fail .fuel)
  | fuel + 1, block => do
    let _ ← int (shl block shift)
    let left ← int (blocks - block)
    let r ← generateBlocks left format
    let here ← int (block + r.2)
    if here ≥ blocks then pure r
    else do
      let cycles ← within Machine.doFrame
      let goOn ← listen cycles
      if goOn = true then do
        let t ← generateLoop format shift blocks fuel here
        pure (r.1 ++ t.1, r.2 + t.2)
      else pure r

/-- The number of blocks to generate, asap.fu:597-602. -/
def wantedBlocks (bufferLen : Int) (format : SampleFormat) : I Int := do
  let m ← within (C.get fun m => m)
  let blocks := shr bufferLen (Machine.blockShift m.info.channels format)
  if m.duration > 0 then do
    let rest ← int (millisecondsToBlocks m.rate m.duration - m.played)
    pure (if blocks > rest then rest else blocks)
  else pure blocks

/-- `Generate` and `GenerateAt`, asap.fu:592-632. -/
def generate (bufferLen : Int) (format : SampleFormat) : I (List Int × Int) := do
  let stop ← within (C.get fun m => decide (m.silence > 0 ∧ m.silenceLeft ≤ 0))
  if stop = true then pure ([], 0)
  else do
    let shift ← within (C.get fun m => Machine.blockShift m.info.channels format)
    let blocks ← wantedBlocks bufferLen format
    let r ← generateLoop format shift blocks (blocks.toNat + 3) 0
    let n ← int (shl r.2 shift)
    pure (r.1, n)

/-- The numbers in the WAV header, asap.fu:549-553: bytes per second and bytes of samples. -/
def wavNumbers (format : SampleFormat) : I (Int × Int) := do
  let m ← within (C.get fun m => m)
  let size := Wav.blockSize m.info.channels format
  let speed ← int (m.rate * size)
  let left ← int (millisecondsToBlocks m.rate m.duration - m.played)
  let bytes ← int (left * size)
  pure (speed, bytes)

/-- The beginning of the header, asap.fu:554-580: the position after it and the buffer. -/
def wavBeginning (m : Machine) (format : SampleFormat) (metadata : Bool) (buffer : List Nat) : M (Nat × List Nat) := do
  let b ← Wav.putFormat m.info.channels m.rate (Wav.blockSize m.info.channels format) (if format = .u8 then 8 else 16) buffer
  Wav.putMetadata metadata m.info b

/-- The end of the header, asap.fu:582-584. -/
def wavEnd (riff bytes : Int) (r : Nat × List Nat) : M (Nat × List Nat) := do
  let b ← Wav.putLittleEndians 0 (Wav.fourCC 82 73 70 70) riff r.2
  let b ← Wav.putLittleEndians r.1 (Wav.fourCC 100 97 116 97) bytes b
  .ok (r.1 + 8, b)

/-- `GetWavHeader`, asap.fu:541-590. -/
def getWavHeader (format : SampleFormat) (metadata : Bool) (buffer : List Nat) : I (M (Nat × List Nat)) := do
  let m ← within (C.get fun m => m)
  let n ← wavNumbers format
  match wavBeginning m format metadata buffer with
  | .error e => pure (.error e)
  | .ok r => do
    let riff ← int (r.1 + n.2)
    pure (wavEnd riff n.2 r)

end Asap.Int32
