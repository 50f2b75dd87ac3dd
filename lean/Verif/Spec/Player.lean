import Verif.Model.Load

/-! # Using the player -/

namespace Asap.Spec
open C

/-- A call of the player. -/
inductive Call where
  /-- `PlaySong` -/
  | play (song duration : Int)
  /-- `Seek`, in milliseconds -/
  | seek (position : Int)
  /-- `SeekSample`, in samples -/
  | seekSample (block : Int)
  /-- `Generate` -/
  | generate (bufferLen : Int) (format : SampleFormat)
  /-- `MutePokeyChannels` -/
  | mute (mask : Int)
  /-- `DetectSilence` -/
  | detectSilence (seconds : Int)
  /-- `SetSampleRate` -/
  | setSampleRate (rate : Int)

/-- A call. -/
def Call.run : Call → C Unit
  | .play song duration => Machine.playSong song duration
  | .seek position => Machine.seek position
  | .seekSample block => Machine.seekSample block
  | .generate bufferLen format => do
    let _ ← Machine.generate bufferLen format
    pure ()
  | .mute mask => Machine.mutePokeyChannels mask
  | .detectSilence seconds => modify fun m => m.detectSilence seconds
  | .setSampleRate rate => modify fun m => m.setSampleRate rate

/-- Calls one after another. -/
def runCalls : List Call → C Unit
  | [] => pure ()
  | c :: cs => do
    c.run
    runCalls cs

/-- Arguments a caller may use: positions are not negative, sample rates are 100 to 48000 Hz. -/
def Call.Valid : Call → Prop
  | .seek position => 0 ≤ position
  | .seekSample block => 0 ≤ block
  | .setSampleRate rate => 100 ≤ rate ∧ rate ≤ 48000
  | _ => True

/-- The processor is in range: bytes in the memory and the registers, flags are flags. -/
structure InRange (r : Cpu) : Prop where
  mem : ∀ a, 0 ≤ r.mem a ∧ r.mem a < 256
  a : 0 ≤ r.a ∧ r.a < 256
  x : 0 ≤ r.x ∧ r.x < 256
  y : 0 ≤ r.y ∧ r.y < 256
  s : 0 ≤ r.s ∧ r.s < 256
  /-- N is bit 7 or bit 8, Z is set if the low byte is zero -/
  nz : 0 ≤ r.nz ∧ r.nz < 512
  c : r.c = 0 ∨ r.c = 1
  /-- V is bit 6, D is bit 3, I is bit 2 -/
  vdi : ∃ v d i : Bool, r.vdi = (if v then 64 else 0) + (if d then 8 else 0) + (if i then 4 else 0)

/-- What holds of a player after a module is loaded.  The address is used by the player of TMC. -/
structure CanPlay (m : Machine) : Prop where
  cpu : InRange m.cpu
  rate : 100 ≤ m.rate ∧ m.rate ≤ 48000
  songs : m.info.songs ≤ 32
  channels : m.info.channels = 1 ∨ m.info.channels = 2
  music : m.info.type = .tmc → 0 ≤ m.info.music ∧ m.info.music ≤ 0xffff - 0x1f

/-- At most `n` instructions of a frame (with the events before them). -/
def instructions (limit : Int) : Nat → C Unit
  | 0 => pure ()
  | n + 1 => do
    let cycle ← reg (·.cycle)
    if cycle < limit then do
      Machine.cpuStep
      instructions limit n
    else pure ()

/-- The first `n` instructions of the next frame. -/
def partOfFrame (n : Nat) : C Unit := do
  Machine.startChips
  Machine.beginFrame
  let ntsc ← get (·.info.ntsc)
  instructions (Machine.frameCycles ntsc) n

/-- The computation returns with `P`, throws an exception, or ends with one of the two known defects: an instruction is fetched
from outside the memory, or the mixer is broken (C26).  It does not hang and does not access anything else out of range. -/
def SafeExcept {α : Type} (P : α → Machine → Prop) : X (α × Machine) → Prop
  | .ok r => P r.1 r.2
  | .error e => e = .thrown ∨ e = .pc ∨ e = .dac

end Asap.Spec
