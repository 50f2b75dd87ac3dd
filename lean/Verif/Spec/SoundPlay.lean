import Verif.Spec.Sound
import Verif.Spec.PokeyPair

/-!
# A playback, and the sound it should make

The reference chip of `Spec.Sound` runs without frames, buffers and requests for samples: it only
sees the register writes, at cycles counted from the start of the playback.
-/

namespace Asap.Spec.Sound
open Asap.Spec

/-- A frame of a playback: what happens in it, its length in cycles, and what is done after its end, such as
asking for samples. -/
structure Frame where
  events : List PairEvent
  length : Int
  output : List PairEvent

/-- A frame as a part of a history of the two chips. -/
def Frame.history (f : Frame) : List PairEvent := .start :: f.events ++ .finish f.length :: f.output

/-- Executes an event; the bytes given to the user are returned, too. -/
def produceOne (q : Pair) : PairEvent → X (List Int × Pair)
  | .generate blocks format => do
    let r ← q.generate blocks format
    .ok (r.1, r.2.2)
  | e => do
    let r ← stepPair q e
    .ok ([], r)

/-- Executes a history and collects the bytes. -/
def produce : Pair → List PairEvent → X (List Int × Pair)
  | q, [] => .ok ([], q)
  | q, e :: es => do
    let r ← produceOne q e
    let s ← produce r.2 es
    .ok (r.1 ++ s.1, s.2)

/-- Events that do not concern the sound. -/
def Calm : PairEvent → Prop
  | .read _ _ => True
  | .irq _ _ _ => True
  | .timers _ => True
  | _ => False

/-- A write the theorem is about: not STIMER; SKCTL neither resets the chip nor starts serial input. -/
def Plain (addr data : Int) : Prop :=
  addr % 16 ≠ 9 ∧ (addr % 16 = 15 → data % 4 ≠ 0 ∧ ¬ bit data 4)

/-- What may happen in a frame. -/
def InFrame : PairEvent → Prop
  | .write addr data _ => Plain addr data
  | .external _ _ _ => True
  | e => Calm e

/-- What may happen after the end of a frame: the user asks for some samples. -/
def AfterFrame (format : SampleFormat) : PairEvent → Prop
  | .generate blocks f => 0 ≤ blocks ∧ f = format
  | e => Calm e

/-- How many samples the user asks for. -/
def wanted : List PairEvent → Int
  | [] => 0
  | .generate blocks _ :: es => blocks + wanted es
  | _ :: es => wanted es

/-- The times of the register writes and of the steps of other sources, the frame beginning at cycle `T`. -/
def stamps (T : Int) : List PairEvent → List Int
  | [] => []
  | .write _ _ c :: es => (T + c) :: stamps T es
  | .external _ c _ :: es => (T + c) :: stamps T es
  | _ :: es => stamps T es

/-- The times of the register writes and of the steps of other sources in a playback. -/
def allStamps : Int → List Frame → List Int
  | _, [] => []
  | T, f :: fs => stamps T f.events ++ allStamps (T + f.length) fs

/-- The length of a playback. -/
def total : List Frame → Int
  | [] => 0
  | f :: fs => f.length + total fs

/-- The number of samples up to a cycle. -/
def samplesAt (factor t : Int) : Int := t * factor / 2 ^ 18

/-- Every frame has at least a sample, and the user asks for all its samples before the next frame. -/
def Served (factor : Int) : Int → List Frame → Prop
  | _, [] => True
  | T, f :: fs =>
    0 < samplesAt factor (T + f.length) - samplesAt factor T ∧
    samplesAt factor (T + f.length) - samplesAt factor T ≤ wanted f.output ∧ Served factor (T + f.length) fs

/-- How many samples the user gets: all of the frames but the last one, and those they ask for of the last one. -/
def heard (factor : Int) (fs : List Frame) : Int :=
  match fs.getLast? with
  | none => 0
  | some f => min (samplesAt factor (total fs)) (samplesAt factor (total fs.dropLast) + wanted f.output)

/-- The conditions on a playback.  Of the last frame any number of samples may be asked for. -/
structure Orderly (factor : Int) (format : SampleFormat) (fs : List Frame) : Prop where
  inFrame : ∀ f ∈ fs, ∀ e ∈ f.events, InFrame e
  afterFrame : ∀ f ∈ fs, ∀ e ∈ f.output, AfterFrame format e
  within : ∀ f ∈ fs, ∀ e ∈ f.history, e.Within (312 * 114 + 34)
  order : List.Pairwise (· ≤ ·) (allStamps 0 fs)
  served : Served factor 0 fs.dropLast

/-- The reference chip, the cycle it has reached and the cycle at which the frame began. -/
structure Tape where
  sound : Sound
  now : Int
  frame : Int

/-- The position of the noise generators is kept below two periods of the sequence selected by AUDCTL bit 7
(the 9-bit or 17-bit noise together with the 4-bit and 5-bit noise).  Taking off a period makes no difference
(see `C43_wrap`), unless AUDCTL bit 7 changes later. -/
def Chip.wrap (r : Chip) (t : Int) : Chip :=
  { r with phase :=
      if r.phase + t ≥ 2 * (15 * 31 * if bit r.audctl 7 then 511 else 131071)
      then r.phase - 15 * 31 * (if bit r.audctl 7 then 511 else 131071) else r.phase }

/-- The reference chip receives the register writes that are meant for it.  The steps of other sources (COVOX, the speaker) are
added to its sound; their unit is `2^14`. -/
def Tape.event (z : Noise) (factor : Int) (sinc : Int → Int → Int) (mine : PairEvent → Bool) (v : Tape) : PairEvent → Tape
  | .write addr data c =>
    if mine (.write addr data c) then ⟨v.sound.write z factor sinc v.now (v.frame + c) addr data, v.frame + c, v.frame⟩ else v
  | .external toRight c height =>
    if mine (.external toRight c height) then ⟨v.sound.add factor sinc (v.frame + c) (height / 2 ^ 14), v.now, v.frame⟩ else v
  | _ => v

/-- The reference chip runs until the end of the frame. -/
def Tape.finish (z : Noise) (factor : Int) (sinc : Int → Int → Int) (v : Tape) (length : Int) : Tape :=
  let s := v.sound.wait z factor sinc (v.frame + length - v.now).toNat v.now
  ⟨⟨s.chip.wrap (v.frame + length), s.wave⟩, max v.now (v.frame + length), v.frame + length⟩

/-- The reference chip hears a playback. -/
def Tape.play (z : Noise) (factor : Int) (sinc : Int → Int → Int) (mine : PairEvent → Bool) : Tape → List Frame → Tape
  | v, [] => v
  | v, f :: fs => Tape.play z factor sinc mine
      ((f.events.foldl (Tape.event z factor sinc mine) v).finish z factor sinc f.length) fs

/-- A chip after power-up: registers are zero except SKCTL, and all the counters run out. -/
def Chip.start : Chip where
  ch := fun _ => ⟨0, 0, 0, false, false⟩
  audctl := 0
  skctl := 3
  phase := 15 * 31 * 131071

/-- A playback begins. -/
def Tape.start : Tape := ⟨⟨Chip.start, fun _ => 0⟩, 0, 0⟩

/-- A register write at cycle `c` of the INIT routine, when the chip is not heard and its counters do not run.  Ending the
reset by SKCTL restarts the noise generators. -/
def Chip.prepare (r : Chip) (addr data c : Int) : Chip :=
  if addr % 16 = 15 ∧ r.skctl % 4 = 0 ∧ data % 4 ≠ 0 then
    { r with skctl := data, phase := 15 * 31 * (if bit r.audctl 7 then 511 else 131071) - 1 - c }
  else r.put addr data

/-- What may happen in the INIT routine: a volume-only AUDC value has volume 0. -/
def InInit : PairEvent → Prop
  | .write addr data _ => ∀ i, i < 4 → isAudc addr i → bit data 4 → data % 16 = 0
  | e => Calm e

/-- The reference chip in the INIT routine. -/
def Tape.prepare (mine : PairEvent → Bool) (v : Tape) : PairEvent → Tape
  | .write addr data c => if mine (.write addr data c) then ⟨⟨v.sound.chip.prepare addr data c, v.sound.wave⟩, v.now, v.frame⟩ else v
  | _ => v

/-- The reference chip after the INIT routine. -/
def Tape.prepared (mine : PairEvent → Bool) (es : List PairEvent) : Tape := es.foldl (Tape.prepare mine) Tape.start

/-- A chip that works: it is not in reset and does not wait for serial input. -/
def Chip.Working (r : Chip) : Prop := r.skctl % 4 ≠ 0 ∧ ¬ bit r.skctl 4

/-- `2^18` times the samples per cycle of the PAL or NTSC clock, rounded. -/
def perCycle (ntsc : Bool) (rate : Int) : Int :=
  let clock : Int := if ntsc then 1789772 else 1773447
  (rate * 2 ^ 13 + clock / 64) / (clock / 32)

/-- Is a register write meant for the left or for the right chip?  In mono all are meant for the left one.  A step of another
source names the side. -/
def meant (stereo toRight : Bool) : PairEvent → Bool
  | .write addr _ _ => (stereo && right addr) == toRight
  | .external side _ _ => side == toRight
  | _ => false

/-- The integrator that makes the sound from its changes: it forgets slowly, by `iir / 2048` of its value in
every sample. -/
def integral (iir : Int) (wave : Int → Int) : Nat → Int
  | 0 => 0
  | k + 1 => integral iir wave k + (wave k - iir * integral iir wave k / 2048)

/-- Sample `k` of a sound. -/
def sample (iir : Int) (wave : Int → Int) (k : Nat) : Int :=
  max (-32767) (min 32767 (integral iir wave (k + 1) / 2048))

/-- The bytes of sample `k` in mono, or of the two samples in stereo. -/
def block (format : SampleFormat) (stereo : Bool) (iir : Int) (left right : Int → Int) (k : Nat) : List Int :=
  sampleBytes format (sample iir left k) ++ if stereo then sampleBytes format (sample iir right k) else []

end Asap.Spec.Sound
