import Verif.Spec.Pokey

/-!
# What the sample and stereo theorems talk about
-/

namespace Asap.Spec

/-- A register write: address, byte, cycle. -/
structure Write where
  addr : Int
  data : Int
  cycle : Int

/-- One chip receives a sequence of writes. -/
def chipWrites (cfg : Cfg) : Pokey → List Write → X Pokey
  | p, [] => .ok p
  | p, w :: ws => do
    let r ← p.poke cfg w.addr w.data w.cycle
    chipWrites cfg r.2 ws

/-- The pair of chips receives a sequence of writes. -/
def pairWrites : Pair → List Write → X Pair
  | q, [] => .ok q
  | q, w :: ws => do
    let r ← q.poke w.addr w.data w.cycle
    pairWrites r.2 ws

/-- Address bit 4: the right chip in stereo. -/
def right (addr : Int) : Bool := addr / 16 % 2 = 1

/-- The signal of a chip: the amplitudes of samples `i`, `i + 1`, ..., before they are encoded. -/
def signal (p : Pokey) (i : Int) : Nat → List Int
  | 0 => []
  | n + 1 =>
    let acc := p.iirAcc + (p.buf i - p.iirRate * p.iirAcc / 2048)
    max (-32767) (min 32767 (acc / 2048)) :: signal { p with iirAcc := acc } (i + 1) n

/-- A 16-bit two's complement number from its bytes. -/
def int16 (lo hi : Int) : Int := if hi < 128 then lo + 256 * hi else lo + 256 * hi - 65536

/-- Alternates two lists. -/
def interleave : List Int → List Int → List Int
  | a :: as, b :: bs => a :: b :: interleave as bs
  | _, _ => []

/-- Bytes of an amplitude. -/
structure Encoded (s : Int) (f : SampleFormat) (bytes : List Int) : Prop where
  range : ∀ b ∈ bytes, 0 ≤ b ∧ b < 256
  u8 : f = .u8 → bytes = [s / 256 + 128]
  le : f = .s16le → ∃ lo hi, bytes = [lo, hi] ∧ int16 lo hi = s
  be : f = .s16be → ∃ lo hi, bytes = [hi, lo] ∧ int16 lo hi = s

/-- Anything that can happen to a pair of chips during playback. -/
inductive PairEvent where
  /-- register write: address, byte, cycle within the frame -/
  | write (addr data cycle : Int)
  /-- register read -/
  | read (addr cycle : Int)
  /-- a frame starts -/
  | start
  /-- a frame of the given length ends -/
  | finish (cycle : Int)
  /-- COVOX or GTIA sound on the right or left channel -/
  | external (toRight : Bool) (cycle delta : Int)
  /-- timer interrupts are examined -/
  | irq (cycle next next' : Int)
  /-- timers are moved to the next frame -/
  | timers (cycle : Int)
  /-- the user mutes channels: four bits for each chip -/
  | mute (mask : Int)
  /-- the user asks for samples -/
  | generate (blocks : Int) (format : SampleFormat)

/-- Executes one event. -/
def stepPair (q : Pair) : PairEvent → X Pair
  | .write addr data cycle => (q.poke addr data cycle).map Prod.snd
  | .read addr cycle => (q.peek addr cycle).map fun _ => q
  | .start => q.startFrame
  | .finish cycle => q.endFrame cycle
  | .external false cycle delta => (q.base.addExternalDelta q.cfg cycle delta).map fun b => { q with base := b }
  | .external true cycle delta => (q.extra.addExternalDelta q.cfg cycle delta).map fun e => { q with extra := e }
  | .irq cycle next next' =>
    .ok { q with base := (q.base.checkIrq cycle next).2, extra := (q.extra.checkIrq cycle next').2 }
  | .timers cycle => .ok { q with base := q.base.endTimers cycle, extra := q.extra.endTimers cycle }
  | .mute mask => .ok { q with base := q.base.muteAll mask, extra := q.extra.muteAll (mask / 16) }
  | .generate blocks format => (q.generate blocks format).map fun r => r.2.2

/-- Executes a history. -/
def runPair : Pair → List PairEvent → X Pair
  | q, [] => .ok q
  | q, e :: es => do
    let q ← stepPair q e
    runPair q es

/-- Writes carry bytes, and nothing happens later than `t` cycles after the beginning of the frame. -/
def PairEvent.Within (t : Int) : PairEvent → Prop
  | .write _ data cycle => (0 ≤ data ∧ data < 256) ∧ 0 ≤ cycle ∧ cycle ≤ t
  | .read _ cycle => 0 ≤ cycle ∧ cycle ≤ t
  | .finish cycle => 0 ≤ cycle ∧ cycle ≤ t
  | .external _ cycle _ => 0 ≤ cycle ∧ cycle ≤ t
  | _ => True

/-- What of a history one chip of the pair sees that matters for muting. -/
def PairEvent.seenBy (stereo toRight : Bool) : PairEvent → List ChipEvent
  | .write addr data cycle => if (stereo && right addr) = toRight then [.write addr data cycle] else []
  | .mute mask => [.mute (if toRight then mask / 16 else mask)]
  | _ => []

end Asap.Spec
