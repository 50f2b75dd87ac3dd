import Verif.Model.Pokey

/-!
# What the POKEY theorems talk about

Everything a chip can be asked to do, and the hardware manual's formulas, written without reference
to the emulator's internal tables.
-/

namespace Asap.Spec

/-- Anything that can happen to a POKEY chip during playback. -/
inductive ChipEvent where
  /-- register write: address, byte, cycle within the frame -/
  | write (addr data cycle : Int)
  /-- start of a frame -/
  | start
  /-- end of a frame of the given length -/
  | finish (cycle : Int)
  /-- COVOX or GTIA sound -/
  | external (cycle delta : Int)
  /-- timer interrupts are examined -/
  | irq (cycle next : Int)
  /-- timers are moved to the next frame -/
  | timers (cycle : Int)
  /-- the user mutes channels -/
  | mute (mask : Int)
  /-- a sample is output -/
  | sample (i : Int) (format : SampleFormat)

/-- Executes one event. -/
def step (cfg : Cfg) (p : Pokey) : ChipEvent → X Pokey
  | .write addr data cycle => (p.poke cfg addr data cycle).map Prod.snd
  | .start => p.startFrame
  | .finish cycle => p.endFrame cfg cycle
  | .external cycle delta => p.addExternalDelta cfg cycle delta
  | .irq cycle next => .ok (p.checkIrq cycle next).2
  | .timers cycle => .ok (p.endTimers cycle)
  | .mute mask => .ok (p.muteAll mask)
  | .sample i format => (p.storeSample i format).map Prod.snd

/-- Executes a history. -/
def run (cfg : Cfg) : Pokey → List ChipEvent → X Pokey
  | p, [] => .ok p
  | p, e :: es => do
    let p ← step cfg p e
    run cfg p es

/-- Writes carry bytes. -/
def ChipEvent.Byte : ChipEvent → Prop
  | .write _ data _ => 0 ≤ data ∧ data < 256
  | _ => True

/-- Bit `k` of a register. -/
def bit (v : Int) (k : Nat) : Prop := v / 2 ^ k % 2 = 1

instance (v : Int) (k : Nat) : Decidable (bit v k) := by unfold bit; infer_instance

/-- Clock divider: AUDCTL bit 0 selects 15 kHz (114 cycles) instead of 64 kHz (28 cycles). -/
def divider (audctl : Int) : Int := if bit audctl 0 then 114 else 28

/-- Period of the low channel of a pair: `fast` is the 1.79 MHz bit, `joined` the 16-bit bit. -/
def periodLow (div : Int) (fast joined : Prop) [Decidable fast] [Decidable joined] (f : Int) : Int :=
  if joined then (if fast then 256 else div * 256)
  else if fast then f + 4 else div * (f + 1)

/-- Period of the high channel of a pair with frequency registers `lo`, `hi`. -/
def periodHigh (div : Int) (fast joined : Prop) [Decidable fast] [Decidable joined] (lo hi : Int) : Int :=
  if joined then (if fast then lo + 256 * hi + 7 else div * (lo + 256 * hi + 1))
  else div * (hi + 1)

/-- The period of channel `i` prescribed for register contents. -/
def period (audctl f1 f2 f3 f4 : Int) : Nat → Int
  | 0 => periodLow (divider audctl) (bit audctl 6) (bit audctl 4) f1
  | 1 => periodHigh (divider audctl) (bit audctl 6) (bit audctl 4) f1 f2
  | 2 => periodLow (divider audctl) (bit audctl 5) (bit audctl 3) f3
  | _ => periodHigh (divider audctl) (bit audctl 5) (bit audctl 3) f3 f4

/-- The last byte written to register `r` (0..15), or the initial value: the registers as the
programmer sees them, computed from the history alone. -/
def lastWrite (r init : Int) : List ChipEvent → Int
  | [] => init
  | .write addr data _ :: es => lastWrite r (if addr % 16 = r then data else init) es
  | _ :: es => lastWrite r init es

/-- Volume of a channel: the low four bits of its AUDC register. -/
def volume (c : Channel) : Int := c.audc % 16

/-- The output of a channel is high. -/
def high (c : Channel) : Prop := c.delta > 0

instance (c : Channel) : Decidable (high c) := by unfold high; infer_instance

/-- What the mixer should receive: the volumes of the channels whose output is high. -/
def loudness (p : Pokey) : Int :=
  (if high (p.ch 0) then volume (p.ch 0) else 0) + (if high (p.ch 1) then volume (p.ch 1) else 0) +
  (if high (p.ch 2) then volume (p.ch 2) else 0) + (if high (p.ch 3) then volume (p.ch 3) else 0)

/-- `addr` is the AUDC register of channel `i`. -/
def isAudc (addr : Int) (i : Nat) : Prop := addr % 16 = 2 * i + 1

/-- Starting with the channels in `m` muted by the user, no AUDC register of a channel is written
while the user mutes that channel. -/
def Careful : Int → List ChipEvent → Prop
  | _, [] => True
  | _, .mute k :: es => Careful k es
  | m, .write addr _ _ :: es => (∀ i, i < 4 → isAudc addr i → ¬ bit m i) ∧ Careful m es
  | m, _ :: es => Careful m es

/-- What the INIT routine of a song does while everything is muted: no sound output without tone
("volume only", AUDC bit 4) except at volume zero; frames are neither started nor finished. -/
def ChipEvent.Quiet : ChipEvent → Prop
  | .write addr data cycle => cycle ≤ never ∧ (∀ i, i < 4 → isAudc addr i → bit data 4 → data % 16 = 0)
  | .irq _ _ => True
  | .timers _ => True
  | .external _ _ => True
  | _ => False

end Asap.Spec
