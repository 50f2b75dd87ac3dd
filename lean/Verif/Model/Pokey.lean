import Verif.Model.Bits
import Verif.Model.Info

/-!
# POKEY sound chips: pokey.fu

All `int` variables are mathematical integers.  The sinc interpolation table, which the constructor
computes with floating-point arithmetic (pokey.fu:633-653), is a parameter: every theorem holds for
every table.
-/

namespace Asap

/-- Faults of the emulated machine, i.e. array accesses outside the array in the code
(cpu6502.fu, pokey.fu:181, pokey.fu:169, pokey.fu:78-91).

* `mem`: `Cpu.Memory[65536]`, except
* `pc`: an instruction byte is fetched outside `Cpu.Memory[65536]`
* `dac`: `Pokey.CompressedSums[61]`
* `delta`: `Pokey.DeltaBuffer[DeltaBufferLength]`
* `poly`: a negative polynomial counter (negative shift count or table index)
* `thrown`: not an array access, but an exception the code throws
* `fuel`: a loop cut off by the model -/
inductive Hw where
  | thrown | mem | pc | dac | delta | poly | fuel
  deriving DecidableEq, Repr

/-- Computations of the emulated machine.  Model only: the code has no checks, e.g. pokey.fu:249. -/
abbrev X := Except Hw

/-- `PokeyChannel`, pokey.fu:33-48. -/
structure Channel where
  audf : Int
  audc : Int
  period : Int
  tick : Int
  timer : Int
  mute : Int
  out : Int
  delta : Int
  deriving DecidableEq, Repr

/-- `Pokey.NeverCycle`, pokey.fu:162. -/
def never : Int := 0x800000

/-- `PokeyChannel.MuteInit`, pokey.fu:42. -/
def muteInit : Int := 1
/-- `MuteUser`, pokey.fu:43. -/
def muteUser : Int := 2
/-- `MuteSerialInput`, pokey.fu:44. -/
def muteSerial : Int := 4

/-- `PokeyChannel.Initialize`, pokey.fu:50-60. -/
def Channel.fresh : Channel := ⟨0, 0, 28, never, never, 0, 0, 0⟩

/-- `Pokey`, pokey.fu:151-211 (not OPENCL).  `DeltaBuffer` is a function, its length `bufLen`. -/
structure Pokey where
  ch : Nat → Channel
  audctl : Int
  skctl : Int
  irqst : Int
  init : Bool
  div : Int
  reload1 : Int
  reload3 : Int
  polyIndex : Int
  bufLen : Int
  buf : Int → Int
  sumIn : Int
  sumOut : Int
  iirRate : Int
  iirAcc : Int
  trailing : Int

/-- The part of `PokeyPair` that a `Pokey` reads: `SampleFactor`, `SampleOffset`, `SincLookup`,
pokey.fu:604, 610-611. -/
structure Cfg where
  factor : Int
  offset : Int
  sinc : Int → Int → Int

/-- `CompressedSums`, pokey.fu:181-186. -/
def compressedSums : List Int :=
  [0, 35, 73, 111, 149, 189, 228, 266, 304, 342, 379, 415, 450, 484, 516, 546,
   575, 602, 628, 652, 674, 695, 715, 733, 750, 766, 782, 796, 809, 822, 834, 846,
   856, 867, 876, 886, 894, 903, 911, 918, 926, 933, 939, 946, 952, 958, 963, 969,
   974, 979, 984, 988, 993, 997, 1001, 1005, 1009, 1013, 1016, 1019, 1023]

/-- One step of the 9-bit shift register, pokey.fu:625. -/
def lfsr9 (reg : Nat) : Nat := (((reg >>> 5 ^^^ reg) &&& 1) <<< 8) + (reg >>> 1)

/-- Eight steps of the 17-bit shift register, pokey.fu:630. -/
def lfsr17x8 (reg : Nat) : Nat := (((reg >>> 5 ^^^ reg) &&& 0xff) <<< 9) + (reg >>> 8)

/-- Repeated application, for the loops at pokey.fu:624 and 629. -/
def iter {α : Type} (f : α → α) : Nat → α → α
  | 0, a => a
  | n + 1, a => iter f n (f a)

/-- `Poly9Lookup[i]`, pokey.fu:623-627. -/
def poly9 (i : Nat) : Nat := iter lfsr9 (i + 1) 0x1ff &&& 0xff

/-- `Poly17Lookup[i]`, pokey.fu:628-632. -/
def poly17 (i : Nat) : Nat := (iter lfsr17x8 (i + 1) 0x1ffff >>> 1) &&& 0xff

namespace Pokey

/-- Replaces an element of `Channels`, pokey.fu:153. -/
def setCh (p : Pokey) (i : Nat) (c : Channel) : Pokey := { p with ch := upd p.ch i c }

/-- The buffer after `StartFrame`, pokey.fu:213-217, when `Trailing` is inside the buffer. -/
def shiftBuf (p : Pokey) : Pokey :=
  { p with buf := fun k => if k < p.bufLen - p.trailing then p.buf (p.trailing + k) else 0 }

/-- `StartFrame`, pokey.fu:213-217: the copy and the fill leave the buffer unless
`0 ≤ Trailing ≤ DeltaBufferLength`. -/
def startFrame (p : Pokey) : X Pokey :=
  if 0 ≤ p.trailing ∧ p.trailing ≤ p.bufLen then .ok (shiftBuf p) else .error .delta

/-- `Initialize`, pokey.fu:219-243 (not OPENCL).  `sumOut` is not initialised by the code: the
argument is the object before.  `44100 * 6 / sampleRate` truncates; a zero rate,
a division by zero in the code, is excluded by the theorems.  Here `Trailing` is the buffer length,
so `StartFrame` is in range. -/
def initChip (p : Pokey) (sampleRate : Int) : Pokey :=
  let len := Int.tdiv (sampleRate * 312 * 114) 1773447 + 32 + 2
  shiftBuf
    { p with
      ch := fun _ => Channel.fresh, audctl := 0, skctl := 3, irqst := 0xff, init := false, div := 28
      reload1 := 28, reload3 := 28, polyIndex := 15 * 31 * 131071
      bufLen := len, buf := fun _ => 0, trailing := len
      iirAcc := 0, iirRate := Int.tdiv (44100 * 6) sampleRate, sumIn := 0 }

/-- `AddExternalDelta`, pokey.fu:254-264; the loop over `j < UnitDeltaLength` is written as one
update of the buffer. -/
def addExternalDelta (cfg : Cfg) (p : Pokey) (cycle delta : Int) : X Pokey :=
  if delta = 0 then .ok p
  else
    let i := cycle * cfg.factor + cfg.offset
    let fraction := band (shr i (18 - 10)) ((1 <<< 10) - 1)
    let i := shr i 18
    let delta := shr delta 14
    if 0 ≤ i ∧ i + 31 < p.bufLen then
      .ok { p with buf := fun k =>
        if i ≤ k ∧ k < i + 32 then p.buf k + delta * cfg.sinc fraction (k - i) else p.buf k }
    else .error .delta

/-- `AddDelta`, pokey.fu:245-252. -/
def addDelta (cfg : Cfg) (p : Pokey) (cycle delta : Int) : X Pokey :=
  let sum := p.sumIn + delta
  if 0 ≤ sum then
    match compressedSums[sum.toNat]? with
    | none => .error .dac
    | some v => do
      let newOutput := shl v 16
      let p ← addExternalDelta cfg { p with sumIn := sum } cycle (newOutput - p.sumOut)
      .ok { p with sumOut := newOutput }
  else .error .dac

/-- `PokeyChannel.Slope`, pokey.fu:62-66. -/
def slope (cfg : Cfg) (p : Pokey) (i : Nat) (cycle : Int) : X Pokey :=
  let d := -(p.ch i).delta
  addDelta cfg (p.setCh i { p.ch i with delta := d }) cycle d

/-- The new `Out` from the long polynomials, pokey.fu:83-92. -/
def polyOut (audc audctl poly : Int) : Int :=
  band (if band audc 0x40 ≠ 0 then shr 0x5370 (poly % 15).toNat
    else if audctl < 0x80 then shr (poly17 (shr (poly % 131071) 3).toNat) (band (poly % 131071) 7).toNat
    else poly9 (poly % 511).toNat) 1

/-- `PokeyChannel.DoTick`, pokey.fu:68-99.  Simplification: any negative polynomial counter is a
fault, although C is defined when the remainder happens to be zero. -/
def doTick (cfg : Cfg) (p : Pokey) (i : Nat) (cycle : Int) : X Pokey :=
  let c := { p.ch i with tick := (p.ch i).tick + (p.ch i).period }
  let p := p.setCh i c
  if band c.audc 0xb0 = 0xa0 then slope cfg (p.setCh i { c with out := bxor c.out 1 }) i cycle
  else if band c.audc 0x10 ≠ 0 ∨ p.init = true then .ok p
  else
    let poly := cycle + p.polyIndex - i
    if poly < 0 then .error .poly
    else if c.audc < 0x80 ∧ band 0x65bd44e0 (shl 1 (poly % 31).toNat) = 0 then .ok p
    else if band c.audc 0x20 ≠ 0 then slope cfg (p.setCh i { c with out := bxor c.out 1 }) i cycle
    else
      let newOut := polyOut c.audc p.audctl poly
      if c.out = newOut then .ok p
      else slope cfg (p.setCh i { c with out := newOut }) i cycle

/-- The earliest `TickCycle` below the limit, pokey.fu:270-275. -/
def firstTick (p : Pokey) (limit : Int) : Int :=
  min (min (min (min limit (p.ch 0).tick) (p.ch 1).tick) (p.ch 2).tick) (p.ch 3).tick

/-- High-pass filter: a clock of another channel turns off channel `i`, pokey.fu:280-281, 287-288. -/
def highPass (cfg : Cfg) (p : Pokey) (mask : Int) (i : Nat) (cycle : Int) : X Pokey :=
  if band p.audctl mask ≠ 0 ∧ (p.ch i).delta > 0 ∧ (p.ch i).mute = 0 then slope cfg p i cycle else .ok p

/-- `Channels[2]` in `GenerateUntilCycle`, pokey.fu:279-283. -/
def tick2 (cfg : Cfg) (p : Pokey) (cycle : Int) : X Pokey :=
  if cycle = (p.ch 2).tick then do
    let p ← highPass cfg p 4 0 cycle
    doTick cfg p 2 cycle
  else .ok p

/-- `Channels[3]`, pokey.fu:284-290. -/
def tick3 (cfg : Cfg) (p : Pokey) (cycle : Int) : X Pokey :=
  if cycle = (p.ch 3).tick then do
    let p := if band p.audctl 8 ≠ 0 then p.setCh 2 { p.ch 2 with tick := cycle + p.reload3 } else p
    let p ← highPass cfg p 2 1 cycle
    doTick cfg p 3 cycle
  else .ok p

/-- `Channels[0]`, pokey.fu:291-295. -/
def tick0 (cfg : Cfg) (p : Pokey) (cycle : Int) : X Pokey :=
  if cycle = (p.ch 0).tick then
    let p := if band p.skctl 0x88 = 8 then p.setCh 1 { p.ch 1 with tick := cycle + (p.ch 1).period } else p
    doTick cfg p 0 cycle
  else .ok p

/-- `Channels[1]`, pokey.fu:296-302. -/
def tick1 (cfg : Cfg) (p : Pokey) (cycle : Int) : X Pokey :=
  if cycle = (p.ch 1).tick then
    let p :=
      if band p.audctl 0x10 ≠ 0 then p.setCh 0 { p.ch 0 with tick := cycle + p.reload1 }
      else if band p.skctl 8 ≠ 0 then p.setCh 0 { p.ch 0 with tick := cycle + (p.ch 0).period }
      else p
    doTick cfg p 1 cycle
  else .ok p

/-- All channels at one moment, pokey.fu:279-302. -/
def tickAll (cfg : Cfg) (p : Pokey) (cycle : Int) : X Pokey := do
  let p ← tick2 cfg p cycle
  let p ← tick3 cfg p cycle
  let p ← tick0 cfg p cycle
  tick1 cfg p cycle

/-- The loop of `GenerateUntilCycle`, pokey.fu:267-304. -/
def generateLoop (cfg : Cfg) (limit : Int) : Nat → Pokey → X Pokey
  | 0, _ => .error .fuel
  | fuel + 1, p =>
    let cycle := p.firstTick limit
    if cycle = limit then .ok p
    else do
      let p ← tickAll cfg p cycle
      generateLoop cfg limit fuel p

/-- `GenerateUntilCycle`, pokey.fu:267-304; every iteration handles a later moment. -/
def generateUntil (cfg : Cfg) (p : Pokey) (limit : Int) : X Pokey :=
  generateLoop cfg limit ((limit - p.firstTick limit).toNat + 1) p

/-- `EndFrame`, pokey.fu:306-318. -/
def endFrame (cfg : Cfg) (p : Pokey) (cycle : Int) : X Pokey := do
  let p ← generateUntil cfg p cycle
  let polyIndex := p.polyIndex + cycle
  let m := if band p.audctl 0x80 ≠ 0 then 15 * 31 * 511 else 15 * 31 * 131071
  .ok { p with
    polyIndex := if polyIndex ≥ 2 * m then polyIndex - m else polyIndex
    ch := fun i => { p.ch i with tick := if (p.ch i).tick ≠ never then (p.ch i).tick - cycle else (p.ch i).tick } }

/-- `IsSilent`, pokey.fu:320-326. -/
def isSilent (p : Pokey) : Bool :=
  decide (band (p.ch 0).audc 0xf = 0 ∧ band (p.ch 1).audc 0xf = 0 ∧ band (p.ch 2).audc 0xf = 0 ∧ band (p.ch 3).audc 0xf = 0)

/-- `PokeyChannel.SetMute`, pokey.fu:107-118. -/
def setMute (c : Channel) (enable : Bool) (mask cycle : Int) : Channel :=
  if enable then { c with mute := bor c.mute mask, tick := never }
  else
    let m := band c.mute (bnot mask)
    { c with mute := m, tick := if m = 0 ∧ c.tick = never then cycle else c.tick }

/-- `Mute`, pokey.fu:328-332. -/
def muteAll (p : Pokey) (mask : Int) : Pokey :=
  { p with ch := fun i => if i < 4 then setMute (p.ch i) (decide (band mask (shl 1 i) ≠ 0)) muteUser 0 else p.ch i }

/-- `SetMute` on one of the channels, pokey.fu:338-341, 535-536. -/
def muteCh (p : Pokey) (i : Nat) (enable : Bool) (mask cycle : Int) : Pokey :=
  p.setCh i (setMute (p.ch i) enable mask cycle)

/-- `InitMute`, pokey.fu:334-342. -/
def initMute (p : Pokey) (cycle : Int) : Pokey :=
  (((p.muteCh 0 (p.init && decide (band p.audctl 0x40 = 0)) muteInit cycle).muteCh 1
    (p.init && decide (band p.audctl 0x50 ≠ 0x50)) muteInit cycle).muteCh 2
    (p.init && decide (band p.audctl 0x20 = 0)) muteInit cycle).muteCh 3
    (p.init && decide (band p.audctl 0x28 ≠ 0x28)) muteInit cycle

/-- `if ((Mute & MuteUser) == 0) pokey.AddDelta(...)`, pokey.fu:128-129, 135-136. -/
def addUnmuted (cfg : Cfg) (p : Pokey) (i : Nat) (cycle delta : Int) : X Pokey :=
  if band (p.ch i).mute muteUser = 0 then addDelta cfg p cycle delta else .ok p

/-- Sets `Delta` of a channel, pokey.fu:48. -/
def setDelta (p : Pokey) (i : Nat) (v : Int) : Pokey := p.setCh i { p.ch i with delta := v }

/-- The second half of `PokeyChannel.SetAudc`, pokey.fu:126-141. -/
def storeVolume (cfg : Cfg) (p : Pokey) (i : Nat) (data cycle : Int) : X Pokey :=
  if band data 0x10 ≠ 0 then do
    let q ← addUnmuted cfg p i cycle
      (if (p.ch i).delta > 0 then band data 0xf - (p.ch i).delta else band data 0xf)
    .ok (q.setDelta i (band data 0xf))
  else if (p.ch i).delta > 0 then do
    let q ← addUnmuted cfg p i cycle (band data 0xf - (p.ch i).delta)
    .ok (q.setDelta i (band data 0xf))
  else .ok (p.setDelta i (-(band data 0xf)))

/-- `PokeyChannel.SetAudc`, pokey.fu:120-142. -/
def setAudc (cfg : Cfg) (p : Pokey) (i : Nat) (data cycle : Int) : X Pokey :=
  if (p.ch i).audc = data then .ok p
  else do
    let p ← generateUntil cfg p cycle
    let p := p.setCh i { p.ch i with audc := data }
    storeVolume cfg p i data cycle

/-- Sets `PeriodCycles` of a channel, pokey.fu:37. -/
def setPeriod (p : Pokey) (i : Nat) (v : Int) : Pokey := p.setCh i { p.ch i with period := v }

/-- Sets `Audf` of a channel, pokey.fu:35. -/
def setAudf (p : Pokey) (i : Nat) (v : Int) : Pokey := p.setCh i { p.ch i with audf := v }

/-- Sets `ReloadCycles1`, pokey.fu:159. -/
def setReload1 (p : Pokey) (v : Int) : Pokey := { p with reload1 := v }

/-- Sets `ReloadCycles3`, pokey.fu:160. -/
def setReload3 (p : Pokey) (v : Int) : Pokey := { p with reload3 := v }

/-- The `switch` of `AUDF1`, pokey.fu:353-370. -/
def tune1 (p : Pokey) (data : Int) : Pokey :=
  if band p.audctl 0x50 = 0 then p.setPeriod 0 (p.div * (data + 1))
  else if band p.audctl 0x50 = 0x10 then
    (p.setPeriod 1 (p.div * (data + shl (p.ch 1).audf 8 + 1))).setReload1 (p.div * (data + 1))
  else if band p.audctl 0x50 = 0x40 then p.setPeriod 0 (data + 4)
  else (p.setPeriod 1 (data + shl (p.ch 1).audf 8 + 7)).setReload1 (data + 4)

/-- The `switch` of `AUDF2`, pokey.fu:380-393. -/
def tune2 (p : Pokey) (data : Int) : Pokey :=
  if band p.audctl 0x50 = 0 ∨ band p.audctl 0x50 = 0x40 then p.setPeriod 1 (p.div * (data + 1))
  else if band p.audctl 0x50 = 0x10 then p.setPeriod 1 (p.div * ((p.ch 0).audf + shl data 8 + 1))
  else p.setPeriod 1 ((p.ch 0).audf + shl data 8 + 7)

/-- The `switch` of `AUDF3`, pokey.fu:403-420. -/
def tune3 (p : Pokey) (data : Int) : Pokey :=
  if band p.audctl 0x28 = 0 then p.setPeriod 2 (p.div * (data + 1))
  else if band p.audctl 0x28 = 0x08 then
    (p.setPeriod 3 (p.div * (data + shl (p.ch 3).audf 8 + 1))).setReload3 (p.div * (data + 1))
  else if band p.audctl 0x28 = 0x20 then p.setPeriod 2 (data + 4)
  else (p.setPeriod 3 (data + shl (p.ch 3).audf 8 + 7)).setReload3 (data + 4)

/-- The `switch` of `AUDF4`, pokey.fu:430-443. -/
def tune4 (p : Pokey) (data : Int) : Pokey :=
  if band p.audctl 0x28 = 0 ∨ band p.audctl 0x28 = 0x20 then p.setPeriod 3 (p.div * (data + 1))
  else if band p.audctl 0x28 = 0x08 then p.setPeriod 3 (p.div * ((p.ch 2).audf + shl data 8 + 1))
  else p.setPeriod 3 ((p.ch 2).audf + shl data 8 + 7)

/-- `AUDF1`, `AUDF2`, `AUDF3`, `AUDF4` (`i` = 0..3), pokey.fu:348-371, 375-394, 398-421, 425-444: the
four cases share everything but the `switch`. -/
def pokeAudf (cfg : Cfg) (p : Pokey) (i : Nat) (tune : Pokey → Int → Pokey) (data cycle : Int) : X Pokey :=
  if data = (p.ch i).audf then .ok p
  else do
    let p ← generateUntil cfg p cycle
    .ok (tune (p.setAudf i data) data)

/-- First `switch` of `AUDCTL`, pokey.fu:455-476. -/
def audctlPair1 (p : Pokey) : Pokey :=
  if band p.audctl 0x50 = 0 then
    (p.setPeriod 0 (p.div * ((p.ch 0).audf + 1))).setPeriod 1 (p.div * ((p.ch 1).audf + 1))
  else if band p.audctl 0x50 = 0x10 then
    ((p.setPeriod 0 (shl p.div 8)).setPeriod 1 (p.div * ((p.ch 0).audf + shl (p.ch 1).audf 8 + 1))).setReload1
      (p.div * ((p.ch 0).audf + 1))
  else if band p.audctl 0x50 = 0x40 then
    (p.setPeriod 0 ((p.ch 0).audf + 4)).setPeriod 1 (p.div * ((p.ch 1).audf + 1))
  else ((p.setPeriod 0 256).setPeriod 1 ((p.ch 0).audf + shl (p.ch 1).audf 8 + 7)).setReload1 ((p.ch 0).audf + 4)

/-- Second `switch` of `AUDCTL`, pokey.fu:477-498. -/
def audctlPair3 (p : Pokey) : Pokey :=
  if band p.audctl 0x28 = 0 then
    (p.setPeriod 2 (p.div * ((p.ch 2).audf + 1))).setPeriod 3 (p.div * ((p.ch 3).audf + 1))
  else if band p.audctl 0x28 = 0x08 then
    ((p.setPeriod 2 (shl p.div 8)).setPeriod 3 (p.div * ((p.ch 2).audf + shl (p.ch 3).audf 8 + 1))).setReload3
      (p.div * ((p.ch 2).audf + 1))
  else if band p.audctl 0x28 = 0x20 then
    (p.setPeriod 2 ((p.ch 2).audf + 4)).setPeriod 3 (p.div * ((p.ch 3).audf + 1))
  else ((p.setPeriod 2 256).setPeriod 3 ((p.ch 2).audf + shl (p.ch 3).audf 8 + 7)).setReload3 ((p.ch 2).audf + 4)

/-- Stores `Audctl` and `DivCycles`, pokey.fu:452-453. -/
def setAudctl (p : Pokey) (data : Int) : Pokey :=
  { p with audctl := data, div := if band data 1 ≠ 0 then 114 else 28 }

/-- `AUDCTL`, pokey.fu:448-500. -/
def pokeAudctl (cfg : Cfg) (p : Pokey) (data cycle : Int) : X Pokey :=
  if data = p.audctl then .ok p
  else do
    let p ← generateUntil cfg p cycle
    .ok (initMute (audctlPair3 (audctlPair1 (p.setAudctl data))) cycle)

/-- `STIMER`, pokey.fu:101-105, 501-505. -/
def pokeStimer (p : Pokey) (cycle : Int) : Pokey :=
  { p with ch := fun i => { p.ch i with tick := if (p.ch i).tick ≠ never then cycle + (p.ch i).period else (p.ch i).tick } }

/-- `while (t < cycle) t += PeriodCycles;`, pokey.fu:511-513. -/
def nextTimer (period cycle : Int) : Nat → Int → X Int
  | 0, t => if t < cycle then .error .fuel else .ok t
  | fuel + 1, t => if t < cycle then nextTimer period cycle fuel (t + period) else .ok t

/-- One channel of the `IRQEN` loop, pokey.fu:509-520. -/
def irqenOne (p : Pokey) (i : Nat) (data cycle next : Int) : X (Int × Pokey) :=
  if band (band data p.irqst) (i + 1) ≠ 0 then
    if (p.ch i).timer = never then do
      let t ← nextTimer (p.ch i).period cycle (cycle - (p.ch i).tick).toNat (p.ch i).tick
      .ok (if next > t then t else next, p.setCh i { p.ch i with timer := t })
    else .ok (next, p)
  else .ok (next, p.setCh i { p.ch i with timer := never })

/-- `IRQEN`, pokey.fu:506-524: the loop visits channels 3, 1, 0. -/
def pokeIrqen (p : Pokey) (data cycle : Int) : X (Int × Pokey) := do
  let p := { p with irqst := bor p.irqst (bxor data 0xff) }
  let r ← irqenOne p 3 data cycle never
  let r ← irqenOne r.2 1 data cycle r.1
  irqenOne r.2 0 data cycle r.1

/-- Stores `Skctl`, `PolyIndex`, `Init`, pokey.fu:529-533. -/
def setSkctl (p : Pokey) (data cycle : Int) : Pokey :=
  { p with
    skctl := data
    polyIndex := if p.init = true ∧ band data 3 ≠ 0 then
        (if band p.audctl 0x80 ≠ 0 then 15 * 31 * 511 - 1 else 15 * 31 * 131071 - 1) - cycle
      else p.polyIndex
    init := decide (band data 3 = 0) }

/-- `SKCTL`, pokey.fu:525-537. -/
def pokeSkctl (cfg : Cfg) (p : Pokey) (data cycle : Int) : X Pokey :=
  if data = p.skctl then .ok p
  else do
    let p ← generateUntil cfg p cycle
    .ok ((((p.setSkctl data cycle).initMute cycle).muteCh 2 (decide (band data 0x10 ≠ 0)) muteSerial cycle).muteCh 3
      (decide (band data 0x10 ≠ 0)) muteSerial cycle)

/-- Attaches the default `nextEventCycle`, pokey.fu:346. -/
def noEvent (x : X Pokey) : X (Int × Pokey) := do
  let p ← x
  .ok (never, p)

/-- `Poke`, pokey.fu:344-542: returns `nextEventCycle` and the chip. -/
def poke (cfg : Cfg) (p : Pokey) (addr data cycle : Int) : X (Int × Pokey) :=
  match (band addr 0xf).toNat with
  | 0x0 => noEvent (pokeAudf cfg p 0 tune1 data cycle)
  | 0x1 => noEvent (setAudc cfg p 0 data cycle)
  | 0x2 => noEvent (pokeAudf cfg p 1 tune2 data cycle)
  | 0x3 => noEvent (setAudc cfg p 1 data cycle)
  | 0x4 => noEvent (pokeAudf cfg p 2 tune3 data cycle)
  | 0x5 => noEvent (setAudc cfg p 2 data cycle)
  | 0x6 => noEvent (pokeAudf cfg p 3 tune4 data cycle)
  | 0x7 => noEvent (setAudc cfg p 3 data cycle)
  | 0x8 => noEvent (pokeAudctl cfg p data cycle)
  | 0x9 => .ok (never, pokeStimer p cycle)
  | 0xe => pokeIrqen p data cycle
  | 0xf => noEvent (pokeSkctl cfg p data cycle)
  | _ => .ok (never, p)

/-- One channel of `CheckIrq`, pokey.fu:547-553. -/
def checkIrqOne (p : Pokey) (i : Nat) (cycle next : Int) : Int × Pokey :=
  if cycle ≥ (p.ch i).timer then
    (next, { p with irqst := band p.irqst (bnot (i + 1)), ch := upd p.ch i { p.ch i with timer := never } })
  else (if next > (p.ch i).timer then (p.ch i).timer else next, p)

/-- `CheckIrq`, pokey.fu:544-558. -/
def checkIrq (p : Pokey) (cycle next : Int) : Int × Pokey :=
  let r := checkIrqOne p 3 cycle next
  let r := checkIrqOne r.2 1 cycle r.1
  checkIrqOne r.2 0 cycle r.1

/-- `PokeyChannel.EndFrame`, pokey.fu:144-148, as called for channels 3, 1, 0 in asap.fu:283-288. -/
def endTimers (p : Pokey) (cycle : Int) : Pokey :=
  { p with ch := fun i =>
      if i = 2 then p.ch i
      else { p.ch i with timer := if (p.ch i).timer ≠ never then (p.ch i).timer - cycle else (p.ch i).timer } }

end Pokey

/-- `ASAPSampleFormat`, pokey.fu:23-31. -/
inductive SampleFormat where
  | u8 | s16le | s16be
  deriving DecidableEq, Repr

/-- Clamping in `StoreSample`, pokey.fu:563-567. -/
def clampSample (s : Int) : Int := if s < -32767 then -32767 else if s > 32767 then 32767 else s

/-- The bytes of a sample, pokey.fu:568-580. -/
def sampleBytes (format : SampleFormat) (s : Int) : List Int :=
  match format with
  | .u8 => [(shr s 8 + 128) % 256]
  | .s16le => [band s 0xff, band (shr s 8) 0xff]
  | .s16be => [band (shr s 8) 0xff, band s 0xff]

/-- `StoreSample`, pokey.fu:560-582.  Reading outside the delta buffer is a fault. -/
def Pokey.storeSample (p : Pokey) (i : Int) (format : SampleFormat) : X (List Int × Pokey) :=
  if 0 ≤ i ∧ i < p.bufLen then
    let acc := p.iirAcc + (p.buf i - shr (p.iirRate * p.iirAcc) 11)
    .ok (sampleBytes format (clampSample (shr acc 11)), { p with iirAcc := acc })
  else .error .delta

/-- `PokeyPair`, pokey.fu:593-614. -/
structure Pair where
  extraMask : Int
  base : Pokey
  extra : Pokey
  rate : Int
  factor : Int
  offset : Int
  readyStart : Int
  readyEnd : Int
  sinc : Int → Int → Int

namespace Pair

/-- What the chips read of the `pokeys` argument, pokey.fu:258-263. -/
def cfg (q : Pair) : Cfg := ⟨q.factor, q.offset, q.sinc⟩

/-- `GetSampleFactor`, pokey.fu:658-659. -/
def sampleFactor (rate clock : Int) : Int :=
  Int.tdiv (shl rate (18 - 5) + shr clock 6) (shr clock 5)

/-- `Initialize`, pokey.fu:666-676. -/
def initPair (q : Pair) (ntsc stereo : Bool) (rate : Int) : Pair :=
  { q with
    extraMask := if stereo then 0x10 else 0
    rate := rate
    base := q.base.initChip rate
    extra := q.extra.initChip rate
    factor := if ntsc then sampleFactor rate 1789772 else sampleFactor rate 1773447
    offset := 0, readyStart := 0, readyEnd := 0 }

/-- `Poke`, pokey.fu:683-687. -/
def poke (q : Pair) (addr data cycle : Int) : X (Int × Pair) :=
  if band addr q.extraMask ≠ 0 then do
    let r ← q.extra.poke q.cfg addr data cycle
    .ok (r.1, { q with extra := r.2 })
  else do
    let r ← q.base.poke q.cfg addr data cycle
    .ok (r.1, { q with base := r.2 })

/-- `Peek`, pokey.fu:694-713. -/
def peek (q : Pair) (addr cycle : Int) : X Int :=
  let pokey := if band addr q.extraMask ≠ 0 then q.extra else q.base
  let r := band addr 0xf
  if r = 0xa then
    if pokey.init then .ok 0xff
    else
      let i := cycle + pokey.polyIndex
      if i < 0 then .error .poly
      else if band pokey.audctl 0x80 ≠ 0 then .ok (poly9 (i % 511).toNat)
      else
        let i := (i % 131071).toNat
        .ok (band (shr (poly17 (i / 8)) (i % 8) + shl (poly17 (i / 8 + 1)) (8 - i % 8)) 0xff)
  else if r = 0xe then .ok pokey.irqst
  else .ok 0xff

/-- `StartFrame` of the extra chip, only in stereo, pokey.fu:723-724. -/
def startExtra (q : Pair) : X Pokey :=
  if q.extraMask ≠ 0 then q.extra.startFrame else .ok q.extra

/-- `StartFrame`, pokey.fu:720-725. -/
def startFrame (q : Pair) : X Pair := do
  let b ← q.base.startFrame
  let e ← q.startExtra
  .ok { q with base := b, extra := e }

/-- `EndFrame` of the extra chip, only in stereo, pokey.fu:735-736. -/
def endExtra (q : Pair) (cycle : Int) : X Pokey :=
  if q.extraMask ≠ 0 then q.extra.endFrame q.cfg cycle else .ok q.extra

/-- `EndFrame`, pokey.fu:732-742. -/
def endFrame (q : Pair) (cycle : Int) : X Pair := do
  let b ← q.base.endFrame q.cfg cycle
  let e ← q.endExtra cycle
  let o := q.offset + cycle * q.factor
  .ok { q with base := b, extra := e, readyStart := 0, readyEnd := shr o 18, offset := band o ((1 <<< 18) - 1) }

/-- One block: a sample of each chip, pokey.fu:760-762. -/
def storeBlock (q : Pair) (i : Int) (format : SampleFormat) : X (List Int × Pair) := do
  let r ← q.base.storeSample i format
  if q.extraMask ≠ 0 then do
    let t ← q.extra.storeSample i format
    .ok (r.1 ++ t.1, { q with base := r.2, extra := t.2 })
  else .ok (r.1, { q with base := r.2 })

/-- The loop of `Generate`, pokey.fu:759-763: `n` blocks from sample `i`. -/
def storeBlocks (format : SampleFormat) : Nat → Pair → Int → X (List Int × Pair)
  | 0, q, _ => .ok ([], q)
  | n + 1, q, i => do
    let r ← q.storeBlock i format
    let t ← storeBlocks format n r.2 (i + 1)
    .ok (r.1 ++ t.1, t.2)

/-- `Generate`, pokey.fu:750-775: the bytes stored, the number of blocks, the chips. -/
def generate (q : Pair) (blocks : Int) (format : SampleFormat) : X (List Int × Int × Pair) :=
  let i := q.readyStart
  let blocks := if blocks < q.readyEnd - i then blocks else q.readyEnd - i
  if blocks > 0 then do
    let r ← storeBlocks format blocks.toNat q i
    let q' := r.2
    let stop := i + blocks
    let q' := if stop = q.readyEnd then
        { q' with base := { q'.base with trailing := stop }, extra := { q'.extra with trailing := stop } }
      else q'
    .ok (r.1, blocks, { q' with readyStart := stop })
  else .ok ([], blocks, q)

/-- `IsSilent`, pokey.fu:777-778. -/
def isSilent (q : Pair) : Bool := q.base.isSilent && q.extra.isSilent

end Pair

end Asap
