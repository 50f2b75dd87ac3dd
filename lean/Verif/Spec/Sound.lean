import Verif.Spec.Noise

/-!
# A POKEY chip that works cycle by cycle

The reference for C43: in every cycle of the 1.79 MHz clock each channel counts down; when its
counter runs out it may change its output.  The sound is the sum of the volumes of the channels
that are high, sent through the table of the converter, band-limited: a change of the converter's
output at a cycle adds a copy of the interpolation table, scaled by the change, to the sound.

Nothing here is computed from an event to the next event; there is no list of pending events, no
"next tick", and time is counted from the start of the playback.
-/

namespace Asap.Spec.Sound

/-- A channel: its registers AUDF and AUDC, the cycles left until it is clocked, its flip-flop, and
whether its output is high. -/
structure Tone where
  audf : Int
  audc : Int
  left : Int
  flop : Bool
  high : Bool

/-- The chip: four channels (numbered from 0), AUDCTL, SKCTL, and the position of the noise generators
at cycle 0. -/
structure Chip where
  ch : Nat → Tone
  audctl : Int
  skctl : Int
  phase : Int

/-- The noise generators as sequences of bits.  The long ones are shift registers with feedback from
bits 0 and 5 starting with ones; the short ones have 4 and 5 bits, inverted feedback from bits 0 and 1,
0 and 2, and start with zeros. -/
structure Noise where
  four : Nat → Bool
  five : Nat → Bool
  nine : Nat → Bool
  seventeen : Nat → Bool
  four_start : ∀ k, k < 4 → four k = false
  four_next : ∀ k, four (k + 4) = !(four k ^^ four (k + 1))
  five_start : ∀ k, k < 5 → five k = false
  five_next : ∀ k, five (k + 5) = !(five k ^^ five (k + 2))
  nine_register : ShiftRegister 9 nine
  seventeen_register : ShiftRegister 17 seventeen

/-- The volume: the low four bits of AUDC. -/
def Tone.volume (x : Tone) : Int := x.audc % 16

/-- Replaces a channel. -/
def Chip.set (r : Chip) (i : Nat) (x : Tone) : Chip := { r with ch := fun j => if j = i then x else r.ch j }

/-- The cycles between two clocks of a channel, by the formulas of the hardware manual. -/
def Chip.period (r : Chip) (i : Nat) : Int :=
  Spec.period r.audctl (r.ch 0).audf (r.ch 1).audf (r.ch 2).audf (r.ch 3).audf i

/-- What the low counter of a joined pair restarts from when the high one is clocked: `fast` is the
1.79 MHz bit of AUDCTL. -/
def Chip.reload (r : Chip) (i fast : Nat) : Int :=
  if bit r.audctl fast then (r.ch i).audf + 4 else divider r.audctl * ((r.ch i).audf + 1)

/-- Sets the counter of a channel. -/
def Chip.restart (r : Chip) (i : Nat) (n : Int) : Chip := r.set i { r.ch i with left := n }

/-- Makes the output of a channel low. -/
def Chip.silence (r : Chip) (i : Nat) : Chip := r.set i { r.ch i with high := false }

/-- The flip-flop and the output change.  At volume 0 the output is low. -/
def Tone.toggle (x : Tone) : Tone := { x with flop := !x.flop, high := !x.high && decide (x.volume ≠ 0) }

/-- The noise bit offered to a channel: 4-bit noise if AUDC bit 6 is set, else 9-bit or 17-bit noise by
AUDCTL bit 7. -/
def Noise.source (z : Noise) (audc audctl x : Int) : Bool :=
  if bit audc 6 then z.four (x % 15).toNat
  else if bit audctl 7 then z.nine ((x % 511).toNat + 1)
  else z.seventeen ((x % 131071).toNat + 9)

/-- A clocked channel, the noise generators being at position `x`: nothing happens with AUDC bit 4
(volume only); unless AUDC bit 7 is set the clock is gated by the 5-bit noise; AUDC bit 5 selects a pure
tone; otherwise the flip-flop takes the noise bit. -/
def Tone.drive (z : Noise) (audctl x : Int) (c : Tone) : Tone :=
  if bit c.audc 4 then c
  else if ¬ bit c.audc 7 ∧ z.five (x % 31).toNat = false then c
  else if bit c.audc 5 then c.toggle
  else if c.flop = z.source c.audc audctl x then c
  else c.toggle

/-- Channel `i` is clocked at cycle `t` and starts to count its period.  It sees the noise of `i` cycles
before. -/
def Chip.fire (z : Noise) (t : Int) (r : Chip) (i : Nat) : Chip :=
  r.set i { Tone.drive z r.audctl (r.phase + t - i) (r.ch i) with left := r.period i }

/-- Channel 3: with AUDCTL bit 2 it is the high-pass filter of channel 1. -/
def Chip.clock2 (z : Noise) (t : Int) (r : Chip) : Chip :=
  if (r.ch 2).left = 0 then (if bit r.audctl 2 then r.silence 0 else r).fire z t 2 else r

/-- The channel below restarts if the two are joined by AUDCTL bit `j`. -/
def Chip.join (r : Chip) (j i fast : Nat) : Chip :=
  if bit r.audctl j then r.restart i (r.reload i fast) else r

/-- Channel 4: it restarts channel 3 if they are joined (AUDCTL bit 3), and with AUDCTL bit 1 it is the
high-pass filter of channel 2. -/
def Chip.clock3 (z : Noise) (t : Int) (r : Chip) : Chip :=
  if (r.ch 3).left = 0 then
    (if bit r.audctl 1 then (r.join 3 2 5).silence 1 else r.join 3 2 5).fire z t 3
  else r

/-- Channel 1: in two-tone mode (SKCTL bit 3, without bit 7) it restarts channel 2. -/
def Chip.clock0 (z : Noise) (t : Int) (r : Chip) : Chip :=
  if (r.ch 0).left = 0 then
    (if bit r.skctl 3 ∧ ¬ bit r.skctl 7 then r.restart 1 (r.period 1) else r).fire z t 0
  else r

/-- Channel 2: it restarts channel 1 if they are joined (AUDCTL bit 4) or in two-tone mode. -/
def Chip.clock1 (z : Noise) (t : Int) (r : Chip) : Chip :=
  if (r.ch 1).left = 0 then
    (if bit r.audctl 4 then r.restart 0 (r.reload 0 6) else if bit r.skctl 3 then r.restart 0 (r.period 0) else r).fire z t 1
  else r

/-- The counters count down. -/
def Chip.count (r : Chip) : Chip := { r with ch := fun i => { r.ch i with left := (r.ch i).left - 1 } }

/-- Cycle `t`. -/
def Chip.tick (z : Noise) (t : Int) (r : Chip) : Chip := ((((r.clock2 z t).clock3 z t).clock0 z t).clock1 z t).count

/-- What a channel adds to the sound. -/
def Tone.amplitude (x : Tone) : Int := if x.high then x.volume else 0

/-- The sum of the volumes of the channels whose output is high. -/
def Chip.level (r : Chip) : Int :=
  (r.ch 0).amplitude + (r.ch 1).amplitude + (r.ch 2).amplitude + (r.ch 3).amplitude

/-- The converter, which compresses the sum. -/
def mix (a : Int) : Int := compressedSums[a.toNat]?.getD 0

/-- The band-limited step of height 1 at cycle `t`, in sample `k`: there are `factor / 2^18` samples per
cycle, and the step spreads over 32 samples. -/
def kernel (factor : Int) (sinc : Int → Int → Int) (t k : Int) : Int :=
  if t * factor / 2 ^ 18 ≤ k ∧ k < t * factor / 2 ^ 18 + 32 then
    sinc (t * factor / 2 ^ 8 % 2 ^ 10) (k - t * factor / 2 ^ 18)
  else 0

/-- The chip and the sound it has made: `wave k` is the change of the sound at sample `k`, counted from the
start of the playback. -/
structure Sound where
  chip : Chip
  wave : Int → Int

/-- The chip changes to `r` at cycle `t`. -/
def Sound.become (factor : Int) (sinc : Int → Int → Int) (t : Int) (s : Sound) (r : Chip) : Sound :=
  ⟨r, fun k => s.wave k + 4 * (mix r.level - mix s.chip.level) * kernel factor sinc t k⟩

/-- Something else than the chip makes a step at cycle `t`. -/
def Sound.add (factor : Int) (sinc : Int → Int → Int) (t height : Int) (s : Sound) : Sound :=
  ⟨s.chip, fun k => s.wave k + height * kernel factor sinc t k⟩

/-- The `n` cycles from cycle `t`. -/
def Sound.wait (z : Noise) (factor : Int) (sinc : Int → Int → Int) : Nat → Int → Sound → Sound
  | 0, _, s => s
  | n + 1, t, s => Sound.wait z factor sinc n (t + 1) (s.become factor sinc t (s.chip.tick z t))

/-- A write to AUDC: with bit 4 the output is high; otherwise it stays as it is; at volume 0 it is low.
Writing the same value again has no effect. -/
def Tone.putAudc (x : Tone) (data : Int) : Tone :=
  if x.audc = data then x
  else { x with audc := data, high := decide ((bit data 4 ∨ x.high = true) ∧ data % 16 ≠ 0) }

/-- A register write. -/
def Chip.put (r : Chip) (addr data : Int) : Chip :=
  if addr % 16 = 0 then r.set 0 { r.ch 0 with audf := data }
  else if addr % 16 = 1 then r.set 0 ((r.ch 0).putAudc data)
  else if addr % 16 = 2 then r.set 1 { r.ch 1 with audf := data }
  else if addr % 16 = 3 then r.set 1 ((r.ch 1).putAudc data)
  else if addr % 16 = 4 then r.set 2 { r.ch 2 with audf := data }
  else if addr % 16 = 5 then r.set 2 ((r.ch 2).putAudc data)
  else if addr % 16 = 6 then r.set 3 { r.ch 3 with audf := data }
  else if addr % 16 = 7 then r.set 3 ((r.ch 3).putAudc data)
  else if addr % 16 = 8 then { r with audctl := data }
  else if addr % 16 = 15 then { r with skctl := data }
  else r

/-- A register write at cycle `c`, the chip being at cycle `t`: the chip runs until cycle `c`, then its
register changes. -/
def Sound.write (z : Noise) (factor : Int) (sinc : Int → Int → Int) (t c : Int) (s : Sound) (addr data : Int) : Sound :=
  let s := s.wait z factor sinc (c - t).toNat t
  s.become factor sinc c (s.chip.put addr data)

end Asap.Spec.Sound
