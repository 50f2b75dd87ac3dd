import Verif.Model.Scan

/-!
# Times at which music ends or repeats
-/

namespace Asap.Spec.Scan
open Asap.Scan (Params)

/-- What can be heard of a channel: nothing if its volume is 0, otherwise AUDF and AUDC, where the two codes of pure tones are the same. -/
def channel (c : Channel) : Nat × Nat :=
  if c.audc % 16 = 0 then (0, 0)
  else ((c.audf % 256).toNat, if 0xe0 ≤ (c.audc % 256).toNat then (c.audc % 256).toNat - 0x40 else (c.audc % 256).toNat)

/-- What can be heard of a chip. -/
def chip (p : Pokey) : List (Nat × Nat) × Nat := ([channel (p.ch 0), channel (p.ch 1), channel (p.ch 2), channel (p.ch 3)], (p.audctl % 256).toNat)

/-- What can be heard of both chips. -/
def audible (m : Machine) : (List (Nat × Nat) × Nat) × (List (Nat × Nat) × Nat) := (chip m.pk.base, chip m.pk.extra)

/-- All volumes are 0. -/
def Silent (m : Machine) : Prop := ∀ i < 4, (m.pk.base.ch i).audc % 16 = 0 ∧ (m.pk.extra.ch i).audc % 16 = 0

/-- The machine before frame `k`, if `f k` is the machine after it. -/
def before (m : Machine) (f : Nat → Machine) : Nat → Machine
  | 0 => m
  | k + 1 => f k

/-- `f k` are the machines after each of the first `n` frames. -/
def Frames (m : Machine) (f : Nat → Machine) (n : Nat) : Prop := ∀ k < n, ∃ cycles, Machine.do6502Frame (before m f k) = .ok (cycles, f k)

/-- The music was silent from `time` for the time needed, up to `frame`, and not before.  Silence from the start, but for the first
frame, does not count. -/
def SilenceAt (c : Params) (f : Nat → Machine) (frame time : Nat) : Prop :=
  time + c.silence = frame + 1 ∧ 2 ≤ time ∧ (∀ k, time ≤ k → k ≤ frame → Silent (f k)) ∧ ¬ Silent (f (time - 1))

/-- The same is heard in `n` frames from `a` and from `b`. -/
def Same (f : Nat → Machine) (a b n : Nat) : Prop := ∀ k < n, audible (f (a + k)) = audible (f (b + k))

/-- The music from `time` to `frame` was heard before, early enough. -/
def LoopAt (c : Params) (f : Nat → Machine) (frame time : Nat) : Prop :=
  time + c.check = frame ∧ ∃ a, a + c.minimum ≤ time ∧ Same f a time c.check

/-- The music did not change from `time` to `frame`. -/
def StillAt (c : Params) (f : Nat → Machine) (frame time : Nat) : Prop := time + 1 + c.check = frame ∧ Same f time (time + 1) c.check

/-- The end of the music is known after `frame`: its time, and whether it is a loop. -/
def Ends (c : Params) (f : Nat → Machine) (frame : Nat) (r : Nat × Bool) : Prop :=
  r.2 = false ∧ SilenceAt c f frame r.1 ∨
  (¬ ∃ t, SilenceAt c f frame t) ∧ (r.2 = true ∧ LoopAt c f frame r.1 ∨
    (¬ ∃ t, LoopAt c f frame t) ∧ r.2 = false ∧ StillAt c f frame r.1)

/-- The sum of the registers of a chip. -/
def total (a : List (Nat × Nat) × Nat) : Nat := (a.1.map fun x => x.1 + x.2).sum + a.2

/-- The byte of a fingerprint for a frame: the sum of the registers, reduced modulo 255 to 1..255. -/
def frameHash (m : Machine) : Nat :=
  let n := total (audible m).1 + total (audible m).2
  if n = 0 then 0 else (n - 1) % 255 + 1

end Asap.Spec.Scan
