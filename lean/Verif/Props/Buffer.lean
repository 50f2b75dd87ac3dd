import Verif.Lemmas.PokeyPair

/-! # POKEY: C27 (sample buffer) -/

namespace Asap.Props
open Asap Asap.Spec Asap.Pokey

/-- A PAL frame has 312 lines of 114 cycles; an event may be late by less than an instruction, an interrupt and a scanline
event together, for which 34 cycles are allowed. -/
def frameEnd : Int := 312 * 114 + 34

/-- C27.  Whatever happens to the chips of an initialised pair (writes, reads, frames, COVOX, interrupts, muting and output, in
any order, at cycles of a frame), the only possible fault is the mixer fault of C26: the sample buffer and the noise tables are
never accessed outside, and nothing hangs. -/
theorem C27_bounds (q : Pair) (ntsc stereo : Bool) (rate : Int) (hr : 1 ≤ rate ∧ rate ≤ 48000) (es : List PairEvent)
    (hw : ∀ e ∈ es, e.Within frameEnd) :
    (∃ r, runPair (q.initPair ntsc stereo rate) es = .ok r) ∨ runPair (q.initPair ntsc stereo rate) es = .error .dac := by
  have := Pair.runPair_good (k := false) (rate := rate) (by omega) es (Pair.initPair_good q ntsc stereo (by omega)) hw
    (fun h => by cases h) (fun h => by cases h)
  cases h : runPair (q.initPair ntsc stereo rate) es with
  | ok r => exact Or.inl ⟨r, rfl⟩
  | error e => rw [h] at this; rw [this.2]; exact Or.inr rfl

/-- C27 and C26 together: if moreover the AUDC registers of muted channels are not written, nothing goes wrong at all. -/
theorem C27_no_fault (q : Pair) (ntsc stereo : Bool) (rate : Int) (hr : 1 ≤ rate ∧ rate ≤ 48000) (es : List PairEvent)
    (hw : ∀ e ∈ es, e.Within frameEnd) (hl : Careful 0 (es.flatMap (PairEvent.seenBy stereo false)))
    (hx : Careful 0 (es.flatMap (PairEvent.seenBy stereo true))) :
    ∃ r, runPair (q.initPair ntsc stereo rate) es = .ok r := by
  have := Pair.runPair_good (k := true) (rate := rate) (by omega) es (Pair.initPair_good q ntsc stereo (by omega)) hw
    (fun _ => hl) (fun _ => hx)
  cases h : runPair (q.initPair ntsc stereo rate) es with
  | ok r => exact ⟨r, rfl⟩
  | error e => rw [h] at this; cases this.1

/-- C27.  The samples that `Generate` hands out are in the buffer (the hypotheses of `C28_generate`). -/
theorem C27_ready (q : Pair) (ntsc stereo : Bool) (rate : Int) (hr : 1 ≤ rate ∧ rate ≤ 48000) (es : List PairEvent)
    (hw : ∀ e ∈ es, e.Within frameEnd) (r : Pair) (h : runPair (q.initPair ntsc stereo rate) es = .ok r) :
    0 ≤ r.readyStart ∧ r.readyEnd ≤ r.base.bufLen ∧ r.readyEnd ≤ r.extra.bufLen := by
  have := Pair.runPair_good (k := false) (rate := rate) (by omega) es (Pair.initPair_good q ntsc stereo (by omega)) hw
    (fun h => by cases h) (fun h => by cases h)
  rw [h] at this
  obtain ⟨m, m', hg⟩ := this
  exact ⟨hg.start, by rw [hg.base.box.inside.buf]; exact hg.stop, by rw [hg.extra.box.inside.buf]; exact hg.stop⟩

/-- C27.  The fixed-point computation of a sample position, and everything it is made from, fits 32-bit integers. -/
theorem C27_int32 (q : Pair) (ntsc stereo : Bool) (rate : Int) (hr : 1 ≤ rate ∧ rate ≤ 48000) (es : List PairEvent)
    (hw : ∀ e ∈ es, e.Within frameEnd) (r : Pair) (h : runPair (q.initPair ntsc stereo rate) es = .ok r) (c : Int)
    (hc : 0 ≤ c ∧ c ≤ frameEnd) :
    (0 ≤ c * r.factor + r.offset ∧ c * r.factor + r.offset < 2 ^ 31) ∧
    (0 ≤ rate * 312 * 114 ∧ rate * 312 * 114 < 2 ^ 31) ∧ (0 ≤ rate * 8192 + 27965 ∧ rate * 8192 + 27965 < 2 ^ 31) := by
  have := Pair.runPair_good (k := false) (rate := rate) (by omega) es (Pair.initPair_good q ntsc stereo (by omega)) hw
    (fun h => by cases h) (fun h => by cases h)
  rw [h] at this
  obtain ⟨m, m', hg⟩ := this
  have p31 : (2 : Int) ^ 31 = 2147483648 := by decide
  rw [p31]
  refine ⟨?_, by omega, by omega⟩
  have hroom := hg.room (by omega) c hc.1 hc.2
  have hb : bufSize rate ≤ 1100 := by
    unfold bufSize
    rw [Int.tdiv_eq_ediv_of_nonneg (by omega)]
    omega
  obtain ⟨h0, h1⟩ := hroom
  change 0 ≤ (c * r.factor + r.offset) / 262144 at h0
  change (c * r.factor + r.offset) / 262144 + 31 < bufSize rate at h1
  omega

/-- C27, a case: a stereo PAL pair at the highest rate, with writes at the very end of the frame, speaker clicks, a muted and
then unmuted chip and output of the whole frame. -/
def busy : List PairEvent :=
  [.start, .write 0xd200 0x00 0, .write 0xd201 0xaf 5, .write 0xd210 0x10 35602, .mute 0xf0, .external true 35602 16777216,
    .read 0xd20a 35602, .mute 0, .write 0xd211 0xa8 35602, .finish 35602, .generate 2000 .s16le, .start, .finish 10]

example : (∀ e ∈ busy, e.Within frameEnd) ∧ Careful 0 (busy.flatMap (PairEvent.seenBy true false)) ∧
    Careful 0 (busy.flatMap (PairEvent.seenBy true true)) := by
  refine ⟨?_, ?_, ?_⟩
  · simp [busy, PairEvent.Within, frameEnd]
  · refine ⟨fun i hi h => ?_, fun i hi h => ?_, trivial⟩ <;> (unfold bit; simp)
  · refine ⟨fun i hi h => ?_, fun i hi h => ?_, trivial⟩ <;> (unfold bit; simp)

/-- C27 is nearly sharp: at 47218 Hz, 36 cycles after the end of a PAL frame the buffer would overflow for some phase. -/
theorem C27_sharp : ∃ off, 0 ≤ off ∧ off < 262144 ∧
    ¬ (shr ((frameEnd + 2) * Pair.sampleFactor 47218 1773447 + off) 18 + 31 < bufSize 47218) :=
  ⟨262143, by decide, by decide, by decide⟩

end Asap.Props
