import Verif.Lemmas.PokeyTick
import Verif.Spec.PokeyPair

/-! # POKEY: C25 (timer periods), C26 (mixer), C28 (sample formats), C29 (stereo) -/

namespace Asap.Props
open Asap Asap.Spec Asap.Pokey

/-- A chip before its initialisation, with arbitrary contents. -/
def junk : Pokey :=
  { ch := fun _ => ⟨1, 2, 3, 4, 5, 6, 7, 8⟩, audctl := 9, skctl := 10, irqst := 11, init := true, div := 12, reload1 := 13
    reload3 := 14, polyIndex := 15, bufLen := 16, buf := fun i => i, sumIn := 17, sumOut := 0, iirRate := 18
    iirAcc := 19, trailing := 20 }

/-- 44100 Hz PAL. -/
def cfg44 : Cfg := ⟨Pair.sampleFactor 44100 1773447, 0, fun _ _ => 1⟩

/-! ## C25 -/

theorem zeroBytes : Bytes 0 (fun _ => 0) := ⟨by decide, fun _ _ => ⟨Int.le_refl 0, show (0 : Int) < 256 by decide⟩⟩

theorem xbind {α β : Type} (a : α) (f : α → X β) : ((Except.ok a : X α) >>= f) = f a := rfl

/-- C25.  After initialisation and any history of register writes (at any cycles), frames, interrupts, muting and sample
output, the period of each channel is the one prescribed for the last values written to AUDF1-4 and AUDCTL. -/
theorem C25_periods (cfg : Cfg) (p : Pokey) (rate : Int) (es : List ChipEvent) (hb : ∀ e ∈ es, e.Byte) (q : Pokey)
    (h : run cfg (p.initChip rate) es = .ok q) (i : Nat) (hi : i < 4) :
    (q.ch i).period =
      Spec.period (lastWrite 8 0 es) (lastWrite 0 0 es) (lastWrite 2 0 es) (lastWrite 4 0 es) (lastWrite 6 0 es) i := by
  have := run_regs (cfg := cfg) es (initChip_regs p rate) zeroBytes hb
  rw [h] at this
  exact this.period i hi

/-- C25.  Emulating a chip always terminates: the loops over clock ticks and the search for the next timer interrupt never
run out of the fuel computed from the cycle counts. -/
theorem C25_terminates (cfg : Cfg) (p : Pokey) (rate : Int) (es : List ChipEvent) (hb : ∀ e ∈ es, e.Byte) :
    run cfg (p.initChip rate) es ≠ .error .fuel := by
  have := run_regs (cfg := cfg) es (initChip_regs p rate) zeroBytes hb
  intro h
  rw [h] at this
  exact this.2 rfl

/-- C25.  Channels that are neither joined (AUDCTL bits 4, 3) nor in two-tone mode (SKCTL bit 3) tick exactly once per
period. -/
theorem C25_tick_spacing (cfg : Cfg) (p q : Pokey) (cycle : Int) (h4 : ¬ bit p.audctl 4) (h3 : ¬ bit p.audctl 3)
    (hs : ¬ bit p.skctl 3) (h : tickAll cfg p cycle = .ok q) (i : Nat) (hi : i < 4) :
    (q.ch i).tick = if (p.ch i).tick = cycle then cycle + (p.ch i).period else (p.ch i).tick := by
  have a4 := fun x => h4 ((band_pow_iff p.audctl 4).1 x)
  have a3 := fun x => h3 ((band_pow_iff p.audctl 3).1 x)
  have as := fun x => hs ((band_pow_iff p.skctl 3).1 x)
  have ap : Apart p := ⟨Decidable.not_not.1 a4, Decidable.not_not.1 a3, Decidable.not_not.1 as⟩
  have := tickAll_separate (cfg := cfg) p ap cycle
  rw [h] at this
  exact this i hi

/-- C25, a case: channels 1 and 2 joined at 1.79 MHz. -/
example : (run cfg44 (junk.initChip 44100)
    [.write 0xd200 0x34 5, .write 0xd208 0x50 10, .write 0xd203 0xa8 20, .write 0xd202 0x12 100, .finish 700]).map
      (fun q => ((q.ch 1).period, (q.ch 0).period)) = .ok (0x1234 + 7, 256) := by decide +kernel

/-! ## C26 -/

/-- The mixer sum is the loudness of the channels that are high and in the range of the DAC table. -/
def MixerOk (q : Pokey) : Prop := q.sumIn = loudness q ∧ 0 ≤ q.sumIn ∧ q.sumIn ≤ 60

theorem mixerOk_of {q : Pokey} (h : Mix q) : MixerOk q := by
  have := total_range h.delta
  exact ⟨h.sum.trans h.loudness, by rw [h.sum]; exact this⟩

/-- C26.  As long as no AUDC register of a user-muted channel is written, the DAC table is never read outside and the mixer
input is the sum of the volumes of the channels whose output is high. -/
theorem C26_mixer (cfg : Cfg) (p : Pokey) (rate : Int) (es : List ChipEvent) (hb : ∀ e ∈ es, e.Byte) (hc : Careful 0 es) :
    run cfg (p.initChip rate) es ≠ .error .dac ∧ ∀ q, run cfg (p.initChip rate) es = .ok q → MixerOk q := by
  have := run_both (cfg := cfg) es (initChip_regs p rate) zeroBytes (initChip_both p rate) hb hc
  constructor
  · intro h; rw [h] at this; rcases this with e | e <;> cases e
  · intro q h; rw [h] at this; exact mixerOk_of this

/-- C26.  Starting a song: all channels are muted while the song's INIT routine runs; if it writes no AUDC with the
volume-only bit and a non-zero volume, then after unmuting the same holds. -/
theorem C26_song (cfg : Cfg) (p : Pokey) (rate : Int) (initEs es : List ChipEvent) (hb : ∀ e ∈ initEs ++ es, e.Byte)
    (hq : ∀ e ∈ initEs, e.Quiet) (mask : Int) (hc : Careful mask es) :
    run cfg (p.initChip rate) (.mute 15 :: initEs ++ .mute mask :: es) ≠ .error .dac ∧
    ∀ q, run cfg (p.initChip rate) (.mute 15 :: initEs ++ .mute mask :: es) = .ok q → MixerOk q := by
  have hr0 : Regs 0 (fun _ => 0) ((p.initChip rate).muteAll 15) := by
    have := step_regs (cfg := cfg) (initChip_regs p rate) zeroBytes (.mute 15) trivial
    exact this
  have app : ∀ (a : List ChipEvent) (b : List ChipEvent) (r : Pokey),
      run cfg r (a ++ b) = (run cfg r a >>= fun s => run cfg s b) := by
    intro a; induction a with
    | nil => intro b r; rfl
    | cons x xs ih =>
      intro b r
      show (step cfg r x >>= fun s => run cfg s (xs ++ b)) = ((step cfg r x >>= fun s => run cfg s xs) >>= _)
      cases step cfg r x with
      | error e => rfl
      | ok s => exact ih b s
  have key : XPost Late Mix (run cfg (p.initChip rate) (.mute 15 :: initEs ++ .mute mask :: es)) := by
    show XPost Late Mix (run cfg ((p.initChip rate).muteAll 15) (initEs ++ .mute mask :: es))
    rw [app]
    refine XPost.bind (run_hush initEs hr0 zeroBytes (initChip_hush p rate)
      (fun e he => hb e (by simp [he])) hq) ?_
    rintro s ⟨hs, a, f, hr, hbt⟩
    have hm : Mix (s.muteAll mask) := by
      refine hs.mix.congr rfl fun i _ => ?_
      unfold muteAll setMute; dsimp only; repeat' split
      all_goals exact ⟨rfl, rfl⟩
    have hr1 : Regs a f (s.muteAll mask) := step_regs (cfg := cfg) hr hbt (.mute mask) trivial
    exact run_both (cfg := cfg) es hr1 hbt ⟨hm, muteAll_user hs.user mask⟩ (fun e he => hb e (by simp [he])) hc
  constructor
  · intro h; rw [h] at key; rcases key with e | e <;> cases e
  · intro q h; rw [h] at key; exact mixerOk_of key

/-- C26 fails without those conditions: a song whose INIT sets a volume-only level and whose player later writes an ordinary
tone makes the code read the DAC table at a negative index. -/
theorem C26_muted_write_breaks_mixer :
    ∃ es : List ChipEvent, (∀ e ∈ es, e.Byte) ∧
      ∀ q, run cfg44 (junk.initChip 44100) (.mute 15 :: .write 0xd201 0x1f 10 :: .mute 0 :: es) ≠ .ok q := by
  refine ⟨[.write 0xd201 0xa8 20], by simp [ChipEvent.Byte], fun q h => ?_⟩
  have : (run cfg44 (junk.initChip 44100) [.mute 15, .write 0xd201 0x1f 10, .mute 0, .write 0xd201 0xa8 20]).map
      (fun _ => ()) = .error .dac := by decide +kernel
  rw [h] at this
  cases this

/-- C26, a case: three tones, a mute in the middle, and a non-zero sum at the end. -/
example : (run cfg44 (junk.initChip 44100)
    [.write 0xd200 0x34 5, .write 0xd201 0xaf 10, .write 0xd203 0x1c 20, .mute 4, .write 0xd202 0x12 200,
      .mute 0, .write 0xd205 0xa8 700]).map (fun q => q.sumIn) = .ok (15 + 12) := by decide +kernel

/-! ## C28 -/

theorem clampSample_eq (s : Int) : clampSample s = max (-32767) (min 32767 s) := by
  unfold clampSample; split
  · omega
  · split <;> omega

/-- C28.  Every amplitude that `StoreSample` produces is encoded faithfully. -/
theorem C28_encoding (s : Int) (h : -32768 ≤ s ∧ s ≤ 32767) (f : SampleFormat) : Encoded s f (sampleBytes f s) := by
  have e0 : (2 : Int) ^ 8 = 256 := by decide
  refine ⟨?_, ?_, ?_, ?_⟩
  · cases f <;> simp only [sampleBytes, band_ff, shr, e0, List.mem_cons, List.not_mem_nil, or_false] <;> omega
  · rintro rfl
    simp only [sampleBytes, shr, e0, List.cons.injEq, and_true]; omega
  · rintro rfl
    refine ⟨_, _, rfl, ?_⟩
    unfold int16; simp only [band_ff, shr, e0]; split <;> omega
  · rintro rfl
    refine ⟨_, _, rfl, ?_⟩
    unfold int16; simp only [band_ff, shr, e0]; split <;> omega

/-- C28.  Amplitudes are symmetric 16-bit numbers. -/
theorem C28_amplitudes (p : Pokey) (i : Int) (n : Nat) : (signal p i n).length = n ∧ ∀ s ∈ signal p i n, -32767 ≤ s ∧ s ≤ 32767 := by
  induction n generalizing p i with
  | zero => simp [signal]
  | succ n ih =>
    have := ih { p with iirAcc := p.iirAcc + (p.buf i - p.iirRate * p.iirAcc / 2048) } (i + 1)
    refine ⟨by simp [signal, this.1], fun s hs => ?_⟩
    simp only [signal, List.mem_cons] at hs
    rcases hs with rfl | hs
    · omega
    · exact this.2 s hs

/-- The state of the chip after `n` samples. -/
def iirAfter (p : Pokey) (i : Int) : Nat → Pokey
  | 0 => p
  | n + 1 => iirAfter { p with iirAcc := p.iirAcc + (p.buf i - p.iirRate * p.iirAcc / 2048) } (i + 1) n

/-- What a pair outputs, independently of the format. -/
def output (q : Pair) (i : Int) (n : Nat) : List Int :=
  if q.extraMask ≠ 0 then interleave (signal q.base i n) (signal q.extra i n) else signal q.base i n

/-- The pair after output. -/
def afterOutput (q : Pair) (i : Int) (n : Nat) : Pair :=
  { q with base := iirAfter q.base i n, extra := if q.extraMask ≠ 0 then iirAfter q.extra i n else q.extra }

theorem storeSample_ok {p : Pokey} {i : Int} (h : 0 ≤ i ∧ i < p.bufLen) (f : SampleFormat) :
    p.storeSample i f = .ok (sampleBytes f (max (-32767) (min 32767 ((p.iirAcc + (p.buf i - p.iirRate * p.iirAcc / 2048)) / 2048))),
      { p with iirAcc := p.iirAcc + (p.buf i - p.iirRate * p.iirAcc / 2048) }) := by
  unfold Pokey.storeSample
  rw [if_pos h]
  simp only [clampSample_eq, shr]
  rfl

theorem storeBlocks_eq (f : SampleFormat) : ∀ (n : Nat) (q : Pair) (i : Int), 0 ≤ i → i + n ≤ q.base.bufLen →
    (q.extraMask ≠ 0 → i + n ≤ q.extra.bufLen) →
    q.storeBlocks f n i = .ok ((output q i n).flatMap (sampleBytes f), afterOutput q i n) := by
  intro n
  induction n with
  | zero =>
    intro q i _ _ _
    unfold output afterOutput
    by_cases h : q.extraMask ≠ 0
    · rw [if_pos h, if_pos h]; rfl
    · rw [if_neg h, if_neg h]; rfl
  | succ n ih =>
    intro q i h0 h1 h2
    have hb := storeSample_ok (p := q.base) (i := i) (by omega) f
    unfold Pair.storeBlocks Pair.storeBlock
    by_cases h : q.extraMask ≠ 0
    · have he := storeSample_ok (p := q.extra) (i := i) (by have := h2 h; omega) f
      rw [hb]
      simp only [xbind, if_pos h, he]
      rw [ih _ (i + 1) (by omega) (by dsimp only; omega) (fun _ => by have := h2 h; dsimp only; omega)]
      simp only [xbind]
      unfold output afterOutput
      dsimp only
      rw [if_pos h, if_pos h, if_pos h, if_pos h]
      simp only [signal, interleave, iirAfter, List.flatMap_cons, List.append_assoc]
    · rw [hb]
      simp only [xbind, if_neg h]
      rw [ih { q with base := { q.base with iirAcc := q.base.iirAcc + (q.base.buf i - q.base.iirRate * q.base.iirAcc / 2048) } }
        (i + 1) (by omega) (by dsimp only; omega) (fun x => absurd x h)]
      simp only [xbind]
      unfold output afterOutput
      dsimp only
      rw [if_neg h, if_neg h, if_neg h, if_neg h]
      simp only [signal, iirAfter, List.flatMap_cons]

/-- C28.  `Generate` outputs, in every format, an encoding of the same amplitudes: the signal of the only chip in mono, the
two signals interleaved in stereo.  The chips are left in a state that does not depend on the format.  (The ready samples are
inside the buffer: see C27.) -/
theorem C28_generate (q : Pair) (blocks : Int) (h0 : 0 ≤ q.readyStart) (h1 : q.readyEnd ≤ q.base.bufLen)
    (h2 : q.readyEnd ≤ q.extra.bufLen) :
    ∃ n : Nat, (n : Int) = max 0 (min blocks (q.readyEnd - q.readyStart)) ∧
    ∃ q', ∀ f, q.generate blocks f = .ok ((if q.extraMask ≠ 0
        then interleave (signal q.base q.readyStart n) (signal q.extra q.readyStart n)
        else signal q.base q.readyStart n).flatMap (sampleBytes f), min blocks (q.readyEnd - q.readyStart), q') := by
  let m := if blocks < q.readyEnd - q.readyStart then blocks else q.readyEnd - q.readyStart
  have hm : m = min blocks (q.readyEnd - q.readyStart) := by simp only [m]; split <;> omega
  rw [← hm]
  by_cases hp : m > 0
  · have ex : ∃ q', ∀ f, q.generate blocks f = .ok ((output q q.readyStart m.toNat).flatMap (sampleBytes f), m, q') := by
      let o := afterOutput q q.readyStart m.toNat
      refine ⟨{ (if q.readyStart + m = q.readyEnd then
          { o with base := { o.base with trailing := q.readyStart + m }, extra := { o.extra with trailing := q.readyStart + m } }
        else o) with readyStart := q.readyStart + m }, fun f => ?_⟩
      unfold Pair.generate
      dsimp only
      rw [if_pos hp, storeBlocks_eq f _ _ _ h0 (by omega) (fun _ => by omega)]
      rfl
    obtain ⟨q', h⟩ := ex
    exact ⟨m.toNat, by omega, q', h⟩
  · refine ⟨0, by omega, q, fun f => ?_⟩
    unfold Pair.generate
    dsimp only
    rw [if_neg hp]
    by_cases h : q.extraMask ≠ 0
    · rw [if_pos h]; rfl
    · rw [if_neg h]; rfl

/-- C28, a case: a clamped, a positive and a negative amplitude. -/
example : sampleBytes .s16le (clampSample 40000) = [0xff, 0x7f] ∧ sampleBytes .s16be (-2) = [0xff, 0xfe] ∧
    sampleBytes .u8 (-32767) = [0] ∧ sampleBytes .u8 0 = [128] := by decide

/-! ## C29 -/

theorem right_iff (addr : Int) : right addr = true ↔ band addr 0x10 ≠ 0 := by
  have := band_pow_iff addr 4
  unfold bit at this
  unfold right
  rw [decide_eq_true_iff]
  exact this.symm

/-- C29.  Stereo: the left chip receives exactly the writes with address bit 4 clear and the right chip exactly those with
bit 4 set, in order; nothing else of the pair changes. -/
theorem C29_stereo (q q' : Pair) (hs : q.extraMask = 0x10) (ws : List Write) (h : pairWrites q ws = .ok q') :
    chipWrites q.cfg q.base (ws.filter fun w => !right w.addr) = .ok q'.base ∧
    chipWrites q.cfg q.extra (ws.filter fun w => right w.addr) = .ok q'.extra ∧
    q' = { q with base := q'.base, extra := q'.extra } := by
  induction ws generalizing q with
  | nil => cases h; exact ⟨rfl, rfl, rfl⟩
  | cons w ws ih =>
    unfold pairWrites Pair.poke at h
    by_cases hr : right w.addr = true
    · rw [if_pos (by rw [hs]; exact (right_iff _).1 hr)] at h
      simp only [List.filter_cons, hr, Bool.not_true, if_true, Bool.false_eq_true, if_false]
      cases hp : q.extra.poke q.cfg w.addr w.data w.cycle with
      | error e => rw [hp] at h; cases h
      | ok r =>
        rw [hp] at h
        have := ih { q with extra := r.2 } hs h
        refine ⟨this.1, ?_, this.2.2⟩
        unfold chipWrites
        rw [hp]
        exact this.2.1
    · rw [if_neg (by rw [hs]; exact fun x => hr ((right_iff _).2 x))] at h
      simp only [Bool.not_eq_true] at hr
      simp only [List.filter_cons, hr, Bool.not_false, if_true, Bool.false_eq_true, if_false]
      cases hp : q.base.poke q.cfg w.addr w.data w.cycle with
      | error e => rw [hp] at h; cases h
      | ok r =>
        rw [hp] at h
        have := ih { q with base := r.2 } hs h
        refine ⟨?_, this.2.1, this.2.2⟩
        unfold chipWrites
        rw [hp]
        exact this.1

/-- C29.  Mono: every write, whatever the mirror, reaches the left chip and the right chip is untouched. -/
theorem C29_mono (q : Pair) (hm : q.extraMask = 0) (ws : List Write) :
    pairWrites q ws = (chipWrites q.cfg q.base ws).map fun b => { q with base := b } := by
  induction ws generalizing q with
  | nil => rfl
  | cons w ws ih =>
    have z : band w.addr 0 = 0 := by
      have := band_range_right w.addr (b := 0) (by omega); omega
    unfold pairWrites Pair.poke chipWrites
    rw [if_neg (by rw [hm, z]; simp)]
    cases hp : q.base.poke q.cfg w.addr w.data w.cycle with
    | error e => rfl
    | ok r => exact ih { q with base := r.2 } hm

/-- C29.  Only the low four address bits select the register: all mirrors are equivalent. -/
theorem C29_mirrors (cfg : Cfg) (p : Pokey) (a b data cycle : Int) (h : a % 16 = b % 16) :
    p.poke cfg a data cycle = p.poke cfg b data cycle := by
  unfold Pokey.poke
  rw [band_f, band_f, h]

/-- C29.  Reads are routed the same way. -/
theorem C29_reads (q : Pair) (addr cycle : Int) :
    (q.extraMask = 0 → ∀ e, q.peek addr cycle = Pair.peek { q with extra := e } addr cycle) ∧
    (q.extraMask = 0x10 → right addr = false → ∀ e, q.peek addr cycle = Pair.peek { q with extra := e } addr cycle) ∧
    (q.extraMask = 0x10 → right addr = true → ∀ b, q.peek addr cycle = Pair.peek { q with base := b } addr cycle) := by
  have z : band addr 0 = 0 := by
    have := band_range_right addr (b := 0) (by omega); omega
  refine ⟨fun h e => ?_, fun h hr e => ?_, fun h hr b => ?_⟩ <;> unfold Pair.peek <;> dsimp only <;> rw [h]
  · simp only [z, ne_eq, not_true, if_false]
  · have : ¬ band addr 0x10 ≠ 0 := fun x => by rw [(right_iff addr).2 x] at hr; cases hr
    rw [if_neg this, if_neg this]
  · have := (right_iff addr).1 hr
    rw [if_pos this, if_pos this]

/-- C29, a case: initialising in stereo sets the mask the theorems ask for. -/
example (q : Pair) : (q.initPair false true 44100).extraMask = 0x10 ∧ (q.initPair true false 44100).extraMask = 0 := ⟨rfl, rfl⟩

end Asap.Props
