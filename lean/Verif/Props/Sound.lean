import Verif.Lemmas.SoundInit
import Verif.Props.Buffer
import Verif.Props.Noise

/-! # POKEY: C43 (the sound is that of a chip working cycle by cycle) -/

namespace Asap.Props
open Asap Asap.Spec Asap.Spec.Sound Asap.Pokey

theorem produce_run : ∀ (es : List PairEvent) (q : Pair), (produce q es).map Prod.snd = runPair q es
  | [], _ => rfl
  | e :: es, q => by
    have one : (produceOne q e).map Prod.snd = stepPair q e := by
      cases e with
      | generate b f =>
        show ((q.generate b f >>= fun r => .ok (r.1, r.2.2)) : X (List Int × Pair)).map Prod.snd = (q.generate b f).map fun r => r.2.2
        cases q.generate b f <;> rfl
      | _ =>
        rw [Asap.Sound.produce_quiet (by simp)]
        cases stepPair q _ <;> rfl
    show ((produceOne q e >>= fun r => produce r.2 es >>= fun s => .ok (r.1 ++ s.1, s.2)) : X (List Int × Pair)).map Prod.snd =
      (stepPair q e >>= fun q => runPair q es)
    rw [← one]
    cases produceOne q e with
    | error => rfl
    | ok r =>
      show ((produce r.2 es >>= fun s => .ok (r.1 ++ s.1, s.2)) : X (List Int × Pair)).map Prod.snd = runPair r.2 es
      rw [← produce_run es r.2]
      cases produce r.2 es <;> rfl

theorem careful_silent : ∀ (es : List PairEvent) (stereo toRight : Bool), (∀ e ∈ es, ∀ m, e ≠ .mute m) →
    Careful 0 (es.flatMap (PairEvent.seenBy stereo toRight))
  | [], _, _, _ => trivial
  | e :: es, stereo, toRight, h => by
    have hr := careful_silent es stereo toRight fun e he => h e (by simp [he])
    cases e with
    | write addr data c =>
      rw [List.flatMap_cons]
      show Careful 0 ((if _ then _ else []) ++ _)
      split
      · exact ⟨fun i _ _ hb => by unfold bit at hb; simp at hb, hr⟩
      · exact hr
    | mute m => exact absurd rfl (h _ (by simp) m)
    | _ => exact hr

theorem orderly_unmuted {factor : Int} {format : SampleFormat} {fs : List Frame} (h : Orderly factor format fs) :
    ∀ e ∈ fs.flatMap Frame.history, ∀ m, e ≠ .mute m := by
  intro e he m hm
  subst hm
  obtain ⟨f, hf, hm⟩ := List.mem_flatMap.1 he
  unfold Frame.history at hm
  rcases List.mem_append.1 hm with k | k
  · rcases List.mem_cons.1 k with k | k
    · cases k
    · exact h.inFrame f hf _ k
  · rcases List.mem_cons.1 k with k | k
    · cases k
    · exact h.afterFrame f hf _ k

/-- C43, all but STIMER, the reset of the chip and serial input.  An initialised pair plays any frames: register writes and steps
of other sources (COVOX, the speaker) in the order of time, and after each frame all its samples are taken, in requests of any
size; of the last frame any number of samples may be taken.  The bytes handed out are exactly the samples, one after another, of the sound made by one or two chips that work cycle by cycle and never see frames or buffers. -/
theorem C43_sound_partial (z : Spec.Sound.Noise) (q : Pair) (ntsc stereo : Bool) (rate : Int) (hr : 1 ≤ rate ∧ rate ≤ 48000)
    (hz : q.base.sumOut = 0 ∧ q.extra.sumOut = 0) (format : SampleFormat) (fs : List Frame)
    (h : Orderly (perCycle ntsc rate) format fs) :
    ∃ q', produce (q.initPair ntsc stereo rate) (.mute 0 :: fs.flatMap Frame.history) =
      .ok ((List.range (heard (perCycle ntsc rate) fs).toNat).flatMap
        (block format stereo (44100 * 6 / rate)
          (Tape.start.play z (perCycle ntsc rate) q.sinc (meant stereo false) fs).sound.wave
          (Tape.start.play z (perCycle ntsc rate) q.sinc (meant stereo true) fs).sound.wave), q') := by
  have hf : (Asap.Sound.begun q ntsc stereo rate).factor = perCycle ntsc rate := by
    show (if ntsc then Pair.sampleFactor rate 1789772 else Pair.sampleFactor rate 1773447) = _
    unfold Pair.sampleFactor perCycle
    cases ntsc
    · show Int.tdiv (rate * 8192 + 27710) 55420 = (rate * 2 ^ 13 + 1773447 / 64) / (1773447 / 32)
      rw [Int.tdiv_eq_ediv_of_nonneg (by omega)]
      rfl
    · show Int.tdiv (rate * 8192 + 27965) 55930 = (rate * 2 ^ 13 + 1789772 / 64) / (1789772 / 32)
      rw [Int.tdiv_eq_ediv_of_nonneg (by omega)]
      rfl
  have h0 : 0 ≤ perCycle ntsc rate := by
    unfold perCycle
    cases ntsc
    · show 0 ≤ (rate * 2 ^ 13 + 1773447 / 64) / (1773447 / 32)
      omega
    · show 0 ≤ (rate * 2 ^ 13 + 1789772 / 64) / (1789772 / 32)
      omega
  have hi : Int.tdiv (44100 * 6) rate = 44100 * 6 / rate := Int.tdiv_eq_ediv_of_nonneg (by decide)
  have hp := Asap.Sound.play_sound (z := z) (q := q) (ntsc := ntsc) (stereo := stereo) (rate := rate) (fs := fs) (format := format) hr.1 hz
    (by rw [hf]; exact h0) (by rw [hf]; exact h)
  rw [hf, hi] at hp
  have hm : produce (q.initPair ntsc stereo rate) (.mute 0 :: fs.flatMap Frame.history) =
      produce (Asap.Sound.begun q ntsc stereo rate) (fs.flatMap Frame.history) := by
    show (produce (Asap.Sound.begun q ntsc stereo rate) (fs.flatMap Frame.history) >>= fun s => .ok ([] ++ s.1, s.2)) = _
    cases produce (Asap.Sound.begun q ntsc stereo rate) (fs.flatMap Frame.history) <;> rfl
  have hw : ∀ e ∈ fs.flatMap Frame.history, e.Within frameEnd := by
    intro e he
    obtain ⟨f, hf, he⟩ := List.mem_flatMap.1 he
    exact h.within f hf e he
  obtain ⟨r, hr⟩ := C27_no_fault q ntsc stereo rate hr (.mute 0 :: fs.flatMap Frame.history)
    (by
      intro e he
      rcases List.mem_cons.1 he with k | k
      · subst k; trivial
      · exact hw e k)
    (by
      show Careful 0 (.mute _ :: (fs.flatMap Frame.history).flatMap (PairEvent.seenBy stereo false))
      exact careful_silent _ _ _ (orderly_unmuted h))
    (by
      show Careful 0 (.mute _ :: (fs.flatMap Frame.history).flatMap (PairEvent.seenBy stereo true))
      exact careful_silent _ _ _ (orderly_unmuted h))
  rw [← produce_run, hm] at hr
  rw [hm]
  cases e : produce (Asap.Sound.begun q ntsc stereo rate) (fs.flatMap Frame.history) with
  | error => rw [e] at hr; nomatch hr
  | ok x =>
    rw [e] at hp
    exact ⟨x.2, congrArg Except.ok (Prod.ext hp rfl)⟩

theorem begun_factor (q : Pair) (ntsc stereo : Bool) (rate : Int) (hr : 1 ≤ rate) :
    (Asap.Sound.begun q ntsc stereo rate).factor = perCycle ntsc rate ∧ 0 ≤ perCycle ntsc rate := by
  refine ⟨?_, ?_⟩
  · show (if ntsc then Pair.sampleFactor rate 1789772 else Pair.sampleFactor rate 1773447) = _
    unfold Pair.sampleFactor perCycle
    cases ntsc
    · show Int.tdiv (rate * 8192 + 27710) 55420 = (rate * 2 ^ 13 + 1773447 / 64) / (1773447 / 32)
      rw [Int.tdiv_eq_ediv_of_nonneg (by omega)]
      rfl
    · show Int.tdiv (rate * 8192 + 27965) 55930 = (rate * 2 ^ 13 + 1789772 / 64) / (1789772 / 32)
      rw [Int.tdiv_eq_ediv_of_nonneg (by omega)]
      rfl
  · unfold perCycle
    cases ntsc
    · show 0 ≤ (rate * 2 ^ 13 + 1773447 / 64) / (1773447 / 32)
      omega
    · show 0 ≤ (rate * 2 ^ 13 + 1789772 / 64) / (1789772 / 32)
      omega

/-- C43 for a song started with PlaySong: the channels are muted, the INIT routine writes registers in any way (also STIMER, and a
reset of the chip if it is ended), the channels are unmuted, and the frames are played.  The samples are those of chips whose
registers were set by INIT and that start counting when the channels are unmuted. -/
theorem C43_song_partial (z : Spec.Sound.Noise) (q : Pair) (ntsc stereo : Bool) (rate : Int) (hr : 1 ≤ rate ∧ rate ≤ 48000)
    (hz : q.base.sumOut = 0 ∧ q.extra.sumOut = 0) (format : SampleFormat) (es : List PairEvent) (fs : List Frame)
    (hi : ∀ e ∈ es, InInit e ∧ e.Within (312 * 114 + 34))
    (hw : ∀ toRight, (Tape.prepared (meant stereo toRight) es).sound.chip.Working)
    (h : Orderly (perCycle ntsc rate) format fs) :
    ∃ q', produce (q.initPair ntsc stereo rate) (.mute 255 :: es ++ .mute 0 :: fs.flatMap Frame.history) =
      .ok ((List.range (heard (perCycle ntsc rate) fs).toNat).flatMap
        (block format stereo (44100 * 6 / rate)
          ((Tape.prepared (meant stereo false) es).play z (perCycle ntsc rate) q.sinc (meant stereo false) fs).sound.wave
          ((Tape.prepared (meant stereo true) es).play z (perCycle ntsc rate) q.sinc (meant stereo true) fs).sound.wave), q') := by
  obtain ⟨hf, h0⟩ := begun_factor q ntsc stereo rate hr.1
  have hid : Int.tdiv (44100 * 6) rate = 44100 * 6 / rate := Int.tdiv_eq_ediv_of_nonneg (by decide)
  have hprep : ∀ m : PairEvent → Bool, Tape.prepared m es = ⟨⟨es.foldl (Asap.Sound.prep m) Chip.start, fun _ => 0⟩, 0, 0⟩ :=
    fun m => Asap.Sound.prepared_eq m es _ _ _ _
  have hs := Asap.Sound.muted_silent (ntsc := ntsc) (stereo := stereo) hr.1 hz
  have hg : Pair.Good false rate ntsc stereo _ _ (Asap.Sound.muted q ntsc stereo rate) :=
    Pair.stepPair_good (Pair.initPair_good q ntsc stereo (by omega)) (by omega) (.mute 255) trivial (es := []) (es' := [])
      (fun h => nomatch h) (fun h => nomatch h)
  obtain ⟨q1, a1, a2, n, n', a3⟩ := Asap.Sound.init_sound (by omega) es _ _ _ _ hs hg (fun e he => (hi e he).1) (fun e he => (hi e he).2)
  have hw' : ∀ r, Chip.Working (es.foldl (Asap.Sound.prep (Asap.Sound.mine stereo r)) Chip.start) := by
    intro r
    have := hw r
    rw [hprep] at this
    exact this
  have hb := a2.bound (z := z) hw'
  have hgood := a2.good a3 (by omega)
  generalize hq2 : ({ q1 with base := q1.base.muteAll 0, extra := q1.extra.muteAll 0 } : Pair) = q2 at hb hgood
  rw [hf, hid] at hb
  have htime : ∀ r, Asap.Sound.Active stereo r → Asap.Sound.Timely fs
      (⟨⟨es.foldl (Asap.Sound.prep (Asap.Sound.mine stereo r)) Chip.start, fun _ => 0⟩, 0, 0⟩ : Tape) := fun r _ =>
    ⟨h.within, h.order, fun x hx => Asap.Sound.allStamps_ge fs 0 h.within x hx⟩
  have hp := Asap.Sound.frames_heard (format := format) h0 fs q2 _ hb h.inFrame h.afterFrame htime h.served
  have hrun := Pair.runPair_good (by omega) (fs.flatMap Frame.history) hgood
    (by
      intro e he
      obtain ⟨f, hf, he⟩ := List.mem_flatMap.1 he
      exact h.within f hf e he)
    (fun _ => careful_silent _ _ _ (orderly_unmuted h)) (fun _ => careful_silent _ _ _ (orderly_unmuted h))
  rw [← produce_run] at hrun
  have hm : produce (q.initPair ntsc stereo rate) (.mute 255 :: es ++ .mute 0 :: fs.flatMap Frame.history) = produce q2 (fs.flatMap Frame.history) := by
    show (produce (Asap.Sound.muted q ntsc stereo rate) (es ++ .mute 0 :: fs.flatMap Frame.history) >>= fun s => .ok ([] ++ s.1, s.2)) = _
    rw [Asap.Sound.produce_append, a1]
    show ((produce { q1 with base := q1.base.muteAll 0, extra := q1.extra.muteAll 0 } (fs.flatMap Frame.history) >>= fun s => .ok ([] ++ s.1, s.2)) >>=
      (fun s => .ok ([] ++ s.1, s.2)) >>= fun s => .ok ([] ++ s.1, s.2)) = _
    rw [hq2]
    cases produce q2 (fs.flatMap Frame.history) <;> rfl
  rw [hm, hprep, hprep]
  cases e : produce q2 (fs.flatMap Frame.history) with
  | error x =>
    rw [e] at hrun
    exact absurd (hrun : Bad true x).1 (by decide)
  | ok x =>
    rw [e] at hp
    exact ⟨x.2, congrArg Except.ok (Prod.ext hp rfl)⟩

/-- C43: keeping the position of the noise generators small makes no difference as long as AUDCTL stays: after any number of
cycles the chip has made the same sound. -/
theorem C43_wrap (z : Spec.Sound.Noise) (factor : Int) (sinc : Int → Int → Int) (n : Nat) (t e : Int) (s : Sound) :
    (Sound.wait z factor sinc n t ⟨s.chip.wrap e, s.wave⟩).wave = (s.wait z factor sinc n t).wave := by
  rw [Asap.Sound.wrap_wait]

/-- C43: there are such noise generators, so the theorem is about something. -/
def noise : Spec.Sound.Noise where
  four k := Nat.testBit 0x5370 (k % 15)
  five k := Nat.testBit 0x65bd44e0 (k % 31)
  nine := register 9
  seventeen := register 17
  four_start k hk := by
    rcases (by omega : k = 0 ∨ k = 1 ∨ k = 2 ∨ k = 3) with rfl | rfl | rfl | rfl <;> decide
  four_next k := by
    have := C24_short_patterns.1 (k % 15) (Nat.mod_lt _ (by decide))
    rw [Nat.mod_add_mod, Nat.mod_add_mod] at this
    exact this
  five_start k hk := by
    rcases (by omega : k = 0 ∨ k = 1 ∨ k = 2 ∨ k = 3 ∨ k = 4) with rfl | rfl | rfl | rfl | rfl <;> decide
  five_next k := by
    have := C24_short_patterns.2 (k % 31) (Nat.mod_lt _ (by decide))
    rw [Nat.mod_add_mod, Nat.mod_add_mod] at this
    exact this
  nine_register := C24_sequence_exists 9 (by decide)
  seventeen_register := C24_sequence_exists 17 (by decide)

def quietChip : Pokey :=
  { ch := fun _ => Channel.fresh, audctl := 0, skctl := 3, irqst := 255, init := false, div := 28, reload1 := 28, reload3 := 28
    polyIndex := 0, bufLen := 0, buf := fun _ => 0, sumIn := 0, sumOut := 0, iirRate := 0, iirAcc := 0, trailing := 0 }

/-- A table that spreads a step evenly. -/
def quietPair : Pair :=
  { extraMask := 0, base := quietChip, extra := quietChip, rate := 0, factor := 0, offset := 0, readyStart := 0, readyEnd := 0
    sinc := fun _ _ => 32 }

/-- A low tone of channel 1 is started; after some events STIMER is written at cycle 100. -/
def withStimer (es : List PairEvent) : List PairEvent :=
  .mute 0 :: (Frame.mk ([.write 0xd200 0xff 0, .write 0xd201 0xaf 0] ++ es ++ [.write 0xd209 0 100]) 1500 [.generate 6 .s16le]).history

/-- C43 is false for STIMER: the emulator forgets what happened since the last register write.  Setting channel 2 to volume 0 just
before, which is no change for a cycle-by-cycle chip, makes another sound; without it the tone is lost. -/
theorem C43_stimer_loses_sound :
    ((produce (quietPair.initPair false false 8000) (withStimer [])).toOption.map Prod.fst = some (List.replicate 12 0)) ∧
    ((produce (quietPair.initPair false false 8000) (withStimer [.write 0xd203 0xa0 100])).toOption.map Prod.fst =
      some [34, 0, 67, 0, 100, 0, 133, 0, 165, 0, 196, 0]) := by
  decide +kernel

/-- C43, a case: two PAL frames in stereo; a joined pair, 5-bit noise with 9-bit noise, a high-pass filter, COVOX and a write in
the last cycles of a frame. -/
def twoFrames : List Frame :=
  [⟨[.write 0xd208 0x94 0, .write 0xd200 0x20 4, .write 0xd202 0x01 8, .write 0xd203 0xaf 12, .write 0xd205 0x08 200, .read 0xd20a 300,
      .external true 400 (0x40 * 2 ^ 17), .write 0xd211 0x1f 35567], 35568, [.irq 35568 0 0, .generate 500 .s16le, .generate 500 .s16le]⟩,
   ⟨[.write 0xd211 0x10 3, .write 0xd20f 0x8b 114, .write 0xd208 0x00 20000], 35568, [.generate 885 .s16le]⟩]

example : Orderly (perCycle false 44100) .s16le twoFrames := by
  refine ⟨?_, ?_, ?_, ?_, ?_⟩
  · simp [twoFrames, InFrame, Plain, Calm, bit]
  · simp [twoFrames, AfterFrame, Calm]
  · simp only [twoFrames, Frame.history, List.mem_cons, List.not_mem_nil, or_false, forall_eq_or_imp, forall_eq, List.cons_append, List.nil_append]
    simp [PairEvent.Within]
  · simp [twoFrames, allStamps, stamps]
  · refine ⟨?_, ?_, trivial⟩ <;> decide

/-- An INIT routine in stereo: both chips are reset, the left one gets a tone with 9-bit noise, timers are started. -/
def someInit : List PairEvent :=
  [.write 0xd20f 0 100, .write 0xd21f 0 104, .write 0xd208 0x80 110, .write 0xd20f 3 400, .write 0xd21f 0x8b 404,
   .write 0xd200 0x30 420, .write 0xd201 0x0a 424, .write 0xd209 0 430, .write 0xd20e 1 434, .irq 500 0 0, .read 0xd20a 600, .timers 35568]

/-- C43, a case for a song: the noise of the left chip was restarted at cycle 400, that of the right one at cycle 404. -/
example : (∀ e ∈ someInit, InInit e ∧ e.Within (312 * 114 + 34)) ∧
    (∀ toRight, (Tape.prepared (meant true toRight) someInit).sound.chip.Working) ∧
    (Tape.prepared (meant true false) someInit).sound.chip.phase = 15 * 31 * 511 - 401 ∧
    (Tape.prepared (meant true true) someInit).sound.chip.phase = 15 * 31 * 131071 - 405 ∧
    ((Tape.prepared (meant true false) someInit).sound.chip.ch 0).audf = 0x30 := by
  refine ⟨?_, ?_, ?_, ?_, ?_⟩
  · simp [someInit, InInit, Calm, isAudc, PairEvent.Within, bit]
  · intro r
    cases r <;> (unfold Chip.Working bit; decide)
  · decide
  · decide
  · decide

end Asap.Props
