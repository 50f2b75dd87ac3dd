import Verif.Lemmas.SoundTake
import Verif.Props.Sound
import Verif.Props.Player

/-! # C43 for songs played by the emulated machine -/

namespace Asap.Props
open Asap Asap.Spec Asap.Spec.Sound Asap.Loader

/-- C43 for the whole player.  A loaded song is started and samples are taken with buffers of any sizes.  The machine recorded what
its processor told the chips.  If the song does nothing unusual (see `Quiet`, `Usual` and `Chip.Working`), then the bytes the user
got are the samples, from the first one to the current position, of chips that work cycle by cycle and hear the record. -/
theorem C43_playback_partial (z : Spec.Sound.Noise) {m m1 m2 : Machine} (h0 : CanPlay m)
    (hz : m.pk.base.sumOut = 0 ∧ m.pk.extra.sumOut = 0) {song duration : Int} (hp : Machine.playSong song duration m = .ok ((), m1))
    {format : SampleFormat} {sizes bytes : List Int} (hs : ∀ n ∈ sizes, 0 ≤ n) (ht : takes format sizes m1 = .ok (bytes, m2)) :
    ∃ setup run, m1.told.reverse = setup ∧ m2.told.reverse = setup ++ run ∧
      ((∀ s ∈ setup, Quiet s) → (∀ s ∈ run, Usual s) →
        (∀ toRight, (Tape.ready (meant (decide (m.info.channels > 1)) toRight) setup).sound.chip.Working) →
        bytes = (List.range m2.played.toNat).flatMap (block format (decide (m.info.channels > 1)) (44100 * 6 / m.rate)
          (Tape.after z (perCycle m.info.ntsc m.rate) m.pk.sinc (meant (decide (m.info.channels > 1)) false) setup run).sound.wave
          (Tape.after z (perCycle m.info.ntsc m.rate) m.pk.sinc (meant (decide (m.info.channels > 1)) true) setup run).sound.wave)) := by
  have h := h0.loaded
  have hr := h.rate
  have h1 := loaded_playSong h song duration
  have h2 := playSong_told h song duration
  rw [hp] at h1 h2
  obtain ⟨hst, -⟩ := h1
  obtain ⟨es, r1, r2, r3, r4⟩ := h2
  dsimp only at hst r1 r2 r4
  have hplay : Playing m1 := hst.playing h
  have hinfo : m1.info = m.info := hst.keeps.info
  have hdur : m1.duration = duration := hst.keeps.duration
  have hrate : m1.rate = m.rate := hst.keeps.rate
  have hpl : m1.played = 0 := hst.keeps.played
  have hpr : m1.pk.rate = m.rate := hst.keeps.pkRate
  obtain ⟨hfac, -⟩ := begun_factor m.pk m.info.ntsc (decide (m.info.channels > 1)) m.rate (by omega)
  have hfac1 : m1.pk.factor = perCycle m.info.ntsc m.rate := by
    rw [hst.ready.chips.factor, hpr, hinfo, ← hfac]
    rfl
  have h0 : Played m1.pk m1.told m.info.ntsc format [] [] m1 := by
    refine ⟨hplay, by rw [hinfo], rfl, rfl, rfl, nofun, nofun, List.Pairwise.nil, nofun, ?_, .nothing hst.start hst.stop hpl⟩
    rw [r4]
    show 0 = 0 * _ % 2 ^ 18
    rw [Int.zero_mul]; rfl
  have htime : InTime m1 := by
    intro hd
    rw [hpl]
    unfold Machine.millisecondsToBlocks
    have : 0 ≤ m1.duration * m1.rate := Int.mul_nonneg (by omega) (by rw [hrate]; omega)
    rw [Int.tdiv_eq_ediv_of_nonneg this]
    omega
  have hk := played_takes sizes m1 [] [] hs htime h0
  rw [ht] at hk
  obtain ⟨fs, hk⟩ := hk
  dsimp only at hk
  rw [List.nil_append] at hk
  refine ⟨loud es, loud (fs.flatMap Frame.events), by rw [r2, List.reverse_reverse], by rw [hk.told, r2]; simp, fun a1 a2 a3 => ?_⟩
  obtain ⟨o1, o2⟩ := hk.orderly a2
  rw [hfac1] at o1 o2
  have hprep : ∀ mine, Tape.ready mine (loud es) = Tape.prepared mine es := fun mine => learn_events es _ r3 a1
  have hrun : ∀ mine, Tape.after z (perCycle m.info.ntsc m.rate) m.pk.sinc mine (loud es) (loud (fs.flatMap Frame.events)) =
      (Tape.prepared mine es).play z (perCycle m.info.ntsc m.rate) m.pk.sinc mine fs := fun mine => by
    unfold Tape.after
    rw [hprep, hear_frames fs _ fun f hf => (hk.shape f hf).2]
  obtain ⟨q', hq⟩ := C43_song_partial z m.pk m.info.ntsc (decide (m.info.channels > 1)) m.rate (by omega) hz format es fs
    (opening_init r3 a1) (fun r => by rw [← hprep]; exact a3 r) o1
  rw [hrun, hrun, ← o2]
  have hq0 := produce_of_run (q := m.pk.initPair m.info.ntsc (decide (m.info.channels > 1)) m.rate) (fun e he b f hg => ?_) r1
  · have e : PairEvent.mute 255 :: es ++ .mute 0 :: fs.flatMap Frame.history = (.mute 255 :: es ++ [.mute 0]) ++ fs.flatMap Frame.history := by simp
    rw [e, Asap.Sound.produce_append, hq0] at hq
    have hq : (produce m1.pk (fs.flatMap Frame.history) >>= fun s => Except.ok ([] ++ s.1, s.2)) = _ := hq
    rw [hk.run] at hq
    exact congrArg Prod.fst (Except.ok.inj hq)
  · subst hg
    rcases List.mem_append.1 he with he | he
    · rcases List.mem_cons.1 he with he | he
      · cases he
      · rcases r3 _ he with hd | ⟨_, hd⟩
        · exact hd
        · cases hd
    · cases List.mem_singleton.1 he

/-! ### A concrete case -/

/-- The initialisation sets AUDF1 to 192 and AUDCTL to the slow clock, the player sets AUDC1 to a pure tone of full volume. -/
def slowTone : List Nat := ascii "SAP\r\nTYPE B\r\nINIT 1000\r\nPLAYER 100B\r\n" ++
  encodeBlocks [⟨true, 0x1000, [0xa9, 0xc0, 0x8d, 0x00, 0xd2, 0xa9, 0x01, 0x8d, 0x08, 0xd2, 0x60, 0xa9, 0xaf, 0x8d, 0x01, 0xd2, 0x60]⟩]

/-- What is told when a file is started and played at 100 Hz, and the bytes. -/
def heard (file : List Nat) (sizes : List Int) : Option (List Signal × List Signal × List Int) :=
  match loadSap sampleName file file.length { newPlayer with rate := 100 } with
  | .ok m => match Machine.playSong 0 0 m with
    | .ok (_, m1) => match takes .s16le sizes m1 with
      | .ok (bytes, m2) => some (m1.told, m2.told, bytes)
      | .error _ => none
    | .error _ => none
  | .error _ => none

theorem heard_some {file : List Nat} {sizes : List Int} {r : List Signal × List Signal × List Int} (h : heard file sizes = some r) :
    ∃ m m1 m2, loadSap sampleName file file.length { newPlayer with rate := 100 } = .ok m ∧ Machine.playSong 0 0 m = .ok ((), m1) ∧
      takes .s16le sizes m1 = .ok (r.2.2, m2) ∧ m1.told = r.1 ∧ m2.told = r.2.1 := by
  unfold heard at h
  cases hl : loadSap sampleName file file.length { newPlayer with rate := 100 } with
  | error _ => rw [hl] at h; cases h
  | ok m =>
    rw [hl] at h
    dsimp only at h
    cases hp : Machine.playSong 0 0 m with
    | error _ => rw [hp] at h; cases h
    | ok p =>
      rw [hp] at h
      dsimp only at h
      cases ht : takes .s16le sizes p.2 with
      | error _ => rw [ht] at h; cases h
      | ok q =>
        rw [ht] at h
        have h := Option.some.inj h
        subst h
        exact ⟨m, p.2, q.2, rfl, hp, ht, rfl, rfl⟩

theorem loadSap_pk {filename buf : List Nat} {len : Nat} {m m' : Machine} (h : loadSap filename buf len m = .ok m') : m'.pk = m.pk := by
  unfold loadSap at h
  simp only [bind, Except.bind] at h
  split at h
  · cases h
  · split at h
    · split at h
      · cases h
      · split at h
        · cases h
        · injection h with h; rw [← h]
    · cases h

/-- What this file tells the chips. -/
theorem slowTone_heard : heard slowTone [4] = some ([.frame 35568, .write 0xd208 1 21, .write 0xd200 192 15],
    [.frame 35568, .write 0xd201 0xaf 21, .frame 35568, .write 0xd208 1 21, .write 0xd200 192 15], [0, 0, 1, 0]) := by decide +kernel

/-- All hypotheses of `C43_playback_partial` are met by this file, and the sound is not silence. -/
example : ∃ m m1 m2 bytes setup run, loadSap sampleName slowTone slowTone.length { newPlayer with rate := 100 } = .ok m ∧ CanPlay m ∧
    (m.pk.base.sumOut = 0 ∧ m.pk.extra.sumOut = 0) ∧ Machine.playSong 0 0 m = .ok ((), m1) ∧ takes .s16le [4] m1 = .ok (bytes, m2) ∧
    m1.told.reverse = setup ∧ m2.told.reverse = setup ++ run ∧ (∀ s ∈ setup, Quiet s) ∧ (∀ s ∈ run, Usual s) ∧
    (∀ toRight, (Tape.ready (meant (decide (m.info.channels > 1)) toRight) setup).sound.chip.Working) ∧ bytes = [0, 0, 1, 0] := by
  obtain ⟨m, m1, m2, h1, h2, h3, h4, h5⟩ := heard_some slowTone_heard
  dsimp only at h3 h4 h5
  have hb : AllBytes slowTone := by unfold AllBytes; decide +kernel
  have hp := loadSap_pk h1
  refine ⟨m, m1, m2, _, _, [.write 0xd201 0xaf 21, .frame 35568], h1,
    loaded_canPlay _ _ _ { newPlayer with rate := 100 } _ (Nat.le_refl _) hb newPlayer_inRange ⟨by decide, by decide⟩ h1, ⟨by rw [hp]; rfl, by rw [hp]; rfl⟩, h2, h3, rfl, ?_, ?_, ?_, ?_, rfl⟩
  · rw [h4, h5]; rfl
  · rw [h4]
    intro s hs
    have hs : s = .write 0xd200 192 15 ∨ s = .write 0xd208 1 21 ∨ s = .frame 35568 := by simpa using hs
    rcases hs with rfl | rfl | rfl
    · intro i hi; revert i; unfold isAudc bit; decide
    · intro i hi; revert i; unfold isAudc bit; decide
    · trivial
  · intro s hs
    have hs : s = .write 0xd201 0xaf 21 ∨ s = .frame 35568 := by simpa using hs
    rcases hs with rfl | rfl
    · unfold Usual Plain; decide
    · trivial
  · rw [h4]
    intro r
    generalize decide (m.info.channels > 1) = b
    cases b <;> cases r <;> (unfold Chip.Working bit; decide +kernel)

end Asap.Props
