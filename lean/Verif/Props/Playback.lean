import Verif.Lemmas.Seek
import Verif.Props.Player

/-! # C14, C15, C17, C18: samples, durations and positions -/

namespace Asap.Props
open Asap Asap.Spec Asap.Loader

theorem _root_.Asap.Spec.InUse.playing {m : Machine} (h : InUse m) : Playing m ∧ (m.info.channels = 1 ∨ m.info.channels = 2) := by
  obtain ⟨m0, song, duration, cs, h0, hv, hx⟩ := h
  have key := loaded_calls h0.loaded song duration cs hv
  rw [hx] at key
  exact ⟨key.1, by rw [key.2]; exact h0.channels⟩

/-- C14.  At any time of use, whatever the emulated program does: one call of `Generate` for several samples has the same
outcome as any series of calls for the same number of samples.  The outcome includes the bytes, the number returned, the
complete state of the player, and how a call fails. -/
theorem C14_split (m : Machine) (h : InUse m) (f : SampleFormat) (k : Int) (ks : List Int) (hk : 0 ≤ k) (hks : ∀ x ∈ ks, 0 ≤ x) :
    Machine.generate ((k :: ks).sum * blockSize m f) f m = generateAll f ((k :: ks).map (· * blockSize m f)) m :=
  generate_sum f ks k h.playing.1 h.playing.2 hk hks

theorem samplesIn_eq {rate ms : Int} (hr : 0 ≤ rate) (hm : 0 ≤ ms) : Machine.millisecondsToBlocks rate ms = samplesIn rate ms := by
  unfold Machine.millisecondsToBlocks samplesIn
  exact Int.tdiv_eq_ediv_of_nonneg (Int.mul_nonneg hm hr)

theorem _root_.Asap.Spec.InUse.rate {m : Machine} (h : InUse m) : 100 ≤ m.rate ∧ m.rate ≤ 48000 := h.playing.1.rate

/-- C15.  While a song with a duration is played and silence is not detected: whatever lengths are requested, every call
of `Generate` returns the number of bytes of the whole samples that fit, limited by the samples left of the duration, and
stores as many bytes. -/
theorem C15_served (m : Machine) (h : InUse m) (f : SampleFormat) (hd : 0 < m.duration) (hs : m.silence ≤ 0)
    (hp : 0 ≤ m.played ∧ m.played ≤ samplesIn m.rate m.duration) (lens : List Int) (hl : ∀ x ∈ lens, 0 ≤ x) :
    SafeExcept (fun rs _ => rs.map (·.2) = served (blockSize m f) (samplesIn m.rate m.duration - m.played) lens ∧
      ∀ r ∈ rs, (r.1.length : Int) = r.2) (generateEach f lens m) := by
  have e := samplesIn_eq (rate := m.rate) (ms := m.duration) (by have := h.rate; omega) (by omega)
  rw [← e] at hp ⊢
  exact safe_of_xpost (fun _ x => Or.inl x) ((generateEach_served f lens h.playing.1 h.playing.2 hl hd hs hp.1 hp.2).mono (fun _ x => x)
    fun r hr => ⟨hr.1, hr.2.1⟩)

/-- `served` adds up: at most what is left, exactly what is left once enough was requested. -/
theorem served_sum {size : Int} (hs : 0 < size) : ∀ (lens : List Int) (left : Int), 0 ≤ left → (∀ x ∈ lens, 0 ≤ x) →
    (served size left lens).sum = min left (lens.map (· / size)).sum * size
  | [], left, hl, _ => by
    show (0 : Int) = min left 0 * size
    rw [Int.min_eq_right hl, Int.zero_mul]
  | len :: lens, left, hl, hx => by
    have h0 : 0 ≤ len / size := Int.ediv_nonneg (hx len (by simp)) (by omega)
    have h1 : 0 ≤ (lens.map (· / size)).sum := sum_nonneg _ fun x hx' => by
      obtain ⟨y, hy, rfl⟩ := List.mem_map.mp hx'
      exact Int.ediv_nonneg (hx y (by simp [hy])) (by omega)
    show min (len / size) left * size + (served size (left - min (len / size) left) lens).sum = _
    rw [served_sum hs lens _ (by omega) fun x hx' => hx x (by simp [hx']), List.map_cons, List.sum_cons, ← Int.add_mul]
    congr 1
    omega

/-- C15.  The total: right after `PlaySong`, calls of `Generate` deliver exactly the samples of the duration once enough is
requested, before that exactly what is requested, never more. -/
theorem C15_total (m0 m : Machine) (h0 : CanPlay m0) (song duration : Int) (hx : Machine.playSong song duration m0 = .ok ((), m))
    (f : SampleFormat) (hd : 0 < duration) (hs : m0.silence ≤ 0) (lens : List Int) (hl : ∀ x ∈ lens, 0 ≤ x) :
    SafeExcept (fun rs _ => (rs.map (·.2)).sum =
      min (samplesIn m0.rate duration) (lens.map (· / blockSize m0 f)).sum * blockSize m0 f) (generateEach f lens m) := by
  have hst := loaded_playSong h0.loaded song duration
  rw [hx] at hst
  obtain ⟨hst, _⟩ := hst
  have hu : InUse m := ⟨m0, song, duration, [], h0, by simp, by
    show C.bind (Machine.playSong song duration) _ m0 = _
    unfold C.bind
    rw [hx]; rfl⟩
  have e1 : m.duration = duration := hst.keeps.duration
  have e2 : m.silence = m0.silence := hst.keeps.silence
  have e3 : m.played = 0 := hst.keeps.played
  have e4 : m.rate = m0.rate := hst.keeps.rate
  have e5 : m.info = m0.info := hst.keeps.info
  have hpos : 0 ≤ samplesIn m.rate m.duration := by
    unfold samplesIn
    rw [e1]
    exact Int.ediv_nonneg (Int.mul_nonneg (by omega) (by have := hu.rate; omega)) (by decide)
  have hb : blockSize m f = blockSize m0 f := by unfold blockSize; rw [e5]
  have hsz : 0 < blockSize m0 f := by rw [blockSize_eq h0.channels]; exact Int.pow_pos (by decide)
  have key := C15_served m hu f (by omega) (by omega) ⟨by omega, by omega⟩ lens hl
  unfold SafeExcept at key ⊢
  cases hy : generateEach f lens m with
  | error e => rw [hy] at key; exact key
  | ok r =>
    rw [hy] at key
    show (r.1.map (·.2)).sum = _
    rw [key.1, e3, Int.sub_zero, hb, served_sum hsz lens _ hpos hl, e4, e1]

/-- C17, the part that holds.  Right after `PlaySong`, with silence detection off, `SeekSample(n)` has the same effect as
playing `n` samples, whatever the emulated program does: the same processor, memory, chips and position, or the same
failure.  Missing, and false: `C17_forward_wrong`; also the contents of the output filters are not those of playing. -/
theorem C17_from_start_partial (m0 m : Machine) (h0 : CanPlay m0) (song duration : Int)
    (hx : Machine.playSong song duration m0 = .ok ((), m)) (hs : m0.silence ≤ 0) (f : SampleFormat) (n : Int) (hn : 0 ≤ n)
    (hd : duration ≤ 0 ∨ n ≤ samplesIn m0.rate duration) :
    SameEffect SameExceptSound (Machine.generate (n * blockSize m f) f m) (Machine.seekSample n m) := by
  have hst := loaded_playSong h0.loaded song duration
  rw [hx] at hst
  obtain ⟨hst, _⟩ := hst
  have e1 : m.duration = duration := hst.keeps.duration
  have e2 : m.silence = m0.silence := hst.keeps.silence
  have e3 : m.played = 0 := hst.keeps.played
  have e4 : m.rate = m0.rate := hst.keeps.rate
  have e5 : m.info = m0.info := hst.keeps.info
  have key := seekSample_like (m := m) (hst.playing h0.loaded) (by rw [e5]; exact h0.channels) f (by omega) hst.start (n := n) (by omega)
    (by
      rcases hd with hd | hd
      · left; omega
      · by_cases hz : duration ≤ 0
        · left; omega
        · right
          rw [samplesIn_eq (by have := h0.rate; omega) (by omega), e1, e4]; exact hd)
  rw [e3, Int.sub_zero] at key
  exact key

/-- C17.  At any time of use, seeking backwards is restarting the song and seeking from its beginning (so the previous theorem
applies). -/
theorem C17_back (m : Machine) (n : Int) (hn : 0 ≤ n) (hb : n < m.played) (h : InUse m) :
    Machine.seekSample n m = (do Machine.playSong m.song m.duration; Machine.seekSample n : C Unit) m := by
  rw [seekSample_back hb]
  show _ = C.bind (Machine.playSong m.song m.duration) _ m
  unfold C.bind
  have hst := loaded_playSong h.playing.1.loaded m.song m.duration
  cases hx : Machine.playSong m.song m.duration m with
  | error e => rfl
  | ok r =>
    rw [hx] at hst
    have hp : r.2.played = 0 := hst.1.keeps.played
    show _ = Machine.seekSample n r.2
    rw [seekSample_eq (by omega)]
    show C.bind (Machine.seekFrames n ((n - r.2.played).toNat + 1)) _ r.2 = _
    unfold C.bind
    cases Machine.seekFrames n ((n - r.2.played).toNat + 1) r.2 <;> rfl

/-- C17.  At any time of use, after `SeekSample(n)` the number of samples played is `n`. -/
theorem C17_count (m : Machine) (h : InUse m) (n : Int) (hn : 0 ≤ n) :
    SafeExcept (fun _ m' => m'.played = n) (Machine.seekSample n m) :=
  safe_of_xpost (fun _ x => x) ((playing_seekSample h.playing.1 hn).mono (fun _ x => x) fun _ hr => hr.2.1)

/-- C18.  At any time of use at a sample rate that is a multiple of 100 Hz: the position after `Seek` is not later than
requested, and less than one millisecond and one sample earlier. -/
theorem C18_position (m : Machine) (h : InUse m) (q : Int) (hq : m.rate = 100 * q) (ms : Int) (hms : 0 ≤ ms) :
    SafeExcept (fun _ m' => m'.getPosition ≤ ms ∧ (ms - m'.getPosition - 1) * m.rate < 1000) (Machine.seek ms m) := by
  have hr := h.rate
  have hb : 0 ≤ Machine.millisecondsToBlocks m.rate ms := by
    rw [samplesIn_eq (by omega) hms]
    exact Int.ediv_nonneg (Int.mul_nonneg hms (by omega)) (by decide)
  have e : Machine.seek ms m = Machine.seekSample (Machine.millisecondsToBlocks m.rate ms) m := rfl
  rw [e]
  refine safe_of_xpost (fun _ x => x) ((playing_seekSample h.playing.1 hb).mono (fun _ x => x) fun r hr' => ?_)
  obtain ⟨_, hp, _, _, _, _, hrate⟩ := hr'
  have hg : r.2.getPosition = samplesIn m.rate ms * 10 / q := by
    unfold Machine.getPosition
    rw [hp, hrate, samplesIn_eq (by omega) hms, hq]
    have h1 : Int.tdiv (100 * q) 100 = q := by rw [Int.tdiv_eq_ediv_of_nonneg (by omega)]; omega
    rw [h1]
    refine Int.tdiv_eq_ediv_of_nonneg ?_
    rw [samplesIn_eq (by omega) hms, hq] at hb
    omega
  rw [hg]
  unfold samplesIn
  rw [hq]
  have hq1 : 1 ≤ q := by omega
  generalize hs : ms * (100 * q) / 1000 = s
  have hs' : 10 * s ≤ ms * q ∧ ms * q < 10 * s + 10 := by
    have e1 : ms * (100 * q) = 100 * (ms * q) := Int.mul_left_comm _ _ _
    rw [e1] at hs
    generalize ms * q = t at hs ⊢
    omega
  generalize hd : s * 10 / q = d
  have d1 : d * q ≤ s * 10 := by rw [← hd]; exact Int.ediv_mul_le _ (by omega)
  have d2 : s * 10 < (d + 1) * q := by rw [← hd]; exact Int.lt_ediv_add_one_mul_self _ (by omega)
  constructor
  · refine Int.le_of_mul_le_mul_right (a := q) ?_ (by omega)
    omega
  · have e2 : (ms - d - 1) * (100 * q) = 100 * (ms * q - (d + 1) * q) := by
      rw [← Int.sub_mul, show ms - (d + 1) = ms - d - 1 by omega]
      exact Int.mul_left_comm _ _ _
    rw [e2]
    generalize (d + 1) * q = u at d2 ⊢
    generalize ms * q = t at hs' ⊢
    omega

/-- C18.  Block counts are monotone in the position. -/
theorem C18_monotone (rate a b : Int) (hr : 0 ≤ rate) (ha : 0 ≤ a) (hab : a ≤ b) :
    Machine.millisecondsToBlocks rate a ≤ Machine.millisecondsToBlocks rate b := by
  rw [samplesIn_eq hr ha, samplesIn_eq hr (by omega)]
  exact Int.ediv_le_ediv (by decide) (Int.mul_le_mul_of_nonneg_right hab hr)

/-! ### Concrete cases and witnesses -/

/-- A program that stops the processor: `CIM` at 1000. -/
def still : List Nat := ascii "SAP\r\nTYPE D\r\nINIT 1000\r\n" ++ encodeBlocks [⟨true, 0x1000, [0x12]⟩]

/-- Loads a file into a new player and calls it: the numbers of samples played, of the next sample of the frame, and of the
samples of the frame, the duration, and the setting for silence. -/
def positions (file : List Nat) (calls : List Call) : Option (Int × Int × Int × Int × Int) :=
  match loadSap sampleName file file.length newPlayer with
  | .ok m => match runCalls calls m with
    | .ok r => some (r.2.played, r.2.pk.readyStart, r.2.pk.readyEnd, r.2.duration, r.2.silence)
    | .error _ => none
  | .error _ => none

theorem positions_some {file : List Nat} {calls : List Call} {v : Int × Int × Int × Int × Int} (hb : AllBytes file) (hv : ∀ c ∈ calls, c.Valid)
    {song duration : Int} (h : positions file (.play song duration :: calls) = some v) :
    ∃ m0, loadSap sampleName file file.length newPlayer = .ok m0 ∧ CanPlay m0 ∧ ∃ m, runCalls (.play song duration :: calls) m0 = .ok ((), m) ∧
      InUse m ∧ m.played = v.1 ∧ m.pk.readyStart = v.2.1 ∧ m.pk.readyEnd = v.2.2.1 ∧ m.duration = v.2.2.2.1 ∧
      m.silence = v.2.2.2.2 := by
  unfold positions at h
  cases hl : loadSap sampleName file file.length newPlayer with
  | error _ => rw [hl] at h; cases h
  | ok m0 =>
    rw [hl] at h
    have hc := loaded_canPlay _ _ _ _ _ (Nat.le_refl _) hb newPlayer_inRange (by decide) hl
    dsimp only at h
    cases hr : runCalls (.play song duration :: calls) m0 with
    | error _ => rw [hr] at h; cases h
    | ok r =>
      rw [hr] at h
      injection h with h
      exact ⟨m0, rfl, hc, r.2, hr, ⟨m0, song, duration, calls, hc, hv, hr⟩, by rw [← h], by rw [← h], by rw [← h], by rw [← h], by rw [← h]⟩

/-- C17 fails for a forward seek from inside a frame: there is a file for which playing one sample and seeking to sample 2
leads to sample 1 of the frame again, though playing two samples leads to sample 2. -/
theorem C17_forward_wrong : ∃ file, AllBytes file ∧ ∃ m0, loadSap sampleName file file.length newPlayer = .ok m0 ∧ CanPlay m0 ∧
    ∃ m m', runCalls [.play 0 0, .mute 0xff, .generate 1 .u8, .seekSample 2] m0 = .ok ((), m) ∧
      runCalls [.play 0 0, .mute 0xff, .generate 2 .u8] m0 = .ok ((), m') ∧
      m.played = 2 ∧ m'.played = 2 ∧ m.pk.readyStart = 1 ∧ m'.pk.readyStart = 2 ∧ ¬ SameExceptSound m m' := by
  have hb : AllBytes still := by unfold AllBytes; decide +kernel
  have v1 : ∀ c ∈ [Call.mute 0xff, .generate 1 .u8, .seekSample 2], c.Valid := by
    intro c hc
    simp only [List.mem_cons, List.not_mem_nil, or_false] at hc
    rcases hc with rfl | rfl | rfl
    · trivial
    · trivial
    · exact (by decide : (0 : Int) ≤ 2)
  have v2 : ∀ c ∈ [Call.mute 0xff, .generate 2 .u8], c.Valid := by
    intro c hc
    simp only [List.mem_cons, List.not_mem_nil, or_false] at hc
    rcases hc with rfl | rfl <;> trivial
  obtain ⟨m0, h0, hc0, m, hm, _, p1, p2, _⟩ := positions_some (v := (2, 1, 884, 0, 0)) (song := 0) (duration := 0) hb v1 (by decide +kernel)
  obtain ⟨m0', h0', _, m', hm', _, q1, q2, _⟩ := positions_some (v := (2, 2, 884, 0, 0)) (song := 0) (duration := 0) hb v2 (by decide +kernel)
  rw [h0] at h0'
  injection h0' with h0'
  subst h0'
  refine ⟨still, hb, m0, h0, hc0, m, m', hm, hm', p1, q1, p2, q2, fun hs => ?_⟩
  have := congrArg (fun x : Machine => x.pk.readyStart) hs
  have e : m.pk.readyStart = m'.pk.readyStart := this
  rw [p2, q2] at e
  exact absurd e (by decide)

/-- A case of C14 and C15: a player in use in the middle of a frame, with a duration of 10 milliseconds. -/
example : ∃ m, InUse m ∧ m.played = 5 ∧ m.pk.readyStart = 5 ∧ m.pk.readyEnd = 884 ∧ m.duration = 10 ∧ m.silence = 0 := by
  obtain ⟨_, _, _, m, _, hu, h⟩ := positions_some (file := still) (calls := [.mute 0xff, .generate 5 .u8]) (v := (5, 5, 884, 10, 0))
    (song := 0) (duration := 10) (by unfold AllBytes; decide +kernel) (by
      intro c hc
      simp only [List.mem_cons, List.not_mem_nil, or_false] at hc
      rcases hc with rfl | rfl <;> trivial) (by decide +kernel)
  exact ⟨m, hu, h⟩

/-- A case of C15: 10 ms of 8-bit stereo at 44100 Hz, in buffers of 500 bytes. -/
example : served 2 (samplesIn 44100 10) [500, 500, 500] = [500, 382, 0] := by decide

/-- C18 fails at other rates: at 22050 Hz the position reported after 100 seconds is later. -/
theorem C18_other_rates : ∃ m : Machine, m.rate = 22050 ∧ m.played = Machine.millisecondsToBlocks 22050 100000 ∧ m.getPosition = 100227 :=
  ⟨{ newPlayer with rate := 22050, played := 2205000 }, by decide, by decide, by decide⟩

end Asap.Props
