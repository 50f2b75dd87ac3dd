import Verif.Lemmas.Int32
import Verif.Props.Wav

/-! # C60: counting samples with 32-bit integers -/

namespace Asap.Props
open Asap Asap.Spec Asap.Spec.Int32 Asap.Loader

/-- A history of ordinary calls that begins with `PlaySong` led to this. -/
def Ordinarily (m0 m : Machine) : Prop :=
  CanPlay m0 ∧ m0.silence < 2 ^ 31 ∧ ∃ song duration cs, Ordinary (.play song duration) ∧ (∀ c ∈ cs, Ordinary c) ∧
    Spec.runCalls (.play song duration :: cs) m0 = .ok ((), m)

theorem Ordinarily.fits {m0 m : Machine} (h : Ordinarily m0 m) : Asap.Int32.Fits m := by
  obtain ⟨h0, hs, song, duration, cs, hp, hv, hx⟩ := h
  have hd : 0 < duration ∧ duration ≤ longest := hp
  have hs' : m0.silence < 2147483648 := hs
  have key := Asap.Int32.Agree.bind (Asap.Int32.started (duration := duration) h0.loaded h0.channels (by omega) song (by unfold longest at hd; omega))
    (fun _ m' (h' : Asap.Int32.Fits m') => Asap.Int32.runCalls_agree cs m' h' hv)
  exact key.2 () m hx

theorem valid_of_ordinary {c : Call} (h : Ordinary c) : c.Valid := by
  cases c with
  | seek position => exact h.1
  | seekSample block => exact h.1
  | setSampleRate rate => exact h
  | _ => trivial

theorem Ordinarily.inUse {m0 m : Machine} (h : Ordinarily m0 m) : InUse m := by
  obtain ⟨h0, _, song, duration, cs, _, hv, hx⟩ := h
  exact ⟨m0, song, duration, cs, h0, fun c hc => valid_of_ordinary (hv c hc), hx⟩

/-- The header, cut in two. -/
theorem header_cut (m : Machine) (f : SampleFormat) (metadata : Bool) (buffer : List Nat) : Wav.getWavHeader m f metadata buffer =
    match Asap.Int32.wavBeginning m f metadata buffer with
    | .error e => .error e
    | .ok r => Asap.Int32.wavEnd (r.1 + (Machine.millisecondsToBlocks m.rate m.duration - m.played) * Wav.blockSize m.info.channels f)
      ((Machine.millisecondsToBlocks m.rate m.duration - m.played) * Wav.blockSize m.info.channels f) r := by
  unfold Wav.getWavHeader Asap.Int32.wavBeginning
  simp only [bind, Except.bind]
  cases Wav.putFormat m.info.channels m.rate (Wav.blockSize m.info.channels f) (if f = .u8 then 8 else 16) buffer with
  | error e => rfl
  | ok b =>
    dsimp only
    cases Wav.putMetadata metadata m.info b with
    | error e => rfl
    | ok r => rfl

theorem wavEnd_count {riff bytes : Int} {r x : Nat × List Nat} (h : Asap.Int32.wavEnd riff bytes r = .ok x) : x.1 = r.1 + 8 := by
  unfold Asap.Int32.wavEnd at h
  simp only [bind, Except.bind] at h
  split at h
  · cases h
  · split at h
    · cases h
    · injection h with h
      rw [← h]

/-- C60.  For every module and program, and every history of ordinary calls (songs of up to 99:59.999, positions of up to two
hours, any buffers): nothing that is counted over the length of the song overflows an `int`, and the player does what it does
with unbounded integers. -/
theorem C60_calls (m : Machine) (h : CanPlay m) (hs : m.silence < 2 ^ 31) (song duration : Int) (cs : List Call)
    (hp : Ordinary (.play song duration)) (hv : ∀ c ∈ cs, Ordinary c) :
    Same (Spec.Int32.runCalls (.play song duration :: cs)) (Spec.runCalls (.play song duration :: cs)) m := by
  have hd : 0 < duration ∧ duration ≤ longest := hp
  have hs' : m.silence < 2147483648 := hs
  exact (Asap.Int32.Agree.bind (Asap.Int32.started h.loaded h.channels (by omega) song (by unfold longest at hd; omega))
    (fun _ m' (h' : Asap.Int32.Fits m') => Asap.Int32.runCalls_agree cs m' h' hv)).1

/-- C60.  `Generate` at any time of such use: the bytes and the number returned are those computed with unbounded integers. -/
theorem C60_generate (m0 m : Machine) (h : Ordinarily m0 m) (len : Int) (f : SampleFormat) (hl : 0 ≤ len ∧ len < 2 ^ 31) :
    Same (Asap.Int32.generate len f) (Machine.generate len f) m := by
  have hl' : 0 ≤ len ∧ len < 2147483648 := hl
  exact (Asap.Int32.generate_agree h.fits f (by omega)).1

/-- C60.  `GetWavHeader` at any time of such use, unless playback was moved beyond the end of the song. -/
theorem C60_header (m0 m : Machine) (h : Ordinarily m0 m) (hp : m.played ≤ samplesIn m.rate m.duration) (f : SampleFormat) (metadata : Bool)
    (year : Int) (hy : getYear m.info.date = .ok year)
    (ht : AllBytes m.info.title ∧ 0 ∉ m.info.title ∧ m.info.title.length ≤ 127)
    (ha : AllBytes m.info.author ∧ 0 ∉ m.info.author ∧ m.info.author.length ≤ 127) (buffer : List Nat) (hb : 342 ≤ buffer.length) :
    Asap.Int32.getWavHeader f metadata buffer m = some (.ok (Wav.getWavHeader m f metadata buffer, m)) := by
  have hf := h.fits
  have hr := hf.playing.rate
  have ht' := hf.total
  have hpl := hf.played
  have hdur := hf.duration
  rw [← samplesIn_eq (by omega) (by omega)] at hp
  have hsz : Wav.blockSize m.info.channels f = Spec.blockSize m f := by
    unfold Wav.blockSize Spec.blockSize sampleSize
    cases f <;> simp
  have hs : 1 ≤ Spec.blockSize m f ∧ Spec.blockSize m f ≤ 4 := by
    unfold Spec.blockSize sampleSize
    rcases hf.channels with e | e <;> rw [e] <;> cases f <;> decide
  have hbytes : 0 ≤ (Machine.millisecondsToBlocks m.rate m.duration - m.played) * Spec.blockSize m f ∧
      (Machine.millisecondsToBlocks m.rate m.duration - m.played) * Spec.blockSize m f ≤ 287999952 * 4 := by
    refine ⟨Int.mul_nonneg (by omega) (by omega), Int.le_trans (Int.mul_le_mul_of_nonneg_left hs.2 (by omega)) (by omega)⟩
  have hspeed : 0 ≤ m.rate * Spec.blockSize m f ∧ m.rate * Spec.blockSize m f ≤ 48000 * 4 :=
    ⟨Int.mul_nonneg (by omega) (by omega), Int.le_trans (Int.mul_le_mul_of_nonneg_left hs.2 (by omega)) (by omega)⟩
  obtain ⟨n, b, hx, hn, _⟩ := C16_header m h.inUse f metadata year hy ht ha buffer
    (List.replicate ((Machine.millisecondsToBlocks m.rate m.duration - m.played) * Spec.blockSize m f).toNat 0) hb (by omega) (by
      rw [List.length_replicate, samplesIn_eq (by omega) (by omega)] at *
      omega) (by rw [List.length_replicate]; omega)
  have hcut := header_cut m f metadata buffer
  rw [hsz] at hcut
  generalize hv : (Machine.millisecondsToBlocks m.rate m.duration - m.played) * Spec.blockSize m f = bytes at *
  have e1 : Asap.Int32.getWavHeader f metadata buffer m = (match Asap.Int32.wavBeginning m f metadata buffer with
      | .error e => (pure (.error e) : Asap.Int32.I (M (Nat × List Nat)))
      | .ok r => do
        let riff ← Asap.Int32.int (r.1 + bytes)
        pure (Asap.Int32.wavEnd riff bytes r)) m := by
    have e2 : Asap.Int32.wavNumbers f m = some (.ok ((m.rate * Spec.blockSize m f, bytes), m)) := by
      have e3 : Asap.Int32.wavNumbers f m = (do
          let speed ← Asap.Int32.int (m.rate * Wav.blockSize m.info.channels f)
          let left ← Asap.Int32.int (Asap.Int32.millisecondsToBlocks m.rate m.duration - m.played)
          let bytes ← Asap.Int32.int (left * Wav.blockSize m.info.channels f)
          pure (speed, bytes) : Asap.Int32.I (Int × Int)) m := rfl
      rw [e3, hsz, ht'.1, Asap.Int32.int_bind (by omega), Asap.Int32.int_bind (by omega), hv, Asap.Int32.int_bind (by omega)]
      rfl
    have e4 : Asap.Int32.getWavHeader f metadata buffer m = (do
        let n ← Asap.Int32.wavNumbers f
        match Asap.Int32.wavBeginning m f metadata buffer with
        | .error e => pure (.error e)
        | .ok r => do
          let riff ← Asap.Int32.int (r.1 + n.2)
          pure (Asap.Int32.wavEnd riff n.2 r) : Asap.Int32.I (M (Nat × List Nat))) m := rfl
    rw [e4]
    show Asap.Int32.I.bind (Asap.Int32.wavNumbers f) _ m = _
    unfold Asap.Int32.I.bind
    rw [e2]
  rw [e1]
  cases hw : Asap.Int32.wavBeginning m f metadata buffer with
  | error e => rw [hw] at hcut; rw [hcut]; rfl
  | ok r =>
    rw [hw] at hcut
    dsimp only at hcut ⊢
    rw [hcut] at hx
    have := wavEnd_count hx
    dsimp only at this
    rw [Asap.Int32.int_bind (by omega), hcut]
    rfl

/-- C60.  The position is right as long as ten times the number of samples is an `int`: 81 minutes at 44100 Hz. -/
theorem C60_position_partial (m0 m : Machine) (h : Ordinarily m0 m) :
    Asap.Int32.getPosition m = if m.played ≤ 214748364 then some (.ok (m.getPosition, m)) else none := by
  have hp := h.fits.played
  show (Asap.Int32.int (m.played * 10) >>= fun p => pure (Int.tdiv p (Int.tdiv m.rate 100)) : Asap.Int32.I Int) m = _
  by_cases hc : m.played ≤ 214748364
  · rw [if_pos hc, Asap.Int32.int_bind (by omega)]
    rfl
  · rw [if_neg hc]
    show Asap.Int32.I.bind (Asap.Int32.int _) _ m = _
    unfold Asap.Int32.I.bind Asap.Int32.int
    rw [if_neg (by omega)]

/-- C60.  So after playback was moved to a later sample, e.g. minute 82 of a song at 44100 Hz, the position cannot be
computed. -/
theorem C60_late_position (m0 m : Machine) (h : Ordinarily m0 m) (n : Int) (hn : 214748364 < n) :
    SafeExcept (fun _ m' => m'.played = n ∧ Asap.Int32.getPosition m' = none) (Machine.seekSample n m) := by
  have key := C17_count m h.inUse n (by omega)
  cases hx : Machine.seekSample n m with
  | error e => rw [hx] at key; exact key
  | ok r =>
    rw [hx] at key
    have e : r.2.played = n := key
    refine ⟨e, ?_⟩
    show (Asap.Int32.int (r.2.played * 10) >>= fun p => pure (Int.tdiv p (Int.tdiv r.2.rate 100)) : Asap.Int32.I Int) r.2 = _
    show Asap.Int32.I.bind (Asap.Int32.int (r.2.played * 10)) _ r.2 = _
    unfold Asap.Int32.I.bind Asap.Int32.int
    rw [if_neg (by omega)]

/-- 82 minutes are a later sample than that, and songs of 82 minutes can be written in files. -/
example : 214748364 < samplesIn 44100 (82 * 60 * 1000) ∧ 82 * 60 * 1000 ≤ longest := by unfold samplesIn longest; decide

/-! ### Concrete cases -/

/-- How the player is set for silence after loading. -/
def silenceOf (file : List Nat) : Option Int :=
  match loadSap sampleName file file.length newPlayer with
  | .ok m => some m.silence
  | .error _ => none

/-- An ordinary use: the longest song, two calls. -/
example : ∃ m0 m, Ordinarily m0 m ∧ m.played = 5 ∧ m.duration = 5999999 := by
  have hb : AllBytes still := by unfold AllBytes; decide +kernel
  have ho : ∀ c ∈ [Call.mute 0xff, .generate 5 .u8], Ordinary c := by
    intro c hc
    simp only [List.mem_cons, List.not_mem_nil, or_false] at hc
    rcases hc with rfl | rfl
    · trivial
    · exact (by decide : (0 : Int) ≤ 5 ∧ (5 : Int) < 2 ^ 31)
  obtain ⟨m0, hl, hc, m, hx, _, hp, _, _, hd, _⟩ := positions_some (file := still) (calls := [.mute 0xff, .generate 5 .u8]) (v := (5, 5, 884, 5999999, 0))
    (song := 0) (duration := 5999999) hb (fun c hc => valid_of_ordinary (ho c hc)) (by decide +kernel)
  have hs : silenceOf still = some 0 := by decide +kernel
  unfold silenceOf at hs
  rw [hl] at hs
  injection hs with hs
  exact ⟨m0, m, ⟨hc, by rw [hs]; decide, 0, 5999999, _, (by unfold longest; decide : (0 : Int) < 5999999 ∧ 5999999 ≤ longest), ho, hx⟩, hp, hd⟩

/-- The limits are needed: 21 minutes of silence overflow, and so does the header of four hours at 48000 Hz in 16-bit stereo. -/
theorem C60_limits : Asap.Int32.detectSilence (21 * 60) newPlayer = none ∧
    Asap.Int32.wavNumbers .s16le { newPlayer with rate := 48000, duration := 4 * 3600 * 1000, info := { newPlayer.info with channels := 2 } } = none :=
  ⟨rfl, rfl⟩

end Asap.Props
