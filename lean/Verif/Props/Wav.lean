import Verif.Lemmas.WavRead
import Verif.Props.Info
import Verif.Props.Playback
import Verif.Props.SapWrite

/-! # C16: WAV files -/

namespace Asap.Props
open Asap Asap.Spec Asap.Loader Asap.Wav Asap.Sap

theorem year_range {date : List Nat} {year : Int} (h : getYear date = .ok year) : year ≤ 9999 := by
  by_cases hd : ∃ y m d, DateText date y m d
  · obtain ⟨y, m, d, hd⟩ := hd
    have := (C05_fields date y m d hd).1
    rw [this] at h
    injection h with h
    subst h
    cases hd with
    | y h1 h2 h3 h4 => rw [digitVal_some] at h1 h2 h3 h4; omega
    | my h5 h6 h1 h2 h3 h4 => rw [digitVal_some] at h1 h2 h3 h4; omega
    | dmy h5 h6 h7 h8 h1 h2 h3 h4 => rw [digitVal_some] at h1 h2 h3 h4; omega
  · have := (C05_unknown date hd).1
    rw [this] at h
    injection h with h
    omega

theorem blockSize_same (m : Machine) (f : SampleFormat) : Wav.blockSize m.info.channels f = Spec.blockSize m f := by
  unfold Wav.blockSize Spec.blockSize
  cases f
  · show (m.info.channels : Int) = m.info.channels * 1; omega
  · rfl
  · rfl

/-- Where the header fits in the buffer. -/
theorem header_fits (m : Machine) (f : SampleFormat) (metadata : Bool) (year : Int) {h : List Nat}
    (hh : h = header m.info.channels m.rate (Wav.blockSize m.info.channels f) (if f = .u8 then 8 else 16)
      ((Machine.millisecondsToBlocks m.rate m.duration - m.played) * Wav.blockSize m.info.channels f) (metadataChunk metadata m.info year))
    (h1 : m.info.title.length ≤ 127) (h2 : m.info.author.length ≤ 127) : h.length ≤ 342 := by
  rw [hh, header_length]
  have := (infoBody_length m.info year).2.2 h1 h2
  unfold metadataChunk listChunk
  split
  · split
    · simp only [List.length_append, List.length_cons, List.length_nil, le4_length]; omega
    · simp
  · simp

/-- C16.  At any time of use, with texts of at most 127 characters, `GetWavHeader` fills only the number of bytes it returns, at
most 342.  Whatever data follow, if there are as many bytes as are left of the duration, a reader of WAV files finds the actual
format, the title, the author, the year and the data, and the sizes fit exactly.  A strict reader requires an even number of
bytes. -/
theorem C16_header (m : Machine) (h : InUse m) (f : SampleFormat) (metadata : Bool) (year : Int) (hy : getYear m.info.date = .ok year)
    (ht : AllBytes m.info.title ∧ 0 ∉ m.info.title ∧ m.info.title.length ≤ 127)
    (ha : AllBytes m.info.author ∧ 0 ∉ m.info.author ∧ m.info.author.length ≤ 127)
    (buffer data : List Nat) (hb : 342 ≤ buffer.length) (hdur : 0 ≤ m.duration)
    (hd : (data.length : Int) = (samplesIn m.rate m.duration - m.played) * Spec.blockSize m f) (hs : data.length < 0x7ffffe00) :
    ∃ n buffer', getWavHeader m f metadata buffer = .ok (n, buffer') ∧ n ≤ 342 ∧ buffer'.drop n = buffer.drop n ∧
      readWav false (buffer'.take n ++ data) = some (expectedWav m f metadata year data) ∧
      (data.length % 2 = 0 → readWav true (buffer'.take n ++ data) = some (expectedWav m f metadata year data)) := by
  have hr := h.rate
  have hc := h.playing.2
  have hyr := year_range hy
  generalize hh : header m.info.channels m.rate (Wav.blockSize m.info.channels f) (if f = .u8 then 8 else 16)
    ((Machine.millisecondsToBlocks m.rate m.duration - m.played) * Wav.blockSize m.info.channels f) (metadataChunk metadata m.info year) = hdr
  have hfit := header_fits m f metadata year hh.symm ht.2.2 ha.2.2
  have e := getWavHeader_eq m f metadata hy hyr ht.1 ha.1 buffer hh.symm
  rw [if_pos (by omega)] at e
  obtain ⟨z1, z2⟩ := splice_zero (b := buffer) (xs := hdr) (by omega)
  refine ⟨_, _, e, hfit, z2, ?_⟩
  rw [z1]
  have hsz : 1 ≤ Spec.blockSize m f ∧ Spec.blockSize m f ≤ 4 := by
    unfold Spec.blockSize
    rcases hc with h | h <;> rw [h] <;> cases f <;> decide
  have key : ∀ strict, readWav strict (hdr ++ data) =
      if data.length % 2 = 1 ∧ strict = true then none else some (expectedWav m f metadata year data) := by
    intro strict
    have hbytes : (Machine.millisecondsToBlocks m.rate m.duration - m.played) * Wav.blockSize m.info.channels f = (data.length : Int) := by
      rw [blockSize_same, hd, samplesIn_eq (by omega) hdur]
    rw [← hh, hbytes, blockSize_same]
    have hbits : (if f = SampleFormat.u8 then (8 : Int) else 16) = 8 * sampleSize f := by cases f <;> rfl
    rw [hbits]
    refine readWav_header (by omega) (by omega) (by omega) ?_ (by cases f <;> decide) ?_ ?_
    · have : m.rate * Spec.blockSize m f ≤ 48000 * 4 := Int.mul_le_mul hr.2 hsz.2 (by omega) (by decide)
      omega
    · rw [← hh, header_length] at hfit
      omega
    · unfold metadataChunk
      by_cases hm : metadata = true
      · rw [if_pos hm, if_pos hm]
        unfold listChunk
        by_cases hc2 : m.info.title.length > 0 ∨ m.info.author.length > 0 ∨ year > 0
        · rw [if_pos hc2]
          exact Or.inr ⟨_, rfl, (infoBody_length m.info year).1, infoTexts_body hyr ht.2.1 ha.2.1 (by omega) (by omega)⟩
        · rw [if_neg hc2]
          refine Or.inl ⟨rfl, ?_⟩
          unfold expectedInfo
          rw [if_pos (List.eq_nil_of_length_eq_zero (by omega)), if_pos (List.eq_nil_of_length_eq_zero (by omega)), if_neg (by omega)]
          rfl
      · rw [if_neg hm, if_neg hm]
        exact Or.inl ⟨rfl, rfl⟩
  refine ⟨?_, fun he => ?_⟩
  · rw [key false, if_neg (by simp)]
  · rw [key true, if_neg (by omega)]

theorem flatten_length : ∀ (rs : List (List Int × Int)), (∀ r ∈ rs, (r.1.length : Int) = r.2) →
    (((rs.map (·.1)).flatten.length : Nat) : Int) = (rs.map (·.2)).sum
  | [], _ => rfl
  | r :: rs, h => by
    rw [List.map_cons, List.flatten_cons, List.length_append, List.map_cons, List.sum_cons, ← flatten_length rs fun x hx => h x (by simp [hx]),
      ← h r (by simp)]
    omega

/-- C16.  A file made of the header and all that `Generate` then delivers: whatever lengths are requested, if they are enough,
the file is read as the rest of the song. -/
theorem C16_file (m : Machine) (h : InUse m) (f : SampleFormat) (metadata : Bool) (year : Int) (hy : getYear m.info.date = .ok year)
    (ht : AllBytes m.info.title ∧ 0 ∉ m.info.title ∧ m.info.title.length ≤ 127)
    (ha : AllBytes m.info.author ∧ 0 ∉ m.info.author ∧ m.info.author.length ≤ 127)
    (buffer : List Nat) (hb : 342 ≤ buffer.length) (hd : 0 < m.duration) (hs : m.silence ≤ 0)
    (hp : 0 ≤ m.played ∧ m.played ≤ samplesIn m.rate m.duration) (lens : List Int) (hl : ∀ x ∈ lens, 0 ≤ x)
    (henough : samplesIn m.rate m.duration - m.played ≤ (lens.map (· / Spec.blockSize m f)).sum)
    (hmax : (samplesIn m.rate m.duration - m.played) * Spec.blockSize m f < 0x7ffffe00) :
    ∃ n buffer', getWavHeader m f metadata buffer = .ok (n, buffer') ∧
      SafeExcept (fun rs _ => readWav false (buffer'.take n ++ (rs.map (·.1)).flatten.map Int.toNat) =
        some (expectedWav m f metadata year ((rs.map (·.1)).flatten.map Int.toNat))) (generateEach f lens m) := by
  have hsz : 0 < Spec.blockSize m f := by rw [blockSize_eq h.playing.2]; exact Int.pow_pos (by decide)
  have hn : 0 ≤ (samplesIn m.rate m.duration - m.played) * Spec.blockSize m f := Int.mul_nonneg (by omega) (by omega)
  have key := fun (data : List Nat) (e : (data.length : Int) = (samplesIn m.rate m.duration - m.played) * Spec.blockSize m f) =>
    C16_header m h f metadata year hy ht ha buffer data hb (by omega) e (by omega)
  obtain ⟨n, buffer', hx, _⟩ := key (List.replicate ((samplesIn m.rate m.duration - m.played) * Spec.blockSize m f).toNat 0)
    (by rw [List.length_replicate]; omega)
  refine ⟨n, buffer', hx, ?_⟩
  have hserved := C15_served m h f hd hs hp lens hl
  unfold SafeExcept at hserved ⊢
  cases hg : generateEach f lens m with
  | error e => rw [hg] at hserved; exact hserved
  | ok r =>
    rw [hg] at hserved
    obtain ⟨h1, h2⟩ := hserved
    obtain ⟨n', b', hx', _, _, hread, _⟩ := key ((r.1.map (·.1)).flatten.map Int.toNat) (by
      rw [List.length_map, flatten_length r.1 h2, h1, served_sum hsz lens _ (by omega) hl, Int.min_eq_left henough])
    rw [hx] at hx'
    injection hx' with hx'
    injection hx' with e1 e2
    subst e1 e2
    exact hread

/-! ### Concrete cases and limits -/

/-- What a reader finds in a header followed by data. -/
def readBack (strict : Bool) (m : Machine) (f : SampleFormat) (metadata : Bool) (data : List Nat) : Option Wav :=
  match getWavHeader m f metadata (List.replicate 342 7) with
  | .ok r => readWav strict (r.2.take r.1 ++ data)
  | .error _ => none

/-- A case of C16: what a strict reader finds in a header followed by two samples. -/
example : readBack true { newPlayer with info := { title := ascii "Abc", author := ascii "De", date := ascii "04/1987" }, duration := 10, played := 439 }
      .s16le true [1, 2, 3, 4] =
    some ⟨1, 44100, 88200, 2, 16, [(ascii "INAM", ascii "Abc"), (ascii "IART", ascii "De"), (ascii "ICRD", ascii "1987")], [1, 2, 3, 4]⟩ := by
  decide +kernel

/-- An odd number of bytes is not padded, so a strict reader rejects the file: one sample of 8 bits. -/
theorem C16_odd_unpadded : ∃ m : Machine, m.rate = 44100 ∧ m.duration = 10 ∧ m.played = 440 ∧
    readBack false m .u8 false [128] = some ⟨1, 44100, 44100, 1, 8, [], [128]⟩ ∧ readBack true m .u8 false [128] = none :=
  ⟨{ newPlayer with duration := 10, played := 440 }, by decide, by decide, by decide, by decide +kernel, by decide +kernel⟩

/-- `ASAPInfo.Load` does not limit the texts of a SAP file: for every buffer there is a file whose title does not fit, so that
`GetWavHeader` writes outside the buffer. -/
theorem C16_long_title (buffer : List Nat) : ∃ file i, parseSap (Info.blank []) file = .ok i ∧
    ∀ m : Machine, m.info = i → ∀ f, getWavHeader m f true buffer = .error .ub := by
  let i : Info := { title := List.replicate (buffer.length + 1) 65, type := .sapD, init := 0x1000 }
  have htitle : ∀ c ∈ i.title, c = 65 := fun c hc => (List.mem_replicate.mp hc).2
  have hne : i.title ≠ ascii "<?>" := by
    intro h
    have : 60 ∈ i.title := by rw [h]; decide
    exact absurd (htitle 60 this) (by decide)
  have hx : Expressible i 68 0x1000 (-1) :=
    ⟨⟨by simp [i], by simp [i]; decide⟩, ⟨fun c hc => by rw [htitle c hc]; exact ⟨by decide, Or.inr (Or.inl (by decide))⟩, hne⟩,
      ⟨by simp [i], by simp [i]; decide⟩, show 1 ≤ 1 ∧ 1 ≤ 32 by decide, show 0 < 1 by decide, Or.inl rfl,
      show (1 : Int) ≤ 312 ∧ (312 : Int) ≤ 32767 by decide, by decide, by decide, Or.inl rfl,
      Or.inr (Or.inr (Or.inl ⟨rfl, by decide⟩)), 0, show 0 ≤ 1 by decide, by simp, fun _ _ => ⟨rfl, rfl⟩⟩
  refine ⟨_, _, parseSap_header hx [] [0, 16, 0, 16, 96] (by decide), fun m hm f => ?_⟩
  have hb : AllBytes m.info.title := by
    rw [hm]
    intro c hc
    rw [htitle c hc]
    decide
  have hy : getYear m.info.date = .ok (-1) := by rw [hm]; rfl
  have ha : AllBytes m.info.author := by rw [hm]; intro c hc; exact absurd hc (by simp [reloaded, i])
  rw [getWavHeader_eq m f true hy (by decide) hb ha buffer rfl, if_neg]
  rw [header_length]
  have hl : m.info.title.length = buffer.length + 1 := by rw [hm]; exact List.length_replicate
  unfold metadataChunk
  rw [if_pos rfl]
  unfold listChunk
  rw [if_pos (Or.inl (by omega))]
  unfold infoBody textChunk
  have : m.info.title ≠ [] := fun h => by rw [h] at hl; simp at hl
  rw [if_neg this]
  simp only [List.length_append]
  omega

end Asap.Props
