import Verif.Lemmas.XexInfo
import Verif.Spec.XexInfo

/-! C34: the text of the title screen. -/

namespace Asap.Props
open Asap Asap.Spec.XexInfo

private theorem title_len {src : List Nat} (h : src.length ≤ 127) {column : Nat} (hc : column = 0 ∨ column = 19) :
    (XexInfo.formatted false column src []).length ≤ 224 + (if column = 0 then 32 else column) := by
  have ht := XexInfo.flow_title src
  unfold XexInfo.formatted
  rw [XexInfo.length_padded]
  unfold XexInfo.Title at ht
  unfold XexInfo.gap
  rcases hc with rfl | rfl <;> split_ifs at ht ⊢ <;> omega

/-- C34: a title of at most 127 characters, whatever they are, is laid out in lines of 32 columns inside the 256-byte buffer, and all its characters are shown. -/
theorem C34_title (info : Info) (h : info.title.length ≤ 127) :
    ∃ shown, XexInfo.title info = .ok shown ∧
      Screen shown (letters (if info.title = [] then ascii "(untitled)" else info.title)) := by
  have hs : (if info.title.length = 0 then ascii "(untitled)" else info.title).length ≤ 127 := by
    split
    · decide
    · exact h
  have e : (if info.title = [] then ascii "(untitled)" else info.title) = (if info.title.length = 0 then ascii "(untitled)" else info.title) := by
    simp only [List.length_eq_zero_iff]
  rw [e]
  generalize hsrc : (if info.title.length = 0 then ascii "(untitled)" else info.title) = src at *
  have hl := title_len hs (column := 0) (Or.inl rfl)
  refine ⟨XexInfo.formatted false 0 src [], ?_, ⟨by simpa using hl, XexInfo.formatted_column (by omega) _ _, ?_⟩⟩
  · unfold XexInfo.title
    rw [hsrc, XexInfo.format_eq (by omega) _ _ (by simp), if_pos (by simpa using hl)]
  · have := XexInfo.formatted_filter false 0 src []
    simpa [letters] using this

/-- C34: no word of at most 32 characters of a title is broken at the end of a line. -/
theorem C34_words (info : Info) (shown p w q : List Nat) (h : info.title.length ≤ 127) (hs : XexInfo.title info = .ok shown)
    (hw : IsWord p w q) (ht : info.title = p ++ w ++ q) (h32 : w.length ≤ 32) : OnOneLine shown p w := by
  have h0 : 0 < w.length := List.length_pos_iff.mpr hw.nonempty
  have hne : info.title.length ≠ 0 := by rw [ht, List.length_append, List.length_append]; omega
  have hl := title_len h (column := 0) (Or.inl rfl)
  unfold XexInfo.title at hs
  rw [if_neg hne, XexInfo.format_eq (by omega) _ _ (by simp), if_pos (by simpa using hl)] at hs
  have hs : XexInfo.formatted false 0 info.title [] = shown := by simpa using hs
  obtain ⟨a, b, h1, h2, h3⟩ := XexInfo.word_kept 0 (p := p) (w := w) (q := q) (fun c hc h => hw.noSpace (h ▸ hc)) h0 h32 (by
    rcases hw.before with h | h
    · exact Or.inl h
    · exact Or.inr ⟨p.dropLast, by
        obtain ⟨ys, hy⟩ := List.getLast?_eq_some_iff.mp h
        rw [hy]; simp⟩) hw.after
  refine ⟨a, b, ?_, h2, h3⟩
  rw [← h1, ← hs, ht, List.append_assoc]

/-- C34: the date line with the number of POKEYs and the duration also fits. -/
theorem C34_date (info : Info) (h : info.date.length ≤ 127) :
    ∃ shown, XexInfo.other info = .ok shown ∧ shown.length ≤ 256 ∧ shown.length % 32 = 0 ∧
      ∃ time : List Nat, letters shown = letters info.date ++ letters (ascii (if info.channels > 1 then "STEREO" else "MONO")) ++ letters time ∧
        (time = [] ∨ (0 < info.durations info.defaultSong ∧ Duration.secondsToString (info.durations info.defaultSong + 999) = some time)) := by
  have hl := title_len h (column := 19) (Or.inr rfl)
  have hc1 : (XexInfo.formatted false 19 info.date []).length % 32 = 19 := XexInfo.formatted_column (by omega) _ _
  have hf1 := XexInfo.formatted_filter false 19 info.date []
  have e1 : XexInfo.format [] (XexInfo.lineLen - 13) info.date false = .ok (XexInfo.formatted false 19 info.date []) := by
    show XexInfo.format [] 19 info.date false = _
    rw [XexInfo.format_eq (by omega) _ _ (by simp), if_pos (by simp at hl; omega)]
  generalize XexInfo.formatted false 19 info.date [] = d at *
  simp only [show (19 : Nat) ≠ 0 by omega, if_false] at hl
  have key : ∀ txt : List Nat, txt.length = 7 → XexInfo.format d (XexInfo.lineLen - 5) txt false = .ok (d ++ txt ++ [32]) := by
    intro txt htxt
    show XexInfo.format d 27 txt false = _
    have e : XexInfo.formatted false 27 txt d = d ++ txt ++ [32] := by
      unfold XexInfo.formatted XexInfo.padded
      rw [XexInfo.flow_fits _ _ (by omega)]
      have : XexInfo.gap (d ++ txt).length 27 = 1 := by unfold XexInfo.gap; rw [List.length_append]; omega
      rw [this]; rfl
    rw [XexInfo.format_eq (by omega) _ _ (by omega), e, if_pos (by simp; omega)]
  have hlt : ∃ txt : List Nat, ascii (if info.channels > 1 then " STEREO" else "   MONO") = txt ∧ txt.length = 7 ∧
      letters txt = letters (ascii (if info.channels > 1 then "STEREO" else "MONO")) := by
    by_cases hs : info.channels > 1
    · simp only [hs, if_true]; exact ⟨_, rfl, by decide, by decide⟩
    · simp only [hs, if_false]; exact ⟨_, rfl, by decide, by decide⟩
  obtain ⟨txt, htxt, h7, hlet⟩ := hlt
  have e2 : XexInfo.other info = XexInfo.storeTime (d ++ txt ++ [32]) (info.durations info.defaultSong) := by
    unfold XexInfo.other
    rw [e1]
    show (XexInfo.format d (XexInfo.lineLen - 5) (ascii (if info.channels > 1 then " STEREO" else "   MONO")) false >>= _) = _
    rw [htxt, key txt h7]
    rfl
  rw [e2]
  have hlen : (d ++ txt ++ [32]).length = d.length + 8 := by simp [h7]
  have hlet2 : letters (d ++ txt ++ [32]) = letters info.date ++ letters (ascii (if info.channels > 1 then "STEREO" else "MONO")) := by
    have hd : letters d = letters info.date := by simpa [letters] using hf1
    rw [← hlet, ← hd]
    unfold letters
    rw [List.filter_append, List.filter_append]
    simp
  generalize d ++ txt ++ [32] = d2 at *
  have hpad : ∃ shown, XexInfo.pad d2 0 = .ok shown ∧ shown.length ≤ 256 ∧ shown.length % 32 = 0 ∧ letters shown = letters d2 := by
    refine ⟨XexInfo.padded d2 0, ?_, ?_, ?_, XexInfo.padded_filter _ _⟩
    · rw [XexInfo.pad_eq (by omega) _ (by omega), if_pos]
      rw [XexInfo.length_padded]; unfold XexInfo.gap; omega
    · rw [XexInfo.length_padded]; unfold XexInfo.gap; omega
    · rw [XexInfo.length_padded]; unfold XexInfo.gap; omega
  obtain ⟨shown, hp1, hp2, hp3, hp4⟩ := hpad
  unfold XexInfo.storeTime
  by_cases hdur : info.durations info.defaultSong > 0
  · rw [if_pos hdur]
    cases ht : Duration.secondsToString (info.durations info.defaultSong + 999) with
    | none => exact ⟨shown, hp1, hp2, hp3, [], by rw [hp4, hlet2]; simp [letters], Or.inl rfl⟩
    | some t =>
      have h5 : t.length = 5 := by
        unfold Duration.secondsToString at ht
        split at ht
        · cases ht
        · simp only [Option.some.injEq] at ht
          rw [← ht]; rfl
      refine ⟨d2 ++ t, ?_, ?_, ?_, t, ?_, Or.inr ⟨hdur, rfl⟩⟩
      · show (if d2.length + 5 ≤ 256 then (Except.ok (d2 ++ t) : M _) else _) = _
        rw [if_pos (by omega)]
      · rw [List.length_append]; omega
      · rw [List.length_append]; omega
      · rw [← hlet2]; unfold letters; rw [List.filter_append]
  · rw [if_neg hdur]
    exact ⟨shown, hp1, hp2, hp3, [], by rw [hp4, hlet2]; simp [letters], Or.inl rfl⟩

/-- C34: an author's text of at most 127 characters fits, unless one of its credits has exactly 32 characters.
Missing: credits of 32 characters, see `C34_overflow`. -/
theorem C34_author_partial (info : Info) (h : info.author.length ≤ 127) (hne : info.author ≠ [])
    (hc : ∀ p g q, IsCredit info.author p g q → g.length ≠ 32) :
    ∃ shown, XexInfo.author info = .ok shown ∧ Screen shown (ascii "by" ++ letters info.author) := by
  have hn : XexInfo.NoFullLine info.author := by
    intro p rest hp hh ha
    obtain ⟨g, t, hr, hg, hl, hgh⟩ := XexInfo.author_split hh
    refine hc p g t ⟨by rw [hp, hr]; simp, hgh, ?_, ?_⟩ (by rw [hl, ha])
    · rintro ⟨a, b, hab⟩
      exact hg.inner a (38 :: b) (by rw [← hab]; simp) (by simp)
    · rcases hg.outer with h | ⟨u, hu⟩
      · exact Or.inl h
      · exact Or.inr ⟨u, by rw [hu]; rfl⟩
  have ha := XexInfo.flow_author (src := info.author) (dest := ascii "by ") (by decide) hn
  have hlen : (XexInfo.formatted true 0 info.author (ascii "by ")).length ≤ 256 := by
    unfold XexInfo.formatted
    rw [XexInfo.length_padded]
    unfold XexInfo.Author at ha
    unfold XexInfo.gap
    omega
  refine ⟨_, ?_, ⟨hlen, XexInfo.formatted_column (by omega) _ _, ?_⟩⟩
  · unfold XexInfo.author
    rw [if_pos (List.length_pos_iff.mpr hne), XexInfo.format_eq (by omega) _ _ (by decide), if_pos hlen]
  · have := XexInfo.formatted_filter true 0 info.author (ascii "by ")
    unfold letters
    rw [this]
    congr 1

/-- A text of at most 32 characters has no credit of 32, so it always fits: the hypothesis of `C34_author_partial` is met. -/
theorem C34_author_short (info : Info) (h : info.author.length ≤ 32) (hne : info.author ≠ []) :
    ∃ shown, XexInfo.author info = .ok shown ∧ Screen shown (ascii "by" ++ letters info.author) := by
  refine C34_author_partial info (by omega) hne ?_
  intro p g q hc hg
  have := congrArg List.length hc.split
  simp only [List.length_append, List.length_singleton] at this
  omega

/-- The author's text that breaks the property: three credits of 32 characters. -/
def overflowing : List Nat :=
  ascii " & xxxxxxxxxxxxxxxxxxxxxxxxxxxxxx &x & xxxxxxxxxxxxxxxxxxxxxxxxxxxxxx &x & xxxxxxxxxxxxxxxxxxxxxxxxxxxxxx"

/-- C34 is false of the code: `SetAuthor` accepts this text of 105 characters, and laying it out stores beyond the 256-byte buffer. -/
theorem C34_overflow : ∃ info : Info, (∃ i : Info, i.setAuthor overflowing = (.ok (), info)) ∧ XexInfo.author info = .error .ub := by
  refine ⟨{ Info.blank [] with author := overflowing }, ⟨Info.blank [], ?_⟩, ?_⟩
  · have h : checkValidText overflowing = .ok () := by decide +kernel
    unfold Info.setAuthor
    rw [h]
  · show (if overflowing.length > 0 then XexInfo.format (ascii "by ") 0 overflowing true else _) = _
    decide +kernel

/-- Ordinary credits meet the hypotheses of `C34_author_partial`. -/
theorem C34_sample : XexInfo.author { Info.blank [] with author := ascii "Jakub Husak & Piotr Fusik & someone with a long name" } =
    .ok (ascii "by Jakub Husak & Piotr Fusik     & someone with a long name     ") := by
  show (if (ascii "Jakub Husak & Piotr Fusik & someone with a long name").length > 0 then
    XexInfo.format (ascii "by ") 0 (ascii "Jakub Husak & Piotr Fusik & someone with a long name") true else _) = _
  decide +kernel

end Asap.Props
