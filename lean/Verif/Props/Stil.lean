import Verif.Lemmas.StilLoad

/-!
C38: what is loaded from STIL.txt is what its lines say.

`n` is the size of the array for a line, 101 in the code.  There is room for titles of covers up to 98 characters long, including the label: see `C38_overrun`.
-/

namespace Asap.Props
open Asap Asap.Stil Asap.Spec.Stil

/-- Nothing was loaded. -/
def Unloaded (info : Stil.Info) : Prop := info.stilFilename = [] ∧ info.directoryComment = [] ∧ info.fileComment = [] ∧ info.songComment = [] ∧ NoBlock info

/-- What is loaded for a song of a file: the nearest STIL.txt is used, and everything that is reported is what the lines of STIL.txt say. -/
theorem C38_load_partial (filenameMax n : Nat) (hn : 101 ≤ n) (fs : List Nat → Option (List Nat)) (line : List Nat) (hline : line.length = n) (old : Bool) (filename : List Nat) (hname : 0 ∉ filename) (song : Nat)
    (hroom : ∀ name contents, fs name = some contents → ∀ l ∈ lines (unmarked contents).1, starts "  TITLE: " l = true → l.length + 3 ≤ n) :
    ∃ info, (load filenameMax fs line old filename song = .ok (true, info) ∧ ∃ before slash rest name contents, Nearest fs filename before slash rest name ∧ fs name = some contents ∧
        info.stilFilename = name ∧ info.isUtf8 = (unmarked contents).2 ∧ Contents (slash :: rest) (directory (slash :: rest)) song (lines (unmarked contents).1) [] info) ∨
      (load filenameMax fs line old filename song = .ok (false, info) ∧ Unloaded info ∧
        ((directory filename).length + 13 ≥ filenameMax ∨ ∀ before slash rest, filename = before ++ slash :: rest → IsSlash slash → ∀ p ∈ places before slash, fs p = none)) := by
  have hblank : Unloaded (blank old) := ⟨rfl, rfl, rfl, rfl, rfl, rfl, rfl⟩
  unfold load
  rcases previousSlash_eq filename filename.length (Nat.le_refl _) with ⟨h1, h2⟩ | ⟨last, hlast, h1, h2, h3, h4⟩
  · rw [h1]
    refine ⟨blank old, Or.inr ⟨rfl, hblank, Or.inr fun before slash rest e hs => ?_⟩⟩
    obtain ⟨h, e'⟩ := slash_get e
    exact absurd (e' ▸ hs) (h2 _ h h)
  · rw [h1]
    simp only [bind, Except.bind]
    by_cases hmax : last + 14 ≥ filenameMax
    · rw [if_pos hmax]
      refine ⟨blank old, Or.inr ⟨rfl, hblank, Or.inl ?_⟩⟩
      rw [directory_eq hlast h3 fun i hi hlt => h4 i hi hlt hi, List.length_take]
      omega
    · rw [if_neg hmax]
      rcases findStil_eq filenameMax fs filename (filename.length + 1) filename.length (some last) ⟨hlast, h2, h3, h4⟩ (fun p hp => by simp at hp; omega) (by omega)
        (fun before slash rest e _ hb => by obtain ⟨h, _⟩ := slash_get e; omega) with ⟨k1, k2⟩ | ⟨p, hp, name, contents, k1, k2, k3, k4⟩
      · rw [k1]
        exact ⟨blank old, Or.inr ⟨rfl, hblank, Or.inr k2⟩⟩
      · rw [k1]
        simp only
        have hple : p ≤ last := k3 last rfl
        unfold loadFrom
        rw [readBom_eq]
        simp only
        have hz : 0 ∉ filename.drop p := fun h => hname (List.mem_of_mem_drop h)
        obtain ⟨info, g1, g2, g3, g4⟩ := searchLoop_eq hn (filename.drop p) (last - p + 1) song hz (by rw [List.length_drop]; omega) ((unmarked contents).1.length + 1) ⟨(unmarked contents).1, line⟩
          _ { blank old with stilFilename := name, isUtf8 := (unmarked contents).2 } hline rfl (hroom name contents k2) ⟨rfl, rfl, rfl⟩ rfl rfl (by simp)
        have hdir : directory (filename[p] :: filename.drop (p + 1)) = (filename.drop p).take (last - p + 1) := by
          rw [← List.drop_eq_getElem_cons hp]
          have hl : last - p < (filename.drop p).length := by rw [List.length_drop]; omega
          have hget : ∀ i (h : i < (filename.drop p).length), (filename.drop p)[i] = filename[p + i]'(by rw [List.length_drop] at h; omega) := fun i h => List.getElem_drop ..
          refine directory_eq hl ?_ fun i hi hlt => ?_
          · rw [hget]
            have : p + (last - p) = last := by omega
            simp only [this]
            exact h3
          · rw [hget]
            rw [List.length_drop] at hi
            exact h4 (p + i) (by omega) (by omega) (by omega)
        refine ⟨info, Or.inl ⟨?_, _, _, _, name, contents, k4, k2, g4, g3, ?_⟩⟩
        · rw [g1]
        · rw [hdir, ← List.drop_eq_getElem_cons hp]
          exact g2

/-! ## Lengths -/

theorem clean_length (l : List Nat) : (clean l).length ≤ 100 := by
  unfold clean
  rw [List.length_reverse]
  refine Nat.le_trans (List.dropWhile_sublist _).length_le ?_
  rw [List.length_reverse, List.length_take]
  omega

theorem linesFrom_length (file : List Nat) : ∀ acc, ∀ l ∈ linesFrom acc file, l.length ≤ 100 := by
  induction file with
  | nil => intro acc l hl; simp [linesFrom] at hl
  | cons c file ih =>
    intro acc l hl
    unfold linesFrom at hl
    split at hl
    · rcases List.mem_cons.mp hl with rfl | hl
      · exact clean_length _
      · exact ih _ _ hl
    · exact ih _ _ hl

theorem value_length {l : List Nat} (h : l.length ≤ 100) : (value l).length ≤ 91 := by
  unfold value
  have := text_length (l.drop 9)
  rw [List.length_drop] at this
  omega

theorem join_length {ls : List (List Nat)} : ∀ {first : List Nat}, first.length ≤ 1000 → (∀ l ∈ ls, l.length ≤ 100) → (join first ls).length ≤ 1000 := by
  induction ls with
  | nil => intro first h _; exact h
  | cons l ls ih =>
    intro first h hl
    unfold join
    split
    · refine ih ?_ fun l' hl' => hl l' (List.mem_cons_of_mem _ hl')
      have := hl l List.mem_cons_self
      rw [List.length_append, List.length_cons, List.length_drop]
      omega
    · exact h

theorem comment_length {ls : List (List Nat)} {old : List Nat} (hold : old.length ≤ 1000) (hl : ∀ l ∈ ls, l.length ≤ 100) : (comment old ls).1.length ≤ 1000 := by
  cases ls with
  | nil => exact hold
  | cons l ls =>
    rcases Bool.eq_false_or_eq_true (starts "COMMENT: " l) with hs | hs
    · rw [comment_some hs]
      refine Nat.le_trans (text_length _) (join_length ?_ fun l' hl' => hl l' (List.mem_cons_of_mem _ ((List.takeWhile_sublist _).subset hl')))
      have := hl l List.mem_cons_self
      rw [List.length_drop]
      omega
    · rw [comment_none hs]
      exact hold

/-- The texts that were loaded are short. -/
structure Short (info : Stil.Info) : Prop where
  title : info.title.length ≤ 91
  author : info.author.length ≤ 91
  directory : info.directoryComment.length ≤ 1000
  file : info.fileComment.length ≤ 1000
  song : info.songComment.length ≤ 1000
  covers : info.covers.length ≤ 10
  cover : ∀ c ∈ info.covers, c.artist.length ≤ 91 ∧ c.comment.length ≤ 1000

theorem lastOf_length {label : String} {ls : List (List Nat)} (hl : ∀ l ∈ ls, l.length ≤ 100) : (lastOf label ls).length ≤ 91 := by
  unfold lastOf
  cases h : (ls.filter (starts label)).getLast? with
  | none => simp
  | some l => exact value_length (hl l (List.mem_filter.mp (List.mem_of_getLast? h)).1)

theorem known_length (s : List Nat) : (known s).length ≤ s.length := by
  unfold known
  split
  · simp
  · exact Nat.le_refl _

theorem oneCover_bounded {ls rest : List (List Nat)} {c : Stil.Cover} (h : OneCover ls c rest) (hl : ∀ l ∈ ls, l.length ≤ 100) :
    (c.artist.length ≤ 91 ∧ c.comment.length ≤ 1000) ∧ rest <:+ ls := by
  cases h with
  | unknown _ _ _ ha hc => exact ⟨⟨by rw [ha]; simp, by rw [hc]; simp⟩, List.suffix_cons _ _⟩
  | @artist l a rest _ _ _ _ ha hc =>
    refine ⟨⟨?_, ?_⟩, ((comment_suffix _ _).trans (List.suffix_cons _ _)).trans (List.suffix_cons _ _)⟩
    · rw [ha]; exact Nat.le_trans (known_length _) (value_length (hl a (by simp)))
    · rw [hc]; exact comment_length (by simp) fun l' hl' => hl l' (by simp [hl'])

theorem covers_bounded {n : Nat} {ls : List (List Nat)} {cs : List Stil.Cover} (h : Covers n ls cs) : (∀ l ∈ ls, l.length ≤ 100) →
    cs.length ≤ n ∧ ∀ c ∈ cs, c.artist.length ≤ 91 ∧ c.comment.length ≤ 1000 := by
  induction h with
  | full => intro _; exact ⟨by simp, by simp⟩
  | stop _ => intro _; exact ⟨by simp, by simp⟩
  | more h1 _ ih =>
    intro hl
    obtain ⟨h2, h3⟩ := oneCover_bounded h1 hl
    obtain ⟨h4, h5⟩ := ih fun l hl' => hl l (h3.subset hl')
    refine ⟨by rw [List.length_cons]; omega, fun c hc => ?_⟩
    rcases List.mem_cons.mp hc with rfl | hc
    · exact h2
    · exact h5 c hc

theorem block_bounded {ls : List (List Nat)} {info : Stil.Info} (h : Block ls info) (hl : ∀ l ∈ ls, l.length ≤ 100) (hd : info.directoryComment.length ≤ 1000) (hf : info.fileComment.length ≤ 1000)
    (hs : info.songComment.length ≤ 1000) : Short info := by
  obtain ⟨h1, h2, h3⟩ := h
  obtain ⟨h4, h5⟩ := covers_bounded h3 fun l hl' => hl l ((List.dropWhile_sublist _).subset hl')
  have key : ∀ l ∈ ls.takeWhile isName, l.length ≤ 100 := fun l hl' => hl l ((List.takeWhile_sublist _).subset hl')
  exact ⟨by rw [h1]; exact lastOf_length key, by rw [h2]; exact lastOf_length key, hd, hf, hs, h4, h5⟩

theorem none_bounded {info : Stil.Info} (h : NoBlock info) (hd : info.directoryComment.length ≤ 1000) (hf : info.fileComment.length ≤ 1000) (hs : info.songComment.length ≤ 1000) : Short info := by
  obtain ⟨h1, h2, h3⟩ := h
  exact ⟨by rw [h1]; simp, by rw [h2]; simp, hd, hf, hs, by rw [h3]; simp, by rw [h3]; simp⟩

theorem song_bounded {song : Nat} {ls : List (List Nat)} {info : Stil.Info} (h : Song song ls info) : (∀ l ∈ ls, l.length ≤ 100) → info.directoryComment.length ≤ 1000 → info.fileComment.length ≤ 1000 → Short info := by
  induction h with
  | this _ hc hb =>
    intro hl hd hf
    refine block_bounded hb (fun l hl' => hl l (List.mem_cons_of_mem _ ((comment_suffix _ _).subset hl'))) hd hf ?_
    rw [hc]
    exact comment_length (by simp) fun l hl' => hl l (List.mem_cons_of_mem _ hl')
  | later _ _ _ _ ih =>
    intro hl
    exact ih fun l hl' => hl l (List.mem_cons_of_mem _ ((List.dropWhile_sublist _).subset hl'))
  | absent _ _ hc hn =>
    intro _ hd hf
    exact none_bounded hn hd hf (by rw [hc]; simp)

theorem entry_bounded {song : Nat} {ls : List (List Nat)} {info : Stil.Info} (h : Entry song ls info) (hl : ∀ l ∈ ls, l.length ≤ 100) (hd : info.directoryComment.length ≤ 1000) : Short info := by
  obtain ⟨h1, h2⟩ := h
  have hf : info.fileComment.length ≤ 1000 := by rw [h1]; exact comment_length (by simp) hl
  have hl' : ∀ l ∈ (comment [] ls).2, l.length ≤ 100 := fun l h => hl l ((comment_suffix _ _).subset h)
  split at h2
  · exact song_bounded h2 hl' hd hf
  · exact block_bounded h2.2 hl' hd hf (by rw [h2.1]; simp)

theorem contents_bounded {path dir : List Nat} {song : Nat} {ls : List (List Nat)} {d : List Nat} {info : Stil.Info} (h : Contents path dir song ls d info) :
    (∀ l ∈ ls, l.length ≤ 100) → d.length ≤ 1000 → Short info := by
  induction h with
  | absent h1 h2 h3 h4 => intro _ hd; exact none_bounded h4 (by rw [h1]; exact hd) (by rw [h2]; simp) (by rw [h3]; simp)
  | here _ h1 h2 => intro hl hd; exact entry_bounded h2 (fun l h => hl l (List.mem_cons_of_mem _ h)) (by rw [h1]; exact hd)
  | @directory _ _ rest _ _ _ _ ih =>
    intro hl hd
    have hl' : ∀ l ∈ rest, l.length ≤ 100 := fun l h => hl l (List.mem_cons_of_mem _ h)
    exact ih (fun l h => hl' l ((comment_suffix _ _).subset ((List.tail_suffix _).subset h))) (comment_length hd hl')
  | other _ _ _ ih => intro hl hd; exact ih (fun l h => hl l (List.mem_cons_of_mem _ h)) hd

/-- Whatever the file is, up to 10 covers are loaded, comments have up to 1000 characters, and other texts up to 91. -/
theorem C38_bounds_partial (filenameMax n : Nat) (hn : 101 ≤ n) (fs : List Nat → Option (List Nat)) (line : List Nat) (hline : line.length = n) (old : Bool) (filename : List Nat) (hname : 0 ∉ filename) (song : Nat)
    (hroom : ∀ name contents, fs name = some contents → ∀ l ∈ lines (unmarked contents).1, starts "  TITLE: " l = true → l.length + 3 ≤ n) :
    ∃ b info, load filenameMax fs line old filename song = .ok (b, info) ∧ Short info := by
  obtain ⟨info, ⟨h1, _, _, _, _, contents, _, _, _, _, h2⟩ | ⟨h1, h2, _⟩⟩ := C38_load_partial filenameMax n hn fs line hline old filename hname song hroom
  · exact ⟨true, info, h1, contents_bounded h2 (linesFrom_length _ _) (by simp)⟩
  · obtain ⟨_, h3, h4, h5, h6⟩ := h2
    exact ⟨false, info, h1, none_bounded h6 (by rw [h3]; simp) (by rw [h4]; simp) (by rw [h5]; simp)⟩

/-- With a larger array, there is nothing to assume about the files. -/
theorem C38_room (n : Nat) (hn : 103 ≤ n) (file : List Nat) : ∀ l ∈ lines file, starts "  TITLE: " l = true → l.length + 3 ≤ n := by
  intro l hl _
  have := linesFrom_length file [] l hl
  omega

/-! ## Examples -/

/-- A file with these lines. -/
def textFile (ls : List String) : List Nat := ls.flatMap fun s => ascii s ++ [10]

/-- A STIL.txt. -/
def sampleStil : List Nat := [0xef, 0xbb, 0xbf] ++ textFile
  ["/Games/", "COMMENT: About games.", "", "/Games/A.sap", "COMMENT: One", "         two", "(#1)", "   NAME: First", "(#2)", "COMMENT: Three", "   NAME: Second", " AUTHOR: X Y",
    "  TITLE: Song (1:02-1:30)", " ARTIST: Z", "COMMENT: Four", "  TITLE: Tune (0:05)", "  TITLE: <?>"]

/-- A file system with STIL.txt. -/
def sampleFiles (name : List Nat) : Option (List Nat) := if name = ascii "/music/Docs/STIL.txt" then some sampleStil else none

/-- The hypotheses of `C38_load_partial` are met by a file system with a STIL.txt, and everything is loaded from it. -/
theorem C38_sample : 0 ∉ ascii "/music/Games/A.sap" ∧
    (∀ name contents, sampleFiles name = some contents → ∀ l ∈ lines (unmarked contents).1, starts "  TITLE: " l = true → l.length + 3 ≤ 101) ∧
    load 4096 sampleFiles (List.replicate 101 0) false (ascii "/music/Games/A.sap") 1 = .ok (true,
      { isUtf8 := true, stilFilename := ascii "/music/Docs/STIL.txt", title := ascii "Second", author := ascii "X Y", directoryComment := ascii "About games.",
        fileComment := ascii "One\ntwo", songComment := ascii "Three",
        covers := [⟨62, 90, ascii "Song", ascii "Z", ascii "Four"⟩, ⟨5, -1, ascii "Tune", [], []⟩, ⟨-1, -1, [], [], []⟩] }) := by
  refine ⟨by decide, ?_, by decide +kernel⟩
  intro name contents h
  unfold sampleFiles at h
  split at h
  · simp only [Option.some.injEq] at h
    subst h
    decide +kernel
  · simp at h

/-- The title of a cover that fills the line. -/
def longTitle : List Nat := textFile ["/A.sap"] ++ ascii "  TITLE: " ++ List.replicate 88 120 ++ ascii "(12\n"

/-- The hypothesis about titles is needed: with a title that fills the line and has an unclosed parenthesis followed with a digit, the code reads past the end of its array. -/
theorem C38_overrun : load 4096 (fun name => if name = ascii "/STIL.txt" then some longTitle else none) (List.replicate 101 0) false (ascii "/A.sap") 0 = .error .ub := by
  decide +kernel

/-- What is left of a previous line matters: the title is cut when a longer line happened to have a parenthesis there. -/
theorem C38_leftover :
    let file (previous : String) := fun name => if name = ascii "/STIL.txt" then some (textFile [previous, "/A.sap", "  TITLE: Song (12"]) else none
    load 4096 (file "012345678901234567)") (List.replicate 101 0) false (ascii "/A.sap") 0 = .ok (true, { blank false with stilFilename := ascii "/STIL.txt", covers := [⟨-1, -1, ascii "Song", [], []⟩] }) ∧
    load 4096 (file "") (List.replicate 101 0) false (ascii "/A.sap") 0 = .ok (true, { blank false with stilFilename := ascii "/STIL.txt", covers := [⟨-1, -1, ascii "Song (12", [], []⟩] }) := by
  decide +kernel

/-- A text in parentheses that begins with a number is not reported when it is one character longer than the number. -/
theorem C38_lost :
    load 4096 (fun name => if name = ascii "/STIL.txt" then some (textFile ["/A.sap", "  TITLE: Song (80s)"]) else none) (List.replicate 101 0) false (ascii "/A.sap") 0 =
      .ok (true, { blank false with stilFilename := ascii "/STIL.txt", covers := [⟨-1, -1, ascii "Song", [], []⟩] }) := by
  decide +kernel

end Asap.Props
