import Verif.Lemmas.Stil

/-! The reader of STIL.txt finds what its lines say. -/

namespace Asap.Stil
open Asap Asap.Spec.Stil

/-- The array has room after the titles of covers. -/
def Room (n : Nat) (ls : List (List Nat)) : Prop := ∀ l ∈ ls, starts "  TITLE: " l = true → l.length + 3 ≤ n

theorem Room.suffix {n : Nat} {ls ls' : List (List Nat)} (h : Room n ls) (hs : ls' <:+ ls) : Room n ls' := fun l hl => h l (hs.subset hl)

theorem comment_suffix (old : List Nat) (ls : List (List Nat)) : (comment old ls).2 <:+ ls := by
  cases ls with
  | nil => exact List.suffix_rfl
  | cons l rest =>
    rcases Bool.eq_false_or_eq_true (starts "COMMENT: " l) with hs | hs
    · rw [comment_some hs]; exact (List.dropWhile_suffix _).trans (List.suffix_cons _ _)
    · rw [comment_none hs]; exact List.suffix_rfl

theorem starts_nil {label : String} (hlabel : (ascii label).length = 9 ∧ 0 ∉ ascii label) : starts label [] = false := by
  cases h : starts label [] with
  | false => rfl
  | true => have := starts_length hlabel h; simp at this

theorem Cur.prefix {n : Nat} (hn : 101 ≤ n) {st : St} {ls : List (List Nat)} (h : Cur n st ls) {label : String} (hlabel : (ascii label).length = 9 ∧ 0 ∉ ascii label) :
    hasPrefix st.line (ascii label) = .ok (starts label (ls.head?.getD [])) := h.holds.hasPrefix hn hlabel

theorem coverLoad_eq {n : Nat} (hn : 101 ≤ n) {st : St} {l : List Nat} {ls : List (List Nat)} (h : Cur n st (l :: ls)) (hs : starts "  TITLE: " l = true) (hroom : Room n (l :: ls)) :
    ∃ c rest st', coverLoad st = .ok (c, st') ∧ OneCover (l :: ls) c rest ∧ Cur n st' rest ∧ rest <:+ ls := by
  have hh : Holds n st.line l := h.holds
  obtain ⟨line', s, e, h1, h2⟩ := hh.times hs (hroom l List.mem_cons_self hs)
  obtain ⟨t, h3, h4⟩ := h2.setText
  have htitle : ∀ artist comment, TitleOf (value l) ⟨s, e, known t, artist, comment⟩ := by
    intro artist comment title start stop ht
    obtain ⟨line'', t', g1, g2, g3⟩ := hh.titled hs ht
    rw [h1] at g1
    simp only [Except.ok.injEq, Prod.mk.injEq] at g1
    obtain ⟨rfl, rfl, rfl⟩ := g1
    rw [h3] at g2
    simp only [Except.ok.injEq] at g2
    subst g2
    exact ⟨g3.symm, rfl, rfl⟩
  have hart := label_facts (label := " ARTIST: ") (by simp)
  obtain ⟨st', g1, g2, g3, g4⟩ := readLine_eq hn (st := ⟨st.file, line'⟩) (ls := ls) h2.length h.rest
  unfold coverLoad
  rw [h1]
  simp only [bind, Except.bind]
  rw [h4]
  simp only
  rw [g1]
  simp only
  cases ls with
  | nil =>
    rw [g2.beginsNot hn hart (by simp)]
    exact ⟨_, [], st', rfl, .unknown hs (htitle _ _) (by simp) rfl rfl, g2, List.suffix_rfl⟩
  | cons a rest =>
    rcases Bool.eq_false_or_eq_true (starts " ARTIST: " a) with ha | ha
    rotate_left
    · rw [g2.beginsNot hn hart (by simpa using ha)]
      exact ⟨_, a :: rest, st', rfl, .unknown hs (htitle _ _) (by simpa using ha) rfl rfl, g2, List.suffix_rfl⟩
    · rw [g2.begins hn hart ha]
      simp only [if_true]
      have h9 := starts_length hart ha
      have ha' : Holds n st'.line a := g2.holds
      obtain ⟨t', k1, k2⟩ := Ended.setText (n := n) (line := st'.line) ⟨ha'.length, a.length, h9, ha'.short, ha'.zero⟩
      rw [ha'.cstr h9] at k1
      simp only [Except.ok.injEq] at k1
      rw [k2]
      simp only
      obtain ⟨st'', m1, m2, m3⟩ := readComment_eq hn (st := st') (ls := rest) [] ha'.length g2.rest
      rw [m1]
      exact ⟨_, _, st'', rfl, .artist hs (htitle _ _) ha (by show known t' = _; rw [← k1]; rfl) rfl, m2, (comment_suffix _ _).trans (List.suffix_cons _ _)⟩

theorem coversLoop_eq {n : Nat} (hn : 101 ≤ n) (k : Nat) : ∀ (st : St) (ls : List (List Nat)) (covers : List Stil.Cover), Cur n st ls → Room n ls →
    ∃ cs st', coversLoop k st covers = .ok (covers ++ cs, st') ∧ Covers k ls cs := by
  have htit := label_facts (label := "  TITLE: ") (by simp)
  induction k with
  | zero => intro st ls covers _ _; exact ⟨[], st, by rw [List.append_nil]; rfl, .full⟩
  | succ k ih =>
    intro st ls covers h hroom
    unfold coversLoop
    have hp := h.prefix hn htit
    cases ls with
    | nil =>
      have e : starts "  TITLE: " (([] : List (List Nat)).head?.getD []) = false := starts_nil htit
      rw [e] at hp
      rw [hp]
      exact ⟨[], st, by rw [List.append_nil]; rfl, .stop (by simp)⟩
    | cons l ls =>
      rcases Bool.eq_false_or_eq_true (starts "  TITLE: " l) with hs | hs
      rotate_left
      · rw [show starts "  TITLE: " ((l :: ls).head?.getD []) = false from hs] at hp
        rw [hp]
        exact ⟨[], st, by rw [List.append_nil]; rfl, .stop (by simpa using hs)⟩
      · rw [show starts "  TITLE: " ((l :: ls).head?.getD []) = true from hs] at hp
        rw [hp]
        simp only [bind, Except.bind, if_true]
        obtain ⟨c, rest, st', g1, g2, g3, g4⟩ := coverLoad_eq hn h hs hroom
        rw [g1]
        simp only
        obtain ⟨cs, st'', k1, k2⟩ := ih st' rest (covers ++ [c]) g3 (hroom.suffix (g4.trans (List.suffix_cons _ _)))
        exact ⟨c :: cs, st'', by rw [k1]; simp, .more g2 k2⟩

/-- The value of the last line with the label, or the old one. -/
def lastOr (label : String) (old : List Nat) (ls : List (List Nat)) : List Nat := ((ls.filter (starts label)).getLast?.map value).getD old

theorem lastOr_cons {label : String} {old l : List Nat} {ls : List (List Nat)} (h : starts label l = true) : lastOr label old (l :: ls) = lastOr label (value l) ls := by
  unfold lastOr
  rw [List.filter_cons_of_pos h, List.getLast?_cons]
  cases (List.filter (starts label) ls).getLast? with
  | none => rfl
  | some x => rfl

theorem lastOr_skip {label : String} {old l : List Nat} {ls : List (List Nat)} (h : starts label l = false) : lastOr label old (l :: ls) = lastOr label old ls := by
  unfold lastOr
  rw [List.filter_cons_of_neg (by rw [h]; simp)]

theorem name_not_author {l : List Nat} (h : starts "   NAME: " l = true) : starts " AUTHOR: " l = false := by
  unfold starts at *
  rw [of_decide_eq_true h]
  decide

theorem short_not_title {l : List Nat} (h : l.length < 9) : starts "  TITLE: " l = false := by
  cases hs : starts "  TITLE: " l with
  | false => rfl
  | true => have := starts_length (label_facts (by simp)) hs; omega

theorem short_not_name {l : List Nat} (h : l.length < 9) : isName l = false := by
  unfold isName
  rw [Bool.or_eq_false_iff]
  constructor
  · cases hs : starts "   NAME: " l with
    | false => rfl
    | true => have := starts_length (label_facts (by simp)) hs; omega
  · cases hs : starts " AUTHOR: " l with
    | false => rfl
    | true => have := starts_length (label_facts (by simp)) hs; omega

/-- After a short line, no covers follow. -/
theorem short_stop {ls : List (List Nat)} (h : lineLength ls < 9) : ls.takeWhile isName = [] ∧ ∀ l ∈ (ls.dropWhile isName).head?, starts "  TITLE: " l = false := by
  cases ls with
  | nil => exact ⟨rfl, by simp⟩
  | cons l ls =>
    have hl : l.length < 9 := by
      have h' : (l.length : Int) < 9 := h
      omega
    have := short_not_name hl
    rw [List.takeWhile_cons_of_neg (by rw [this]; simp), List.dropWhile_cons_of_neg (by rw [this]; simp)]
    exact ⟨rfl, by simpa using short_not_title hl⟩

theorem namesLoop_eq {n : Nat} (hn : 101 ≤ n) (fuel : Nat) : ∀ (st : St) (ls : List (List Nat)) (info : Stil.Info), Cur n st ls → st.file.length < fuel →
    ∃ b st', namesLoop fuel st info = .ok (b, st', { info with title := lastOr "   NAME: " info.title (ls.takeWhile isName), author := lastOr " AUTHOR: " info.author (ls.takeWhile isName) }) ∧
      (b = true → Cur n st' (ls.dropWhile isName)) ∧ (b = false → ∀ l ∈ (ls.dropWhile isName).head?, starts "  TITLE: " l = false) := by
  have hname := label_facts (label := "   NAME: ") (by simp)
  have hauth := label_facts (label := " AUTHOR: ") (by simp)
  induction fuel with
  | zero => intro st ls info _ h; omega
  | succ fuel ih =>
    intro st ls info h hf
    unfold namesLoop
    have hp1 := h.prefix hn hname
    have hp2 := h.prefix hn hauth
    rw [hp1]
    simp only [bind, Except.bind]
    rw [hp2]
    simp only
    cases ls with
    | nil =>
      have e1 : starts "   NAME: " (([] : List (List Nat)).head?.getD []) = false := starts_nil hname
      have e2 : starts " AUTHOR: " (([] : List (List Nat)).head?.getD []) = false := starts_nil hauth
      simp only [e1, e2]
      exact ⟨true, st, rfl, fun _ => h, by simp⟩
    | cons l ls =>
      have hh : Holds n st.line l := h.holds
      have ex : (l :: ls).head?.getD [] = l := rfl
      rw [ex]
      obtain ⟨st', h1, h2, h3, h4⟩ := readLine_eq hn hh.length h.rest
      have hls : lineLength ls < 9 ∨ ¬ lineLength ls < 9 := by omega
      have hne : ¬ lineLength ls < 9 → (l :: ls).tail ≠ [] := by
        intro hx e
        have e' : ls = [] := e
        rw [e'] at hx
        exact hx (by decide)
      rcases Bool.eq_false_or_eq_true (starts "   NAME: " l) with hs | hs
      · have hs' := name_not_author hs
        have hn' : isName l = true := by unfold isName; rw [hs]; rfl
        have h9 := starts_length hname hs
        simp only [hs, if_true]
        rw [hh.strcpy h9]
        simp only
        rw [h1]
        simp only
        rw [List.takeWhile_cons_of_pos hn', List.dropWhile_cons_of_pos hn', lastOr_cons hs, lastOr_skip hs']
        rcases hls with hlt | hge
        · obtain ⟨s1, s2⟩ := short_stop hlt
          rw [s1]
          exact ⟨false, st', if_pos hlt, by simp, fun _ => s2⟩
        · obtain ⟨b, st'', g1, g2, g3⟩ := ih st' ls { info with title := value l } h2 (by have := h4 (hne hge); omega)
          exact ⟨b, st'', (if_neg hge).trans g1, g2, g3⟩
      · simp only [hs, Bool.false_eq_true, if_false]
        rcases Bool.eq_false_or_eq_true (starts " AUTHOR: " l) with ha | ha
        · have hn' : isName l = true := by unfold isName; rw [ha]; simp
          have h9 := starts_length hauth ha
          simp only [ha, if_true]
          rw [hh.strcpy h9]
          simp only
          rw [h1]
          simp only
          rw [List.takeWhile_cons_of_pos hn', List.dropWhile_cons_of_pos hn', lastOr_cons ha, lastOr_skip hs]
          rcases hls with hlt | hge
          · obtain ⟨s1, s2⟩ := short_stop hlt
            rw [s1]
            exact ⟨false, st', if_pos hlt, by simp, fun _ => s2⟩
          · obtain ⟨b, st'', g1, g2, g3⟩ := ih st' ls { info with author := value l } h2 (by have := h4 (hne hge); omega)
            exact ⟨b, st'', (if_neg hge).trans g1, g2, g3⟩
        · have hn' : isName l = false := by unfold isName; rw [hs, ha]; rfl
          simp only [ha]
          rw [List.takeWhile_cons_of_neg (by rw [hn']; simp), List.dropWhile_cons_of_neg (by rw [hn']; simp)]
          exact ⟨true, st, rfl, fun _ => h, by simp⟩

theorem lastOr_nil (label : String) (ls : List (List Nat)) : lastOr label [] ls = lastOf label ls := rfl

/-- Everything but the block is unchanged. -/
def SameButBlock (info info' : Stil.Info) : Prop :=
  info'.isUtf8 = info.isUtf8 ∧ info'.stilFilename = info.stilFilename ∧ info'.directoryComment = info.directoryComment ∧ info'.fileComment = info.fileComment ∧
    info'.songComment = info.songComment

theorem readBlock_eq {n : Nat} (hn : 101 ≤ n) {st : St} {ls : List (List Nat)} {info : Stil.Info} (h : Cur n st ls) (hroom : Room n ls) (hno : NoBlock info) :
    ∃ info', readBlock st info = .ok info' ∧ Block ls info' ∧ SameButBlock info info' := by
  obtain ⟨b, st', h1, h2, h3⟩ := namesLoop_eq hn (st.file.length + 2) st ls info h (by omega)
  obtain ⟨n1, n2, n3⟩ := hno
  unfold readBlock
  rw [h1, n1, n2]
  simp only [bind, Except.bind]
  cases b with
  | false =>
    refine ⟨_, rfl, ⟨rfl, rfl, ?_⟩, rfl, rfl, rfl, rfl, rfl⟩
    show Covers 10 _ info.covers
    rw [n3]
    exact .stop (h3 rfl)
  | true =>
    simp only [if_true]
    obtain ⟨cs, st'', g1, g2⟩ := coversLoop_eq hn (10 - info.covers.length) st' _ info.covers (h2 rfl) (hroom.suffix (List.dropWhile_suffix _))
    rw [g1]
    rw [n3] at g2 ⊢
    exact ⟨_, rfl, ⟨rfl, rfl, g2⟩, rfl, rfl, rfl, rfl, rfl⟩

/-! ## Songs -/

theorem Holds.beginsSong {n : Nat} (hn : 101 ≤ n) {line l : List Nat} (h : Holds n line l) : beginsSong line = .ok (songLine l) := by
  unfold Stil.beginsSong songLine
  obtain ⟨stale, e⟩ := h.parts
  have hl := h.length
  match l, e with
  | [], e => subst e; rfl
  | [x], e =>
    subst e
    by_cases hx : x = 40
    · subst hx; rfl
    · show (if x = 40 then _ else _) = _
      simp [hx]
  | x :: y :: t, e =>
    subst e
    show (if x = 40 then Except.ok (y == 35) else _) = _
    split_ifs with hx
    · refine congrArg Except.ok ?_
      rw [Bool.eq_iff_iff]
      simp [hx]
    · simp [hx]

theorem Holds.closes {n : Nat} {line l0 : List Nat} (h : Holds n line l0) (hz : 0 ∉ l0) {i : Nat} (hi : i ≤ l0.length) : ∃ b, Stil.closes line i = .ok b ∧ (b = true ↔ l0.drop i = [41]) := by
  obtain ⟨stale, e⟩ := h.drop hi
  unfold Stil.closes
  cases hd : l0.drop i with
  | nil =>
    rw [hd] at e
    rw [rd_drop e]
    exact ⟨false, rfl, by simp⟩
  | cons c t =>
    rw [hd] at e
    rw [rd_drop (b := c) (t := t ++ 0 :: stale) e]
    simp only [bind, Except.bind]
    by_cases hc : c = 41
    · rw [if_pos hc]
      cases t with
      | nil =>
        rw [rd_drop (b := 0) (t := stale) (by rw [← List.drop_drop, e]; rfl)]
        exact ⟨true, rfl, by simp [hc]⟩
      | cons z t =>
        rw [rd_drop (b := z) (t := t ++ 0 :: stale) (by rw [← List.drop_drop, e]; rfl)]
        have hz' : z ≠ 0 := by
          intro e
          apply hz
          apply List.mem_of_mem_drop (i := i)
          rw [hd, e]
          simp
        exact ⟨z == 0, rfl, by simp [hz']⟩
    · rw [if_neg hc]
      exact ⟨false, rfl, by simp [hc]⟩

theorem songLine_text {l : List Nat} (h : songLine l = true) : ∃ r, Spec.Stil.text l = 40 :: 35 :: r := by
  have e := of_decide_eq_true h
  refine ⟨Spec.Stil.text (l.drop 2), ?_⟩
  conv_lhs => rw [← List.take_append_drop 2 l, e]
  rw [text_append (by decide)]
  rfl

theorem Holds.isSong {n : Nat} {line l : List Nat} (h : Holds n line l) (hs : songLine l = true) (song : Nat) : ∃ b, Stil.isSong line song = .ok b ∧ (b = true ↔ IsSong song l) := by
  obtain ⟨r, hr⟩ := songLine_text hs
  have ht := h.text
  have hz := text_no_zero l
  unfold IsSong
  rw [hr] at ht hz ⊢
  obtain ⟨v, p, h1, h2, h3, h4⟩ := ht.parseInt (pos := 2) (by simp)
  have hback : ∀ k, 40 :: 35 :: r = 40 :: 35 :: (k ++ [41]) → IsNumber k → v = some (val k) ∧ (40 :: 35 :: r).drop p = [41] := by
    intro k e hk
    obtain ⟨stale, e'⟩ := ht.drop (i := 2) (by simp)
    have er : r = k ++ [41] := by simpa using e
    have e'' : line.drop 2 = k ++ 41 :: 0 :: stale := by rw [e', er]; simp
    rw [parseInt_number e'' hk (by omega)] at h1
    simp only [Except.ok.injEq, Prod.mk.injEq] at h1
    obtain ⟨rfl, rfl⟩ := h1
    refine ⟨rfl, ?_⟩
    rw [er, ← List.drop_drop]
    simp
  unfold Stil.isSong
  rw [h1]
  simp only [bind, Except.bind]
  by_cases hv : v = some (song + 1)
  · rw [if_pos hv]
    obtain ⟨b, g1, g2⟩ := ht.closes hz h3
    refine ⟨b, g1, g2.trans ?_⟩
    obtain ⟨n1, n2⟩ := h4 _ hv
    constructor
    · intro hd
      refine ⟨_, ?_, n1, n2.symm⟩
      have e : r = r.take (p - 2) ++ r.drop (p - 2) := (List.take_append_drop _ _).symm
      have e2 : (40 :: 35 :: r).drop p = r.drop (p - 2) := by
        obtain ⟨q, rfl⟩ : ∃ q, p = q + 2 := ⟨p - 2, by omega⟩
        rfl
      rw [e2] at hd
      rw [hd] at e
      have e3 : (40 :: 35 :: r).drop 2 = r := rfl
      rw [e3, ← e]
    · rintro ⟨k, e, hk, _⟩
      exact (hback k e hk).2
  · rw [if_neg hv]
    refine ⟨false, rfl, by simp, ?_⟩
    rintro ⟨k, e, hk, hval⟩
    exact absurd (by rw [(hback k e hk).1, hval]) hv

theorem nextSong_cons_stop {l : List Nat} {ls : List (List Nat)} (h : l = [] ∨ songLine l = true) : nextSong (l :: ls) = l :: ls := by
  unfold nextSong
  rw [List.dropWhile_cons_of_neg]
  rcases h with h | h <;> simp [h]

theorem nextSong_cons_skip {l : List Nat} {ls : List (List Nat)} (h : l ≠ []) (h' : songLine l = false) : nextSong (l :: ls) = nextSong ls := by
  unfold nextSong
  rw [List.dropWhile_cons_of_pos]
  simp [h, h']

theorem untilSongNo_eq {n : Nat} (hn : 101 ≤ n) (fuel : Nat) : ∀ (st : St) (ls : List (List Nat)), st.line.length = n → lines st.file = ls → st.file.length < fuel →
    ∃ b st', untilSongNo fuel st = .ok (b, st') ∧ Cur n st' (nextSong ls) ∧ st'.file.length ≤ st.file.length ∧ (ls ≠ [] → st'.file.length < st.file.length) ∧
      (b = true → ∃ l rest, nextSong ls = l :: rest ∧ songLine l = true) ∧ (b = false → nextSong ls = [] ∨ (nextSong ls).head? = some []) := by
  induction fuel with
  | zero => intro st ls _ _ h; omega
  | succ fuel ih =>
    intro st ls hl hls hf
    obtain ⟨st', h1, h2, h3, h4⟩ := readLine_eq hn hl hls
    unfold untilSongNo
    rw [h1]
    simp only [bind, Except.bind]
    cases ls with
    | nil =>
      rw [if_neg (by decide)]
      exact ⟨false, st', rfl, h2, h3, fun h => absurd rfl h, by simp, fun _ => Or.inl rfl⟩
    | cons l ls =>
      have hh : Holds n st'.line l := h2.holds
      have hlt := h4 (by simp)
      by_cases h0 : l = []
      · rw [nextSong_cons_stop (Or.inl h0), if_neg (by rw [h0]; show ¬ (0 : Int) > 0; omega)]
        exact ⟨false, st', rfl, h2, h3, h4, by simp, fun _ => Or.inr (by rw [h0]; rfl)⟩
      · have hpos : lineLength (l :: ls) > 0 := by
          show (l.length : Int) > 0
          have := List.length_pos_iff.mpr h0
          omega
        rw [if_pos hpos, hh.beginsSong hn]
        simp only
        rcases Bool.eq_false_or_eq_true (songLine l) with hs | hs
        · rw [nextSong_cons_stop (Or.inr hs)]
          simp only [hs, if_true]
          exact ⟨true, st', rfl, h2, h3, h4, fun _ => ⟨l, ls, rfl, hs⟩, by simp⟩
        · rw [nextSong_cons_skip h0 hs]
          simp only [hs]
          obtain ⟨b, st'', g1, g2, g3, g4, g5, g6⟩ := ih st' ls hh.length h2.rest (by omega)
          exact ⟨b, st'', g1, g2, by omega, fun _ => by omega, g5, g6⟩

/-- Everything but the song is unchanged. -/
def SameButSong (info info' : Stil.Info) : Prop :=
  info'.isUtf8 = info.isUtf8 ∧ info'.stilFilename = info.stilFilename ∧ info'.directoryComment = info.directoryComment ∧ info'.fileComment = info.fileComment

theorem songLoop_eq {n : Nat} (hn : 101 ≤ n) (song : Nat) (fuel : Nat) : ∀ (st : St) (l : List Nat) (ls : List (List Nat)) (info : Stil.Info), Cur n st (l :: ls) → songLine l = true →
    Room n (l :: ls) → NoBlock info → info.songComment = [] → st.file.length < fuel →
    ∃ info', songLoop song fuel st info = .ok info' ∧ Song song (l :: ls) info' ∧ SameButSong info info' := by
  induction fuel with
  | zero => intro st l ls info _ _ _ _ _ h; omega
  | succ fuel ih =>
    intro st l ls info h hs hroom hno hsc hf
    have hh : Holds n st.line l := h.holds
    obtain ⟨b, h1, h2⟩ := hh.isSong hs song
    unfold songLoop
    rw [h1]
    simp only [bind, Except.bind]
    cases b with
    | true =>
      simp only [if_true]
      obtain ⟨st', g1, g2, g3⟩ := readComment_eq hn (st := st) (ls := ls) info.songComment hh.length h.rest
      rw [g1]
      simp only
      rw [hsc] at g2 ⊢
      obtain ⟨info', k1, k2, k3⟩ := readBlock_eq (info := { info with songComment := (comment [] ls).1 }) hn g2 (hroom.suffix ((comment_suffix _ _).trans (List.suffix_cons _ _))) hno
      refine ⟨info', k1, .this (h2.mp rfl) k3.2.2.2.2 k2, k3.1, k3.2.1, k3.2.2.1, k3.2.2.2.1⟩
    | false =>
      have hnot : ¬ IsSong song l := fun hx => by have := h2.mpr hx; simp at this
      simp only [Bool.false_eq_true, if_false]
      obtain ⟨b', st', g1, g2, g3, g4, g5, g6⟩ := untilSongNo_eq hn (st.file.length + 1) st ls hh.length h.rest (by omega)
      rw [g1]
      simp only
      cases b' with
      | false =>
        exact ⟨info, rfl, .absent hnot (g6 rfl) hsc hno, rfl, rfl, rfl, rfl⟩
      | true =>
        obtain ⟨l', rest, e, hs'⟩ := g5 rfl
        have hne : ls ≠ [] := by
          intro e'
          rw [e'] at e
          simp [nextSong] at e
        have hsuf : l' :: rest <:+ l :: ls := by
          rw [← e]; exact (List.dropWhile_suffix _).trans (List.suffix_cons _ _)
        simp only [if_true]
        rw [e] at g2
        obtain ⟨info', k1, k2, k3⟩ := ih st' l' rest info g2 hs' (hroom.suffix hsuf) hno hsc (by have := g4 hne; omega)
        refine ⟨info', k1, .later hnot ?_ (by rw [e]; simp) (by rw [e]; exact k2), k3⟩
        rw [e]
        intro x hx
        simp only [List.head?_cons, Option.mem_def, Option.some.injEq] at hx
        subst hx
        intro e0
        rw [e0] at hs'
        simp [songLine] at hs'

theorem found_eq {n : Nat} (hn : 101 ≤ n) (song : Nat) {st : St} {ls : List (List Nat)} {info : Stil.Info} (hl : st.line.length = n) (hls : lines st.file = ls) (hroom : Room n ls) (hno : NoBlock info)
    (hsc : info.songComment = []) (hfc : info.fileComment = []) :
    ∃ info', found song st info = .ok info' ∧ Entry song ls info' ∧ info'.isUtf8 = info.isUtf8 ∧ info'.stilFilename = info.stilFilename ∧ info'.directoryComment = info.directoryComment := by
  obtain ⟨st', h1, h2, h3⟩ := readComment_eq hn info.fileComment hl hls
  unfold found
  rw [h1]
  simp only [bind, Except.bind]
  rw [h2.holds.beginsSong hn]
  simp only
  rw [hfc] at h2 ⊢
  unfold Entry
  have hroom' := hroom.suffix (comment_suffix [] ls)
  generalize hcm : comment [] ls = cm at *
  obtain ⟨fc, rest⟩ := cm
  simp only at h2 hroom' ⊢
  cases rest with
  | nil =>
    have e : songLine (([] : List (List Nat)).head?.getD []) = false := rfl
    simp only [e, Bool.false_eq_true, if_false]
    obtain ⟨info', k1, k2, k3⟩ := readBlock_eq (info := { info with fileComment := fc }) hn h2 hroom' hno
    refine ⟨info', k1, ⟨k3.2.2.2.1, ?_⟩, k3.1, k3.2.1, k3.2.2.1⟩
    rw [if_neg (by simp)]
    exact ⟨k3.2.2.2.2.trans hsc, k2⟩
  | cons l rest =>
    have ex : (l :: rest).head?.getD [] = l := rfl
    rw [ex]
    rcases Bool.eq_false_or_eq_true (songLine l) with hs | hs
    · simp only [hs, if_true]
      obtain ⟨info', k1, k2, k3⟩ := songLoop_eq hn song (st'.file.length + 1) st' l rest { info with fileComment := fc } h2 hs hroom' hno hsc (by omega)
      refine ⟨info', k1, ⟨k3.2.2.2, ?_⟩, k3.1, k3.2.1, k3.2.2.1⟩
      rw [if_pos (by simpa using hs)]
      exact k2
    · simp only [hs, Bool.false_eq_true, if_false]
      obtain ⟨info', k1, k2, k3⟩ := readBlock_eq (info := { info with fileComment := fc }) hn h2 hroom' hno
      refine ⟨info', k1, ⟨k3.2.2.2.1, ?_⟩, k3.1, k3.2.1, k3.2.2.1⟩
      rw [if_neg (by simpa using hs)]
      exact ⟨k3.2.2.2.2.trans hsc, k2⟩

/-! ## File names -/

theorem same_nil_left {f : List Nat} : Same [] f ↔ f = [] := by
  unfold Same
  constructor
  · rintro ⟨h, _⟩
    exact List.length_eq_zero_iff.mp h.symm
  · rintro rfl
    exact ⟨rfl, by simp⟩

theorem same_nil_right {s : List Nat} : Same s [] ↔ s = [] := by
  unfold Same
  constructor
  · rintro ⟨h, _⟩
    exact List.length_eq_zero_iff.mp h
  · rintro rfl
    exact ⟨rfl, by simp⟩

theorem same_cons {c f : Nat} {s fs : List Nat} : Same (c :: s) (f :: fs) ↔ (c = f ∨ (c = 47 ∧ f = 92)) ∧ Same s fs := by
  unfold Same
  simp only [List.length_cons, List.zip_cons_cons, List.forall_mem_cons]
  constructor
  · rintro ⟨h1, h2, h3⟩; exact ⟨h2, by omega, h3⟩
  · rintro ⟨h1, h2, h3⟩; exact ⟨by omega, h1, h3⟩

theorem matchName_eq (s : List Nat) : ∀ (f stale : List Nat) (len : Nat), 0 ∉ s → 0 ∉ f →
    (matchName (s ++ 0 :: stale) f len = .ok none ∧ Same s f) ∨
    ∃ k, matchName (s ++ 0 :: stale) f len = .ok (some (len + k)) ∧ k ≤ s.length ∧ ¬ Same s f ∧ ∀ d, d ≤ f.length → ((k = d ∧ k = s.length) ↔ Same s (f.take d)) := by
  induction s with
  | nil =>
    intro f stale len _ hf
    rw [List.nil_append]
    cases f with
    | nil => left; exact ⟨rfl, same_nil_left.mpr rfl⟩
    | cons x f =>
      right
      refine ⟨0, ?_, Nat.le_refl _, ?_, ?_⟩
      · simp only [List.mem_cons, not_or] at hf
        exact (if_neg hf.1).trans (if_neg (by omega))
      · rw [same_nil_left]; simp
      · intro d hd
        rw [same_nil_left]
        cases d with
        | zero => simp
        | succ d => simp
  | cons c s ih =>
    intro f stale len hs hf
    simp only [List.mem_cons, not_or] at hs
    rw [List.cons_append]
    cases f with
    | nil =>
      right
      refine ⟨0, ?_, by simp, ?_, ?_⟩
      · unfold matchName
        simp only
        rw [if_neg (fun e => hs.1 e.symm), Nat.add_zero]
      · rw [same_nil_right]; simp
      · intro d hd
        rw [List.take_nil, same_nil_right]
        simp
    | cons x f =>
      simp only [List.mem_cons, not_or] at hf
      by_cases hc : c = x ∨ (c = 47 ∧ x = 92)
      · have e : matchName (c :: (s ++ 0 :: stale)) (x :: f) len = matchName (s ++ 0 :: stale) f (len + 1) := by
          rw [matchName]
          by_cases hx : c = x
          · rw [if_pos hx, if_neg (fun e => hs.1 e.symm)]
          · rw [if_neg hx, if_pos (by rcases hc with h | h; exact absurd h hx; exact h)]
        rw [e]
        rcases ih f stale (len + 1) hs.2 hf.2 with ⟨h1, h2⟩ | ⟨k, h1, h2, h3, h4⟩
        · left; exact ⟨h1, same_cons.mpr ⟨hc, h2⟩⟩
        · right
          refine ⟨k + 1, by rw [h1, show len + 1 + k = len + (k + 1) by omega], by simp; omega, fun h => h3 (same_cons.mp h).2, fun d hd => ?_⟩
          cases d with
          | zero => rw [List.take_zero, same_nil_right]; simp
          | succ d =>
            rw [List.take_succ_cons, same_cons, ← h4 d (by simp at hd; omega), List.length_cons]
            constructor
            · rintro ⟨g1, g2⟩; exact ⟨hc, by omega, by omega⟩
            · rintro ⟨_, g1, g2⟩; exact ⟨by omega, by omega⟩
      · right
        refine ⟨0, ?_, by simp, fun h => hc (same_cons.mp h).1, fun d hd => ?_⟩
        · rw [matchName]
          rw [if_neg (fun e => hc (Or.inl e)), if_neg (fun e => hc (Or.inr e)), Nat.add_zero]
        · cases d with
          | zero => rw [List.take_zero, same_nil_right]; simp
          | succ d =>
            rw [List.take_succ_cons, same_cons]
            constructor
            · rintro ⟨g1, _⟩; omega
            · rintro ⟨g1, _⟩; exact absurd g1 hc

theorem Holds.isDirectory {n : Nat} {line l0 : List Nat} (h : Holds n line l0) (hz : 0 ∉ l0) {k d : Nat} (hk : k ≤ l0.length) :
    ∃ b, Stil.isDirectory line k d = .ok b ∧ (b = true ↔ (k = d ∧ k = l0.length)) := by
  unfold Stil.isDirectory
  by_cases hd : k = d
  · rw [if_pos hd]
    obtain ⟨stale, e⟩ := h.drop hk
    cases hl : l0.drop k with
    | nil =>
      rw [hl] at e
      rw [rd_drop e]
      have := List.drop_eq_nil_iff.mp hl
      exact ⟨true, rfl, by simp; omega⟩
    | cons c t =>
      rw [hl] at e
      rw [rd_drop (b := c) (t := t ++ 0 :: stale) e]
      have hc : c ≠ 0 := by
        intro e
        apply hz
        apply List.mem_of_mem_drop (i := k)
        rw [hl, e]; simp
      have hlen := congrArg List.length hl
      rw [List.length_drop, List.length_cons] at hlen
      exact ⟨c == 0, rfl, by simp [hc]; omega⟩
  · rw [if_neg hd]
    exact ⟨false, rfl, by simp [hd]⟩

theorem searchLoop_eq {n : Nat} (hn : 101 ≤ n) (filename : List Nat) (d song : Nat) (hf : 0 ∉ filename) (hd : d ≤ filename.length) (fuel : Nat) :
    ∀ (st : St) (ls : List (List Nat)) (info : Stil.Info), st.line.length = n → lines st.file = ls → Room n ls → NoBlock info → info.songComment = [] → info.fileComment = [] → st.file.length < fuel →
    ∃ info', searchLoop filename d song fuel st info = .ok info' ∧ Contents filename (filename.take d) song ls info.directoryComment info' ∧ info'.isUtf8 = info.isUtf8 ∧
      info'.stilFilename = info.stilFilename := by
  induction fuel with
  | zero => intro st ls info _ _ _ _ _ _ h; omega
  | succ fuel ih =>
    intro st ls info hl hls hroom hno hsc hfc hfuel
    obtain ⟨st', h1, h2, h3, h4⟩ := readLine_eq hn hl hls
    unfold searchLoop
    rw [h1]
    simp only [bind, Except.bind]
    cases ls with
    | nil =>
      rw [if_neg (by decide)]
      exact ⟨info, rfl, .absent rfl hfc hsc hno, rfl, rfl⟩
    | cons l ls =>
      have hlt := h4 (by simp)
      have hh : Holds n st'.line l := h2.holds
      have ht := hh.text
      have hz := text_no_zero l
      rw [if_pos (by show (l.length : Int) ≥ 0; omega)]
      obtain ⟨stale, e⟩ := ht.parts
      have hroom' := hroom.suffix (List.suffix_cons l ls)
      rcases matchName_eq (Spec.Stil.text l) filename stale 0 hz hf with ⟨m1, m2⟩ | ⟨k, m1, m2, m3, m4⟩
      · rw [← e] at m1
        rw [m1]
        simp only
        obtain ⟨info', g1, g2, g3, g4, g5⟩ := found_eq hn song (st := st') (ls := ls) (info := info) hh.length h2.rest hroom' hno hsc hfc
        exact ⟨info', g1, .here m2 g5 g2, g3, g4⟩
      · rw [← e, Nat.zero_add] at m1
        rw [m1]
        simp only
        obtain ⟨b, g1, g2⟩ := ht.isDirectory (d := d) hz m2
        rw [g1]
        simp only
        cases b with
        | true =>
          simp only [if_true]
          obtain ⟨st'', k1, k2, k3⟩ := readComment_eq hn (st := st') (ls := ls) info.directoryComment hh.length h2.rest
          rw [k1]
          simp only
          obtain ⟨info', p1, p2, p3, p4⟩ := ih st'' _ { info with directoryComment := (comment info.directoryComment ls).1 } k2.holds.length k2.rest
            (hroom'.suffix ((List.tail_suffix _).trans (comment_suffix _ _))) hno hsc hfc (by omega)
          exact ⟨info', p1, .directory m3 ((m4 d hd).mp (g2.mp rfl)) p2, p3, p4⟩
        | false =>
          simp only [Bool.false_eq_true, if_false]
          obtain ⟨info', p1, p2, p3, p4⟩ := ih st' ls info hh.length h2.rest hroom' hno hsc hfc (by omega)
          exact ⟨info', p1, .other m3 (fun hx => by have := g2.mpr ((m4 d hd).mpr hx); simp at this) p2, p3, p4⟩

/-! ## The nearest STIL.txt -/

theorem previousSlash_eq (filename : List Nat) (pos : Nat) (hp : pos ≤ filename.length) :
    (previousSlash filename pos = .ok none ∧ ∀ i (h : i < filename.length), i < pos → ¬ IsSlash filename[i]) ∨
    ∃ p, ∃ h : p < filename.length, previousSlash filename pos = .ok (some p) ∧ p < pos ∧ IsSlash filename[p] ∧ ∀ i (h : i < filename.length), p < i → i < pos → ¬ IsSlash filename[i] := by
  induction pos with
  | zero => left; exact ⟨rfl, fun i _ h => by omega⟩
  | succ pos ih =>
    unfold previousSlash
    rw [rd_ok (show pos < filename.length by omega)]
    simp only [bind, Except.bind]
    by_cases hs : IsSlash filename[pos]
    · right
      exact ⟨pos, by omega, if_pos hs, by omega, hs, fun i _ _ _ => by omega⟩
    · have e : (if filename[pos] = 47 ∨ filename[pos] = 92 then Except.ok (some pos) else previousSlash filename pos) = previousSlash filename pos := if_neg hs
      rw [e]
      have split : ∀ i, i < pos + 1 → i < pos ∨ i = pos := by omega
      rcases ih (by omega) with ⟨h1, h2⟩ | ⟨p, hp', h1, h2, h3, h4⟩
      · left
        refine ⟨h1, fun i hi hlt => ?_⟩
        rcases split i hlt with h | rfl
        · exact h2 i hi h
        · exact hs
      · right
        refine ⟨p, hp', h1, by omega, h3, fun i hi hpi hlt => ?_⟩
        rcases split i hlt with h | rfl
        · exact h4 i hi hpi h
        · exact hs

theorem slash_get {filename before rest : List Nat} {slash : Nat} (e : filename = before ++ slash :: rest) : ∃ h : before.length < filename.length, filename[before.length] = slash := by
  subst e
  exact ⟨by simp, by simp⟩

theorem places_at {filename : List Nat} {p : Nat} (h : p < filename.length) : places (filename.take p) filename[p] =
    [filename.take (p + 1) ++ (ascii "Docs" ++ filename[p] :: ascii "STIL.txt"), filename.take (p + 1) ++ ascii "STIL.txt"] := by
  unfold places
  rw [List.take_succ_eq_append_getElem h]
  simp only [List.append_assoc, List.singleton_append]

/-- `root` is the next slash to try. -/
def NextSlash (filename : List Nat) (bound : Nat) (root : Option Nat) : Prop :=
  match root with
  | none => ∀ i (h : i < filename.length), i < bound → ¬ IsSlash filename[i]
  | some p => ∃ h : p < filename.length, p < bound ∧ IsSlash filename[p] ∧ ∀ i (h : i < filename.length), p < i → i < bound → ¬ IsSlash filename[i]

theorem findStil_eq (filenameMax : Nat) (fs : List Nat → Option (List Nat)) (filename : List Nat) (fuel : Nat) : ∀ (bound : Nat) (root : Option Nat), NextSlash filename bound root →
    (∀ p ∈ root, p + 1 < fuel ∧ p + 14 < filenameMax) → 0 < fuel →
    (∀ before slash rest, filename = before ++ slash :: rest → IsSlash slash → bound ≤ before.length → ∀ p ∈ places before slash, fs p = none) →
    (findStil filenameMax fs filename fuel root = .ok none ∧ ∀ before slash rest, filename = before ++ slash :: rest → IsSlash slash → ∀ p ∈ places before slash, fs p = none) ∨
    ∃ p, ∃ h : p < filename.length, ∃ name contents, findStil filenameMax fs filename fuel root = .ok (some (name, contents, p)) ∧ fs name = some contents ∧ (∀ q ∈ root, p ≤ q) ∧
      Nearest fs filename (filename.take p) filename[p] (filename.drop (p + 1)) name := by
  induction fuel with
  | zero => intro bound root _ _ h; omega
  | succ fuel ih =>
    intro bound root hroot hbound _ hafter
    cases root with
    | none =>
      left
      refine ⟨rfl, fun before slash rest e hs => ?_⟩
      by_cases hb : bound ≤ before.length
      · exact hafter before slash rest e hs hb
      · obtain ⟨h, e'⟩ := slash_get e
        exact absurd (e' ▸ hs) (hroot _ h (by omega))
    | some p =>
      obtain ⟨hp, hpb, hps, hbetween⟩ := hroot
      obtain ⟨hpf, hmax⟩ := hbound p rfl
      have hsplit : filename = filename.take p ++ filename[p] :: filename.drop (p + 1) := by
        rw [← List.drop_eq_getElem_cons (by omega), List.take_append_drop]
      have hlen : (filename.take p).length = p := by rw [List.length_take]; omega
      have hafter' : NoneAfter fs filename p := by
        intro before slash rest e hs hlt
        by_cases hb : bound ≤ before.length
        · exact hafter before slash rest e hs hb
        · obtain ⟨h, e'⟩ := slash_get e
          exact absurd (e' ▸ hs) (hbetween _ h hlt (by omega))
      have hpl := places_at hp
      have l1 : (ascii "Docs" ++ filename[p] :: ascii "STIL.txt").length = 13 := by
        rw [List.length_append, List.length_cons]; rfl
      have l2 : (ascii "STIL.txt").length = 8 := by decide
      have n1 : stilName filenameMax filename p (ascii "Docs" ++ filename[p] :: ascii "STIL.txt") = .ok (filename.take (p + 1) ++ (ascii "Docs" ++ filename[p] :: ascii "STIL.txt")) := by
        unfold stilName; rw [if_pos (by omega)]
      have n2 : stilName filenameMax filename p (ascii "STIL.txt") = .ok (filename.take (p + 1) ++ ascii "STIL.txt") := by
        unfold stilName; rw [if_pos (by omega)]
      unfold findStil
      simp only
      rw [rd_ok hp]
      simp only [bind, Except.bind]
      rw [n1]
      simp only
      cases h1 : fs (filename.take (p + 1) ++ (ascii "Docs" ++ filename[p] :: ascii "STIL.txt")) with
      | some contents =>
        right
        refine ⟨p, hp, _, contents, rfl, h1, fun q hq => ?_, hsplit, hps, by rw [hlen]; exact hafter', ?_⟩
        · simp at hq; omega
        · rw [hpl, List.find?_cons_of_pos (by rw [h1]; rfl)]
      | none =>
        simp only
        rw [n2]
        simp only
        cases h2 : fs (filename.take (p + 1) ++ ascii "STIL.txt") with
        | some contents =>
          right
          refine ⟨p, hp, _, contents, rfl, h2, fun q hq => ?_, hsplit, hps, by rw [hlen]; exact hafter', ?_⟩
          · simp at hq; omega
          · rw [hpl, List.find?_cons_of_neg (by rw [h1]; simp), List.find?_cons_of_pos (by rw [h2]; rfl)]
        | none =>
          simp only
          have hnone : ∀ before slash rest, filename = before ++ slash :: rest → IsSlash slash → p ≤ before.length → ∀ p ∈ places before slash, fs p = none := by
            intro before slash rest e hs hle
            by_cases hb : before.length = p
            · obtain ⟨h, e'⟩ := slash_get e
              have eb : before = filename.take p := by rw [← hb]; conv_rhs => rw [e]
                                                       simp
              have es : slash = filename[p] := by rw [← e']; simp only [hb]
              rw [eb, es, hpl]
              intro q hq
              simp only [List.mem_cons, List.not_mem_nil, or_false] at hq
              rcases hq with rfl | rfl
              · exact h1
              · exact h2
            · exact hafter' before slash rest e hs (by omega)
          rcases previousSlash_eq filename p (by omega) with ⟨g1, g2⟩ | ⟨q, hq, g1, g2, g3, g4⟩
          · rw [g1]
            simp only
            have hf0 : 0 < fuel + 1 := by omega
            left
            cases fuel with
            | zero => omega
            | succ fuel =>
              refine ⟨rfl, fun before slash rest e hs => ?_⟩
              by_cases hb : p ≤ before.length
              · exact hnone before slash rest e hs hb
              · obtain ⟨h, e'⟩ := slash_get e
                exact absurd (e' ▸ hs) (g2 _ h (by omega))
          · rw [g1]
            simp only
            rcases ih p (some q) ⟨hq, g2, g3, g4⟩ (fun q' hq' => by simp at hq'; omega) (by omega) hnone with ⟨k1, k2⟩ | ⟨r, hr, name, contents, k1, k2, k3, k4⟩
            · left; exact ⟨k1, k2⟩
            · right
              refine ⟨r, hr, name, contents, k1, k2, fun q' hq' => ?_, k4⟩
              have := k3 q rfl
              simp at hq'
              omega

theorem readBom_eq (file : List Nat) : readBom file = ((unmarked file).2, (unmarked file).1) := by
  unfold readBom unmarked
  split_ifs <;> rfl

theorem dropWhile_append_stop {α : Type} {p : α → Bool} {a b : List α} {x : α} (h : ∀ c ∈ a, p c = true) (hx : p x = false) : (a ++ x :: b).dropWhile p = x :: b := by
  induction a with
  | nil => rw [List.nil_append, List.dropWhile_cons_of_neg (by rw [hx]; simp)]
  | cons y a ih =>
    rw [List.cons_append, List.dropWhile_cons_of_pos (h y List.mem_cons_self)]
    exact ih fun c hc => h c (List.mem_cons_of_mem _ hc)

theorem directory_eq {filename : List Nat} {last : Nat} (h : last < filename.length) (hs : IsSlash filename[last]) (hb : ∀ i (h : i < filename.length), last < i → ¬ IsSlash filename[i]) :
    directory filename = filename.take (last + 1) := by
  have e : filename = filename.take last ++ filename[last] :: filename.drop (last + 1) := by
    rw [← List.drop_eq_getElem_cons (by omega), List.take_append_drop]
  unfold directory
  rw [List.take_succ_eq_append_getElem h]
  conv_lhs => rw [e]
  rw [List.reverse_append, List.reverse_cons, List.append_assoc, List.singleton_append, dropWhile_append_stop, List.reverse_cons, List.reverse_reverse]
  · intro c hc
    rw [List.mem_reverse, List.mem_iff_getElem] at hc
    obtain ⟨i, hi, rfl⟩ := hc
    rw [List.length_drop] at hi
    rw [List.getElem_drop]
    have := hb (last + 1 + i) (by omega) (by omega)
    unfold IsSlash at this
    simp only [decide_eq_true_eq]
    constructor
    · exact fun e => this (Or.inl e)
    · exact fun e => this (Or.inr e)
  · unfold IsSlash at hs
    simp only [decide_eq_false_iff_not]
    rintro ⟨h1, h2⟩
    rcases hs with h | h
    · exact h1 h
    · exact h2 h

end Asap.Stil
