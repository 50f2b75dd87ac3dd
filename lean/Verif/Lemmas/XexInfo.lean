import Verif.Model.XexInfo
import Mathlib.Tactic.SplitIfs

/-! The layout of the title screen without bounds, and how long it gets. -/

namespace Asap.XexInfo

/-- Spaces needed to reach a column. -/
def gap (n column : Nat) : Nat := (column + 32 - n % 32) % 32

/-- `pad` without the bound. -/
def padded (dest : List Nat) (column : Nat) : List Nat := dest ++ List.replicate (gap dest.length column) 32

theorem padLoop_eq {column : Nat} (hc : column < 32) : ∀ (fuel : Nat) (dest : List Nat), gap dest.length column < fuel → dest.length ≤ 256 →
    padLoop fuel dest column = if (padded dest column).length ≤ 256 then .ok (padded dest column) else .error .ub := by
  intro fuel
  induction fuel with
  | zero => intro dest h; omega
  | succ fuel ih =>
    intro dest h hl
    unfold padLoop lineLen
    split
    · rename_i hne
      have g : gap dest.length column = gap (dest.length + 1) column + 1 := by unfold gap; omega
      unfold store
      by_cases h256 : dest.length < 256
      · rw [if_pos h256]
        show padLoop fuel (dest ++ [32]) column = _
        rw [ih _ (by rw [List.length_append, List.length_singleton]; omega) (by simp; omega)]
        have e : padded (dest ++ [32]) column = padded dest column := by
          unfold padded
          rw [g, List.replicate_succ]
          simp [List.append_assoc]
        rw [e]
      · rw [if_neg h256]
        rw [if_neg]
        · rfl
        · unfold padded; rw [List.length_append, List.length_replicate]; omega
    · rename_i heq
      have g : gap dest.length column = 0 := by unfold gap; omega
      have e : padded dest column = dest := by unfold padded; rw [g]; simp
      rw [e, if_pos hl]

theorem pad_eq {column : Nat} (hc : column < 32) (dest : List Nat) (hl : dest.length ≤ 256) :
    pad dest column = if (padded dest column).length ≤ 256 then .ok (padded dest column) else .error .ub :=
  padLoop_eq hc 32 dest (by unfold gap; omega) hl

/-- The next state for the first character of the text. -/
def stepped (author : Bool) (c : Nat) (rest dest : List Nat) : List Nat :=
  if c = 32 ∧ author = true ∧ rest.head? = some 38 ∧ authorLen rest ≤ 32 ∧ dest.length % 32 + 1 + authorLen rest > 32 then padded dest 1
  else if c = 32 ∧ wordLen rest ≤ 32 ∧ dest.length % 32 + 1 + wordLen rest > 32 then padded dest 0
  else dest ++ [c]

/-- `formatLoop` without the bound. -/
def flow (author : Bool) : List Nat → List Nat → List Nat
  | [], dest => dest
  | c :: rest, dest => flow author rest (stepped author c rest dest)

theorem length_padded (dest : List Nat) (column : Nat) : (padded dest column).length = dest.length + gap dest.length column := by
  unfold padded; simp

theorem stepped_le (author : Bool) (c : Nat) (rest dest : List Nat) : dest.length ≤ (stepped author c rest dest).length := by
  unfold stepped
  split
  · rw [length_padded]; omega
  · split
    · rw [length_padded]; omega
    · simp

theorem flow_le (author : Bool) : ∀ src dest, dest.length ≤ (flow author src dest).length := by
  intro src
  induction src with
  | nil => intro dest; exact Nat.le_refl _
  | cons c rest ih => intro dest; exact Nat.le_trans (stepped_le author c rest dest) (ih _)

theorem formatLoop_eq (author : Bool) : ∀ src dest, dest.length ≤ 256 →
    formatLoop author src dest = if (flow author src dest).length ≤ 256 then .ok (flow author src dest) else .error .ub := by
  intro src
  induction src with
  | nil => intro dest h; unfold formatLoop flow; rw [if_pos h]
  | cons c rest ih =>
    intro dest h
    have key : formatLoop author (c :: rest) dest = (if (stepped author c rest dest).length ≤ 256 then .ok (stepped author c rest dest) else .error .ub) >>= formatLoop author rest := by
      conv => lhs; unfold formatLoop
      unfold stepped lineLen
      split
      · rw [pad_eq (by omega) _ h]
      · split
        · rw [pad_eq (by omega) _ h]
        · unfold store
          rw [List.length_append, List.length_singleton]
          by_cases h256 : dest.length < 256
          · rw [if_pos h256, if_pos (by omega)]
          · rw [if_neg h256, if_neg (by omega)]
    rw [key]
    unfold flow
    by_cases hs : (stepped author c rest dest).length ≤ 256
    · rw [if_pos hs]
      exact ih _ hs
    · rw [if_neg hs, if_neg]
      · rfl
      · have := flow_le author rest (stepped author c rest dest)
        omega

/-- `format` without the bound. -/
def formatted (author : Bool) (column : Nat) (src dest : List Nat) : List Nat := padded (flow author src dest) column

theorem format_eq {author : Bool} {column : Nat} (hc : column < 32) (src dest : List Nat) (h : dest.length ≤ 256) :
    format dest column src author = if (formatted author column src dest).length ≤ 256 then .ok (formatted author column src dest) else .error .ub := by
  unfold format
  rw [formatLoop_eq _ _ _ h]
  unfold formatted
  by_cases hf : (flow author src dest).length ≤ 256
  · rw [if_pos hf]
    exact pad_eq hc _ hf
  · rw [if_neg hf, if_neg]
    · rfl
    · rw [length_padded]; omega

/-! ## Characters are kept -/

theorem padded_filter (dest : List Nat) (column : Nat) : (padded dest column).filter (· ≠ 32) = dest.filter (· ≠ 32) := by
  unfold padded
  rw [List.filter_append, List.filter_replicate]
  simp

theorem flow_filter (author : Bool) : ∀ src dest, (flow author src dest).filter (· ≠ 32) = dest.filter (· ≠ 32) ++ src.filter (· ≠ 32) := by
  intro src
  induction src with
  | nil => intro dest; unfold flow; simp
  | cons c rest ih =>
    intro dest
    unfold flow
    rw [ih]
    unfold stepped
    split
    · rename_i h; rw [padded_filter, h.1]; simp
    · split
      · rename_i h; rw [padded_filter, h.1]; simp
      · rw [List.filter_append, List.append_assoc, ← List.filter_append]; rfl

theorem formatted_filter (author : Bool) (column : Nat) (src dest : List Nat) :
    (formatted author column src dest).filter (· ≠ 32) = dest.filter (· ≠ 32) ++ src.filter (· ≠ 32) := by
  unfold formatted; rw [padded_filter, flow_filter]

theorem formatted_column {author : Bool} {column : Nat} (hc : column < 32) (src dest : List Nat) : (formatted author column src dest).length % 32 = column := by
  unfold formatted; rw [length_padded]; unfold gap; omega

/-! ## Runs -/

theorem flow_word (author : Bool) : ∀ (w t dest : List Nat), (∀ c ∈ w, c ≠ 32) → flow author (w ++ t) dest = flow author t (dest ++ w) := by
  intro w
  induction w with
  | nil => intro t dest _; simp
  | cons c w ih =>
    intro t dest h
    show flow author (w ++ t) (stepped author c (w ++ t) dest) = _
    have hc := h c (by simp)
    have e : stepped author c (w ++ t) dest = dest ++ [c] := by
      unfold stepped
      rw [if_neg (fun h => hc h.1), if_neg (fun h => hc h.1)]
    rw [e, ih _ _ (fun d hd => h d (by simp [hd]))]
    simp

/-- The text is empty or begins with a space. -/
def Boundary (t : List Nat) : Prop := t = [] ∨ t.head? = some 32

theorem word_split (rest : List Nat) : ∃ w t, rest = w ++ t ∧ (∀ c ∈ w, c ≠ 32) ∧ Boundary t ∧ w.length = wordLen rest := by
  refine ⟨rest.takeWhile (· ≠ 32), rest.dropWhile (· ≠ 32), (List.takeWhile_append_dropWhile ..).symm, ?_, ?_, rfl⟩
  · induction rest with
    | nil => intro c hc; cases hc
    | cons d rest ih =>
      intro c hc
      by_cases hd : d = 32
      · rw [List.takeWhile_cons_of_neg (by simp [hd])] at hc
        cases hc
      · rw [List.takeWhile_cons_of_pos (by simp [hd])] at hc
        rcases List.mem_cons.mp hc with rfl | hc
        · exact hd
        · exact ih c hc
  · induction rest with
    | nil => exact Or.inl rfl
    | cons c rest ih =>
      by_cases hc : c = 32
      · rw [List.dropWhile_cons_of_neg (by simp [hc])]
        exact Or.inr (by simp [hc])
      · rw [List.dropWhile_cons_of_pos (by simp [hc])]
        exact ih

theorem wordLen_append {w t : List Nat} (hw : ∀ c ∈ w, c ≠ 32) (ht : Boundary t) : wordLen (w ++ t) = w.length := by
  unfold wordLen
  induction w with
  | nil =>
    rcases ht with rfl | ht
    · rfl
    · cases t with
      | nil => rfl
      | cons c t => simp at ht; subst ht; rfl
  | cons c w ih =>
    rw [List.cons_append, List.takeWhile_cons_of_pos (by simpa using hw c (by simp))]
    simp only [List.length_cons]
    rw [ih (fun d hd => hw d (by simp [hd]))]

/-! ## Titles and dates -/

/-- The text laid out is at most twice as long as the source, with something to spare at every line. -/
def Title (n s : Nat) : Prop := n + 2 * ((n - 1) / 32) + (if n % 32 = 0 ∧ 0 < n then 1 else 0) ≤ 2 * s

theorem title_word {n s l : Nat} (h : Title n s) :
    Title ((if l ≤ 32 ∧ n % 32 + 1 + l > 32 then n + gap n 0 else n + 1) + l) (s + 1 + l) := by
  unfold Title gap at *
  split_ifs at h ⊢ <;> omega

theorem title_first (l : Nat) : Title l l := by
  unfold Title
  split <;> omega

theorem stepped_length_false (c : Nat) (hc : c = 32) (rest dest : List Nat) :
    (stepped false c rest dest).length = if wordLen rest ≤ 32 ∧ dest.length % 32 + 1 + wordLen rest > 32 then dest.length + gap dest.length 0 else dest.length + 1 := by
  unfold stepped
  rw [if_neg (fun h => Bool.false_ne_true h.2.1)]
  by_cases h : wordLen rest ≤ 32 ∧ dest.length % 32 + 1 + wordLen rest > 32
  · rw [if_pos ⟨hc, h⟩, if_pos h, length_padded]
  · rw [if_neg (fun h' => h h'.2), if_neg h]; simp

theorem flow_title_boundary : ∀ (k : Nat) (src dest : List Nat) (s : Nat), src.length ≤ k → Boundary src → Title dest.length s →
    Title (flow false src dest).length (s + src.length) := by
  intro k
  induction k with
  | zero =>
    intro src dest s hk _ ht
    have : src = [] := List.eq_nil_of_length_eq_zero (by omega)
    subst this
    exact ht
  | succ k ih =>
    intro src dest s hk hb ht
    cases src with
    | nil => exact ht
    | cons c rest =>
      have hc : c = 32 := by
        rcases hb with h | h
        · exact absurd h (by simp)
        · simpa using h
      obtain ⟨w, t, hr, hw, hbt, hl⟩ := word_split rest
      have e1 : flow false (c :: rest) dest = flow false t (stepped false c rest dest ++ w) := by
        show flow false rest (stepped false c rest dest) = _
        generalize stepped false c rest dest = d
        rw [hr]
        exact flow_word _ _ _ _ hw
      rw [e1]
      have hlen : (stepped false c rest dest ++ w).length = (if w.length ≤ 32 ∧ dest.length % 32 + 1 + w.length > 32 then dest.length + gap dest.length 0 else dest.length + 1) + w.length := by
        rw [List.length_append, stepped_length_false c hc, hl]
      have key := title_word (l := w.length) ht
      rw [← hlen] at key
      have := ih t _ _ (by rw [hr] at hk; simp at hk; omega) hbt key
      have e2 : s + 1 + w.length + t.length = s + (c :: rest).length := by rw [hr]; simp; omega
      rw [e2] at this
      exact this

theorem flow_title (src : List Nat) : Title (flow false src []).length src.length := by
  obtain ⟨w, t, hr, hw, hbt, _⟩ := word_split src
  rw [hr, flow_word _ _ _ _ hw, List.length_append]
  exact flow_title_boundary t.length t _ _ (Nat.le_refl _) hbt (title_first _)

theorem flow_fits : ∀ (src dest : List Nat), dest.length % 32 + src.length ≤ 32 → flow false src dest = dest ++ src := by
  intro src
  induction src with
  | nil => intro dest _; simp [flow]
  | cons c rest ih =>
    intro dest hl
    rw [List.length_cons] at hl
    show flow false rest (stepped false c rest dest) = _
    have hw : wordLen rest ≤ rest.length := List.Sublist.length_le (List.takeWhile_sublist ..)
    have e : stepped false c rest dest = dest ++ [c] := by
      unfold stepped
      rw [if_neg (fun h => Bool.false_ne_true h.2.1), if_neg]
      rintro ⟨_, h1, h2⟩; omega
    rw [e, ih _ (by rw [List.length_append, List.length_singleton]; omega)]
    simp

/-- A prefix of the text leaves its characters. -/
theorem flow_append (author : Bool) : ∀ (p x dest : List Nat), ∃ d, flow author (p ++ x) dest = flow author x d ∧
    d.filter (· ≠ 32) = dest.filter (· ≠ 32) ++ p.filter (· ≠ 32) := by
  intro p
  induction p with
  | nil => intro x dest; exact ⟨dest, rfl, by simp⟩
  | cons c p ih =>
    intro x dest
    obtain ⟨d, h1, h2⟩ := ih x (stepped author c (p ++ x) dest)
    refine ⟨d, h1, ?_⟩
    rw [h2]
    have := flow_filter author (c :: (p ++ x)) dest
    have e : (stepped author c (p ++ x) dest).filter (· ≠ 32) = dest.filter (· ≠ 32) ++ [c].filter (· ≠ 32) := by
      unfold stepped
      split
      · rename_i h; rw [padded_filter, h.1]; simp
      · split
        · rename_i h; rw [padded_filter, h.1]; simp
        · rw [List.filter_append]
    rw [e, List.append_assoc, ← List.filter_append]
    rfl

theorem flow_prefix (author : Bool) : ∀ src dest, dest <+: flow author src dest := by
  intro src
  induction src with
  | nil => intro dest; exact List.prefix_rfl
  | cons c rest ih =>
    intro dest
    refine List.IsPrefix.trans ?_ (ih _)
    unfold stepped
    split
    · exact ⟨_, rfl⟩
    · split
      · exact ⟨_, rfl⟩
      · exact ⟨_, rfl⟩

/-- A word of at most 32 characters stays on one line. -/
theorem word_kept (column : Nat) {p w q : List Nat} (hw : ∀ c ∈ w, c ≠ 32) (h0 : 0 < w.length) (h32 : w.length ≤ 32)
    (hp : p = [] ∨ ∃ p0, p = p0 ++ [32]) (hq : Boundary q) :
    ∃ a b, formatted false column (p ++ (w ++ q)) [] = a ++ w ++ b ∧ a.filter (· ≠ 32) = p.filter (· ≠ 32) ∧
      a.length / 32 = (a.length + w.length - 1) / 32 := by
  have key : ∃ d, flow false (p ++ (w ++ q)) [] = flow false (w ++ q) d ∧ d.filter (· ≠ 32) = p.filter (· ≠ 32) ∧
      d.length / 32 = (d.length + w.length - 1) / 32 := by
    rcases hp with rfl | ⟨p0, rfl⟩
    · exact ⟨[], rfl, rfl, by simp; omega⟩
    · obtain ⟨d0, h1, h2⟩ := flow_append false p0 ([32] ++ (w ++ q)) []
      refine ⟨stepped false 32 (w ++ q) d0, ?_, ?_, ?_⟩
      · rw [List.append_assoc, h1]; rfl
      · rw [List.filter_append]
        simp only [List.filter_nil, List.nil_append] at h2
        rw [← h2]
        unfold stepped
        rw [if_neg (fun h => Bool.false_ne_true h.2.1)]
        split
        · rw [padded_filter]; simp
        · rw [List.filter_append]
      · rw [stepped_length_false 32 rfl, wordLen_append hw hq]
        unfold gap
        split <;> omega
  obtain ⟨d, h1, h2, h3⟩ := key
  rw [flow_word _ _ _ _ hw] at h1
  obtain ⟨b, hb⟩ := flow_prefix false q (d ++ w)
  refine ⟨d, b ++ List.replicate (gap (d ++ w ++ b).length column) 32, ?_, h2, h3⟩
  unfold formatted padded
  rw [h1, ← hb]
  simp only [List.append_assoc]

/-! ## Authors -/

/-- The author's text laid out is at most twice as long as the source and `"by "`, with something to spare at every line. -/
def Author (n s : Nat) : Prop := n + (n - 1) / 32 ≤ 2 * s + 3

theorem author_word {n s l : Nat} (h : Author n s) :
    Author ((if l ≤ 32 ∧ n % 32 + 1 + l > 32 then n + gap n 0 else n + 1) + l) (s + 1 + l) := by
  unfold Author gap at *
  split_ifs <;> omega

theorem author_group {n s l : Nat} (h : Author n s) (hl : l < 32) (hn : n % 32 + 1 + l > 32) : Author (n + gap n 1 + l) (s + 1 + l) := by
  unfold Author gap at *
  omega

/-- Text `g` before `t` has no `" &"`, which is what follows if anything does. -/
structure Group (g t : List Nat) : Prop where
  inner : ∀ p q, g = p ++ 32 :: q → (q ++ t).head? ≠ some 38
  outer : t = [] ∨ ∃ u, t = 32 :: 38 :: u

theorem group_split : ∀ rest : List Nat, ∃ g t, rest = g ++ t ∧ Group g t ∧ g.length = beforeAnd rest := by
  intro rest
  induction rest with
  | nil => exact ⟨[], [], rfl, ⟨fun p q h => by simp at h, Or.inl rfl⟩, rfl⟩
  | cons c rest ih =>
    by_cases h : c = 32 ∧ rest.head? = some 38
    · refine ⟨[], c :: rest, rfl, ⟨fun p q h => by simp at h, Or.inr ?_⟩, by unfold beforeAnd; rw [if_pos h]; rfl⟩
      obtain ⟨rfl, h⟩ := h
      cases rest with
      | nil => simp at h
      | cons d u => simp at h; exact ⟨u, by rw [h]⟩
    · obtain ⟨g, t, hr, hg, hl⟩ := ih
      refine ⟨c :: g, t, by rw [hr]; rfl, ⟨?_, hg.outer⟩, by unfold beforeAnd; rw [if_neg h, List.length_cons, hl]; omega⟩
      intro p q hpq
      cases p with
      | nil =>
        simp only [List.nil_append, List.cons.injEq] at hpq
        obtain ⟨hc, rfl⟩ := hpq
        intro hh
        exact h ⟨hc, by rw [hr]; exact hh⟩
      | cons d p =>
        simp only [List.cons_append, List.cons.injEq] at hpq
        exact hg.inner p q hpq.2

theorem Group.boundary {g t : List Nat} (h : Group g t) : Boundary t := by
  rcases h.outer with rfl | ⟨u, rfl⟩
  · exact Or.inl rfl
  · exact Or.inr rfl

theorem Group.tail {c : Nat} {g t : List Nat} (h : Group (c :: g) t) : Group g t :=
  ⟨fun p q hpq => h.inner (c :: p) q (by rw [hpq]; rfl), h.outer⟩

theorem author_split {rest : List Nat} (h : rest.head? = some 38) : ∃ g t, rest = g ++ t ∧ Group g t ∧ g.length = authorLen rest ∧ g.head? = some 38 := by
  cases rest with
  | nil => simp at h
  | cons c rest =>
    simp at h
    subst h
    obtain ⟨g, t, hr, hg, hl⟩ := group_split rest
    refine ⟨38 :: g, t, by rw [hr]; rfl, ⟨?_, hg.outer⟩, by unfold authorLen; simp [hl]; omega, rfl⟩
    intro p q hpq
    cases p with
    | nil => simp at hpq
    | cons d p =>
      simp only [List.cons_append, List.cons.injEq] at hpq
      exact hg.inner p q hpq.2

theorem wordLen_le {t : List Nat} (ht : Boundary t) : ∀ g : List Nat, wordLen (g ++ t) ≤ g.length := by
  intro g
  induction g with
  | nil => rw [wordLen_append (w := []) (by simp) ht]; exact Nat.le_refl _
  | cons c g ih =>
    unfold wordLen at *
    rw [List.cons_append]
    by_cases hc : c = 32
    · rw [List.takeWhile_cons_of_neg (by simp [hc])]; simp
    · rw [List.takeWhile_cons_of_pos (by simp [hc])]; simp only [List.length_cons]; omega

theorem flow_group : ∀ (g t dest : List Nat), Group g t → dest.length % 32 + g.length ≤ 32 → flow true (g ++ t) dest = flow true t (dest ++ g) := by
  intro g
  induction g with
  | nil => intro t dest _ _; simp
  | cons c g ih =>
    intro t dest hg hl
    show flow true (g ++ t) (stepped true c (g ++ t) dest) = _
    have hw := wordLen_le hg.boundary g
    rw [List.length_cons] at hl
    have e : stepped true c (g ++ t) dest = dest ++ [c] := by
      unfold stepped
      rw [if_neg, if_neg]
      · rintro ⟨_, h1, h2⟩; omega
      · rintro ⟨rfl, _, h, _⟩
        exact hg.inner [] g rfl h
    rw [e, ih _ _ hg.tail (by rw [List.length_append, List.length_singleton]; omega)]
    simp

/-- No group of exactly 32 characters. -/
def NoFullLine (src : List Nat) : Prop := ∀ p rest, src = p ++ 32 :: rest → rest.head? = some 38 → authorLen rest ≠ 32

theorem NoFullLine.suffix {p t : List Nat} (h : NoFullLine (p ++ t)) : NoFullLine t := by
  intro q rest hq
  exact h (p ++ q) rest (by rw [hq, List.append_assoc])

theorem flow_author_boundary : ∀ (k : Nat) (src dest : List Nat) (s : Nat), src.length ≤ k → Boundary src → NoFullLine src → Author dest.length s →
    Author (flow true src dest).length (s + src.length) := by
  intro k
  induction k with
  | zero =>
    intro src dest s hk _ _ ht
    have : src = [] := List.eq_nil_of_length_eq_zero (by omega)
    subst this
    exact ht
  | succ k ih =>
    intro src dest s hk hb hn ht
    cases src with
    | nil => exact ht
    | cons c rest =>
      have hc : c = 32 := by
        rcases hb with h | h
        · exact absurd h (by simp)
        · simpa using h
      by_cases hg : rest.head? = some 38 ∧ authorLen rest ≤ 32 ∧ dest.length % 32 + 1 + authorLen rest > 32
      · obtain ⟨hh, h1, h2⟩ := hg
        have hne := hn [] rest (by rw [hc]; rfl) hh
        obtain ⟨g, t, hr, hg, hl, _⟩ := author_split hh
        have e1 : flow true (c :: rest) dest = flow true t (padded dest 1 ++ g) := by
          show flow true rest (stepped true c rest dest) = _
          unfold stepped
          rw [if_pos ⟨hc, rfl, hh, h1, h2⟩]
          rw [hr]
          refine flow_group _ _ _ hg ?_
          rw [length_padded, hl]
          unfold gap
          omega
        rw [e1]
        have key := author_group (l := authorLen rest) ht (by omega) h2
        rw [← hl, ← length_padded, ← List.length_append] at key
        have := ih t _ _ (by rw [hr] at hk; simp at hk; omega) hg.boundary (by
          rw [hr, show c :: (g ++ t) = (c :: g) ++ t from rfl] at hn
          exact hn.suffix) key
        have e2 : s + 1 + g.length + t.length = s + (c :: rest).length := by rw [hr]; simp; omega
        rw [e2] at this
        exact this
      · obtain ⟨w, t, hr, hw, hbt, hl⟩ := word_split rest
        have e1 : flow true (c :: rest) dest = flow true t (stepped true c rest dest ++ w) := by
          show flow true rest (stepped true c rest dest) = _
          generalize stepped true c rest dest = d
          rw [hr]
          exact flow_word _ _ _ _ hw
        rw [e1]
        have hlen : (stepped true c rest dest ++ w).length = (if w.length ≤ 32 ∧ dest.length % 32 + 1 + w.length > 32 then dest.length + gap dest.length 0 else dest.length + 1) + w.length := by
          rw [List.length_append, hl]
          unfold stepped
          rw [if_neg (fun h => hg h.2.2)]
          by_cases h : wordLen rest ≤ 32 ∧ dest.length % 32 + 1 + wordLen rest > 32
          · rw [if_pos ⟨hc, h⟩, if_pos h, length_padded]
          · rw [if_neg (fun h' => h h'.2), if_neg h]; simp
        have key := author_word (l := w.length) ht
        rw [← hlen] at key
        have := ih t _ _ (by rw [hr] at hk; simp at hk; omega) hbt (by
          rw [hr, show c :: (w ++ t) = (c :: w) ++ t from rfl] at hn
          exact hn.suffix) key
        have e2 : s + 1 + w.length + t.length = s + (c :: rest).length := by rw [hr]; simp; omega
        rw [e2] at this
        exact this

theorem flow_author {src dest : List Nat} (hd : dest.length = 3) (hn : NoFullLine src) : Author (flow true src dest).length src.length := by
  obtain ⟨w, t, hr, hw, hbt, _⟩ := word_split src
  rw [hr] at hn ⊢
  rw [flow_word _ _ _ _ hw, List.length_append]
  refine flow_author_boundary t.length t _ _ (Nat.le_refl _) hbt hn.suffix ?_
  rw [List.length_append, hd]
  unfold Author
  omega

end Asap.XexInfo
