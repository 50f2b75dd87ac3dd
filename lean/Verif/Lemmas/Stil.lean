import Verif.Spec.Stil
import Mathlib.Tactic.SplitIfs
import Mathlib.Tactic.ByContra

/-! Facts about the reader of STIL.txt. -/

namespace Asap.Stil
open Asap Asap.Spec.Stil

/-- The array contains the line as a string. -/
structure Holds (n : Nat) (line l : List Nat) : Prop where
  length : line.length = n
  short : l.length ≤ 100
  parts : ∃ stale, line = l ++ 0 :: stale

theorem Holds.fits {n : Nat} {line l : List Nat} (h : Holds n line l) : l.length < n := by
  obtain ⟨stale, e⟩ := h.parts
  have := h.length
  rw [e] at this
  simp at this
  omega

theorem Holds.zero {n : Nat} {line l : List Nat} (h : Holds n line l) : line[l.length]? = some 0 := by
  obtain ⟨stale, rfl⟩ := h.parts
  simp

theorem Holds.get {n : Nat} {line l : List Nat} (h : Holds n line l) {i : Nat} (hi : i < l.length) : line[i]? = l[i]? := by
  obtain ⟨stale, rfl⟩ := h.parts
  rw [List.getElem?_append_left hi]

theorem Holds.take {n : Nat} {line l : List Nat} (h : Holds n line l) {i : Nat} (hi : i ≤ l.length) : line.take i = l.take i := by
  obtain ⟨stale, rfl⟩ := h.parts
  rw [List.take_append_of_le_length hi]

/-- Without spaces and tabs at the end. -/
def rstrip (s : List Nat) : List Nat := (s.reverse.dropWhile fun c => c = 32 ∨ c = 9).reverse

theorem rstrip_nil : rstrip [] = [] := rfl

theorem rstrip_concat (s : List Nat) (c : Nat) : rstrip (s ++ [c]) = if c = 32 ∨ c = 9 then rstrip s else s ++ [c] := by
  unfold rstrip
  rw [List.reverse_append, List.reverse_cons, List.reverse_nil, List.nil_append, List.cons_append, List.nil_append, List.dropWhile_cons]
  by_cases h : c = 32 ∨ c = 9
  · rw [if_pos h, if_pos (by simpa using h)]
  · rw [if_neg h, if_neg (by simpa using h)]
    simp

theorem trim_eq (line : List Nat) (len : Nat) (h : len ≤ line.length) : ∃ k, trim line len = .ok k ∧ k ≤ len ∧ rstrip (line.take len) = line.take k := by
  induction len with
  | zero => exact ⟨0, rfl, Nat.le_refl _, rfl⟩
  | succ len ih =>
    have hlt : len < line.length := by omega
    obtain ⟨k, h1, h2, h3⟩ := ih (by omega)
    unfold trim rd
    rw [List.getElem?_eq_getElem hlt]
    simp only [bind, Except.bind]
    rw [List.take_succ_eq_append_getElem hlt, rstrip_concat]
    by_cases hc : line[len] = 32 ∨ line[len] = 9
    · rw [if_pos hc, if_pos hc]
      exact ⟨k, h1, by omega, h3⟩
    · rw [if_neg hc, if_neg hc]
      refine ⟨len + 1, rfl, Nat.le_refl _, ?_⟩
      rw [List.take_succ_eq_append_getElem hlt]

theorem put_ok {a : List Nat} {i v : Nat} (h : i < a.length) : put a i v = .ok (a.set i v) := by
  unfold put; rw [if_pos h]

theorem set_parts {a : List Nat} {i v : Nat} (h : i < a.length) : a.set i v = a.take i ++ v :: a.drop (i + 1) := by
  rw [List.set_eq_take_append_cons_drop, if_pos h]

/-- The current line is the first one; the others are still in the file. -/
structure Cur (n : Nat) (st : St) (ls : List (List Nat)) : Prop where
  holds : Holds n st.line (ls.head?.getD [])
  rest : lines st.file = ls.tail

theorem clean_eq (acc : List Nat) : clean acc = rstrip ((acc.filter (· ≠ 13)).take 100) := rfl

/-- What `ASTIL_ReadLine` returns. -/
def lineLength (ls : List (List Nat)) : Int := match ls.head? with | none => -1 | some l => l.length

theorem readLineLoop_eq (n : Nat) (hn : 101 ≤ n) (file : List Nat) : ∀ (line : List Nat) (len : Nat) (acc : List Nat), line.length = n →
    line.take len = (acc.filter (· ≠ 13)).take 100 → len ≤ 100 →
    ∃ st, readLineLoop line len file = .ok (lineLength (linesFrom acc file), st) ∧ Cur n st (linesFrom acc file) ∧ st.file.length ≤ file.length ∧
      (linesFrom acc file ≠ [] → st.file.length < file.length) := by
  induction file with
  | nil =>
    intro line len acc hl hacc hlen
    refine ⟨⟨[], line.set 0 0⟩, ?_, ⟨⟨by rw [List.length_set]; exact hl, by simp [linesFrom], line.drop 1, ?_⟩, rfl⟩, Nat.le_refl _, fun h => absurd rfl h⟩
    · unfold readLineLoop
      rw [put_ok (by omega)]
      rfl
    · show line.set 0 0 = [] ++ 0 :: line.drop 1
      rw [set_parts (by omega)]
      rfl
  | cons c file ih =>
    intro line len acc hl hacc hlen
    unfold readLineLoop linesFrom
    have hlen' : len = ((acc.filter (· ≠ 13)).take 100).length := by rw [← hacc, List.length_take]; omega
    by_cases h10 : c = 10
    · rw [if_pos h10, if_pos h10]
      obtain ⟨k, h1, h2, h3⟩ := trim_eq line len (by omega)
      rw [h1]
      simp only [bind, Except.bind]
      rw [put_ok (by omega)]
      have hc : clean acc = line.take k := by rw [clean_eq, ← hacc, h3]
      have hck : (clean acc).length = k := by rw [hc, List.length_take]; omega
      refine ⟨⟨file, line.set k 0⟩, ?_, ⟨⟨by rw [List.length_set]; exact hl, ?_, line.drop (k + 1), ?_⟩, rfl⟩, by simp, fun _ => by simp⟩
      · show Except.ok ((k : Int), _) = Except.ok (((clean acc).length : Int), _)
        rw [hck]
      · show (clean acc).length ≤ 100
        omega
      · show line.set k 0 = clean acc ++ 0 :: _
        rw [hc, set_parts (by omega)]
    · rw [if_neg h10, if_neg h10]
      by_cases h13 : c = 13
      · rw [if_pos h13]
        obtain ⟨st, g1, g2, g3, g4⟩ := ih line len (acc ++ [c]) hl (by rw [hacc, List.filter_append, h13]; simp) hlen
        exact ⟨st, g1, g2, by simp; omega, fun h => by have := g4 h; simp; omega⟩
      · rw [if_neg h13]
        have hf : (acc ++ [c]).filter (· ≠ 13) = acc.filter (· ≠ 13) ++ [c] := by
          rw [List.filter_append]; simp [h13]
        by_cases hlt : len < 100
        · rw [if_pos hlt, put_ok (by omega)]
          simp only [bind, Except.bind]
          have hshort : (acc.filter (· ≠ 13)).length = len := by
            rw [List.length_take] at hlen'; omega
          obtain ⟨st, g1, g2, g3, g4⟩ := ih (line.set len c) (len + 1) (acc ++ [c]) (by rw [List.length_set]; exact hl) (by
            have e : line.take len ++ c :: line.drop (len + 1) = (line.take len ++ [c]) ++ line.drop (len + 1) := by simp
            have e2 : (acc.filter (· ≠ 13) ++ [c]).length ≤ 100 := by rw [List.length_append, hshort]; simp; omega
            rw [hf, List.take_of_length_le e2, set_parts (by omega), e, List.take_left' (by rw [List.length_append, List.length_take]; simp; omega), hacc,
              List.take_of_length_le (by omega)]) (by omega)
          exact ⟨st, g1, g2, by simp; omega, fun h => by have := g4 h; simp; omega⟩
        · rw [if_neg hlt]
          obtain ⟨st, g1, g2, g3, g4⟩ := ih line len (acc ++ [c]) hl (by
            rw [hf, hacc, List.take_append_of_le_length]
            rw [List.length_take] at hlen'; omega) hlen
          exact ⟨st, g1, g2, by simp; omega, fun h => by have := g4 h; simp; omega⟩

theorem readLine_eq {n : Nat} (hn : 101 ≤ n) {st : St} {ls : List (List Nat)} (hl : st.line.length = n) (h : lines st.file = ls) :
    ∃ st', readLine st = .ok (lineLength ls, st') ∧ Cur n st' ls ∧ st'.file.length ≤ st.file.length ∧ (ls ≠ [] → st'.file.length < st.file.length) := by
  subst h
  exact readLineLoop_eq n hn st.file st.line 0 [] hl (by simp) (by omega)

/-! ## Texts -/

theorem cstr_eq (s t : List Nat) : cstr (s ++ 0 :: t) = .ok (text s) := by
  induction s with
  | nil => rfl
  | cons c s ih =>
    rw [List.cons_append]
    unfold cstr text
    by_cases h : c = 0
    · rw [if_pos h, List.takeWhile_cons_of_neg (by simpa using h)]
    · rw [if_neg h, List.takeWhile_cons_of_pos (by simpa using h), ih]
      rfl

theorem Holds.drop {n : Nat} {line l : List Nat} (h : Holds n line l) {i : Nat} (hi : i ≤ l.length) : ∃ stale, line.drop i = l.drop i ++ 0 :: stale := by
  obtain ⟨stale, rfl⟩ := h.parts
  exact ⟨stale, by rw [List.drop_append_of_le_length hi]⟩

theorem Holds.cstr {n : Nat} {line l : List Nat} (h : Holds n line l) {i : Nat} (hi : i ≤ l.length) : cstr (line.drop i) = .ok (text (l.drop i)) := by
  obtain ⟨stale, e⟩ := h.drop hi
  rw [e, cstr_eq]

theorem text_length (s : List Nat) : (text s).length ≤ s.length := (List.takeWhile_sublist _).length_le

theorem Holds.strcpy {n : Nat} {line l : List Nat} (h : Holds n line l) (hi : 9 ≤ l.length) : strcpy 101 line 9 = .ok (value l) := by
  unfold Stil.strcpy
  rw [h.cstr hi]
  have h1 := text_length (l.drop 9)
  have h2 := h.short
  rw [List.length_drop] at h1
  simp only [bind, Except.bind]
  rw [if_pos (by omega)]
  rfl

theorem label_facts {label : String} (h : label ∈ ["COMMENT: ", "         ", "  TITLE: ", " ARTIST: ", "   NAME: ", " AUTHOR: "]) : (ascii label).length = 9 ∧ 0 ∉ ascii label := by
  simp only [List.mem_cons, List.not_mem_nil, or_false] at h
  rcases h with rfl | rfl | rfl | rfl | rfl | rfl <;> decide

theorem starts_length {label : String} (hlabel : (ascii label).length = 9 ∧ 0 ∉ ascii label) {l : List Nat} (h : starts label l = true) : 9 ≤ l.length := by
  unfold starts at h
  have := congrArg List.length (of_decide_eq_true h)
  rw [List.length_take, hlabel.1] at this
  omega

theorem Holds.hasPrefix {n : Nat} (hn : 101 ≤ n) {line l : List Nat} (h : Holds n line l) {label : String} (hlabel : (ascii label).length = 9 ∧ 0 ∉ ascii label) :
    hasPrefix line (ascii label) = .ok (starts label l) := by
  unfold Stil.hasPrefix
  rw [hlabel.1, if_pos (by rw [h.length]; omega)]
  refine congrArg Except.ok ?_
  unfold starts
  by_cases h9 : 9 ≤ l.length
  · rw [h.take h9, Bool.eq_iff_iff]
    simp
  · have e1 : decide (l.take 9 = ascii label) = false := by
      rw [decide_eq_false_iff_not]
      intro e
      have := congrArg List.length e
      rw [List.length_take, hlabel.1] at this
      omega
    rw [e1]
    rw [beq_eq_false_iff_ne]
    intro e
    apply hlabel.2
    rw [← e]
    exact List.mem_of_getElem? (i := l.length) (by rw [List.getElem?_take_of_lt (by omega)]; exact h.zero)

theorem Cur.lineBegins {n : Nat} (hn : 101 ≤ n) {st : St} {ls : List (List Nat)} (h : Cur n st ls) {label : String} (hlabel : (ascii label).length = 9 ∧ 0 ∉ ascii label) :
    lineBegins (lineLength ls) st.line (ascii label) = .ok (ls.head?.any (starts label)) := by
  unfold Stil.lineBegins lineLength
  have hh := h.holds
  cases hd : ls.head? with
  | none => rw [if_neg (by simp)]; rfl
  | some l =>
    rw [hd] at hh
    simp only [Option.any_some]
    by_cases h9 : (l.length : Int) ≥ 9
    · rw [if_pos h9]
      exact hh.hasPrefix hn hlabel
    · rw [if_neg h9]
      refine congrArg Except.ok ?_
      cases hs : starts label l with
      | false => rfl
      | true => have := starts_length hlabel hs; omega

theorem Cur.begins {n : Nat} (hn : 101 ≤ n) {st : St} {l : List Nat} {ls : List (List Nat)} (h : Cur n st (l :: ls)) {label : String} (hlabel : (ascii label).length = 9 ∧ 0 ∉ ascii label)
    (hs : starts label l = true) : Stil.lineBegins (lineLength (l :: ls)) st.line (ascii label) = .ok true := by
  rw [h.lineBegins hn hlabel]; exact congrArg Except.ok hs

theorem Cur.beginsNot {n : Nat} (hn : 101 ≤ n) {st : St} {ls : List (List Nat)} (h : Cur n st ls) {label : String} (hlabel : (ascii label).length = 9 ∧ 0 ∉ ascii label)
    (hs : ∀ l ∈ ls.head?, starts label l = false) : Stil.lineBegins (lineLength ls) st.line (ascii label) = .ok false := by
  rw [h.lineBegins hn hlabel]
  refine congrArg Except.ok ?_
  cases hd : ls.head? with
  | none => rfl
  | some l => exact hs l hd

/-! ## Comments -/

theorem join_full {first : List Nat} (h : ¬ first.length < 900) (ls : List (List Nat)) : join first ls = first := by
  cases ls with
  | nil => rfl
  | cons l ls => unfold join; rw [if_neg h]

theorem Holds.addLine {n : Nat} {line l : List Nat} (h : Holds n line l) (h9 : 9 ≤ l.length) (comment : List Nat) :
    addLine comment line l.length = .ok (if comment.length < 900 then comment ++ 10 :: l.drop 9 else comment) := by
  unfold Stil.addLine
  have := h.short
  have := h.fits
  have := h.length
  by_cases hc : comment.length < 900
  · rw [if_pos hc, if_pos hc, if_pos (by omega)]
    obtain ⟨stale, e⟩ := h.drop h9
    rw [e, List.take_append_of_le_length (by simp), List.take_of_length_le (by simp)]
  · rw [if_neg hc, if_neg hc]

theorem Holds.firstLine {n : Nat} {line l : List Nat} (h : Holds n line l) (h9 : 9 ≤ l.length) : firstLine line l.length = .ok (l.drop 9) := by
  unfold Stil.firstLine
  have := h.short
  have := h.fits
  have := h.length
  rw [if_pos (by omega)]
  obtain ⟨stale, e⟩ := h.drop h9
  rw [e, List.take_append_of_le_length (by simp), List.take_of_length_le (by simp)]

theorem commentLoop_eq {n : Nat} (hn : 101 ≤ n) (fuel : Nat) : ∀ (st : St) (ls : List (List Nat)) (first : List Nat), st.line.length = n → lines st.file = ls → st.file.length < fuel →
    ∃ st', commentLoop fuel st first = .ok (join first (ls.takeWhile (starts "         ")), st') ∧ Cur n st' (ls.dropWhile (starts "         ")) ∧ st'.file.length ≤ st.file.length := by
  induction fuel with
  | zero => intro st ls first _ _ h; omega
  | succ fuel ih =>
    intro st ls first hl hls hf
    have hsp := label_facts (label := "         ") (by simp)
    obtain ⟨st', h1, h2, h3, h4⟩ := readLine_eq hn hl hls
    unfold commentLoop
    rw [h1]
    simp only [bind, Except.bind]
    cases ls with
    | nil =>
      rw [h2.beginsNot hn hsp (by simp)]
      exact ⟨st', rfl, h2, h3⟩
    | cons l ls =>
      rcases Bool.eq_false_or_eq_true (starts "         " l) with hs | hs
      rotate_left
      · rw [h2.beginsNot hn hsp (by simpa using hs)]
        rw [List.takeWhile_cons_of_neg (by rw [hs]; simp), List.dropWhile_cons_of_neg (by rw [hs]; simp)]
        exact ⟨st', rfl, h2, h3⟩
      · rw [h2.begins hn hsp hs]
        have h9 := starts_length hsp hs
        have hh : Holds n st'.line l := h2.holds
        rw [List.takeWhile_cons_of_pos hs, List.dropWhile_cons_of_pos hs]
        simp only [if_true]
        have e : (lineLength (l :: ls)).toNat = l.length := rfl
        rw [e, hh.addLine h9 first]
        simp only
        obtain ⟨st'', g1, g2, g3⟩ := ih st' ls (if first.length < 900 then first ++ 10 :: l.drop 9 else first) hh.length h2.rest (by have := h4 (by simp); omega)
        refine ⟨st'', ?_, g2, by omega⟩
        rw [g1]
        by_cases hc : first.length < 900
        · rw [if_pos hc, join, if_pos hc]
        · rw [if_neg hc, join_full hc, join_full hc]

theorem comment_some {old l : List Nat} {rest : List (List Nat)} (h : starts "COMMENT: " l = true) :
    comment old (l :: rest) = (text (join (l.drop 9) (rest.takeWhile (starts "         "))), rest.dropWhile (starts "         ")) := by
  exact if_pos h

theorem comment_none {old l : List Nat} {rest : List (List Nat)} (h : starts "COMMENT: " l = false) : comment old (l :: rest) = (old, l :: rest) := by
  exact if_neg (by rw [h]; simp)

theorem readComment_eq {n : Nat} (hn : 101 ≤ n) {st : St} {ls : List (List Nat)} (old : List Nat) (hl : st.line.length = n) (h : lines st.file = ls) :
    ∃ st', readComment st old = .ok ((comment old ls).1, st') ∧ Cur n st' (comment old ls).2 ∧ st'.file.length ≤ st.file.length := by
  have hco := label_facts (label := "COMMENT: ") (by simp)
  obtain ⟨st', h1, h2, h3, h4⟩ := readLine_eq hn hl h
  unfold readComment
  rw [h1]
  simp only [bind, Except.bind]
  cases ls with
  | nil =>
    rw [h2.beginsNot hn hco (by simp)]
    exact ⟨st', rfl, h2, h3⟩
  | cons l ls =>
    rcases Bool.eq_false_or_eq_true (starts "COMMENT: " l) with hs | hs
    rotate_left
    · rw [h2.beginsNot hn hco (by simpa using hs), comment_none hs]
      exact ⟨st', rfl, h2, h3⟩
    · rw [h2.begins hn hco hs, comment_some hs]
      have h9 := starts_length hco hs
      have hh : Holds n st'.line l := h2.holds
      have e : (lineLength (l :: ls)).toNat = l.length := rfl
      simp only [if_true]
      rw [e, hh.firstLine h9]
      simp only
      obtain ⟨st'', g1, g2, g3⟩ := commentLoop_eq hn (st'.file.length + 1) st' ls (l.drop 9) hh.length h2.rest (by omega)
      rw [g1]
      exact ⟨st'', rfl, g2, by omega⟩

/-! ## Numbers and times -/

/-- A decimal digit. -/
def IsDigit (c : Nat) : Prop := 48 ≤ c ∧ c ≤ 57

theorem val_foldl_le (s : List Nat) : ∀ r, r ≤ s.foldl (fun n c => 10 * n + (c - 48)) r := by
  induction s with
  | nil => intro r; exact Nat.le_refl _
  | cons c s ih => intro r; rw [List.foldl_cons]; have := ih (10 * r + (c - 48)); omega

theorem digits_eq (s : List Nat) : ∀ (r k c : Nat) (t : List Nat), (∀ c ∈ s, 48 ≤ c ∧ c ≤ 57) → s.foldl (fun n c => 10 * n + (c - 48)) r ≤ 99 → ¬ (48 ≤ c ∧ c ≤ 57) →
    digits r k (s ++ c :: t) = .ok (some (s.foldl (fun n c => 10 * n + (c - 48)) r, k + s.length)) := by
  induction s with
  | nil => intro r k c t _ _ hc; unfold digits; simp only [List.nil_append]; rw [if_neg hc]; rfl
  | cons d s ih =>
    intro r k c t hs hv hc
    have hd := hs d List.mem_cons_self
    rw [List.foldl_cons] at hv
    have := val_foldl_le s (10 * r + (d - 48))
    rw [List.cons_append]
    unfold digits
    rw [if_pos hd, if_neg (by omega), ih _ _ c t (fun c hc => hs c (List.mem_cons_of_mem _ hc)) hv hc, List.foldl_cons, List.length_cons]
    rw [show k + 1 + s.length = k + (s.length + 1) by omega]

theorem digits_ok (s : List Nat) : ∀ (r k : Nat) (t : List Nat), ∃ v, digits r k (s ++ 0 :: t) = .ok v ∧ ∀ n k', v = some (n, k') → k ≤ k' ∧ k' ≤ k + s.length ∧
    (∃ rest, s ++ 0 :: t = s.take (k' - k) ++ rest) ∧ (∀ c ∈ s.take (k' - k), 48 ≤ c ∧ c ≤ 57) ∧ n = (s.take (k' - k)).foldl (fun n c => 10 * n + (c - 48)) r ∧ (k < k' → n ≤ 99) := by
  induction s with
  | nil =>
    intro r k t
    refine ⟨some (r, k), rfl, fun n k' h => ?_⟩
    simp only [Option.some.injEq, Prod.mk.injEq] at h
    obtain ⟨rfl, rfl⟩ := h
    exact ⟨Nat.le_refl _, by simp, ⟨0 :: t, by simp⟩, by simp, by simp, by omega⟩
  | cons d s ih =>
    intro r k t
    rw [List.cons_append]
    unfold digits
    by_cases hd : 48 ≤ d ∧ d ≤ 57
    · rw [if_pos hd]
      by_cases hr : r ≥ 10
      · rw [if_pos hr]
        exact ⟨none, rfl, fun n k' h => by simp at h⟩
      · rw [if_neg hr]
        obtain ⟨v, h1, h2⟩ := ih (10 * r + (d - 48)) (k + 1) t
        refine ⟨v, h1, fun n k' h => ?_⟩
        obtain ⟨g1, g2, ⟨rest, g3⟩, g4, g5, g6⟩ := h2 n k' h
        have e : (d :: s).take (k' - k) = d :: s.take (k' - (k + 1)) := by
          rw [show k' - k = (k' - (k + 1)) + 1 by omega, List.take_succ_cons]
        refine ⟨by omega, by rw [List.length_cons]; omega, ⟨rest, by rw [e, List.cons_append, ← g3]⟩, ?_, ?_, fun _ => ?_⟩
        · rw [e]
          intro c hc
          rcases List.mem_cons.mp hc with rfl | hc
          · exact hd
          · exact g4 c hc
        · rw [e, List.foldl_cons]; exact g5
        · by_cases hk : k + 1 < k'
          · exact g6 hk
          · rw [show k' - (k + 1) = 0 by omega] at g5
            simp only [List.take_zero, List.foldl_nil] at g5
            omega
    · rw [if_neg hd]
      refine ⟨some (r, k), rfl, fun n k' h => ?_⟩
      simp only [Option.some.injEq, Prod.mk.injEq] at h
      obtain ⟨rfl, rfl⟩ := h
      exact ⟨Nat.le_refl _, by omega, ⟨d :: (s ++ 0 :: t), by simp⟩, by simp, by simp, by omega⟩

/-- A number is read. -/
theorem parseInt_number {line s t : List Nat} {pos c : Nat} (h : line.drop pos = s ++ c :: t) (hs : IsNumber s) (hc : ¬ (48 ≤ c ∧ c ≤ 57)) :
    parseInt line pos = .ok (some (val s), pos + s.length) := by
  unfold parseInt
  rw [h, digits_eq s 0 0 c t hs.2.1 hs.2.2 hc]
  simp only [bind, Except.bind]
  rw [if_neg (by have := List.length_pos_iff.mpr hs.1; omega), Nat.zero_add]
  rfl

/-- No digit, no number. -/
theorem parseInt_none {line t : List Nat} {pos c : Nat} (h : line.drop pos = c :: t) (hc : ¬ (48 ≤ c ∧ c ≤ 57)) : parseInt line pos = .ok (none, pos) := by
  unfold parseInt
  rw [h]
  unfold digits
  rw [if_neg hc]
  rfl

theorem Holds.parseInt {n : Nat} {line l : List Nat} (h : Holds n line l) {pos : Nat} (hp : pos ≤ l.length) :
    ∃ v pos', Stil.parseInt line pos = .ok (v, pos') ∧ pos ≤ pos' ∧ pos' ≤ l.length ∧
      ∀ k, v = some k → IsNumber ((l.drop pos).take (pos' - pos)) ∧ k = val ((l.drop pos).take (pos' - pos)) := by
  obtain ⟨stale, e⟩ := h.drop hp
  unfold Stil.parseInt
  rw [e]
  obtain ⟨v, h1, h2⟩ := digits_ok (l.drop pos) 0 0 stale
  rw [h1]
  simp only [bind, Except.bind]
  cases v with
  | none => exact ⟨none, pos, rfl, Nat.le_refl _, hp, by simp⟩
  | some r =>
    obtain ⟨k, count⟩ := r
    obtain ⟨g1, g2, g3, g4, g5, g6⟩ := h2 k count rfl
    rw [List.length_drop] at g2
    simp only
    by_cases hc : count = 0
    · rw [if_pos hc]
      exact ⟨none, pos, rfl, Nat.le_refl _, hp, by simp⟩
    · rw [if_neg hc]
      refine ⟨some k, pos + count, rfl, by omega, by omega, fun k' hk => ?_⟩
      simp only [Option.some.injEq] at hk
      subst hk
      rw [show pos + count - pos = count - 0 by omega]
      refine ⟨⟨?_, g4, ?_⟩, g5⟩
      · intro he
        have := congrArg List.length he
        rw [List.length_take, List.length_drop] at this
        simp at this
        omega
      · have := g6 (by omega)
        rw [g5] at this
        exact this

theorem rd_ok {a : List Nat} {i : Nat} (h : i < a.length) : rd a i = .ok a[i] := by
  unfold rd; rw [List.getElem?_eq_getElem h]

theorem rd_some {a : List Nat} {i b : Nat} (h : a[i]? = some b) : rd a i = .ok b := by
  unfold rd; rw [h]

theorem rd_drop {a t : List Nat} {i b : Nat} (h : a.drop i = b :: t) : rd a i = .ok b := by
  apply rd_some
  have := congrArg (·[0]?) h
  simpa using this

theorem Holds.before {n : Nat} {line l : List Nat} (h : Holds n line l) {i : Nat} (hi : i ≤ l.length) {c : Nat} (hr : rd line i = .ok c) (hc : c ≠ 0) : i < l.length := by
  rcases Nat.lt_or_ge i l.length with hlt | hge
  · exact hlt
  · have : i = l.length := by omega
    subst this
    rw [rd_some h.zero] at hr
    simp at hr
    omega

theorem Holds.parseTimestamp {n : Nat} {line l : List Nat} (h : Holds n line l) {pos : Nat} (hp : pos ≤ l.length) :
    ∃ v pos', Stil.parseTimestamp line pos = .ok (v, pos') ∧ pos' ≤ l.length + 1 ∧ (v ≠ none → pos' ≤ l.length) := by
  obtain ⟨v, p, h1, h2, h3, _⟩ := h.parseInt hp
  unfold Stil.parseTimestamp
  rw [h1]
  simp only [bind, Except.bind]
  cases v with
  | none => exact ⟨none, p, rfl, by omega, fun h => absurd rfl h⟩
  | some m =>
    have hlt : p < line.length := by have := h.fits; rw [h.length]; omega
    simp only
    rw [rd_ok hlt]
    simp only
    by_cases hc : line[p] = 58
    · rw [if_pos hc]
      have hb := h.before h3 (rd_ok hlt) (by omega)
      obtain ⟨v, p', g1, g2, g3, _⟩ := h.parseInt (pos := p + 1) (by omega)
      rw [g1]
      exact ⟨_, p', rfl, by omega, fun _ => g3⟩
    · rw [if_neg hc]
      exact ⟨none, p + 1, rfl, by omega, fun h => absurd rfl h⟩

theorem Holds.parseEnd {n : Nat} {line l : List Nat} (h : Holds n line l) {start : Option Nat} {pos : Nat} (hp : pos ≤ l.length + 1) (hs : start ≠ none → pos ≤ l.length) :
    ∃ v pos', Stil.parseEnd line start pos = .ok (v, pos') ∧ pos' ≤ l.length + 1 := by
  unfold Stil.parseEnd
  cases start with
  | none => exact ⟨none, pos, rfl, hp⟩
  | some k =>
    have hp' := hs (by simp)
    have hlt : pos < line.length := by have := h.fits; rw [h.length]; omega
    simp only
    rw [rd_ok hlt]
    simp only [bind, Except.bind]
    by_cases hc : line[pos] = 45
    · rw [if_pos hc]
      have hb := h.before hp' (rd_ok hlt) (by omega)
      obtain ⟨v, p', g1, g2, _⟩ := h.parseTimestamp (pos := pos + 1) (by omega)
      exact ⟨v, p', g1, g2⟩
    · rw [if_neg hc]
      exact ⟨none, pos, rfl, hp⟩

theorem closes_ok {line : List Nat} {i : Nat} (h : i + 1 < line.length) : ∃ b, closes line i = .ok b := by
  unfold closes
  rw [rd_ok (show i < line.length by omega)]
  simp only [bind, Except.bind]
  split_ifs
  · rw [rd_ok h]
    exact ⟨_, rfl⟩
  · exact ⟨_, rfl⟩

theorem lastParen_none {s : List Nat} (h : lastParen s = none) : 40 ∉ s := by
  induction s with
  | nil => simp
  | cons c s ih =>
    unfold lastParen at h
    cases hs : lastParen s with
    | some i => rw [hs] at h; simp at h
    | none =>
      rw [hs] at h
      simp only at h
      split_ifs at h with hc
      simp only [List.mem_cons, not_or]
      exact ⟨fun e => hc e.symm, ih hs⟩

theorem lastParen_of_not_mem {s : List Nat} (h : 40 ∉ s) : lastParen s = none := by
  induction s with
  | nil => rfl
  | cons c s ih =>
    simp only [List.mem_cons, not_or] at h
    unfold lastParen
    rw [ih h.2]
    simp only
    rw [if_neg (fun e => h.1 e.symm)]

theorem lastParen_eq (a : List Nat) {b : List Nat} (h : 40 ∉ b) : lastParen (a ++ 40 :: b) = some a.length := by
  induction a with
  | nil =>
    rw [List.nil_append]
    unfold lastParen
    rw [lastParen_of_not_mem h]
    rfl
  | cons c a ih =>
    rw [List.cons_append]
    unfold lastParen
    rw [ih]
    rfl

theorem lastParen_split {s : List Nat} {i : Nat} (h : lastParen s = some i) : ∃ a b, s = a ++ 40 :: b ∧ 40 ∉ b ∧ i = a.length := by
  induction s generalizing i with
  | nil => simp [lastParen] at h
  | cons c s ih =>
    unfold lastParen at h
    cases hs : lastParen s with
    | some j =>
      rw [hs] at h
      simp only [Option.some.injEq] at h
      obtain ⟨a, b, h1, h2, h3⟩ := ih hs
      exact ⟨c :: a, b, by rw [h1]; rfl, h2, by rw [List.length_cons]; omega⟩
    | none =>
      rw [hs] at h
      simp only at h
      split_ifs at h with hc
      simp only [Option.some.injEq] at h
      exact ⟨[], s, by rw [hc]; rfl, lastParen_none hs, by rw [← h]; rfl⟩

/-- An array in which a line from index 9 on ends. -/
structure Ended (n : Nat) (line : List Nat) : Prop where
  length : line.length = n
  zero : ∃ k, 9 ≤ k ∧ k ≤ 100 ∧ line[k]? = some 0

theorem cstr_ended {s : List Nat} {k : Nat} (h : s[k]? = some 0) : ∃ t, cstr s = .ok t ∧ t.length ≤ k := by
  induction s generalizing k with
  | nil => simp at h
  | cons c s ih =>
    unfold cstr
    by_cases hc : c = 0
    · rw [if_pos hc]; exact ⟨[], rfl, by simp⟩
    · rw [if_neg hc]
      cases k with
      | zero => simp at h; omega
      | succ k =>
        obtain ⟨t, h1, h2⟩ := ih (k := k) (by simpa using h)
        rw [h1]
        exact ⟨c :: t, rfl, by simp; omega⟩

theorem Ended.setText {n : Nat} {line : List Nat} (h : Ended n line) : ∃ t, cstr (line.drop 9) = .ok t ∧ setText line = .ok (known t) := by
  obtain ⟨k, h1, h2, h3⟩ := h.zero
  obtain ⟨t, g1, g2⟩ := cstr_ended (s := line.drop 9) (k := k - 9) (by rw [List.getElem?_drop, show 9 + (k - 9) = k by omega]; exact h3)
  refine ⟨t, g1, ?_⟩
  unfold Stil.setText strcpy known
  rw [g1]
  simp only [bind, Except.bind]
  split_ifs
  · rfl
  · rfl
  · omega

theorem Ended.put {n : Nat} {line : List Nat} (h : Ended n line) {i : Nat} (hi : i < n) : Ended n (line.set i 0) := by
  obtain ⟨k, h1, h2, h3⟩ := h.zero
  refine ⟨by rw [List.length_set]; exact h.length, k, h1, h2, ?_⟩
  rw [List.getElem?_set]
  split_ifs with e e'
  · rfl
  · rw [h.length] at e'; omega
  · exact h3

theorem text_no_zero (s : List Nat) : 0 ∉ text s := by
  induction s with
  | nil => simp [text]
  | cons c s ih =>
    unfold text at ih ⊢
    rw [List.takeWhile_cons]
    split_ifs with h
    · simp only [List.mem_cons, not_or]
      exact ⟨fun e => by simp at h; omega, ih⟩
    · simp

theorem text_eq_self {s : List Nat} (h : 0 ∉ s) : text s = s := by
  have := List.takeWhile_append_of_pos (p := (· ≠ 0)) (l₁ := s) (l₂ := []) (by
    intro c hc
    simp only [decide_eq_true_eq]
    intro e
    exact h (e ▸ hc))
  simpa [text] using this

theorem text_append {s t : List Nat} (h : 0 ∉ s) : text (s ++ t) = s ++ text t := by
  unfold text
  rw [List.takeWhile_append_of_pos]
  intro c hc
  simp only [decide_eq_true_eq]
  intro e
  exact h (e ▸ hc)

theorem text_stop (s : List Nat) : s = text s ∨ ∃ t, s = text s ++ 0 :: t := by
  induction s with
  | nil => left; rfl
  | cons c s ih =>
    by_cases hc : c = 0
    · right
      refine ⟨s, ?_⟩
      unfold text
      rw [List.takeWhile_cons_of_neg (by simpa using hc), hc]
      rfl
    · have e : text (c :: s) = c :: text s := by
        unfold text
        rw [List.takeWhile_cons_of_pos (by simpa using hc)]
      rw [e]
      rcases ih with h | ⟨t, h⟩
      · left; rw [← h]
      · right; exact ⟨t, by rw [List.cons_append, ← h]⟩

theorem Holds.text {n : Nat} {line l : List Nat} (h : Holds n line l) : Holds n line (text l) := by
  refine ⟨h.length, by have := text_length l; have := h.short; omega, ?_⟩
  obtain ⟨stale, e⟩ := h.parts
  rcases text_stop l with hl | ⟨t, hl⟩
  · exact ⟨stale, by rw [← hl]; exact e⟩
  · exact ⟨t ++ 0 :: stale, by rw [e]; conv_lhs => rw [hl]
                               simp⟩

theorem title_text {l : List Nat} (h : starts "  TITLE: " l = true) : Spec.Stil.text l = ascii "  TITLE: " ++ value l := by
  have e := of_decide_eq_true h
  conv_lhs => rw [← List.take_append_drop 9 l, e]
  rw [text_append (by decide)]
  rfl

/-- The times never go wrong if the array is a bit longer than the line. -/
theorem Holds.times {n : Nat} {line l : List Nat} (h : Holds n line l) (hs : starts "  TITLE: " l = true) (hroom : l.length + 3 ≤ n) :
    ∃ line' s e, times line = .ok (line', s, e) ∧ Ended n line' := by
  have h9 := starts_length (label_facts (by simp)) hs
  have hend : Ended n line := ⟨h.length, l.length, h9, h.short, h.zero⟩
  unfold Stil.times
  have hc := h.cstr (i := 0) (by omega)
  rw [List.drop_zero, List.drop_zero] at hc
  rw [hc]
  simp only [bind, Except.bind]
  cases hp : lastParen (Spec.Stil.text l) with
  | none => exact ⟨line, -1, -1, rfl, hend⟩
  | some ts =>
    obtain ⟨a, b, e, _, hts⟩ := lastParen_split hp
    have hle := text_length l
    have hlen : (Spec.Stil.text l).length = a.length + (b.length + 1) := by rw [e]; simp
    have hpos : 9 ≤ ts := by
      by_contra hlt
      rw [title_text hs] at e
      have h1 : (ascii "  TITLE: " ++ value l)[a.length]? = some 40 := by rw [e]; simp
      rw [List.getElem?_append_left (by show a.length < 9; omega)] at h1
      have : 40 ∈ ascii "  TITLE: " := List.mem_of_getElem? h1
      revert this
      decide
    obtain ⟨v, p, h1, h2, h3⟩ := h.parseTimestamp (pos := ts + 1) (by omega)
    simp only
    rw [h1]
    simp only
    obtain ⟨w, q, g1, g2⟩ := h.parseEnd (start := v) h2 h3
    rw [g1]
    simp only
    obtain ⟨bl, k1⟩ := closes_ok (line := line) (i := q) (by rw [h.length]; omega)
    rw [k1]
    cases bl with
    | false => exact ⟨line, -1, -1, rfl, hend⟩
    | true =>
      simp only [if_true]
      unfold cutLine
      have hlt : ts - 1 < line.length := by rw [h.length]; omega
      have er : rdI line ((ts : Int) - 1) = .ok line[ts - 1] := by
        unfold rdI
        rw [if_pos (by omega), show ((ts : Int) - 1).toNat = ts - 1 by omega, rd_ok hlt]
      rw [er]
      simp only [bind, Except.bind]
      split_ifs
      · rw [put_ok hlt]
        exact ⟨_, _, _, rfl, hend.put (by omega)⟩
      · rw [put_ok (by rw [h.length]; omega)]
        exact ⟨_, _, _, rfl, hend.put (by omega)⟩

theorem parseTimestamp_time {line w t : List Nat} {pos c k : Nat} (h : line.drop pos = w ++ c :: t) (hw : IsTime w k) (hc : ¬ (48 ≤ c ∧ c ≤ 57)) :
    parseTimestamp line pos = .ok (some k, pos + w.length) := by
  obtain ⟨m, s, rfl, hm, hs, rfl⟩ := hw
  unfold parseTimestamp
  rw [parseInt_number (s := m) (c := 58) (t := s ++ c :: t) (by rw [h]; simp) hm (by omega)]
  simp only [bind, Except.bind]
  have hd : line.drop (pos + m.length) = 58 :: (s ++ c :: t) := by
    rw [← List.drop_drop, h]; simp
  have hd' : line.drop (pos + m.length + 1) = s ++ c :: t := by
    rw [← List.drop_drop, hd]; rfl
  rw [rd_drop hd]
  simp only [if_true]
  rw [parseInt_number hd' hs hc]
  simp only [Option.map_some]
  rw [show pos + m.length + 1 + s.length = pos + (m ++ 58 :: s).length by simp; omega]

theorem closes_true {line t : List Nat} {i : Nat} (h : line.drop i = 41 :: 0 :: t) : closes line i = .ok true := by
  unfold closes
  rw [rd_drop h]
  simp only [bind, Except.bind, if_true]
  rw [rd_drop (b := 0) (t := t) (by rw [← List.drop_drop, h]; rfl)]
  rfl

theorem drop_text {line l0 a b stale : List Nat} (h : line = l0 ++ 0 :: stale) (e : l0 = a ++ b) {k : Nat} (hk : k = a.length) : line.drop k = b ++ 0 :: stale := by
  subst hk
  rw [h, e, List.append_assoc, List.drop_left]

theorem cutLine_eq {n : Nat} {line a b stale : List Nat} (ha : a ≠ []) (hz : 0 ∉ a) (hn : line.length = n) (h : line = ascii "  TITLE: " ++ (a ++ b) ++ 0 :: stale) (hb : b ≠ []) :
    ∃ line', cutLine line (9 + a.length) = .ok line' ∧ cstr (line'.drop 9) = .ok (unspaced a) := by
  unfold cutLine
  obtain ⟨a', x, rfl⟩ : ∃ a' x, a = a' ++ [x] := ⟨a.dropLast, a.getLast ha, (List.dropLast_concat_getLast ha).symm⟩
  have hl : (a' ++ [x]).length = a'.length + 1 := by simp
  have hlab : (ascii "  TITLE: ").length = 9 := by decide
  have hd : line.drop (9 + a'.length) = x :: (b ++ 0 :: stale) := by
    rw [h]
    rw [show ascii "  TITLE: " ++ (a' ++ [x] ++ b) ++ 0 :: stale = (ascii "  TITLE: " ++ a') ++ (x :: (b ++ 0 :: stale)) by simp]
    rw [List.drop_left' (by rw [List.length_append, hlab])]
  have hr : rdI line (((9 + (a' ++ [x]).length : Nat) : Int) - 1) = .ok x := by
    unfold rdI
    rw [if_pos (by omega), show (((9 + (a' ++ [x]).length : Nat) : Int) - 1).toNat = 9 + a'.length by omega]
    exact rd_drop hd
  have hlen : line.length = 9 + (a'.length + 1 + b.length) + (stale.length + 1) := by
    rw [h]; simp only [List.length_append, List.length_cons, List.length_nil, hlab]
  rw [hr]
  simp only [bind, Except.bind]
  unfold unspaced
  rw [List.getLast?_concat, List.dropLast_concat]
  simp only [List.mem_append, not_or] at hz
  by_cases hx : x = 32
  · rw [if_pos hx, if_pos (by rw [hx]), put_ok (by omega)]
    refine ⟨_, rfl, ?_⟩
    rw [set_parts (by omega)]
    rw [show 9 + (a' ++ [x]).length - 1 = 9 + a'.length by omega]
    have ht : line.take (9 + a'.length) = ascii "  TITLE: " ++ a' := by
      rw [h, show ascii "  TITLE: " ++ (a' ++ [x] ++ b) ++ 0 :: stale = (ascii "  TITLE: " ++ a') ++ (x :: (b ++ 0 :: stale)) by simp]
      rw [List.take_left' (by rw [List.length_append, hlab])]
    rw [ht, List.append_assoc, List.drop_left' hlab, cstr_eq, text_eq_self hz.1]
  · rw [if_neg hx, if_neg (by simpa using hx), put_ok (by omega)]
    refine ⟨_, rfl, ?_⟩
    rw [set_parts (by omega)]
    have ht : line.take (9 + (a' ++ [x]).length) = ascii "  TITLE: " ++ (a' ++ [x]) := by
      rw [h, show ascii "  TITLE: " ++ (a' ++ [x] ++ b) ++ 0 :: stale = (ascii "  TITLE: " ++ (a' ++ [x])) ++ (b ++ 0 :: stale) by simp]
      rw [List.take_left' (by rw [List.length_append, hlab])]
    rw [ht, List.append_assoc, List.drop_left' hlab, cstr_eq, text_eq_self (by simp only [List.mem_append, not_or]; exact hz)]

theorem number_paren {s : List Nat} (h : IsNumber s) : 40 ∉ s := fun hm => by have := h.2.1 40 hm; omega

theorem time_paren {s : List Nat} {k : Nat} (h : IsTime s k) : 40 ∉ s := by
  obtain ⟨m, n, rfl, h1, h2, _⟩ := h
  simp only [List.mem_append, List.mem_cons, not_or]
  exact ⟨number_paren h1, by decide, number_paren h2⟩

/-- The times are those of the title. -/
theorem Holds.titled {n : Nat} {line l : List Nat} (h : Holds n line l) (hs : starts "  TITLE: " l = true) {title : List Nat} {s e : Int} (ht : Titled (value l) title s e) :
    ∃ line' t, Stil.times line = .ok (line', s, e) ∧ Stil.cstr (line'.drop 9) = .ok t ∧ title = known t := by
  have h9 := starts_length (label_facts (by simp)) hs
  have htext := title_text hs
  obtain ⟨stale, hparts⟩ := h.text.parts
  have hlab : (ascii "  TITLE: ").length = 9 := by decide
  have hcs  : Stil.cstr line = .ok (Spec.Stil.text l) := by
    have := h.cstr (i := 0) (by omega)
    rwa [List.drop_zero, List.drop_zero] at this
  have hwhole  : Stil.cstr (line.drop 9) = .ok (value l) := h.cstr h9
  have hno : 40 ∉ ascii "  TITLE: " := by decide
  have hzero : 0 ∉ value l := text_no_zero _
  unfold Stil.times
  rw [hcs]
  simp only [bind, Except.bind]
  rw [htext] at hparts ⊢
  generalize hv : value l = v at *
  cases ht with
  | none h40 =>
    rw [lastParen_of_not_mem (by simp only [List.mem_append, not_or]; exact ⟨hno, h40⟩)]
    exact ⟨line, v, rfl, hwhole, rfl⟩
  | @other a b h40 hb hdig =>
    rw [← List.append_assoc, lastParen_eq _ h40]
    simp only
    have hd := drop_text (a := ascii "  TITLE: " ++ a ++ [40]) (b := b) (k := (ascii "  TITLE: " ++ a).length + 1) hparts (by simp) (by simp; omega)
    have hz : 0 ∉ b := fun hm => hzero (by simp [hm])
    obtain ⟨c, t, hct, hnd, hcl⟩ : ∃ c t, b ++ 0 :: stale = c :: t ∧ ¬ (48 ≤ c ∧ c ≤ 57) ∧ (c = 41 → ∃ z t', t = z :: t' ∧ z ≠ 0) := by
      cases b with
      | nil => exact ⟨0, stale, rfl, by omega, by omega⟩
      | cons c b =>
        refine ⟨c, b ++ 0 :: stale, rfl, hdig c (by simp), fun e => ?_⟩
        cases b with
        | nil => exact absurd (by rw [e]) hb
        | cons z b => exact ⟨z, b ++ 0 :: stale, rfl, fun e => hz (by rw [e]; simp)⟩
    rw [hct] at hd
    unfold Stil.parseTimestamp
    rw [parseInt_none hd hnd]
    simp only [bind, Except.bind]
    unfold Stil.parseEnd
    simp only
    have hclose : closes line ((ascii "  TITLE: " ++ a).length + 1) = .ok false := by
      unfold closes
      rw [rd_drop hd]
      simp only [bind, Except.bind]
      by_cases hc : c = 41
      · rw [if_pos hc]
        obtain ⟨z, t', e1, e2⟩ := hcl hc
        rw [rd_drop (b := z) (t := t') (by rw [← List.drop_drop, hd, ← e1]; rfl)]
        simp only [Except.ok.injEq, beq_eq_false_iff_ne, ne_eq]
        exact e2
      · rw [if_neg hc]
    rw [hclose]
    exact ⟨line, _, rfl, hwhole, rfl⟩
  | @start a w k ha hw =>
    have hw40 : 40 ∉ w ++ [41] := by simp only [List.mem_append, not_or]; exact ⟨time_paren hw, by decide⟩
    rw [← List.append_assoc, lastParen_eq _ hw40]
    simp only
    have hd := drop_text (a := ascii "  TITLE: " ++ a ++ [40]) (b := w ++ [41]) (k := (ascii "  TITLE: " ++ a).length + 1) hparts (by simp) (by simp; omega)
    rw [List.append_assoc] at hd
    rw [parseTimestamp_time (t := 0 :: stale) (c := 41) hd hw (by omega)]
    have hd2 : line.drop ((ascii "  TITLE: " ++ a).length + 1 + w.length) = 41 :: 0 :: stale := by
      rw [← List.drop_drop, hd]; simp
    unfold Stil.parseEnd
    simp only
    rw [rd_drop hd2]
    simp only [bind, Except.bind]
    rw [if_neg (by decide)]
    simp only
    rw [closes_true hd2]
    simp only [if_true]
    obtain ⟨line', g1, g2⟩ := cutLine_eq (n := n) (line := line) (a := a) (b := 40 :: (w ++ [41])) (stale := stale) ha (fun hm => hzero (by simp [hm])) h.length hparts (by simp)
    rw [List.length_append, hlab, g1]
    exact ⟨line', _, rfl, g2, rfl⟩
  | @range a w v k m ha hw hv' =>
    have hw40 : 40 ∉ w ++ 45 :: (v ++ [41]) := by
      simp only [List.mem_append, List.mem_cons, not_or]; exact ⟨time_paren hw, by decide, time_paren hv', by decide, by simp⟩
    rw [← List.append_assoc, lastParen_eq _ hw40]
    simp only
    have hd := drop_text (a := ascii "  TITLE: " ++ a ++ [40]) (b := w ++ 45 :: (v ++ [41])) (k := (ascii "  TITLE: " ++ a).length + 1) hparts (by simp) (by simp; omega)
    have hd1 : line.drop ((ascii "  TITLE: " ++ a).length + 1) = w ++ 45 :: (v ++ 41 :: 0 :: stale) := by rw [hd]; simp
    rw [parseTimestamp_time (t := v ++ 41 :: 0 :: stale) (c := 45) hd1 hw (by omega)]
    have hd2 : line.drop ((ascii "  TITLE: " ++ a).length + 1 + w.length) = 45 :: (v ++ 41 :: 0 :: stale) := by
      rw [← List.drop_drop, hd1]; simp
    have hd3 : line.drop ((ascii "  TITLE: " ++ a).length + 1 + w.length + 1) = v ++ 41 :: 0 :: stale := by
      rw [← List.drop_drop, hd2]; rfl
    have hd4 : line.drop ((ascii "  TITLE: " ++ a).length + 1 + w.length + 1 + v.length) = 41 :: 0 :: stale := by
      rw [← List.drop_drop, hd3]; simp
    unfold Stil.parseEnd
    simp only
    rw [rd_drop hd2]
    simp only [bind, Except.bind, if_true]
    rw [parseTimestamp_time (t := 0 :: stale) (c := 41) hd3 hv' (by omega)]
    simp only
    rw [closes_true hd4]
    simp only [if_true]
    obtain ⟨line', g1, g2⟩ := cutLine_eq (n := n) (line := line) (a := a) (b := 40 :: (w ++ 45 :: (v ++ [41]))) (stale := stale) ha (fun hm => hzero (by simp [hm])) h.length hparts (by simp)
    rw [List.length_append, hlab, g1]
    exact ⟨line', _, rfl, g2, rfl⟩

end Asap.Stil
