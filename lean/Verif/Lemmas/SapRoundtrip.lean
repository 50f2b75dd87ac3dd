import Verif.Lemmas.SapHeader
import Verif.Spec.Info

/-! Reading back the lines written by `WriteSapHeader`. -/

namespace Asap.Sap
open Asap Asap.Spec

theorem rd_off (p t : List Nat) (k : Nat) : rd (p ++ t) (p.length + k) = rd t k := Duration.rd_append p t k

theorem parseText_quoted (P q v : List Nat) :
    parseText (P ++ (34 :: (v ++ 34 :: q))) (some P.length) (P.length + (v.length + 2)) =
      .ok (if v = ascii "<?>" then [] else v) := by
  unfold parseText
  simp only []
  rw [if_neg (by omega), rd_mid, ok_bind, if_neg (by omega)]
  have e : ((P.length + (v.length + 2) : Nat) : Int) - 1 = ((P.length + (v.length + 1) : Nat) : Int) := by omega
  have e2 : P ++ (34 :: (v ++ 34 :: q)) = (P ++ 34 :: v) ++ 34 :: q := by simp
  have hr : rdI (P ++ (34 :: (v ++ 34 :: q))) (((P.length + (v.length + 2) : Nat) : Int) - 1) = .ok 34 := by
    rw [e]; unfold rdI
    rw [if_pos (by omega), Int.toNat_natCast, e2]
    have := rd_mid (P ++ 34 :: v) q 34
    simp only [List.length_append, List.length_cons] at this
    exact this
  rw [hr, ok_bind, if_neg (by omega)]
  have hu : isUnknown (P ++ (34 :: (v ++ 34 :: q))) P.length (((P.length + (v.length + 2) : Nat) : Int) - P.length - 2) =
      .ok (decide (v = ascii "<?>")) := by
    have el : ((P.length + (v.length + 2) : Nat) : Int) - P.length - 2 = v.length := by omega
    rw [el]
    unfold isUnknown
    match v with
    | [a, b, c] =>
      rw [if_pos (by simp), rd_off, rd_off, rd_off]
      simp only [List.cons_append, List.nil_append]
      show (if a ≠ 60 then (.ok false : M Bool) else if b ≠ 63 then .ok false else .ok (decide (c = 62))) = _
      have hv : ([a, b, c] = ascii "<?>") ↔ a = 60 ∧ b = 63 ∧ c = 62 := by
        show [a, b, c] = [60, 63, 62] ↔ _
        simp
      simp only [hv]
      split
      · simp [*]
      · split <;> simp_all
    | [] => rw [if_neg (by simp)]; rfl
    | [_] => rw [if_neg (by simp)]; simp [ascii]
    | [_, _] => rw [if_neg (by simp)]; simp [ascii]
    | a :: b :: c :: d :: t =>
      rw [if_neg (by simp; omega)]
      simp [ascii]
  rw [hu, ok_bind]
  by_cases hv : v = ascii "<?>"
  · simp [hv]
  · rw [if_neg (by simp [hv]), if_neg hv]
    have el : (((P.length + (v.length + 2) : Nat) : Int) - P.length - 2).toNat = v.length := by omega
    rw [el]
    have := slice_mid (P ++ [34]) v (34 :: q)
    simp only [List.append_assoc, List.length_append, List.length_singleton, List.cons_append, List.nil_append] at this
    exact this

theorem argOk_quoted {t : List Nat} (h : ∀ c ∈ t, TextChar c) : ArgOk (quoted t) := by
  have hv : ∀ c ∈ (if t.length = 0 then ascii "<?>" else t), ArgChar c := by
    split
    · unfold ArgChar; decide
    · intro c hc
      have := h c hc
      unfold TextChar SapChar at this
      unfold ArgChar isValidChar
      simp; omega
  refine ⟨?_, ⟨34, _, rfl, by omega⟩, ?_⟩
  · intro x hx
    unfold quoted at hx
    simp only [List.cons_append, List.mem_cons, List.mem_append, List.not_mem_nil, or_false] at hx
    rcases hx with rfl | hx | rfl
    · unfold ArgChar; decide
    · exact hv x hx
    · unfold ArgChar; decide
  · intro x hx
    unfold quoted at hx
    rw [List.getLast?_append] at hx
    simp at hx
    omega

theorem handles_prefix (p tag a q : List Nat) :
    p ++ (lineBytes (tag, some a) ++ q) = (p ++ tag ++ [32]) ++ (a ++ 13 :: 10 :: q) := by
  simp [lineBytes, argBytes]

theorem text_read {p tag q t : List Nat} (hne : t ≠ ascii "<?>") :
    parseText (p ++ (lineBytes (tag, some (quoted t)) ++ q)) (argStart (p.length + tag.length) (some (quoted t)))
      (argStop (p.length + tag.length) (some (quoted t))) = .ok t := by
  rw [handles_prefix]
  have := parseText_quoted (p ++ tag ++ [32]) (13 :: 10 :: q) (if t.length = 0 then ascii "<?>" else t)
  have e1 : p.length + tag.length + 1 = (p ++ tag ++ [32]).length := by simp [Nat.add_assoc]
  simp only [argStart, argStop]
  rw [e1]
  have e2 : (quoted t).length = (if t.length = 0 then ascii "<?>" else t).length + 2 := by simp [quoted]
  have e3 : quoted t ++ 13 :: 10 :: q = 34 :: ((if t.length = 0 then ascii "<?>" else t) ++ 34 :: 13 :: 10 :: q) := by
    simp [quoted]
  rw [e2, e3, this]
  by_cases ht : t.length = 0
  · rw [if_pos ht, if_pos rfl]
    have := List.eq_nil_of_length_eq_zero ht
    rw [this]
  · rw [if_neg ht, if_neg hne]

/-! Decimal numbers -/

def decVal (l : List Nat) (r : Nat) : Nat := l.foldl (fun r c => r * 10 + (c - 48)) r

theorem le_decVal (l : List Nat) (r : Nat) : r ≤ decVal l r := by
  induction l generalizing r with
  | nil => exact Nat.le_refl _
  | cons c l ih =>
    have := ih (r * 10 + (c - 48))
    show r ≤ decVal l (r * 10 + (c - 48))
    omega

theorem parseDecLoop_run (P l q : List Nat) (maxVal r : Nat) (hl : ∀ c ∈ l, 48 ≤ c ∧ c ≤ 57)
    (hm : decVal l r ≤ maxVal) :
    parseDecLoop (P ++ (l ++ q)) maxVal P.length r l.length = .ok (decVal l r) := by
  induction l generalizing P r with
  | nil => rfl
  | cons c l ih =>
    have hc := hl c (by simp)
    have hm' : decVal l (r * 10 + (c - 48)) ≤ maxVal := hm
    have := le_decVal l (r * 10 + (c - 48))
    rw [List.cons_append, List.length_cons, parseDecLoop, rd_mid, ok_bind, if_neg (by omega)]
    simp only []
    rw [if_neg (by omega)]
    have := ih (P ++ [c]) (r * 10 + (c - 48)) (fun x hx => hl x (by simp [hx])) hm'
    simp only [List.append_assoc, List.length_append, List.length_singleton, List.cons_append, List.nil_append] at this
    exact this

theorem decTextF_spec (f v : Nat) (h : v < f) :
    decVal (decTextF f v) 0 = v ∧ (∀ c ∈ decTextF f v, 48 ≤ c ∧ c ≤ 57) ∧ decTextF f v ≠ [] := by
  induction f generalizing v with
  | zero => omega
  | succ f ih =>
    unfold decTextF
    split
    · obtain ⟨h1, h2, h3⟩ := ih (v / 10) (by omega)
      refine ⟨?_, ?_, by simp⟩
      · unfold decVal at *
        rw [List.foldl_append, h1]
        simp; omega
      · intro c hc
        rcases List.mem_append.1 hc with hc | hc
        · exact h2 c hc
        · simp at hc; omega
    · refine ⟨by simp [decVal], ?_, by simp⟩
      intro c hc; simp at hc; omega

theorem argOk_of_visible {a : List Nat} (h : ∀ c ∈ a, 32 < c ∧ ArgChar c) (hne : a ≠ []) : ArgOk a := by
  refine ⟨fun x hx => (h x hx).2, ?_, fun x hx => (h x (List.mem_of_getLast? hx)).1⟩
  cases a with
  | nil => exact absurd rfl hne
  | cons c t => exact ⟨c, t, rfl, (h c (by simp)).1⟩

theorem digit_visible {c : Nat} (h : 48 ≤ c ∧ c ≤ 57) : 32 < c ∧ ArgChar c := by
  refine ⟨by omega, ?_⟩
  unfold ArgChar isValidChar; simp; omega

theorem argOk_dec (v : Nat) : ArgOk (decText v) := by
  obtain ⟨h1, h2, h3⟩ := decTextF_spec (v + 1) v (by omega)
  exact argOk_of_visible (fun c hc => digit_visible (h2 c hc)) h3

theorem dec_read {p tag q : List Nat} {v lo hi : Nat} (h1 : lo ≤ v) (h2 : v ≤ hi) :
    parseDec (p ++ (lineBytes (tag, some (decText v)) ++ q)) (argStart (p.length + tag.length) (some (decText v)))
      (argStop (p.length + tag.length) (some (decText v))) lo hi = .ok v := by
  rw [handles_prefix]
  obtain ⟨g1, g2, g3⟩ := decTextF_spec (v + 1) v (by omega)
  have e1 : p.length + tag.length + 1 = (p ++ tag ++ [32]).length := by simp [Nat.add_assoc]
  simp only [argStart, argStop]
  rw [e1]
  unfold parseDec
  simp only []
  rw [Nat.add_sub_cancel_left]
  have := parseDecLoop_run (p ++ tag ++ [32]) (decText v) (13 :: 10 :: q) hi 0 g2 (by
    show decVal (decTextF (v + 1) v) 0 ≤ hi; omega)
  rw [this, ok_bind]
  show (if decVal (decTextF (v + 1) v) 0 < lo then _ else Except.ok (decVal (decTextF (v + 1) v) 0)) = _
  rw [g1, if_neg (by omega)]

/-! Hexadecimal numbers -/

theorem hexDigit_hexChar {d : Nat} (h : d < 16) : hexDigit (hexChar d) = some d := by
  unfold hexDigit hexChar
  split
  · rw [if_pos (by omega)]; congr 1; omega
  · rw [if_neg (by omega), if_pos (by omega)]; congr 1; omega

theorem hexChar_visible {d : Nat} (h : d < 16) : 32 < hexChar d ∧ ArgChar (hexChar d) := by
  unfold ArgChar isValidChar hexChar
  split
  · simp; omega
  · simp; omega

theorem argOk_hex (v : Nat) : ArgOk (hexText v) := by
  refine argOk_of_visible ?_ (by simp [hexText])
  intro c hc
  simp only [hexText, List.mem_cons, List.not_mem_nil, or_false] at hc
  rcases hc with rfl | rfl | rfl | rfl <;> exact hexChar_visible (by omega)

theorem parseHexLoop_step (P q : List Nat) (d r n : Nat) (hd : d < 16) (hr : r ≤ 0xfff) :
    parseHexLoop (P ++ (hexChar d :: q)) P.length r (n + 1) =
      parseHexLoop ((P ++ [hexChar d]) ++ q) (P ++ [hexChar d]).length (r * 16 + d) n := by
  rw [parseHexLoop, rd_mid, ok_bind, if_neg (by omega), hexDigit_hexChar hd]
  simp

theorem hex_read {p tag q : List Nat} {v : Nat} (h : v ≤ 0xffff) :
    parseHex (p ++ (lineBytes (tag, some (hexText v)) ++ q)) (argStart (p.length + tag.length) (some (hexText v)))
      (argStop (p.length + tag.length) (some (hexText v))) = .ok v := by
  rw [handles_prefix]
  have e1 : p.length + tag.length + 1 = (p ++ tag ++ [32]).length := by simp [Nat.add_assoc]
  simp only [argStart, argStop]
  rw [e1]
  unfold parseHex
  simp only []
  rw [Nat.add_sub_cancel_left]
  simp only [hexText, List.length_cons, List.length_nil, List.cons_append, List.nil_append]
  rw [parseHexLoop_step _ _ _ _ _ (by omega) (by omega), parseHexLoop_step _ _ _ _ _ (by omega) (by omega),
    parseHexLoop_step _ _ _ _ _ (by omega) (by omega), parseHexLoop_step _ _ _ _ _ (by omega) (by omega)]
  simp only [parseHexLoop]
  congr 1
  omega

end Asap.Sap

namespace Asap.Sap
open Asap Asap.Spec

/-! Times -/

theorem hasStringAt_self (P s q : List Nat) : hasStringAt (P ++ (s ++ q)) P.length s = .ok true := by
  induction s generalizing P with
  | nil => rfl
  | cons c s ih =>
    rw [hasStringAt, List.cons_append, rd_mid, ok_bind, if_neg (by simp)]
    have := ih (P ++ [c])
    simp only [List.append_assoc, List.length_append, List.length_singleton, List.cons_append, List.nil_append] at this
    exact this

theorem hasStringAt_head {m s : List Nat} {i b c : Nat} (h : rd m i = .ok b) (hb : b ≠ c) :
    hasStringAt m i (c :: s) = .ok false := by
  rw [hasStringAt, h, ok_bind, if_pos (by omega)]

/-- The argument of a `TIME` line. -/
def timeArg (d : Nat) (loop : Bool) : List Nat :=
  Duration.durationToString (d : Int) ++ (if loop then ascii " LOOP" else [])

theorem hasLoop_timeArg (P q : List Nat) {d : Nat} (hd : d < 6000000) (loop : Bool) :
    hasLoop (P ++ (timeArg d loop ++ q)) P.length (P.length + (timeArg d loop).length) = .ok loop := by
  obtain ⟨hl1, hl2, hc⟩ : 5 ≤ (Duration.durationToString (d : Int)).length ∧
    (Duration.durationToString (d : Int)).length ≤ 9 ∧ ∀ c ∈ Duration.durationToString (d : Int), 32 < c ∧ c < 127 :=
    Duration.durationToString_chars d hd
  unfold hasLoop
  cases loop with
  | true =>
    have hlen : (timeArg d true).length = (Duration.durationToString (d : Int)).length + 5 := by
      simp [timeArg, ascii]
    rw [if_pos (by omega)]
    have := hasStringAt_self (P ++ Duration.durationToString (d : Int)) (ascii " LOOP") q
    have e : P ++ (timeArg d true ++ q) = P ++ Duration.durationToString (d : Int) ++ (ascii " LOOP" ++ q) := by
      simp [timeArg]
    have e2 : P.length + (timeArg d true).length - 5 = (P ++ Duration.durationToString (d : Int)).length := by
      rw [List.length_append]; omega
    rw [e, e2, this]
  | false =>
    have ht : timeArg d false = Duration.durationToString (d : Int) := by simp [timeArg]
    rw [ht]
    generalize Duration.durationToString (d : Int) = t at *
    by_cases h5 : t.length > 5
    · rw [if_pos (by omega)]
      have e2 : P.length + t.length - 5 = P.length + (t.length - 5) := by omega
      have hk : t.length - 5 < t.length := by omega
      have hr : rd (P ++ (t ++ q)) (P.length + t.length - 5) = .ok t[t.length - 5] := by
        rw [e2, rd_off]
        unfold rd
        rw [List.getElem?_append_left hk, List.getElem?_eq_getElem hk]
      have := (hc _ (List.getElem_mem hk)).1
      show hasStringAt _ _ [32, 76, 79, 79, 80] = _
      exact hasStringAt_head hr (by omega)
    · rw [if_neg (by omega)]

theorem tagTime_read {p tag q : List Nat} {d : Nat} (hd : d < 6000000) (loop : Bool) (s : St)
    (hi : s.durationIndex < 32) (hlp : s.info.loops s.durationIndex = false) :
    tagTime (p ++ (lineBytes (tag, some (timeArg d loop)) ++ q)) s
      (argStart (p.length + tag.length) (some (timeArg d loop)))
      (argStop (p.length + tag.length) (some (timeArg d loop))) =
    .ok { s with info := { s.info with durations := upd s.info.durations s.durationIndex d
                                       loops := upd s.info.loops s.durationIndex loop }
                 durationIndex := s.durationIndex + 1 } := by
  rw [handles_prefix]
  have e1 : p.length + tag.length + 1 = (p ++ tag ++ [32]).length := by simp [Nat.add_assoc]
  simp only [argStart, argStop]
  rw [e1]
  generalize p ++ tag ++ [32] = P
  unfold tagTime
  rw [if_neg (by unfold maxSongs; omega)]
  simp only []
  rw [hasLoop_timeArg P _ hd, ok_bind]
  have hsl : slice (P ++ (timeArg d loop ++ 13 :: 10 :: q)) P.length
      ((if loop = true then P.length + (timeArg d loop).length - 5 else P.length + (timeArg d loop).length) - P.length) =
      .ok (Duration.durationToString (d : Int)) := by
    have := slice_mid P (Duration.durationToString (d : Int)) ((if loop then ascii " LOOP" else []) ++ 13 :: 10 :: q)
    have e : timeArg d loop ++ 13 :: 10 :: q =
      Duration.durationToString (d : Int) ++ ((if loop then ascii " LOOP" else []) ++ 13 :: 10 :: q) := by
        simp [timeArg]
    rw [e, ← this]
    congr 1
    cases loop <;> simp [timeArg, ascii] <;> omega
  rw [hsl, ok_bind, Duration.roundtrip d hd, ok_bind]
  cases loop with
  | true => rfl
  | false =>
    have e : upd s.info.loops s.durationIndex false = s.info.loops := by
      funext k; unfold upd; split
      · rename_i h; rw [h, hlp]
      · rfl
    rw [e]; rfl

theorem argOk_time {d : Nat} (hd : d < 6000000) (loop : Bool) : ArgOk (timeArg d loop) := by
  obtain ⟨hl1, hl2, hc⟩ := Duration.durationToString_chars d hd
  have hv := Duration.durationToString_valid d hd
  unfold timeArg
  generalize Duration.durationToString (d : Int) = t at *
  have hloop : ∀ c ∈ (if loop = true then ascii " LOOP" else []), ArgChar c := by
    cases loop
    · simp
    · unfold ArgChar; decide
  refine ⟨?_, ?_, ?_⟩
  · intro x hx
    rcases List.mem_append.1 hx with hx | hx
    · have := hv x hx
      unfold ArgChar isValidChar; simp; omega
    · exact hloop x hx
  · cases t with
    | nil => simp at hl1
    | cons c t => exact ⟨c, _, rfl, (hc c (by simp)).1⟩
  · intro x hx
    cases loop with
    | true =>
      rw [List.getLast?_append] at hx
      simp [ascii] at hx
      omega
    | false =>
      simp at hx
      exact (hc x (List.mem_of_getLast? hx)).1

/-! ## The whole header -/

theorem lineOk_of {tag : List Nat} {a : Option (List Nat)} (h1 : tag.all (fun x => 32 < x ∧ x < 255) = true)
    (h2 : tag ≠ []) (h3 : ∀ x, a = some x → ArgOk x) : LineOk (tag, a) := by
  refine ⟨?_, h2, h3⟩
  intro x hx
  simpa using List.all_eq_true.1 h1 x hx

theorem runs_author {s : St} {t : List Nat} (h : ∀ c ∈ t, TextChar c) (hne : t ≠ ascii "<?>") :
    Runs [(ascii "AUTHOR", some (quoted t))] s { s with info := { s.info with author := t } } := by
  refine .single (lineOk_of rfl (by decide) (by rintro x ⟨rfl⟩; exact argOk_quoted h)) ?_
  intro p q
  unfold handleTag
  dsimp only
  rw [if_pos rfl]
  rw [text_read hne, ok_bind]

theorem runs_title {s : St} {t : List Nat} (h : ∀ c ∈ t, TextChar c) (hne : t ≠ ascii "<?>") :
    Runs [(ascii "NAME", some (quoted t))] s { s with info := { s.info with title := t } } := by
  refine .single (lineOk_of rfl (by decide) (by rintro x ⟨rfl⟩; exact argOk_quoted h)) ?_
  intro p q
  unfold handleTag
  dsimp only
  rw [if_neg (by decide), if_pos rfl]
  rw [text_read hne, ok_bind]

theorem runs_date {s : St} {t : List Nat} (h : ∀ c ∈ t, TextChar c) (hne : t ≠ ascii "<?>") :
    Runs [(ascii "DATE", some (quoted t))] s { s with info := { s.info with date := t } } := by
  refine .single (lineOk_of rfl (by decide) (by rintro x ⟨rfl⟩; exact argOk_quoted h)) ?_
  intro p q
  unfold handleTag
  dsimp only
  rw [if_neg (by decide), if_neg (by decide), if_pos rfl]
  rw [text_read hne, ok_bind]

theorem runs_songs {s : St} {v : Nat} (h1 : 1 ≤ v) (h2 : v ≤ 32) :
    Runs [(ascii "SONGS", some (decText v))] s { s with info := { s.info with songs := v } } := by
  refine .single (lineOk_of rfl (by decide) (by rintro x ⟨rfl⟩; exact argOk_dec v)) ?_
  intro p q
  unfold handleTag
  dsimp only
  rw [if_neg (by decide), if_neg (by decide), if_neg (by decide), if_neg (by decide), if_pos rfl]
  rw [dec_read h1 (by unfold maxSongs; omega), ok_bind]

theorem runs_defsong {s : St} {v : Nat} (h2 : v < 32) :
    Runs [(ascii "DEFSONG", some (decText v))] s { s with info := { s.info with defaultSong := v } } := by
  refine .single (lineOk_of rfl (by decide) (by rintro x ⟨rfl⟩; exact argOk_dec v)) ?_
  intro p q
  unfold handleTag
  dsimp only
  rw [if_neg (by decide), if_neg (by decide), if_neg (by decide), if_neg (by decide), if_neg (by decide), if_pos rfl]
  rw [dec_read (by omega) (by unfold maxSongs; omega), ok_bind]

theorem runs_type {s : St} {v : Nat} (h : v = 66 ∨ v = 67 ∨ v = 68 ∨ v = 83) :
    Runs [(ascii "TYPE", some [v])] s { s with type := v } := by
  refine .single (lineOk_of rfl (by decide) (by
    rintro x ⟨rfl⟩
    refine argOk_of_visible ?_ (by simp)
    intro c hc
    simp at hc; subst hc
    unfold ArgChar isValidChar
    simp; omega)) ?_
  intro p q
  unfold handleTag
  dsimp only
  rw [if_neg (by decide), if_neg (by decide), if_neg (by decide), if_neg (by decide), if_neg (by decide), if_neg (by decide),
    if_pos rfl]
  simp only [argStart]
  rw [handles_prefix]
  have := rd_mid (p ++ ascii "TYPE" ++ [32]) (13 :: 10 :: q) v
  simp only [List.length_append, List.length_singleton] at this
  rw [List.singleton_append, this, ok_bind]

theorem runs_fastplay {s : St} {v : Nat} (h1 : 1 ≤ v) (h2 : v ≤ 32767) :
    Runs [(ascii "FASTPLAY", some (decText v))] s { s with info := { s.info with fastplay := v } } := by
  refine .single (lineOk_of rfl (by decide) (by rintro x ⟨rfl⟩; exact argOk_dec v)) ?_
  intro p q
  unfold handleTag
  dsimp only
  rw [if_neg (by decide), if_neg (by decide), if_neg (by decide), if_neg (by decide), if_neg (by decide), if_neg (by decide),
    if_neg (by decide), if_pos rfl]
  rw [dec_read h1 (by omega), ok_bind]

theorem runs_music {s : St} {v : Int} (h1 : -1 ≤ v) (h2 : v ≤ 0xffff) (hs : s.info.music = -1) :
    Runs (hexLines (ascii "MUSIC") v) s { s with info := { s.info with music := v } } := by
  unfold hexLines
  split
  · have : v = -1 := by omega
    rw [this, ← hs]; exact .nil _
  refine .single (lineOk_of rfl (by decide) (by rintro x ⟨rfl⟩; exact argOk_hex _)) ?_
  intro p q
  unfold handleTag
  dsimp only
  rw [if_neg (by decide), if_neg (by decide), if_neg (by decide), if_neg (by decide), if_neg (by decide), if_neg (by decide),
    if_neg (by decide), if_neg (by decide), if_pos rfl]
  rw [hex_read (by omega), ok_bind, Int.toNat_of_nonneg (by omega)]

theorem runs_init {s : St} {v : Int} (h1 : -1 ≤ v) (h2 : v ≤ 0xffff) (hs : s.info.init = -1) :
    Runs (hexLines (ascii "INIT") v) s { s with info := { s.info with init := v } } := by
  unfold hexLines
  split
  · have : v = -1 := by omega
    rw [this, ← hs]; exact .nil _
  refine .single (lineOk_of rfl (by decide) (by rintro x ⟨rfl⟩; exact argOk_hex _)) ?_
  intro p q
  unfold handleTag
  dsimp only
  rw [if_neg (by decide), if_neg (by decide), if_neg (by decide), if_neg (by decide), if_neg (by decide), if_neg (by decide),
    if_neg (by decide), if_neg (by decide), if_neg (by decide), if_pos rfl]
  rw [hex_read (by omega), ok_bind, Int.toNat_of_nonneg (by omega)]

theorem runs_player {s : St} {v : Int} (h1 : -1 ≤ v) (h2 : v ≤ 0xffff) (hs : s.info.player = -1) :
    Runs (hexLines (ascii "PLAYER") v) s { s with info := { s.info with player := v } } := by
  unfold hexLines
  split
  · have : v = -1 := by omega
    rw [this, ← hs]; exact .nil _
  refine .single (lineOk_of rfl (by decide) (by rintro x ⟨rfl⟩; exact argOk_hex _)) ?_
  intro p q
  unfold handleTag
  dsimp only
  rw [if_neg (by decide), if_neg (by decide), if_neg (by decide), if_neg (by decide), if_neg (by decide), if_neg (by decide),
    if_neg (by decide), if_neg (by decide), if_neg (by decide), if_neg (by decide), if_pos rfl]
  rw [hex_read (by omega), ok_bind, Int.toNat_of_nonneg (by omega)]

theorem runs_covox {s : St} {v : Int} (h1 : v = -1 ∨ (v = 0xd600 ∧ s.info.channels = 2)) (hs : s.info.covoxAddr = -1) :
    Runs (hexLines (ascii "COVOX") v) s { s with info := { s.info with covoxAddr := v } } := by
  unfold hexLines
  rcases h1 with rfl | ⟨rfl, hch⟩
  · rw [if_pos (by omega), ← hs]; exact .nil _
  rw [if_neg (by omega)]
  refine .single (lineOk_of rfl (by decide) (by rintro x ⟨rfl⟩; exact argOk_hex _)) ?_
  intro p q
  unfold handleTag
  dsimp only
  rw [if_neg (by decide), if_neg (by decide), if_neg (by decide), if_neg (by decide), if_neg (by decide), if_neg (by decide),
    if_neg (by decide), if_neg (by decide), if_neg (by decide), if_neg (by decide), if_neg (by decide), if_pos rfl]
  rw [hex_read (by decide), ok_bind, if_neg (by decide), ← hch]
  rfl

theorem runs_stereo {s : St} : Runs [(ascii "STEREO", none)] s { s with info := { s.info with channels := 2 } } := by
  refine .single (lineOk_of rfl (by decide) (by simp)) ?_
  intro p q
  unfold handleTag
  dsimp only
  rw [if_neg (by decide), if_neg (by decide), if_neg (by decide), if_neg (by decide), if_neg (by decide), if_neg (by decide),
    if_neg (by decide), if_neg (by decide), if_neg (by decide), if_neg (by decide), if_neg (by decide), if_neg (by decide),
    if_pos rfl]

theorem runs_ntsc {s : St} : Runs [(ascii "NTSC", none)] s { s with info := { s.info with ntsc := true } } := by
  refine .single (lineOk_of rfl (by decide) (by simp)) ?_
  intro p q
  unfold handleTag
  dsimp only
  rw [if_neg (by decide), if_neg (by decide), if_neg (by decide), if_neg (by decide), if_neg (by decide), if_neg (by decide),
    if_neg (by decide), if_neg (by decide), if_neg (by decide), if_neg (by decide), if_neg (by decide), if_neg (by decide),
    if_neg (by decide), if_pos rfl]

theorem runs_time {s : St} {d : Nat} (hd : d < 6000000) (loop : Bool) (hi : s.durationIndex < 32)
    (hlp : s.info.loops s.durationIndex = false) :
    Runs [(ascii "TIME", some (timeArg d loop))] s
      { s with info := { s.info with durations := upd s.info.durations s.durationIndex d
                                     loops := upd s.info.loops s.durationIndex loop }
               durationIndex := s.durationIndex + 1 } := by
  refine .single (lineOk_of rfl (by decide) (by rintro x ⟨rfl⟩; exact argOk_time hd loop)) ?_
  intro p q
  unfold handleTag
  dsimp only
  rw [if_neg (by decide), if_neg (by decide), if_neg (by decide), if_pos rfl]
  exact tagTime_read hd loop s hi hlp

/-- All `TIME` lines. -/
theorem runs_times (info : Info) (n : Nat) : ∀ (k : Nat) (s : St), s.durationIndex = k → k + n ≤ 32 →
    (∀ j, k ≤ j → s.info.loops j = false) →
    (∀ j, k ≤ j → s.info.durations j = -1) →
    (∀ j, j < k → s.info.durations j = info.durations j ∧ s.info.loops j = info.loops j) →
    (∃ m, m ≤ k + n ∧ (∀ j, j < m → 0 ≤ info.durations j ∧ info.durations j < 6000000) ∧
      ∀ j, m ≤ j → info.durations j = -1 ∧ info.loops j = false) →
    ∃ s', Runs (timeLines info k n) s s' ∧ s'.type = s.type ∧
      s'.info = { s.info with durations := info.durations, loops := info.loops } := by
  induction n with
  | zero =>
    intro k s hk h32 hl hd hp ⟨m, hm, hm1, hm2⟩
    refine ⟨s, .nil _, rfl, ?_⟩
    have e1 : s.info.durations = info.durations := by
      funext j
      by_cases hj : j < k
      · exact (hp j hj).1
      · rw [hd j (by omega), (hm2 j (by omega)).1]
    have e2 : s.info.loops = info.loops := by
      funext j
      by_cases hj : j < k
      · exact (hp j hj).2
      · rw [hl j (by omega), (hm2 j (by omega)).2]
    rw [← e1, ← e2]
  | succ n ih =>
    intro k s hk h32 hl hd hp ⟨m, hm, hm1, hm2⟩
    unfold timeLines
    split
    · rename_i hneg
      have hmk : m ≤ k := by
        rcases Nat.lt_or_ge k m with h | h
        · have := hm1 k h; omega
        · exact h
      refine ⟨s, .nil _, rfl, ?_⟩
      have e1 : s.info.durations = info.durations := by
        funext j
        by_cases hj : j < k
        · exact (hp j hj).1
        · rw [hd j (by omega), (hm2 j (by omega)).1]
      have e2 : s.info.loops = info.loops := by
        funext j
        by_cases hj : j < k
        · exact (hp j hj).2
        · rw [hl j (by omega), (hm2 j (by omega)).2]
      rw [← e1, ← e2]
    · rename_i hneg
      have hkm : k < m := by
        rcases Nat.lt_or_ge k m with h | h
        · exact h
        · have := (hm2 k h).1; omega
      have hkd := hm1 k hkm
      obtain ⟨d, hdd⟩ := Int.eq_ofNat_of_zero_le hkd.1
      have hrun := runs_time (s := s) (d := d) (by omega) (info.loops k) (by omega) (hl _ (by omega))
      obtain ⟨s', h1, h2, h3⟩ := ih (k + 1) { s with
            info := { s.info with durations := upd s.info.durations s.durationIndex d
                                  loops := upd s.info.loops s.durationIndex (info.loops k) }
            durationIndex := s.durationIndex + 1 } (by simp only []; omega) (by omega)
        (by intro j hj; simp only [upd]; rw [if_neg (by omega)]; exact hl j (by omega))
        (by intro j hj; simp only [upd]; rw [if_neg (by omega)]; exact hd j (by omega))
        (by
          intro j hj
          simp only [upd]
          by_cases hjk : j = s.durationIndex
          · rw [if_pos hjk, if_pos hjk, hjk, hk, hdd]; exact ⟨rfl, rfl⟩
          · rw [if_neg hjk, if_neg hjk]; exact hp j (by omega))
        ⟨m, by omega, hm1, hm2⟩
      refine ⟨s', ?_, h2, by rw [h3]⟩
      have := hrun.append h1
      simp only [timeArg] at this
      rw [hdd]
      exact this

end Asap.Sap
