import Verif.Spec.Conv
import Mathlib.Tactic.SplitIfs

/-! # The converter: names of the outputs -/

namespace Asap.Conv
open Asap.Spec.Conv (expand perSong tags cleaned put IsSep Folder Plain outputName)

theorem bind_ok {α β : Type} {p : P α} {f : α → P β} {e e1 : Env} {a : α} (h : p e = (.ok a, e1)) : (p >>= f) e = f a e1 := by
  show P.bind p f e = _
  unfold P.bind
  rw [h]

theorem bind_err {α β : Type} {p : P α} {f : α → P β} {e e1 : Env} {s : Stop} (h : p e = (.error s, e1)) : (p >>= f) e = (.error s, e1) := by
  show P.bind p f e = _
  unfold P.bind
  rw [h]

/-- Success of a sequence. -/
theorem bind_inv {α β : Type} {p : P α} {f : α → P β} {e e2 : Env} {b : β} (h : (p >>= f) e = (.ok b, e2)) :
    ∃ a e1, p e = (.ok a, e1) ∧ f a e1 = (.ok b, e2) := by
  rcases hp : p e with ⟨a | a, e1⟩
  · rw [bind_err hp] at h; cases h
  · rw [bind_ok hp] at h; exact ⟨a, e1, rfl, h⟩

theorem get_inv {α : Type} {f : Env → α} {e e1 : Env} {a : α} (h : get f e = (.ok a, e1)) : a = f e ∧ e1 = e := by
  cases h; exact ⟨rfl, rfl⟩

theorem modify_inv {f : Env → Env} {e e1 : Env} {u : Unit} (h : modify f e = (.ok u, e1)) : e1 = f e := by
  cases h; rfl

theorem pure_inv {α : Type} {a b : α} {e e1 : Env} (h : (pure a : P α) e = (.ok b, e1)) : b = a ∧ e1 = e := by
  cases h; exact ⟨rfl, rfl⟩

theorem lift_inv {α : Type} {r : M α} {e e1 : Env} {a : α} (h : lift r e = (.ok a, e1)) : r = .ok a ∧ e1 = e := by
  unfold lift at h
  split at h <;> cases h
  exact ⟨rfl, rfl⟩

theorem liftX_inv {α : Type} {r : X α} {e e1 : Env} {a : α} (h : liftX r e = (.ok a, e1)) : r = .ok a ∧ e1 = e := by
  unfold liftX at h
  split at h <;> cases h
  exact ⟨rfl, rfl⟩

theorem cleanChar_eq (c : Nat) : cleanChar c = if c ∈ [60, 62, 58, 47, 92, 124, 63, 42] then 95 else c := by
  unfold cleanChar
  have : (ascii "<>:/\\|?*") = [60, 62, 58, 47, 92, 124, 63, 42] := by decide
  rw [this]
  by_cases h : c ∈ [60, 62, 58, 47, 92, 124, 63, 42]
  · rw [if_pos h, if_pos (by simpa using h)]
  · rw [if_neg h, if_neg (by simpa using h)]

theorem putTag_inv : ∀ {t out : List Nat} {e e1 : Env} {r : List Nat}, putTag out t e = (.ok r, e1) →
    r = out ++ cleaned t ∧ e1 = e ∧ (out.length < filenameMax → r.length < filenameMax)
  | [], out, e, e1, r, h => by
    obtain ⟨rfl, rfl⟩ := pure_inv h
    exact ⟨by simp [cleaned], rfl, id⟩
  | c :: t, out, e, e1, r, h => by
    unfold putTag at h
    by_cases hl : out.length ≥ filenameMax - 1
    · rw [if_pos hl] at h; cases h
    · rw [if_neg hl] at h
      obtain ⟨h1, h2, h3⟩ := putTag_inv h
      refine ⟨?_, h2, fun _ => h3 ?_⟩
      · rw [h1, cleanChar_eq]
        simp [cleaned]
      · unfold filenameMax at hl ⊢
        rw [List.length_append]
        simp; omega

/-- What is inserted at the dot. -/
def insertion (stem : Bool) (input : List Nat) (c : Nat) (rest : List Nat) : List Nat :=
  if stem = true ∧ c = 46 ∧ 46 ∉ rest then input.take ((lastDot input).getD 0) else []

theorem putStemAt_inv {stem : Bool} {input out rest : List Nat} {c : Nat} {e e1 : Env} {r : List Nat}
    (h : putStemAt (stem && decide (c = 46 ∧ 46 ∉ rest)) input out e = (.ok r, e1)) :
    r = out ++ insertion stem input c rest ∧ e1 = e ∧ (out.length < filenameMax → r.length < filenameMax) := by
  unfold putStemAt at h
  unfold insertion
  by_cases hc : stem = true ∧ c = 46 ∧ 46 ∉ rest
  · rw [if_pos (by simpa using hc)] at h
    rw [if_pos hc]
    unfold putStem at h
    rcases hd : lastDot input with _ | n
    · rw [hd] at h; cases h
    · rw [hd] at h
      dsimp only at h
      split at h
      · cases h
      · obtain ⟨rfl, rfl⟩ := pure_inv h
        refine ⟨rfl, rfl, fun _ => ?_⟩
        rw [List.length_append]
        have := List.length_take_le n input
        omega
  · rw [if_neg (by simpa using hc)] at h
    rw [if_neg hc]
    obtain ⟨rfl, rfl⟩ := pure_inv h
    exact ⟨by simp, rfl, id⟩

/-- The pattern with placeholders replaced and the name of the input inserted. -/
def filled (tag : Nat → Option (List Nat)) (stem : Bool) (input : List Nat) : List Nat → Option (List Nat)
  | [] => some []
  | [c] => if c = 37 then none else some (insertion stem input c [] ++ [c])
  | c :: d :: rest =>
    if c = 37 then (tag d).bind fun t => (filled tag stem input rest).map (cleaned t ++ ·)
    else (filled tag stem input (d :: rest)).map (insertion stem input c (d :: rest) ++ c :: ·)

theorem songText_eq (n : Int) : songText n = ascii (toString n.toNat) := by
  unfold songText ascii
  congr 1
  show _ = (Nat.repr _).toList
  unfold Nat.repr
  exact (String.toList_ofList).symm

theorem titleOrFilename_eq (info : Info) : titleOrFilename info = if info.title = [] then info.filename else info.title := by
  unfold titleOrFilename
  cases info.title with
  | nil => rfl
  | cons => rfl

/-- What a placeholder is replaced by; `%s` counts the songs. -/
theorem tagText_inv {info : Info} {m : List Nat} {allow per : Bool} {d : Nat} {e e1 : Env} {r : Option (List Nat)}
    (h : tagText info m allow per d e = (.ok r, e1)) :
    (d = 115 ∧ per = false ∧ allow = true ∧ e.opts.song < 0 ∧ e1 = { e with song := e.song + 1 } ∧
      ((e.song + 1 < info.songs ∧ r = tags info m (e.song + 1) d) ∨ (info.songs ≤ e.song + 1 ∧ r = none))) ∨
    ((d = 115 → per = true) ∧ e1 = e ∧ r ≠ none ∧ r = tags info m e.song d) := by
  unfold tagText at h
  by_cases h1 : d = 97
  · subst h1
    rw [if_pos rfl] at h
    obtain ⟨rfl, rfl⟩ := pure_inv h
    exact .inr ⟨by simp, rfl, by simp, rfl⟩
  by_cases h2 : d = 110
  · subst h2
    rw [if_neg (by decide), if_pos rfl] at h
    obtain ⟨rfl, rfl⟩ := pure_inv h
    exact .inr ⟨by simp, rfl, by simp, by rw [titleOrFilename_eq]; rfl⟩
  by_cases h3 : d = 100
  · subst h3
    rw [if_neg (by decide), if_neg (by decide), if_pos rfl] at h
    obtain ⟨rfl, rfl⟩ := pure_inv h
    exact .inr ⟨by simp, rfl, by simp, rfl⟩
  by_cases h4 : d = 101
  · subst h4
    rw [if_neg (by decide), if_neg (by decide), if_neg (by decide), if_pos rfl] at h
    obtain ⟨t, e2, k1, k2⟩ := bind_inv h
    obtain ⟨rfl, rfl⟩ := pure_inv k2
    unfold extTag at k1
    obtain ⟨x, e3, k3, k4⟩ := bind_inv k1
    obtain ⟨k5, rfl⟩ := lift_inv k3
    obtain ⟨rfl, rfl⟩ := pure_inv k4
    refine .inr ⟨by simp, rfl, by simp, ?_⟩
    unfold tags
    rw [if_neg (by decide), if_neg (by decide), if_neg (by decide), if_pos rfl, k5]
    cases x <;> rfl
  by_cases h5 : d = 115
  · subst h5
    rw [if_neg (by decide), if_neg (by decide), if_neg (by decide), if_neg (by decide), if_pos rfl] at h
    have ht : ∀ s : Int, tags info m s 115 = some (songText (s + 1)) := fun s => by rw [songText_eq]; rfl
    unfold songTag at h
    obtain ⟨e', e2, k1, k2⟩ := bind_inv h
    obtain ⟨rfl, rfl⟩ := get_inv k1
    by_cases hp : per = true
    · rw [if_pos hp] at k2
      obtain ⟨rfl, rfl⟩ := pure_inv k2
      exact .inr ⟨fun _ => hp, rfl, by simp, (ht _).symm⟩
    · rw [if_neg hp] at k2
      by_cases ha : allow = false
      · rw [if_pos ha] at k2; cases k2
      · rw [if_neg ha] at k2
        by_cases hs : e2.opts.song ≥ 0
        · rw [if_pos hs] at k2; cases k2
        · rw [if_neg hs] at k2
          obtain ⟨_, e3, k3, k4⟩ := bind_inv k2
          have k3 := modify_inv k3
          refine .inl ⟨rfl, by simpa using hp, by simpa using ha, by omega, ?_⟩
          by_cases hn : e2.song + 1 ≥ info.songs
          · rw [if_pos hn] at k4
            obtain ⟨rfl, rfl⟩ := pure_inv k4
            exact ⟨k3, .inr ⟨hn, rfl⟩⟩
          · rw [if_neg hn] at k4
            obtain ⟨rfl, rfl⟩ := pure_inv k4
            exact ⟨k3, .inl ⟨by omega, (ht _).symm⟩⟩
  by_cases h6 : d = 37
  · subst h6
    rw [if_neg (by decide), if_neg (by decide), if_neg (by decide), if_neg (by decide), if_neg (by decide), if_pos rfl] at h
    obtain ⟨rfl, rfl⟩ := pure_inv h
    exact .inr ⟨by simp, rfl, by simp, rfl⟩
  · rw [if_neg h1, if_neg h2, if_neg h3, if_neg h4, if_neg h5, if_neg h6] at h
    cases h

/-- The loop over the pattern. -/
theorem fillPattern_inv {info : Info} {m input : List Nat} {allow stem : Bool} : ∀ (n : Nat) {pat : List Nat} {per : Bool} {out : List Nat} {e e1 : Env}
    {r : Option (List Nat × Bool)}, pat.length ≤ n → fillPattern info m input allow stem pat per out e = (.ok r, e1) →
    (∀ name per', r = some (name, per') → per' = (per || perSong pat) ∧ (out.length < filenameMax → name.length < filenameMax) ∧
      (∃ x, filled (tags info m e1.song) stem input pat = some x ∧ name = out ++ x) ∧
      (((per = true ∨ perSong pat = false) ∧ e1 = e) ∨
        (per = false ∧ perSong pat = true ∧ allow = true ∧ e.opts.song < 0 ∧ e1 = { e with song := e.song + 1 } ∧ e.song + 1 < info.songs))) ∧
    (r = none → per = false ∧ perSong pat = true ∧ allow = true ∧ e.opts.song < 0 ∧ e1 = { e with song := e.song + 1 } ∧ info.songs ≤ e.song + 1) := by
  intro n
  induction n with
  | zero =>
    intro pat per out e e1 r hn h
    obtain rfl : pat = [] := List.length_eq_zero_iff.mp (by omega)
    unfold fillPattern at h
    obtain ⟨rfl, rfl⟩ := pure_inv h
    exact ⟨fun name per' hr => by cases hr; exact ⟨by simp [perSong], id, ⟨[], rfl, by simp⟩, .inl ⟨.inr rfl, rfl⟩⟩, nofun⟩
  | succ n ih =>
    intro pat per out e e1 r hn h
    match pat with
    | [] =>
      unfold fillPattern at h
      obtain ⟨rfl, rfl⟩ := pure_inv h
      exact ⟨fun name per' hr => by cases hr; exact ⟨by simp [perSong], id, ⟨[], rfl, by simp⟩, .inl ⟨.inr rfl, rfl⟩⟩, nofun⟩
    | [c] =>
      unfold fillPattern at h
      obtain ⟨out1, e2, k1, k2⟩ := bind_inv h
      obtain ⟨rfl, rfl, hl⟩ := putStemAt_inv k1
      by_cases hc : c = 37
      · rw [if_pos hc] at k2; cases k2
      · rw [if_neg hc] at k2
        by_cases hf : (out ++ insertion stem input c []).length ≥ filenameMax - 1
        · rw [if_pos hf] at k2; cases k2
        · rw [if_neg hf] at k2
          obtain ⟨g1, g2⟩ := ih (Nat.zero_le _) k2
          refine ⟨fun name per' hr => ?_, fun hr => ?_⟩
          · obtain ⟨a1, a2, ⟨x, a3, a4⟩, a5⟩ := g1 name per' hr
            cases a3
            refine ⟨a1, fun _ => a2 ?_, ⟨insertion stem input c [] ++ [c], ?_, ?_⟩, a5⟩
            · rw [List.length_append]
              unfold filenameMax at hf ⊢
              simp at hf ⊢; omega
            · show (if c = 37 then none else _) = _
              rw [if_neg hc]
            · rw [a4]; simp
          · have := (g2 hr).2.1
            cases this
    | c :: d :: rest =>
      unfold fillPattern at h
      obtain ⟨out1, e2, k1, k2⟩ := bind_inv h
      obtain ⟨rfl, rfl, hl⟩ := putStemAt_inv k1
      have hps : perSong (c :: d :: rest) = if c = 37 then decide (d = 115) || perSong rest else perSong (d :: rest) := by simp only [perSong]
      by_cases hc : c = 37
      · rw [if_pos hc] at k2
        rw [hps, if_pos hc]
        have hins : insertion stem input c (d :: rest) = [] := by
          unfold insertion
          rw [if_neg (by rw [hc]; simp)]
        rw [hins, List.append_nil] at k2 hl
        dsimp only at k2
        obtain ⟨t, e3, k3, k4⟩ := bind_inv k2
        have hfill : ∀ s : Int, filled (tags info m s) stem input (c :: d :: rest) =
            (tags info m s d).bind fun t => (filled (tags info m s) stem input rest).map (cleaned t ++ ·) := by
          intro s
          simp only [filled]
          rw [if_pos hc]
        rcases tagText_inv k3 with ⟨rfl, b1, b2, b3, b4, b5⟩ | ⟨b1, b2, b3, b4⟩
        · subst b1 b2
          rcases b5 with ⟨b5, b6⟩ | ⟨b5, rfl⟩
          · rcases t with _ | t
            · rw [show tags info m (e2.song + 1) 115 = some _ from rfl] at b6; cases b6
            · dsimp only at k4
              obtain ⟨out2, e4, k5, k6⟩ := bind_inv k4
              obtain ⟨rfl, rfl, hl2⟩ := putTag_inv k5
              obtain ⟨g1, g2⟩ := ih (by simp at hn; omega) k6
              refine ⟨fun name per' hr => ?_, fun hr => ?_⟩
              · obtain ⟨a1, a2, ⟨x, a3, a4⟩, a5⟩ := g1 name per' hr
                have a5 : e1 = e4 := by
                  rcases a5 with ⟨_, a5⟩ | ⟨a5, _⟩
                  · exact a5
                  · simp at a5
                subst a5
                refine ⟨by rw [a1]; simp, fun ho => a2 (hl2 ho), ⟨cleaned t ++ x, ?_, by rw [a4]; simp⟩, .inr ⟨rfl, rfl, rfl, b3, b4, b5⟩⟩
                rw [hfill, show e1.song = e2.song + 1 by rw [b4], ← b6]
                rw [show e1.song = e2.song + 1 by rw [b4]] at a3
                rw [a3]; rfl
              · have := (g2 hr).1
                simp at this
          · dsimp only at k4
            obtain ⟨rfl, rfl⟩ := pure_inv k4
            exact ⟨nofun, fun _ => ⟨rfl, rfl, rfl, b3, b4, b5⟩⟩
        · subst b2
          rcases t with _ | t
          · exact absurd rfl b3
          · dsimp only at k4
            obtain ⟨out2, e4, k5, k6⟩ := bind_inv k4
            obtain ⟨rfl, rfl, hl2⟩ := putTag_inv k5
            have hor : (per || decide (d = 115)) = per := by
              cases per with
              | true => rfl
              | false =>
                have : d ≠ 115 := fun h => by have := b1 h; cases this
                simp [this]
            rw [hor] at k6
            obtain ⟨g1, g2⟩ := ih (by simp at hn; omega) k6
            have hsong : per = false → (decide (d = 115) || perSong rest) = perSong rest := by
              intro hp
              have : d ≠ 115 := fun h => by have := b1 h; rw [hp] at this; cases this
              simp [this]
            have hd2 : ∀ s : Int, d ≠ 115 → tags info m s d = tags info m e4.song d := by
              intro s hd
              unfold tags
              simp only [if_neg hd]
            refine ⟨fun name per' hr => ?_, fun hr => ?_⟩
            · obtain ⟨a1, a2, ⟨x, a3, a4⟩, a5⟩ := g1 name per' hr
              refine ⟨?_, fun ho => a2 (hl2 ho), ⟨cleaned t ++ x, ?_, by rw [a4]; simp⟩, ?_⟩
              · rw [a1, ← Bool.or_assoc, hor]
              · rw [hfill, a3]
                have : tags info m e1.song d = some t := by
                  rcases a5 with ⟨_, a5⟩ | ⟨a5, _⟩
                  · rw [a5, b4]
                  · rw [hd2 _ (fun h => by rw [b1 h] at a5; cases a5), b4]
                rw [this]; rfl
              · rcases a5 with ⟨a5, a6⟩ | ⟨a5, a6⟩
                · refine .inl ⟨?_, a6⟩
                  rcases a5 with a5 | a5
                  · exact .inl a5
                  · cases per with
                    | true => exact .inl rfl
                    | false => exact .inr (by rw [hsong rfl]; exact a5)
                · exact .inr ⟨a5, by rw [hsong a5]; exact a6.1, a6.2⟩
            · obtain ⟨a1, a2⟩ := g2 hr
              exact ⟨a1, by rw [hsong a1]; exact a2.1, a2.2⟩
      · rw [if_neg hc] at k2
        rw [hps, if_neg hc]
        by_cases hf : (out ++ insertion stem input c (d :: rest)).length ≥ filenameMax - 1
        · rw [if_pos hf] at k2; cases k2
        · rw [if_neg hf] at k2
          obtain ⟨g1, g2⟩ := ih (by simp at hn ⊢; omega) k2
          refine ⟨fun name per' hr => ?_, g2⟩
          obtain ⟨a1, a2, ⟨x, a3, a4⟩, a5⟩ := g1 name per' hr
          refine ⟨a1, fun _ => a2 ?_, ⟨insertion stem input c (d :: rest) ++ c :: x, ?_, ?_⟩, a5⟩
          · rw [List.length_append]
            unfold filenameMax at hf ⊢
            simp at hf ⊢; omega
          · simp only [filled]
            rw [if_neg hc, a3]; rfl
          · rw [a4]; simp

theorem filled_rest {tag : Nat → Option (List Nat)} {stem : Bool} {input : List Nat} : ∀ (n : Nat) {s : List Nat}, s.length ≤ n → 46 ∉ s ∨ stem = false →
    filled tag stem input s = expand tag s := by
  have hins : ∀ {c : Nat} {s : List Nat}, c ≠ 46 ∨ stem = false → insertion stem input c s = [] := by
    intro c s h
    unfold insertion
    rw [if_neg (by rintro ⟨h1, h2, _⟩; rcases h with h | h; exact h h2; rw [h] at h1; cases h1)]
  intro n
  induction n with
  | zero =>
    intro s hn _
    obtain rfl : s = [] := List.length_eq_zero_iff.mp (by omega)
    rfl
  | succ n ih =>
    intro s hn hs
    match s with
    | [] => rfl
    | [c] =>
      simp only [filled, expand]
      rw [hins (hs.imp_left fun h => by simp at h; omega)]
      rfl
    | c :: d :: rest =>
      simp only [filled, expand]
      have h1 : 46 ∉ rest ∨ stem = false := hs.imp_left fun h hr => h (by simp [hr])
      have h2 : 46 ∉ d :: rest ∨ stem = false := hs.imp_left fun h hr => h (List.mem_cons_of_mem _ hr)
      rw [ih (by simp at hn; omega) h1, ih (by simp at hn ⊢; omega) h2, hins (hs.imp_left fun h hr => h (by simp [hr]))]
      rfl

theorem filled_split {tag : Nat → Option (List Nat)} (ht : tag 46 = none) {stem : Bool} {input ext : List Nat} (hext : 46 ∉ ext) : ∀ (n : Nat) {pre x : List Nat}, pre.length ≤ n →
    filled tag stem input (pre ++ 46 :: ext) = some x →
    ∃ p y, expand tag pre = some p ∧ expand tag (46 :: ext) = some y ∧ x = p ++ (if stem = true then input.take ((lastDot input).getD 0) else []) ++ y := by
  have hlast : ∀ {x : List Nat}, filled tag stem input (46 :: ext) = some x →
      ∃ y, expand tag (46 :: ext) = some y ∧ x = (if stem = true then input.take ((lastDot input).getD 0) else []) ++ y := by
    intro x h
    have hi : insertion stem input 46 ext = if stem = true then input.take ((lastDot input).getD 0) else [] := by
      unfold insertion
      by_cases hs : stem = true
      · rw [if_pos ⟨hs, rfl, hext⟩, if_pos hs]
      · rw [if_neg (fun h => hs h.1), if_neg hs]
    rw [← hi]
    match ext with
    | [] =>
      simp only [filled] at h
      rw [if_neg (by decide)] at h
      cases h
      exact ⟨[46], rfl, rfl⟩
    | d :: rest =>
      simp only [filled] at h
      rw [if_neg (by decide), filled_rest _ (Nat.le_refl _) (.inl hext)] at h
      rcases hx : expand tag (d :: rest) with _ | y
      · rw [hx] at h; cases h
      · rw [hx] at h
        cases h
        refine ⟨46 :: y, ?_, rfl⟩
        simp only [expand]
        rw [if_neg (by decide), hx]; rfl
  intro n
  induction n with
  | zero =>
    intro pre x hn h
    obtain rfl : pre = [] := List.length_eq_zero_iff.mp (by omega)
    obtain ⟨y, h1, h2⟩ := hlast h
    exact ⟨[], y, rfl, h1, h2⟩
  | succ n ih =>
    intro pre x hn h
    have hstep : ∀ {c d : Nat} {rest : List Nat}, c ≠ 37 → 46 ∈ d :: rest → filled tag stem input (c :: d :: rest) = (filled tag stem input (d :: rest)).map (c :: ·) := by
      intro c d rest hc hm
      simp only [filled]
      rw [if_neg hc]
      have : insertion stem input c (d :: rest) = [] := by
        unfold insertion
        rw [if_neg (fun h => h.2.2 hm)]
      rw [this]; rfl
    match pre with
    | [] =>
      obtain ⟨y, h1, h2⟩ := hlast h
      exact ⟨[], y, rfl, h1, h2⟩
    | [c] =>
      by_cases hc : c = 37
      · subst hc
        rw [show ([37] ++ 46 :: ext) = 37 :: 46 :: ext from rfl] at h
        simp only [filled] at h
        rw [if_pos trivial, ht] at h
        cases h
      · rw [show ([c] ++ 46 :: ext) = c :: 46 :: ext from rfl, hstep hc (by simp)] at h
        rcases hx : filled tag stem input (46 :: ext) with _ | y
        · rw [hx] at h; cases h
        · rw [hx] at h
          cases h
          obtain ⟨z, h1, rfl⟩ := hlast hx
          refine ⟨[c], z, ?_, h1, by simp⟩
          simp only [expand]
          rw [if_neg hc]
    | c :: d :: rest =>
      by_cases hc : c = 37
      · rw [show ((c :: d :: rest) ++ 46 :: ext) = c :: d :: (rest ++ 46 :: ext) from rfl] at h
        simp only [filled] at h
        rw [if_pos hc] at h
        rcases htag : tag d with _ | t
        · rw [htag] at h; cases h
        · rcases hx : filled tag stem input (rest ++ 46 :: ext) with _ | y
          · rw [htag, hx] at h; cases h
          · rw [htag, hx] at h
            cases h
            obtain ⟨p, y', g1, g2, rfl⟩ := ih (by simp at hn; omega) hx
            refine ⟨cleaned t ++ p, y', ?_, g2, by simp⟩
            simp only [expand]
            rw [if_pos hc, htag, g1]; rfl
      · rw [show ((c :: d :: rest) ++ 46 :: ext) = c :: d :: (rest ++ 46 :: ext) from rfl, hstep hc (by simp)] at h
        rcases hx : filled tag stem input (d :: (rest ++ 46 :: ext)) with _ | y
        · rw [hx] at h; cases h
        · rw [hx] at h
          cases h
          obtain ⟨p, y', g1, g2, rfl⟩ := ih (pre := d :: rest) (by simp at hn ⊢; omega) hx
          refine ⟨c :: p, y', ?_, g2, by simp⟩
          simp only [expand]
          rw [if_neg hc, g1]; rfl

theorem lastDot_append {a b : List Nat} (hb : 46 ∉ b) : lastDot (a ++ 46 :: b) = some a.length := by
  unfold lastDot
  rw [if_pos (by simp)]
  have : (a ++ 46 :: b).reverse = b.reverse ++ 46 :: a.reverse := by simp
  rw [this, List.idxOf_append, if_neg (by simpa using hb)]
  simp

theorem baseName_plain : ∀ {f name : List Nat}, Plain f → baseName f name = name
  | [], _, _ => rfl
  | c :: f, name, h => by
    unfold baseName
    rw [if_neg (show ¬ (c = 47 ∨ c = 92) from h c (by simp)), baseName_plain fun x hx => h x (by simp [hx])]

theorem baseName_folder {f : List Nat} (hf : Plain f) : ∀ {d name : List Nat}, Folder d → baseName (d ++ f) name = if d = [] then name else f
  | [], name, _ => by rw [if_pos rfl]; exact baseName_plain hf
  | c :: d, name, hd => by
    rw [if_neg (by simp)]
    show baseName (c :: (d ++ f)) name = f
    unfold baseName
    have hd' : Folder d := by
      rcases hd with hd | ⟨d', x, e, hx⟩
      · cases hd
      · cases d' with
        | nil => cases e; exact .inl rfl
        | cons y d' => cases e; exact .inr ⟨d', x, rfl, hx⟩
    by_cases hc : c = 47 ∨ c = 92
    · rw [if_pos hc, baseName_folder hf hd']
      by_cases e : d = []
      · rw [if_pos e, e]; rfl
      · rw [if_neg e]
    · rw [if_neg hc, baseName_folder hf hd']
      by_cases e : d = []
      · subst e
        rcases hd with hd | ⟨d', x, e, hx⟩
        · cases hd
        · cases d' with
          | nil => cases e; exact absurd hx hc
          | cons y d' =>
            have := congrArg List.length e
            simp at this
      · rw [if_neg e]

theorem tags_dot (info : Info) (m : List Nat) (s : Int) : tags info m s 46 = none := rfl

/-- What a pattern with `%s` and one without does to the number of the song. -/
def Next (o : Opts) (info : Info) (allow : Bool) (pattern : List Nat) (s s' : Int) : Prop :=
  (perSong pattern = true ∧ allow = true ∧ o.song < 0 ∧ s' = s + 1 ∧ s' < info.songs) ∨
  (perSong pattern = false ∧ s < 0 ∧ ((o.song < 0 ∧ s' = info.defaultSong) ∨ (0 ≤ o.song ∧ o.song < info.songs ∧ s' = o.song)))

theorem openTarget_inv {t : Target} {e e1 : Env} {r : Option Target} (h : openTarget t e = (.ok r, e1)) :
    r = some t ∧ e1 = { e with files := if t.stdout = true then e.files else put e.files t.name [] } := by
  unfold openTarget at h
  obtain ⟨_, e2, k1, k2⟩ := bind_inv h
  obtain ⟨rfl, rfl⟩ := pure_inv k2
  have := modify_inv k1
  refine ⟨rfl, ?_⟩
  rw [this]
  by_cases hs : t.stdout = true
  · rw [if_pos hs, if_pos hs]
  · rw [if_neg hs, if_neg hs]; rfl

theorem finishOpen_inv {info : Info} {std : Bool} {name : List Nat} {per : Bool} {e e1 : Env} {r : Option Target}
    (h : finishOpen info std (some (name, per)) e = (.ok r, e1)) :
    (∀ t, r = some t → t = ⟨name, std⟩ ∧ e1 = { e with song := e1.song, files := if std = true then e.files else put e.files name [] } ∧
      (per = true → e1.song = e.song) ∧
      (per = false → e.song < 0 ∧ ((e.opts.song < 0 ∧ e1.song = info.defaultSong) ∨ (0 ≤ e.opts.song ∧ e.opts.song < info.songs ∧ e1.song = e.opts.song)))) ∧
    (r = none → per = false ∧ 0 ≤ e.song ∧ e1 = e) := by
  cases per with
  | true =>
    obtain ⟨rfl, rfl⟩ := openTarget_inv (show openTarget ⟨name, std⟩ e = _ from h)
    exact ⟨fun t ht => by cases ht; exact ⟨rfl, rfl, fun _ => rfl, nofun⟩, nofun⟩
  | false =>
    obtain ⟨go, e2, k1, k2⟩ := bind_inv (show ((chooseSong info >>= fun go => if go = true then openTarget ⟨name, std⟩ else pure none) : P _) e = _ from h)
    unfold chooseSong at k1
    obtain ⟨e', e3, k3, k4⟩ := bind_inv k1
    obtain ⟨rfl, rfl⟩ := get_inv k3
    by_cases h1 : e3.song ≥ 0
    · rw [if_pos h1] at k4
      obtain ⟨rfl, rfl⟩ := pure_inv k4
      rw [if_neg (by decide)] at k2
      obtain ⟨rfl, rfl⟩ := pure_inv k2
      exact ⟨nofun, fun _ => ⟨rfl, h1, rfl⟩⟩
    · rw [if_neg h1] at k4
      by_cases h2 : e3.opts.song < 0
      · rw [if_pos h2] at k4
        obtain ⟨_, e4, k5, k6⟩ := bind_inv k4
        obtain ⟨rfl, rfl⟩ := pure_inv k6
        have k5 := modify_inv k5
        rw [if_pos rfl] at k2
        obtain ⟨rfl, rfl⟩ := openTarget_inv k2
        exact ⟨fun t ht => by cases ht; rw [k5]; exact ⟨rfl, rfl, nofun, fun _ => ⟨by omega, .inl ⟨h2, rfl⟩⟩⟩, nofun⟩
      · rw [if_neg h2] at k4
        by_cases h3 : e3.opts.song ≥ info.songs
        · rw [if_pos h3] at k4
          cases k4
        · rw [if_neg h3] at k4
          obtain ⟨_, e4, k5, k6⟩ := bind_inv k4
          obtain ⟨rfl, rfl⟩ := pure_inv k6
          have k5 := modify_inv k5
          rw [if_pos rfl] at k2
          obtain ⟨rfl, rfl⟩ := openTarget_inv k2
          exact ⟨fun t ht => by cases ht; rw [k5]; exact ⟨rfl, rfl, nofun, fun _ => ⟨by omega, .inr ⟨by omega, by omega, rfl⟩⟩⟩, nofun⟩

/-- What is wanted of `open_output_file`. -/
def Opened (m : List Nat) (info : Info) (allow : Bool) (pre ext dir stem : List Nat) (e : Env) (r : Option Target) (e1 : Env) : Prop :=
  (∀ t, r = some t → outputName (tags info m e1.song) pre ext dir stem = some t.name ∧ t.name.length < filenameMax ∧
    (t.stdout = true ↔ pre = [45]) ∧ e1 = { e with song := e1.song, files := if t.stdout = true then e.files else put e.files t.name [] } ∧
    Next e.opts info allow (pre ++ 46 :: ext) e.song e1.song) ∧
  (r = none → e1 = { e with song := e1.song } ∧
    ((perSong (pre ++ 46 :: ext) = true ∧ allow = true ∧ e.opts.song < 0 ∧ e1.song = e.song + 1 ∧ info.songs ≤ e.song + 1) ∨
      (perSong (pre ++ 46 :: ext) = false ∧ 0 ≤ e.song ∧ e1.song = e.song)))

theorem fill_finish {m input : List Nat} {info : Info} {allow use std : Bool} {pre ext dir stem : List Nat} {e e1 : Env} {r : Option Target}
    (hext : 46 ∉ ext) (hstd : std = true ↔ pre = [45])
    (hname : ∀ tag p y, expand tag pre = some p → expand tag (46 :: ext) = some y →
      outputName tag pre ext dir stem = some (p ++ (if use = true then input.take ((lastDot input).getD 0) else []) ++ y))
    (h : ((fillPattern info m input allow use (pre ++ 46 :: ext) false [] >>= fun r => finishOpen info std r) : P _) e = (.ok r, e1)) :
    Opened m info allow pre ext dir stem e r e1 := by
  obtain ⟨q, e2, k1, k2⟩ := bind_inv h
  obtain ⟨g1, g2⟩ := fillPattern_inv _ (Nat.le_refl _) k1
  rcases q with _ | ⟨name, per⟩
  · obtain ⟨rfl, rfl⟩ := pure_inv (show (pure none : P (Option Target)) e2 = _ from k2)
    obtain ⟨_, a1, a2, a3, a4, a5⟩ := g2 rfl
    refine ⟨nofun, fun _ => ⟨?_, .inl ⟨a1, a2, a3, ?_, a5⟩⟩⟩
    · rw [a4]
    · rw [a4]
  · obtain ⟨a1, a2, ⟨x, a3, a4⟩, a5⟩ := g1 name per rfl
    obtain ⟨b1, b2⟩ := finishOpen_inv k2
    rw [Bool.false_or] at a1
    refine ⟨fun t ht => ?_, fun hr => ?_⟩
    · obtain ⟨rfl, c1, c2, c3⟩ := b1 t ht
      obtain ⟨p, y, d1, d2, d3⟩ := filled_split (tags_dot info m e2.song) hext _ (Nat.le_refl _) a3
      have hn : outputName (tags info m e2.song) pre ext dir stem = some name := by
        rw [hname _ p y d1 d2, a4, d3]; rfl
      have hlen := a2 (by unfold filenameMax; simp)
      have hother : per = false → outputName (tags info m e1.song) pre ext dir stem = some name := by
        intro hp
        have hsame : ∀ (n : Nat) {s : List Nat} (u v : Int), s.length ≤ n → perSong s = false → expand (tags info m u) s = expand (tags info m v) s := by
          intro n
          induction n with
          | zero =>
            intro s u v hn _
            obtain rfl : s = [] := List.length_eq_zero_iff.mp (by omega)
            rfl
          | succ n ih =>
            intro s u v hn hs
            match s with
            | [] => rfl
            | [c] => rfl
            | c :: d :: rest =>
              simp only [perSong] at hs
              simp only [expand]
              by_cases hc : c = 37
              · rw [if_pos hc] at hs
                rw [if_pos hc, if_pos hc]
                simp only [Bool.or_eq_false_iff, decide_eq_false_iff_not] at hs
                rw [ih u v (by simp at hn; omega) hs.2]
                have : tags info m u d = tags info m v d := by
                  unfold tags
                  simp only [if_neg hs.1]
                rw [this]
              · rw [if_neg hc] at hs
                rw [if_neg hc, if_neg hc, ih u v (by simp at hn ⊢; omega) hs]
        have hsplit : ∀ (n : Nat) {p : List Nat} {u : List Nat}, p.length ≤ n → expand (tags info m e2.song) p = some u → perSong (p ++ 46 :: ext) = false → perSong p = false ∧ perSong (46 :: ext) = false := by
          intro n
          induction n with
          | zero =>
            intro p u hn _ hs
            obtain rfl : p = [] := List.length_eq_zero_iff.mp (by omega)
            exact ⟨rfl, hs⟩
          | succ n ih =>
            intro p u hn hu hs
            match p with
            | [] => exact ⟨rfl, hs⟩
            | [c] =>
              simp only [expand] at hu
              by_cases hc : c = 37
              · rw [if_pos hc] at hu; cases hu
              · rw [show [c] ++ 46 :: ext = c :: 46 :: ext from rfl] at hs
                simp only [perSong] at hs
                rw [if_neg hc] at hs
                exact ⟨rfl, hs⟩
            | c :: d :: rest =>
              rw [show (c :: d :: rest) ++ 46 :: ext = c :: d :: (rest ++ 46 :: ext) from rfl] at hs
              simp only [perSong] at hs ⊢
              simp only [expand] at hu
              by_cases hc : c = 37
              · rw [if_pos hc] at hs hu
                rw [if_pos hc]
                simp only [Bool.or_eq_false_iff, decide_eq_false_iff_not] at hs ⊢
                rcases htag : tags info m e2.song d with _ | t
                · rw [htag] at hu; cases hu
                · rcases hx : expand (tags info m e2.song) rest with _ | z
                  · rw [htag, hx] at hu; cases hu
                  · obtain ⟨i1, i2⟩ := ih (by simp at hn; omega) hx hs.2
                    exact ⟨⟨hs.1, i1⟩, i2⟩
              · rw [if_neg hc] at hs hu
                rw [if_neg hc]
                rcases hx : expand (tags info m e2.song) (d :: rest) with _ | z
                · rw [hx] at hu; cases hu
                · exact ih (p := d :: rest) (by simp at hn ⊢; omega) hx hs
        obtain ⟨s1, s2⟩ := hsplit _ (Nat.le_refl _) d1 (by rw [← a1]; exact hp)
        rw [← hn]
        unfold outputName
        rw [hsame _ e1.song e2.song (Nat.le_refl _) s1, hsame _ e1.song e2.song (Nat.le_refl _) s2]
      cases hper : per with
      | true =>
        have s1 := c2 hper
        rw [hper] at a1
        rcases a5 with ⟨a5, _⟩ | ⟨_, a6, a7, a8, a9, a10⟩
        · rcases a5 with a5 | a5
          · cases a5
          · rw [← a1] at a5; cases a5
        · refine ⟨by rw [s1]; exact hn, hlen, hstd, ?_, .inl ⟨a6, a7, a8, ?_, ?_⟩⟩
          · rw [c1, a9]
          · rw [s1, a9]
          · rw [s1, a9]; exact a10
      | false =>
        obtain ⟨s1, s2⟩ := c3 hper
        rw [hper] at a1
        rcases a5 with ⟨_, a5⟩ | ⟨_, a6, _⟩
        · subst a5
          exact ⟨hother hper, hlen, hstd, c1, .inr ⟨a1.symm, s1, s2⟩⟩
        · rw [← a1] at a6; cases a6
    · obtain ⟨rfl, b3, rfl⟩ := b2 hr
      rcases a5 with ⟨_, a5⟩ | ⟨_, a6, _⟩
      · subst a5
        exact ⟨rfl, .inr ⟨a1.symm, b3, rfl⟩⟩
      · rw [← a1] at a6; cases a6

/-- `open_output_file`. -/
theorem openOutput_inv {m input : List Nat} {info : Info} {allow : Bool} {pre ext dir stem x : List Nat} {e e1 : Env} {r : Option Target}
    (ho : e.opts.output = some (pre ++ 46 :: ext)) (hext : 46 ∉ ext) (hin : input = dir ++ (stem ++ 46 :: x)) (hx : 46 ∉ x) (hd : Folder dir)
    (hp : Plain (stem ++ 46 :: x)) (h : openOutput input m info allow e = (.ok r, e1)) : Opened m info allow pre ext dir stem e r e1 := by
  unfold openOutput at h
  obtain ⟨o, e2, k1, k2⟩ := bind_inv h
  obtain ⟨rfl, rfl⟩ := get_inv k1
  rw [ho] at k2
  dsimp only at k2
  rw [lastDot_append hext] at k2
  dsimp only at k2
  by_cases h0 : pre.length = 0
  · rw [if_pos h0] at k2
    obtain rfl : pre = [] := List.length_eq_zero_iff.mp h0
    refine fill_finish (use := true) (std := false) hext (by simp) (fun tag p y h1 h2 => ?_) k2
    cases h1
    unfold outputName
    rw [h2, hin, ← List.append_assoc, lastDot_append hx]
    simp only [expand, Option.bind_some, Option.map_some, Option.getD_some, if_pos trivial]
    rw [List.take_left]
    rfl
  · rw [if_neg h0] at k2
    have hne : pre ≠ [] := fun h => h0 (by rw [h]; rfl)
    have hget : (pre ++ 46 :: ext)[pre.length - 1]? = pre.getLast? := by
      rw [List.getElem?_append_left (by omega), List.getLast?_eq_getElem?]
    by_cases hdir : inDirectory (pre ++ 46 :: ext) pre.length = true
    · rw [if_pos hdir] at k2
      unfold inDirectory at hdir
      rw [hget] at hdir
      simp only [Bool.or_eq_true, decide_eq_true_eq] at hdir
      refine fill_finish (use := true) (std := false) hext ?_ (fun tag p y h1 h2 => ?_) k2
      · constructor
        · exact nofun
        · rintro rfl
          simp at hdir
      · have hb : baseName input input = stem ++ 46 :: x := by
          rw [hin, baseName_folder hp hd]
          split
          · rename_i e; rw [e]; rfl
          · rfl
        rw [hb, lastDot_append hx]
        unfold outputName
        rw [h1, h2, Option.bind_some, Option.map_some, if_neg hne, if_pos hdir, if_pos rfl, Option.getD_some, List.take_left]
    · rw [if_neg hdir] at k2
      unfold inDirectory at hdir
      rw [hget] at hdir
      simp only [Bool.or_eq_true, decide_eq_true_eq] at hdir
      refine fill_finish (use := false) hext ?_ (fun tag p y h1 h2 => ?_) k2
      · rw [decide_eq_true_eq]
        constructor
        · rintro ⟨e1, e2⟩
          match pre, e1 with
          | [c], _ =>
            have : some c = some 45 := e2
            cases this; rfl
        · rintro rfl
          exact ⟨rfl, rfl⟩
      · unfold outputName
        rw [h1, h2, Option.bind_some, Option.map_some, if_neg hne, if_neg hdir, if_neg (by decide), List.append_nil]

end Asap.Conv
