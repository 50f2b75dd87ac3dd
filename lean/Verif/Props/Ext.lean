import Verif.Lemmas.Ext

/-! # C03: file name recognition -/

namespace Asap.Props
open Asap Asap.Spec

/-- Lower-case letter or digit. -/
def Alnum (l : Nat) : Prop := (97 ≤ l ∧ l ≤ 122) ∨ (48 ≤ l ∧ l ≤ 57)

theorem packed3 (ext : List Nat) (h : ∀ c ∈ ext, ExtChar c) (a b c : Nat)
    (ha : Alnum a) (hb : Alnum b) (hc : Alnum c) :
    ((extVal ext % 2 ^ 32) ||| 0x202020 = a + 256 * (b + 256 * c)) ↔ ext.map lower = [a, b, c] := by
  unfold Alnum at ha hb hc
  rw [extVal_or ext h a b c (by omega) (by omega) (by omega) (by omega)]
  constructor
  · rintro (⟨x, y, z, rfl, h1, h2, h3⟩ | ⟨x, y, rfl, h1, h2, h3⟩)
    · rw [or32_eq_lower x (h x (by simp)) a ha] at h1
      rw [or32_eq_lower y (h y (by simp)) b hb] at h2
      rw [or32_eq_lower z (h z (by simp)) c hc] at h3
      simp [h1, h2, h3]
    · omega
  · intro e
    match ext, h, e with
    | [x, y, z], h, e =>
      simp at e
      left
      refine ⟨x, y, z, rfl, ?_, ?_, ?_⟩
      · rw [or32_eq_lower x (h x (by simp)) a ha]; exact e.1
      · rw [or32_eq_lower y (h y (by simp)) b hb]; exact e.2.1
      · rw [or32_eq_lower z (h z (by simp)) c hc]; exact e.2.2
    | [], _, e => simp at e
    | [_], _, e => simp at e
    | [_, _], _, e => simp at e
    | _ :: _ :: _ :: _ :: _, _, e => simp at e

theorem or32_ne_32_fin : ∀ c : Fin 123, 32 < c.val → c.val ||| 32 ≠ 32 := by decide +kernel

theorem packed2 (ext : List Nat) (h : ∀ c ∈ ext, ExtChar c) (a b : Nat)
    (ha : Alnum a) (hb : Alnum b) :
    ((extVal ext % 2 ^ 32) ||| 0x202020 = a + 256 * (b + 256 * 32)) ↔ ext.map lower = [a, b] := by
  unfold Alnum at ha hb
  rw [extVal_or ext h a b 32 (by omega) (by omega) (by omega) (by omega)]
  constructor
  · rintro (⟨x, y, z, rfl, h1, h2, h3⟩ | ⟨x, y, rfl, h1, h2, h3⟩)
    · have hz := h z (by simp)
      exact absurd h3 (or32_ne_32_fin ⟨z, by unfold ExtChar at hz; omega⟩ hz.1)
    · rw [or32_eq_lower x (h x (by simp)) a ha] at h1
      rw [or32_eq_lower y (h y (by simp)) b hb] at h2
      simp [h1, h2]
  · intro e
    match ext, h, e with
    | [x, y], h, e =>
      simp at e
      right
      refine ⟨x, y, rfl, ?_, ?_, rfl⟩
      · rw [or32_eq_lower x (h x (by simp)) a ha]; exact e.1
      · rw [or32_eq_lower y (h y (by simp)) b hb]; exact e.2
    | [], _, e => simp at e
    | [_], _, e => simp at e
    | _ :: _ :: _ :: _, _, e => simp at e

/-- The 14 packed constants of the switch, byte by byte. -/
theorem packed_consts :
    packExt (ascii "SAP") = 115 + 256 * (97 + 256 * 112) ∧ packExt (ascii "CMC") = 99 + 256 * (109 + 256 * 99) ∧
    packExt (ascii "CM3") = 99 + 256 * (109 + 256 * 51) ∧ packExt (ascii "CMR") = 99 + 256 * (109 + 256 * 114) ∧
    packExt (ascii "CMS") = 99 + 256 * (109 + 256 * 115) ∧ packExt (ascii "DMC") = 100 + 256 * (109 + 256 * 99) ∧
    packExt (ascii "DLT") = 100 + 256 * (108 + 256 * 116) ∧ packExt (ascii "MPT") = 109 + 256 * (112 + 256 * 116) ∧
    packExt (ascii "MPD") = 109 + 256 * (112 + 256 * 100) ∧ packExt (ascii "RMT") = 114 + 256 * (109 + 256 * 116) ∧
    packExt (ascii "TMC") = 116 + 256 * (109 + 256 * 99) ∧ packExt (ascii "TM8") = 116 + 256 * (109 + 256 * 56) ∧
    packExt (ascii "TM2") = 116 + 256 * (109 + 256 * 50) ∧ packExt (ascii "FC") = 102 + 256 * (99 + 256 * 32) := by
  decide +kernel

theorem supported_iff (l : List Nat) : SupportedExt l ↔
    l.map lower = [115, 97, 112] ∨ l.map lower = [99, 109, 99] ∨ l.map lower = [99, 109, 51] ∨
    l.map lower = [99, 109, 114] ∨ l.map lower = [99, 109, 115] ∨ l.map lower = [100, 109, 99] ∨
    l.map lower = [100, 108, 116] ∨ l.map lower = [109, 112, 116] ∨ l.map lower = [109, 112, 100] ∨
    l.map lower = [114, 109, 116] ∨ l.map lower = [116, 109, 99] ∨ l.map lower = [116, 109, 56] ∨
    l.map lower = [116, 109, 50] ∨ l.map lower = [102, 99] := by
  unfold SupportedExt supportedExts
  simp only [List.mem_cons, List.not_mem_nil, or_false, exists_eq_or_imp, exists_eq_left]
  rfl

theorem isOurPackedExt_iff (ext : List Nat) (h : ∀ c ∈ ext, ExtChar c) :
    isOurPackedExt ((extVal ext % 2 ^ 32) ||| 0x202020) = true ↔ SupportedExt ext := by
  obtain ⟨e1, e2, e3, e4, e5, e6, e7, e8, e9, e10, e11, e12, e13, e14⟩ := packed_consts
  unfold isOurPackedExt
  rw [e1, e2, e3, e4, e5, e6, e7, e8, e9, e10, e11, e12, e13, e14, supported_iff]
  simp only [List.contains_cons, List.contains_nil, Bool.or_eq_true, beq_iff_eq, Bool.false_eq_true, or_false]
  rw [packed3 ext h 115 97 112, packed3 ext h 99 109 99, packed3 ext h 99 109 51, packed3 ext h 99 109 114,
    packed3 ext h 99 109 115, packed3 ext h 100 109 99, packed3 ext h 100 108 116, packed3 ext h 109 112 116,
    packed3 ext h 109 112 100, packed3 ext h 114 109 116, packed3 ext h 116 109 99, packed3 ext h 116 109 56,
    packed3 ext h 116 109 50, packed2 ext h 102 99]
  all_goals (unfold Alnum; omega)

theorem lower_extChar {c l : Nat} (h : lower c = l) (hl : Alnum l) : ExtChar c := by
  unfold lower at h; unfold Alnum at hl; unfold ExtChar
  split at h <;> omega

theorem supported_chars {ext : List Nat} (h : SupportedExt ext) : ∀ c ∈ ext, Alnum (lower c) := by
  intro c hc
  have : lower c ∈ ext.map lower := List.mem_map_of_mem hc
  rw [supported_iff] at h
  unfold Alnum
  rcases h with h|h|h|h|h|h|h|h|h|h|h|h|h|h <;> rw [h] at this <;> simp at this <;> omega

/-- C03.  `IsOurFile` recognizes exactly the names with a supported extension, whatever the case of
its letters and whatever the rest of the name. -/
theorem C03_isOurFile_iff (name : List Nat) :
    isOurFile name = true ↔ ∃ ext, HasExt name ext ∧ SupportedExt ext := by
  unfold isOurFile getPackedExt
  have h := packedExtLoop_char name.reverse [] (by simp)
  rw [show extVal [] % 2 ^ 32 = 0 from rfl] at h
  simp only [List.reverse_reverse, List.append_nil] at h
  rcases h with ⟨base, ext, hb, e, hd, hx, hp⟩ | ⟨hp, hn⟩
  · rw [hp, isOurPackedExt_iff ext hx]
    constructor
    · intro hs; exact ⟨ext, ⟨base, hb, hd, e⟩, hs⟩
    · rintro ⟨ext', ⟨base', hb', hd', e'⟩, hs⟩
      rw [e] at e'
      rw [(dot_split_unique e' hd hd').1]; exact hs
  · rw [hp]
    constructor
    · intro h; exact absurd h (by decide +kernel)
    · rintro ⟨ext, ⟨base, hb, hd, e⟩, hs⟩
      exact absurd ⟨base, ext, hb, e, hd, fun c hc => lower_extChar rfl (supported_chars hs c hc)⟩ hn

example : isOurFile (ascii "music/Crossroads.SAP") = true := by decide +kernel
example : HasExt (ascii "a.b.Fc") (ascii "Fc") ∧ SupportedExt (ascii "Fc") :=
  ⟨⟨ascii "a.b", by decide, by decide, by decide⟩, "fc", by decide, by decide⟩

/-- C03.  Recognition does not depend on letter case. -/
theorem C03_case_insensitive (base e₁ e₂ : List Nat) (h : e₁.map lower = e₂.map lower)
    (h1 : 46 ∉ e₁) (h2 : 46 ∉ e₂) :
    isOurFile (base ++ 46 :: e₁) = isOurFile (base ++ 46 :: e₂) := by
  rw [Bool.eq_iff_iff, C03_isOurFile_iff, C03_isOurFile_iff]
  have key : ∀ a b : List Nat, a.map lower = b.map lower → 46 ∉ a → 46 ∉ b →
      (∃ ext, HasExt (base ++ 46 :: a) ext ∧ SupportedExt ext) →
      ∃ ext, HasExt (base ++ 46 :: b) ext ∧ SupportedExt ext := by
    rintro a b hab ha hb ⟨ext, ⟨base', hb', hd', e'⟩, e, he, hs⟩
    obtain ⟨rfl, rfl⟩ := dot_split_unique e' ha hd'
    exact ⟨b, ⟨base, hb', hb, rfl⟩, e, he, by rw [← hab]; exact hs⟩
  exact ⟨key _ _ h h1 h2, key _ _ h.symm h2 h1⟩

/-- C03.  Everything `IsOurFile` accepts has a loader: the switch in `Load` has a case for it, and
the name is not rejected for lacking an extension. -/
theorem C03_load_knows_extension (name : List Nat) (h : isOurFile name = true) :
    ∃ file ext, loadName name = .ok (file, ext) ∧ (formatOf ext).isSome := by
  have hf : ∀ e, isOurPackedExt e = true → (formatOf e).isSome := by
    intro e he
    unfold isOurPackedExt at he
    simp only [List.contains_cons, List.contains_nil, Bool.or_eq_true, beq_iff_eq, Bool.false_eq_true, or_false] at he
    rcases he with rfl|rfl|rfl|rfl|rfl|rfl|rfl|rfl|rfl|rfl|rfl|rfl|rfl|rfl <;> decide +kernel
  have hs : ∀ r acc, (∃ x y, splitName r acc = (some x, y)) ∨
      (acc = none ∧ ∀ base ext, r.reverse = base ++ 46 :: ext → 47 ∈ ext ∨ 92 ∈ ext) := by
    intro r
    induction r with
    | nil =>
      intro acc
      cases acc with
      | none => right; simp
      | some a => left; exact ⟨a, 0, rfl⟩
    | cons c r ih =>
      intro acc
      unfold splitName
      split
      · cases acc with
        | some a => left; exact ⟨_, _, rfl⟩
        | none =>
          right
          refine ⟨rfl, ?_⟩
          intro base ext e
          rename_i hc
          rw [List.reverse_cons] at e
          rcases List.append_eq_append_iff.1 e with ⟨a', e1, e2⟩ | ⟨c', e1, e2⟩
          · cases a' with
            | nil => simp at e2; omega
            | cons x a' => simp at e2
          · cases c' with
            | nil => simp at e2; omega
            | cons x c' =>
              simp at e2
              rw [e2.2]
              rcases hc with rfl | rfl <;> simp
      · rename_i hc
        split
        · rename_i h46
          rcases ih (some r.length) with h | ⟨h, -⟩
          · exact .inl h
          · cases h
        · rename_i h46
          rcases ih acc with h | ⟨h, h'⟩
          · exact .inl h
          · right
            refine ⟨h, ?_⟩
            intro base ext e
            rw [List.reverse_cons] at e
            rcases List.append_eq_append_iff.1 e with ⟨a', e1, e2⟩ | ⟨c', e1, e2⟩
            · cases a' with
              | nil => simp at e2; omega
              | cons x a' => simp at e2
            · cases c' with
              | nil => simp at e2; omega
              | cons x c' =>
                simp at e2
                have := h' base c' (by rw [e1, e2.1])
                rw [e2.2]
                rcases this with h | h <;> simp [h]
  obtain ⟨ext, ⟨base, hb, hd, e⟩, hsup⟩ := (C03_isOurFile_iff name).1 h
  unfold loadName
  rcases hs name.reverse none with ⟨x, y, hxy⟩ | ⟨-, hno⟩
  · rw [hxy]
    exact ⟨_, _, rfl, hf _ h⟩
  · exfalso
    have := hno base ext (by rw [List.reverse_reverse]; exact e)
    have hc := supported_chars hsup
    rcases this with h | h
    · exact absurd (hc _ h) (by unfold Alnum lower; decide)
    · exact absurd (hc _ h) (by unfold Alnum lower; decide)

/-- C03, finding: `IsOurExt` (unlike `IsOurFile`) has no lower bound on the characters, so it accepts
`"fc "` and `"cm\x13"`. -/
theorem C03_isOurExt_accepts_junk :
    isOurExt (ascii "fc ") = true ∧ isOurExt [99, 109, 0x13] = true ∧
    ¬ SupportedExt (ascii "fc ") ∧ ¬ SupportedExt [99, 109, 0x13] := by
  refine ⟨by decide +kernel, by decide +kernel, ?_, ?_⟩ <;> rw [supported_iff] <;> decide

/-- C03.  On texts without spaces and control characters `IsOurExt` is exact. -/
theorem C03_isOurExt_iff (ext : List Nat) (h : ∀ c ∈ ext, 32 < c) :
    isOurExt ext = true ↔ SupportedExt ext := by
  by_cases hx : ∀ c ∈ ext, ExtChar c
  · match ext, hx with
    | [a, b], hx =>
      have ha := hx a (by simp)
      have hb := hx b (by simp)
      unfold ExtChar at ha hb
      have : packExt [a, b] = (extVal [a, b] % 2 ^ 32) ||| 0x202020 := by
        unfold packExt
        simp only []
        rw [if_pos (by omega)]
        congr 1
        have : a ||| b * 256 = (a + 256 * 0) ||| (0 + 256 * b) := by congr 1; omega
        rw [this, lor_split _ _ _ _ (by omega) (by omega), Nat.or_zero, Nat.zero_or]
        simp only [extVal]; omega
      unfold isOurExt
      rw [this, isOurPackedExt_iff _ hx]
    | [a, b, c], hx =>
      have ha := hx a (by simp)
      have hb := hx b (by simp)
      have hc := hx c (by simp)
      unfold ExtChar at ha hb hc
      have : packExt [a, b, c] = (extVal [a, b, c] % 2 ^ 32) ||| 0x202020 := by
        unfold packExt
        simp only []
        rw [if_pos (by omega)]
        congr 1
        have : a ||| b * 256 ||| c * 65536 = (a + 256 * 0) ||| (0 + 256 * (b + 256 * 0)) ||| (0 + 256 * (0 + 256 * c)) := by
          congr 1
          · congr 1 <;> omega
          · omega
        rw [this, lor_split _ _ _ _ (by omega) (by omega), Nat.or_zero, Nat.zero_or,
          lor_split _ _ _ _ (by omega) (by omega), lor_split _ _ _ _ (by omega) (by omega), Nat.or_zero, Nat.zero_or,
          Nat.or_zero]
        simp only [extVal]; omega
      unfold isOurExt
      rw [this, isOurPackedExt_iff _ hx]
    | [], _ =>
      rw [supported_iff]; decide +kernel
    | [a], _ =>
      rw [supported_iff]
      constructor
      · intro h; exact absurd h (by show ¬ isOurPackedExt 0 = true; decide +kernel)
      · simp
    | a :: b :: c :: d :: t, _ =>
      rw [supported_iff]
      constructor
      · intro h; exact absurd h (by show ¬ isOurPackedExt 0 = true; decide +kernel)
      · simp
  · constructor
    · intro hi
      exfalso
      have : packExt ext = 0 := by
        have hx : ∃ c ∈ ext, ¬ ExtChar c := by simpa using hx
        obtain ⟨c, hc, hn⟩ := hx
        have := h c hc
        unfold ExtChar at hn
        unfold packExt
        split
        · rw [if_neg]; simp at hc; omega
        · rw [if_neg]; simp at hc; omega
        · rfl
      unfold isOurExt at hi
      rw [this] at hi
      revert hi; decide +kernel
    · intro hs
      exact absurd (fun c hc => lower_extChar rfl (supported_chars hs c hc)) hx

end Asap.Props
