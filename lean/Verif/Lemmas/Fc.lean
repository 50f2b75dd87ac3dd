import Verif.Lemmas.Dlt
import Verif.Spec.Fc

/-! Future Composer: the parser is safe and finds the songs of the specification. -/

namespace Asap.Module
open Asap Asap.Spec.Fc

namespace Fc

theorem byte_of {m : List Nat} {i b : Nat} (h : m[i]? = some b) : byte m i = b := by
  unfold byte
  rw [List.getD_eq_getElem?_getD, h]; rfl

theorem byte_rd {m : List Nat} {i : Nat} (h : i < m.length) : rd m i = .ok (byte m i) := by
  unfold rd byte
  rw [List.getD_eq_getElem?_getD, List.getElem?_eq_getElem h]
  rfl

theorem byte_lt {m : List Nat} (hb : AllBytes m) (i : Nat) : byte m i < 256 := by
  unfold byte
  rw [List.getD_eq_getElem?_getD]
  cases h : m[i]? with
  | none => decide
  | some b => exact hb b (List.mem_of_getElem? h)

theorem in_of_byte {m : List Nat} {i : Nat} (h : byte m i = 0xff) : i < m.length := by
  refine Decidable.byContradiction fun hn => ?_
  unfold byte at h
  rw [List.getD_eq_getElem?_getD, List.getElem?_eq_none (by omega)] at h
  simp at h

/-! ## Patterns -/

/-- The 0xff after an offset. -/
def FF (m : List Nat) (off k : Nat) : Prop := (∀ j < k, byte m (off + j) ≠ 0xff) ∧ byte m (off + k) = 0xff

theorem afterFF_post {m : List Nat} (off : Nat) : Post (fun e => ∃ k, FF m off k ∧ e = off + k + 1) (afterFF m off) := by
  unfold afterFF
  generalize h : m.length - off = n
  induction n generalizing off with
  | zero => trivial
  | succ n ih =>
    unfold afterFFLoop
    rw [byte_rd (by omega)]
    refine Post.ite (fun h => ?_) fun hn => ?_
    · exact ⟨0, ⟨fun j hj => by omega, h⟩, rfl⟩
    · refine (ih (off + 1) (by omega)).mono ?_
      rintro e ⟨k, ⟨h1, h2⟩, h3⟩
      refine ⟨k + 1, ⟨fun j hj => ?_, ?_⟩, by omega⟩
      · rcases j with _ | j
        · exact hn
        · rw [show off + (j + 1) = off + 1 + j by omega]; exact h1 j (by omega)
      · rw [show off + (k + 1) = off + 1 + k by omega]; exact h2

theorem fcPatterns_post {m : List Nat} (n p off : Nat) (hp : PatternAt m p off) :
    Post (fun r => r.1.length = n ∧ ∀ j o, r.1[j]? = some o → PatternAt m (p + j) o ∧ ∃ k, FF m o k) (fcPatterns m n off) := by
  induction n generalizing p off with
  | zero => exact ⟨rfl, fun j o h => by simp at h⟩
  | succ n ih =>
    unfold fcPatterns
    refine Post.bind (afterFF_post off) ?_
    rintro next ⟨k, hk, rfl⟩
    refine Post.bind (ih (p + 1) _ (.next hp hk.1 hk.2)) ?_
    rintro ⟨l, e⟩ ⟨h1, h2⟩
    have h1 : l.length = n := h1
    refine ⟨by show l.length + 1 = _; omega, fun j o h => ?_⟩
    rcases j with _ | j
    · have h : off = o := by simpa using h
      subst h
      exact ⟨hp, k, hk⟩
    · have := h2 j o (by simpa using h)
      rw [show p + (j + 1) = p + 1 + j by omega]
      exact this

theorem notes_of {m : List Nat} {off k : Nat} (h : FF m off k) (d : Nat) : ∃ l, Notes m off d l := by
  induction k generalizing off d with
  | zero => exact ⟨_, .done h.2⟩
  | succ k ih =>
    have h' : FF m (off + 1) k := by
      refine ⟨fun j hj => ?_, ?_⟩
      · have := h.1 (j + 1) (by omega); rwa [show off + (j + 1) = off + 1 + j by omega] at this
      · have := h.2; rwa [show off + (k + 1) = off + 1 + k by omega] at this
    have h0 : byte m off ≠ 0xff := h.1 0 (by omega)
    by_cases h1 : byte m off < 0x40
    · obtain ⟨l, hl⟩ := ih h' d; exact ⟨_, .note h1 hl⟩
    · by_cases h2 : byte m off < 0x60
      · obtain ⟨l, hl⟩ := ih h' (byte m off - 0x40); exact ⟨_, .duration (by omega) h2 hl⟩
      · obtain ⟨l, hl⟩ := ih h' d; exact ⟨_, .other (by omega) h0 hl⟩

theorem notes_in {m : List Nat} {off d : Nat} {l : List Nat} (h : Notes m off d l) : off < m.length := by
  induction h with
  | done h => exact in_of_byte h
  | note _ _ ih => omega
  | duration _ _ _ ih => omega
  | other _ _ _ ih => omega

/-- The patterns found. -/
structure Pats (m : List Nat) (patterns : List Nat) (pat : Nat → Nat) : Prop where
  at_ : ∀ p < 64, patterns[p]? = some (pat p)
  notes : ∀ p < 64, ∃ l, Notes m (pat p) 0 l

theorem plays_of {m : List Nat} (hb : AllBytes m) {patterns : List Nat} {pat : Nat → Nat} (hp : Pats m patterns pat) (ch line : Nat) : ∃ part, Plays m pat ch line part := by
  by_cases h : 256 ≤ line
  · exact ⟨_, .off h⟩
  · have hlt : track m ch line < 256 := byte_lt hb _
    by_cases h1 : track m ch line < 64
    · obtain ⟨l, hl⟩ := hp.notes _ h1
      obtain ⟨part, hpart⟩ := plays_of hb hp ch (line + 1)
      exact ⟨_, .pattern (by omega) h1 hl hpart⟩
    · by_cases h2 : track m ch line = 0x40
      · obtain ⟨part, hpart⟩ := plays_of hb hp ch (line + 2)
        exact ⟨_, .skip (by omega) h2 hpart⟩
      · by_cases h3 : track m ch line = 0xfe
        · exact ⟨_, .stop (by omega) h3⟩
        · by_cases h4 : track m ch line = 0xff
          · exact ⟨_, .loop (by omega) h4⟩
          · obtain ⟨part, hpart⟩ := plays_of hb hp ch (line + 1)
            exact ⟨_, .other (by omega) (by omega) (by omega) hpart⟩
termination_by 256 - line

theorem total_append (a b : List (Nat × Nat)) : total (a ++ b) = total a + total b := by
  induction a with
  | nil => show total b = 0 + total b; omega
  | cons x a ih => show x.2 + total (a ++ b) = x.2 + total a + total b; omega

theorem notes_total {m : List Nat} {off d line : Nat} {l : List Nat} (h : Notes m off d l) (hd : d < 32) :
    total (l.map fun n => (line, n)) + 32 * off ≤ 32 * m.length := by
  induction h with
  | done h => have := in_of_byte h; show 0 + _ ≤ _; omega
  | @note off d l h1 _ ih =>
    show (d + 1 + total (l.map fun n => (line, n))) + _ ≤ _
    have := ih hd
    omega
  | duration h1 h2 _ ih => have := ih (by omega); omega
  | other h1 h2 _ ih => have := ih hd; omega

theorem plays_total {m : List Nat} {pat : Nat → Nat} {ch line : Nat} {part : Part} (h : Plays m pat ch line part) (hl : line ≤ 257) :
    total part.notes ≤ (257 - line) * (32 * m.length) := by
  induction h with
  | off h => exact Nat.zero_le _
  | stop _ _ => exact Nat.zero_le _
  | loop _ _ => exact Nat.zero_le _
  | @pattern line l part h1 h2 h3 h4 ih =>
    show total (_ ++ part.notes) ≤ _
    rw [total_append]
    have := ih (by omega)
    have := notes_total (line := line) h3 (by omega)
    rw [show 257 - line = 257 - (line + 1) + 1 by omega, Nat.add_mul]
    omega
  | @skip line part h1 h2 h3 ih =>
    refine Nat.le_trans (ih (by omega)) (Nat.mul_le_mul_right _ (by omega))
  | @other line part h1 h2 h3 h4 ih =>
    refine Nat.le_trans (ih (by omega)) (Nat.mul_le_mul_right _ (by omega))

/-! ## One channel -/

/-- The channel is about to play the part, possibly from the middle of a pattern. -/
inductive Mid (m : List Nat) (pat : Nat → Nat) (n : Nat) (c : FcChan) : Part → Prop
  | line {part} : c.patternPos = 0 → c.duration = 0 → Plays m pat n c.trackPos part → Mid m pat n c part
  | notes {l part} : c.trackPos < 256 → track m n c.trackPos < 64 → Notes m (pat (track m n c.trackPos) + c.patternPos) c.duration l →
      c.duration < 32 → Plays m pat n (c.trackPos + 1) part →
      Mid m pat n c ⟨l.map (fun k => (c.trackPos, k)) ++ part.notes, part.ending, part.line⟩

/-- The channel has come to the end of its track. -/
structure AtEnd (m : List Nat) (n : Nat) (c : FcChan) (part : Part) : Prop where
  pos : c.trackPos = part.line
  pattern : c.patternPos = 0
  off : part.ending = .off ↔ 256 ≤ c.trackPos
  stop : part.ending = .stop ↔ (c.trackPos < 256 ∧ track m n c.trackPos = 0xfe)
  loop : part.ending = .loop ↔ (c.trackPos < 256 ∧ track m n c.trackPos = 0xff)
  le : c.trackPos ≤ 257

/-- The channel is playing a note. -/
structure InNote (m : List Nat) (n : Nat) (c : FcChan) : Prop where
  pos : c.trackPos < 256
  track : track m n c.trackPos < 64
  pattern : 0 < c.patternPos

/-- The measure of the inner loop. -/
def left (m : List Nat) (c : FcChan) : Nat := (258 - c.trackPos) * (m.length + 1) - c.patternPos

theorem fcCommand_eq {m : List Nat} (hl : 0x383 ≤ m.length) {n : Nat} (hn : n < 3) {c : FcChan} (hc : c.trackPos ≤ 257) :
    fcCommand m n c = .ok (track m n c.trackPos) := by
  unfold fcCommand track
  rw [byte_rd (by omega), Nat.mul_comm n 256]

/-- What the inner loop leaves. -/
def Adv (m : List Nat) (pat : Nat → Nat) (n : Nat) (part : Part) (r : FcChan × Bool) : Prop :=
  (part.notes = [] ∧ AtEnd m n r.1 part ∧ (r.2 = true ↔ part.ending = .stop)) ∨
    ∃ (line k : Nat) (v : List (Nat × Nat)), part.notes = (line, k + 1) :: v ∧ r.1.trackPos = line ∧ r.1.delay = k ∧ InNote m n r.1 ∧ r.2 = false ∧
      Mid m pat n r.1 ⟨v, part.ending, part.line⟩

theorem left_line {m : List Nat} {c c' : FcChan} (h : c.trackPos < c'.trackPos) (h1 : c'.trackPos ≤ 257) (hp : c'.patternPos = 0) (hc : c.patternPos ≤ m.length) :
    left m c' < left m c := by
  unfold left
  rw [hp]
  have h2 : (258 - c'.trackPos) * (m.length + 1) ≤ (257 - c.trackPos) * (m.length + 1) := Nat.mul_le_mul_right _ (by omega)
  rw [show 258 - c.trackPos = 257 - c.trackPos + 1 by omega, Nat.add_mul]
  omega

theorem left_next {m : List Nat} {c c' : FcChan} (h : c'.trackPos = c.trackPos) (h1 : c.trackPos < 256) (hp : c'.patternPos = c.patternPos + 1) (hc : c.patternPos < m.length) :
    left m c' < left m c := by
  unfold left
  rw [hp, h, show 258 - c.trackPos = 257 - c.trackPos + 1 by omega, Nat.add_mul]
  omega

theorem fcAdvance_post {m : List Nat} (hl : 0x383 ≤ m.length) {patterns : List Nat} {pat : Nat → Nat} (hp : Pats m patterns pat) {n : Nat} (hn : n < 3) (fuel : Nat) (c : FcChan)
    (hf : left m c < fuel) (hc : c.trackPos ≤ 257) (part : Part) (hm : Mid m pat n c part) :
    Post (Adv m pat n part) (fcAdvance m patterns n fuel c) := by
  induction fuel generalizing c part with
  | zero => omega
  | succ fuel ih =>
    unfold fcAdvance
    -- a pattern
    have pattern : ∀ l part, c.trackPos < 256 → track m n c.trackPos < 64 → Notes m (pat (track m n c.trackPos) + c.patternPos) c.duration l →
        c.duration < 32 → Plays m pat n (c.trackPos + 1) part →
        Post (Adv m pat n ⟨l.map (fun k => (c.trackPos, k)) ++ part.notes, part.ending, part.line⟩)
          (do
            let off ← rd patterns (track m n c.trackPos)
            let x ← rd m (off + c.patternPos)
            let (c, done) := fcPatternCommand c x
            if done then .ok (c, false) else fcAdvance m patterns n fuel c) := by
      intro l part h0 ht hnotes hd hplays
      have hin := notes_in hnotes
      have hrd : rd patterns (track m n c.trackPos) = .ok (pat (track m n c.trackPos)) := by
        unfold rd; rw [hp.at_ _ ht]
      rw [hrd]
      show Post _ (rd m (pat (track m n c.trackPos) + c.patternPos) >>= _)
      rw [byte_rd hin]
      simp only [bind, Except.bind]
      unfold fcPatternCommand
      generalize ho : pat (track m n c.trackPos) = o at hnotes hin ⊢
      cases hnotes with
      | done h =>
        simp only [h]
        refine ih _ ?_ (by show c.trackPos + 1 ≤ 257; omega) _ (.line rfl rfl hplays)
        have := left_line (m := m) (c := c) (c' := { c with delay := 0, duration := 0, patternPos := 0, trackPos := c.trackPos + 1 }) (by show _ < c.trackPos + 1; omega) (by show c.trackPos + 1 ≤ _; omega) rfl (by omega)
        exact Nat.lt_of_lt_of_le this (by omega)
      | @note _ _ l h h' =>
        simp only [h, if_true]
        refine .inr ⟨c.trackPos, c.duration, l.map (fun k => (c.trackPos, k)) ++ part.notes, rfl, rfl, rfl, ⟨h0, ht, Nat.succ_pos _⟩, rfl, ?_⟩
        exact .notes (c := { c with delay := c.duration, patternPos := c.patternPos + 1 }) h0 ht (by show Notes m (pat (track m n c.trackPos) + (c.patternPos + 1)) c.duration l; rw [ho]; exact h') hd hplays
      | duration h1 h2 h' =>
        simp only [if_neg (show ¬ byte m (o + c.patternPos) < 0x40 by omega), h2, if_true, Bool.false_eq_true, if_false]
        refine ih _ ?_ (by exact hc) _ ?_
        · have := left_next (m := m) (c := c) (c' := { c with duration := byte m (o + c.patternPos) - 0x40, patternPos := c.patternPos + 1 }) rfl h0 rfl (by omega)
          exact Nat.lt_of_lt_of_le this (by omega)
        · exact .notes (c := { c with duration := byte m (o + c.patternPos) - 0x40, patternPos := c.patternPos + 1 }) h0 ht (by show Notes m (pat (track m n c.trackPos) + (c.patternPos + 1)) _ l; rw [ho]; exact h') (by show byte m (o + c.patternPos) - 0x40 < 32; omega) hplays
      | other h1 h2 h' =>
        simp only [if_neg (show ¬ byte m (o + c.patternPos) < 0x40 by omega), if_neg (show ¬ byte m (o + c.patternPos) < 0x60 by omega), if_neg h2, Bool.false_eq_true, if_false]
        refine ih _ ?_ (by exact hc) _ ?_
        · have := left_next (m := m) (c := c) (c' := { c with patternPos := c.patternPos + 1 }) rfl h0 rfl (by omega)
          exact Nat.lt_of_lt_of_le this (by omega)
        · exact .notes (c := { c with patternPos := c.patternPos + 1 }) h0 ht (by show Notes m (pat (track m n c.trackPos) + (c.patternPos + 1)) _ l; rw [ho]; exact h') hd hplays
    by_cases h0 : c.trackPos < 256
    · rw [if_pos h0, fcCommand_eq hl hn hc]
      simp only [bind, Except.bind]
      cases hm with
      | @notes l part h1 h2 h3 h4 h5 =>
        rw [if_pos h2]
        exact pattern l part h1 h2 h3 h4 h5
      | @line _ h1 h2 h3 =>
        generalize hx : c.trackPos = line at h3
        cases h3 with
        | off h => omega
        | stop h h' =>
          subst hx
          rw [h', if_neg (by omega), if_neg (by omega), if_pos rfl]
          exact .inl ⟨rfl, ⟨rfl, h1, ⟨fun h => (by cases h), fun (h : 256 ≤ c.trackPos) => absurd h (by omega)⟩, ⟨fun _ => ⟨h, h'⟩, fun _ => rfl⟩, ⟨fun h => (by cases h), fun h => absurd h.2 (by dsimp only; omega)⟩, hc⟩, ⟨fun _ => rfl, fun _ => rfl⟩⟩
        | loop h h' =>
          subst hx
          rw [h', if_neg (by omega), if_neg (by omega), if_neg (by omega), if_pos rfl]
          exact .inl ⟨rfl, ⟨rfl, h1, ⟨fun h => (by cases h), fun (h : 256 ≤ c.trackPos) => absurd h (by omega)⟩, ⟨fun h => (by cases h), fun h => absurd h.2 (by dsimp only; omega)⟩, ⟨fun _ => ⟨h, h'⟩, fun _ => rfl⟩, hc⟩, ⟨fun h => (by cases h), fun h => (by cases h)⟩⟩
        | @pattern _ l part h4 h5 h6 h7 =>
          subst hx
          rw [if_pos h5]
          exact pattern l part h4 h5 (by rw [h1, h2]; exact h6) (by omega) h7
        | skip h4 h5 h6 =>
          subst hx
          rw [h5, if_neg (by omega), if_pos rfl]
          refine ih _ ?_ (by show c.trackPos + 2 ≤ 257; omega) _ (.line h1 h2 h6)
          have := left_line (m := m) (c := c) (c' := { c with trackPos := c.trackPos + 2 }) (by show _ < c.trackPos + 2; omega) (by show c.trackPos + 2 ≤ _; omega) h1 (by omega)
          exact Nat.lt_of_lt_of_le this (by omega)
        | other h4 h5 h5' h6 =>
          subst hx
          rw [if_neg (by omega), if_neg (by omega), if_neg (by omega), if_neg (by omega)]
          refine ih _ ?_ (by show c.trackPos + 1 ≤ 257; omega) _ (.line h1 h2 h6)
          have := left_line (m := m) (c := c) (c' := { c with trackPos := c.trackPos + 1 }) (by show _ < c.trackPos + 1; omega) (by show c.trackPos + 1 ≤ _; omega) h1 (by omega)
          exact Nat.lt_of_lt_of_le this (by omega)
    · rw [if_neg h0]
      cases hm with
      | notes h1 => omega
      | line h1 h2 h3 =>
        generalize hx : c.trackPos = line at h3
        cases h3 with
        | off h =>
          subst hx
          exact .inl ⟨rfl, ⟨rfl, h1, ⟨fun _ => h, fun _ => rfl⟩, ⟨fun h => (by cases h), fun h => absurd h.1 (by dsimp only; omega)⟩, ⟨fun h => (by cases h), fun h => absurd h.1 (by dsimp only; omega)⟩, hc⟩, ⟨fun h => (by cases h), fun h => (by cases h)⟩⟩
        | _ => omega

/-! ## One song -/

theorem lineAfter_end (l : List (Nat × Nat)) (last t : Nat) (h : total l ≤ t) : lineAfter l last t = last := by
  induction l generalizing t with
  | nil => rfl
  | cons x l ih =>
    have h : x.2 + total l ≤ t := h
    show (if t < x.2 then x.1 + 1 else lineAfter l last (t - x.2)) = last
    rw [if_neg (by omega)]
    exact ih _ (by omega)

/-- A channel before the call number `k`. -/
inductive Chan (m : List Nat) (pat : Nat → Nat) (n : Nat) (part : Part) (k : Nat) (c : FcChan) : Prop
  | ended : total part.notes < k → AtEnd m n c part → Chan m pat n part k c
  | live {w : Nat} {v : List (Nat × Nat)} : total part.notes = k + w + total v → c.delay = w → Mid m pat n c ⟨v, part.ending, part.line⟩ →
      (∀ j, lineAfter part.notes part.line (k + w + j) = lineAfter v part.line j) →
      (0 < k → InNote m n c ∧ lineAfter part.notes part.line (k - 1) = c.trackPos + 1) →
      (∀ j < w, lineAfter part.notes part.line (k + j) = c.trackPos + 1) → (k = 0 → w = 0) → Chan m pat n part k c

theorem left_le (m : List Nat) (c : FcChan) : left m c < fcFuel m := by
  unfold left fcFuel
  have : (258 - c.trackPos) * (m.length + 1) ≤ 258 * (m.length + 1) := Nat.mul_le_mul_right _ (by omega)
  omega

theorem Mid.delay {m : List Nat} {pat : Nat → Nat} {n : Nat} {c : FcChan} {part : Part} (h : Mid m pat n c part) (d : Int) : Mid m pat n { c with delay := d } part := by
  cases h with
  | line h1 h2 h3 => exact .line h1 h2 h3
  | notes h1 h2 h3 h4 h5 => exact .notes (c := { c with delay := d }) h1 h2 h3 h4 h5

theorem fcChannel_post {m : List Nat} (hl : 0x383 ≤ m.length) {patterns : List Nat} {pat : Nat → Nat} (hp : Pats m patterns pat) {n : Nat} (hn : n < 3) {part : Part} {k : Nat} {c : FcChan}
    (hc : Chan m pat n part k c) (h0 : c.trackPos < 256) (h1 : track m n c.trackPos ≠ 0xfe) :
    Post (fun r => Chan m pat n part (k + 1) r.1 ∧ (r.2 = true ↔ part.ending = .stop ∧ total part.notes ≤ k)) (fcChannel m patterns n c) := by
  unfold fcChannel
  rw [fcCommand_eq hl hn (by omega)]
  simp only [bind, Except.bind]
  cases hc with
  | ended h2 h3 =>
    have : part.ending = .loop := by
      cases he : part.ending with
      | loop => rfl
      | stop => exact absurd (h3.stop.1 he).2 h1
      | off => have := h3.off.1 he; omega
    have ht := (h3.loop.1 this).2
    rw [if_pos ht]
    exact ⟨.ended (by omega) h3, ⟨fun h => (by cases h), fun h => (by rw [this] at h; cases h.1)⟩⟩
  | @live w v h2 h3 h4 h5 h6 h7 h8 =>
    by_cases hff : track m n c.trackPos = 0xff
    · rw [if_pos hff]
      have hk : k = 0 := by
        refine Decidable.byContradiction fun hk => ?_
        have := (h6 (by omega)).1.track
        omega
      have hw := h8 hk
      generalize hpart : (⟨v, part.ending, part.line⟩ : Part) = q at h4
      cases h4 with
      | notes _ h => omega
      | line p1 p2 p3 =>
        generalize hx : c.trackPos = line at p3
        cases p3 with
        | loop q1 q2 =>
          subst hx
          injection hpart with e1 e2 e3
          subst e1
          have ht : total part.notes = 0 := by rw [h2, hk, hw]; rfl
          refine ⟨.ended (by omega) ⟨e3.symm, p1, ⟨fun h => (by rw [e2] at h; cases h), fun h => absurd h (by dsimp only; omega)⟩, ⟨fun h => (by rw [e2] at h; cases h), fun h => absurd h.2 (by dsimp only; omega)⟩,
            ⟨fun _ => ⟨h0, hff⟩, fun _ => e2⟩, by dsimp only; omega⟩, ⟨fun h => (by cases h), fun h => (by rw [e2] at h; cases h.1)⟩⟩
        | off q => omega
        | stop _ q => subst hx; omega
        | pattern _ q => subst hx; omega
        | skip _ q => subst hx; omega
        | other _ _ q => subst hx; omega
    · rw [if_neg hff]
      by_cases hw : 0 < w
      · rw [if_pos (by omega)]
        obtain ⟨w, rfl⟩ : ∃ w', w = w' + 1 := ⟨w - 1, by omega⟩
        have h6 := h6 (by omega)
        refine ⟨.live (w := w) (v := v) (by omega) (by show c.delay - 1 = w; omega) (h4.delay _) (fun j => ?_) (fun _ => ⟨⟨h6.1.pos, h6.1.track, h6.1.pattern⟩, ?_⟩) (fun j hj => ?_) (by omega), ?_⟩
        · rw [show k + 1 + w + j = k + (w + 1) + j by omega]; exact h5 j
        · exact h7 0 (by omega)
        · rw [show k + 1 + j = k + (j + 1) by omega]; exact h7 _ (by omega)
        · exact ⟨fun h => (by cases h), fun h => absurd h.2 (by omega)⟩
      · have hw : w = 0 := by omega
        subst hw
        rw [if_neg (by omega)]
        refine (fcAdvance_post hl hp hn (fcFuel m) _ (left_le _ _) (by show c.trackPos ≤ 257; omega) _ (h4.delay _)).mono ?_
        rintro ⟨r, b⟩ (⟨a1, a2, a3⟩ | ⟨line, d, v', a1, a2, a3, a4, a5, a6⟩)
        · have a1 : v = [] := a1
          subst a1
          have h2 : total part.notes = k := h2
          exact ⟨.ended (by omega) ⟨a2.pos, a2.pattern, a2.off, a2.stop, a2.loop, a2.le⟩, a3.trans ⟨fun h => ⟨h, by omega⟩, fun h => h.1⟩⟩
        · have a1 : v = (line, d + 1) :: v' := a1
          subst a1
          have h2 : total part.notes = k + 0 + (d + 1 + total v') := h2
          have a2 : r.trackPos = line := a2
          refine ⟨.live (w := d) (v := v') (by omega) a3 a6 (fun j => ?_) (fun _ => ⟨a4, ?_⟩) (fun j hj => ?_) (by omega), ?_⟩
          · rw [show k + 1 + d + j = k + 0 + (d + 1 + j) by omega, h5]
            show (if d + 1 + j < d + 1 then _ else lineAfter v' part.line (d + 1 + j - (d + 1))) = _
            rw [if_neg (by omega)]
            congr 1
            omega
          · rw [show k + 1 - 1 = k + 0 + 0 by omega, h5]
            show (if 0 < d + 1 then line + 1 else _) = r.trackPos + 1
            rw [if_pos (by omega), a2]
          · rw [show k + 1 + j = k + 0 + (j + 1) by omega, h5]
            show (if j + 1 < d + 1 then line + 1 else _) = r.trackPos + 1
            rw [if_pos (by omega), a2]
          · have a5 : b = false := a5
            rw [a5]
            exact ⟨fun h => (by cases h), fun h => absurd h.2 (by omega)⟩

/-- The condition for the end of a song. -/
def SongEnd (m : List Nat) (ch : Nat → FcChan) : Prop :=
  (∃ n < 3, 256 ≤ (ch n).trackPos ∨ track m n (ch n).trackPos = 0xfe) ∨ ∀ n < 3, track m n (ch n).trackPos = 0xff

theorem fcSongEndLoop_eq {m : List Nat} (hl : 0x383 ≤ m.length) (ch : Nat → FcChan) (hc : ∀ n < 3, (ch n).trackPos ≤ 257) (k n : Nat) (h : n + k = 3) (b : Bool) :
    ∃ r, fcSongEndLoop m ch k n b = .ok r ∧
      (r = true ↔ (∃ j < 3, n ≤ j ∧ (256 ≤ (ch j).trackPos ∨ track m j (ch j).trackPos = 0xfe)) ∨ (b = true ∧ ∀ j < 3, n ≤ j → track m j (ch j).trackPos = 0xff)) := by
  induction k generalizing n b with
  | zero =>
    refine ⟨b, rfl, ⟨fun h => .inr ⟨h, fun j _ _ => by omega⟩, ?_⟩⟩
    rintro (⟨j, h1, h2, _⟩ | h)
    · omega
    · exact h.1
  | succ k ih =>
    unfold fcSongEndLoop
    by_cases h1 : (ch n).trackPos ≥ 0x100
    · rw [if_pos h1]
      exact ⟨true, rfl, ⟨fun _ => .inl ⟨n, by omega, Nat.le_refl _, .inl h1⟩, fun _ => rfl⟩⟩
    · rw [if_neg h1, fcCommand_eq hl (by omega) (hc n (by omega))]
      simp only [bind, Except.bind]
      by_cases h2 : track m n (ch n).trackPos = 0xfe
      · rw [if_pos h2]
        exact ⟨true, rfl, ⟨fun _ => .inl ⟨n, by omega, Nat.le_refl _, .inr h2⟩, fun _ => rfl⟩⟩
      · rw [if_neg h2]
        obtain ⟨r, hr, hr'⟩ := ih (n + 1) (by omega) (b && decide (track m n (ch n).trackPos = 0xff))
        refine ⟨r, hr, hr'.trans (or_congr ⟨fun ⟨j, a, b, c⟩ => ⟨j, a, by omega, c⟩, fun ⟨j, a, b, c⟩ => ⟨j, a, ?_, c⟩⟩ ?_)⟩
        · by_cases e : j = n
          · subst e
            rcases c with c | c
            · omega
            · exact absurd c h2
          · omega
        · rw [Bool.and_eq_true, decide_eq_true_iff]
          refine ⟨fun ⟨⟨a, b⟩, c⟩ => ⟨a, fun j hj hj' => ?_⟩, fun ⟨a, c⟩ => ⟨⟨a, c n (by omega) (Nat.le_refl _)⟩, fun j hj hj' => c j hj (by omega)⟩⟩
          by_cases e : j = n
          · rw [e]; exact b
          · exact c j hj (by omega)

theorem isFcSongEnd_eq {m : List Nat} (hl : 0x383 ≤ m.length) (ch : Nat → FcChan) (hc : ∀ n < 3, (ch n).trackPos ≤ 257) :
    ∃ r, isFcSongEnd m ch = .ok r ∧ (r = true ↔ SongEnd m ch) := by
  obtain ⟨r, h1, h2⟩ := fcSongEndLoop_eq hl ch hc 3 0 rfl true
  refine ⟨r, h1, h2.trans (or_congr ⟨fun ⟨j, a, b, c⟩ => ⟨j, a, c⟩, fun ⟨j, a, c⟩ => ⟨j, a, Nat.zero_le _, c⟩⟩ ⟨fun ⟨_, h⟩ j hj => h j hj (Nat.zero_le _), fun h => ⟨rfl, fun j hj _ => h j hj⟩⟩)⟩

theorem Chan.le {m : List Nat} {pat : Nat → Nat} {n : Nat} {part : Part} {k : Nat} {c : FcChan} (h : Chan m pat n part (k + 1) c) : c.trackPos ≤ 257 := by
  cases h with
  | ended _ h => exact h.le
  | live _ _ _ _ h => have := (h (by omega)).1.pos; omega

theorem Chan.over {m : List Nat} {pat : Nat → Nat} {n : Nat} {part : Part} {k : Nat} {c : FcChan} (h : Chan m pat n part (k + 1) c) :
    ((256 ≤ c.trackPos ∨ track m n c.trackPos = 0xfe) ↔ part.ending ≠ .loop ∧ total part.notes ≤ k) ∧
    (track m n c.trackPos = 0xff → total part.notes ≤ k) ∧ (part.ending = .loop → total part.notes ≤ k → track m n c.trackPos = 0xff) := by
  cases h with
  | ended h1 h2 =>
    refine ⟨⟨fun h => ⟨fun he => ?_, by omega⟩, fun h => ?_⟩, fun _ => by omega, fun he _ => (h2.loop.1 he).2⟩
    · have := h2.loop.1 he; omega
    · cases he : part.ending with
      | loop => exact absurd he h.1
      | stop => exact .inr (h2.stop.1 he).2
      | off => exact .inl (h2.off.1 he)
  | live h1 _ _ _ h2 =>
    have h2 := (h2 (by omega)).1
    have := h2.pos
    have := h2.track
    exact ⟨⟨fun h => by omega, fun h => by omega⟩, fun h => by omega, fun _ h => by omega⟩

theorem songEnd_over {m : List Nat} {pat : Nat → Nat} {part : Nat → Part} {k : Nat} {ch : Nat → FcChan} (h : ∀ n < 3, Chan m pat n (part n) (k + 1) (ch n)) :
    SongEnd m ch ↔ Over part k := by
  refine ⟨fun hs => ?_, fun hs => ?_⟩
  · rcases hs with ⟨n, hn, hs⟩ | hs
    · exact .inl ⟨n, hn, (h n hn).over.1.1 hs⟩
    · exact .inr fun n hn => (h n hn).over.2.1 (hs n hn)
  · rcases hs with ⟨n, hn, hs⟩ | hs
    · exact .inl ⟨n, hn, (h n hn).over.1.2 hs⟩
    · by_cases hx : ∃ n < 3, (part n).ending ≠ .loop
      · obtain ⟨n, hn, hx⟩ := hx
        exact .inl ⟨n, hn, (h n hn).over.1.2 ⟨hx, hs n hn⟩⟩
      · refine .inr fun n hn => (h n hn).over.2.2 (Decidable.byContradiction fun he => hx ⟨n, hn, he⟩) (hs n hn)

theorem Chan.next {m : List Nat} {pat : Nat → Nat} {n : Nat} {part : Part} {k : Nat} {c : FcChan} (h : Chan m pat n part (k + 1) c) :
    fcNext c = lineAfter part.notes part.line k := by
  cases h with
  | ended h1 h2 =>
    rw [lineAfter_end _ _ _ (by omega)]
    unfold fcNext
    rw [if_neg (by have := h2.pattern; omega), h2.pos]
  | live _ _ _ _ h =>
    have := h (by omega)
    have h1 := this.1.pattern
    have h2 : lineAfter part.notes part.line k = c.trackPos + 1 := this.2
    unfold fcNext
    rw [if_pos (by omega), h2]

theorem fcChannels_post {m : List Nat} (hl : 0x383 ≤ m.length) {patterns : List Nat} {pat : Nat → Nat} (hp : Pats m patterns pat) {part : Nat → Part} {k : Nat} {ch : Nat → FcChan}
    (hc : ∀ n < 3, Chan m pat n (part n) k (ch n)) (hs : ¬ SongEnd m ch) :
    Post (fun r => (∀ n < 3, Chan m pat n (part n) (k + 1) (r.1 n)) ∧ (r.2 = true ↔ ∃ n < 3, (part n).ending = .stop ∧ total (part n).notes ≤ k)) (fcChannels m patterns 3 0 ch false) := by
  have one : ∀ n < 3, Post (fun r => Chan m pat n (part n) (k + 1) r.1 ∧ (r.2 = true ↔ (part n).ending = .stop ∧ total (part n).notes ≤ k)) (fcChannel m patterns n (ch n)) := by
    intro n hn
    refine fcChannel_post hl hp hn (hc n hn) ?_ ?_
    · exact Decidable.byContradiction fun h => hs (.inl ⟨n, hn, .inl (by omega)⟩)
    · exact fun h => hs (.inl ⟨n, hn, .inr h⟩)
  unfold fcChannels
  refine Post.bind (one 0 (by omega)) ?_
  rintro ⟨c0, b0⟩ ⟨h0, g0⟩
  dsimp only
  unfold fcChannels
  refine Post.bind (one 1 (by omega)) ?_
  rintro ⟨c1, b1⟩ ⟨h1, g1⟩
  dsimp only
  unfold fcChannels
  refine Post.bind (one 2 (by omega)) ?_
  rintro ⟨c2, b2⟩ ⟨h2, g2⟩
  dsimp only
  refine ⟨fun n hn => ?_, ?_⟩
  · show Chan m pat n (part n) (k + 1) (upd (upd (upd ch 0 c0) 1 c1) 2 c2 n)
    rcases (by omega : n = 0 ∨ n = 1 ∨ n = 2) with rfl | rfl | rfl
    · exact h0
    · exact h1
    · exact h2
  · show (((false || b0) || b1) || b2) = true ↔ _
    rw [Bool.or_eq_true, Bool.or_eq_true, Bool.or_eq_true]
    dsimp only at g0 g1 g2
    rw [g0, g1, g2]
    refine ⟨fun h => ?_, fun ⟨n, hn, h⟩ => ?_⟩
    · rcases h with ((h | h) | h) | h
      · cases h
      · exact ⟨0, by omega, h⟩
      · exact ⟨1, by omega, h⟩
      · exact ⟨2, by omega, h⟩
    · rcases (by omega : n = 0 ∨ n = 1 ∨ n = 2) with rfl | rfl | rfl
      · exact .inl (.inl (.inr h))
      · exact .inl (.inr h)
      · exact .inr h

theorem mul_step {t k b c : Nat} (h : k < t) : c + b + (t - (k + 1)) * b = c + (t - k) * b := by
  rw [show t - k = t - (k + 1) + 1 by omega, Nat.add_mul]
  omega

theorem lt_max3 {a b c d : Nat} (h : d ≤ a) : d < max a (max b c) + 1 := by omega

theorem fcPlay_post {m : List Nat} (hl : 0x383 ≤ m.length) {patterns : List Nat} {pat : Nat → Nat} (hp : Pats m patterns pat) {part : Nat → Part} {time : Nat}
    (ht : Over part time) (ht' : ∀ t < time, ¬ Over part t) (fuel k : Nat) (hk : k ≤ time) (hf : time - k + 1 ≤ fuel) (ch : Nat → FcChan)
    (hc : ∀ n < 3, Chan m pat n (part n) k (ch n)) (hle : ∀ n < 3, (ch n).trackPos ≤ 257) (hs : ¬ SongEnd m ch) (calls : Nat) :
    Post (fun r => (∀ n < 3, Chan m pat n (part n) (time + 1) (r.1 n)) ∧ r.2.1 = calls + (time - k) * byte m 2 ∧
      (r.2.2 = true ↔ ∃ n < 3, (part n).ending = .stop ∧ total (part n).notes ≤ time)) (fcPlay m patterns fuel ch calls false) := by
  induction fuel generalizing k ch calls with
  | zero => omega
  | succ fuel ih =>
    unfold fcPlay
    obtain ⟨e, he, he'⟩ := isFcSongEnd_eq hl ch hle
    have he0 : e = false := by
      cases e
      · rfl
      · exact absurd (he'.1 rfl) hs
    rw [he, he0]
    simp only [bind, Except.bind, Bool.false_eq_true, if_false]
    refine Post.bind (fcChannels_post hl hp hc hs) ?_
    rintro ⟨ch', stop⟩ ⟨h1, h2⟩
    dsimp only at h1 h2 ⊢
    have hle' : ∀ n < 3, (ch' n).trackPos ≤ 257 := fun n hn => (h1 n hn).le
    obtain ⟨e, he, he'⟩ := isFcSongEnd_eq hl ch' hle'
    rw [he]
    dsimp only
    by_cases hov : Over part k
    · have hkt : k = time := by
        refine Decidable.byContradiction fun hn => ht' k (by omega) hov
      have : e = true := he'.2 ((songEnd_over h1).2 hov)
      rw [this, if_pos rfl]
      subst hkt
      exact ⟨h1, by simp, h2⟩
    · have hkt : k < time := by
        refine Decidable.byContradiction fun hn => hov ?_
        rw [show k = time by omega]; exact ht
      have hne : ¬ SongEnd m ch' := fun h => hov ((songEnd_over h1).1 h)
      have : e = false := by
        cases e
        · rfl
        · exact absurd (he'.1 rfl) hne
      rw [this, if_neg (by simp), byte_rd (by omega)]
      dsimp only
      have hst : stop = false := by
        cases stop
        · rfl
        · obtain ⟨n, hn, a, b⟩ := h2.1 rfl
          exact absurd (.inl ⟨n, hn, by rw [a]; simp, b⟩) hov
      subst hst
      refine (ih (k + 1) (by omega) (by omega) ch' h1 hle' hne (calls + byte m 2)).mono ?_
      rintro r ⟨r1, r2, r3⟩
      refine ⟨r1, ?_, r3⟩
      exact r2.trans (mul_step hkt)

theorem exists_least {P : Nat → Prop} (n : Nat) (h : P n) : ∃ k, k ≤ n ∧ P k ∧ ∀ t < k, ¬ P t := by
  induction n using Nat.strongRecOn with
  | ind n ih =>
    by_cases hx : ∃ k < n, P k
    · obtain ⟨k, hk, hpk⟩ := hx
      obtain ⟨j, h1, h2, h3⟩ := ih k hk hpk
      exact ⟨j, by omega, h2, h3⟩
    · exact ⟨n, Nat.le_refl _, h, fun t ht hp => hx ⟨t, ht, hp⟩⟩

theorem plays_lines {m : List Nat} {pat : Nat → Nat} {ch line : Nat} {part : Part} (h : Plays m pat ch line part) :
    (∀ x ∈ part.notes, line ≤ x.1) ∧ line ≤ part.line := by
  induction h with
  | off h => exact ⟨fun x hx => (by simp at hx), Nat.le_refl _⟩
  | stop _ _ => exact ⟨fun x hx => (by simp at hx), Nat.le_refl _⟩
  | loop _ _ => exact ⟨fun x hx => (by simp at hx), Nat.le_refl _⟩
  | @pattern line l part h1 h2 h3 h4 ih =>
    refine ⟨fun x hx => ?_, by have := ih.2; dsimp only; omega⟩
    rcases List.mem_append.1 hx with hx | hx
    · obtain ⟨_, _, rfl⟩ := List.mem_map.1 hx; exact Nat.le_refl _
    · have := ih.1 x hx; omega
  | skip _ _ _ ih => exact ⟨fun x hx => by have := ih.1 x hx; omega, by have := ih.2; omega⟩
  | other _ _ _ _ ih => exact ⟨fun x hx => by have := ih.1 x hx; omega, by have := ih.2; omega⟩

theorem lineAfter_ge {l : List (Nat × Nat)} {last line : Nat} (h : ∀ x ∈ l, line ≤ x.1) (h' : line ≤ last) (t : Nat) : line ≤ lineAfter l last t := by
  induction l generalizing t with
  | nil => exact h'
  | cons x l ih =>
    show _ ≤ (if t < x.2 then x.1 + 1 else lineAfter l last (t - x.2))
    split
    · have := h x (by simp); omega
    · exact ih (fun y hy => h y (by simp [hy])) _

/-- One song. -/
theorem fcSong_post {m : List Nat} (hl : 0x383 ≤ m.length) (hb : AllBytes m) {patterns : List Nat} {pat : Nat → Nat} (hp : Pats m patterns pat) (pos : Nat) (h0 : pos < 256) :
    Post (fun r => Song m pat pos r.2.1 (!r.2.2) (fcNextSong r.1) ∧ pos < fcNextSong r.1) (fcPlay m patterns (fcFuel m) (fun _ => { trackPos := pos }) 0 false) := by
  by_cases hs : SongEnd m (fun _ => { trackPos := pos })
  · obtain ⟨f, hf⟩ : ∃ f, fcFuel m = f + 1 := ⟨fcFuel m - 1, by unfold fcFuel; omega⟩
    rw [hf]
    unfold fcPlay
    obtain ⟨e, he, he'⟩ := isFcSongEnd_eq hl (fun _ => { trackPos := pos }) (fun n _ => by dsimp only; omega)
    rw [he, he'.2 hs]
    simp only [bind, Except.bind, if_true]
    have hnext : fcNextSong (fun _ => { trackPos := pos }) = pos + 1 := by
      show max pos (max pos pos) + 1 = _
      omega
    refine ⟨?_, ?_⟩
    · dsimp only
      rw [hnext]
      refine .empty ?_
      rcases hs with ⟨n, hn, hs⟩ | hs
      · refine .inl ⟨n, hn, ?_⟩
        rcases hs with hs | hs
        · dsimp only at hs; omega
        · exact hs
      · exact .inr hs
    · dsimp only; omega
  · have hparts : ∀ n, ∃ part, Plays m pat n pos part := fun n => plays_of hb hp n pos
    obtain ⟨part, hpart⟩ := Classical.axiomOfChoice hparts
    have hbound : ∀ n, total (part n).notes ≤ 257 * (32 * m.length) := fun n =>
      Nat.le_trans (plays_total (hpart n) (by omega)) (Nat.mul_le_mul_right _ (by omega))
    obtain ⟨time, t1, t2, t3⟩ := exists_least (P := Over part) (257 * (32 * m.length)) (.inr fun n _ => hbound n)
    refine (fcPlay_post hl hp t2 t3 (fcFuel m) 0 (Nat.zero_le _) (by unfold fcFuel; omega) _ (fun n _ => ?_) (fun n _ => by dsimp only; omega) hs 0).mono ?_
    · refine .live (w := 0) (v := (part n).notes) (by omega) rfl (.line rfl rfl (hpart n)) (fun j => by congr 1; omega) (by omega) (by omega) (fun _ => rfl)
    · rintro ⟨ch, calls, stop⟩ ⟨h1, h2, h3⟩
      dsimp only at h1 h2 h3 ⊢
      have hne : ¬ Empty m pos := by
        rintro (⟨n, hn, h⟩ | h)
        · exact hs (.inl ⟨n, hn, .inr h⟩)
        · exact hs (.inr h)
      have hcalls : calls = time * byte m 2 := by rw [h2]; simp
      have hnext : fcNextSong ch = max (lineAfter (part 0).notes (part 0).line time) (max (lineAfter (part 1).notes (part 1).line time) (lineAfter (part 2).notes (part 2).line time)) + 1 := by
        unfold fcNextSong
        rw [(h1 0 (by omega)).next, (h1 1 (by omega)).next, (h1 2 (by omega)).next]
      rw [hnext, hcalls]
      refine ⟨.song hne (fun n _ => hpart n) t2 t3 ?_, ?_⟩
      · rw [← h3]
        cases stop <;> simp
      · have := lineAfter_ge (plays_lines (hpart 0)).1 (plays_lines (hpart 0)).2 time
        exact lt_max3 this

/-- The songs in the list are in the record from index `n` on. -/
def In (fastplay : Int) (n : Nat) (l : List (Nat × Bool)) (r : Info) : Prop :=
  ∀ k x, l[k]? = some x → r.durations (n + k) = (x.1 : Int) * fastplay * 38000 / 591149 ∧ r.loops (n + k) = x.2

theorem fcSongs_post {m : List Nat} (hl : 0x383 ≤ m.length) (hb : AllBytes m) {patterns : List Nat} {pat : Nat → Nat} (hp : Pats m patterns pat) (fuel pos : Nat) (hf : 256 - pos < fuel) (i : Info)
    (hs : i.songs ≤ 32) :
    Post (fun r => ∃ l, Songs m pat (32 - i.songs) pos l ∧ Adds i r ∧ r.songs = i.songs + l.length ∧ In i.fastplay i.songs l r) (fcSongs m patterns fuel pos i) := by
  induction fuel generalizing pos i with
  | zero => omega
  | succ fuel ih =>
    unfold fcSongs
    refine Post.ite (fun h => ?_) fun h => ?_
    · obtain ⟨h0, h32⟩ := h
      have h32 : i.songs < 32 := h32
      refine Post.bind (fcSong_post hl hb hp pos h0) ?_
      rintro ⟨ch, calls, stop⟩ ⟨h1, h2⟩
      dsimp only at h1 h2 ⊢
      refine Post.ite (fun h3 => ?_) fun h3 => ?_
      · refine Post.bind (addSong_adds (i := setLoops i (!stop)) h32) fun r hr => ?_
        obtain ⟨r1, r2, r3, r4, r5⟩ := hr
        have r2 : r.songs = i.songs + 1 := r2
        have hfp : r.fastplay = i.fastplay := by rw [r1.rest]; rfl
        refine (ih _ (by omega) r (by omega)).mono ?_
        rintro q ⟨l, q1, q2, q3, q4⟩
        refine ⟨(calls, !stop) :: l, ?_, (Adds.setLoops i (!stop)).trans (r1.trans q2), by rw [q3, r2]; simp; omega, fun k x hx => ?_⟩
        · rw [show 32 - i.songs = 32 - r.songs + 1 by omega]
          exact .more h0 h1 h3 q1
        · rcases k with _ | k
          · have hx : (calls, !stop) = x := by simpa using hx
            subst hx
            refine ⟨?_, ?_⟩
            · rw [q2.durations _ (by omega)]; exact r5
            · rw [q2.loops _ (by omega), r4]
              show upd _ _ _ _ = _
              rw [upd, if_pos (by omega)]
          · have := q4 k x (by simpa using hx)
            rw [hfp, r2] at this
            rw [show i.songs + (k + 1) = i.songs + 1 + k by omega]
            exact this
      · obtain ⟨fuel, rfl⟩ : ∃ f, fuel = f + 1 := ⟨fuel - 1, by omega⟩
        unfold fcSongs
        rw [if_neg (by omega)]
        exact ⟨[], .last h0 h1 (by omega), Adds.setLoops i _, rfl, fun k x hx => by simp at hx⟩
    · refine ⟨[], ?_, Adds.refl i, rfl, fun k x hx => by simp at hx⟩
      by_cases h' : 256 ≤ pos
      · exact .done h'
      · have : ¬ i.songs < 32 := fun h'' => h ⟨by omega, h''⟩
        rw [show 32 - i.songs = 0 by omega]
        exact .enough

attribute [local irreducible] fcPatterns in
theorem parseFc_post {m : List Nat} (hb : AllBytes m) (i : Info) :
    Post (fun r => ∃ pat, (∀ p < 64, PatternAt m p (pat p)) ∧ 0x383 ≤ m.length ∧ byte m 0 = 0x26 ∧ byte m 1 = 0x23 ∧
      ∃ l, Songs m pat 32 0 l ∧ r.songs = l.length ∧ In i.fastplay 0 l r ∧ (∀ k, r.songs ≤ k → r.durations k = i.durations k) ∧
      r = { i with type := .fc, player := 0x400, music := 0xa00, headerLen := -1, songs := r.songs, songPos := r.songPos, loops := r.loops, durations := r.durations })
      (parseFc i m) := by
  unfold parseFc
  refine Post.bind (P := fun b => b = true → 0x383 ≤ m.length ∧ byte m 0 = 0x26 ∧ byte m 1 = 0x23) ?_ fun b hb' => ?_
  · unfold validateFc
    refine Post.ite (fun _ => ?_) fun hl => ?_
    · exact fun h => by cases h
    · rw [byte_rd (by omega), byte_rd (by omega)]
      refine Post.ite (fun _ => ?_) fun h0 => ?_
      · exact fun h => by cases h
      · exact fun h => ⟨by omega, Decidable.not_not.mp h0, of_decide_eq_true h⟩
  refine Post.ite (fun _ => trivial) fun h => ?_
  have hbt : b = true := by
    cases b
    · exact absurd rfl h
    · rfl
  have hall : 0x383 ≤ m.length ∧ byte m 0 = 0x26 ∧ byte m 1 = 0x23 := hb' hbt
  have hl := hall.1
  have h0 := hall.2.1
  have h1 := hall.2.2
  refine Post.bind (fcPatterns_post 64 0 0x383 .first) ?_
  rintro ⟨patterns, off⟩ ⟨p1, p2⟩
  dsimp only at p1 p2 ⊢
  refine Post.bind (P := fun _ => True) ?_ fun _ _ => ?_
  · generalize (0x20 : Nat) = n
    induction n generalizing off with
    | zero => unfold fcPatterns; trivial
    | succ n ih =>
      unfold fcPatterns
      exact Post.bind (afterFF_post off) fun _ _ => Post.bind (ih _) fun _ _ => trivial
  have hpats : ∀ p < 64, patterns[p]? = some (patterns.getD p 0) := by
    intro p hp
    rw [List.getD_eq_getElem?_getD, List.getElem?_eq_getElem (by omega)]
    rfl
  have hpat : ∀ p < 64, PatternAt m p (patterns.getD p 0) ∧ ∃ k, FF m (patterns.getD p 0) k := by
    intro p hp
    have := p2 p _ (hpats p hp)
    rwa [Nat.zero_add] at this
  have hP : Pats m patterns (fun p => patterns.getD p 0) := ⟨hpats, fun p hp => by
    obtain ⟨k, hk⟩ := (hpat p hp).2
    exact notes_of hk 0⟩
  refine (fcSongs_post hl hb hP 300 0 (by omega) _ (Nat.zero_le _)).mono ?_
  rintro r ⟨l, l1, l2, l3, l4⟩
  have l3 : r.songs = l.length := by rw [l3]; exact Nat.zero_add _
  exact ⟨fun p => patterns.getD p 0, fun p hp => (hpat p hp).1, hl, h0, h1, l, l1, l3, l4, fun k hk => l2.unknown k hk, l2.rest⟩

end Fc

end Asap.Module
