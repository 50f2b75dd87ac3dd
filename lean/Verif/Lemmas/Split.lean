import Verif.Lemmas.Player
import Verif.Spec.Playback

/-! Generating samples in pieces. -/

namespace Asap

/-! ### The chips -/

theorem storeBlock_start (q : Pair) (i v : Int) (f : SampleFormat) :
    Pair.storeBlock { q with readyStart := v } i f =
      match q.storeBlock i f with
      | .ok r => .ok (r.1, { r.2 with readyStart := v })
      | .error e => .error e := by
  unfold Pair.storeBlock
  dsimp only
  cases q.base.storeSample i f with
  | error e => rfl
  | ok r =>
    show (if q.extraMask ≠ 0 then _ else _ : X (List Int × Pair)) = match (if q.extraMask ≠ 0 then _ else _ : X (List Int × Pair)) with
      | .ok r => .ok (r.1, { r.2 with readyStart := v })
      | .error e => .error e
    by_cases hx : q.extraMask ≠ 0
    · rw [if_pos hx, if_pos hx]
      cases q.extra.storeSample i f <;> rfl
    · rw [if_neg hx, if_neg hx]

theorem storeBlocks_start (f : SampleFormat) : ∀ (n : Nat) (q : Pair) (i v : Int),
    Pair.storeBlocks f n { q with readyStart := v } i =
      match q.storeBlocks f n i with
      | .ok r => .ok (r.1, { r.2 with readyStart := v })
      | .error e => .error e
  | 0, _, _, _ => rfl
  | n + 1, q, i, v => by
    have h := storeBlock_start q i v f
    simp only [Pair.storeBlocks, bind, Except.bind]
    rw [h]
    cases q.storeBlock i f with
    | error e => rfl
    | ok r =>
      dsimp only
      rw [storeBlocks_start f n r.2 (i + 1) v]
      cases Pair.storeBlocks f n r.2 (i + 1) <;> rfl

theorem storeBlocks_add (f : SampleFormat) : ∀ (n k : Nat) (q : Pair) (i : Int),
    Pair.storeBlocks f (n + k) q i =
      match q.storeBlocks f n i with
      | .ok r => match r.2.storeBlocks f k (i + n) with
        | .ok t => .ok (r.1 ++ t.1, t.2)
        | .error e => .error e
      | .error e => .error e
  | 0, k, q, i => by
    rw [Nat.zero_add]
    simp only [Pair.storeBlocks]
    rw [show i + ((0 : Nat) : Int) = i by omega]
    cases Pair.storeBlocks f k q i <;> rfl
  | n + 1, k, q, i => by
    rw [show n + 1 + k = (n + k) + 1 by omega]
    simp only [Pair.storeBlocks, bind, Except.bind]
    cases q.storeBlock i f with
    | error e => rfl
    | ok r =>
      dsimp only
      rw [storeBlocks_add f n k r.2 (i + 1)]
      cases Pair.storeBlocks f n r.2 (i + 1) with
      | error e => rfl
      | ok t =>
        dsimp only
        rw [show i + 1 + (n : Int) = i + ((n + 1 : Nat) : Int) by omega]
        cases Pair.storeBlocks f k t.2 (i + ((n + 1 : Nat) : Int)) with
        | error e => rfl
        | ok u => dsimp only; rw [List.append_assoc]

/-- The next sample. -/
def Pair.startAt (q : Pair) (v : Int) : Pair := { q with readyStart := v }

/-- All samples are used. -/
def Pair.usedAll (q : Pair) (stop : Int) : Pair :=
  { q with base := { q.base with trailing := stop }, extra := { q.extra with trailing := stop }, readyStart := stop }

/-- Marks the samples as used up. -/
def Pair.used (q : Pair) (stop : Int) : Pair := if stop = q.readyEnd then q.usedAll stop else q.startAt stop

theorem storeBlocks_startAt (f : SampleFormat) (n : Nat) (q : Pair) (i v : Int) :
    Pair.storeBlocks f n (q.startAt v) i =
      match q.storeBlocks f n i with
      | .ok r => .ok (r.1, r.2.startAt v)
      | .error e => .error e := storeBlocks_start f n q i v

theorem used_startAt (q : Pair) (v stop : Int) : (q.startAt v).used stop = q.used stop := by
  unfold Pair.used
  show (if stop = q.readyEnd then _ else _) = _
  split <;> rfl

/-- `Generate` spelled out. -/
theorem pair_generate_eq (q : Pair) (blocks : Int) (f : SampleFormat) :
    q.generate blocks f =
      if min blocks (q.readyEnd - q.readyStart) > 0 then
        match q.storeBlocks f (min blocks (q.readyEnd - q.readyStart)).toNat q.readyStart with
        | .ok r => .ok (r.1, min blocks (q.readyEnd - q.readyStart), r.2.used (q.readyStart + min blocks (q.readyEnd - q.readyStart)))
        | .error e => .error e
      else .ok ([], min blocks (q.readyEnd - q.readyStart), q) := by
  unfold Pair.generate
  dsimp only
  rw [show (if blocks < q.readyEnd - q.readyStart then blocks else q.readyEnd - q.readyStart) = min blocks (q.readyEnd - q.readyStart) by
    split <;> omega]
  by_cases h : min blocks (q.readyEnd - q.readyStart) > 0
  · rw [if_pos h, if_pos h]
    have hs := storeBlocks_frame f (min blocks (q.readyEnd - q.readyStart)).toNat q q.readyStart
    cases hx : q.storeBlocks f (min blocks (q.readyEnd - q.readyStart)).toNat q.readyStart with
    | error e => rfl
    | ok r =>
      rw [hx] at hs
      have he : r.2.readyEnd = q.readyEnd := hs.1.stop
      generalize min blocks (q.readyEnd - q.readyStart) = n
      show _ = Except.ok (r.1, n, r.2.used (q.readyStart + n))
      by_cases hc : q.readyStart + n = q.readyEnd
      · have hu : r.2.used (q.readyStart + n) = r.2.usedAll (q.readyStart + n) := by
          unfold Pair.used; exact if_pos (hc.trans he.symm)
        rw [hu]
        simp only [hc, if_true, bind, Except.bind]
        rfl
      · have hu : r.2.used (q.readyStart + n) = r.2.startAt (q.readyStart + n) := by
          unfold Pair.used; exact if_neg (fun h => hc (h.trans he))
        rw [hu]
        simp only [hc, if_false, bind, Except.bind]
        rfl
  · rw [if_neg h, if_neg h]

/-- Taking samples twice. -/
theorem pair_generate_add (q : Pair) (a b : Int) (f : SampleFormat) (ha : 0 ≤ a) (hb : 0 ≤ b) (hav : a ≤ q.readyEnd - q.readyStart) :
    q.generate (a + b) f =
      match q.generate a f with
      | .ok r => match r.2.2.generate b f with
        | .ok t => .ok (r.1 ++ t.1, r.2.1 + t.2.1, t.2.2)
        | .error e => .error e
      | .error e => .error e := by
  rw [pair_generate_eq q a f]
  by_cases h0 : a = 0
  · subst h0
    rw [if_neg (by omega), Int.zero_add]
    dsimp only
    cases q.generate b f with
    | error e => rfl
    | ok t =>
      dsimp only
      rw [show min 0 (q.readyEnd - q.readyStart) = 0 by omega, Int.zero_add]
      rfl
  have hmin : min a (q.readyEnd - q.readyStart) = a := by omega
  rw [if_pos (by omega), hmin, pair_generate_eq q (a + b) f]
  have hmin2 : min (a + b) (q.readyEnd - q.readyStart) = a + min b (q.readyEnd - (q.readyStart + a)) := by omega
  rw [if_pos (by omega), hmin2, show (a + min b (q.readyEnd - (q.readyStart + a))).toNat = a.toNat + (min b (q.readyEnd - (q.readyStart + a))).toNat by omega,
    storeBlocks_add]
  have hs := storeBlocks_frame f a.toNat q q.readyStart
  cases hx : q.storeBlocks f a.toNat q.readyStart with
  | error e => rfl
  | ok r =>
    rw [hx] at hs
    obtain ⟨bytes, q1⟩ := r
    have he : q1.readyEnd = q.readyEnd := hs.1.stop
    dsimp only
    rw [show (a.toNat : Int) = a by omega]
    by_cases hall : q.readyStart + a = q.readyEnd
    · have hz : min b (q.readyEnd - (q.readyStart + a)) = 0 := by omega
      rw [hz]
      have hu : (q1.used (q.readyStart + a)).readyEnd - (q1.used (q.readyStart + a)).readyStart = 0 := by
        unfold Pair.used
        split
        · show q1.readyEnd - (q.readyStart + a) = 0; omega
        · show q1.readyEnd - (q.readyStart + a) = 0; omega
      rw [pair_generate_eq _ b f, hu, if_neg (by omega), show min b 0 = 0 by omega]
      show Except.ok (bytes ++ [], a + 0, q1.used (q.readyStart + (a + 0))) = Except.ok (bytes ++ [], a + 0, _)
      rw [Int.add_zero]
    · have hu : q1.used (q.readyStart + a) = q1.startAt (q.readyStart + a) := by
        unfold Pair.used
        rw [if_neg (by omega)]
      rw [hu, pair_generate_eq (q1.startAt (q.readyStart + a)) b f]
      rw [show (q1.startAt (q.readyStart + a)).readyEnd - (q1.startAt (q.readyStart + a)).readyStart = q.readyEnd - (q.readyStart + a) by
        show q1.readyEnd - (q.readyStart + a) = _; rw [he],
        show (q1.startAt (q.readyStart + a)).readyStart = q.readyStart + a by rfl]
      by_cases hb0 : min b (q.readyEnd - (q.readyStart + a)) > 0
      · rw [if_pos hb0, storeBlocks_startAt]
        cases hy : q1.storeBlocks f (min b (q.readyEnd - (q.readyStart + a))).toNat (q.readyStart + a) with
        | error e => rfl
        | ok t =>
          dsimp only
          rw [used_startAt, show q.readyStart + (a + min b (q.readyEnd - (q.readyStart + a))) = q.readyStart + a + min b (q.readyEnd - (q.readyStart + a)) by omega]
      · have hz : min b (q.readyEnd - (q.readyStart + a)) = 0 := by omega
        rw [if_neg hb0, hz]
        show Except.ok (bytes ++ [], a + 0, q1.used (q.readyStart + (a + 0))) = Except.ok (bytes ++ [], a + 0, _)
        rw [Int.add_zero, hu]

/-! ### The loop of `Generate` -/

/-- What follows a frame in the loop. -/
def Machine.afterFrame (f : SampleFormat) (fuel : Nat) (left : Int) (r : List Int × Int) (cycles : Int) (m : Machine) :
    X ((List Int × Int) × Machine) :=
  if m.goesOn cycles = true then
    match Machine.generateLoop f fuel (left - r.2) (m.listened cycles) with
    | .ok t => .ok ((r.1 ++ t.1.1, r.2 + t.1.2), t.2)
    | .error e => .error e
  else .ok (r, m.listened cycles)

/-- What follows the finished samples in the loop. -/
def Machine.afterBlocks (f : SampleFormat) (fuel : Nat) (left : Int) (r : List Int × Int) (m : Machine) :
    X ((List Int × Int) × Machine) :=
  if r.2 ≥ left then .ok (r, m)
  else match Machine.doFrame m with
    | .ok t => t.2.afterFrame f fuel left r t.1
    | .error e => .error e

theorem generateLoop_eq (f : SampleFormat) (fuel : Nat) (left : Int) (m : Machine) :
    Machine.generateLoop f (fuel + 1) left m =
      match Machine.generateBlocks left f m with
      | .ok r => r.2.afterBlocks f fuel left r.1
      | .error e => .error e := by
  show C.bind (Machine.generateBlocks left f) _ m = _
  unfold C.bind
  cases Machine.generateBlocks left f m with
  | error e => rfl
  | ok r =>
    obtain ⟨r, m1⟩ := r
    dsimp only
    unfold Machine.afterBlocks
    by_cases h : r.2 ≥ left
    · rw [if_pos h, if_pos h]; rfl
    · rw [if_neg h, if_neg h]
      show C.bind Machine.doFrame _ m1 = _
      unfold C.bind
      cases Machine.doFrame m1 with
      | error e => rfl
      | ok t =>
        obtain ⟨cycles, m2⟩ := t
        dsimp only
        show C.bind (Machine.listen cycles) _ m2 = _
        unfold C.bind
        rw [listen_eq]
        dsimp only
        unfold Machine.afterFrame
        by_cases hg : m2.goesOn cycles = true
        · rw [if_pos hg, if_pos hg]
          show C.bind (Machine.generateLoop f fuel (left - r.2)) _ (m2.listened cycles) = _
          unfold C.bind
          cases Machine.generateLoop f fuel (left - r.2) (m2.listened cycles) <;> rfl
        · rw [if_neg hg, if_neg hg]
          rfl

/-- More fuel does not change a loop that ends. -/
theorem generateLoop_fuel (f : SampleFormat) (k : Nat) : ∀ (fuel : Nat) (left : Int) (m : Machine),
    Machine.generateLoop f fuel left m ≠ .error .fuel →
    Machine.generateLoop f (fuel + k) left m = Machine.generateLoop f fuel left m
  | 0, _, _, h => absurd rfl h
  | fuel + 1, left, m, h => by
    rw [generateLoop_eq] at h
    rw [show fuel + 1 + k = (fuel + k) + 1 by omega, generateLoop_eq, generateLoop_eq]
    cases hx : Machine.generateBlocks left f m with
    | error e => rfl
    | ok r =>
      rw [hx] at h
      dsimp only at h ⊢
      unfold Machine.afterBlocks at h ⊢
      by_cases hl : r.1.2 ≥ left
      · rw [if_pos hl, if_pos hl]
      · rw [if_neg hl] at h
        rw [if_neg hl, if_neg hl]
        cases hy : Machine.doFrame r.2 with
        | error e => rfl
        | ok t =>
          rw [hy] at h
          dsimp only at h ⊢
          unfold Machine.afterFrame at h ⊢
          by_cases hg : t.2.goesOn t.1 = true
          · rw [if_pos hg] at h
            rw [if_pos hg, if_pos hg]
            rw [generateLoop_fuel f k fuel (left - r.1.2) (t.2.listened t.1) (fun he => by rw [he] at h; exact h rfl)]
          · rw [if_neg hg, if_neg hg]

/-- Enough fuel. -/
def Enough (m : Machine) (left : Int) (fuel : Nat) : Prop :=
  (1 ≤ m.pk.readyEnd ∧ m.pk.readyStart = 0 ∧ left + 1 ≤ fuel ∧ 1 ≤ fuel) ∨ (left + 2 ≤ fuel ∧ 2 ≤ fuel)

theorem generateLoop_ends {m : Machine} (h : Playing m) {left : Int} {fuel : Nat} (hf : Enough m left fuel) (f : SampleFormat) :
    Machine.generateLoop f fuel left m ≠ .error .fuel := by
  intro he
  have := playing_generateLoop f fuel m left h hf
  rw [he] at this
  rcases this with h | h <;> exact Hw.noConfusion h

/-- The amount of fuel does not matter. -/
theorem generateLoop_enough {m : Machine} (h : Playing m) {left : Int} {fuel fuel' : Nat} (hf : Enough m left fuel) (hf' : Enough m left fuel')
    (f : SampleFormat) : Machine.generateLoop f fuel left m = Machine.generateLoop f fuel' left m := by
  rcases Nat.le_total fuel fuel' with hl | hl
  · rw [← generateLoop_fuel f (fuel' - fuel) fuel left m (generateLoop_ends h hf f), show fuel + (fuel' - fuel) = fuel' by omega]
  · rw [← generateLoop_fuel f (fuel - fuel') fuel' left m (generateLoop_ends h hf' f), show fuel' + (fuel - fuel') = fuel by omega]

/-- Silence was detected. -/
def Machine.Stopped (m : Machine) : Prop := m.silence > 0 ∧ m.silenceLeft ≤ 0

instance (m : Machine) : Decidable m.Stopped := inferInstanceAs (Decidable (_ ∧ _))

theorem listened_stopped (m : Machine) (cycles : Int) : (m.listened cycles).Stopped ↔ ¬ m.goesOn cycles = true ∨ ((m.listened cycles).Stopped ∧ m.silence ≤ 0) := by
  unfold Machine.Stopped Machine.goesOn Machine.listened
  by_cases h1 : m.silence > 0
  · rw [if_pos h1, decide_eq_true h1]
    by_cases h2 : (m.pk.isSilent && !m.external) = true
    · rw [if_pos h2, h2]
      show m.silence > 0 ∧ m.silenceLeft - cycles ≤ 0 ↔ _
      simp only [Bool.and_self, Bool.not_true, Bool.false_or, decide_eq_true_eq]
      show _ ↔ _ ∨ (m.silence > 0 ∧ m.silenceLeft - cycles ≤ 0) ∧ _
      omega
    · rw [if_neg h2]
      have h3 : (m.pk.isSilent && !m.external) = false := by simpa using h2
      rw [h3]
      show m.silence > 0 ∧ m.silence ≤ 0 ↔ _ ∨ (m.silence > 0 ∧ m.silence ≤ 0) ∧ _
      simp only [Bool.and_false, Bool.not_false, Bool.true_or]
      constructor
      · omega
      · rintro (h | h)
        · exact absurd trivial h
        · omega
  · rw [if_neg h1, decide_eq_false h1]
    simp only [Bool.false_and, Bool.not_false, Bool.true_or]
    constructor
    · intro h; omega
    · rintro (h | h)
      · exact absurd trivial h
      · exact h.1

theorem listened_silence (m : Machine) (cycles : Int) : (m.listened cycles).silence = m.silence := by
  unfold Machine.listened
  repeat' split
  all_goals rfl

/-- Silence detection ends playback just when it does not let it go on. -/
theorem stopped_iff (m : Machine) (cycles : Int) : (m.listened cycles).Stopped ↔ ¬ m.goesOn cycles = true := by
  rw [listened_stopped]
  constructor
  · rintro (h | h)
    · exact h
    · have h1 := h.1.1
      rw [listened_silence] at h1
      omega
  · exact Or.inl

/-- The loop delivers all blocks or detects silence. -/
theorem generateLoop_full {m : Machine} (hm : Playing m) {left : Int} {fuel : Nat} (hf : Enough m left fuel) (f : SampleFormat)
    {r : (List Int × Int) × Machine} (he : Machine.generateLoop f fuel left m = .ok r) : r.1.2 = left ∨ r.2.Stopped := by
  induction fuel generalizing m left r with
  | zero => exact nomatch he
  | succ fuel ih =>
    rw [generateLoop_eq] at he
    have hk := playing_generateBlocks hm left f
    have hw := hm.ready.window
    cases hx : Machine.generateBlocks left f m with
    | error e => rw [hx] at he; exact nomatch he
    | ok q =>
      rw [hx] at he hk
      obtain ⟨⟨bytes, n⟩, m1⟩ := q
      obtain ⟨hm1, ht, hq⟩ := hk
      dsimp only at ht hq hm1 he
      have hcount : n = min left (m.pk.readyEnd - m.pk.readyStart) := ht.count
      unfold Machine.afterBlocks at he
      by_cases hl : n ≥ left
      · rw [if_pos hl] at he
        cases he
        left; show n = left; omega
      · rw [if_neg hl] at he
        have hd := playing_doFrame hm1
        cases hy : Machine.doFrame m1 with
        | error e => rw [hy] at he; exact nomatch he
        | ok t =>
          rw [hy] at he hd
          obtain ⟨cyc, m2⟩ := t
          obtain ⟨_, hm2, hk2, _, hs2, hs3⟩ := hd
          dsimp only at he hm2 hk2 hs2 hs3
          unfold Machine.afterFrame at he
          have hp3 := (listened_keeps m2 cyc).2.1
          by_cases hg : m2.goesOn cyc = true
          · rw [if_pos hg] at he
            have hen : Enough (m2.listened cyc) (left - n) fuel := by
              refine Or.inl ⟨by rw [hp3]; exact hs3, by rw [hp3]; exact hs2, ?_, ?_⟩
              · rcases hf with h | h <;> omega
              · rcases hf with h | h <;> omega
            cases hz : Machine.generateLoop f fuel (left - n) (m2.listened cyc) with
            | error e => rw [hz] at he; exact nomatch he
            | ok u =>
              rw [hz] at he
              have := ih (hm2.listened cyc) hen hz
              cases he
              rcases this with h | h
              · left; show n + u.1.2 = left; omega
              · exact Or.inr h
          · rw [if_neg hg] at he
            cases he
            exact Or.inr ((stopped_iff m2 cyc).2 hg)

/-- `generateBlocks` looks at the least of the request and what is there. -/
theorem generateBlocks_min (m : Machine) (a b : Int) (f : SampleFormat)
    (h : min a (m.pk.readyEnd - m.pk.readyStart) = min b (m.pk.readyEnd - m.pk.readyStart)) :
    Machine.generateBlocks a f m = Machine.generateBlocks b f m := by
  rw [generateBlocks_eq, generateBlocks_eq, pair_generate_eq, pair_generate_eq, h]

theorem generateBlocks_add (m : Machine) (a b : Int) (f : SampleFormat) (ha : 0 ≤ a) (hb : 0 ≤ b) (hav : a ≤ m.pk.readyEnd - m.pk.readyStart) :
    Machine.generateBlocks (a + b) f m =
      match Machine.generateBlocks a f m with
      | .ok r => match Machine.generateBlocks b f r.2 with
        | .ok t => .ok ((r.1.1 ++ t.1.1, r.1.2 + t.1.2), t.2)
        | .error e => .error e
      | .error e => .error e := by
  rw [generateBlocks_eq, generateBlocks_eq, pair_generate_add _ a b f ha hb hav]
  cases m.pk.generate a f with
  | error e => rfl
  | ok r =>
    dsimp only
    rw [generateBlocks_eq]
    cases r.2.2.generate b f with
    | error e => rfl
    | ok t => dsimp only; rw [Int.add_assoc]

/-- The loop does not change whether silence is detected, or detects it. -/
theorem generateBlocks_same {m : Machine} (hm : Playing m) {left : Int} {f : SampleFormat} {r : (List Int × Int) × Machine}
    (he : Machine.generateBlocks left f m = .ok r) : r.2.silence = m.silence ∧ r.2.silenceLeft = m.silenceLeft ∧
      r.1.2 = min left (m.pk.readyEnd - m.pk.readyStart) ∧ Playing r.2 ∧ r.2.pk.readyEnd = m.pk.readyEnd ∧
      r.2.pk.readyStart = m.pk.readyStart + max 0 r.1.2 := by
  have hk := playing_generateBlocks hm left f
  rw [he] at hk
  obtain ⟨⟨bytes, n⟩, m1⟩ := r
  obtain ⟨hm1, ht, hq⟩ := hk
  dsimp only at ht hq hm1 ⊢
  exact ⟨by rw [hq], by rw [hq], ht.count, hm1, ht.stop, ht.start⟩

/-- Splitting the loop. -/
theorem generateLoop_add (f : SampleFormat) (b : Int) (hb : 0 ≤ b) (fuel2 : Nat) (hf2 : b + 2 ≤ fuel2) : ∀ (fuel : Nat) (m : Machine) (a : Int),
    0 ≤ a → Playing m → ¬ m.Stopped → Enough m (a + b) fuel →
    Machine.generateLoop f fuel (a + b) m =
      match Machine.generateLoop f fuel a m with
      | .ok r => if r.2.Stopped then .ok r else
        match Machine.generateLoop f fuel2 b r.2 with
        | .ok t => .ok ((r.1.1 ++ t.1.1, r.1.2 + t.1.2), t.2)
        | .error e => .error e
      | .error e => .error e
  | 0, m, a, ha, hm, hst, hf => by rcases hf with h | h <;> omega
  | fuel + 1, m, a, ha, hm, hst, hf => by
    rw [generateLoop_eq, generateLoop_eq]
    by_cases hav : a ≤ m.pk.readyEnd - m.pk.readyStart
    · rw [generateBlocks_add m a b f ha hb hav]
      cases hx : Machine.generateBlocks a f m with
      | error e => rfl
      | ok r =>
        obtain ⟨⟨bytes, n⟩, m1⟩ := r
        obtain ⟨e1, e2, e3, hm1, e4, e5⟩ := generateBlocks_same hm hx
        dsimp only at e1 e2 e3 hm1 e4 e5 ⊢
        have hn : n = a := by omega
        subst hn
        rw [show m1.afterBlocks f fuel n (bytes, n) = .ok ((bytes, n), m1) from if_pos (by show n ≥ n; omega)]
        dsimp only
        rw [if_neg (by unfold Machine.Stopped; rw [e1, e2]; exact hst)]
        obtain ⟨g, rfl⟩ : ∃ g, fuel2 = g + 1 := ⟨fuel2 - 1, by omega⟩
        rw [generateLoop_eq]
        cases hy : Machine.generateBlocks b f m1 with
        | error e => rfl
        | ok t =>
          obtain ⟨⟨bytes2, n2⟩, m2⟩ := t
          obtain ⟨c1, c2, c3, hm2, _, _⟩ := generateBlocks_same hm1 hy
          have hw := hm1.ready.window
          dsimp only at c1 c2 c3 hm2 ⊢
          unfold Machine.afterBlocks
          dsimp only
          by_cases hge : n2 ≥ b
          · rw [if_pos hge, if_pos (by omega)]
          · rw [if_neg hge, if_neg (by omega)]
            have hd := playing_doFrame hm2
            cases hz : Machine.doFrame m2 with
            | error e => rfl
            | ok u =>
              rw [hz] at hd
              obtain ⟨cyc, m3⟩ := u
              obtain ⟨_, hm3, hk3, _, hs2, hs3⟩ := hd
              dsimp only at hm3 hk3 hs2 hs3 ⊢
              unfold Machine.afterFrame
              dsimp only
              by_cases hg : m3.goesOn cyc = true
              · rw [if_pos hg, if_pos hg]
                have hp3 := (listened_keeps m3 cyc).2.1
                have f1 : 1 ≤ (m3.listened cyc).pk.readyEnd := by rw [hp3]; exact hs3
                have f2 : (m3.listened cyc).pk.readyStart = 0 := by rw [hp3]; exact hs2
                rw [show n + b - (n + n2) = b - n2 by omega]
                rw [generateLoop_enough (hm3.listened cyc) (left := b - n2) (fuel := fuel) (fuel' := g)
                  (Or.inl ⟨f1, f2, by rcases hf with h | h <;> omega, by rcases hf with h | h <;> omega⟩)
                  (Or.inl ⟨f1, f2, by omega, by omega⟩) f]
                cases Machine.generateLoop f g (b - n2) (m3.listened cyc) with
                | error e => rfl
                | ok v => dsimp only; rw [List.append_assoc, Int.add_assoc]
              · rw [if_neg hg, if_neg hg]
    · rw [generateBlocks_min m (a + b) a f (by omega)]
      cases hx : Machine.generateBlocks a f m with
      | error e => rfl
      | ok r =>
        obtain ⟨⟨bytes, n⟩, m1⟩ := r
        obtain ⟨e1, e2, e3, hm1, e4, e5⟩ := generateBlocks_same hm hx
        have hw := hm.ready.window
        dsimp only at e1 e2 e3 hm1 e4 e5 ⊢
        unfold Machine.afterBlocks
        dsimp only
        rw [if_neg (by omega), if_neg (by omega)]
        have hd := playing_doFrame hm1
        cases hz : Machine.doFrame m1 with
        | error e => rfl
        | ok u =>
          rw [hz] at hd
          obtain ⟨cyc, m3⟩ := u
          obtain ⟨_, hm3, hk3, _, hs2, hs3⟩ := hd
          dsimp only at hm3 hk3 hs2 hs3 ⊢
          unfold Machine.afterFrame
          dsimp only
          have hp3 := (listened_keeps m3 cyc).2.1
          have f1 : 1 ≤ (m3.listened cyc).pk.readyEnd := by rw [hp3]; exact hs3
          have f2 : (m3.listened cyc).pk.readyStart = 0 := by rw [hp3]; exact hs2
          by_cases hg : m3.goesOn cyc = true
          · rw [if_pos hg, if_pos hg, show a + b - n = (a - n) + b by omega]
            rw [generateLoop_add f b hb fuel2 hf2 fuel (m3.listened cyc) (a - n) (by omega) (hm3.listened cyc)
              (fun h => (stopped_iff m3 cyc).1 h hg)
              (Or.inl ⟨f1, f2, by rcases hf with h | h <;> omega, by rcases hf with h | h <;> omega⟩)]
            cases Machine.generateLoop f fuel (a - n) (m3.listened cyc) with
            | error e => rfl
            | ok v =>
              dsimp only
              by_cases hv : v.2.Stopped
              · rw [if_pos hv, if_pos hv]
              · rw [if_neg hv, if_neg hv]
                cases Machine.generateLoop f fuel2 b v.2 with
                | error e => rfl
                | ok w => dsimp only; rw [List.append_assoc, Int.add_assoc]
          · rw [if_neg hg, if_neg hg]
            dsimp only
            rw [if_pos ((stopped_iff m3 cyc).2 hg)]

/-! ### `Generate` -/

/-- The number of blocks to generate when `k` are requested. -/
def Machine.wanted (m : Machine) (k : Int) : Int :=
  if m.duration > 0 then
    let rest := Machine.millisecondsToBlocks m.rate m.duration - m.played
    if k > rest then rest else k
  else k

theorem shr_mul (k : Int) (s : Nat) : shr (k * 2 ^ s) s = k := by
  unfold shr
  exact Int.mul_ediv_cancel _ (Int.ne_of_gt (Int.pow_pos (by decide)))

theorem shl_add (a b : Int) (s : Nat) : shl (a + b) s = shl a s + shl b s := by
  unfold shl
  rw [Int.add_mul]

theorem blockSize_eq {m : Machine} (hc : m.info.channels = 1 ∨ m.info.channels = 2) (f : SampleFormat) :
    Spec.blockSize m f = 2 ^ Machine.blockShift m.info.channels f := by
  unfold Spec.blockSize Machine.blockShift
  rcases hc with h | h <;> rw [h] <;> cases f <;> rfl

theorem generate_eq' (m : Machine) (k : Int) (f : SampleFormat) (hc : m.info.channels = 1 ∨ m.info.channels = 2) :
    Machine.generate (k * Spec.blockSize m f) f m =
      if m.Stopped then .ok (([], 0), m)
      else match Machine.generateLoop f ((m.wanted k).toNat + 3) (m.wanted k) m with
        | .ok r => .ok ((r.1.1, shl r.1.2 (Machine.blockShift m.info.channels f)), r.2)
        | .error e => .error e := by
  rw [generate_eq]
  simp only [decide_eq_true_eq]
  have : m.wantedBlocks (k * Spec.blockSize m f) f = m.wanted k := by
    unfold Machine.wantedBlocks Machine.wanted
    rw [blockSize_eq hc, shr_mul]
  rw [this]
  rfl

theorem generateLoop_zero {m : Machine} (hm : Playing m) (fuel : Nat) (f : SampleFormat) :
    Machine.generateLoop f (fuel + 1) 0 m = .ok (([], 0), m) := by
  have hw := hm.ready.window
  rw [generateLoop_eq, generateBlocks_eq, pair_generate_eq, if_neg (by omega), show min 0 (m.pk.readyEnd - m.pk.readyStart) = 0 by omega]
  show Machine.afterBlocks f fuel 0 ([], 0) { m with pk := m.pk, played := m.played + 0 } = _
  rw [Int.add_zero]
  exact if_pos (Int.le_refl 0)

/-- Two calls of `Generate` are as good as one. -/
theorem generate_add {m : Machine} (hm : Playing m) (hc : m.info.channels = 1 ∨ m.info.channels = 2) (f : SampleFormat) {k1 k2 : Int}
    (h1 : 0 ≤ k1) (h2 : 0 ≤ k2) :
    Machine.generate ((k1 + k2) * Spec.blockSize m f) f m =
      match Machine.generate (k1 * Spec.blockSize m f) f m with
      | .ok r => match Machine.generate (k2 * Spec.blockSize m f) f r.2 with
        | .ok t => .ok ((r.1.1 ++ t.1.1, r.1.2 + t.1.2), t.2)
        | .error e => .error e
      | .error e => .error e := by
  rw [generate_eq' m (k1 + k2) f hc, generate_eq' m k1 f hc]
  by_cases hs : m.Stopped
  · rw [if_pos hs, if_pos hs]
    dsimp only
    rw [generate_eq' m k2 f hc, if_pos hs]
    rfl
  · rw [if_neg hs, if_neg hs]
    have hw1 : m.wanted k1 ≤ k1 := by unfold Machine.wanted; dsimp only; split <;> (try split) <;> omega
    have hmax : (m.wanted k1 = k1 ∧ k1 ≤ m.wanted (k1 + k2)) ∨ (m.wanted k1 = m.wanted (k1 + k2) ∧ m.duration > 0 ∧
        m.wanted k1 = Machine.millisecondsToBlocks m.rate m.duration - m.played) := by
      unfold Machine.wanted
      dsimp only
      by_cases hd : m.duration > 0
      · rw [if_pos hd, if_pos hd]
        by_cases hk : k1 > Machine.millisecondsToBlocks m.rate m.duration - m.played
        · right
          rw [if_pos hk, if_pos (by omega)]
          exact ⟨rfl, hd, rfl⟩
        · left
          rw [if_neg hk]
          exact ⟨rfl, by split <;> omega⟩
      · rw [if_neg hd, if_neg hd]
        left
        exact ⟨rfl, by omega⟩
    have key := playing_generateLoop f ((m.wanted k1).toNat + 3) m (m.wanted k1) hm (Or.inr (by omega))
    have hfull := fun r => generateLoop_full hm (left := m.wanted k1) (fuel := (m.wanted k1).toNat + 3) (Or.inr (by omega)) f (r := r)
    rcases hmax with ⟨e1, e2⟩ | ⟨e1, hd, e2⟩
    · -- the first call gets all it wants
      have e3 : m.wanted (k1 + k2) = k1 + (m.wanted (k1 + k2) - k1) := by omega
      generalize hb : m.wanted (k1 + k2) - k1 = b at e3
      rw [e3, e1]
      rw [e1] at key hfull
      rw [generateLoop_add f b (by omega) (b.toNat + 3) (by omega) _ m k1 h1 hm hs (Or.inr (by omega)),
        generateLoop_enough hm (left := k1) (fuel := (k1 + b).toNat + 3) (fuel' := k1.toNat + 3) (Or.inr (by omega)) (Or.inr (by omega)) f]
      cases hx : Machine.generateLoop f (k1.toNat + 3) k1 m with
      | error e => rfl
      | ok r =>
        rw [hx] at key
        dsimp only
        have hbs : Spec.blockSize m f = Spec.blockSize r.2 f := by unfold Spec.blockSize; rw [key.info]
        rw [hbs, generate_eq' r.2 k2 f (by rw [key.info]; exact hc)]
        by_cases hst : r.2.Stopped
        · rw [if_pos hst, if_pos hst]
          show Except.ok _ = Except.ok ((r.1.1 ++ [], _ + 0), r.2)
          rw [List.append_nil, Int.add_zero]
        · rw [if_neg hst, if_neg hst]
          have hn : r.1.2 = k1 := (hfull r hx).resolve_right hst
          have hw : r.2.wanted k2 = b := by
            have hp := key.played
            rw [← hb]
            unfold Machine.wanted
            dsimp only
            rw [key.duration, key.rate, hp, hn]
            by_cases hd : m.duration > 0
            · rw [if_pos hd, if_pos hd]
              split <;> split <;> omega
            · rw [if_neg hd, if_neg hd]
              omega
          rw [hw]
          cases hy : Machine.generateLoop f (b.toNat + 3) b r.2 with
          | error e => rfl
          | ok t =>
            dsimp only
            rw [key.info, shl_add]
    · -- the first call reaches the end
      rw [← e1]
      cases hx : Machine.generateLoop f ((m.wanted k1).toNat + 3) (m.wanted k1) m with
      | error e => rfl
      | ok r =>
        rw [hx] at key
        dsimp only
        have hbs : Spec.blockSize m f = Spec.blockSize r.2 f := by unfold Spec.blockSize; rw [key.info]
        rw [hbs, generate_eq' r.2 k2 f (by rw [key.info]; exact hc)]
        by_cases hst : r.2.Stopped
        · rw [if_pos hst]
          show Except.ok _ = Except.ok ((r.1.1 ++ [], _ + 0), r.2)
          rw [List.append_nil, Int.add_zero]
        · rw [if_neg hst]
          have hn : r.1.2 = m.wanted k1 := (hfull r hx).resolve_right hst
          have hw : r.2.wanted k2 = 0 := by
            have hp := key.played
            unfold Machine.wanted
            dsimp only
            rw [key.duration, key.rate, hp, hn, if_pos hd, e2]
            split <;> omega
          rw [hw, generateLoop_zero key.playing]
          dsimp only
          rw [show shl 0 (Machine.blockShift r.2.info.channels f) = 0 by unfold shl; rw [Int.zero_mul]]
          rw [List.append_nil, Int.add_zero]

/-! ### Any number of calls -/

theorem generateEach_cons (f : SampleFormat) (len : Int) (lens : List Int) (m : Machine) :
    Spec.generateEach f (len :: lens) m =
      match Machine.generate len f m with
      | .ok r => match Spec.generateEach f lens r.2 with
        | .ok t => .ok (r.1 :: t.1, t.2)
        | .error e => .error e
      | .error e => .error e := by
  show C.bind (Machine.generate len f) _ m = _
  unfold C.bind
  cases Machine.generate len f m with
  | error e => rfl
  | ok r =>
    show C.bind (Spec.generateEach f lens) _ r.2 = _
    unfold C.bind
    dsimp only
    cases Spec.generateEach f lens r.2 <;> rfl

theorem generateAll_eq (f : SampleFormat) (lens : List Int) (m : Machine) :
    Spec.generateAll f lens m =
      match Spec.generateEach f lens m with
      | .ok r => .ok (((r.1.map (·.1)).flatten, (r.1.map (·.2)).sum), r.2)
      | .error e => .error e := by
  show C.bind (Spec.generateEach f lens) _ m = _
  unfold C.bind
  cases Spec.generateEach f lens m <;> rfl

theorem generateAll_cons (f : SampleFormat) (len : Int) (lens : List Int) (m : Machine) :
    Spec.generateAll f (len :: lens) m =
      match Machine.generate len f m with
      | .ok r => match Spec.generateAll f lens r.2 with
        | .ok t => .ok ((r.1.1 ++ t.1.1, r.1.2 + t.1.2), t.2)
        | .error e => .error e
      | .error e => .error e := by
  rw [generateAll_eq, generateEach_cons]
  cases Machine.generate len f m with
  | error e => rfl
  | ok r =>
    dsimp only
    rw [generateAll_eq]
    cases Spec.generateEach f lens r.2 with
    | error e => rfl
    | ok t =>
      dsimp only
      rw [List.map_cons, List.map_cons, List.flatten_cons, List.sum_cons]

theorem sum_nonneg : ∀ (l : List Int), (∀ x ∈ l, 0 ≤ x) → 0 ≤ l.sum
  | [], _ => by simp
  | a :: l, h => by
    have := sum_nonneg l fun x hx => h x (by simp [hx])
    have := h a (by simp)
    rw [List.sum_cons]
    omega

theorem generate_sum (f : SampleFormat) : ∀ (ks : List Int) (k : Int) {m : Machine}, Playing m → (m.info.channels = 1 ∨ m.info.channels = 2) →
    (0 ≤ k) → (∀ x ∈ ks, 0 ≤ x) →
    Machine.generate ((k :: ks).sum * Spec.blockSize m f) f m = Spec.generateAll f ((k :: ks).map (· * Spec.blockSize m f)) m
  | [], k, m, hm, hc, hk, hks => by
    rw [List.map_cons, generateAll_cons, List.sum_cons, List.sum_nil, Int.add_zero]
    cases Machine.generate (k * Spec.blockSize m f) f m with
    | error e => rfl
    | ok r =>
      show _ = Except.ok ((r.1.1 ++ [], r.1.2 + 0), r.2)
      rw [List.append_nil, Int.add_zero]
  | k2 :: ks, k, m, hm, hc, hk, hks => by
    have hp : 0 ≤ (k2 :: ks).sum := by
      exact sum_nonneg _ hks
    rw [List.sum_cons, List.map_cons, generateAll_cons, generate_add hm hc f hk hp]
    have key := playing_generate hm (k * Spec.blockSize m f) f
    cases hx : Machine.generate (k * Spec.blockSize m f) f m with
    | error e => rfl
    | ok r =>
      rw [hx] at key
      dsimp only
      have hbs : Spec.blockSize m f = Spec.blockSize r.2 f := by unfold Spec.blockSize; rw [key.info]
      rw [hbs, generate_sum f ks k2 key.playing (by rw [key.info]; exact hc) (hks k2 (by simp)) fun x hx => hks x (by simp [hx])]

theorem served_cons (size left len : Int) (lens : List Int) :
    Spec.served size left (len :: lens) = min (len / size) left * size :: Spec.served size (left - min (len / size) left) lens := rfl

/-- The numbers returned. -/
theorem generateEach_served (f : SampleFormat) : ∀ (lens : List Int) {m : Machine}, Playing m → (m.info.channels = 1 ∨ m.info.channels = 2) →
    (∀ x ∈ lens, 0 ≤ x) → 0 < m.duration → m.silence ≤ 0 → 0 ≤ m.played → m.played ≤ Machine.millisecondsToBlocks m.rate m.duration →
    XPost CpuBad (fun r => r.1.map (·.2) = Spec.served (Spec.blockSize m f) (Machine.millisecondsToBlocks m.rate m.duration - m.played) lens ∧
      (∀ x ∈ r.1, (x.1.length : Int) = x.2) ∧ Playing r.2 ∧ r.2.info = m.info ∧ r.2.duration = m.duration ∧ r.2.silence = m.silence ∧
      r.2.rate = m.rate ∧ r.2.played * Spec.blockSize m f = m.played * Spec.blockSize m f + (r.1.map (·.2)).sum ∧
      r.2.played ≤ Machine.millisecondsToBlocks m.rate m.duration ∧ m.played ≤ r.2.played)
      (Spec.generateEach f lens m)
  | [], m, hm, hc, hl, hd, hs, hp0, hp => ⟨rfl, fun x hx => by simp at hx, hm, rfl, rfl, rfl, rfl, by simp, hp, Int.le_refl _⟩
  | len :: lens, m, hm, hc, hl, hd, hs, hp0, hp => by
    rw [generateEach_cons]
    have key := playing_generate hm len f
    cases hx : Machine.generate len f m with
    | error e => rw [hx] at key; exact key
    | ok r =>
      rw [hx] at key
      obtain ⟨⟨bytes, count⟩, m1⟩ := r
      obtain ⟨n, h1, h2, h3, h4, h5, h6⟩ := key.count
      dsimp only at h1 h2 h3 h4 h5 h6 ⊢
      have hlen : 0 ≤ len := hl len (by simp)
      have hbs0 := blockSize_eq hc f
      have hpos : 0 < Spec.blockSize m f := by rw [hbs0]; exact Int.pow_pos (by decide)
      have hw : n = min (len / Spec.blockSize m f) (Machine.millisecondsToBlocks m.rate m.duration - m.played) := by
        rw [h6 hs]
        unfold Machine.wantedBlocks
        dsimp only
        rw [if_pos hd, hbs0]
        unfold shr
        split <;> omega
      have hq : 0 ≤ len / Spec.blockSize m f := Int.ediv_nonneg hlen (Int.le_of_lt hpos)
      have hn0 : 0 ≤ n := by omega
      have hcount : count = n * Spec.blockSize m f := by rw [h1, hbs0]; rfl
      have hbb : (blockBytes (decide (m.info.channels > 1)) f : Int) = Spec.blockSize m f := by
        unfold blockBytes Spec.blockSize
        rcases hc with h | h <;> rw [h] <;> cases f <;> rfl
      have i1 : m1.info = m.info := key.info
      have i2 : m1.rate = m.rate := key.rate
      have i3 : m1.duration = m.duration := key.duration
      have i4 : m1.silence = m.silence := key.silence
      have hbs : Spec.blockSize m1 f = Spec.blockSize m f := by unfold Spec.blockSize; rw [i1]
      have hrec := generateEach_served f lens (m := m1) key.playing (by rw [i1]; exact hc) (fun x hx => hl x (by simp [hx])) (by rw [i3]; exact hd)
        (by rw [i4]; exact hs) (by omega) (by rw [i2, i3]; omega)
      rw [hbs, i1, i2, i3, i4] at hrec
      cases hy : Spec.generateEach f lens m1 with
      | error e => rw [hy] at hrec; exact hrec
      | ok t =>
        rw [hy] at hrec
        obtain ⟨r1, r2, r3, r4, r5, r6, r7, r8, r9, r10⟩ := hrec
        refine ⟨?_, ?_, r3, r4, r5, r6, r7, ?_, r9, by show m.played ≤ t.2.played; omega⟩
        · show List.map (·.2) ((bytes, count) :: t.1) = _
          rw [List.map_cons, r1]
          rw [served_cons, hcount, h2, ← hw, Int.sub_sub]
        · intro x hx
          rcases List.mem_cons.1 hx with e | e
          · rw [e]
            show (bytes.length : Int) = count
            rw [h3, hbb, Int.max_eq_right hn0, hcount]
          · exact r2 x e
        · show t.2.played * _ = _
          rw [r8, h2, List.map_cons, List.sum_cons, Int.add_mul]
          show _ = _ + (count + _)
          rw [hcount]
          omega

end Asap
