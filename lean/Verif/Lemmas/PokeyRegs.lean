import Verif.Lemmas.Pokey

/-! Registers, periods and termination of the POKEY emulation. -/

namespace Asap.Pokey
open Asap.Spec

variable {cfg : Cfg}

/-! ### What a change of the output touches -/

theorem addExternalDelta_frame (p : Pokey) (c d : Int) :
    XPost (fun e => e = .delta) (fun q => ∃ b, q = { p with buf := b }) (addExternalDelta cfg p c d) := by
  unfold addExternalDelta
  dsimp only
  refine XPost.ite (fun _ => ⟨p.buf, rfl⟩) fun _ => ?_
  exact XPost.ite (fun _ => ⟨_, rfl⟩) fun _ => rfl

theorem addDelta_frame (p : Pokey) (c d : Int) :
    XPost (fun e => e = .delta ∨ e = .dac) (fun q => ∃ b o, q = { p with buf := b, sumIn := p.sumIn + d, sumOut := o })
      (addDelta cfg p c d) := by
  unfold addDelta
  dsimp only
  refine XPost.ite (fun _ => ?_) fun _ => Or.inr rfl
  split
  · exact Or.inr rfl
  · refine XPost.bind ((addExternalDelta_frame _ c _).mono (fun e h => Or.inl h) fun q h => h) ?_
    rintro q ⟨b, rfl⟩
    exact ⟨b, _, rfl⟩

theorem slope_frame (p : Pokey) (i : Nat) (c : Int) :
    XPost (fun e => e = .delta ∨ e = .dac)
      (fun q => ∃ b o, q = { p.setCh i { p.ch i with delta := -(p.ch i).delta } with
        buf := b, sumIn := p.sumIn - (p.ch i).delta, sumOut := o })
      (slope cfg p i c) := by
  unfold slope
  refine (addDelta_frame _ _ _).mono (fun _ h => h) ?_
  rintro q ⟨b, o, rfl⟩
  refine ⟨b, o, ?_⟩
  rfl

/-! ### Register contents and periods -/

/-- The chip holds the registers `a` (AUDCTL) and `f` (AUDF1-4), with matching periods. -/
structure Regs (a : Int) (f : Nat → Int) (p : Pokey) : Prop where
  audctl : p.audctl = a
  audf : ∀ i, i < 4 → (p.ch i).audf = f i
  div : p.div = divider a
  period : ∀ i, i < 4 → (p.ch i).period = Spec.period a (f 0) (f 1) (f 2) (f 3) i
  reload1 : 1 ≤ p.reload1
  reload3 : 1 ≤ p.reload3

/-- A change of a channel that keeps its registers. -/
theorem Regs.setCh {a : Int} {f : Nat → Int} {p : Pokey} (h : Regs a f p) (i : Nat) {c : Channel}
    (h1 : c.audf = (p.ch i).audf) (h2 : c.period = (p.ch i).period) : Regs a f (p.setCh i c) := by
  refine ⟨h.audctl, ?_, h.div, ?_, h.reload1, h.reload3⟩
  · intro j hj
    by_cases e : j = i
    · subst e; rw [setCh_same, h1]; exact h.audf j hj
    · rw [setCh_other _ _ e]; exact h.audf j hj
  · intro j hj
    by_cases e : j = i
    · subst e; rw [setCh_same, h2]; exact h.period j hj
    · rw [setCh_other _ _ e]; exact h.period j hj

theorem Regs.output {a : Int} {f : Nat → Int} {p : Pokey} (h : Regs a f p) (b : Int → Int) (s o : Int) :
    Regs a f { p with buf := b, sumIn := s, sumOut := o } :=
  ⟨h.audctl, h.audf, h.div, h.period, h.reload1, h.reload3⟩

theorem regs_stable (a : Int) (f : Nat → Int) : Stable cfg (fun e => e ≠ .mem) (Regs a f) where
  tick p i t h := h.setCh i rfl rfl
  out p i o h := h.setCh i rfl rfl
  slope p i c _ h := by
    refine (slope_frame p i c).mono ?_ ?_
    · rintro e (rfl | rfl) <;> decide
    · rintro q ⟨b, o, rfl⟩
      exact (h.setCh i (c := { p.ch i with delta := -(p.ch i).delta }) rfl rfl).output _ _ _
  poly := by decide

/-- Registers hold bytes. -/
def Bytes (a : Int) (f : Nat → Int) : Prop := (0 ≤ a ∧ a < 256) ∧ ∀ i, i < 4 → 0 ≤ f i ∧ f i < 256

theorem divider_pos (a : Int) : 28 ≤ divider a ∧ divider a ≤ 114 := by
  unfold divider; split <;> omega

theorem mul_pos_bound {d x : Int} (hd : 28 ≤ d ∧ d ≤ 114) (hx : 1 ≤ x ∧ x ≤ 65536) :
    1 ≤ d * x ∧ d * x ≤ 114 * 65536 := by
  constructor
  · have h := Int.mul_le_mul (show (1 : Int) ≤ d by omega) hx.1 (by omega) (by omega)
    omega
  · exact Int.mul_le_mul hd.2 hx.2 (by omega) (by omega)

/-- Every prescribed period is positive and far from `NeverCycle`. -/
theorem period_pos {a : Int} {f : Nat → Int} (hb : Bytes a f) (i : Nat) :
    1 ≤ Spec.period a (f 0) (f 1) (f 2) (f 3) i ∧ Spec.period a (f 0) (f 1) (f 2) (f 3) i ≤ 114 * 65536 := by
  have hd := divider_pos a
  have h0 := hb.2 0 (by omega); have h1 := hb.2 1 (by omega)
  have h2 := hb.2 2 (by omega); have h3 := hb.2 3 (by omega)
  unfold Spec.period
  split <;> simp only [periodLow, periodHigh] <;> repeat' split
  all_goals first
    | omega
    | exact mul_pos_bound hd (by omega)

/-! ### Termination -/

theorem doTick_ticks (p : Pokey) (i : Nat) (c : Int) :
    XPost (fun e => e ≠ .fuel)
      (fun q => ∀ j, (q.ch j).tick = if j = i then (p.ch i).tick + (p.ch i).period else (p.ch j).tick)
      (doTick cfg p i c) := by
  have base : ∀ j, ((p.setCh i { p.ch i with tick := (p.ch i).tick + (p.ch i).period }).ch j).tick =
      if j = i then (p.ch i).tick + (p.ch i).period else (p.ch j).tick := by
    intro j
    by_cases e : j = i
    · subst e; rw [setCh_same, if_pos rfl]
    · rw [setCh_other _ _ e, if_neg e]
  have sl : ∀ o, XPost (fun e => e ≠ .fuel)
      (fun q : Pokey => ∀ j, (q.ch j).tick = if j = i then (p.ch i).tick + (p.ch i).period else (p.ch j).tick)
      (slope cfg ((p.setCh i { p.ch i with tick := (p.ch i).tick + (p.ch i).period }).setCh i
        { p.ch i with tick := (p.ch i).tick + (p.ch i).period, out := o }) i c) := by
    intro o
    refine (slope_frame _ _ _).mono ?_ ?_
    · rintro e (rfl | rfl) <;> decide
    · rintro q ⟨b, s, rfl⟩ j
      by_cases e : j = i
      · subst e; simp [Pokey.setCh, upd]
      · simp [Pokey.setCh, upd, e]
  unfold doTick
  dsimp only
  refine XPost.ite (fun _ => sl _) fun _ => ?_
  refine XPost.ite (fun _ => base) fun _ => ?_
  refine XPost.ite (fun _ => show Hw.poly ≠ Hw.fuel by decide) fun _ => ?_
  refine XPost.ite (fun _ => base) fun _ => ?_
  refine XPost.ite (fun _ => sl _) fun _ => ?_
  exact XPost.ite (fun _ => base) fun _ => sl _

theorem highPass_ticks (p : Pokey) (m : Int) (i : Nat) (c : Int) :
    XPost (fun e => e ≠ .fuel)
      (fun q => ∀ j, (q.ch j).tick = (p.ch j).tick ∧ (q.ch j).period = (p.ch j).period) (highPass cfg p m i c) := by
  unfold highPass
  refine XPost.ite (fun _ => ?_) fun _ => fun j => ⟨rfl, rfl⟩
  refine (slope_frame _ _ _).mono ?_ ?_
  · rintro e (rfl | rfl) <;> decide
  · rintro q ⟨b, s, rfl⟩ j
    by_cases e : j = i
    · subst e; simp [Pokey.setCh, upd]
    · simp [Pokey.setCh, upd, e]

/-- Positive periods and reloads. -/
structure Pos (p : Pokey) : Prop where
  period : ∀ i, i < 4 → 1 ≤ (p.ch i).period
  reload1 : 1 ≤ p.reload1
  reload3 : 1 ≤ p.reload3

theorem Regs.pos {a : Int} {f : Nat → Int} {p : Pokey} (h : Regs a f p) (hb : Bytes a f) : Pos p :=
  ⟨fun i hi => by rw [h.period i hi]; exact (period_pos hb i).1, h.reload1, h.reload3⟩

theorem Pos.setCh {p : Pokey} (h : Pos p) (i : Nat) {c : Channel} (h2 : c.period = (p.ch i).period) :
    Pos (p.setCh i c) := by
  refine ⟨?_, h.reload1, h.reload3⟩
  intro j hj
  by_cases e : j = i
  · subst e; rw [setCh_same, h2]; exact h.period j hj
  · rw [setCh_other _ _ e]; exact h.period j hj

theorem pos_stable : Stable cfg (fun e => e ≠ .mem) Pos where
  tick p i t h := h.setCh i rfl
  out p i o h := h.setCh i rfl
  slope p i c _ h := by
    refine (slope_frame p i c).mono ?_ ?_
    · rintro e (rfl | rfl) <;> decide
    · rintro q ⟨b, o, rfl⟩
      have := h.setCh i (c := { p.ch i with delta := -(p.ch i).delta }) rfl
      exact ⟨this.period, this.reload1, this.reload3⟩
  poly := by decide

/-- After handling channel `n` at cycle `c`, its next tick is later, and no later tick was lost. -/
def Adv (c : Int) (n : Nat) (p q : Pokey) : Prop :=
  Pos q ∧ (c < (q.ch n).tick) ∧ ∀ j, j < 4 → c ≤ (p.ch j).tick →
    c ≤ (q.ch j).tick ∧ (c < (p.ch j).tick → c < (q.ch j).tick)

theorem doTick_adv {p : Pokey} (n : Nat) (hn : n < 4) (c : Int) (hp : Pos p) (hc : c ≤ (p.ch n).tick) :
    XPost (fun e => e ≠ .fuel) (Adv c n p) (doTick cfg p n c) := by
  refine (((pos_stable (cfg := cfg)).doTick n hn c hp).and (doTick_ticks p n c)).mono (fun e h => h.2) ?_
  rintro q ⟨h1, h2⟩
  have hper := hp.period n hn
  refine ⟨h1, ?_, ?_⟩
  · rw [h2 n, if_pos rfl]; omega
  · intro j _ hj
    rw [h2 j]
    by_cases e : j = n
    · subst e; rw [if_pos rfl]; omega
    · rw [if_neg e]; omega

/-- Doing something harmless before. -/
theorem Adv.before {c : Int} {n : Nat} {p p' q : Pokey} (h : Adv c n p' q)
    (hp : ∀ j, j < 4 → c ≤ (p.ch j).tick → c ≤ (p'.ch j).tick ∧ (c < (p.ch j).tick → c < (p'.ch j).tick)) :
    Adv c n p q := by
  refine ⟨h.1, h.2.1, ?_⟩
  intro j hj hc
  have a := hp j hj hc
  have b := h.2.2 j hj a.1
  exact ⟨b.1, fun x => b.2 (a.2 x)⟩

theorem setTick_later {p : Pokey} (i : Nat) {c t : Int} (ht : c < t) :
    ∀ j, j < 4 → c ≤ (p.ch j).tick → c ≤ ((p.setCh i { p.ch i with tick := t }).ch j).tick ∧
      (c < (p.ch j).tick → c < ((p.setCh i { p.ch i with tick := t }).ch j).tick) := by
  intro j _ hc
  by_cases e : j = i
  · subst e; rw [setCh_same]; exact ⟨by show c ≤ t; omega, fun _ => ht⟩
  · rw [setCh_other _ _ e]; exact ⟨hc, fun h => h⟩

theorem adv_skip {p : Pokey} {n : Nat} {c : Int} (hp : Pos p) (hc : c ≤ (p.ch n).tick) (h : ¬ c = (p.ch n).tick) :
    Adv c n p p := ⟨hp, by omega, fun _ _ hj => ⟨hj, fun x => x⟩⟩

theorem highPass_then {p : Pokey} (m : Int) (i : Nat) (hi : i < 4) (n : Nat) (hn : n < 4) (c : Int) (hp : Pos p)
    (hc : c ≤ (p.ch n).tick) :
    XPost (fun e => e ≠ .fuel) (Adv c n p) (highPass cfg p m i c >>= fun q => doTick cfg q n c) := by
  refine XPost.bind ((((pos_stable (cfg := cfg)).highPass m i hi c hp).and (highPass_ticks p m i c)).mono
    (fun e h => h.2) fun q h => h) ?_
  rintro q ⟨h1, h2⟩
  refine (doTick_adv n hn c h1 (by rw [(h2 n).1]; exact hc)).mono (fun _ h => h) fun r hr => hr.before ?_
  intro j _ hj
  rw [(h2 j).1]; exact ⟨hj, fun x => x⟩

theorem tick2_adv {p : Pokey} (c : Int) (hp : Pos p) (hc : c ≤ (p.ch 2).tick) :
    XPost (fun e => e ≠ .fuel) (Adv c 2 p) (tick2 cfg p c) := by
  unfold tick2
  refine XPost.ite (fun _ => ?_) fun h => adv_skip hp hc h
  exact highPass_then 4 0 (by omega) 2 (by omega) c hp hc

theorem tick3_adv {p : Pokey} (c : Int) (hp : Pos p) (hc : c ≤ (p.ch 3).tick) :
    XPost (fun e => e ≠ .fuel) (Adv c 3 p) (tick3 cfg p c) := by
  unfold tick3
  refine XPost.ite (fun _ => ?_) fun h => adv_skip hp hc h
  dsimp only
  split
  · have later := setTick_later (p := p) 2 (c := c) (t := c + p.reload3) (by have := hp.reload3; omega)
    have hc' : c ≤ ((p.setCh 2 { p.ch 2 with tick := c + p.reload3 }).ch 3).tick := by
      rw [setCh_other _ _ (by omega)]; exact hc
    have hq : Pos (p.setCh 2 { p.ch 2 with tick := c + p.reload3 }) := hp.setCh 2 rfl
    generalize p.setCh 2 { p.ch 2 with tick := c + p.reload3 } = p' at later hc' hq ⊢
    exact (highPass_then 2 1 (by omega) 3 (by omega) c hq hc').mono (fun _ h => h) fun r h => h.before later
  · exact highPass_then 2 1 (by omega) 3 (by omega) c hp hc

theorem tick0_adv {p : Pokey} (c : Int) (hp : Pos p) (hc : c ≤ (p.ch 0).tick) :
    XPost (fun e => e ≠ .fuel) (Adv c 0 p) (tick0 cfg p c) := by
  unfold tick0
  refine XPost.ite (fun _ => ?_) fun h => adv_skip hp hc h
  dsimp only
  split
  · have later := setTick_later (p := p) 1 (c := c) (t := c + (p.ch 1).period) (by have := hp.period 1 (by omega); omega)
    have hc' : c ≤ ((p.setCh 1 { p.ch 1 with tick := c + (p.ch 1).period }).ch 0).tick := by
      rw [setCh_other _ _ (by omega)]; exact hc
    have hq : Pos (p.setCh 1 { p.ch 1 with tick := c + (p.ch 1).period }) := hp.setCh 1 rfl
    generalize p.setCh 1 { p.ch 1 with tick := c + (p.ch 1).period } = p' at later hc' hq ⊢
    exact (doTick_adv 0 (by omega) c hq hc').mono (fun _ h => h) fun r h => h.before later
  · exact doTick_adv 0 (by omega) c hp hc

theorem tick1_adv {p : Pokey} (c : Int) (hp : Pos p) (hc : c ≤ (p.ch 1).tick) :
    XPost (fun e => e ≠ .fuel) (Adv c 1 p) (tick1 cfg p c) := by
  unfold tick1
  refine XPost.ite (fun _ => ?_) fun h => adv_skip hp hc h
  dsimp only
  split
  · have later := setTick_later (p := p) 0 (c := c) (t := c + p.reload1) (by have := hp.reload1; omega)
    have hc' : c ≤ ((p.setCh 0 { p.ch 0 with tick := c + p.reload1 }).ch 1).tick := by
      rw [setCh_other _ _ (by omega)]; exact hc
    have hq : Pos (p.setCh 0 { p.ch 0 with tick := c + p.reload1 }) := hp.setCh 0 rfl
    generalize p.setCh 0 { p.ch 0 with tick := c + p.reload1 } = p' at later hc' hq ⊢
    exact (doTick_adv 1 (by omega) c hq hc').mono (fun _ h => h) fun r h => h.before later
  · split
    · have later := setTick_later (p := p) 0 (c := c) (t := c + (p.ch 0).period) (by have := hp.period 0 (by omega); omega)
      have hc' : c ≤ ((p.setCh 0 { p.ch 0 with tick := c + (p.ch 0).period }).ch 1).tick := by
        rw [setCh_other _ _ (by omega)]; exact hc
      have hq : Pos (p.setCh 0 { p.ch 0 with tick := c + (p.ch 0).period }) := hp.setCh 0 rfl
      generalize p.setCh 0 { p.ch 0 with tick := c + (p.ch 0).period } = p' at later hc' hq ⊢
      exact (doTick_adv 1 (by omega) c hq hc').mono (fun _ h => h) fun r h => h.before later
    · exact doTick_adv 1 (by omega) c hp hc

theorem tickAll_adv {p : Pokey} (c : Int) (hp : Pos p) (hc : ∀ j, j < 4 → c ≤ (p.ch j).tick) :
    XPost (fun e => e ≠ .fuel) (fun q => Pos q ∧ ∀ j, j < 4 → c < (q.ch j).tick) (tickAll cfg p c) := by
  unfold tickAll
  refine XPost.bind (tick2_adv c hp (hc 2 (by omega))) fun q2 h2 => ?_
  have k2 := fun j hj => h2.2.2 j hj (hc j hj)
  refine XPost.bind (tick3_adv c h2.1 (k2 3 (by omega)).1) fun q3 h3 => ?_
  have k3 := fun j hj => h3.2.2 j hj (k2 j hj).1
  refine XPost.bind (tick0_adv c h3.1 (k3 0 (by omega)).1) fun q0 h0 => ?_
  have k0 := fun j hj => h0.2.2 j hj (k3 j hj).1
  refine (tick1_adv c h0.1 (k0 1 (by omega)).1).mono (fun _ h => h) fun q1 h1 => ?_
  have k1 := fun j hj => h1.2.2 j hj (k0 j hj).1
  refine ⟨h1.1, ?_⟩
  intro j hj
  have hcase : j = 0 ∨ j = 1 ∨ j = 2 ∨ j = 3 := by omega
  rcases hcase with rfl | rfl | rfl | rfl
  · exact (k1 0 hj).2 h0.2.1
  · exact h1.2.1
  · exact (k1 2 hj).2 ((k0 2 hj).2 ((k3 2 hj).2 h2.2.1))
  · exact (k1 3 hj).2 ((k0 3 hj).2 h3.2.1)

theorem firstTick_le (p : Pokey) (limit : Int) :
    p.firstTick limit ≤ limit ∧ ∀ j, j < 4 → p.firstTick limit ≤ (p.ch j).tick := by
  unfold firstTick
  refine ⟨by omega, ?_⟩
  intro j hj
  have hcase : j = 0 ∨ j = 1 ∨ j = 2 ∨ j = 3 := by omega
  rcases hcase with rfl | rfl | rfl | rfl <;> omega

theorem firstTick_gt {p : Pokey} {limit c : Int} (hl : c < limit) (h : ∀ j, j < 4 → c < (p.ch j).tick) :
    c < p.firstTick limit := by
  have h0 := h 0 (by omega); have h1 := h 1 (by omega)
  have h2 := h 2 (by omega); have h3 := h 3 (by omega)
  unfold firstTick; omega

/-- The loop ends, and every channel is then at or after the limit. -/
theorem loop_ends (limit : Int) : ∀ (fuel : Nat) (p : Pokey), Pos p → (limit - p.firstTick limit).toNat < fuel →
    XPost (fun e => e ≠ .fuel) (fun q => ∀ j, j < 4 → limit ≤ (q.ch j).tick) (generateLoop cfg limit fuel p)
  | 0, _, _, h => by omega
  | fuel + 1, p, hp, h => by
    have hle := firstTick_le p limit
    unfold generateLoop
    dsimp only
    refine XPost.ite (fun e => ?_) fun e => ?_
    · intro j hj; have := hle.2 j hj; omega
    · refine XPost.bind (tickAll_adv _ hp hle.2) fun q hq => ?_
      have hgt := firstTick_gt (limit := limit) (by omega) hq.2
      exact loop_ends limit fuel q hq.1 (by omega)

theorem generateUntil_ends {p : Pokey} (hp : Pos p) (limit : Int) :
    XPost (fun e => e ≠ .fuel) (fun q => ∀ j, j < 4 → limit ≤ (q.ch j).tick) (generateUntil cfg p limit) :=
  loop_ends limit _ p hp (by omega)

/-- Invariants of ticks are invariants of `GenerateUntilCycle`, which terminates. -/
theorem Stable.until {E : Hw → Prop} {I : Pokey → Prop} (h : Stable cfg (fun e => E e ∨ e = .fuel) I) {p : Pokey}
    (hpos : Pos p) (hp : I p) (limit : Int) :
    XPost E (fun q => I q ∧ Pos q ∧ ∀ j, j < 4 → limit ≤ (q.ch j).tick) (generateUntil cfg p limit) := by
  have a := h.loop (Or.inr rfl) limit ((limit - p.firstTick limit).toNat + 1) p hp
  have b := generateUntil_ends (cfg := cfg) hpos limit
  have c := (pos_stable (cfg := cfg)).loop (by decide) limit ((limit - p.firstTick limit).toNat + 1) p hpos
  refine ((XPost.and a b).and c).mono ?_ fun q hq => ⟨hq.1.1, hq.2, hq.1.2⟩
  rintro e ⟨⟨h1 | h1, h2⟩, _⟩
  · exact h1
  · exact absurd h1 h2

end Asap.Pokey
