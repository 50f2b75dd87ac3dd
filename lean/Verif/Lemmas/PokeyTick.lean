import Verif.Lemmas.PokeyMix

/-! When the channels tick. -/

namespace Asap.Pokey
open Asap.Spec

variable {cfg : Cfg}

/-- Same clocks and control registers. -/
structure Clock (p q : Pokey) : Prop where
  audctl : q.audctl = p.audctl
  skctl : q.skctl = p.skctl
  tick : ∀ j, (q.ch j).tick = (p.ch j).tick
  period : ∀ j, (q.ch j).period = (p.ch j).period

theorem Clock.rfl' (p : Pokey) : Clock p p := ⟨rfl, rfl, fun _ => rfl, fun _ => rfl⟩

theorem Clock.trans {p q r : Pokey} (h : Clock p q) (k : Clock q r) : Clock p r :=
  ⟨k.audctl.trans h.audctl, k.skctl.trans h.skctl, fun j => (k.tick j).trans (h.tick j), fun j => (k.period j).trans (h.period j)⟩

theorem slope_clock (p : Pokey) (i : Nat) (c : Int) : XPost (fun _ => True) (Clock p) (slope cfg p i c) := by
  refine (slope_frame p i c).mono (fun _ _ => trivial) ?_
  rintro q ⟨b, o, rfl⟩
  refine ⟨rfl, rfl, fun j => ?_, fun j => ?_⟩
  · show ((p.setCh i _).ch j).tick = _
    rw [setCh_ch]; split
    · rename_i e; subst e; rfl
    · rfl
  · show ((p.setCh i _).ch j).period = _
    rw [setCh_ch]; split
    · rename_i e; subst e; rfl
    · rfl

theorem setOut_clock (p : Pokey) (i : Nat) (o : Int) (c : Channel) (hc : p.ch i = c) : Clock p (p.setCh i { c with out := o }) := by
  subst hc
  refine ⟨rfl, rfl, fun j => ?_, fun j => ?_⟩ <;> rw [setCh_ch] <;> split
  · rename_i e; subst e; rfl
  · rfl
  · rename_i e; subst e; rfl
  · rfl

/-- The channel with its next tick one period later. -/
def tickNext (p : Pokey) (i : Nat) : Pokey := p.setCh i { p.ch i with tick := (p.ch i).tick + (p.ch i).period }

theorem doTick_clock (p : Pokey) (i : Nat) (c : Int) :
    XPost (fun _ => True) (Clock (tickNext p i)) (doTick cfg p i c) := by
  have key : ∀ o, XPost (fun _ => True) (Clock (tickNext p i))
      (slope cfg ((tickNext p i).setCh i { p.ch i with tick := (p.ch i).tick + (p.ch i).period, out := o }) i c) := fun o =>
    (slope_clock _ i c).mono (fun _ x => x) fun q hq =>
      (setOut_clock (tickNext p i) i o { p.ch i with tick := (p.ch i).tick + (p.ch i).period } (setCh_same _ _ _)).trans hq
  have self : XPost (fun _ => True) (Clock (tickNext p i)) (.ok (tickNext p i)) := Clock.rfl' _
  unfold doTick
  dsimp only
  refine XPost.ite (fun _ => key _) fun _ => XPost.ite (fun _ => self) fun _ => XPost.ite (fun _ => trivial) fun _ => ?_
  exact XPost.ite (fun _ => self) fun _ => XPost.ite (fun _ => key _) fun _ => XPost.ite (fun _ => self) fun _ => key _

theorem highPass_clock (p : Pokey) (m : Int) (i : Nat) (c : Int) : XPost (fun _ => True) (Clock p) (highPass cfg p m i c) :=
  XPost.ite (fun _ => slope_clock p i c) fun _ => Clock.rfl' p

/-- The chip after channel `i` has been handled at `cycle`. -/
structure Handled (i : Nat) (cycle : Int) (p q : Pokey) : Prop where
  audctl : q.audctl = p.audctl
  skctl : q.skctl = p.skctl
  period : ∀ j, (q.ch j).period = (p.ch j).period
  here : (q.ch i).tick = if (p.ch i).tick = cycle then cycle + (p.ch i).period else (p.ch i).tick
  there : ∀ j, j ≠ i → (q.ch j).tick = (p.ch j).tick

theorem Handled.of {p q r : Pokey} {i : Nat} {c : Int} (h : Clock p q) (ht : (p.ch i).tick = c) (k : Clock (tickNext q i) r) :
    Handled i c p r := by
  have hp : ∀ j, ((tickNext q i).ch j).period = (q.ch j).period := by
    intro j; unfold tickNext; rw [setCh_ch]; split
    · rename_i e; subst e; rfl
    · rfl
  refine ⟨k.audctl.trans h.audctl, k.skctl.trans h.skctl, fun j => (k.period j).trans ((hp j).trans (h.period j)), ?_, fun j hj => ?_⟩
  · rw [if_pos ht, k.tick i]
    unfold tickNext; rw [setCh_same]
    show (q.ch i).tick + (q.ch i).period = _
    rw [h.tick, h.period, ht]
  · rw [k.tick j]; unfold tickNext; rw [setCh_other _ _ hj, h.tick]

theorem Handled.skip {p : Pokey} {i : Nat} {c : Int} (ht : ¬ c = (p.ch i).tick) : Handled i c p p :=
  ⟨rfl, rfl, fun _ => rfl, by rw [if_neg (fun h => ht h.symm)], fun _ _ => rfl⟩

/-- Separate channels: no 16-bit mode, no two-tone mode. -/
def Apart (p : Pokey) : Prop := band p.audctl 0x10 = 0 ∧ band p.audctl 8 = 0 ∧ band p.skctl 8 = 0

theorem Handled.apart {p q : Pokey} {i : Nat} {c : Int} (h : Handled i c p q) (k : Apart p) : Apart q := by
  unfold Apart; rw [h.audctl, h.skctl]; exact k

theorem tick2_handled (p : Pokey) (c : Int) : XPost (fun _ => True) (Handled 2 c p) (tick2 cfg p c) := by
  unfold tick2
  refine XPost.ite (fun ht => ?_) fun ht => Handled.skip ht
  refine XPost.bind (highPass_clock p 4 0 c) fun q hq => ?_
  exact (doTick_clock q 2 c).mono (fun _ x => x) fun r hr => Handled.of hq ht.symm hr

theorem tick3_handled (p : Pokey) (ha : Apart p) (c : Int) : XPost (fun _ => True) (Handled 3 c p) (tick3 cfg p c) := by
  unfold tick3
  refine XPost.ite (fun ht => ?_) fun ht => Handled.skip ht
  dsimp only
  rw [if_neg (by rw [ha.2.1]; simp)]
  refine XPost.bind (highPass_clock p 2 1 c) fun q hq => ?_
  exact (doTick_clock q 3 c).mono (fun _ x => x) fun r hr => Handled.of hq ht.symm hr

theorem band88 {v : Int} (h : band v 8 = 0) : band v 0x88 ≠ 8 := by
  intro h8
  cases v with
  | ofNat n =>
    have h : n &&& 8 = 0 := Int.ofNat.inj h
    have h8 : n &&& 136 = 8 := Int.ofNat.inj h8
    have : n &&& (136 &&& 8) = 8 &&& 8 := by rw [← Nat.and_assoc, h8]
    have e : n &&& 8 = 8 := this
    omega
  | negSucc m =>
    have h : 8 - (m &&& 8) = 0 := Int.ofNat.inj h
    have h8 : 136 - (m &&& 136) = 8 := Int.ofNat.inj h8
    have e1 : m &&& 136 = 128 := by omega
    have : m &&& (136 &&& 8) = 128 &&& 8 := by rw [← Nat.and_assoc, e1]
    have e : m &&& 8 = 0 := this
    omega

theorem tick0_handled (p : Pokey) (ha : Apart p) (c : Int) : XPost (fun _ => True) (Handled 0 c p) (tick0 cfg p c) := by
  unfold tick0
  refine XPost.ite (fun ht => ?_) fun ht => Handled.skip ht
  dsimp only
  rw [if_neg (band88 ha.2.2)]
  exact (doTick_clock p 0 c).mono (fun _ x => x) fun r hr => Handled.of (Clock.rfl' p) ht.symm hr

theorem tick1_handled (p : Pokey) (ha : Apart p) (c : Int) : XPost (fun _ => True) (Handled 1 c p) (tick1 cfg p c) := by
  unfold tick1
  refine XPost.ite (fun ht => ?_) fun ht => Handled.skip ht
  dsimp only
  rw [if_neg (by rw [ha.1]; simp), if_neg (by rw [ha.2.2]; simp)]
  exact (doTick_clock p 1 c).mono (fun _ x => x) fun r hr => Handled.of (Clock.rfl' p) ht.symm hr

theorem tickAll_separate (p : Pokey) (ha : Apart p) (c : Int) : XPost (fun _ => True)
    (fun q => ∀ i, i < 4 → (q.ch i).tick = if (p.ch i).tick = c then c + (p.ch i).period else (p.ch i).tick)
    (tickAll cfg p c) := by
  unfold tickAll
  refine XPost.bind (tick2_handled p c) fun q2 h2 => ?_
  refine XPost.bind (tick3_handled q2 (h2.apart ha) c) fun q3 h3 => ?_
  refine XPost.bind (tick0_handled q3 (h3.apart (h2.apart ha)) c) fun q0 h0 => ?_
  refine (tick1_handled q0 (h0.apart (h3.apart (h2.apart ha))) c).mono (fun _ x => x) fun q1 h1 i hi4 => ?_
  have hcase : i = 0 ∨ i = 1 ∨ i = 2 ∨ i = 3 := by omega
  rcases hcase with rfl | rfl | rfl | rfl
  · rw [h1.there 0 (by omega), h0.here, h3.there 0 (by omega), h2.there 0 (by omega), h3.period, h2.period]
  · rw [h1.here, h0.there 1 (by omega), h3.there 1 (by omega), h2.there 1 (by omega), h0.period, h3.period, h2.period]
  · rw [h1.there 2 (by omega), h0.there 2 (by omega), h3.there 2 (by omega), h2.here]
  · rw [h1.there 3 (by omega), h0.there 3 (by omega), h3.here, h2.there 3 (by omega), h2.period]

end Asap.Pokey
