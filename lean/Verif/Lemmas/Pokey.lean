import Verif.Spec.Pokey
import Verif.Lemmas.Bits

/-! Invariants of the POKEY emulation. -/

namespace Asap

/-- A result satisfies `P`, a fault satisfies `E`. -/
def XPost {α : Type} (E : Hw → Prop) (P : α → Prop) : X α → Prop
  | .ok a => P a
  | .error e => E e

theorem XPost.bind {α β : Type} {E : Hw → Prop} {P : α → Prop} {Q : β → Prop} {x : X α} {f : α → X β}
    (hx : XPost E P x) (hf : ∀ a, P a → XPost E Q (f a)) : XPost E Q (x >>= f) := by
  match x, hx with
  | .ok a, h => exact hf a h
  | .error _, h => exact h

theorem XPost.mono {α : Type} {E F : Hw → Prop} {P Q : α → Prop} {x : X α} (h : XPost E P x)
    (he : ∀ e, E e → F e) (hp : ∀ a, P a → Q a) : XPost F Q x := by
  match x, h with
  | .ok a, h => exact hp a h
  | .error _, h => exact he _ h

theorem XPost.ite {α : Type} {E : Hw → Prop} {P : α → Prop} {c : Prop} [Decidable c] {x y : X α}
    (h1 : c → XPost E P x) (h2 : ¬ c → XPost E P y) : XPost E P (if c then x else y) := by
  split
  · exact h1 ‹_›
  · exact h2 ‹_›

theorem XPost.map {α β : Type} {E : Hw → Prop} {P : β → Prop} {x : X α} {f : α → β}
    (h : XPost E (fun a => P (f a)) x) : XPost E P (x.map f) := by
  match x, h with
  | .ok a, h => exact h
  | .error _, h => exact h

theorem XPost.and {α : Type} {E F : Hw → Prop} {P Q : α → Prop} {x : X α}
    (h1 : XPost E P x) (h2 : XPost F Q x) : XPost (fun e => E e ∧ F e) (fun a => P a ∧ Q a) x := by
  match x, h1, h2 with
  | .ok _, h1, h2 => exact ⟨h1, h2⟩
  | .error _, h1, h2 => exact ⟨h1, h2⟩

namespace Pokey

theorem setCh_same (p : Pokey) (i : Nat) (c : Channel) : (p.setCh i c).ch i = c := by
  simp [setCh, upd]

theorem setCh_other (p : Pokey) {i j : Nat} (c : Channel) (h : j ≠ i) : (p.setCh i c).ch j = p.ch j := by
  simp [setCh, upd, h]

theorem setCh_eta (p : Pokey) (i : Nat) : p.setCh i (p.ch i) = p := by
  have : upd p.ch i (p.ch i) = p.ch := by
    funext j; unfold upd; split
    · rename_i h; rw [h]
    · rfl
  unfold setCh; rw [this]

/-- What an invariant must survive to survive the passage of time. -/
structure Stable (cfg : Cfg) (E : Hw → Prop) (I : Pokey → Prop) : Prop where
  tick : ∀ p i t, I p → I (p.setCh i { p.ch i with tick := t })
  out : ∀ p i o, I p → I (p.setCh i { p.ch i with out := o })
  slope : ∀ p i c, i < 4 → I p → XPost E I (slope cfg p i c)
  poly : E .poly

variable {cfg : Cfg} {E : Hw → Prop} {I : Pokey → Prop}

theorem Stable.doTick (h : Stable cfg E I) {p : Pokey} (i : Nat) (hi : i < 4) (c : Int) (hp : I p) :
    XPost E I (doTick cfg p i c) := by
  have h1 := h.tick p i ((p.ch i).tick + (p.ch i).period) hp
  have ho : ∀ o, I ((p.setCh i { p.ch i with tick := (p.ch i).tick + (p.ch i).period }).setCh i
      { p.ch i with tick := (p.ch i).tick + (p.ch i).period, out := o }) := by
    intro o
    have := h.out _ i o h1
    rwa [setCh_same] at this
  unfold Pokey.doTick
  dsimp only
  refine XPost.ite (fun _ => h.slope _ _ _ hi (ho _)) fun _ => ?_
  refine XPost.ite (fun _ => h1) fun _ => ?_
  refine XPost.ite (fun _ => h.poly) fun _ => ?_
  refine XPost.ite (fun _ => h1) fun _ => ?_
  refine XPost.ite (fun _ => h.slope _ _ _ hi (ho _)) fun _ => ?_
  exact XPost.ite (fun _ => h1) fun _ => h.slope _ _ _ hi (ho _)

theorem Stable.highPass (h : Stable cfg E I) {p : Pokey} (m : Int) (i : Nat) (hi : i < 4) (c : Int) (hp : I p) :
    XPost E I (highPass cfg p m i c) := by
  unfold Pokey.highPass
  exact XPost.ite (fun _ => h.slope _ _ _ hi hp) fun _ => hp

theorem Stable.tick2 (h : Stable cfg E I) {p : Pokey} (c : Int) (hp : I p) : XPost E I (tick2 cfg p c) := by
  unfold Pokey.tick2
  refine XPost.ite (fun _ => ?_) fun _ => hp
  refine XPost.bind (h.highPass 4 0 (by omega) c hp) fun q hq => ?_
  exact h.doTick 2 (by omega) c hq

theorem Stable.tick3 (h : Stable cfg E I) {p : Pokey} (c : Int) (hp : I p) : XPost E I (tick3 cfg p c) := by
  unfold Pokey.tick3
  refine XPost.ite (fun _ => ?_) fun _ => hp
  dsimp only
  have hq : I (if band p.audctl 8 ≠ 0 then p.setCh 2 { p.ch 2 with tick := c + p.reload3 } else p) := by
    split
    · exact h.tick _ _ _ hp
    · exact hp
  revert hq
  generalize (if band p.audctl 8 ≠ 0 then p.setCh 2 { p.ch 2 with tick := c + p.reload3 } else p) = q
  intro hq
  refine XPost.bind (h.highPass 2 1 (by omega) c hq) fun r hr => ?_
  exact h.doTick 3 (by omega) c hr

theorem Stable.tick0 (h : Stable cfg E I) {p : Pokey} (c : Int) (hp : I p) : XPost E I (tick0 cfg p c) := by
  unfold Pokey.tick0
  refine XPost.ite (fun _ => ?_) fun _ => hp
  dsimp only
  refine h.doTick 0 (by omega) c ?_
  split
  · exact h.tick _ _ _ hp
  · exact hp

theorem Stable.tick1 (h : Stable cfg E I) {p : Pokey} (c : Int) (hp : I p) : XPost E I (tick1 cfg p c) := by
  unfold Pokey.tick1
  refine XPost.ite (fun _ => ?_) fun _ => hp
  dsimp only
  refine h.doTick 1 (by omega) c ?_
  split
  · exact h.tick _ _ _ hp
  · split
    · exact h.tick _ _ _ hp
    · exact hp

theorem Stable.tickAll (h : Stable cfg E I) {p : Pokey} (c : Int) (hp : I p) : XPost E I (tickAll cfg p c) := by
  unfold Pokey.tickAll
  refine XPost.bind (h.tick2 c hp) fun p hp => ?_
  refine XPost.bind (h.tick3 c hp) fun p hp => ?_
  exact XPost.bind (h.tick0 c hp) fun p hp => h.tick1 c hp

theorem Stable.loop (h : Stable cfg E I) (hf : E .fuel) (limit : Int) :
    ∀ (fuel : Nat) (p : Pokey), I p → XPost E I (generateLoop cfg limit fuel p)
  | 0, _, _ => hf
  | fuel + 1, p, hp => by
    unfold generateLoop
    dsimp only
    refine XPost.ite (fun _ => hp) fun _ => ?_
    exact XPost.bind (h.tickAll _ hp) fun q hq => Stable.loop h hf limit fuel q hq

end Pokey
end Asap
