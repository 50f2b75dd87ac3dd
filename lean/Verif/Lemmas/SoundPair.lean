import Verif.Lemmas.SoundFrame
import Verif.Lemmas.PokeyPair

/-! The two chips in a playback. -/

namespace Asap.Sound
open Asap.Spec Asap.Spec.Sound Asap.Pokey

variable {factor : Int} {sinc : Int → Int → Int} {T S t c : Int} {p : Pokey} {r : Chip}
  {cfg : Cfg} {z : Noise} {s : Sound} {a b d : Int}

/-! ### The output filter is left alone -/

/-- The output filter of a chip, and where the next frame begins. -/
def Filt (a b d : Int) (p : Pokey) : Prop := p.iirAcc = a ∧ p.iirRate = b ∧ p.trailing = d

theorem filt_external (h : Filt a b d p) (c x : Int) : XPost (fun _ => True) (Filt a b d) (addExternalDelta cfg p c x) := by
  unfold addExternalDelta
  exact XPost.ite (fun _ => h) fun _ => XPost.ite (fun _ => h) fun _ => trivial

theorem filt_delta (h : Filt a b d p) (c x : Int) : XPost (fun _ => True) (Filt a b d) (addDelta cfg p c x) := by
  unfold addDelta
  refine XPost.ite (fun _ => ?_) fun _ => trivial
  split
  · trivial
  · exact XPost.bind (filt_external (p := { p with sumIn := p.sumIn + x }) h c _) fun q hq => hq

theorem filt_stable : Stable cfg (fun _ => True) (Filt a b d) where
  tick := fun _ _ _ h => h
  out := fun _ _ _ h => h
  slope := fun p i c _ h => filt_delta (p := p.setCh i _) h c _
  poly := trivial

theorem filt_until (h : Filt a b d p) (c : Int) : XPost (fun _ => True) (Filt a b d) (generateUntil cfg p c) :=
  filt_stable.loop trivial c _ _ h

theorem filt_audf (h : Filt a b d p) (i : Nat) (tune : Pokey → Int → Pokey) (hk : ∀ p v, Filt a b d p → Filt a b d (tune p v))
    (data c : Int) : XPost (fun _ => True) (Filt a b d) (pokeAudf cfg p i tune data c) := by
  unfold pokeAudf
  exact XPost.ite (fun _ => h) fun _ => XPost.bind (filt_until h c) fun q hq => hk _ _ hq

theorem filt_volume (h : Filt a b d p) (i : Nat) (data c : Int) : XPost (fun _ => True) (Filt a b d) (storeVolume cfg p i data c) := by
  have un : ∀ x, XPost (fun _ => True) (Filt a b d) (addUnmuted cfg p i c x) := by
    intro x
    unfold addUnmuted
    exact XPost.ite (fun _ => filt_delta h c x) fun _ => h
  unfold storeVolume
  exact XPost.ite (fun _ => XPost.bind (un _) fun q hq => hq) fun _ =>
    XPost.ite (fun _ => XPost.bind (un _) fun q hq => hq) fun _ => h

theorem filt_audc (h : Filt a b d p) (i : Nat) (data c : Int) : XPost (fun _ => True) (Filt a b d) (setAudc cfg p i data c) := by
  unfold setAudc
  exact XPost.ite (fun _ => h) fun _ => XPost.bind (filt_until h c) fun q hq => filt_volume (p := q.setCh i _) hq i data c

theorem filt_irqen1 (h : Filt a b d p) (i : Nat) (data c n : Int) :
    XPost (fun _ => True) (fun r => Filt a b d r.2) (irqenOne p i data c n) := by
  unfold irqenOne
  refine XPost.ite (fun _ => XPost.ite (fun _ => ?_) fun _ => h) fun _ => h
  refine XPost.bind (P := fun _ => True) ?_ fun t _ => h
  cases nextTimer (p.ch i).period c (c - (p.ch i).tick).toNat (p.ch i).tick <;> trivial

theorem filt_poke (h : Filt a b d p) (addr data c : Int) : XPost (fun _ => True) (fun r => Filt a b d r.2) (poke cfg p addr data c) := by
  unfold Pokey.poke
  split
  · refine XPost.noEvent (filt_audf h 0 _ (fun p v h => ?_) data c)
    unfold tune1; repeat' split
    all_goals exact h
  · exact XPost.noEvent (filt_audc h 0 data c)
  · refine XPost.noEvent (filt_audf h 1 _ (fun p v h => ?_) data c)
    unfold tune2; repeat' split
    all_goals exact h
  · exact XPost.noEvent (filt_audc h 1 data c)
  · refine XPost.noEvent (filt_audf h 2 _ (fun p v h => ?_) data c)
    unfold tune3; repeat' split
    all_goals exact h
  · exact XPost.noEvent (filt_audc h 2 data c)
  · refine XPost.noEvent (filt_audf h 3 _ (fun p v h => ?_) data c)
    unfold tune4; repeat' split
    all_goals exact h
  · exact XPost.noEvent (filt_audc h 3 data c)
  · refine XPost.noEvent (P := Filt a b d) ?_
    unfold pokeAudctl
    refine XPost.ite (fun _ => h) fun _ => XPost.bind (filt_until h c) fun q hq => ?_
    have h1 : Filt a b d (audctlPair1 (q.setAudctl data)) := by
      unfold audctlPair1; repeat' split
      all_goals exact hq
    have h2 : Filt a b d (audctlPair3 (audctlPair1 (q.setAudctl data))) := by
      unfold audctlPair3; repeat' split
      all_goals exact h1
    exact h2
  · exact h
  · unfold pokeIrqen
    refine XPost.bind (filt_irqen1 (p := { p with irqst := bor p.irqst (bxor data 0xff) }) h 3 data c never) fun r hr => ?_
    refine XPost.bind (filt_irqen1 hr 1 data c _) fun r1 hr1 => ?_
    exact filt_irqen1 hr1 0 data c _
  · refine XPost.noEvent (P := Filt a b d) ?_
    unfold pokeSkctl
    exact XPost.ite (fun _ => h) fun _ => XPost.bind (filt_until h c) fun q hq => hq
  · exact h

theorem filt_endFrame (h : Filt a b d p) (c : Int) : XPost (fun _ => True) (Filt a b d) (Pokey.endFrame cfg p c) := by
  unfold Pokey.endFrame
  exact XPost.bind (filt_until h c) fun q hq => hq

theorem filt_check (h : Filt a b d p) (c n : Int) : Filt a b d (checkIrq p c n).2 := by
  have one : ∀ {p : Pokey} (i : Nat) (n : Int), Filt a b d p → Filt a b d (checkIrqOne p i c n).2 := by
    intro p i n h
    unfold checkIrqOne; split <;> exact h
  unfold checkIrq
  exact one 0 _ (one 1 _ (one 3 _ h))

/-! ### Register writes -/

/-- The left or the right chip. -/
def chipOf (r : Bool) (q : Pair) : Pokey := if r then q.extra else q.base

/-- Which chips are heard. -/
def Active (stereo r : Bool) : Prop := r = true → stereo = true

/-- What is meant for a chip. -/
abbrev mine (stereo r : Bool) : PairEvent → Bool := meant stereo r

theorem mine_write (stereo r : Bool) (addr data c : Int) : mine stereo r (.write addr data c) = ((stereo && right addr) == r) := rfl

/-- The pair in a frame that begins at cycle `T` and sample `S`. -/
structure Desk (factor : Int) (sinc : Int → Int → Int) (stereo : Bool) (T S : Int) (q : Pair) : Prop where
  mask : q.extraMask = if stereo then 0x10 else 0
  rate : q.factor = factor
  table : q.sinc = sinc
  offset : q.offset + S * 2 ^ 18 = T * factor
  range : 0 ≤ q.offset ∧ q.offset < 2 ^ 18

theorem Desk.origin {q : Pair} {stereo : Bool} (h : Desk factor sinc stereo T S q) : Origin factor sinc T S q.cfg :=
  ⟨h.rate, h.table, h.offset⟩

theorem mask_bit {q : Pair} {stereo : Bool} (h : q.extraMask = if stereo then 0x10 else 0) (addr : Int) :
    band addr q.extraMask ≠ 0 ↔ (stereo && right addr) = true := by
  rw [h]
  have hb := band_pow_iff addr 4
  unfold bit at hb
  cases stereo
  · have := band_range_right addr (b := 0) (by omega)
    have : band addr 0 = 0 := by omega
    simp [this]
  · simp only [Bool.true_and, if_true]
    unfold right
    rw [decide_eq_true_iff]
    exact hb

/-- A chip and the reference chip in a frame. -/
structure Side (z : Noise) (factor : Int) (sinc : Int → Int → Int) (S acc iir : Int) (p : Pokey) (v : Tape) : Prop where
  lazy : Lazy z factor sinc v.frame S v.now p v.sound
  filt : ∃ d, Filt acc iir d p
  late : v.now - v.frame < 900000

/-- The chips that are heard. -/
def Sides (z : Noise) (factor : Int) (sinc : Int → Int → Int) (stereo : Bool) (T S : Int) (acc : Bool → Int) (iir : Int) (q : Pair)
    (v : Bool → Tape) : Prop :=
  ∀ r, Active stereo r → (v r).frame = T ∧ Side z factor sinc S (acc r) iir (chipOf r q) (v r)

variable {q : Pair} {stereo : Bool} {acc : Bool → Int} {iir : Int} {v : Bool → Tape}

theorem Side.twin {p p' : Pokey} {x : Int} {v : Tape} (h : Side z factor sinc S x iir p v) (e : core p' = core p) (hf : ∀ d, Filt x iir d p → Filt x iir d p') :
    Side z factor sinc S x iir p' v :=
  ⟨h.lazy.twin e, h.filt.elim fun d hd => ⟨d, hf d hd⟩, h.late⟩

theorem Side.poke {p : Pokey} {x : Int} {v : Tape} (h : Side z factor sinc S x iir p v) (o : Origin factor sinc v.frame S cfg)
    {addr data c : Int} (hd : 0 ≤ data ∧ data < 256) (hp : Plain addr data) (hc : v.now ≤ v.frame + c) (hl : c < 900000) :
    XPost (fun _ => True) (fun r => Side z factor sinc S x iir r.2
      ⟨v.sound.write z factor sinc v.now (v.frame + c) addr data, v.frame + c, v.frame⟩) (p.poke cfg addr data c) := by
  obtain ⟨d, hf⟩ := h.filt
  have h1 := h.lazy.poke o hc (by omega) hd hp
  rw [show v.frame + c - v.frame = c by omega] at h1
  refine (h1.and (filt_poke (cfg := cfg) hf addr data c)).mono (fun _ _ => trivial) ?_
  rintro r ⟨g1, g2⟩
  exact ⟨g1, ⟨d, g2⟩, show v.frame + c - v.frame < 900000 by omega⟩

theorem Side.external {p : Pokey} {x : Int} {v : Tape} (h : Side z factor sinc S x iir p v) (o : Origin factor sinc v.frame S cfg)
    (c height : Int) :
    XPost (fun _ => True) (fun p' => Side z factor sinc S x iir p'
      ⟨v.sound.add factor sinc (v.frame + c) (height / 2 ^ 14), v.now, v.frame⟩) (p.addExternalDelta cfg c height) := by
  obtain ⟨d, hf⟩ := h.filt
  refine ((h.lazy.external o c height).and (filt_external (cfg := cfg) hf c height)).mono (fun _ _ => trivial) ?_
  rintro r ⟨g1, g2⟩
  exact ⟨g1, ⟨d, g2⟩, h.late⟩

theorem xpost_true {α : Type} {P : α → Prop} {x : X α} (h : ∀ a, x = .ok a → P a) : XPost (fun _ => True) P x := by
  cases x with
  | ok a => exact h a rfl
  | error e => trivial

theorem calm_step {S' : Int} {e : PairEvent} (he : Calm e) (hd : Desk factor sinc stereo T S' q)
    (hs : Sides z factor sinc stereo T S acc iir q v) :
    XPost (fun _ => True) (fun q' => Desk factor sinc stereo T S' q' ∧ Sides z factor sinc stereo T S acc iir q' v ∧
      q'.readyStart = q.readyStart ∧ q'.readyEnd = q.readyEnd ∧
      (∀ r, (chipOf r q').trailing = (chipOf r q).trailing) ∧ ∀ r, core (chipOf r q') = core (chipOf r q)) (stepPair q e) := by
  cases e with
  | read addr c =>
    show XPost _ _ ((q.peek addr c).map fun _ => q)
    cases q.peek addr c with
    | error => trivial
    | ok _ => exact ⟨hd, hs, rfl, rfl, fun _ => rfl, fun _ => rfl⟩
  | irq c n n' =>
    refine ⟨⟨hd.mask, hd.rate, hd.table, hd.offset, hd.range⟩, fun r hr => ⟨(hs r hr).1, ?_⟩, rfl, rfl, fun r => ?_, fun r => ?_⟩
    · have := (hs r hr).2
      cases r
      · exact this.twin (core_check _ c n) fun d hd => filt_check hd c n
      · exact this.twin (core_check _ c n') fun d hd => filt_check hd c n'
    · cases r
      · exact (filt_check (p := q.base) ⟨rfl, rfl, rfl⟩ c n).2.2
      · exact (filt_check (p := q.extra) ⟨rfl, rfl, rfl⟩ c n').2.2
    · cases r
      · exact core_check q.base c n
      · exact core_check q.extra c n'
  | timers c =>
    refine ⟨⟨hd.mask, hd.rate, hd.table, hd.offset, hd.range⟩, fun r hr => ⟨(hs r hr).1, ?_⟩, rfl, rfl, fun r => ?_, fun r => ?_⟩
    · have := (hs r hr).2
      cases r
      · exact this.twin (core_timers _ c) fun d hd => hd
      · exact this.twin (core_timers _ c) fun d hd => hd
    · cases r <;> rfl
    · cases r
      · exact core_timers q.base c
      · exact core_timers q.extra c
  | write => exact he.elim
  | start => exact he.elim
  | finish => exact he.elim
  | external => exact he.elim
  | mute => exact he.elim
  | generate => exact he.elim

theorem inFrame_step {e : PairEvent} (he : InFrame e) (hw : e.Within (312 * 114 + 34)) (hd : Desk factor sinc stereo T S q)
    (hs : Sides z factor sinc stereo T S acc iir q v) (ho : ∀ r, Active stereo r → ∀ x ∈ stamps T [e], (v r).now ≤ x) :
    XPost (fun _ => True) (fun q' => Desk factor sinc stereo T S q' ∧
      Sides z factor sinc stereo T S acc iir q' fun r => (v r).event z factor sinc (mine stereo r) e) (stepPair q e) := by
  have calm : Calm e → (∀ r, (v r).event z factor sinc (mine stereo r) e = v r) → _ := fun hc hv =>
    (calm_step hc hd hs).mono (fun _ x => x) (Q := fun q' => Desk factor sinc stereo T S q' ∧
      Sides z factor sinc stereo T S acc iir q' fun r => (v r).event z factor sinc (mine stereo r) e)
      fun q' h => ⟨h.1, by simp only [hv]; exact h.2.1⟩
  cases e with
  | write addr data c =>
    have he : Plain addr data := he
    have hw : (0 ≤ data ∧ data < 256) ∧ 0 ≤ c ∧ c ≤ 312 * 114 + 34 := hw
    have hm := mask_bit hd.mask addr
    have hv : ∀ r, (v r).event z factor sinc (mine stereo r) (.write addr data c) =
        if mine stereo r (.write addr data c) then ⟨(v r).sound.write z factor sinc (v r).now ((v r).frame + c) addr data, (v r).frame + c, (v r).frame⟩ else v r :=
      fun _ => rfl
    show XPost _ _ ((q.poke addr data c).map Prod.snd)
    refine XPost.map ?_
    unfold Pair.poke
    refine XPost.ite (fun hb => ?_) fun hb => ?_
    · have hb := hm.1 hb
      have ha : Active stereo true := fun _ => by simp at hb; exact hb.1
      obtain ⟨hT, hS⟩ := hs true ha
      have hh : (v true).now ≤ (v true).frame + c := by rw [hT]; exact ho true ha _ (by simp [stamps])
      refine XPost.bind (hS.poke (hT ▸ hd.origin) hw.1 he hh (by omega)) fun x hx => ?_
      refine ⟨⟨hd.mask, hd.rate, hd.table, hd.offset, hd.range⟩, fun r hr => ?_⟩
      dsimp only
      rw [hv]
      cases r
      · rw [if_neg (by rw [mine_write, hb]; decide)]
        exact hs false hr
      · rw [if_pos (by rw [mine_write, hb]; rfl)]
        exact ⟨hT, hx⟩
    · have hb := mt hm.2 hb
      have ha : Active stereo false := fun h => nomatch h
      obtain ⟨hT, hS⟩ := hs false ha
      have hh : (v false).now ≤ (v false).frame + c := by rw [hT]; exact ho false ha _ (by simp [stamps])
      refine XPost.bind (hS.poke (hT ▸ hd.origin) hw.1 he hh (by omega)) fun x hx => ?_
      refine ⟨⟨hd.mask, hd.rate, hd.table, hd.offset, hd.range⟩, fun r hr => ?_⟩
      dsimp only
      rw [hv]
      have hb : (stereo && right addr) = false := by simpa using hb
      cases r
      · rw [if_pos (by rw [mine_write, hb]; rfl)]
        exact ⟨hT, hx⟩
      · rw [if_neg (by rw [mine_write, hb]; decide)]
        exact hs true hr
  | read => exact calm he fun _ => rfl
  | irq => exact calm he fun _ => rfl
  | timers => exact calm he fun _ => rfl
  | start => exact he.elim
  | finish => exact he.elim
  | external side c height =>
    have hv : ∀ r, (v r).event z factor sinc (mine stereo r) (.external side c height) =
        if side == r then ⟨(v r).sound.add factor sinc ((v r).frame + c) (height / 2 ^ 14), (v r).now, (v r).frame⟩ else v r :=
      fun _ => rfl
    cases side
    · obtain ⟨hT, hS⟩ := hs false fun h => nomatch h
      show XPost _ _ ((q.base.addExternalDelta q.cfg c height).map fun b => { q with base := b })
      refine XPost.map ((hS.external (hT ▸ hd.origin) c height).mono (fun _ x => x) fun x hx => ?_)
      refine ⟨⟨hd.mask, hd.rate, hd.table, hd.offset, hd.range⟩, fun r hr => ?_⟩
      cases r
      · exact ⟨hT, hx⟩
      · exact hs true hr
    · show XPost _ _ ((q.extra.addExternalDelta q.cfg c height).map fun b => { q with extra := b })
      by_cases ha : Active stereo true
      · obtain ⟨hT, hS⟩ := hs true ha
        refine XPost.map ((hS.external (hT ▸ hd.origin) c height).mono (fun _ x => x) fun x hx => ?_)
        refine ⟨⟨hd.mask, hd.rate, hd.table, hd.offset, hd.range⟩, fun r hr => ?_⟩
        cases r
        · exact hs false hr
        · exact ⟨hT, hx⟩
      · refine XPost.map (xpost_true fun x _ => ?_)
        refine ⟨⟨hd.mask, hd.rate, hd.table, hd.offset, hd.range⟩, fun r hr => ?_⟩
        cases r
        · exact hs false hr
        · exact absurd hr ha
  | mute => exact he.elim
  | generate => exact he.elim

end Asap.Sound
