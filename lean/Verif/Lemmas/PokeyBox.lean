import Verif.Lemmas.PokeyTick

/-! Everything stays inside the sample buffer. -/

namespace Asap.Pokey
open Asap.Spec

/-- What an invariant must survive to survive the clock ticks at cycle `c`. -/
structure StableAt (cfg : Cfg) (E : Hw → Prop) (I : Pokey → Prop) (c : Int) : Prop where
  tick : ∀ p i t, I p → I (p.setCh i { p.ch i with tick := t })
  out : ∀ p i o, I p → I (p.setCh i { p.ch i with out := o })
  slope : ∀ p i, i < 4 → I p → XPost E I (slope cfg p i c)
  poly : ∀ p (i : Nat), i < 4 → I p → ¬ c + p.polyIndex - i < 0

variable {cfg : Cfg} {E : Hw → Prop} {I : Pokey → Prop} {c : Int}

theorem StableAt.doTick (h : StableAt cfg E I c) {p : Pokey} (i : Nat) (hi : i < 4) (hp : I p) :
    XPost E I (doTick cfg p i c) := by
  have h1 := h.tick p i ((p.ch i).tick + (p.ch i).period) hp
  have ho : ∀ o, I ((p.setCh i { p.ch i with tick := (p.ch i).tick + (p.ch i).period }).setCh i
      { p.ch i with tick := (p.ch i).tick + (p.ch i).period, out := o }) := by
    intro o
    have := h.out _ i o h1
    rwa [setCh_same] at this
  unfold Pokey.doTick
  dsimp only
  refine XPost.ite (fun _ => h.slope _ _ hi (ho _)) fun _ => ?_
  refine XPost.ite (fun _ => h1) fun _ => ?_
  refine XPost.ite (fun hn => absurd hn (h.poly _ i hi h1)) fun _ => ?_
  refine XPost.ite (fun _ => h1) fun _ => ?_
  refine XPost.ite (fun _ => h.slope _ _ hi (ho _)) fun _ => ?_
  exact XPost.ite (fun _ => h1) fun _ => h.slope _ _ hi (ho _)

theorem StableAt.highPass (h : StableAt cfg E I c) {p : Pokey} (m : Int) (i : Nat) (hi : i < 4) (hp : I p) :
    XPost E I (highPass cfg p m i c) := by
  unfold Pokey.highPass
  exact XPost.ite (fun _ => h.slope _ _ hi hp) fun _ => hp

theorem StableAt.tick2 (h : StableAt cfg E I c) {p : Pokey} (hp : I p) : XPost E I (tick2 cfg p c) := by
  unfold Pokey.tick2
  refine XPost.ite (fun _ => ?_) fun _ => hp
  refine XPost.bind (h.highPass 4 0 (by omega) hp) fun q hq => ?_
  exact h.doTick 2 (by omega) hq

theorem StableAt.tick3 (h : StableAt cfg E I c) {p : Pokey} (hp : I p) : XPost E I (tick3 cfg p c) := by
  unfold Pokey.tick3
  refine XPost.ite (fun _ => ?_) fun _ => hp
  dsimp only
  have hq : I (if band p.audctl 8 ≠ 0 then p.setCh 2 { p.ch 2 with tick := c + p.reload3 } else p) := by
    split
    · exact h.tick _ _ _ hp
    · exact hp
  revert hq
  generalize (if band p.audctl 8 ≠ 0 then p.setCh 2 { p.ch 2 with tick := c + p.reload3 } else p) = q
  intro hq
  refine XPost.bind (h.highPass 2 1 (by omega) hq) fun r hr => ?_
  exact h.doTick 3 (by omega) hr

theorem StableAt.tick0 (h : StableAt cfg E I c) {p : Pokey} (hp : I p) : XPost E I (tick0 cfg p c) := by
  unfold Pokey.tick0
  refine XPost.ite (fun _ => ?_) fun _ => hp
  dsimp only
  refine h.doTick 0 (by omega) ?_
  split
  · exact h.tick _ _ _ hp
  · exact hp

theorem StableAt.tick1 (h : StableAt cfg E I c) {p : Pokey} (hp : I p) : XPost E I (tick1 cfg p c) := by
  unfold Pokey.tick1
  refine XPost.ite (fun _ => ?_) fun _ => hp
  dsimp only
  refine h.doTick 1 (by omega) ?_
  split
  · exact h.tick _ _ _ hp
  · split
    · exact h.tick _ _ _ hp
    · exact hp

theorem StableAt.tickAll (h : StableAt cfg E I c) {p : Pokey} (hp : I p) : XPost E I (tickAll cfg p c) := by
  unfold Pokey.tickAll
  refine XPost.bind (h.tick2 hp) fun p hp => ?_
  refine XPost.bind (h.tick3 hp) fun p hp => ?_
  exact XPost.bind (h.tick0 hp) fun p hp => h.tick1 hp


/-- The buffer, the noise position and the leftover of the previous frame are in range. -/
structure Inside (len : Int) (p : Pokey) : Prop where
  buf : p.bufLen = len
  poly : 3 ≤ p.polyIndex
  trail : 0 ≤ p.trailing ∧ p.trailing ≤ len
  irq : 0 ≤ p.irqst ∧ p.irqst ≤ 255

/-- Cycles `0..t` fall into a buffer of `len` samples. -/
def Room (cfg : Cfg) (len t : Int) : Prop :=
  ∀ c, 0 ≤ c → c ≤ t → 0 ≤ shr (c * cfg.factor + cfg.offset) 18 ∧ shr (c * cfg.factor + cfg.offset) 18 + 31 < len

variable {len t : Int} {p : Pokey}

theorem Inside.of {q : Pokey} (h : Inside len p) (h1 : q.bufLen = p.bufLen) (h2 : q.polyIndex = p.polyIndex)
    (h3 : q.trailing = p.trailing) (h4 : q.irqst = p.irqst := by rfl) : Inside len q :=
  ⟨h1.trans h.buf, h2 ▸ h.poly, h3 ▸ h.trail, h4 ▸ h.irq⟩

theorem addExternal_inside (hr : Room cfg len t) (h : Inside len p) (hc : 0 ≤ c ∧ c ≤ t) (d : Int) :
    XPost (fun _ => False) (Inside len) (addExternalDelta cfg p c d) := by
  unfold addExternalDelta
  dsimp only
  refine XPost.ite (fun _ => h) fun _ => XPost.ite (fun _ => h.of rfl rfl rfl) fun hn => ?_
  have := hr c hc.1 hc.2
  rw [h.buf] at hn
  exact absurd this hn

theorem addDelta_inside (hr : Room cfg len t) (h : Inside len p) (hc : 0 ≤ c ∧ c ≤ t) (d : Int) :
    XPost (fun e => e = .dac) (Inside len) (addDelta cfg p c d) := by
  unfold addDelta
  dsimp only
  refine XPost.ite (fun _ => ?_) fun _ => rfl
  split
  · rfl
  · refine XPost.bind ((addExternal_inside hr (p := { p with sumIn := p.sumIn + d }) (h.of rfl rfl rfl) hc _).mono
      (fun _ x => x.elim) fun _ x => x) fun q hq => ?_
    exact hq.of rfl rfl rfl

theorem inside_stable (hr : Room cfg len t) (hc : 0 ≤ c ∧ c ≤ t) : StableAt cfg (fun e => e = .dac) (Inside len) c where
  tick p i t h := h.of rfl rfl rfl
  out p i o h := h.of rfl rfl rfl
  slope p i _ h := addDelta_inside hr (p := p.setCh i _) (h.of rfl rfl rfl) hc _
  poly p i hi h := by have := h.poly; omega

/-- The chip between two events. -/
structure Box (len : Int) (p : Pokey) : Prop where
  inside : Inside len p
  tick : ∀ j, j < 4 → 0 ≤ (p.ch j).tick

theorem loop_box (hr : Room cfg len t) {limit : Int} (hl : 0 ≤ limit ∧ limit ≤ t) : ∀ (fuel : Nat) (p : Pokey), Pos p → Box len p →
    XPost (fun e => e = .dac ∨ e = .fuel) (Box len) (generateLoop cfg limit fuel p)
  | 0, _, _, _ => Or.inr rfl
  | fuel + 1, p, hp, hb => by
    have hle := firstTick_le p limit
    have h0 : 0 ≤ p.firstTick limit := by
      have h0 := hb.tick 0 (by omega); have h1 := hb.tick 1 (by omega)
      have h2 := hb.tick 2 (by omega); have h3 := hb.tick 3 (by omega)
      unfold firstTick; omega
    unfold generateLoop
    dsimp only
    refine XPost.ite (fun e => hb) fun e => ?_
    refine XPost.bind (((tickAll_adv (cfg := cfg) _ hp hle.2).and
      ((inside_stable hr (c := p.firstTick limit) ⟨h0, by omega⟩).tickAll hb.inside)).mono (fun _ x => Or.inl x.2) fun _ x => x) fun q hq => ?_
    exact loop_box hr hl fuel q hq.1.1 ⟨hq.2, fun j hj => by have := hq.1.2 j hj; omega⟩

theorem box_until (hr : Room cfg len t) (hp : Pos p) (hb : Box len p) (hc : 0 ≤ c ∧ c ≤ t) :
    XPost (fun e => e = .dac) (fun q => Box len q ∧ ∀ j, j < 4 → c ≤ (q.ch j).tick) (generateUntil cfg p c) := by
  refine ((loop_box hr hc _ p hp hb).and (generateUntil_ends (cfg := cfg) hp c)).mono ?_ fun q hq => hq
  rintro e ⟨h1 | h1, h2⟩
  · exact h1
  · exact absurd h1 h2

theorem Box.of {q : Pokey} (h : Box len p) (h1 : Inside len q) (h2 : ∀ j, j < 4 → (q.ch j).tick = (p.ch j).tick) : Box len q :=
  ⟨h1, fun j hj => by rw [h2 j hj]; exact h.tick j hj⟩

theorem box_muteCh (h : Box len p) (i : Nat) (e : Bool) (m : Int) (hc : 0 ≤ c) : Box len (p.muteCh i e m c) := by
  refine ⟨h.inside.of rfl rfl rfl, fun j hj => ?_⟩
  unfold muteCh
  rw [setCh_ch]
  split
  · rename_i e; subst e
    have := h.tick j hj
    unfold setMute
    split
    · show 0 ≤ never; decide
    · dsimp only; split <;> omega
  · exact h.tick j hj

theorem box_initMute (h : Box len p) (hc : 0 ≤ c) : Box len (p.initMute c) :=
  box_muteCh (box_muteCh (box_muteCh (box_muteCh h 0 _ _ hc) 1 _ _ hc) 2 _ _ hc) 3 _ _ hc

theorem inside_tune (h : Inside len p) (v : Int) : Inside len (tune1 p v) ∧ Inside len (tune2 p v) ∧
    Inside len (tune3 p v) ∧ Inside len (tune4 p v) := by
  unfold tune1 tune2 tune3 tune4
  refine ⟨?_, ?_, ?_, ?_⟩ <;> repeat' split
  all_goals exact h.of rfl rfl rfl

theorem inside_pairs (h : Inside len p) : Inside len (audctlPair3 (audctlPair1 p)) := by
  have h1 : Inside len (audctlPair1 p) := by unfold audctlPair1; repeat' split
                                             all_goals exact h.of rfl rfl rfl
  unfold audctlPair3; repeat' split
  all_goals exact h1.of rfl rfl rfl

theorem box_pokeAudf (hr : Room cfg len t) (hp : Pos p) (h : Box len p) (n : Nat) {tune : Pokey → Int → Pokey}
    (hi : ∀ q v, Inside len q → Inside len (tune q v)) (ht : ∀ q v j, ((tune q v).ch j).tick = (q.ch j).tick) (d : Int)
    (hc : 0 ≤ c ∧ c ≤ t) : XPost (fun e => e = .dac) (Box len) (pokeAudf cfg p n tune d c) := by
  unfold pokeAudf
  refine XPost.ite (fun _ => h) fun _ => XPost.bind (box_until hr hp h hc) fun q hq => ?_
  refine hq.1.of (hi _ _ (hq.1.inside.of rfl rfl rfl)) fun j _ => ?_
  rw [ht]
  unfold setAudf; rw [setCh_ch]; split
  · rename_i e; subst e; rfl
  · rfl

theorem inside_addUnmuted (hr : Room cfg len t) (h : Inside len p) (n : Nat) (hc : 0 ≤ c ∧ c ≤ t) (d : Int) :
    XPost (fun e => e = .dac) (Inside len) (addUnmuted cfg p n c d) :=
  XPost.ite (fun _ => addDelta_inside hr h hc d) fun _ => h

theorem addUnmuted_ticks (p : Pokey) (n : Nat) (d : Int) :
    XPost (fun _ => True) (fun q => q.ch = p.ch) (addUnmuted cfg p n c d) := by
  refine XPost.ite (fun _ => (addDelta_frame p c d).mono (fun _ _ => trivial) ?_) fun _ => rfl
  rintro q ⟨b, o, rfl⟩; rfl

theorem box_setDelta (h : Box len p) (n : Nat) (v : Int) : Box len (p.setDelta n v) := by
  refine h.of (h.inside.of rfl rfl rfl) fun j _ => ?_
  unfold setDelta; rw [setCh_ch]; split
  · rename_i e; subst e; rfl
  · rfl

theorem box_addUnmuted (hr : Room cfg len t) (h : Box len p) (n : Nat) (hc : 0 ≤ c ∧ c ≤ t) (d : Int) :
    XPost (fun e => e = .dac) (Box len) (addUnmuted cfg p n c d) :=
  ((inside_addUnmuted hr h.inside n hc d).and (addUnmuted_ticks (cfg := cfg) (c := c) p n d)).mono (fun _ x => x.1) fun q hq =>
    h.of hq.1 fun j _ => by rw [hq.2]

theorem box_setAudc (hr : Room cfg len t) (hp : Pos p) (h : Box len p) (n : Nat) (d : Int) (hc : 0 ≤ c ∧ c ≤ t) :
    XPost (fun e => e = .dac) (Box len) (setAudc cfg p n d c) := by
  unfold setAudc
  refine XPost.ite (fun _ => h) fun _ => XPost.bind (box_until hr hp h hc) fun q hq => ?_
  have hq' : Box len (q.setCh n { q.ch n with audc := d }) := by
    refine hq.1.of (hq.1.inside.of rfl rfl rfl) fun j _ => ?_
    rw [setCh_ch]; split
    · rename_i e; subst e; rfl
    · rfl
  dsimp only
  unfold storeVolume
  refine XPost.ite (fun _ => XPost.bind (box_addUnmuted hr hq' n hc _) fun r hr => box_setDelta hr _ _) fun _ => ?_
  exact XPost.ite (fun _ => XPost.bind (box_addUnmuted hr hq' n hc _) fun r hr => box_setDelta hr _ _) fun _ => box_setDelta hq' _ _

theorem irqenOne_inside (h : Inside len p) (n : Nat) (d c t : Int) :
    XPost (fun _ => True) (fun r => Inside len r.2) (irqenOne p n d c t) := by
  unfold irqenOne
  refine XPost.ite (fun _ => XPost.ite (fun _ => ?_) fun _ => h) fun _ => h.of rfl rfl rfl
  cases nextTimer (p.ch n).period c (c - (p.ch n).tick).toNat (p.ch n).tick with
  | ok t => exact h.of rfl rfl rfl
  | error e => trivial

theorem pokeIrqen_inside (h : Inside len p) {d : Int} (hd : 0 ≤ d ∧ d < 256) (c : Int) :
    XPost (fun _ => True) (fun r => Inside len r.2) (pokeIrqen p d c) := by
  unfold pokeIrqen
  have h0 : Inside len { p with irqst := bor p.irqst (bxor d 0xff) } := by
    have hx := bxor_range 8 hd.1 (show d < 2 ^ 8 from hd.2) (show (0 : Int) ≤ 0xff by decide) (show (0xff : Int) < 2 ^ 8 by decide)
    have hi := h.irq
    have hb := bor_range 8 hi.1 (show p.irqst < 2 ^ 8 by omega) hx.1 hx.2
    exact ⟨h.buf, h.poly, h.trail, hb.1, Int.le_of_lt_add_one hb.2⟩
  refine XPost.bind (irqenOne_inside h0 3 d c never) fun r hr => ?_
  refine XPost.bind (irqenOne_inside hr 1 d c r.1) fun r1 hr1 => ?_
  exact irqenOne_inside hr1 0 d c r1.1

theorem box_poke (hr : Room cfg len t) (hp : Pos p) (h : Box len p) (addr : Int) {d : Int} (hd : 0 ≤ d ∧ d < 256) (hc : 0 ≤ c ∧ c ≤ t) (ht : t ≤ 200000) :
    XPost (fun e => e = .dac) (fun r => Box len r.2) (poke cfg p addr d c) := by
  unfold poke
  split
  · exact XPost.noEvent (box_pokeAudf hr hp h 0 (fun q v hq => (inside_tune hq v).1) tune1_tick d hc)
  · exact XPost.noEvent (box_setAudc hr hp h 0 d hc)
  · exact XPost.noEvent (box_pokeAudf hr hp h 1 (fun q v hq => (inside_tune hq v).2.1) tune2_tick d hc)
  · exact XPost.noEvent (box_setAudc hr hp h 1 d hc)
  · exact XPost.noEvent (box_pokeAudf hr hp h 2 (fun q v hq => (inside_tune hq v).2.2.1) tune3_tick d hc)
  · exact XPost.noEvent (box_setAudc hr hp h 2 d hc)
  · exact XPost.noEvent (box_pokeAudf hr hp h 3 (fun q v hq => (inside_tune hq v).2.2.2) tune4_tick d hc)
  · exact XPost.noEvent (box_setAudc hr hp h 3 d hc)
  · refine XPost.noEvent ?_
    unfold pokeAudctl
    refine XPost.ite (fun _ => h) fun _ => XPost.bind (box_until hr hp h hc) fun q hq => ?_
    refine box_initMute (hq.1.of (inside_pairs (hq.1.inside.of rfl rfl rfl)) fun j _ => ?_) hc.1
    exact audctl_tick q d j
  · refine ⟨h.inside.of rfl rfl rfl, fun j hj => ?_⟩
    show 0 ≤ if (p.ch j).tick ≠ never then c + (p.ch j).period else (p.ch j).tick
    have := hp.period j hj
    have := h.tick j hj
    split <;> omega
  · refine ((pokeIrqen_same hp d c).and (pokeIrqen_inside h.inside hd c)).mono (fun _ x => x.1.elim) fun r hq => ?_
    exact h.of hq.2 fun j _ => hq.1.2 j
  · refine XPost.noEvent ?_
    unfold pokeSkctl
    refine XPost.ite (fun _ => h) fun _ => XPost.bind (box_until hr hp h hc) fun q hq => ?_
    have hs : Box len (q.setSkctl d c) := by
      refine hq.1.of ⟨hq.1.inside.buf, ?_, hq.1.inside.trail, hq.1.inside.irq⟩ fun j _ => rfl
      have := hq.1.inside.poly
      show 3 ≤ if q.init = true ∧ band d 3 ≠ 0 then _ - c else q.polyIndex
      repeat' split
      all_goals omega
    exact box_muteCh (box_muteCh (box_initMute hs hc.1) 2 _ _ hc.1) 3 _ _ hc.1
  · exact h

/-- The times and indices of an event are in range. -/
def Spec.ChipEvent.InRange (len t : Int) : ChipEvent → Prop
  | .write _ _ c => 0 ≤ c ∧ c ≤ t
  | .finish c => 0 ≤ c ∧ c ≤ t
  | .external c _ => 0 ≤ c ∧ c ≤ t
  | .sample i _ => 0 ≤ i ∧ i < len
  | _ => True

theorem box_endFrame (hr : Room cfg len t) (hp : Pos p) (h : Box len p) (hc : 0 ≤ c ∧ c ≤ t) :
    XPost (fun e => e = .dac) (Box len) (endFrame cfg p c) := by
  unfold endFrame
  refine XPost.bind (box_until hr hp h hc) fun q hq => ?_
  refine ⟨⟨hq.1.inside.buf, ?_, hq.1.inside.trail, hq.1.inside.irq⟩, fun j hj => ?_⟩
  · have := hq.1.inside.poly
    dsimp only
    repeat' split
    all_goals omega
  · have := hq.2 j hj
    dsimp only
    split
    · omega
    · exact hq.1.tick j hj

theorem box_checkIrq (h : Box len p) (n : Int) : Box len (checkIrq p c n).2 := by
  have one : ∀ (q : Pokey) (k : Nat) (m : Int), Inside len q → Inside len (checkIrqOne q k c m).2 := by
    intro q k m hq; unfold checkIrqOne; split
    · have := band_range_left (bnot (k + 1)) hq.irq.1
      have hi := hq.irq
      exact ⟨hq.buf, hq.poly, hq.trail, this.1, Int.le_trans this.2 hi.2⟩
    · exact hq
  exact h.of (one _ _ _ (one _ _ _ (one _ _ _ h.inside))) fun j _ => (checkIrq_same p c n).2 j

theorem box_startFrame (h : Box len p) : XPost (fun _ => False) (Box len) p.startFrame := by
  unfold startFrame
  rw [h.inside.buf, if_pos h.inside.trail]
  exact h.of (h.inside.of rfl rfl rfl) fun j _ => rfl

theorem box_endTimers (h : Box len p) (c : Int) : Box len (p.endTimers c) :=
  h.of (h.inside.of rfl rfl rfl) fun j _ => (same_endTimers p c).2 j

theorem box_muteAll (h : Box len p) (k : Int) : Box len (p.muteAll k) := by
  refine ⟨h.inside.of rfl rfl rfl, fun j hj => ?_⟩
  unfold muteAll; dsimp only
  rw [if_pos hj]
  have := h.tick j hj
  unfold setMute
  split
  · show 0 ≤ never; decide
  · dsimp only; split <;> omega

theorem initChip_box (p : Pokey) (rate : Int) (h : 0 ≤ rate) :
    Box (Int.tdiv (rate * 312 * 114) 1773447 + 32 + 2) (p.initChip rate) := by
  have : 0 ≤ Int.tdiv (rate * 312 * 114) 1773447 := Int.tdiv_nonneg (by omega) (by decide)
  refine ⟨⟨rfl, show (3 : Int) ≤ 15 * 31 * 131071 by decide, ?_, show (0 : Int) ≤ 255 ∧ (255 : Int) ≤ 255 by decide⟩,
    fun j _ => show (0 : Int) ≤ never by decide⟩
  show 0 ≤ Int.tdiv (rate * 312 * 114) 1773447 + 32 + 2 ∧ Int.tdiv (rate * 312 * 114) 1773447 + 32 + 2 ≤ _
  omega

theorem step_box (hr : Room cfg len t) (hp : Pos p) (h : Box len p) (e : ChipEvent) (hb : e.Byte) (he : Spec.ChipEvent.InRange len t e)
    (ht : t ≤ 200000) : XPost (fun e => e = .dac) (Box len) (step cfg p e) := by
  cases e with
  | write addr d c => exact XPost.map (box_poke hr hp h addr hb he ht)
  | start => exact (box_startFrame h).mono (fun _ x => x.elim) fun _ x => x
  | finish c => exact box_endFrame hr hp h he
  | external c d =>
    refine ((addExternal_inside hr h.inside he d).and (addExternalDelta_frame p c d)).mono (fun _ x => x.1.elim) ?_
    rintro q ⟨h1, b, rfl⟩
    exact h.of h1 fun _ _ => rfl
  | irq c n => exact box_checkIrq h n
  | timers c => exact box_endTimers h c
  | mute k => exact box_muteAll h k
  | sample i f =>
    show XPost _ (Box len) ((p.storeSample i f).map Prod.snd)
    unfold storeSample
    rw [if_pos (show 0 ≤ i ∧ i < p.bufLen from h.inside.buf ▸ he)]
    exact h.of (h.inside.of rfl rfl rfl) fun _ _ => rfl

/-! ### The size of the buffer -/

/-- Number of samples in the buffer. -/
def bufSize (rate : Int) : Int := Int.tdiv (rate * 312 * 114) 1773447 + 32 + 2

theorem room {rate : Int} (h : 0 ≤ rate ∧ rate ≤ 48000) (ntsc : Bool) {off : Int} (ho : 0 ≤ off ∧ off < 262144)
    (sinc : Int → Int → Int) :
    Room ⟨if ntsc then Pair.sampleFactor rate 1789772 else Pair.sampleFactor rate 1773447, off, sinc⟩ (bufSize rate)
      (312 * 114 + 34) := by
  have e13 : shl rate (18 - 5) = rate * 8192 := rfl
  have p1 : shr 1773447 6 = 27710 := by decide
  have p2 : shr 1773447 5 = 55420 := by decide
  have n1 : shr 1789772 6 = 27965 := by decide
  have n2 : shr 1789772 5 = 55930 := by decide
  have hf : ∀ f, f = (if ntsc then Pair.sampleFactor rate 1789772 else Pair.sampleFactor rate 1773447) →
      0 ≤ f ∧ 55420 * f ≤ 8192 * rate + 27710 := by
    rintro f rfl
    split
    · unfold Pair.sampleFactor
      rw [e13, n1, n2, Int.tdiv_eq_ediv_of_nonneg (by omega)]
      omega
    · unfold Pair.sampleFactor
      rw [e13, p1, p2, Int.tdiv_eq_ediv_of_nonneg (by omega)]
      omega
  have hb : rate * 35568 < 1773447 * (bufSize rate - 33) := by
    unfold bufSize
    rw [Int.tdiv_eq_ediv_of_nonneg (by omega)]
    omega
  intro c h0 hc
  obtain ⟨f0, f1⟩ := hf _ rfl
  generalize (if ntsc then Pair.sampleFactor rate 1789772 else Pair.sampleFactor rate 1773447) = f at *
  have hm : c * f ≤ (312 * 114 + 34) * f := Int.mul_le_mul_of_nonneg_right hc f0
  have hm0 : 0 ≤ c * f := Int.mul_nonneg h0 f0
  dsimp only
  show 0 ≤ (c * f + off) / 262144 ∧ (c * f + off) / 262144 + 31 < bufSize rate
  generalize c * f = x at *
  generalize bufSize rate = b at *
  constructor
  · omega
  · omega

end Asap.Pokey
