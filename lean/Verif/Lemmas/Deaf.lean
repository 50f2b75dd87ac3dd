import Verif.Lemmas.Split

/-! The emulated machine does not depend on what is heard: the sample buffers, the state of the output filter and the
number of samples taken have no influence on anything else. -/

namespace Asap

/-- Results of two runs. -/
def XLike {α β : Type} (R : α → β → Prop) : X α → X β → Prop
  | .ok a, .ok b => R a b
  | .error e, .error e' => e = e'
  | _, _ => False

theorem XLike.bind {α β γ δ : Type} {R : α → β → Prop} {S : γ → δ → Prop} {x : X α} {y : X β} {f : α → X γ} {g : β → X δ}
    (h : XLike R x y) (k : ∀ a b, R a b → XLike S (f a) (g b)) : XLike S (x >>= f) (y >>= g) := by
  cases x <;> cases y
  · exact h
  · exact h.elim
  · exact h.elim
  · exact k _ _ h

theorem XLike.ite {α β : Type} {R : α → β → Prop} {c : Prop} [Decidable c] {x x' : X α} {y y' : X β}
    (h : c → XLike R x y) (k : ¬ c → XLike R x' y') : XLike R (if c then x else x') (if c then y else y') := by
  by_cases hc : c
  · rw [if_pos hc, if_pos hc]; exact h hc
  · rw [if_neg hc, if_neg hc]; exact k hc

theorem XLike.mono {α β : Type} {R S : α → β → Prop} {x : X α} {y : X β} (h : XLike R x y) (k : ∀ a b, R a b → S a b) : XLike S x y := by
  cases x <;> cases y
  · exact h
  · exact h.elim
  · exact h.elim
  · exact k _ _ h

/-! ### Chips -/

/-- What is heard of a chip. -/
structure Sound where
  buf : Int → Int
  acc : Int
  trailing : Int

/-- The chip with other samples. -/
def Pokey.sound (p : Pokey) (s : Sound) : Pokey := { p with buf := s.buf, iirAcc := s.acc, trailing := s.trailing }

/-- What is heard of a chip. -/
def Pokey.heard (p : Pokey) : Sound := ⟨p.buf, p.iirAcc, p.trailing⟩

/-- Chips that differ in their samples. -/
def Pokey.Like (p q : Pokey) : Prop := ∃ s, q = p.sound s

namespace Pokey

theorem Like.refl (p : Pokey) : p.Like p := ⟨p.heard, rfl⟩

theorem Like.symm {p q : Pokey} (h : p.Like q) : q.Like p := by
  obtain ⟨s, rfl⟩ := h
  exact ⟨p.heard, rfl⟩

theorem Like.trans {p q r : Pokey} (h : p.Like q) (k : q.Like r) : p.Like r := by
  obtain ⟨s, rfl⟩ := h
  obtain ⟨t, rfl⟩ := k
  exact ⟨t, rfl⟩

/-- A function of chips that keeps the samples. -/
theorem Like.map {p q : Pokey} (h : p.Like q) (f : Pokey → Pokey) (hf : ∀ p s, f (p.sound s) = (f p).sound s) : (f p).Like (f q) := by
  obtain ⟨s, rfl⟩ := h
  exact ⟨s, hf p s⟩

theorem like_ok {p : Pokey} (s : Sound) : XLike Pokey.Like (.ok p) (.ok (p.sound s)) := ⟨s, rfl⟩

theorem like_addExternalDelta (cfg : Cfg) {p q : Pokey} (h : p.Like q) (cycle delta : Int) :
    XLike Pokey.Like (addExternalDelta cfg p cycle delta) (addExternalDelta cfg q cycle delta) := by
  obtain ⟨s, rfl⟩ := h
  unfold addExternalDelta
  dsimp only
  exact XLike.ite (fun _ => like_ok s) fun _ => XLike.ite (fun _ => ⟨⟨_, s.acc, s.trailing⟩, rfl⟩) fun _ => rfl

theorem like_addDelta (cfg : Cfg) {p q : Pokey} (h : p.Like q) (cycle delta : Int) :
    XLike Pokey.Like (addDelta cfg p cycle delta) (addDelta cfg q cycle delta) := by
  obtain ⟨s, rfl⟩ := h
  unfold addDelta
  dsimp only
  refine XLike.ite (fun _ => ?_) fun _ => rfl
  show XLike Pokey.Like (match compressedSums[(p.sumIn + delta).toNat]? with | none => _ | some v => _)
    (match compressedSums[(p.sumIn + delta).toNat]? with | none => _ | some v => _)
  cases compressedSums[(p.sumIn + delta).toNat]? with
  | none => rfl
  | some v =>
    refine XLike.bind (like_addExternalDelta cfg ⟨s, rfl⟩ _ _) fun a b hab => ?_
    obtain ⟨t, rfl⟩ := hab
    exact ⟨t, rfl⟩

theorem like_slope (cfg : Cfg) {p q : Pokey} (h : p.Like q) (i : Nat) (cycle : Int) :
    XLike Pokey.Like (slope cfg p i cycle) (slope cfg q i cycle) := by
  obtain ⟨s, rfl⟩ := h
  exact like_addDelta cfg ⟨s, rfl⟩ _ _

theorem like_doTick (cfg : Cfg) {p q : Pokey} (h : p.Like q) (i : Nat) (cycle : Int) :
    XLike Pokey.Like (doTick cfg p i cycle) (doTick cfg q i cycle) := by
  obtain ⟨s, rfl⟩ := h
  unfold doTick
  dsimp only
  refine XLike.ite (fun _ => like_slope cfg ⟨s, rfl⟩ _ _) fun _ => ?_
  refine XLike.ite (fun _ => ⟨s, rfl⟩) fun _ => ?_
  refine XLike.ite (fun _ => rfl) fun _ => ?_
  refine XLike.ite (fun _ => ⟨s, rfl⟩) fun _ => ?_
  refine XLike.ite (fun _ => like_slope cfg ⟨s, rfl⟩ _ _) fun _ => ?_
  exact XLike.ite (fun _ => ⟨s, rfl⟩) fun _ => like_slope cfg ⟨s, rfl⟩ _ _

theorem like_highPass (cfg : Cfg) {p q : Pokey} (h : p.Like q) (mask : Int) (i : Nat) (cycle : Int) :
    XLike Pokey.Like (highPass cfg p mask i cycle) (highPass cfg q mask i cycle) := by
  obtain ⟨s, rfl⟩ := h
  exact XLike.ite (fun _ => like_slope cfg ⟨s, rfl⟩ _ _) fun _ => ⟨s, rfl⟩

theorem like_tick2 (cfg : Cfg) {p q : Pokey} (h : p.Like q) (cycle : Int) : XLike Pokey.Like (tick2 cfg p cycle) (tick2 cfg q cycle) := by
  obtain ⟨s, rfl⟩ := h
  exact XLike.ite (fun _ => XLike.bind (like_highPass cfg ⟨s, rfl⟩ _ _ _) fun _ _ hab => like_doTick cfg hab _ _) fun _ => ⟨s, rfl⟩

theorem like_tick3 (cfg : Cfg) {p q : Pokey} (h : p.Like q) (cycle : Int) : XLike Pokey.Like (tick3 cfg p cycle) (tick3 cfg q cycle) := by
  obtain ⟨s, rfl⟩ := h
  unfold tick3
  dsimp only
  refine XLike.ite (fun _ => ?_) fun _ => ⟨s, rfl⟩
  refine XLike.bind (like_highPass cfg (Like.map ⟨s, rfl⟩ (fun p => if band p.audctl 8 ≠ 0 then p.setCh 2 { p.ch 2 with tick := cycle + p.reload3 } else p) ?_) _ _ _)
    fun _ _ hab => like_doTick cfg hab _ _
  intro p s
  show (if band p.audctl 8 ≠ 0 then _ else _) = Pokey.sound (if band p.audctl 8 ≠ 0 then _ else _) s
  split <;> rfl

theorem like_tick0 (cfg : Cfg) {p q : Pokey} (h : p.Like q) (cycle : Int) : XLike Pokey.Like (tick0 cfg p cycle) (tick0 cfg q cycle) := by
  obtain ⟨s, rfl⟩ := h
  unfold tick0
  dsimp only
  refine XLike.ite (fun _ => ?_) fun _ => ⟨s, rfl⟩
  refine like_doTick cfg (Like.map ⟨s, rfl⟩ (fun p => if band p.skctl 0x88 = 8 then p.setCh 1 { p.ch 1 with tick := cycle + (p.ch 1).period } else p) ?_) _ _
  intro p s
  show (if band p.skctl 0x88 = 8 then _ else _) = Pokey.sound (if band p.skctl 0x88 = 8 then _ else _) s
  split <;> rfl

theorem like_tick1 (cfg : Cfg) {p q : Pokey} (h : p.Like q) (cycle : Int) : XLike Pokey.Like (tick1 cfg p cycle) (tick1 cfg q cycle) := by
  obtain ⟨s, rfl⟩ := h
  unfold tick1
  dsimp only
  refine XLike.ite (fun _ => ?_) fun _ => ⟨s, rfl⟩
  refine like_doTick cfg (Like.map ⟨s, rfl⟩ (fun p => if band p.audctl 0x10 ≠ 0 then p.setCh 0 { p.ch 0 with tick := cycle + p.reload1 }
      else if band p.skctl 8 ≠ 0 then p.setCh 0 { p.ch 0 with tick := cycle + (p.ch 0).period }
      else p) ?_) _ _
  intro p s
  show (if band p.audctl 0x10 ≠ 0 then _ else if band p.skctl 8 ≠ 0 then _ else _) =
    Pokey.sound (if band p.audctl 0x10 ≠ 0 then _ else if band p.skctl 8 ≠ 0 then _ else _) s
  split
  · rfl
  · split <;> rfl

theorem like_tickAll (cfg : Cfg) {p q : Pokey} (h : p.Like q) (cycle : Int) : XLike Pokey.Like (tickAll cfg p cycle) (tickAll cfg q cycle) :=
  XLike.bind (like_tick2 cfg h cycle) fun _ _ h => XLike.bind (like_tick3 cfg h cycle) fun _ _ h =>
    XLike.bind (like_tick0 cfg h cycle) fun _ _ h => like_tick1 cfg h cycle

theorem like_generateLoop (cfg : Cfg) (limit : Int) : ∀ (fuel : Nat) {p q : Pokey}, p.Like q →
    XLike Pokey.Like (Pokey.generateLoop cfg limit fuel p) (Pokey.generateLoop cfg limit fuel q)
  | 0, _, _, _ => rfl
  | fuel + 1, p, q, h => by
    obtain ⟨s, rfl⟩ := h
    unfold Pokey.generateLoop
    dsimp only
    exact XLike.ite (fun _ => ⟨s, rfl⟩) fun _ => XLike.bind (like_tickAll cfg ⟨s, rfl⟩ _) fun _ _ h => like_generateLoop cfg limit fuel h

theorem like_generateUntil (cfg : Cfg) {p q : Pokey} (h : p.Like q) (limit : Int) :
    XLike Pokey.Like (generateUntil cfg p limit) (generateUntil cfg q limit) := by
  have hk : q.firstTick limit = p.firstTick limit := by obtain ⟨s, rfl⟩ := h; rfl
  unfold generateUntil
  rw [hk]
  exact like_generateLoop cfg limit _ h

theorem like_endFrame (cfg : Cfg) {p q : Pokey} (h : p.Like q) (cycle : Int) : XLike Pokey.Like (endFrame cfg p cycle) (endFrame cfg q cycle) := by
  refine XLike.bind (like_generateUntil cfg h cycle) fun a b hab => ?_
  obtain ⟨s, rfl⟩ := hab
  exact ⟨s, rfl⟩

theorem like_addUnmuted (cfg : Cfg) {p q : Pokey} (h : p.Like q) (i : Nat) (cycle delta : Int) :
    XLike Pokey.Like (addUnmuted cfg p i cycle delta) (addUnmuted cfg q i cycle delta) := by
  obtain ⟨s, rfl⟩ := h
  exact XLike.ite (fun _ => like_addDelta cfg ⟨s, rfl⟩ _ _) fun _ => ⟨s, rfl⟩

theorem like_storeVolume (cfg : Cfg) {p q : Pokey} (h : p.Like q) (i : Nat) (data cycle : Int) :
    XLike Pokey.Like (storeVolume cfg p i data cycle) (storeVolume cfg q i data cycle) := by
  obtain ⟨s, rfl⟩ := h
  unfold storeVolume
  refine XLike.ite (fun _ => ?_) fun _ => XLike.ite (fun _ => ?_) fun _ => ⟨s, rfl⟩
  · refine XLike.bind (like_addUnmuted cfg ⟨s, rfl⟩ _ _ _) fun a b hab => ?_
    obtain ⟨s, rfl⟩ := hab
    exact ⟨s, rfl⟩
  · refine XLike.bind (like_addUnmuted cfg ⟨s, rfl⟩ _ _ _) fun a b hab => ?_
    obtain ⟨s, rfl⟩ := hab
    exact ⟨s, rfl⟩

theorem like_setAudc (cfg : Cfg) {p q : Pokey} (h : p.Like q) (i : Nat) (data cycle : Int) :
    XLike Pokey.Like (setAudc cfg p i data cycle) (setAudc cfg q i data cycle) := by
  obtain ⟨s, rfl⟩ := h
  refine XLike.ite (fun _ => ⟨s, rfl⟩) fun _ => XLike.bind (like_generateUntil cfg ⟨s, rfl⟩ _) fun a b hab => ?_
  obtain ⟨s, rfl⟩ := hab
  exact like_storeVolume cfg ⟨s, rfl⟩ _ _ _

theorem sound_tune1 (p : Pokey) (s : Sound) (d : Int) : tune1 (p.sound s) d = (tune1 p d).sound s := by
  unfold tune1
  show (if band p.audctl 0x50 = 0 then _ else if band p.audctl 0x50 = 0x10 then _ else if band p.audctl 0x50 = 0x40 then _ else _) =
    Pokey.sound (if band p.audctl 0x50 = 0 then _ else if band p.audctl 0x50 = 0x10 then _ else if band p.audctl 0x50 = 0x40 then _ else _) s
  repeat' split
  all_goals rfl

theorem sound_tune2 (p : Pokey) (s : Sound) (d : Int) : tune2 (p.sound s) d = (tune2 p d).sound s := by
  unfold tune2
  show (if band p.audctl 0x50 = 0 ∨ band p.audctl 0x50 = 0x40 then _ else if band p.audctl 0x50 = 0x10 then _ else _) =
    Pokey.sound (if band p.audctl 0x50 = 0 ∨ band p.audctl 0x50 = 0x40 then _ else if band p.audctl 0x50 = 0x10 then _ else _) s
  repeat' split
  all_goals rfl

theorem sound_tune3 (p : Pokey) (s : Sound) (d : Int) : tune3 (p.sound s) d = (tune3 p d).sound s := by
  unfold tune3
  show (if band p.audctl 0x28 = 0 then _ else if band p.audctl 0x28 = 0x08 then _ else if band p.audctl 0x28 = 0x20 then _ else _) =
    Pokey.sound (if band p.audctl 0x28 = 0 then _ else if band p.audctl 0x28 = 0x08 then _ else if band p.audctl 0x28 = 0x20 then _ else _) s
  repeat' split
  all_goals rfl

theorem sound_tune4 (p : Pokey) (s : Sound) (d : Int) : tune4 (p.sound s) d = (tune4 p d).sound s := by
  unfold tune4
  show (if band p.audctl 0x28 = 0 ∨ band p.audctl 0x28 = 0x20 then _ else if band p.audctl 0x28 = 0x08 then _ else _) =
    Pokey.sound (if band p.audctl 0x28 = 0 ∨ band p.audctl 0x28 = 0x20 then _ else if band p.audctl 0x28 = 0x08 then _ else _) s
  repeat' split
  all_goals rfl

theorem like_pokeAudf (cfg : Cfg) {p q : Pokey} (h : p.Like q) (i : Nat) {tune : Pokey → Int → Pokey}
    (ht : ∀ p s d, tune (p.sound s) d = (tune p d).sound s) (data cycle : Int) :
    XLike Pokey.Like (pokeAudf cfg p i tune data cycle) (pokeAudf cfg q i tune data cycle) := by
  obtain ⟨s, rfl⟩ := h
  refine XLike.ite (fun _ => ⟨s, rfl⟩) fun _ => XLike.bind (like_generateUntil cfg ⟨s, rfl⟩ _) fun a b hab => ?_
  obtain ⟨s, rfl⟩ := hab
  exact ⟨s, ht (a.setAudf i data) s data⟩

theorem sound_audctlPair1 (p : Pokey) (s : Sound) : audctlPair1 (p.sound s) = (audctlPair1 p).sound s := by
  unfold audctlPair1
  show (if band p.audctl 0x50 = 0 then _ else if band p.audctl 0x50 = 0x10 then _ else if band p.audctl 0x50 = 0x40 then _ else _) =
    Pokey.sound (if band p.audctl 0x50 = 0 then _ else if band p.audctl 0x50 = 0x10 then _ else if band p.audctl 0x50 = 0x40 then _ else _) s
  repeat' split
  all_goals rfl

theorem sound_audctlPair3 (p : Pokey) (s : Sound) : audctlPair3 (p.sound s) = (audctlPair3 p).sound s := by
  unfold audctlPair3
  show (if band p.audctl 0x28 = 0 then _ else if band p.audctl 0x28 = 0x08 then _ else if band p.audctl 0x28 = 0x20 then _ else _) =
    Pokey.sound (if band p.audctl 0x28 = 0 then _ else if band p.audctl 0x28 = 0x08 then _ else if band p.audctl 0x28 = 0x20 then _ else _) s
  repeat' split
  all_goals rfl

theorem like_pokeAudctl (cfg : Cfg) {p q : Pokey} (h : p.Like q) (data cycle : Int) :
    XLike Pokey.Like (pokeAudctl cfg p data cycle) (pokeAudctl cfg q data cycle) := by
  obtain ⟨s, rfl⟩ := h
  refine XLike.ite (fun _ => ⟨s, rfl⟩) fun _ => XLike.bind (like_generateUntil cfg ⟨s, rfl⟩ _) fun a b hab => ?_
  obtain ⟨s, rfl⟩ := hab
  refine ⟨s, ?_⟩
  rw [show (a.sound s).setAudctl data = (a.setAudctl data).sound s from rfl, sound_audctlPair1, sound_audctlPair3]
  rfl

theorem like_pokeSkctl (cfg : Cfg) {p q : Pokey} (h : p.Like q) (data cycle : Int) :
    XLike Pokey.Like (pokeSkctl cfg p data cycle) (pokeSkctl cfg q data cycle) := by
  obtain ⟨s, rfl⟩ := h
  refine XLike.ite (fun _ => ⟨s, rfl⟩) fun _ => XLike.bind (like_generateUntil cfg ⟨s, rfl⟩ _) fun a b hab => ?_
  obtain ⟨s, rfl⟩ := hab
  exact ⟨s, rfl⟩

/-- The event and the chip. -/
def Like2 {α : Type} (a b : α × Pokey) : Prop := a.1 = b.1 ∧ a.2.Like b.2

theorem like_irqenOne {p q : Pokey} (h : p.Like q) (i : Nat) (data cycle next : Int) :
    XLike Like2 (irqenOne p i data cycle next) (irqenOne q i data cycle next) := by
  obtain ⟨s, rfl⟩ := h
  unfold irqenOne
  show XLike Like2 (if band (band data p.irqst) (i + 1) ≠ 0 then (if (p.ch i).timer = never then _ else _) else _)
    (if band (band data p.irqst) (i + 1) ≠ 0 then (if (p.ch i).timer = never then _ else _) else _)
  refine XLike.ite (fun _ => XLike.ite (fun _ => ?_) fun _ => ⟨rfl, s, rfl⟩) fun _ => ⟨rfl, s, rfl⟩
  refine XLike.bind (R := Eq) ?_ fun a b hab => ?_
  · show XLike Eq (nextTimer (p.ch i).period cycle (cycle - (p.ch i).tick).toNat (p.ch i).tick)
      (nextTimer (p.ch i).period cycle (cycle - (p.ch i).tick).toNat (p.ch i).tick)
    cases nextTimer (p.ch i).period cycle (cycle - (p.ch i).tick).toNat (p.ch i).tick <;> rfl
  · subst hab
    exact ⟨rfl, s, rfl⟩

theorem like_pokeIrqen {p q : Pokey} (h : p.Like q) (data cycle : Int) : XLike Like2 (pokeIrqen p data cycle) (pokeIrqen q data cycle) := by
  obtain ⟨s, rfl⟩ := h
  refine XLike.bind (like_irqenOne ⟨s, rfl⟩ 3 data cycle never) fun a b hab => ?_
  rw [← hab.1]
  refine XLike.bind (like_irqenOne hab.2 1 data cycle _) fun c d hcd => ?_
  rw [← hcd.1]
  exact like_irqenOne hcd.2 0 data cycle _

theorem like_noEvent {x y : X Pokey} (h : XLike Pokey.Like x y) : XLike Like2 (noEvent x) (noEvent y) :=
  XLike.bind h fun _ _ hab => ⟨rfl, hab⟩

theorem like_poke (cfg : Cfg) {p q : Pokey} (h : p.Like q) (addr data cycle : Int) :
    XLike Like2 (poke cfg p addr data cycle) (poke cfg q addr data cycle) := by
  unfold poke
  split
  · exact like_noEvent (like_pokeAudf cfg h 0 sound_tune1 _ _)
  · exact like_noEvent (like_setAudc cfg h 0 _ _)
  · exact like_noEvent (like_pokeAudf cfg h 1 sound_tune2 _ _)
  · exact like_noEvent (like_setAudc cfg h 1 _ _)
  · exact like_noEvent (like_pokeAudf cfg h 2 sound_tune3 _ _)
  · exact like_noEvent (like_setAudc cfg h 2 _ _)
  · exact like_noEvent (like_pokeAudf cfg h 3 sound_tune4 _ _)
  · exact like_noEvent (like_setAudc cfg h 3 _ _)
  · exact like_noEvent (like_pokeAudctl cfg h _ _)
  · exact ⟨rfl, h.map (fun p => pokeStimer p cycle) fun _ _ => rfl⟩
  · exact like_pokeIrqen h _ _
  · exact like_noEvent (like_pokeSkctl cfg h _ _)
  · exact ⟨rfl, h⟩

theorem like_checkIrqOne {p q : Pokey} (h : p.Like q) (i : Nat) (cycle next : Int) : Like2 (checkIrqOne p i cycle next) (checkIrqOne q i cycle next) := by
  obtain ⟨s, rfl⟩ := h
  unfold checkIrqOne
  show Like2 (if cycle ≥ (p.ch i).timer then _ else _) (if cycle ≥ (p.ch i).timer then _ else _)
  by_cases h : cycle ≥ (p.ch i).timer
  · rw [if_pos h, if_pos h]; exact ⟨rfl, s, rfl⟩
  · rw [if_neg h, if_neg h]; exact ⟨rfl, s, rfl⟩

theorem like_checkIrq {p q : Pokey} (h : p.Like q) (cycle next : Int) : Like2 (checkIrq p cycle next) (checkIrq q cycle next) := by
  unfold checkIrq
  dsimp only
  have h1 := like_checkIrqOne h 3 cycle next
  have h2 := like_checkIrqOne h1.2 1 cycle (checkIrqOne p 3 cycle next).1
  rw [← h1.1]
  rw [← h2.1]
  exact like_checkIrqOne h2.2 0 cycle _

end Pokey

/-! ### Both chips -/

/-- Chips that differ in their samples and in the number of samples taken. -/
structure Pair.Like (q r : Pair) : Prop where
  base : q.base.Like r.base
  extra : q.extra.Like r.extra
  rest : r = { q with base := r.base, extra := r.extra, readyStart := r.readyStart }

namespace Pair

theorem Like.refl (q : Pair) : q.Like q := ⟨.refl _, .refl _, rfl⟩

/-- Like chips, as an updated record. -/
theorem Like.eq {q r : Pair} (h : q.Like r) : ∃ b e v, q.base.Like b ∧ q.extra.Like e ∧ r = { q with base := b, extra := e, readyStart := v } :=
  ⟨_, _, _, h.base, h.extra, h.rest⟩

theorem Like.symm {q r : Pair} (h : q.Like r) : r.Like q := by
  obtain ⟨b, e, v, hb, he, rfl⟩ := h.eq
  exact ⟨hb.symm, he.symm, rfl⟩

theorem Like.trans {q r t : Pair} (h : q.Like r) (k : r.Like t) : q.Like t := by
  obtain ⟨b, e, v, hb, he, rfl⟩ := h.eq
  obtain ⟨b', e', v', hb', he', rfl⟩ := k.eq
  exact ⟨hb.trans hb', he.trans he', rfl⟩

/-- A value and the chips. -/
def Like2 {α : Type} (a b : α × Pair) : Prop := a.1 = b.1 ∧ a.2.Like b.2

theorem like_poke {q r : Pair} (h : q.Like r) (addr data cycle : Int) : XLike Like2 (q.poke addr data cycle) (r.poke addr data cycle) := by
  obtain ⟨b, e, v, hb, he, rfl⟩ := h.eq
  unfold Pair.poke
  show XLike Like2 (if band addr q.extraMask ≠ 0 then _ else _) (if band addr q.extraMask ≠ 0 then _ else _)
  refine XLike.ite (fun _ => ?_) fun _ => ?_
  · exact XLike.bind (Pokey.like_poke q.cfg he addr data cycle) fun x y hxy => ⟨hxy.1, hb, hxy.2, rfl⟩
  · exact XLike.bind (Pokey.like_poke q.cfg hb addr data cycle) fun x y hxy => ⟨hxy.1, hxy.2, he, rfl⟩

theorem like_peek {q r : Pair} (h : q.Like r) (addr cycle : Int) : r.peek addr cycle = q.peek addr cycle := by
  obtain ⟨b, e, v, ⟨s, rfl⟩, ⟨t, rfl⟩, rfl⟩ := h.eq
  unfold Pair.peek
  dsimp only
  by_cases h : band addr q.extraMask ≠ 0
  · rw [if_pos h, if_pos h]; rfl
  · rw [if_neg h, if_neg h]; rfl

theorem like_endFrame {q r : Pair} (h : q.Like r) (cycle : Int) : XLike Pair.Like (q.endFrame cycle) (r.endFrame cycle) := by
  obtain ⟨b, e, v, hb, he, rfl⟩ := h.eq
  unfold Pair.endFrame
  refine XLike.bind (Pokey.like_endFrame q.cfg hb cycle) fun x y hxy => ?_
  refine XLike.bind (R := Pokey.Like) ?_ fun u v huv => ⟨hxy, huv, rfl⟩
  show XLike Pokey.Like (if q.extraMask ≠ 0 then _ else _) (if q.extraMask ≠ 0 then _ else _)
  exact XLike.ite (fun _ => Pokey.like_endFrame q.cfg he cycle) fun _ => he

end Pair

/-! ### The machine -/

/-- Machines that differ in their samples and in the position. -/
structure Machine.Like (m n : Machine) : Prop where
  pk : m.pk.Like n.pk
  rest : n = { m with pk := n.pk, played := n.played }

namespace Machine

theorem Like.refl (m : Machine) : m.Like m := ⟨.refl _, rfl⟩

theorem Like.eq {m n : Machine} (h : m.Like n) : ∃ q v, m.pk.Like q ∧ n = { m with pk := q, played := v } := ⟨_, _, h.pk, h.rest⟩

theorem Like.symm {m n : Machine} (h : m.Like n) : n.Like m := by
  obtain ⟨q, v, hq, rfl⟩ := h.eq
  exact ⟨hq.symm, rfl⟩

theorem Like.trans {m n o : Machine} (h : m.Like n) (k : n.Like o) : m.Like o := by
  obtain ⟨q, v, hq, rfl⟩ := h.eq
  obtain ⟨r, w, hr, rfl⟩ := k.eq
  exact ⟨hq.trans hr, rfl⟩

end Machine

/-- A result and a machine. -/
def Alike {α : Type} (a b : α × Machine) : Prop := a.1 = b.1 ∧ a.2.Like b.2

/-- A program that does not listen. -/
def Deaf {α : Type} (f : C α) : Prop := ∀ m n : Machine, m.Like n → XLike Alike (f m) (f n)

namespace Deaf

variable {α β : Type}

theorem bind {f : C α} {g : α → C β} (hf : Deaf f) (hg : ∀ a, Deaf (g a)) : Deaf (f >>= g) := by
  intro m n h
  show XLike Alike (C.bind f g m) (C.bind f g n)
  unfold C.bind
  have := hf m n h
  cases hx : f m with
  | error e =>
    cases hy : f n with
    | error e' => rw [hx, hy] at this; exact this
    | ok b => rw [hx, hy] at this; exact this.elim
  | ok a =>
    cases hy : f n with
    | error e' => rw [hx, hy] at this; exact this.elim
    | ok b =>
      rw [hx, hy] at this
      obtain ⟨a, m'⟩ := a
      obtain ⟨b, n'⟩ := b
      obtain ⟨h1, h2⟩ := this
      dsimp only at h1 h2 ⊢
      subst h1
      exact hg a m' n' h2

theorem pure (a : α) : Deaf (Pure.pure a : C α) := fun _ _ h => ⟨rfl, h⟩

theorem fail (e : Hw) : Deaf (C.fail e : C α) := fun _ _ _ => rfl

theorem ite {c : Prop} [Decidable c] {f g : C α} (hf : Deaf f) (hg : Deaf g) : Deaf (if c then f else g) := by
  by_cases h : c
  · rw [if_pos h]; exact hf
  · rw [if_neg h]; exact hg

theorem when {c : Prop} [Decidable c] {f : C Unit} (hf : Deaf f) : Deaf (C.when c f) := ite hf (pure ())

theorem get {f : Machine → α} (h : ∀ m q v, m.pk.Like q → f { m with pk := q, played := v } = f m) : Deaf (C.get f) := by
  intro m n hl
  obtain ⟨q, v, hq, rfl⟩ := hl.eq
  exact ⟨(h m q v hq).symm, hl⟩

theorem reg (f : Cpu → α) : Deaf (C.reg f) := get (f := fun m => f m.cpu) fun _ _ _ _ => rfl

theorem setCpu (f : Cpu → Cpu) : Deaf (C.setCpu f) := by
  intro m n hl
  obtain ⟨q, v, hq, rfl⟩ := hl.eq
  exact ⟨rfl, hq, rfl⟩

theorem modify {f : Machine → Machine} (h : ∀ m q v, m.pk.Like q → (f m).Like (f { m with pk := q, played := v })) : Deaf (C.modify f) := by
  intro m n hl
  obtain ⟨q, v, hq, rfl⟩ := hl.eq
  exact ⟨rfl, h m q v hq⟩

/-- Changes of the machine that leave the chips alone. -/
theorem modify' {f : Machine → Machine} (h : ∀ m q v, f { m with pk := q, played := v } = { f m with pk := q, played := v }) (h' : ∀ m, (f m).pk = m.pk) : Deaf (C.modify f) :=
  modify fun m q v hq => (congrArg ((f m).Like ·) (h m q v)).mpr ⟨show (f m).pk.Like q by rw [h']; exact hq, rfl⟩

theorem chips {f : Pair → X (α × Pair)} (h : ∀ q r, q.Like r → XLike Pair.Like2 (f q) (f r)) : Deaf (C.chips f) := by
  intro m n hl
  obtain ⟨q, v, hq, rfl⟩ := hl.eq
  unfold C.chips
  dsimp only
  have := h m.pk q hq
  cases hx : f m.pk with
  | error e =>
    cases hy : f q with
    | error e' => rw [hx, hy] at this; exact this
    | ok b => rw [hx, hy] at this; exact this.elim
  | ok a =>
    cases hy : f q with
    | error e' => rw [hx, hy] at this; exact this.elim
    | ok b =>
      rw [hx, hy] at this
      exact ⟨this.1, this.2, rfl⟩

end Deaf

namespace Machine

theorem deaf_load (a : Int) : Deaf (load a) := by
  intro m n hl
  obtain ⟨q, v, hq, rfl⟩ := hl.eq
  exact XLike.ite (fun _ => ⟨rfl, hl⟩) fun _ => rfl

theorem deaf_store (a v : Int) : Deaf (store a v) := by
  intro m n hl
  obtain ⟨q, v, hq, rfl⟩ := hl.eq
  exact XLike.ite (fun _ => ⟨rfl, hq, rfl⟩) fun _ => rfl

theorem deaf_here : Deaf here := by
  intro m n hl
  obtain ⟨q, v, hq, rfl⟩ := hl.eq
  exact XLike.ite (fun _ => ⟨rfl, hl⟩) fun _ => rfl

theorem deaf_setA (v : Int) : Deaf (setA v) := Deaf.setCpu _
theorem deaf_setX (v : Int) : Deaf (setX v) := Deaf.setCpu _
theorem deaf_setY (v : Int) : Deaf (setY v) := Deaf.setCpu _
theorem deaf_setS (v : Int) : Deaf (setS v) := Deaf.setCpu _
theorem deaf_setNz (v : Int) : Deaf (setNz v) := Deaf.setCpu _
theorem deaf_setC (v : Int) : Deaf (setC v) := Deaf.setCpu _
theorem deaf_setVdi (v : Int) : Deaf (setVdi v) := Deaf.setCpu _
theorem deaf_setPc (v : Int) : Deaf (setPc v) := Deaf.setCpu _
theorem deaf_setCycle (v : Int) : Deaf (setCycle v) := Deaf.setCpu _
theorem deaf_addCycle (v : Int) : Deaf (addCycle v) := Deaf.setCpu _
theorem deaf_addPc (v : Int) : Deaf (addPc v) := Deaf.setCpu _
theorem deaf_setNzA (v : Int) : Deaf (setNzA v) := Deaf.bind (deaf_setA v) fun _ => deaf_setNz v
theorem deaf_setNzX (v : Int) : Deaf (setNzX v) := Deaf.bind (deaf_setX v) fun _ => deaf_setNz v
theorem deaf_setNzY (v : Int) : Deaf (setNzY v) := Deaf.bind (deaf_setY v) fun _ => deaf_setNz v
theorem deaf_fetch : Deaf fetch := Deaf.bind deaf_here fun _ => Deaf.bind (deaf_addPc 1) fun _ => Deaf.pure _

/-- Proves that a program composed of programs that do not listen does not listen. -/
local macro "deaf" : tactic => `(tactic| repeat' first
  | with_reducible exact deaf_load _
  | with_reducible exact deaf_store _ _
  | with_reducible exact deaf_here
  | with_reducible exact deaf_fetch
  | with_reducible exact deaf_setA _
  | with_reducible exact deaf_setX _
  | with_reducible exact deaf_setY _
  | with_reducible exact deaf_setS _
  | with_reducible exact deaf_setNz _
  | with_reducible exact deaf_setC _
  | with_reducible exact deaf_setVdi _
  | with_reducible exact deaf_setPc _
  | with_reducible exact deaf_setCycle _
  | with_reducible exact deaf_addCycle _
  | with_reducible exact deaf_addPc _
  | with_reducible exact deaf_setNzA _
  | with_reducible exact deaf_setNzX _
  | with_reducible exact deaf_setNzY _
  | with_reducible exact Deaf.pure _
  | with_reducible exact Deaf.fail _
  | with_reducible exact Deaf.reg _
  | with_reducible assumption
  | with_reducible refine Deaf.bind ?_ fun _ => ?_
  | with_reducible refine Deaf.ite ?_ ?_
  | with_reducible refine Deaf.when ?_)

theorem deaf_peekHardware (a : Int) : Deaf (peekHardware a) := by
  unfold peekHardware
  dsimp only
  refine Deaf.ite (Deaf.get fun _ _ _ _ => rfl) (Deaf.ite (Deaf.get fun _ _ _ _ => rfl) (Deaf.ite ?_ (Deaf.ite (Deaf.pure _)
    (Deaf.ite (Deaf.get fun _ _ _ _ => rfl) (Deaf.ite (Deaf.get fun _ _ _ _ => rfl) (deaf_load _))))))
  intro m n hl
  obtain ⟨q, v, hq, rfl⟩ := hl.eq
  dsimp only
  rw [Pair.like_peek hq]
  cases m.pk.peek a m.cpu.cycle with
  | error e => rfl
  | ok v => exact ⟨rfl, hl⟩

theorem deaf_tell (s : Signal) : Deaf (tell s) := Deaf.modify' (fun _ _ _ => rfl) fun _ => rfl

theorem deaf_pokePokey (a v : Int) : Deaf (pokePokey a v) :=
  Deaf.bind (Deaf.reg _) fun _ => Deaf.bind (Deaf.chips fun _ _ h => Pair.like_poke h _ _ _) fun _ =>
    Deaf.bind (deaf_tell _) fun _ => Deaf.modify' (fun _ _ _ => rfl) fun _ => rfl

theorem deaf_pokeWsync : Deaf pokeWsync := by
  unfold pokeWsync
  deaf

theorem deaf_pokeNmires : Deaf pokeNmires := Deaf.modify' (fun _ _ _ => rfl) fun _ => rfl

theorem deaf_externalBase (d : Int) : Deaf (externalBase d) := by
  refine Deaf.bind (Deaf.reg _) fun c => Deaf.bind (Deaf.chips fun q r h => ?_) fun _ => deaf_tell _
  obtain ⟨b, e, v, hb, he, rfl⟩ := h.eq
  exact XLike.bind (Pokey.like_addExternalDelta q.cfg hb _ _) fun x y hxy => ⟨rfl, hxy, he, rfl⟩

theorem deaf_externalExtra (d : Int) : Deaf (externalExtra d) := by
  refine Deaf.bind (Deaf.reg _) fun c => Deaf.bind (Deaf.chips fun q r h => ?_) fun _ => deaf_tell _
  obtain ⟨b, e, v, hb, he, rfl⟩ := h.eq
  exact XLike.bind (Pokey.like_addExternalDelta q.cfg he _ _) fun x y hxy => ⟨rfl, hb, hxy, rfl⟩

theorem deaf_externalCovox (i : Nat) (d : Int) : Deaf (externalCovox i d) := Deaf.ite (deaf_externalBase d) (deaf_externalExtra d)

theorem deaf_pokeCovox (i : Nat) (d : Int) : Deaf (pokeCovox i d) :=
  Deaf.bind (Deaf.get fun _ _ _ _ => rfl) fun _ => Deaf.when (Deaf.bind (deaf_externalCovox _ _) fun _ => Deaf.modify' (fun _ _ _ => rfl) fun _ => rfl)

theorem deaf_pokeConsol (d : Int) : Deaf (pokeConsol d) := by
  refine Deaf.bind (Deaf.get fun _ _ _ _ => rfl) fun _ => ?_
  refine Deaf.bind (Deaf.when ?_) fun _ => Deaf.modify' (fun _ _ _ => rfl) fun _ => rfl
  exact Deaf.bind (deaf_externalBase _) fun _ => Deaf.bind (deaf_externalExtra _) fun _ => Deaf.modify' (fun _ _ _ => rfl) fun _ => rfl

theorem deaf_pokeHardware (a d : Int) : Deaf (pokeHardware a d) :=
  Deaf.bind (Deaf.get fun _ _ _ _ => rfl) fun _ => Deaf.ite (deaf_pokePokey _ _) (Deaf.ite deaf_pokeWsync (Deaf.ite deaf_pokeNmires
    (Deaf.ite (deaf_pokeCovox _ _) (Deaf.ite (deaf_pokeConsol _) (deaf_store _ _)))))

theorem deaf_isIrq : Deaf isIrq := Deaf.get fun m q v h => by
  obtain ⟨b, e, v, ⟨s, rfl⟩, _, rfl⟩ := h.eq
  rfl

theorem deaf_peek (a : Int) : Deaf (peek a) := Deaf.ite (deaf_peekHardware a) (deaf_load a)
theorem deaf_poke (a d : Int) : Deaf (poke a d) := Deaf.ite (deaf_pokeHardware a d) (deaf_store a d)

theorem deaf_peekRmw (a : Int) : Deaf (peekRmw a) := by
  have h1 := deaf_peekHardware a
  have h2 := fun d => deaf_pokeHardware a d
  unfold peekRmw
  deaf
  exact h2 _

theorem deaf_pull : Deaf pull := by unfold pull; deaf
theorem deaf_pullFlags : Deaf pullFlags := by have := deaf_pull; unfold pullFlags; deaf
theorem deaf_push (d : Int) : Deaf (push d) := by unfold push; deaf
theorem deaf_pushPc : Deaf pushPc := Deaf.bind (Deaf.reg _) fun _ => Deaf.bind (deaf_push _) fun _ => deaf_push _
theorem deaf_pushFlags (b : Int) : Deaf (pushFlags b) := Deaf.bind (Deaf.reg _) fun _ => deaf_push _
theorem deaf_setAlu (r : Alu) : Deaf (setAlu r) := by unfold setAlu; deaf
theorem deaf_addWithCarry (d : Int) : Deaf (addWithCarry d) := Deaf.bind (Deaf.reg _) fun _ => deaf_setAlu _
theorem deaf_subtractWithCarry (d : Int) : Deaf (subtractWithCarry d) := Deaf.bind (Deaf.reg _) fun _ => deaf_setAlu _

theorem deaf_shiftLeft (a : Int) : Deaf (shiftLeft a) := by
  have h1 := deaf_peekRmw a
  unfold shiftLeft; deaf; exact deaf_poke _ _
theorem deaf_rotateLeft (a : Int) : Deaf (rotateLeft a) := by
  have h1 := deaf_peekRmw a
  unfold rotateLeft; deaf; exact deaf_poke _ _
theorem deaf_shiftRight (a : Int) : Deaf (shiftRight a) := by
  have h1 := deaf_peekRmw a
  unfold shiftRight; deaf; exact deaf_poke _ _
theorem deaf_rotateRight (a : Int) : Deaf (rotateRight a) := by
  have h1 := deaf_peekRmw a
  unfold rotateRight; deaf; exact deaf_poke _ _
theorem deaf_decrement (a : Int) : Deaf (decrement a) := by
  have h1 := deaf_peekRmw a
  unfold decrement; deaf; exact deaf_poke _ _
theorem deaf_increment (a : Int) : Deaf (increment a) := by
  have h1 := deaf_peekRmw a
  unfold increment; deaf; exact deaf_poke _ _

theorem deaf_executeIrq (b : Int) : Deaf (executeIrq b) := by
  have h1 := deaf_pushPc
  have h2 := deaf_pushFlags b
  unfold executeIrq; deaf

theorem deaf_checkIrq : Deaf checkIrq := by
  have h1 := deaf_isIrq
  have h2 := deaf_executeIrq 0x20
  unfold checkIrq; deaf

theorem deaf_storeHigh (a h d : Int) : Deaf (storeHigh a h d) := deaf_poke _ _

theorem deaf_shx (a d : Int) : Deaf (shx a d) :=
  Deaf.bind deaf_fetch fun _ => Deaf.bind deaf_fetch fun _ => deaf_storeHigh _ _ _

theorem deaf_zpWord (a : Int) : Deaf (zpWord a) := by unfold zpWord; deaf
theorem deaf_absIndexed (i : Int) (s : Bool) : Deaf (absIndexed i s) := by unfold absIndexed; deaf
theorem deaf_indIndexed (s : Bool) : Deaf (indIndexed s) := by unfold indIndexed; deaf

theorem deaf_address (mode : Mode) : Deaf (address mode) := by
  cases mode <;> unfold address <;> deaf
  all_goals first
    | exact deaf_zpWord _
    | exact deaf_absIndexed _ _
    | exact deaf_indIndexed _

theorem deaf_compare (r d : Int) : Deaf (compare r d) := by unfold compare; deaf
theorem deaf_jumpIndirect (a : Int) : Deaf (jumpIndirect a) := by unfold jumpIndirect; deaf

theorem deaf_operate (op : Op) (a : Int) : Deaf (operate op a) := by
  cases op <;> unfold operate <;> deaf
  all_goals first
    | with_reducible exact deaf_peek _
    | with_reducible exact deaf_poke _ _
    | with_reducible exact deaf_shiftLeft _
    | with_reducible exact deaf_shiftRight _
    | with_reducible exact deaf_rotateLeft _
    | with_reducible exact deaf_rotateRight _
    | with_reducible exact deaf_decrement _
    | with_reducible exact deaf_increment _
    | with_reducible exact deaf_addWithCarry _
    | with_reducible exact deaf_subtractWithCarry _
    | with_reducible exact deaf_compare _ _
    | with_reducible exact deaf_jumpIndirect _

theorem deaf_branch (cond : Cpu → Prop) [DecidablePred cond] : Deaf (branch cond) := by unfold branch; deaf
theorem deaf_arrDecimal (a d : Int) : Deaf (arrDecimal a d) := by unfold arrDecimal; deaf
theorem deaf_arr : Deaf arr := by
  have := deaf_arrDecimal
  unfold arr; deaf
  exact this _ _

theorem deaf_execute (i : Instr) : Deaf (execute i) := by
  have h1 := deaf_pullFlags
  have h2 := deaf_checkIrq
  have h3 := deaf_pull
  have h4 := deaf_pushPc
  cases i <;> unfold execute <;> deaf
  all_goals first
    | with_reducible exact deaf_address _
    | with_reducible exact deaf_operate _ _
    | with_reducible exact deaf_executeIrq _
    | with_reducible exact deaf_push _
    | with_reducible exact deaf_pushFlags _
    | with_reducible exact deaf_branch _
    | with_reducible exact deaf_arr
    | with_reducible exact deaf_shx _ _
    | with_reducible exact deaf_storeHigh _ _ _
    | exact Deaf.get fun _ _ _ _ => rfl

theorem deaf_instruction : Deaf instruction :=
  Deaf.bind deaf_fetch fun _ => Deaf.bind (deaf_addCycle _) fun _ => deaf_execute _

/-! ### Frames -/

theorem deaf_storeCode : ∀ (bs : List Int) (a : Int), Deaf (storeCode a bs)
  | [], _ => Deaf.pure _
  | _ :: bs, _ => Deaf.bind (deaf_store _ _) fun _ => deaf_storeCode bs _

theorem deaf_call6502 (a : Int) : Deaf (call6502 a) := Deaf.bind (deaf_storeCode _ _) fun _ => deaf_setPc _

theorem deaf_setTmc (v : Int) : Deaf (setTmc v) := Deaf.modify' (fun _ _ _ => rfl) fun _ => rfl
theorem deaf_setNextPlayer (v : Int) : Deaf (setNextPlayer v) := Deaf.modify' (fun _ _ _ => rfl) fun _ => rfl
theorem deaf_setNextScan (v : Int) : Deaf (setNextScan v) := Deaf.modify' (fun _ _ _ => rfl) fun _ => rfl
theorem deaf_setNextEvent (v : Int) : Deaf (setNextEvent v) := Deaf.modify' (fun _ _ _ => rfl) fun _ => rfl

attribute [local irreducible] storeCode in
theorem deaf_callSapD (p : Int) : Deaf (callSapD p) :=
  Deaf.when (Deaf.bind deaf_pushPc fun _ => Deaf.bind (deaf_storeCode _ _) fun _ => deaf_setPc _)

theorem deaf_callSapS : Deaf callSapS := by unfold callSapS; deaf

theorem deaf_callTmc (p : Int) : Deaf (callTmc p) := by
  refine Deaf.bind (Deaf.get fun _ _ _ _ => rfl) fun _ => Deaf.bind (deaf_setTmc _) fun _ => Deaf.ite ?_ (deaf_call6502 _)
  exact Deaf.bind (Deaf.get fun _ _ _ _ => rfl) fun _ => Deaf.bind (deaf_load _) fun _ => Deaf.bind (deaf_setTmc _) fun _ => deaf_call6502 _

theorem deaf_callPlayer : Deaf callPlayer := by
  refine Deaf.bind (Deaf.get fun _ _ _ _ => rfl) fun p => Deaf.bind (Deaf.get fun _ _ _ _ => rfl) fun t => ?_
  cases t <;> dsimp only
  all_goals first
    | with_reducible exact deaf_callSapD p
    | with_reducible exact deaf_callSapS
    | with_reducible exact deaf_callTmc p
    | with_reducible exact deaf_call6502 _

theorem deaf_handleScanline : Deaf handleScanline := by
  refine Deaf.bind (Deaf.reg _) fun _ => Deaf.bind (Deaf.get fun _ _ _ _ => rfl) fun _ => Deaf.bind (Deaf.when (deaf_addCycle _)) fun _ =>
    Deaf.bind (deaf_setNextScan _) fun _ => Deaf.bind (Deaf.reg _) fun _ => Deaf.bind (Deaf.get fun _ _ _ _ => rfl) fun _ => Deaf.when ?_
  exact Deaf.bind deaf_callPlayer fun _ => Deaf.bind (Deaf.get fun _ _ _ _ => rfl) fun _ => Deaf.bind (Deaf.get fun _ _ _ _ => rfl) fun _ =>
    deaf_setNextPlayer _

theorem deaf_checkTimers (c n : Int) : Deaf (checkTimers c n) := Deaf.chips fun q r h => by
  obtain ⟨b, e, v, hb, he, rfl⟩ := h.eq
  have h1 := Pokey.like_checkIrq hb c n
  have h2 := Pokey.like_checkIrq he c (q.base.checkIrq c n).1
  dsimp only
  rw [← h1.1]
  exact ⟨h2.1, h1.2, h2.2, rfl⟩

theorem deaf_handleEvent : Deaf handleEvent :=
  Deaf.bind (Deaf.reg _) fun _ => Deaf.bind (Deaf.get fun _ _ _ _ => rfl) fun _ => Deaf.bind (Deaf.when deaf_handleScanline) fun _ =>
    Deaf.bind (Deaf.reg _) fun _ => Deaf.bind (Deaf.get fun _ _ _ _ => rfl) fun _ => Deaf.bind (deaf_checkTimers _ _) fun _ => deaf_setNextEvent _

theorem deaf_cpuStep : Deaf cpuStep :=
  Deaf.bind (Deaf.reg _) fun _ => Deaf.bind (Deaf.get fun _ _ _ _ => rfl) fun _ =>
    Deaf.bind (Deaf.when (Deaf.bind deaf_handleEvent fun _ => deaf_checkIrq)) fun _ => deaf_instruction

theorem deaf_cpuFrame (limit : Int) : ∀ fuel, Deaf (cpuFrame limit fuel)
  | 0 => Deaf.bind (Deaf.reg _) fun _ => Deaf.when (Deaf.fail _)
  | fuel + 1 => Deaf.bind (Deaf.reg _) fun _ => Deaf.when (Deaf.bind deaf_cpuStep fun _ => deaf_cpuFrame limit fuel)

theorem deaf_beginFrame : Deaf beginFrame := Deaf.modify' (fun _ _ _ => rfl) fun _ => rfl

theorem deaf_finishFrame (c : Int) : Deaf (finishFrame c) := Deaf.modify fun m q v h => by
  obtain ⟨b, e, v, ⟨s, rfl⟩, ⟨t, rfl⟩, rfl⟩ := h.eq
  exact ⟨⟨⟨s, rfl⟩, ⟨t, rfl⟩, rfl⟩, rfl⟩

attribute [local irreducible] cpuFrame in
theorem deaf_do6502Frame : Deaf do6502Frame :=
  Deaf.bind deaf_beginFrame fun _ => Deaf.bind (Deaf.get fun _ _ _ _ => rfl) fun _ => Deaf.bind (deaf_cpuFrame _ _) fun _ =>
    Deaf.bind (deaf_finishFrame _) fun _ => Deaf.pure _

theorem deaf_endChips (c : Int) : Deaf (endChips c) := Deaf.chips fun _ _ h => XLike.bind (Pair.like_endFrame h c) fun _ _ h => ⟨rfl, h⟩

end Machine

end Asap
