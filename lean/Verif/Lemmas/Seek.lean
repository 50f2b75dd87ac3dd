import Verif.Lemmas.Deaf

/-! Seeking and playing lead to the same machine. -/

namespace Asap
open Asap.Spec

theorem startFrame_delta (p : Pokey) : XPost (· = .delta) (fun r => p.Like r) p.startFrame :=
  XPost.ite (fun _ => ⟨⟨_, p.iirAcc, p.trailing⟩, rfl⟩) fun _ => rfl

theorem pair_startFrame_delta (q : Pair) : XPost (· = .delta) (fun r => q.Like r) q.startFrame := by
  unfold Pair.startFrame
  refine XPost.bind (startFrame_delta q.base) fun b hb => ?_
  refine XPost.bind (P := fun e => q.extra.Like e) ?_ fun e he => ⟨hb, he, rfl⟩
  exact XPost.ite (fun _ => startFrame_delta q.extra) fun _ => Pokey.Like.refl _

theorem startFrame_ok {m : Machine} (h : Playing m) : ∃ q, m.pk.startFrame = .ok q ∧ m.pk.Like q := by
  have hr : 0 ≤ m.pk.rate ∧ m.pk.rate ≤ 48000 := by have := h.ready.rate; omega
  have h1 := h.ready.chips.step hr .start trivial
  have h2 := pair_startFrame_delta m.pk
  simp only [Spec.stepPair] at h1
  cases hx : m.pk.startFrame with
  | error e =>
    rw [hx] at h1 h2
    have h3 : e = .delta := h2
    have h4 : e = .dac := h1
    rw [h3] at h4
    exact Hw.noConfusion h4
  | ok q => rw [hx] at h2; exact ⟨q, rfl, h2⟩

theorem storeSample_like (p : Pokey) (i : Int) (f : SampleFormat) : XPost (· = .delta) (fun r => p.Like r.2) (p.storeSample i f) :=
  XPost.ite (fun _ => ⟨⟨p.buf, _, p.trailing⟩, rfl⟩) fun _ => rfl

theorem storeBlock_like (q : Pair) (i : Int) (f : SampleFormat) : XPost (· = .delta) (fun r => q.Like r.2) (q.storeBlock i f) := by
  unfold Pair.storeBlock
  refine XPost.bind (storeSample_like q.base i f) fun r hr => ?_
  refine XPost.ite (fun _ => ?_) fun _ => ⟨hr, Pokey.Like.refl _, rfl⟩
  exact XPost.bind (storeSample_like q.extra i f) fun t ht => ⟨hr, ht, rfl⟩

theorem storeBlocks_like (f : SampleFormat) : ∀ (n : Nat) (q : Pair) (i : Int), XPost (· = .delta) (fun r => q.Like r.2) (q.storeBlocks f n i)
  | 0, q, _ => Pair.Like.refl q
  | n + 1, q, i => by
    unfold Pair.storeBlocks
    refine XPost.bind (storeBlock_like q i f) fun r hr => ?_
    exact XPost.bind (storeBlocks_like f n r.2 (i + 1)) fun t ht => hr.trans ht

theorem used_like (q : Pair) (stop : Int) : q.Like (q.used stop) := by
  unfold Pair.used
  split
  · exact ⟨⟨⟨q.base.buf, q.base.iirAcc, stop⟩, rfl⟩, ⟨⟨q.extra.buf, q.extra.iirAcc, stop⟩, rfl⟩, rfl⟩
  · exact ⟨Pokey.Like.refl _, Pokey.Like.refl _, rfl⟩

theorem pair_generate_like (q : Pair) (blocks : Int) (f : SampleFormat) : XPost (· = .delta) (fun r => q.Like r.2.2) (q.generate blocks f) := by
  rw [pair_generate_eq]
  refine XPost.ite (fun _ => ?_) fun _ => Pair.Like.refl q
  have := storeBlocks_like f (min blocks (q.readyEnd - q.readyStart)).toNat q q.readyStart
  cases hx : q.storeBlocks f (min blocks (q.readyEnd - q.readyStart)).toNat q.readyStart with
  | error e => rw [hx] at this; exact this
  | ok r => rw [hx] at this; exact Pair.Like.trans this (used_like _ _)

theorem generateBlocks_ok {m : Machine} (h : Playing m) (blocks : Int) (f : SampleFormat) :
    ∃ r, Machine.generateBlocks blocks f m = .ok r ∧ m.Like r.2 := by
  have h1 := playing_generateBlocks h blocks f
  have h2 := pair_generate_like m.pk blocks f
  rw [generateBlocks_eq] at h1 ⊢
  cases hx : m.pk.generate blocks f with
  | error e =>
    rw [hx] at h1 h2
    have h3 : e = .delta := h2
    have h4 : CpuBad e := h1
    rw [h3] at h4
    rcases h4 with h4 | h4 <;> exact Hw.noConfusion h4
  | ok r => rw [hx] at h2; exact ⟨_, rfl, h2, rfl⟩

theorem Machine.Like.readyEnd {m n : Machine} (h : m.Like n) : n.pk.readyEnd = m.pk.readyEnd := by
  obtain ⟨q, v, hq, rfl⟩ := h.eq
  obtain ⟨b, e, w, hb, he, rfl⟩ := hq.eq
  rfl

theorem Machine.Like.silence {m n : Machine} (h : m.Like n) : n.silence = m.silence := by
  obtain ⟨q, v, hq, rfl⟩ := h.eq
  rfl

/-- A frame, whatever is heard. -/
theorem like_doFrame {m n : Machine} (hm : Playing m) (hn : Playing n) (h : m.Like n) : XLike Alike (Machine.doFrame m) (Machine.doFrame n) := by
  have h0 : Machine.Like { m with external := false } { n with external := false } := by
    obtain ⟨q, v, hq, rfl⟩ := h.eq
    exact ⟨hq, rfl⟩
  obtain ⟨q, hq, hlq⟩ := startFrame_ok hm
  obtain ⟨r, hr, hlr⟩ := startFrame_ok hn
  have e1 : Machine.startChips { m with external := false } = .ok ((), { m with external := false, pk := q }) := by
    show C.chips _ _ = _
    unfold C.chips
    dsimp only
    rw [hq]; rfl
  have e2 : Machine.startChips { n with external := false } = .ok ((), { n with external := false, pk := r }) := by
    show C.chips _ _ = _
    unfold C.chips
    dsimp only
    rw [hr]; rfl
  have a1 : Machine.Like { m with external := false } { m with external := false, pk := q } := ⟨hlq, rfl⟩
  have a2 : Machine.Like { n with external := false } { n with external := false, pk := r } := ⟨hlr, rfl⟩
  have h1 := (a1.symm.trans h0).trans a2
  have key : Deaf (do
      let cycles ← Machine.do6502Frame
      Machine.endChips cycles
      pure cycles : C Int) := Deaf.bind Machine.deaf_do6502Frame fun _ => Deaf.bind (Machine.deaf_endChips _) fun _ => Deaf.pure _
  have g1 : Machine.doFrame m = (do
      let cycles ← Machine.do6502Frame
      Machine.endChips cycles
      pure cycles : C Int) { m with external := false, pk := q } := by
    show C.bind Machine.startChips _ { m with external := false } = _
    unfold C.bind
    rw [e1]
  have g2 : Machine.doFrame n = (do
      let cycles ← Machine.do6502Frame
      Machine.endChips cycles
      pure cycles : C Int) { n with external := false, pk := r } := by
    show C.bind Machine.startChips _ { n with external := false } = _
    unfold C.bind
    rw [e2]
  rw [g1, g2]
  exact key _ _ h1

theorem listened_off {m : Machine} (h : m.silence ≤ 0) (cycles : Int) : m.listened cycles = m ∧ m.goesOn cycles = true := by
  unfold Machine.listened Machine.goesOn
  rw [if_neg (by omega), decide_eq_false (by omega)]
  exact ⟨rfl, rfl⟩

theorem seekFrames_eq (block : Int) (fuel : Nat) (n : Machine) : Machine.seekFrames block (fuel + 1) n =
    if n.played + n.pk.readyEnd < block then
      match Machine.doFrame { n with played := n.played + n.pk.readyEnd } with
      | .ok r => Machine.seekFrames block fuel r.2
      | .error e => .error e
    else .ok ((), n) := by
  have e : Machine.seekFrames block (fuel + 1) n =
      (if n.played + n.pk.readyEnd < block then (do
        Machine.setPlayed (n.played + n.pk.readyEnd)
        let _ ← Machine.doFrame
        Machine.seekFrames block fuel) else pure () : C Unit) n := rfl
  rw [e]
  by_cases hc : n.played + n.pk.readyEnd < block
  · rw [if_pos hc, if_pos hc]
    show C.bind Machine.doFrame _ { n with played := n.played + n.pk.readyEnd } = _
    unfold C.bind
    cases Machine.doFrame { n with played := n.played + n.pk.readyEnd } <;> rfl
  · rw [if_neg hc, if_neg hc]
    rfl

/-- Skipping samples is like taking them. -/
theorem seek_like_generate (f : SampleFormat) (block : Int) : ∀ (fuel fuel2 : Nat) {m n : Machine}, Playing m → Playing n → m.Like n →
    m.silence ≤ 0 → n.played + m.pk.readyStart = m.played → m.played ≤ block →
    ((1 ≤ n.pk.readyEnd ∧ block - n.played ≤ fuel + 1) ∨ block - n.played ≤ fuel) →
    Enough m (block - m.played) fuel2 →
    XLike (fun a b => a.2.Like b.2 ∧ a.2.played = block ∧ b.2.played + a.2.pk.readyStart = block)
      (Machine.generateLoop f fuel2 (block - m.played) m) (Machine.seekFrames block (fuel + 1) n) := by
  intro fuel
  induction fuel with
  | zero =>
    intro fuel2 m n hm hn h hs hp hb hf hf2
    have he := h.readyEnd
    have hw := hm.ready.window
    have hst := hm.ready.start
    obtain ⟨g, rfl⟩ : ∃ g, fuel2 = g + 1 := ⟨fuel2 - 1, by rcases hf2 with h | h <;> omega⟩
    rw [seekFrames_eq, if_neg (by omega), generateLoop_eq]
    obtain ⟨r, hr, hl⟩ := generateBlocks_ok hm (block - m.played) f
    obtain ⟨_, _, hc, _, _, hr5⟩ := generateBlocks_same hm hr
    have hpl : r.2.played = m.played + r.1.2 := by
      have := playing_generateBlocks hm (block - m.played) f
      rw [hr] at this
      exact congrArg (·.played) this.2.2
    rw [hr]
    dsimp only
    unfold Machine.afterBlocks
    rw [if_pos (by omega)]
    exact ⟨hl.symm.trans h, by show r.2.played = block; omega, by show n.played + r.2.pk.readyStart = block; omega⟩
  | succ fuel ih =>
    intro fuel2 m n hm hn h hs hp hb hf hf2
    have he := h.readyEnd
    have hw := hm.ready.window
    have hst := hm.ready.start
    obtain ⟨g, rfl⟩ : ∃ g, fuel2 = g + 1 := ⟨fuel2 - 1, by rcases hf2 with h | h <;> omega⟩
    rw [seekFrames_eq, generateLoop_eq]
    obtain ⟨r, hr, hl⟩ := generateBlocks_ok hm (block - m.played) f
    obtain ⟨hr1, hr2, hc, hmr, hr4, hr5⟩ := generateBlocks_same hm hr
    have hpl : r.2.played = m.played + r.1.2 := by
      have := playing_generateBlocks hm (block - m.played) f
      rw [hr] at this
      exact congrArg (·.played) this.2.2
    rw [hr]
    dsimp only
    unfold Machine.afterBlocks
    by_cases hc : n.played + n.pk.readyEnd < block
    · rw [if_pos hc, if_neg (by omega)]
      have hn1 : Playing { n with played := n.played + n.pk.readyEnd } :=
        ⟨⟨hn.ready.cpu, hn.ready.time, hn.ready.chips, hn.ready.consol, hn.ready.covox, hn.ready.rate, hn.ready.tmc, hn.ready.window⟩,
          hn.rate, hn.songs⟩
      have hln : n.Like { n with played := n.played + n.pk.readyEnd } := ⟨Pair.Like.refl _, rfl⟩
      have hd := like_doFrame hmr hn1 ((hl.symm.trans h).trans hln)
      have d1 := playing_doFrame hmr
      have d2 := playing_doFrame hn1
      cases hx : Machine.doFrame r.2 with
      | error e =>
        cases hy : Machine.doFrame { n with played := n.played + n.pk.readyEnd } with
        | error e' => rw [hx, hy] at hd; exact hd
        | ok b => rw [hx, hy] at hd; exact hd.elim
      | ok a =>
        cases hy : Machine.doFrame { n with played := n.played + n.pk.readyEnd } with
        | error e' => rw [hx, hy] at hd; exact hd.elim
        | ok b =>
          rw [hx, hy] at hd
          rw [hx] at d1
          rw [hy] at d2
          obtain ⟨cyc, m3⟩ := a
          obtain ⟨cyc', n3⟩ := b
          obtain ⟨_, hm3, hk3, _, hs2, hs3⟩ := d1
          obtain ⟨_, hn3, hk4, _, hs4, hs5⟩ := d2
          have hlike : m3.Like n3 := hd.2
          dsimp only at hm3 hk3 hs2 hs3 hn3 hk4 hs4 hs5 ⊢
          have hsil : m3.silence ≤ 0 := by rw [hk3.silence, hr1]; exact hs
          unfold Machine.afterFrame
          rw [if_pos (listened_off hsil cyc).2, (listened_off hsil cyc).1]
          have p1 : m3.played = r.2.played := hk3.played
          have p2 : n3.played = n.played + n.pk.readyEnd := hk4.played
          have hrec := ih g hm3 hn3 hlike hsil (by omega) (by omega) (Or.inl ⟨hs5, by omega⟩)
            (Or.inl ⟨hs3, hs2, by rcases hf2 with h | h <;> omega, by rcases hf2 with h | h <;> omega⟩)
          rw [show block - m.played - r.1.2 = block - m3.played by omega]
          cases hz : Machine.generateLoop f g (block - m3.played) m3 with
          | error e =>
            rw [hz] at hrec
            exact hrec
          | ok t =>
            rw [hz] at hrec
            cases hw : Machine.seekFrames block (fuel + 1) n3 with
            | error e => rw [hw] at hrec; exact hrec
            | ok u => rw [hw] at hrec; exact hrec
    · rw [if_neg hc, if_pos (by omega)]
      exact ⟨hl.symm.trans h, by show r.2.played = block; omega, by show n.played + r.2.pk.readyStart = block; omega⟩

theorem Machine.Like.same {m n : Machine} (h : m.Like n) (hs : n.pk.readyStart = m.pk.readyStart) (hp : n.played = m.played) :
    SameExceptSound m n := by
  obtain ⟨q, v, hq, rfl⟩ := h.eq
  obtain ⟨b, e, w, ⟨s, hb⟩, ⟨t, he⟩, rfl⟩ := hq.eq
  have hs' : w = m.pk.readyStart := hs
  have hp' : v = m.played := hp
  subst hs' hp' hb he
  rfl

theorem seekSample_eq {m : Machine} {n : Int} (h : m.played ≤ n) : Machine.seekSample n m =
    match Machine.seekFrames n ((n - m.played).toNat + 1) m with
    | .ok r => .ok ((), { r.2 with pk := { r.2.pk with readyStart := n - r.2.played }, played := n })
    | .error e => .error e := by
  have e : Machine.rewind n m = .ok ((), m) := by
    have : Machine.rewind n m = (if n < m.played then Machine.playSong m.song m.duration else pure () : C Unit) m := rfl
    rw [this, if_neg (by omega)]
    rfl
  show C.bind (Machine.rewind n) _ m = _
  unfold C.bind
  rw [e]
  show C.bind (Machine.seekFrames n ((n - m.played).toNat + 1)) _ m = _
  unfold C.bind
  cases Machine.seekFrames n ((n - m.played).toNat + 1) m <;> rfl

attribute [local irreducible] Machine.playSong in
theorem seekSample_back {m : Machine} {n : Int} (h : n < m.played) : Machine.seekSample n m =
    match Machine.playSong m.song m.duration m with
    | .ok r => (do
        let played ← C.get (·.played)
        Machine.seekFrames n ((n - played).toNat + 1)
        Machine.seekTo n : C Unit) r.2
    | .error e => .error e := by
  have e : Machine.rewind n m = Machine.playSong m.song m.duration m := by
    have : Machine.rewind n m = (if n < m.played then Machine.playSong m.song m.duration else pure () : C Unit) m := rfl
    rw [this, if_pos h]
  show C.bind (Machine.rewind n) _ m = _
  unfold C.bind
  rw [e]
  cases Machine.playSong m.song m.duration m <;> rfl

/-- From the beginning of a frame, seeking is like playing. -/
theorem seekSample_like {m : Machine} (h : Playing m) (hc : m.info.channels = 1 ∨ m.info.channels = 2) (f : SampleFormat)
    (hs : m.silence ≤ 0) (hr : m.pk.readyStart = 0) {n : Int} (hn : m.played ≤ n)
    (hd : m.duration ≤ 0 ∨ n ≤ Machine.millisecondsToBlocks m.rate m.duration) :
    SameEffect SameExceptSound (Machine.generate ((n - m.played) * blockSize m f) f m) (Machine.seekSample n m) := by
  have hw : m.wanted (n - m.played) = n - m.played := by
    unfold Machine.wanted
    dsimp only
    split
    · rw [if_neg (by omega)]
    · rfl
  rw [generate_eq' m _ f hc, if_neg (by unfold Machine.Stopped; omega), hw, seekSample_eq hn]
  have key := seek_like_generate f n (n - m.played).toNat ((n - m.played).toNat + 3) h h (Machine.Like.refl m) hs (by omega) hn
    (by right; omega)
    (by right; omega)
  cases hx : Machine.generateLoop f ((n - m.played).toNat + 3) (n - m.played) m with
  | error e =>
    rw [hx] at key
    cases hy : Machine.seekFrames n ((n - m.played).toNat + 1) m with
    | error e' => rw [hy] at key; exact key
    | ok b => rw [hy] at key; exact key.elim
  | ok a =>
    rw [hx] at key
    cases hy : Machine.seekFrames n ((n - m.played).toNat + 1) m with
    | error e' => rw [hy] at key; exact key.elim
    | ok b =>
      rw [hy] at key
      obtain ⟨k1, k2, k3⟩ := key
      have k4 : b.2.Like { b.2 with pk := { b.2.pk with readyStart := n - b.2.played }, played := n } :=
        ⟨⟨Pokey.Like.refl _, Pokey.Like.refl _, rfl⟩, rfl⟩
      exact (k1.trans k4).same (show n - b.2.played = a.2.pk.readyStart by omega) (show n = a.2.played by omega)

end Asap
