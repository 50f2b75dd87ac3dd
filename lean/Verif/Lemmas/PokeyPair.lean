import Verif.Lemmas.PokeyBox
import Verif.Spec.PokeyPair

/-! No history of a pair of chips goes wrong. -/

namespace Asap.Pokey
open Asap.Spec

/-- A chip between events; `k` says whether muting is used carefully. -/
structure Fine (k : Bool) (m len : Int) (p : Pokey) : Prop where
  regs : ∃ a f, Regs a f p ∧ Bytes a f
  both : k = true → Both m p
  box : Box len p

/-- The only thing that can go wrong. -/
def Bad (k : Bool) (e : Hw) : Prop := k = false ∧ e = .dac

variable {cfg : Cfg} {len t m : Int} {p : Pokey} {k : Bool}

/-- An event is harmless for a chip whose user-muted channels are `m`. -/
def Harmless (m : Int) : ChipEvent → Prop
  | .write addr _ _ => ∀ i, i < 4 → isAudc addr i → ¬ bit m i
  | _ => True

theorem step_fine (hr : Room cfg len t) (h : Fine k m len p) (ht : t ≤ 200000) (e : ChipEvent) (h1 : e.Byte)
    (h2 : Spec.ChipEvent.InRange len t e) (h3 : k = true → Harmless m e) :
    XPost (Bad k) (Fine k (newMask m e) len) (step cfg p e) := by
  obtain ⟨a, f, hg, hb⟩ := h.regs
  have k1 := step_regs (cfg := cfg) hg hb e h1
  have hc : k = true → Careful m (e :: []) := by intro hk; cases e <;> first | trivial | exact ⟨h3 hk, trivial⟩
  have k2 := fun hk => step_both (cfg := cfg) (hg.pos hb) (h.both hk) e (hc hk)
  have k3 := step_box hr (hg.pos hb) h.box e h1 h2 ht
  cases hs : step cfg p e with
  | error x =>
    rw [hs] at k2 k3
    have : x = .dac := k3
    subst this
    cases k
    · exact ⟨rfl, rfl⟩
    · rcases k2 rfl with k | k <;> cases k
  | ok q =>
    rw [hs] at k1 k2 k3
    exact ⟨⟨_, _, k1, ⟨lastWrite_byte hb.1 e h1, fun i hi => lastWrite_byte (hb.2 i hi) e h1⟩⟩, k2, k3⟩

theorem Fine.trailing (h : Fine k m len p) {s : Int} (hs : 0 ≤ s ∧ s ≤ len) : Fine k m len { p with trailing := s } := by
  obtain ⟨a, f, hg, hb⟩ := h.regs
  exact ⟨⟨a, f, ⟨hg.audctl, hg.audf, hg.div, hg.period, hg.reload1, hg.reload3⟩, hb⟩,
    fun hk => (h.both hk).of rfl fun _ => ⟨rfl, rfl, rfl⟩, ⟨⟨h.box.inside.buf, h.box.inside.poly, hs, h.box.inside.irq⟩, h.box.tick⟩⟩

theorem initChip_fine (p : Pokey) {rate : Int} (h : 0 ≤ rate) : Fine k 0 (bufSize rate) (p.initChip rate) :=
  ⟨⟨0, fun _ => 0, initChip_regs p rate, ⟨by decide, fun _ _ => ⟨Int.le_refl 0, show (0 : Int) < 256 by decide⟩⟩⟩,
    fun _ => initChip_both p rate, initChip_box p rate h⟩

end Asap.Pokey

namespace Asap.Pair
open Asap.Spec Asap.Pokey

/-- The latest time anything can happen in a frame. -/
abbrev latest : Int := 312 * 114 + 34

/-- A pair between events. -/
structure Good (k : Bool) (rate : Int) (ntsc stereo : Bool) (m m' : Int) (q : Pair) : Prop where
  base : Fine k m (bufSize rate) q.base
  extra : Fine k m' (bufSize rate) q.extra
  mask : q.extraMask = if stereo then 0x10 else 0
  factor : q.factor = if ntsc then Pair.sampleFactor rate 1789772 else Pair.sampleFactor rate 1773447
  offset : 0 ≤ q.offset ∧ q.offset < 262144
  start : 0 ≤ q.readyStart
  stop : q.readyEnd ≤ bufSize rate

variable {k : Bool} {rate : Int} {ntsc stereo : Bool} {m m' : Int} {q : Pair}

theorem Good.room (h : Good k rate ntsc stereo m m' q) (hr : 0 ≤ rate ∧ rate ≤ 48000) : Room q.cfg (bufSize rate) latest := by
  have := Pokey.room hr ntsc h.offset q.sinc
  rw [← h.factor] at this
  exact this

theorem Good.chips (h : Good k rate ntsc stereo m m' q) {b e : Pokey} {n n' : Int} (hb : Fine k n (bufSize rate) b)
    (he : Fine k n' (bufSize rate) e) : Good k rate ntsc stereo n n' { q with base := b, extra := e } :=
  ⟨hb, he, h.mask, h.factor, h.offset, h.start, h.stop⟩

/-- Mask of a chip after a write or a mute. -/
def maskAfter (toRight : Bool) (m : Int) : PairEvent → Int
  | .mute k => if toRight then k / 16 else k
  | _ => m

theorem careful_seen {stereo r : Bool} {m : Int} {e : PairEvent} {es : List PairEvent}
    (h : Careful m ((e :: es).flatMap (PairEvent.seenBy stereo r))) :
    Careful (maskAfter r m e) (es.flatMap (PairEvent.seenBy stereo r)) := by
  rw [List.flatMap_cons] at h
  cases e <;> try exact h
  simp only [PairEvent.seenBy] at h
  split at h
  · exact h.2
  · exact h

theorem extra_bit (h : Good k rate ntsc stereo m m' q) (addr : Int) :
    (stereo && right addr) = true ↔ band addr q.extraMask ≠ 0 := by
  rw [h.mask]
  have hb := band_pow_iff addr 4
  unfold bit at hb
  cases stereo
  · have := band_range_right addr (b := 0) (by omega)
    have : band addr 0 = 0 := by omega
    simp [this]
  · simp only [Bool.true_and, if_true]
    unfold right
    rw [decide_eq_true_iff]
    exact hb.symm

theorem offset_range (o : Int) : 0 ≤ band o ((1 <<< 18) - 1) ∧ band o ((1 <<< 18) - 1) < 262144 := by
  have := band_range_right o (b := (1 <<< 18) - 1) (by decide)
  have e : (((1 <<< 18 : Nat) : Int)) - 1 = 262143 := by decide
  constructor
  · exact this.1
  · exact Int.lt_of_le_of_lt this.2 (by decide)

theorem Good.storeBlock (h : Good k rate ntsc stereo m m' q) (hr : 0 ≤ rate ∧ rate ≤ 48000) {i : Int} (hi : 0 ≤ i ∧ i < bufSize rate)
    (f : SampleFormat) :
    XPost (Bad k) (fun r => Good k rate ntsc stereo m m' r.2 ∧ r.2.readyEnd = q.readyEnd) (q.storeBlock i f) := by
  have hrm := h.room hr
  have one : ∀ {n p}, Fine k n (bufSize rate) p → XPost (Bad k) (fun r => Fine k n (bufSize rate) r.2) (p.storeSample i f) := by
    intro n p hp
    have := step_fine hrm hp (by decide) (.sample i f) trivial hi fun _ => trivial
    simp only [step] at this
    cases hs : p.storeSample i f with
    | error e => rw [hs] at this; exact this
    | ok r => rw [hs] at this; exact this
  unfold Pair.storeBlock
  refine XPost.bind (one h.base) fun r hb => ?_
  refine XPost.ite (fun _ => XPost.bind (one h.extra) fun t he => ?_) fun _ => ?_
  · exact ⟨h.chips hb he, rfl⟩
  · exact ⟨h.chips hb h.extra, rfl⟩

theorem Good.storeBlocks (hr : 0 ≤ rate ∧ rate ≤ 48000) (f : SampleFormat) : ∀ (n : Nat) (q : Pair) (i : Int),
    Good k rate ntsc stereo m m' q → 0 ≤ i → i + n ≤ bufSize rate →
    XPost (Bad k) (fun r => Good k rate ntsc stereo m m' r.2 ∧ r.2.readyEnd = q.readyEnd) (q.storeBlocks f n i)
  | 0, q, i, h, _, _ => ⟨h, rfl⟩
  | n + 1, q, i, h, h0, h1 => by
    unfold Pair.storeBlocks
    refine XPost.bind (h.storeBlock hr (i := i) ⟨h0, by omega⟩ f) ?_
    rintro r ⟨hg, he⟩
    refine XPost.bind (Good.storeBlocks hr f n r.2 (i + 1) hg (by omega) (by omega)) ?_
    rintro r2 ⟨hg2, he2⟩
    exact ⟨hg2, he2.trans he⟩

theorem Good.generate (h : Good k rate ntsc stereo m m' q) (hr : 0 ≤ rate ∧ rate ≤ 48000) (blocks : Int) (f : SampleFormat) :
    XPost (Bad k) (fun r => Good k rate ntsc stereo m m' r.2.2) (q.generate blocks f) := by
  unfold Pair.generate
  dsimp only
  generalize hn : (if blocks < q.readyEnd - q.readyStart then blocks else q.readyEnd - q.readyStart) = n
  have hle : n ≤ q.readyEnd - q.readyStart := by rw [← hn]; split <;> omega
  have h0 := h.start
  have h1 := h.stop
  refine XPost.ite (fun hp => ?_) fun _ => h
  refine XPost.bind (Good.storeBlocks hr f n.toNat q q.readyStart h h0 (by omega)) ?_
  rintro r ⟨hg, he⟩
  by_cases hx : q.readyStart + n = q.readyEnd
  · rw [if_pos hx]
    have hs : 0 ≤ q.readyStart + n ∧ q.readyStart + n ≤ bufSize rate := by omega
    exact ⟨hg.base.trailing hs, hg.extra.trailing hs, hg.mask, hg.factor, hg.offset, hs.1, hg.stop⟩
  · rw [if_neg hx]
    exact ⟨hg.base, hg.extra, hg.mask, hg.factor, hg.offset, show 0 ≤ q.readyStart + n by omega, hg.stop⟩

theorem Good.peek (h : Good k rate ntsc stereo m m' q) (addr : Int) {c : Int} (hc : 0 ≤ c) : ∃ v, q.peek addr c = .ok v := by
  have hb := h.base.box.inside.poly
  have he := h.extra.box.inside.poly
  unfold Pair.peek
  dsimp only
  have hp : ∀ r : Pokey, r = (if band addr q.extraMask ≠ 0 then q.extra else q.base) → 3 ≤ r.polyIndex := by
    rintro r rfl; split <;> assumption
  generalize (if band addr q.extraMask ≠ 0 then q.extra else q.base) = r at *
  have := hp _ rfl
  split
  · split
    · exact ⟨_, rfl⟩
    · rw [if_neg (by omega)]
      split <;> exact ⟨_, rfl⟩
  · split <;> exact ⟨_, rfl⟩

theorem stepPair_good (h : Good k rate ntsc stereo m m' q) (hr : 0 ≤ rate ∧ rate ≤ 48000) (e : PairEvent) (hw : e.Within latest)
    {es es' : List PairEvent} (hc : k = true → Careful m ((e :: es).flatMap (PairEvent.seenBy stereo false)))
    (hc' : k = true → Careful m' ((e :: es').flatMap (PairEvent.seenBy stereo true))) :
    XPost (Bad k) (Good k rate ntsc stereo (maskAfter false m e) (maskAfter true m' e)) (stepPair q e) := by
  have hrm := h.room hr
  have hl : latest ≤ 200000 := by decide
  cases e with
  | write addr data c =>
    simp only [stepPair]
    unfold Pair.poke
    simp only [List.flatMap_cons, PairEvent.seenBy] at hc hc'
    have one : ∀ {n p}, Fine k n (bufSize rate) p → (k = true → Harmless n (.write addr data c)) →
        XPost (Bad k) (fun r => Fine k n (bufSize rate) r.2) (p.poke q.cfg addr data c) := by
      intro n p hp hh
      have := step_fine hrm hp hl (.write addr data c) hw.1 hw.2 hh
      simp only [step] at this
      cases hs : p.poke q.cfg addr data c with
      | error e => rw [hs] at this; exact this
      | ok r => rw [hs] at this; exact this
    by_cases hx : (stereo && right addr) = true
    · rw [if_pos ((extra_bit h addr).1 hx)]
      rw [if_pos hx] at hc'
      refine XPost.map (XPost.bind (one h.extra fun hk => (hc' hk).1) fun r he => ?_)
      exact h.chips h.base he
    · rw [if_neg (fun y => hx ((extra_bit h addr).2 y))]
      have hx' : (stereo && right addr) = false := by simpa using hx
      rw [if_pos hx'] at hc
      refine XPost.map (XPost.bind (one h.base fun hk => (hc hk).1) fun r he => ?_)
      exact h.chips he h.extra
  | read addr c =>
    obtain ⟨v, hv⟩ := h.peek addr hw.1
    simp only [stepPair]; rw [hv]; exact h
  | start =>
    have hb := step_fine hrm h.base hl .start trivial trivial fun _ => trivial
    have he := step_fine hrm h.extra hl .start trivial trivial fun _ => trivial
    simp only [stepPair]
    unfold Pair.startFrame Pair.startExtra
    refine XPost.bind hb fun b hb => XPost.bind (P := Fine k m' (bufSize rate)) ?_ fun e he => h.chips hb he
    exact XPost.ite (fun _ => he) fun _ => h.extra
  | finish c =>
    have hb := step_fine hrm h.base hl (.finish c) trivial hw fun _ => trivial
    have he := step_fine hrm h.extra hl (.finish c) trivial hw fun _ => trivial
    have hroom := hrm c hw.1 hw.2
    have hend : shr (q.offset + c * q.factor) 18 ≤ bufSize rate := by
      rw [Int.add_comm]
      have : shr (c * q.factor + q.offset) 18 + 31 < bufSize rate := hroom.2
      omega
    simp only [stepPair]
    unfold Pair.endFrame Pair.endExtra
    refine XPost.bind hb fun b hb => XPost.bind (P := Fine k m' (bufSize rate)) ?_ fun e he =>
      ⟨hb, he, h.mask, h.factor, offset_range _, Int.le_refl 0, hend⟩
    exact XPost.ite (fun _ => he) fun _ => h.extra
  | external r c d =>
    cases r
    · have hb := step_fine hrm h.base hl (.external c d) trivial hw fun _ => trivial
      exact XPost.map (hb.mono (fun _ x => x) fun b hf => h.chips hf h.extra)
    · have hb := step_fine hrm h.extra hl (.external c d) trivial hw fun _ => trivial
      exact XPost.map (hb.mono (fun _ x => x) fun b hf => h.chips h.base hf)
  | irq c n n' =>
    have hb := step_fine hrm h.base hl (.irq c n) trivial trivial fun _ => trivial
    have he := step_fine hrm h.extra hl (.irq c n') trivial trivial fun _ => trivial
    exact h.chips hb he
  | timers c =>
    have hb := step_fine hrm h.base hl (.timers c) trivial trivial fun _ => trivial
    have he := step_fine hrm h.extra hl (.timers c) trivial trivial fun _ => trivial
    exact h.chips hb he
  | mute n =>
    have hb := step_fine hrm h.base hl (.mute n) trivial trivial fun _ => trivial
    have he := step_fine hrm h.extra hl (.mute (n / 16)) trivial trivial fun _ => trivial
    exact h.chips hb he
  | generate n f => exact XPost.map (h.generate hr n f)

theorem runPair_good (hr : 0 ≤ rate ∧ rate ≤ 48000) : ∀ (es : List PairEvent) {m m' : Int} {q : Pair},
    Good k rate ntsc stereo m m' q → (∀ e ∈ es, e.Within latest) →
    (k = true → Careful m (es.flatMap (PairEvent.seenBy stereo false))) →
    (k = true → Careful m' (es.flatMap (PairEvent.seenBy stereo true))) →
    XPost (Bad k) (fun r => ∃ m m', Good k rate ntsc stereo m m' r) (runPair q es)
  | [], m, m', q, h, _, _, _ => ⟨m, m', h⟩
  | e :: es, m, m', q, h, hw, hc, hc' => by
    unfold runPair
    refine XPost.bind (stepPair_good h hr e (hw e (by simp)) hc hc') fun r hg => ?_
    exact runPair_good hr es hg (fun x hx => hw x (by simp [hx])) (fun hk => careful_seen (hc hk)) fun hk => careful_seen (hc' hk)

theorem initPair_good (q : Pair) (ntsc stereo : Bool) {rate : Int} (h : 0 ≤ rate) :
    Good k rate ntsc stereo 0 0 (q.initPair ntsc stereo rate) :=
  ⟨initChip_fine _ h, initChip_fine _ h, rfl, rfl, ⟨Int.le_refl 0, show (0 : Int) < 262144 by decide⟩, Int.le_refl 0, by
    show (0 : Int) ≤ bufSize rate
    have := (initChip_fine (k := true) q.base h).box.inside.trail
    omega⟩

end Asap.Pair
