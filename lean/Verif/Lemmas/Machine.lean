import Verif.Model.Asap
import Verif.Lemmas.PokeyPair

/-! Hoare triples for programs of the emulated machine, and the invariant of the machine. -/

namespace Asap

/-- From `P`, the program ends in `Q` or with a fault in `E`. -/
def Tri {α : Type} (E : Hw → Prop) (P : Machine → Prop) (f : C α) (Q : α → Machine → Prop) : Prop :=
  ∀ m, P m → XPost E (fun r => Q r.1 r.2) (f m)

section
variable {α β : Type} {E F : Hw → Prop} {P P' : Machine → Prop} {f : C α} {g : α → C β} {Q : α → Machine → Prop}
  {R : β → Machine → Prop}

theorem Tri.bind (h : Tri E P f Q) (k : ∀ a, Tri E (Q a) (g a) R) : Tri E P (f >>= g) R := by
  intro m hm
  have := h m hm
  show XPost E _ (C.bind f g m)
  unfold C.bind
  cases hf : f m with
  | error e => rw [hf] at this; exact this
  | ok r => rw [hf] at this; obtain ⟨a, m'⟩ := r; exact k a m' this

theorem Tri.pure {a : α} (h : ∀ m, P m → Q a m) : Tri E P (Pure.pure a : C α) Q := fun m hm => h m hm

theorem Tri.mono {Q' : α → Machine → Prop} (h : Tri E P f Q) (hE : ∀ e, E e → F e) (hP : ∀ m, P' m → P m)
    (hQ : ∀ a m, Q a m → Q' a m) : Tri F P' f Q' :=
  fun m hm => (h m (hP m hm)).mono hE fun r => hQ r.1 r.2

theorem Tri.pre (h : Tri E P f Q) (hP : ∀ m, P' m → P m) : Tri E P' f Q := fun m hm => h m (hP m hm)

theorem Tri.post {Q' : α → Machine → Prop} (h : Tri E P f Q) (hQ : ∀ a m, Q a m → Q' a m) : Tri E P f Q' :=
  h.mono (fun _ x => x) (fun _ x => x) hQ

theorem Tri.ite {c : Prop} [Decidable c] {f g : C α} (h1 : c → Tri E P f Q) (h2 : ¬ c → Tri E P g Q) :
    Tri E P (if c then f else g) Q := by
  split
  · exact h1 ‹_›
  · exact h2 ‹_›

theorem Tri.when {c : Prop} [Decidable c] {f : C Unit} {Q : Machine → Prop} (h1 : c → Tri E P f fun _ => Q)
    (h2 : ¬ c → ∀ m, P m → Q m) : Tri E P (C.when c f) fun _ => Q :=
  Tri.ite h1 fun hc => Tri.pure (h2 hc)

/-- A fact that does not depend on the machine can be used as a hypothesis. -/
theorem Tri.fact {p : Prop} (h : p → Tri E P f Q) : Tri E (fun m => p ∧ P m) f Q := fun m hm => h hm.1 m hm.2

theorem Tri.fact' {p : Prop} (h : p → Tri E P f Q) : Tri E (fun m => P m ∧ p) f Q := fun m hm => h hm.2 m hm.1

theorem Tri.get {α : Type} {f : Machine → α} {Q : α → Machine → Prop} (h : ∀ m, P m → Q (f m) m) : Tri E P (C.get f) Q :=
  fun m hm => h m hm

theorem Tri.reg {α : Type} {f : Cpu → α} {Q : α → Machine → Prop} (h : ∀ m, P m → Q (f m.cpu) m) : Tri E P (C.reg f) Q :=
  fun m hm => h m hm

theorem Tri.modify {f : Machine → Machine} {Q : Machine → Prop} (h : ∀ m, P m → Q (f m)) :
    Tri E P (C.modify f) fun _ => Q := fun m hm => h m hm

theorem Tri.setCpu {f : Cpu → Cpu} {Q : Machine → Prop} (h : ∀ m, P m → Q { m with cpu := f m.cpu }) :
    Tri E P (C.setCpu f) fun _ => Q := fun m hm => h m hm

theorem Tri.chips {f : Pair → X (α × Pair)} (h : ∀ m, P m → XPost E (fun r => Q r.1 { m with pk := r.2 }) (f m.pk)) :
    Tri E P (C.chips f) Q := by
  intro m hm
  have := h m hm
  unfold C.chips
  cases hf : f m.pk with
  | error e => rw [hf] at this; exact this
  | ok r => rw [hf] at this; obtain ⟨a, q⟩ := r; exact this
end

/-! ### The sound chips -/

namespace Pokey
open Asap.Spec

theorem nextTimer_time : ∀ (fuel : Nat) (period cycle t : Int), XPost (fun _ => True) (fun r => cycle ≤ r) (nextTimer period cycle fuel t)
  | 0, period, cycle, t => by
    unfold nextTimer
    exact XPost.ite (fun _ => trivial) fun h => show cycle ≤ t by omega
  | fuel + 1, period, cycle, t => by
    unfold nextTimer
    exact XPost.ite (fun _ => nextTimer_time fuel _ _ _) fun h => show cycle ≤ t by omega

theorem irqenOne_time (p : Pokey) (i : Nat) (d : Int) {c n : Int} (h : c ≤ n) :
    XPost (fun _ => True) (fun r => c ≤ r.1) (irqenOne p i d c n) := by
  unfold irqenOne
  refine XPost.ite (fun _ => XPost.ite (fun _ => ?_) fun _ => h) fun _ => h
  refine XPost.bind (nextTimer_time _ _ _ _) fun t ht => ?_
  show c ≤ if n > t then t else n
  split <;> omega

theorem noEvent_time {x : X Pokey} {c : Int} (hc : c ≤ never) : XPost (fun _ => True) (fun r => c ≤ r.1) (noEvent x) := by
  cases x with
  | error e => trivial
  | ok p => exact hc

/-- A write never announces an event in the past. -/
theorem poke_time {cfg : Cfg} (p : Pokey) (addr d : Int) {c : Int} (hc : c ≤ never) :
    XPost (fun _ => True) (fun r => c ≤ r.1) (poke cfg p addr d c) := by
  unfold poke
  split <;> try exact noEvent_time hc
  · exact hc
  · unfold pokeIrqen
    refine XPost.bind (irqenOne_time _ 3 d hc) fun r hr => ?_
    refine XPost.bind (irqenOne_time _ 1 d hr) fun r1 hr1 => ?_
    exact irqenOne_time _ 0 d hr1
  · exact hc

theorem checkIrqOne_time (p : Pokey) (i : Nat) {c n : Int} (h : c < n) : c < (checkIrqOne p i c n).1 ∧ (checkIrqOne p i c n).1 ≤ n := by
  unfold checkIrqOne
  split
  · exact ⟨h, Int.le_refl n⟩
  · dsimp only; split <;> omega

theorem checkIrqOne_time' (p : Pokey) (i : Nat) {c n : Int} (hc : 0 ≤ c) (h : 0 ≤ n) :
    0 ≤ (checkIrqOne p i c n).1 ∧ (checkIrqOne p i c n).1 ≤ n := by
  unfold checkIrqOne
  split
  · exact ⟨h, Int.le_refl n⟩
  · dsimp only; split <;> omega

/-- The next event after the timers are examined is in the future, if the next scan line is. -/
theorem checkIrq_time (p : Pokey) {c n : Int} (h : c < n) : c < (checkIrq p c n).1 ∧ (checkIrq p c n).1 ≤ n := by
  unfold checkIrq
  have h1 := checkIrqOne_time p 3 h
  have h2 := checkIrqOne_time (checkIrqOne p 3 c n).2 1 h1.1
  have h3 := checkIrqOne_time (checkIrqOne (checkIrqOne p 3 c n).2 1 c (checkIrqOne p 3 c n).1).2 0 h2.1
  dsimp only
  omega

theorem checkIrq_time' (p : Pokey) {c n : Int} (hc : 0 ≤ c) (h : 0 ≤ n) : 0 ≤ (checkIrq p c n).1 ∧ (checkIrq p c n).1 ≤ n := by
  unfold checkIrq
  have h1 := checkIrqOne_time' p 3 hc h
  have h2 := checkIrqOne_time' (checkIrqOne p 3 c n).2 1 hc h1.1
  have h3 := checkIrqOne_time' (checkIrqOne (checkIrqOne p 3 c n).2 1 c (checkIrqOne p 3 c n).1).2 0 hc h2.1
  dsimp only
  omega

end Pokey

namespace Pair
open Asap.Spec

/-- What a chip pair keeps during a frame. -/
structure Frame (q r : Pair) : Prop where
  mask : r.extraMask = q.extraMask
  rate : r.rate = q.rate
  factor : r.factor = q.factor
  offset : r.offset = q.offset
  start : r.readyStart = q.readyStart
  stop : r.readyEnd = q.readyEnd
  sinc : r.sinc = q.sinc

theorem Frame.refl (q : Pair) : Frame q q := ⟨rfl, rfl, rfl, rfl, rfl, rfl, rfl⟩

theorem Frame.trans {p q r : Pair} (h : Frame p q) (k : Frame q r) : Frame p r :=
  ⟨k.mask.trans h.mask, k.rate.trans h.rate, k.factor.trans h.factor, k.offset.trans h.offset, k.start.trans h.start,
    k.stop.trans h.stop, k.sinc.trans h.sinc⟩

theorem Frame.chips (q : Pair) (b e : Pokey) : Frame q { q with base := b, extra := e } := ⟨rfl, rfl, rfl, rfl, rfl, rfl, rfl⟩

variable {rate : Int} {ntsc stereo : Bool} {m m' : Int} {q : Pair}

/-- Without care for muting, the muted channels do not matter. -/
theorem Good.anyMask (h : Good false rate ntsc stereo m m' q) (n n' : Int) : Good false rate ntsc stereo n n' q :=
  ⟨⟨h.base.regs, nofun, h.base.box⟩, ⟨h.extra.regs, nofun, h.extra.box⟩, h.mask, h.factor, h.offset, h.start, h.stop⟩

/-- One event of the history of a pair. -/
theorem Good.step (h : Good false rate ntsc stereo 0 0 q) (hr : 0 ≤ rate ∧ rate ≤ 48000) (e : PairEvent) (hw : e.Within latest) :
    XPost (· = .dac) (Good false rate ntsc stereo 0 0) (stepPair q e) :=
  (stepPair_good (es := []) (es' := []) h hr e hw nofun nofun).mono (fun _ x => x.2) fun _ x => x.anyMask 0 0

theorem Good.poke (h : Good false rate ntsc stereo 0 0 q) (hr : 0 ≤ rate ∧ rate ≤ 48000) (addr : Int) {d c : Int}
    (hd : 0 ≤ d ∧ d < 256) (hc : 0 ≤ c ∧ c ≤ latest) :
    XPost (· = .dac) (fun r => (Good false rate ntsc stereo 0 0 r.2 ∧ Frame q r.2) ∧ c ≤ r.1) (q.poke addr d c) := by
  have h1 := h.step hr (.write addr d c) ⟨hd, hc⟩
  have hn : c ≤ never := by have : (latest : Int) ≤ never := by decide
                            omega
  have h2 : XPost (fun _ => True) (fun r => Frame q r.2 ∧ c ≤ r.1) (q.poke addr d c) := by
    unfold Pair.poke
    refine XPost.ite (fun _ => ?_) fun _ => ?_
    · exact XPost.bind (Pokey.poke_time q.extra addr d hn) fun r ht => ⟨Frame.chips q q.base r.2, ht⟩
    · exact XPost.bind (Pokey.poke_time q.base addr d hn) fun r ht => ⟨Frame.chips q r.2 q.extra, ht⟩
  simp only [stepPair] at h1
  cases hp : q.poke addr d c with
  | error e => rw [hp] at h1; exact h1
  | ok r => rw [hp] at h1 h2; exact ⟨⟨h1, h2.1⟩, h2.2⟩

/-- A register read returns a byte. -/
theorem Good.peekByte (h : Good false rate ntsc stereo m m' q) (addr : Int) {c : Int} (hc : 0 ≤ c) :
    XPost (fun _ => False) (fun v => 0 ≤ v ∧ v < 256) (q.peek addr c) := by
  have hb := h.base.box.inside
  have he := h.extra.box.inside
  unfold Pair.peek
  dsimp only
  have hp : ∀ r : Pokey, r = (if band addr q.extraMask ≠ 0 then q.extra else q.base) → 3 ≤ r.polyIndex ∧ 0 ≤ r.irqst ∧ r.irqst ≤ 255 := by
    rintro r rfl
    split
    · exact ⟨he.poly, he.irq⟩
    · exact ⟨hb.poly, hb.irq⟩
  generalize (if band addr q.extraMask ≠ 0 then q.extra else q.base) = r at *
  have := hp _ rfl
  refine XPost.ite (fun _ => XPost.ite (fun _ => ?_) fun _ => ?_) fun _ => XPost.ite (fun _ => ?_) fun _ => ?_
  · show (0 : Int) ≤ 0xff ∧ (0xff : Int) < 256; decide
  · rw [if_neg (by omega)]
    refine XPost.ite (fun _ => ?_) fun _ => ?_
    · have : poly9 ((c + r.polyIndex) % 511).toNat ≤ 0xff := Nat.and_le_right
      show (0 : Int) ≤ (poly9 ((c + r.polyIndex) % 511).toNat : Int) ∧ _
      omega
    · show 0 ≤ band _ 0xff ∧ band _ 0xff < 256
      rw [band_ff]; omega
  · show 0 ≤ r.irqst ∧ r.irqst < 256; omega
  · show (0 : Int) ≤ 0xff ∧ (0xff : Int) < 256; decide

end Pair

end Asap
