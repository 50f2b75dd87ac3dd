import Verif.Spec.Cadence
import Verif.Lemmas.Machine

/-! Programs that return more than others, but do the same. -/

namespace Asap
open C

/-- `f` does what `g` does, and returns `φ` of what `g` returns. -/
def Obs {α β : Type} (φ : β → α) (g : C β) (f : C α) : Prop :=
  ∀ m, f m = match g m with
    | .ok r => .ok (φ r.1, r.2)
    | .error e => .error e

theorem Obs.bind {α β γ δ : Type} {φ : β → α} {ψ : δ → γ} {g : C β} {f : C α} {h : β → C δ} {k : α → C γ}
    (hf : Obs φ g f) (hk : ∀ b, Obs ψ (h b) (k (φ b))) : Obs ψ (g >>= h) (f >>= k) := by
  intro m
  show C.bind f k m = match C.bind g h m with
    | .ok r => .ok (ψ r.1, r.2)
    | .error e => .error e
  unfold C.bind
  rw [hf m]
  cases g m with
  | error e => rfl
  | ok r => exact hk r.1 r.2

theorem Obs.seq {α γ δ : Type} {ψ : δ → γ} {f : C α} {h : α → C δ} {k : α → C γ} (hk : ∀ a, Obs ψ (h a) (k a)) :
    Obs ψ (f >>= h) (f >>= k) := by
  intro m
  show C.bind f k m = match C.bind f h m with
    | .ok r => .ok (ψ r.1, r.2)
    | .error e => .error e
  unfold C.bind
  cases f m with
  | error e => rfl
  | ok r => exact hk r.1 r.2

theorem Obs.pure {α β : Type} {φ : β → α} {a : α} {b : β} (h : a = φ b) : Obs φ (Pure.pure b) (Pure.pure a) := fun m => by
  show Except.ok (a, m) = Except.ok (φ b, m)
  rw [h]

/-- A program that is not observed, followed by a value. -/
theorem Obs.last {β : Type} {φ : β → Unit} {f : C Unit} {b : β} : Obs φ (f >>= fun _ => Pure.pure b) f := by
  intro m
  show f m = match C.bind f (fun _ => Pure.pure b) m with
    | .ok r => .ok (φ r.1, r.2)
    | .error e => .error e
  unfold C.bind
  cases f m with
  | error e => rfl
  | ok r => rfl

theorem Obs.forget {β δ : Type} {φ : β → Unit} {ψ : δ → Unit} {g : C β} {f : C Unit} {k : β → δ} (h : Obs φ g f) :
    Obs ψ (g >>= fun b => Pure.pure (k b)) f := by
  intro m
  rw [h m]
  show _ = match C.bind g (fun b => Pure.pure (k b)) m with
    | .ok r => (.ok (ψ r.1, r.2) : X (Unit × Machine))
    | .error e => .error e
  unfold C.bind
  cases g m with
  | error e => rfl
  | ok r => rfl

theorem Obs.fail {α β : Type} {φ : β → α} {e : Hw} : Obs φ (C.fail e) (C.fail e) := fun _ => rfl

theorem Obs.ite {α β : Type} {φ : β → α} {c : Prop} [Decidable c] {g h : C β} {f k : C α} (h1 : Obs φ g f) (h2 : Obs φ h k) :
    Obs φ (if c then g else h) (if c then f else k) := by
  split
  · exact h1
  · exact h2

theorem Obs.ok {α β : Type} {φ : β → α} {g : C β} {f : C α} (h : Obs φ g f) {m m' : Machine} {a : α} (hf : f m = .ok (a, m')) :
    ∃ b, g m = .ok (b, m') ∧ φ b = a := by
  have := h m
  rw [hf] at this
  cases hg : g m with
  | error e => rw [hg] at this; cases this
  | ok r =>
    rw [hg] at this
    injection this with this
    injection this with h1 h2
    exact ⟨r.1, by rw [h2], h1.symm⟩

theorem Obs.tri {α β : Type} {φ : β → α} {g : C β} {f : C α} (h : Obs φ g f) {E : Hw → Prop} {P : Machine → Prop} {Q : β → Machine → Prop}
    (hg : Tri E P g Q) : Tri E P f fun a m => ∃ b, φ b = a ∧ Q b m := by
  intro m hm
  have := hg m hm
  rw [h m]
  cases hx : g m with
  | error e => rw [hx] at this; exact this
  | ok r => rw [hx] at this; exact ⟨r.1, rfl, this⟩

open Spec Machine

theorem obs_scanline : Obs (fun _ => ()) logScanline handleScanline :=
  Obs.seq fun _ => Obs.seq fun _ => Obs.seq fun _ => Obs.seq fun _ => Obs.seq fun _ => Obs.seq fun _ =>
    Obs.ite (Obs.seq fun _ => Obs.seq fun _ => Obs.seq fun _ => Obs.last) (Obs.pure rfl)

theorem obs_if {c : Prop} [Decidable c] {g : C (Option Int)} {f : C Unit} (h : Obs (fun _ => ()) g f) : Obs (fun _ => ()) (logIf c g) (when c f) := by
  unfold logIf C.when
  exact Obs.ite h.forget (Obs.pure rfl)

theorem obs_event : Obs (fun _ => ()) logEvent handleEvent :=
  Obs.seq fun _ => Obs.seq fun _ => Obs.bind (obs_if obs_scanline) fun _ => Obs.seq fun _ => Obs.seq fun _ => Obs.seq fun _ => Obs.last

/-- The events before an instruction. -/
def events : C Unit := do
  let cycle ← reg (·.cycle)
  let nextEvent ← get (·.nextEvent)
  when (cycle ≥ nextEvent) do
    handleEvent
    checkIrq

theorem cpuStep_eq : cpuStep = events >>= fun _ => instruction := by
  funext m
  show C.bind _ _ m = C.bind events _ m
  rfl

theorem obs_events : Obs (fun _ => ()) logEvents events :=
  Obs.seq fun _ => Obs.seq fun _ => Obs.ite (Obs.bind obs_event fun _ => Obs.last) (Obs.pure rfl)

theorem obs_step : Obs (fun _ => ()) logStep cpuStep := by
  rw [cpuStep_eq]
  exact Obs.bind obs_events fun _ => Obs.last

theorem obs_loop (limit : Int) : ∀ fuel, Obs (fun _ => ()) (logLoop limit fuel) (cpuFrame limit fuel)
  | 0 => Obs.seq fun _ => Obs.ite Obs.fail (Obs.pure rfl)
  | fuel + 1 => Obs.seq fun _ => Obs.ite (Obs.bind obs_step fun _ => (obs_loop limit fuel).forget) (Obs.pure rfl)

theorem obs_6502Frame : Obs (fun r => r.1) log6502Frame do6502Frame :=
  Obs.seq fun _ => Obs.seq fun _ => Obs.bind (obs_loop _ _) fun _ => Obs.seq fun _ => Obs.pure rfl

theorem obs_frame : Obs (fun r => r.1) logFrame doFrame :=
  Obs.seq fun _ => Obs.seq fun _ => Obs.bind obs_6502Frame fun _ => Obs.seq fun _ => Obs.pure rfl

theorem obs_generateLoop (f : SampleFormat) : ∀ fuel left, Obs (fun r => r.1) (logGenerateLoop f fuel left) (generateLoop f fuel left)
  | 0, _ => Obs.fail
  | fuel + 1, _ => Obs.seq fun _ => Obs.ite (Obs.pure rfl) <| Obs.bind obs_frame fun _ => Obs.seq fun _ =>
      Obs.ite (Obs.bind (obs_generateLoop f fuel _) fun _ => Obs.pure rfl) (Obs.pure rfl)

theorem obs_generate (len : Int) (f : SampleFormat) : Obs (fun r => r.1) (logGenerate len f) (generate len f) :=
  Obs.seq fun _ => Obs.ite (Obs.pure rfl) <| Obs.seq fun _ => Obs.seq fun _ => Obs.bind (obs_generateLoop f _ _) fun _ => Obs.pure rfl

theorem obs_each (f : SampleFormat) : ∀ lens, Obs (fun r => r.1) (logEach f lens) (generateEach f lens)
  | [] => Obs.pure rfl
  | len :: lens => Obs.bind (obs_generate len f) fun _ => Obs.bind (obs_each f lens) fun _ => Obs.pure rfl

theorem obs_initFrames : ∀ n, Obs (fun _ => ()) (logInitFrames n) (initFrames n)
  | 0 => Obs.fail
  | n + 1 => Obs.bind obs_6502Frame fun _ => Obs.seq fun _ => Obs.ite (Obs.pure rfl) (obs_initFrames n).forget

theorem obs_init (pc a x y : Int) : Obs (fun _ => ()) (logInit pc a x y) (do6502Init pc a x y) := by
  unfold logInit do6502Init
  generalize 50 = n
  exact Obs.seq fun _ => Obs.seq fun _ => Obs.seq fun _ => Obs.seq fun _ => Obs.seq fun _ => Obs.seq fun _ => Obs.seq fun _ => Obs.seq fun _ => obs_initFrames n

attribute [local irreducible] do6502Init logInit in
theorem obs_initSong (song : Int) : Obs (fun _ => ()) (logInitSong song) (initSong song) := by
  refine Obs.seq fun player => Obs.seq fun music => Obs.seq fun init => Obs.seq fun pos => Obs.seq fun type => ?_
  cases type with
  | sapB => exact obs_init _ _ _ _
  | sapD => exact Obs.last
  | sapS => exact Obs.last
  | dlt => exact obs_init _ _ _ _
  | rmt => exact obs_init _ _ _ _
  | fc => exact obs_init _ _ _ _
  | tmc => exact Obs.bind (obs_init _ _ _ _) fun _ => Obs.bind (obs_init _ _ _ _) fun _ => Obs.last
  | tm2 => exact Obs.bind (obs_init _ _ _ _) fun _ => Obs.bind (obs_init _ _ _ _) fun _ => Obs.last
  | _ => exact Obs.bind (obs_init _ _ _ _) fun _ => (obs_init _ _ _ _).forget

attribute [local irreducible] initSong logInitSong in
theorem obs_playSong (song duration : Int) : Obs (fun _ => ()) (logPlaySong song duration) (playSong song duration) :=
  Obs.seq fun _ => Obs.ite Obs.fail <| Obs.seq fun _ => Obs.seq fun _ => Obs.bind (obs_initSong song) fun _ => Obs.seq fun _ => Obs.last

end Asap
