import Verif.Lemmas.Generate
import Verif.Lemmas.Load
import Verif.Spec.Player

namespace Asap
open Asap.Spec
open Machine (frameCycles)

theorem CpuOk.inRange {r : Cpu} (h : CpuOk r) : InRange r := by
  refine ⟨h.mem, h.a, h.x, h.y, h.s, h.nz, h.c, ?_⟩
  rcases h.vdi with e | e | e | e | e | e | e | e
  · exact ⟨false, false, false, e⟩
  · exact ⟨false, false, true, e⟩
  · exact ⟨false, true, false, e⟩
  · exact ⟨false, true, true, e⟩
  · exact ⟨true, false, false, e⟩
  · exact ⟨true, false, true, e⟩
  · exact ⟨true, true, false, e⟩
  · exact ⟨true, true, true, e⟩

theorem Spec.InRange.cpuOk {r : Cpu} (h : InRange r) : CpuOk r := by
  refine ⟨h.mem, h.a, h.x, h.y, h.s, h.nz, h.c, ?_⟩
  obtain ⟨v, d, i, e⟩ := h.vdi
  unfold IsVdi
  rw [e]
  cases v <;> cases d <;> cases i <;> decide

theorem Spec.CanPlay.loaded {m : Machine} (h : CanPlay m) : Loaded m :=
  ⟨h.cpu.cpuOk, h.rate, fun t => by have := h.music t; omega, by have := h.songs; omega⟩

theorem safe_of_xpost {α : Type} {E : Hw → Prop} {P : α → Machine → Prop} {x : X (α × Machine)} (he : ∀ e, E e → PlayBad e)
    (h : XPost E (fun r => P r.1 r.2) x) : SafeExcept P x := by
  cases x with
  | ok r => exact h
  | error e =>
    rcases he e h with (h | h) | h
    · exact Or.inr (Or.inl h)
    · exact Or.inr (Or.inr h)
    · exact Or.inl h

/-- A call during playback. -/
theorem playing_call {m : Machine} (h : Playing m) {c : Call} (hc : c.Valid) : XPost PlayBad (fun r => Playing r.2 ∧ r.2.info = m.info) (c.run m) := by
  cases c with
  | play song duration =>
    exact (loaded_playSong h.loaded song duration).mono (fun _ x => x) fun r hr => ⟨hr.1.playing h.loaded, hr.1.keeps.info⟩
  | seek position =>
    have hb : 0 ≤ Machine.millisecondsToBlocks m.rate position := by
      unfold Machine.millisecondsToBlocks
      have hp : 0 ≤ position := hc
      have := h.rate
      have : 0 ≤ position * m.rate := Int.mul_nonneg hp (by omega)
      rw [Int.tdiv_eq_ediv_of_nonneg this]
      omega
    exact (playing_seekSample h hb).mono (fun _ x => x) fun r hr => ⟨hr.1, hr.2.2.1⟩
  | seekSample block => exact (playing_seekSample h hc).mono (fun _ x => x) fun r hr => ⟨hr.1, hr.2.2.1⟩
  | generate bufferLen format =>
    have key := playing_generate h bufferLen format
    show XPost PlayBad _ (C.bind (Machine.generate bufferLen format) _ m)
    unfold C.bind
    cases hx : Machine.generate bufferLen format m with
    | error e => rw [hx] at key; exact Or.inl key
    | ok r => rw [hx] at key; exact ⟨key.playing, key.info⟩
  | mute mask =>
    refine ⟨⟨⟨h.ready.cpu, h.ready.time, ?_, h.ready.consol, h.ready.covox, h.ready.rate, h.ready.tmc, h.ready.window⟩, h.rate, h.songs⟩, rfl⟩
    have hr : 0 ≤ m.pk.rate ∧ m.pk.rate ≤ 48000 := by have := h.ready.rate; omega
    exact h.ready.chips.step hr (.mute mask) trivial
  | detectSilence seconds =>
    exact ⟨⟨⟨h.ready.cpu, h.ready.time, h.ready.chips, h.ready.consol, h.ready.covox, h.ready.rate, h.ready.tmc, h.ready.window⟩, h.rate, h.songs⟩, rfl⟩
  | setSampleRate rate =>
    exact ⟨⟨⟨h.ready.cpu, h.ready.time, h.ready.chips, h.ready.consol, h.ready.covox, h.ready.rate, h.ready.tmc, h.ready.window⟩, hc, h.songs⟩, rfl⟩

theorem playing_calls : ∀ (cs : List Call) {m : Machine}, Playing m → (∀ c ∈ cs, c.Valid) →
    XPost PlayBad (fun r => Playing r.2 ∧ r.2.info = m.info) (runCalls cs m)
  | [], m, h, _ => ⟨h, rfl⟩
  | c :: cs, m, h, hv => by
    have key := playing_call h (hv c (by simp))
    show XPost PlayBad _ (C.bind c.run _ m)
    unfold C.bind
    cases hx : c.run m with
    | error e => rw [hx] at key; exact key
    | ok r =>
      rw [hx] at key
      exact (playing_calls cs key.1 fun x hx => hv x (by simp [hx])).mono (fun _ x => x) fun t ht => ⟨ht.1, ht.2.trans key.2⟩

/-- A history that begins with `PlaySong`. -/
theorem loaded_calls {m : Machine} (h : Loaded m) (song duration : Int) (cs : List Call) (hv : ∀ c ∈ cs, c.Valid) :
    XPost PlayBad (fun r => Playing r.2 ∧ r.2.info = m.info) (runCalls (.play song duration :: cs) m) := by
  have key := loaded_playSong h song duration
  show XPost PlayBad _ (C.bind (Machine.playSong song duration) _ m)
  unfold C.bind
  cases hx : Machine.playSong song duration m with
  | error e => rw [hx] at key; exact key
  | ok r =>
    rw [hx] at key
    exact (playing_calls cs (key.1.playing h) hv).mono (fun _ x => x) fun t ht => ⟨ht.1, ht.2.trans key.1.keeps.info⟩

theorem between_instructions {m0 : Machine} (h : TmcOk m0.info) (hr : 0 ≤ m0.pk.rate ∧ m0.pk.rate ≤ 48000) {limit : Int}
    (hl : 0 ≤ limit ∧ limit ≤ 312 * 114 ∧ limit % 114 = 0) : ∀ (n : Nat) {m : Machine}, Between m0 limit m →
    XPost PlayBad (fun r => Between m0 limit r.2) (instructions limit n m)
  | 0, _, hm => hm
  | n + 1, m, hm => by
    show XPost PlayBad _ ((if m.cpu.cycle < limit then (do Machine.cpuStep; instructions limit n) else pure () : C Unit) m)
    by_cases hc : m.cpu.cycle < limit
    · rw [if_pos hc]
      have key := between_step h hr hl hm hc
      show XPost PlayBad _ (C.bind Machine.cpuStep _ m)
      unfold C.bind
      cases hx : Machine.cpuStep m with
      | error e => rw [hx] at key; exact Or.inl key
      | ok r => rw [hx] at key; exact between_instructions h hr hl n key.1
    · rw [if_neg hc]
      exact hm

/-- In the middle of a frame. -/
theorem ready_partOfFrame {m : Machine} (h : Ready m) (n : Nat) :
    XPost PlayBad (fun r => CpuOk r.2.cpu) (partOfFrame n m) := by
  have hr : 0 ≤ m.pk.rate ∧ m.pk.rate ≤ 48000 := by have := h.rate; omega
  have h1 := h.chips.step hr .start trivial
  have h2 := startFrame_frame m.pk
  simp only [Spec.stepPair] at h1
  show XPost PlayBad _ (C.bind Machine.startChips _ m)
  have hs : Machine.startChips m =
      match m.pk.startFrame with
      | .ok q => .ok ((), { m with pk := q })
      | .error e => .error e := by
    show C.chips _ _ = _
    unfold C.chips
    dsimp only
    cases m.pk.startFrame <;> rfl
  unfold C.bind
  rw [hs]
  cases hx : m.pk.startFrame with
  | error e => rw [hx] at h1; exact Or.inl (Or.inr h1)
  | ok q =>
    rw [hx] at h1 h2
    dsimp only
    have e1 : q.readyStart = m.pk.readyStart := h2.start
    have e2 : q.readyEnd = m.pk.readyEnd := h2.stop
    have e3 : q.rate = m.pk.rate := h2.rate
    have hm1 : Ready { m with pk := q } :=
      ⟨h.cpu, h.time, chipsOk_congr (a := m) (b := { m with pk := q }) e3 rfl h1, h.consol, h.covox, show 100 ≤ q.rate ∧ q.rate ≤ 48000 by rw [e3]; exact h.rate,
        h.tmc, show q.readyStart ≤ q.readyEnd by rw [e1, e2]; exact h.window⟩
    have hf := frameCycles_range m.info.ntsc
    have hr1 : 0 ≤ q.rate ∧ q.rate ≤ 48000 := by rw [e3]; exact hr
    have key := between_instructions (m0 := Machine.sched { m with pk := q } 0 m.nextPlayer) (limit := frameCycles m.info.ntsc) h.tmc hr1
      (by omega) n hm1.between
    exact key.mono (fun _ x => x) fun r hb => hb.ok.cpu

end Asap
