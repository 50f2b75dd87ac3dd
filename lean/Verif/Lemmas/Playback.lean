import Verif.Lemmas.Frame

/-! Frames, starting a song, seeking and generating keep the machine ready and end. -/

namespace Asap
open Machine (frameCycles)

/-- What playback of a frame does not change. -/
structure Keeps (m m' : Machine) : Prop where
  info : m'.info = m.info
  song : m'.song = m.song
  duration : m'.duration = m.duration
  played : m'.played = m.played
  silence : m'.silence = m.silence
  rate : m'.rate = m.rate
  pkRate : m'.pk.rate = m.pk.rate

theorem Keeps.refl (m : Machine) : Keeps m m := ⟨rfl, rfl, rfl, rfl, rfl, rfl, rfl⟩

theorem Keeps.trans {a b c : Machine} (h : Keeps a b) (k : Keeps b c) : Keeps a c :=
  ⟨k.info.trans h.info, k.song.trans h.song, k.duration.trans h.duration, k.played.trans h.played, k.silence.trans h.silence,
    k.rate.trans h.rate, k.pkRate.trans h.pkRate⟩

/-- The machine between frames. -/
structure Ready (m : Machine) : Prop where
  cpu : CpuOk m.cpu
  time : 0 ≤ m.cpu.cycle ∧ m.cpu.cycle ≤ 113
  chips : ChipsOk m m.pk
  consol : Byte m.consol
  covox : ∀ i, Byte (m.covox i)
  rate : 100 ≤ m.pk.rate ∧ m.pk.rate ≤ 48000
  tmc : TmcOk m.info
  window : m.pk.readyStart ≤ m.pk.readyEnd

theorem Ready.start {m : Machine} (h : Ready m) : 0 ≤ m.pk.readyStart := h.chips.start

theorem frameCycles_range (ntsc : Bool) : 262 * 114 ≤ frameCycles ntsc ∧ frameCycles ntsc ≤ 312 * 114 ∧ frameCycles ntsc % 114 = 0 := by
  cases ntsc <;> decide

/-- The chips of two machines with the same configuration. -/
theorem chipsOk_congr {a b : Machine} (hr : b.pk.rate = a.pk.rate) (hi : b.info = a.info) {q : Pair} (h : ChipsOk a q) : ChipsOk b q := by
  unfold ChipsOk; rw [hr, hi]; exact h

theorem Ready.between {m : Machine} (h : Ready m) : Between (m.sched 0 m.nextPlayer) (frameCycles m.info.ntsc)
    { m with nextEvent := 0, nextScan := 0, nmist := if m.nmist = .reset then .onVBlank else .wasVBlank } := by
  have hf := frameCycles_range m.info.ntsc
  have ht := h.time
  exact ⟨⟨Int.le_refl 0, show (0 : Int) ≤ frameCycles m.info.ntsc by omega, rfl⟩,
    h.cpu, ⟨ht.1, show m.cpu.cycle ≤ 0 + 113 by omega⟩, ⟨Int.le_refl 0, Int.le_refl 0⟩, h.chips, h.consol, h.covox,
    ⟨rfl, rfl, rfl, rfl, rfl, rfl, rfl, rfl, rfl, Pair.Frame.refl _⟩, Trail.refl (m.sched 0 m.nextPlayer)⟩

theorem stepsLeft_start {limit c : Int} (hl : 0 ≤ limit) (hc : 0 ≤ c) : stepsLeft limit 0 c ≤ Machine.frameFuel limit := by
  unfold stepsLeft Machine.frameFuel
  have h2 : 0 ≤ (limit / 114 + 3) * (limit + 1) := Int.mul_nonneg (by omega) (by omega)
  have h3 : (if 0 < limit then (limit - 0 + 113) / 114 else 0) ≤ limit / 114 + 1 := by split <;> omega
  have h4 := Int.mul_le_mul_of_nonneg_right h3 (show 0 ≤ limit + 1 by omega)
  have h5 : (limit / 114 + 1) * (limit + 1) + 2 * (limit + 1) = (limit / 114 + 3) * (limit + 1) := by
    rw [← Int.add_mul]; congr 1; omega
  omega

/-- `Do6502Frame` on a ready machine. -/
theorem ready_frame {m : Machine} (h : Ready m) :
    XPost CpuBad (fun r => r.1 = frameCycles m.info.ntsc ∧ Ready r.2 ∧ Keeps m r.2 ∧ m.pk.Frame r.2.pk ∧ r.2.silenceLeft = m.silenceLeft)
      (Machine.do6502Frame m) := by
  have hr : 0 ≤ m.pk.rate ∧ m.pk.rate ≤ 48000 := by have := h.rate; omega
  have hf := frameCycles_range m.info.ntsc
  have hk := ok_cpuFrame (m0 := m.sched 0 m.nextPlayer) h.tmc hr (limit := frameCycles m.info.ntsc) (by omega)
    (Machine.frameFuel (frameCycles m.info.ntsc)) _ h.between (stepsLeft_start (by omega) h.time.1)
  show XPost CpuBad _ (C.bind (Machine.cpuFrame (frameCycles m.info.ntsc) (Machine.frameFuel (frameCycles m.info.ntsc))) _ _)
  unfold C.bind
  cases hx : Machine.cpuFrame (frameCycles m.info.ntsc) (Machine.frameFuel (frameCycles m.info.ntsc))
    { m with nextEvent := 0, nextScan := 0, nmist := if m.nmist = .reset then .onVBlank else .wasVBlank } with
  | error e => rw [hx] at hk; exact hk
  | ok r =>
    rw [hx] at hk
    obtain ⟨hb, hc⟩ := hk
    have ht := hb.ok.time
    have hsc := hb.scan
    have kp := hb.ok.kept
    have hs := hb.ok.chips.step hr (.timers (frameCycles m.info.ntsc)) trivial
    have hchips : ChipsOk m { r.2.pk with base := r.2.pk.base.endTimers (frameCycles m.info.ntsc), extra := r.2.pk.extra.endTimers (frameCycles m.info.ntsc) } := hs
    have hfr : m.pk.Frame { r.2.pk with base := r.2.pk.base.endTimers (frameCycles m.info.ntsc), extra := r.2.pk.extra.endTimers (frameCycles m.info.ntsc) } :=
      kp.frame.trans (Pair.Frame.chips _ _ _)
    refine ⟨rfl, ?_, ?_, hfr, kp.silenceLeft⟩
    · refine ⟨⟨hb.ok.cpu.mem, hb.ok.cpu.a, hb.ok.cpu.x, hb.ok.cpu.y, hb.ok.cpu.s, hb.ok.cpu.nz, hb.ok.cpu.c, hb.ok.cpu.vdi⟩, ?_,
        chipsOk_congr hfr.rate kp.info hchips, hb.ok.consol, hb.ok.covox, ?_, ?_, ?_⟩
      · show 0 ≤ r.2.cpu.cycle - frameCycles m.info.ntsc ∧ r.2.cpu.cycle - frameCycles m.info.ntsc ≤ 113
        omega
      · have e : r.2.pk.rate = m.pk.rate := hfr.rate
        show 100 ≤ r.2.pk.rate ∧ r.2.pk.rate ≤ 48000
        rw [e]; exact h.rate
      · have e : r.2.info = m.info := kp.info
        show TmcOk r.2.info
        rw [e]; exact h.tmc
      · have e1 : r.2.pk.readyStart = m.pk.readyStart := hfr.start
        have e2 : r.2.pk.readyEnd = m.pk.readyEnd := hfr.stop
        show r.2.pk.readyStart ≤ r.2.pk.readyEnd
        rw [e1, e2]; exact h.window
    · exact ⟨kp.info, kp.song, kp.duration, kp.played, kp.silence, kp.rate, hfr.rate⟩

theorem startFrame_frame (q : Pair) : XPost (fun _ => True) (fun r => q.Frame r) q.startFrame := by
  unfold Pair.startFrame
  refine XPost.bind (P := fun _ => True) ?_ fun b _ => XPost.bind (P := fun _ => True) ?_ fun e _ => Pair.Frame.chips q b e
  · cases q.base.startFrame <;> trivial
  · cases q.startExtra <;> trivial

/-- A frame gives at least one sample. -/
theorem endFrame_samples {rate : Int} (hr : 100 ≤ rate ∧ rate ≤ 48000) {ntsc stereo : Bool} {q : Pair}
    (h : q.Good false rate ntsc stereo 0 0) : 1 ≤ shr (q.offset + frameCycles ntsc * q.factor) 18 := by
  have e13 : shl rate (18 - 5) = rate * 8192 := rfl
  have p1 : shr 1773447 6 = 27710 := by decide
  have p2 : shr 1773447 5 = 55420 := by decide
  have n1 : shr 1789772 6 = 27965 := by decide
  have n2 : shr 1789772 5 = 55930 := by decide
  have e18 : ∀ v, shr v 18 = v / 262144 := fun v => rfl
  have hf : 15 ≤ q.factor := by
    rw [h.factor]
    unfold Pair.sampleFactor
    rw [e13, p1, p2, n1, n2]
    split <;> rw [Int.tdiv_eq_ediv_of_nonneg (by omega)] <;> omega
  have hl := frameCycles_range ntsc
  have ho := h.offset
  have hm : 262 * 114 * 15 ≤ frameCycles ntsc * q.factor :=
    Int.le_trans (Int.mul_le_mul_of_nonneg_right hl.1 (by omega)) (Int.mul_le_mul_of_nonneg_left hf (by omega))
  rw [e18]
  omega

/-- `DoFrame` on a ready machine. -/
theorem ready_doFrame {m : Machine} (h : Ready m) :
    XPost CpuBad (fun r => r.1 = frameCycles m.info.ntsc ∧ Ready r.2 ∧ Keeps m r.2 ∧ r.2.silenceLeft = m.silenceLeft ∧
      r.2.pk.readyStart = 0 ∧ 1 ≤ r.2.pk.readyEnd) (Machine.doFrame m) := by
  have hr : 0 ≤ m.pk.rate ∧ m.pk.rate ≤ 48000 := by have := h.rate; omega
  have h1 := h.chips.step hr .start trivial
  have h2 := startFrame_frame m.pk
  simp only [Spec.stepPair] at h1
  show XPost CpuBad _ (C.bind Machine.startChips _ { m with external := false })
  have hs : Machine.startChips { m with external := false } =
      match m.pk.startFrame with
      | .ok q => .ok ((), { m with external := false, pk := q })
      | .error e => .error e := by
    show C.chips _ _ = _
    unfold C.chips
    dsimp only
    cases m.pk.startFrame <;> rfl
  unfold C.bind
  rw [hs]
  cases hx : m.pk.startFrame with
  | error e => rw [hx] at h1; exact Or.inr h1
  | ok q =>
    rw [hx] at h1 h2
    dsimp only
    have e1 : q.readyStart = m.pk.readyStart := h2.start
    have e2 : q.readyEnd = m.pk.readyEnd := h2.stop
    have e3 : q.rate = m.pk.rate := h2.rate
    have hm1 : Ready { m with external := false, pk := q } :=
      ⟨h.cpu, h.time, chipsOk_congr (a := m) (b := { m with external := false, pk := q }) e3 rfl h1, h.consol, h.covox, show 100 ≤ q.rate ∧ q.rate ≤ 48000 by rw [e3]; exact h.rate,
        h.tmc, show q.readyStart ≤ q.readyEnd by rw [e1, e2]; exact h.window⟩
    have hk := ready_frame hm1
    show XPost CpuBad _ (C.bind Machine.do6502Frame _ _)
    unfold C.bind
    cases hy : Machine.do6502Frame { m with external := false, pk := q } with
    | error e => rw [hy] at hk; exact hk
    | ok r =>
      rw [hy] at hk
      obtain ⟨hc, hm2, hkeep, hfr, hsil⟩ := hk
      dsimp only
      obtain ⟨cyc, m2⟩ := r
      dsimp only at hc hm2 hkeep hfr hsil ⊢
      have e4 : m2.pk.rate = m.pk.rate := hfr.rate.trans e3
      have e5 : m2.info = m.info := hkeep.info
      have hr2 : 0 ≤ m2.pk.rate ∧ m2.pk.rate ≤ 48000 := by rw [e4]; exact hr
      have hl := frameCycles_range m.info.ntsc
      have hcyc : cyc = frameCycles m.info.ntsc := hc
      have hlat : (Pair.latest : Int) = 312 * 114 + 34 := rfl
      have h3 := hm2.chips.step hr2 (.finish cyc) (show 0 ≤ cyc ∧ cyc ≤ Pair.latest by omega)
      simp only [Spec.stepPair] at h3
      have hsmp := endFrame_samples hm2.rate hm2.chips
      rw [e5, ← hcyc] at hsmp
      have he : Machine.endChips cyc m2 =
          match m2.pk.endFrame cyc with
          | .ok q => .ok ((), { m2 with pk := q })
          | .error e => .error e := by
        show C.chips _ _ = _
        unfold C.chips
        dsimp only
        cases m2.pk.endFrame cyc <;> rfl
      have hend : XPost (fun _ => True) (fun r => r.rate = m2.pk.rate ∧ r.readyStart = 0 ∧
          r.readyEnd = shr (m2.pk.offset + cyc * m2.pk.factor) 18) (m2.pk.endFrame cyc) := by
        unfold Pair.endFrame
        refine XPost.bind (P := fun _ => True) ?_ fun b _ => XPost.bind (P := fun _ => True) ?_ fun e _ => ⟨rfl, rfl, rfl⟩
        · cases m2.pk.base.endFrame m2.pk.cfg cyc <;> trivial
        · cases m2.pk.endExtra cyc <;> trivial
      show XPost CpuBad _ (C.bind (Machine.endChips cyc) _ m2)
      unfold C.bind
      rw [he]
      cases hz : m2.pk.endFrame cyc with
      | error e => rw [hz] at h3; exact Or.inr h3
      | ok q3 =>
        rw [hz] at h3 hend
        obtain ⟨g1, g2, g3⟩ := hend
        have g4 : 1 ≤ q3.readyEnd := by rw [g3]; exact hsmp
        refine ⟨hcyc, ⟨hm2.cpu, hm2.time, chipsOk_congr (a := m2) (b := { m2 with pk := q3 }) g1 rfl h3, hm2.consol, hm2.covox, ?_, hm2.tmc, ?_⟩, ?_, hsil, g2, g4⟩
        · show 100 ≤ q3.rate ∧ q3.rate ≤ 48000
          rw [g1]; exact hm2.rate
        · show q3.readyStart ≤ q3.readyEnd
          omega
        · exact ⟨e5, hkeep.song, hkeep.duration, hkeep.played, hkeep.silence, hkeep.rate, g1.trans e4⟩

/-! ### Starting a song -/

/-- The machine after a file is loaded. -/
structure Loaded (m : Machine) : Prop where
  cpu : CpuOk m.cpu
  rate : 100 ≤ m.rate ∧ m.rate ≤ 48000
  tmc : TmcOk m.info
  songs : m.info.songs ≤ 256

/-- Faults of API calls: those of instructions, and exceptions. -/
def PlayBad (e : Hw) : Prop := CpuBad e ∨ e = .thrown

/-- The machine while a song that started in `m0` is initialised. -/
structure Starting (m0 m : Machine) : Prop where
  ready : Ready m
  keeps : Keeps m0 m
  silenceLeft : m.silenceLeft = m0.silenceLeft
  start : m.pk.readyStart = 0
  stop : m.pk.readyEnd = 0

section
variable {m0 : Machine} {E : Hw → Prop}

theorem Ready.setCpu {m : Machine} (h : Ready m) {c : Cpu} (hc : CpuOk c) (ht : 0 ≤ c.cycle ∧ c.cycle ≤ 113) : Ready { m with cpu := c } :=
  ⟨hc, ht, h.chips, h.consol, h.covox, h.rate, h.tmc, h.window⟩

theorem starting_setCpu {f : Cpu → Cpu} (h : ∀ c, CpuOk c → CpuOk (f c)) (ht : ∀ c, (f c).cycle = c.cycle) :
    Tri E (Starting m0) (C.setCpu f) fun _ => Starting m0 :=
  Tri.setCpu fun m hm => ⟨hm.ready.setCpu (h _ hm.ready.cpu) (by rw [ht]; exact hm.ready.time),
    ⟨hm.keeps.info, hm.keeps.song, hm.keeps.duration, hm.keeps.played, hm.keeps.silence, hm.keeps.rate, hm.keeps.pkRate⟩,
    hm.silenceLeft, hm.start, hm.stop⟩

theorem starting_setA {v : Int} (hv : Byte v) : Tri E (Starting m0) (Machine.setA v) fun _ => Starting m0 :=
  starting_setCpu (fun _ h => ⟨h.mem, hv, h.x, h.y, h.s, h.nz, h.c, h.vdi⟩) fun _ => rfl
theorem starting_setX {v : Int} (hv : Byte v) : Tri E (Starting m0) (Machine.setX v) fun _ => Starting m0 :=
  starting_setCpu (fun _ h => ⟨h.mem, h.a, hv, h.y, h.s, h.nz, h.c, h.vdi⟩) fun _ => rfl
theorem starting_setY {v : Int} (hv : Byte v) : Tri E (Starting m0) (Machine.setY v) fun _ => Starting m0 :=
  starting_setCpu (fun _ h => ⟨h.mem, h.a, h.x, hv, h.s, h.nz, h.c, h.vdi⟩) fun _ => rfl
theorem starting_setS {v : Int} (hv : Byte v) : Tri E (Starting m0) (Machine.setS v) fun _ => Starting m0 :=
  starting_setCpu (fun _ h => ⟨h.mem, h.a, h.x, h.y, hv, h.nz, h.c, h.vdi⟩) fun _ => rfl
theorem starting_setPc {v : Int} : Tri E (Starting m0) (Machine.setPc v) fun _ => Starting m0 :=
  starting_setCpu (fun _ h => ⟨h.mem, h.a, h.x, h.y, h.s, h.nz, h.c, h.vdi⟩) fun _ => rfl

theorem starting_store {a v : Int} (ha : 0 ≤ a ∧ a < 65536) : Tri E (Starting m0) (Machine.store a v) fun _ => Starting m0 := by
  intro m hm
  unfold Machine.store
  rw [if_pos ha]
  have hc := hm.ready.cpu
  exact ⟨hm.ready.setCpu (c := { m.cpu with mem := Machine.stored m.cpu.mem a v })
      ⟨stored_byte hc.mem a v, hc.a, hc.x, hc.y, hc.s, hc.nz, hc.c, hc.vdi⟩ hm.ready.time,
    ⟨hm.keeps.info, hm.keeps.song, hm.keeps.duration, hm.keeps.played, hm.keeps.silence, hm.keeps.rate, hm.keeps.pkRate⟩,
    hm.silenceLeft, hm.start, hm.stop⟩

theorem starting_frame : Tri PlayBad (Starting m0) Machine.do6502Frame fun _ => Starting m0 := fun m hm =>
  (ready_frame hm.ready).mono (fun _ x => Or.inl x) fun _ hx =>
    ⟨hx.2.1, hm.keeps.trans hx.2.2.1, hx.2.2.2.2.trans hm.silenceLeft, hx.2.2.2.1.start.trans hm.start, hx.2.2.2.1.stop.trans hm.stop⟩

theorem starting_initFrames : ∀ n, Tri PlayBad (Starting m0) (Machine.initFrames n) fun _ => Starting m0
  | 0 => fun _ _ => Or.inr rfl
  | n + 1 => starting_frame.bind fun _ => Tri.bindReg (φ := fun _ => True) (fun _ _ => trivial) fun _ _ =>
      Tri.ite (fun _ => Tri.pure fun _ h => h) fun _ => starting_initFrames n

theorem starting_do6502Init (pc a x y : Int) : Tri PlayBad (Starting m0) (Machine.do6502Init pc a x y) fun _ => Starting m0 := by
  unfold Machine.do6502Init
  generalize 50 = n
  exact starting_setPc.then <| (starting_setA (Byte.ff _)).then <| (starting_setX (Byte.ff _)).then <| (starting_setY (Byte.ff _)).then <|
    (starting_store (by omega)).then <| (starting_store (by omega)).then <| (starting_store (by omega)).then <|
    (starting_setS (by unfold Byte; decide)).then (starting_initFrames n)

theorem byte_0 : Byte 0 := ⟨Int.le_refl 0, by decide⟩

theorem starting_startProgram (pc : Int) {song : Int} (hs : Byte song) :
    Tri E (Starting m0) (Machine.startProgram pc song) fun _ => Starting m0 :=
  starting_setPc.then <| (starting_setA hs).then <| (starting_setX byte_0).then <| (starting_setY byte_0).then <|
    (starting_setS (by unfold Byte; decide))

theorem starting_setTmc (v : Int) : Tri E (Starting m0) (Machine.setTmc v) fun _ => Starting m0 :=
  Tri.modify fun _ hm => ⟨⟨hm.ready.cpu, hm.ready.time, hm.ready.chips, hm.ready.consol, hm.ready.covox, hm.ready.rate, hm.ready.tmc, hm.ready.window⟩,
    ⟨hm.keeps.info, hm.keeps.song, hm.keeps.duration, hm.keeps.played, hm.keeps.silence, hm.keeps.rate, hm.keeps.pkRate⟩,
    hm.silenceLeft, hm.start, hm.stop⟩

attribute [local irreducible] Machine.do6502Init in
theorem starting_initSong {song : Int} (hs : Byte song) : Tri PlayBad (Starting m0) (Machine.initSong song) fun _ => Starting m0 := by
  have any : ∀ {α β : Type} {f : Machine → β} {g : β → C α} {Q : α → Machine → Prop}, (∀ b, Tri PlayBad (Starting m0) (g b) Q) →
      Tri PlayBad (Starting m0) (C.get f >>= g) Q := fun h => Tri.bindGet (φ := fun _ => True) (fun _ _ => trivial) fun b _ => h b
  refine any fun player => any fun music => any fun init => any fun pos => any fun type => ?_
  cases type with
  | sapB => exact starting_do6502Init _ _ _ _
  | sapC => exact (starting_do6502Init _ _ _ _).then (starting_do6502Init _ _ _ _)
  | sapD => exact starting_startProgram _ hs
  | sapS => exact starting_startProgram _ hs
  | cmc => exact (starting_do6502Init _ _ _ _).then (starting_do6502Init _ _ _ _)
  | cm3 => exact (starting_do6502Init _ _ _ _).then (starting_do6502Init _ _ _ _)
  | cmr => exact (starting_do6502Init _ _ _ _).then (starting_do6502Init _ _ _ _)
  | cms => exact (starting_do6502Init _ _ _ _).then (starting_do6502Init _ _ _ _)
  | dlt => exact starting_do6502Init _ _ _ _
  | mpt => exact (starting_do6502Init _ _ _ _).then (starting_do6502Init _ _ _ _)
  | rmt => exact starting_do6502Init _ _ _ _
  | tmc => exact (starting_do6502Init _ _ _ _).then <| (starting_do6502Init _ _ _ _).then (starting_setTmc _)
  | tm2 => exact (starting_do6502Init _ _ _ _).then <| (starting_do6502Init _ _ _ _).then (starting_setTmc _)
  | fc => exact starting_do6502Init _ _ _ _

theorem starting_mute (mask : Int) : Tri E (Starting m0) (Machine.mutePokeyChannels mask) fun _ => Starting m0 :=
  Tri.modify fun m hm => by
    have hr : 0 ≤ m.pk.rate ∧ m.pk.rate ≤ 48000 := by have := hm.ready.rate; omega
    have hs := hm.ready.chips.step hr (.mute mask) trivial
    exact ⟨⟨hm.ready.cpu, hm.ready.time, hs, hm.ready.consol, hm.ready.covox, hm.ready.rate, hm.ready.tmc, hm.ready.window⟩,
      ⟨hm.keeps.info, hm.keeps.song, hm.keeps.duration, hm.keeps.played, hm.keeps.silence, hm.keeps.rate, hm.keeps.pkRate⟩,
      hm.silenceLeft, hm.start, hm.stop⟩

theorem starting_setNextPlayer (v : Int) : Tri E (Starting m0) (Machine.setNextPlayer v) fun _ => Starting m0 :=
  Tri.modify fun _ hm => ⟨⟨hm.ready.cpu, hm.ready.time, hm.ready.chips, hm.ready.consol, hm.ready.covox, hm.ready.rate, hm.ready.tmc, hm.ready.window⟩,
    ⟨hm.keeps.info, hm.keeps.song, hm.keeps.duration, hm.keeps.played, hm.keeps.silence, hm.keeps.rate, hm.keeps.pkRate⟩,
    hm.silenceLeft, hm.start, hm.stop⟩
end

/-- The machine at the beginning of `PlaySong`. -/
def Machine.atStart (m : Machine) (song duration : Int) : Machine :=
  { m with
    song := song, duration := duration, nextPlayer := never, played := 0, silenceLeft := m.silence
    cpu := Machine.resetCpu m.cpu, nmist := .onVBlank, consol := 8, covox := fun _ => 0x80
    pk := m.pk.initPair m.info.ntsc (decide (m.info.channels > 1)) m.rate
    told := [] }

theorem Loaded.atStart {m : Machine} (h : Loaded m) (song duration : Int) : Starting (m.atStart song duration) (m.atStart song duration) := by
  have hr := h.rate
  refine ⟨⟨?_, ⟨Int.le_refl 0, show (0 : Int) ≤ 113 by decide⟩, Pair.initPair_good (rate := m.rate) m.pk _ _ (by omega), show Byte 8 by unfold Byte; decide,
    fun _ => show Byte 0x80 by unfold Byte; decide, hr, h.tmc, Int.le_refl 0⟩, Keeps.refl _, rfl, rfl, rfl⟩
  exact ⟨h.cpu.mem, h.cpu.a, h.cpu.x, h.cpu.y, h.cpu.s, ⟨Int.le_refl 0, show (0 : Int) < 512 by decide⟩, Or.inl rfl, Or.inl rfl⟩

attribute [local irreducible] Machine.initSong in
/-- `PlaySong` on a loaded machine. -/
theorem loaded_playSong {m : Machine} (h : Loaded m) (song duration : Int) :
    XPost PlayBad (fun r => Starting (m.atStart song duration) r.2 ∧ 0 ≤ song ∧ song < m.info.songs) (Machine.playSong song duration m) := by
  show XPost PlayBad _ ((if song < 0 ∨ song ≥ m.info.songs then (C.fail .thrown : C Unit) else _) m)
  by_cases hc : song < 0 ∨ song ≥ m.info.songs
  · rw [if_pos hc]; exact Or.inr rfl
  · rw [if_neg hc]
    have hs := h.songs
    have key := ((starting_mute (m0 := m.atStart song duration) 0xff).then <|
      (starting_initSong (m0 := m.atStart song duration) (show Byte song by unfold Byte; omega)).then <|
      (starting_mute (m0 := m.atStart song duration) (E := PlayBad) 0).then (starting_setNextPlayer 0))
      (m.atStart song duration) (h.atStart song duration)
    exact key.mono (fun _ x => x) fun r hx => ⟨hx, by omega⟩

end Asap
