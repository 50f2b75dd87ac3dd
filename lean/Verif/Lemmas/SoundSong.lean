import Verif.Lemmas.Generate
import Verif.Lemmas.Cadence
import Verif.Lemmas.SoundOut
import Verif.Spec.SoundSong

/-! What the machine tells the chips while a song is started and played, as a history of the chips. -/

namespace Asap
open Machine (frameCycles)
open Spec (PairEvent runPair stepPair)
open Spec.Sound (stamps)

theorem runPair_snoc {q r s : Pair} {es : List PairEvent} {e : PairEvent} (h : runPair q es = .ok r) (k : stepPair r e = .ok s) :
    runPair q (es ++ [e]) = .ok s := by
  rw [runPair_append es [e] h]
  unfold runPair
  rw [k]; rfl

theorem runPair_cons {q r s : Pair} {es : List PairEvent} {e : PairEvent} (h : stepPair q e = .ok r) (k : runPair r es = .ok s) :
    runPair q (e :: es) = .ok s := by
  unfold runPair
  rw [h]; exact k

/-- What happens in a frame of `n` cycles that begins in `m` and ends in `m'`. -/
structure Told (m : Machine) (n : Int) (es : List PairEvent) (m' : Machine) : Prop where
  told : m'.told = (loud (es ++ [.timers n])).reverse ++ m.told
  driven : ∀ e ∈ es, Driven e
  order : (stamps 0 es).Pairwise (· ≤ ·)
  range : ∀ x ∈ stamps 0 es, m.cpu.cycle ≤ x ∧ x ≤ m'.cpu.cycle + n

/-- `Do6502Frame`. -/
theorem frame_told {m : Machine} (h : Ready m) :
    XPost Any (fun r => ∃ es, runPair m.pk (es ++ [.timers (frameCycles m.info.ntsc)]) = .ok r.2.pk ∧ Told m (frameCycles m.info.ntsc) es r.2)
      (Machine.do6502Frame m) := by
  have hr : 0 ≤ m.pk.rate ∧ m.pk.rate ≤ 48000 := by have := h.rate; omega
  have hf := frameCycles_range m.info.ntsc
  have hk := ok_cpuFrame (m0 := m.sched 0 m.nextPlayer) h.tmc hr (limit := frameCycles m.info.ntsc) (by omega)
    (Machine.frameFuel (frameCycles m.info.ntsc)) _ h.between (stepsLeft_start (by omega) h.time.1)
  show XPost Any _ (C.bind (Machine.cpuFrame (frameCycles m.info.ntsc) (Machine.frameFuel (frameCycles m.info.ntsc))) _ _)
  unfold C.bind
  cases hx : Machine.cpuFrame (frameCycles m.info.ntsc) (Machine.frameFuel (frameCycles m.info.ntsc))
    { m with nextEvent := 0, nextScan := 0, nmist := if m.nmist = .reset then .onVBlank else .wasVBlank } with
  | error e => trivial
  | ok r =>
    rw [hx] at hk
    obtain ⟨hb, -⟩ := hk
    obtain ⟨-, es, h1, h2, h3, h4, h5⟩ := hb.ok.trail
    have e1 : runPair m.pk es = .ok r.2.pk := h1
    have e2 : r.2.told = (loud es).reverse ++ m.told := h2
    have e5 : ∀ x ∈ stamps 0 es, m.cpu.cycle ≤ x ∧ x ≤ r.2.cpu.cycle := h5
    refine ⟨es, runPair_snoc e1 rfl, ⟨?_, h3, h4, fun x hx => ⟨(e5 x hx).1, ?_⟩⟩⟩
    · show .frame (frameCycles m.info.ntsc) :: r.2.told = _
      rw [e2, loud_append, List.reverse_append]; rfl
    · have := (e5 x hx).2
      show x ≤ r.2.cpu.cycle - frameCycles m.info.ntsc + frameCycles m.info.ntsc
      omega

/-- `DoFrame`. -/
theorem doFrame_told {m : Machine} (h : Ready m) :
    XPost Any (fun r => ∃ es, runPair m.pk (.start :: (es ++ [.timers (frameCycles m.info.ntsc)]) ++ [.finish (frameCycles m.info.ntsc)]) = .ok r.2.pk ∧
      Told m (frameCycles m.info.ntsc) es r.2 ∧
      r.2.pk.readyEnd = shr (m.pk.offset + frameCycles m.info.ntsc * m.pk.factor) 18 ∧
      r.2.pk.offset = band (m.pk.offset + frameCycles m.info.ntsc * m.pk.factor) ((1 <<< 18) - 1) ∧ r.2.pk.factor = m.pk.factor)
      (Machine.doFrame m) := by
  have hr : 0 ≤ m.pk.rate ∧ m.pk.rate ≤ 48000 := by have := h.rate; omega
  have h1 := h.chips.step hr .start trivial
  have h2 := startFrame_frame m.pk
  simp only [Spec.stepPair] at h1
  show XPost Any _ (C.bind Machine.startChips _ { m with external := false })
  have hs : Machine.startChips { m with external := false } =
      match m.pk.startFrame with
      | .ok q => .ok ((), { m with external := false, pk := q })
      | .error e => .error e := by
    show C.chips _ _ = _
    unfold C.chips
    dsimp only
    cases m.pk.startFrame <;> rfl
  unfold C.bind
  rw [hs]
  cases hx : m.pk.startFrame with
  | error e => trivial
  | ok q =>
    rw [hx] at h1 h2
    dsimp only
    have e1 : q.readyStart = m.pk.readyStart := h2.start
    have e2 : q.readyEnd = m.pk.readyEnd := h2.stop
    have e3 : q.rate = m.pk.rate := h2.rate
    have hm1 : Ready { m with external := false, pk := q } :=
      ⟨h.cpu, h.time, chipsOk_congr (a := m) (b := { m with external := false, pk := q }) e3 rfl h1, h.consol, h.covox, show 100 ≤ q.rate ∧ q.rate ≤ 48000 by rw [e3]; exact h.rate,
        h.tmc, show q.readyStart ≤ q.readyEnd by rw [e1, e2]; exact h.window⟩
    have hk := ready_frame hm1
    have ht := frame_told hm1
    show XPost Any _ (C.bind Machine.do6502Frame _ _)
    unfold C.bind
    cases hy : Machine.do6502Frame { m with external := false, pk := q } with
    | error e => trivial
    | ok r =>
      rw [hy] at hk ht
      obtain ⟨hc, hm2, hkeep, hfr, hsil⟩ := hk
      obtain ⟨es, g1, g2⟩ := ht
      dsimp only
      obtain ⟨cyc, m2⟩ := r
      have hc : cyc = frameCycles m.info.ntsc := hc
      subst hc
      have g1 : runPair q (es ++ [.timers (frameCycles m.info.ntsc)]) = .ok m2.pk := g1
      generalize frameCycles m.info.ntsc = n at *
      have he : Machine.endChips n m2 =
          match m2.pk.endFrame n with
          | .ok q => .ok ((), { m2 with pk := q })
          | .error e => .error e := by
        show C.chips _ _ = _
        unfold C.chips
        dsimp only
        cases m2.pk.endFrame n <;> rfl
      have hend : XPost (fun _ => True) (fun r => r.readyEnd = shr (m2.pk.offset + n * m2.pk.factor) 18 ∧
          r.offset = band (m2.pk.offset + n * m2.pk.factor) ((1 <<< 18) - 1) ∧ r.factor = m2.pk.factor) (m2.pk.endFrame n) := by
        unfold Pair.endFrame
        refine XPost.bind (P := fun _ => True) ?_ fun b _ => XPost.bind (P := fun _ => True) ?_ fun e _ => ⟨rfl, rfl, rfl⟩
        · cases m2.pk.base.endFrame m2.pk.cfg n <;> trivial
        · cases m2.pk.endExtra n <;> trivial
      show XPost Any _ (C.bind (Machine.endChips n) _ m2)
      unfold C.bind
      rw [he]
      cases hz : m2.pk.endFrame n with
      | error e => trivial
      | ok q3 =>
        rw [hz] at hend
        have f1 : m2.pk.factor = m.pk.factor := hfr.factor.trans h2.factor
        have f2 : m2.pk.offset = m.pk.offset := hfr.offset.trans h2.offset
        rw [f1, f2] at hend
        refine ⟨es, ?_, ⟨g2.told, g2.driven, g2.order, g2.range⟩, hend⟩
        refine runPair_snoc (r := m2.pk) (runPair_cons (r := q) hx g1) hz

/-! ### Starting a song -/

/-- What may happen to the chips while a song is started. -/
def Opening (e : PairEvent) : Prop := Driven e ∨ ∃ n, e = .timers n

/-- The chips come from those of `m0` by what the record says. -/
def Intro (m0 m : Machine) : Prop := ∃ es, runPair m0.pk es = .ok m.pk ∧ m.told = (loud es).reverse ++ m0.told ∧ (∀ e ∈ es, Opening e) ∧
  m.pk.offset = m0.pk.offset

theorem Intro.refl (m : Machine) : Intro m m := ⟨[], rfl, rfl, nofun, rfl⟩

/-- While a song is started. -/
def Setting (m0 m : Machine) : Prop := Starting m0 m ∧ Intro m0 m

section
variable {m0 : Machine}

theorem setting_setCpu {f : Cpu → Cpu} (h : Tri PlayBad (Starting m0) (C.setCpu f) fun _ => Starting m0) :
    Tri Any (Setting m0) (C.setCpu f) fun _ => Setting m0 :=
  h.with (P' := Intro m0) (Tri.setCpu fun _ hm => hm)

theorem setting_store {a v : Int} (ha : 0 ≤ a ∧ a < 65536) : Tri Any (Setting m0) (Machine.store a v) fun _ => Setting m0 := by
  refine (starting_store (E := PlayBad) ha).with (P' := Intro m0) (Q' := fun _ => Intro m0) fun m hm => ?_
  unfold Machine.store
  rw [if_pos ha]
  exact hm

theorem setting_frame : Tri Any (Setting m0) Machine.do6502Frame fun _ => Setting m0 := by
  intro m hm
  have h1 := starting_frame m hm.1
  have h2 := frame_told hm.1.ready
  have h3 := ready_frame hm.1.ready
  cases hx : Machine.do6502Frame m with
  | error e => trivial
  | ok r =>
    rw [hx] at h1 h2 h3
    obtain ⟨es, g1, g2⟩ := h2
    obtain ⟨fs, k1, k2, k3, k4⟩ := hm.2
    refine ⟨h1, fs ++ (es ++ [.timers (frameCycles m.info.ntsc)]), ?_, ?_, ?_, h3.2.2.2.1.offset.trans k4⟩
    · rw [runPair_append fs _ k1]; exact g1
    · rw [g2.told, k2, loud_append fs, List.reverse_append, List.append_assoc]
    · intro e he
      rcases List.mem_append.1 he with he | he
      · exact k3 e he
      · rcases List.mem_append.1 he with he | he
        · exact Or.inl (g2.driven e he)
        · exact Or.inr ⟨_, List.mem_singleton.1 he⟩

theorem setting_initFrames : ∀ n, Tri Any (Setting m0) (Machine.initFrames n) fun _ => Setting m0
  | 0 => fun _ _ => trivial
  | n + 1 => setting_frame.bind fun _ => Tri.bindReg (φ := fun _ => True) (fun _ _ => trivial) fun _ _ =>
      Tri.ite (fun _ => Tri.pure fun _ h => h) fun _ => setting_initFrames n

theorem setting_do6502Init (pc a x y : Int) : Tri Any (Setting m0) (Machine.do6502Init pc a x y) fun _ => Setting m0 := by
  unfold Machine.do6502Init
  generalize 50 = n
  exact (setting_setCpu starting_setPc).then <| (setting_setCpu (starting_setA (Byte.ff _))).then <|
    (setting_setCpu (starting_setX (Byte.ff _))).then <| (setting_setCpu (starting_setY (Byte.ff _))).then <|
    (setting_store (by omega)).then <| (setting_store (by omega)).then <| (setting_store (by omega)).then <|
    (setting_setCpu (starting_setS (by unfold Byte; decide))).then (setting_initFrames n)

theorem setting_startProgram (pc : Int) {song : Int} (hs : Byte song) :
    Tri Any (Setting m0) (Machine.startProgram pc song) fun _ => Setting m0 :=
  (setting_setCpu starting_setPc).then <| (setting_setCpu (starting_setA hs)).then <| (setting_setCpu (starting_setX byte_0)).then <|
    (setting_setCpu (starting_setY byte_0)).then (setting_setCpu (starting_setS (by unfold Byte; decide)))

theorem setting_setTmc (v : Int) : Tri Any (Setting m0) (Machine.setTmc v) fun _ => Setting m0 :=
  (starting_setTmc (E := PlayBad) v).with (P' := Intro m0) (Tri.modify fun _ hm => hm)

attribute [local irreducible] Machine.do6502Init in
theorem setting_initSong {song : Int} (hs : Byte song) : Tri Any (Setting m0) (Machine.initSong song) fun _ => Setting m0 := by
  have any : ∀ {α β : Type} {f : Machine → β} {g : β → C α} {Q : α → Machine → Prop}, (∀ b, Tri Any (Setting m0) (g b) Q) →
      Tri Any (Setting m0) (C.get f >>= g) Q := fun h => Tri.bindGet (φ := fun _ => True) (fun _ _ => trivial) fun b _ => h b
  have two : ∀ pc a x y pc' a' x' y', Tri Any (Setting m0) (do
      Machine.do6502Init pc a x y
      Machine.do6502Init pc' a' x' y') fun _ => Setting m0 := fun pc a x y pc' a' x' y' =>
    (setting_do6502Init _ _ _ _).then (setting_do6502Init _ _ _ _)
  have three : ∀ pc a x y pc' a' x' y', Tri Any (Setting m0) (do
      Machine.do6502Init pc a x y
      Machine.do6502Init pc' a' x' y'
      Machine.setTmc 1) fun _ => Setting m0 := fun pc a x y pc' a' x' y' =>
    (setting_do6502Init _ _ _ _).then <| (setting_do6502Init _ _ _ _).then (setting_setTmc _)
  refine any fun player => any fun music => any fun init => any fun pos => any fun type => ?_
  cases type with
  | sapB => exact setting_do6502Init _ _ _ _
  | sapC => exact two _ _ _ _ _ _ _ _
  | sapD => exact setting_startProgram _ hs
  | sapS => exact setting_startProgram _ hs
  | cmc => exact two _ _ _ _ _ _ _ _
  | cm3 => exact two _ _ _ _ _ _ _ _
  | cmr => exact two _ _ _ _ _ _ _ _
  | cms => exact two _ _ _ _ _ _ _ _
  | dlt => exact setting_do6502Init _ _ _ _
  | mpt => exact two _ _ _ _ _ _ _ _
  | rmt => exact setting_do6502Init _ _ _ _
  | tmc => exact three _ _ _ _ _ _ _ _
  | tm2 => exact three _ _ _ _ _ _ _ _
  | fc => exact setting_do6502Init _ _ _ _
end

attribute [local irreducible] Machine.initSong in
/-- The chips after `PlaySong`. -/
theorem playSong_told {m : Machine} (h : Loaded m) (song duration : Int) :
    XPost Any (fun r => ∃ es, runPair (m.pk.initPair m.info.ntsc (decide (m.info.channels > 1)) m.rate) (.mute 255 :: es ++ [.mute 0]) = .ok r.2.pk ∧
      r.2.told = (loud es).reverse ∧ (∀ e ∈ es, Opening e) ∧ r.2.pk.offset = 0) (Machine.playSong song duration m) := by
  show XPost Any _ ((if song < 0 ∨ song ≥ m.info.songs then (C.fail .thrown : C Unit) else _) m)
  by_cases hc : song < 0 ∨ song ≥ m.info.songs
  · rw [if_pos hc]; trivial
  · rw [if_neg hc]
    have hs := h.songs
    have h0 := starting_mute (m0 := m.atStart song duration) (E := PlayBad) 0xff (m.atStart song duration) (h.atStart song duration)
    let a : Machine := { m.atStart song duration with
      pk := { (m.atStart song duration).pk with
        base := (m.atStart song duration).pk.base.muteAll 0xff, extra := (m.atStart song duration).pk.extra.muteAll (shr 0xff 4) } }
    have h1 : Starting a a := by
      have h2 : Starting (m.atStart song duration) a := h0
      exact ⟨h2.ready, Keeps.refl _, rfl, h2.start, h2.stop⟩
    have key := setting_initSong (m0 := a) (show Byte song by unfold Byte; omega) a ⟨h1, Intro.refl a⟩
    show XPost Any _ (C.bind (Machine.initSong song) _ a)
    unfold C.bind
    cases hx : Machine.initSong song a with
    | error e => trivial
    | ok r =>
      rw [hx] at key
      obtain ⟨-, es, g1, g2, g3, g4⟩ := key
      refine ⟨es, ?_, ?_, g3, g4⟩
      · refine runPair_snoc (r := r.2.pk) (runPair_cons (r := a.pk) rfl g1) rfl
      · show r.2.told = _
        rw [g2]
        show (loud es).reverse ++ [] = _
        rw [List.append_nil]

end Asap
