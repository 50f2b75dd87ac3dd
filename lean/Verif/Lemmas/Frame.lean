import Verif.Lemmas.CpuInstr
import Verif.Lemmas.Observe

/-! A frame of the machine ends and keeps the invariant. -/

namespace Asap

/-- The byte read by the TMC player is in the emulated memory. -/
def TmcOk (i : Info) : Prop := i.type = .tmc → 0 ≤ i.music + 0x1f ∧ i.music + 0x1f < 65536

/-- `m0` with other times of the next scan line and of the next player call. -/
def Machine.sched (m0 : Machine) (s p : Int) : Machine := { m0 with nextScan := s, nextPlayer := p }

section
variable {E : Hw → Prop} {m0 : Machine} {β : Int → Int} {b s p lo hi elo ehi : Int}

local notation "OK" => Ok (m0.sched s p) β lo hi elo ehi
local notation "MUM" => Ok (m0.sched s p) (fun _ => b) lo hi elo ehi

theorem ok_storeCode : ∀ (bs : List Int) (a : Int), 0 ≤ a → a + bs.length ≤ 65536 → Tri E OK (Machine.storeCode a bs) fun _ => OK
  | [], _, _, _ => Tri.pure fun _ h => h
  | b :: bs, a, h0, h1 => by
    have hl : ((b :: bs).length : Int) = bs.length + 1 := by simp
    exact (ok_store (by omega)).then (ok_storeCode bs (a + 1) (by omega) (by omega))

theorem ok_call6502 (a : Int) : Tri E OK (Machine.call6502 a) fun _ => OK :=
  (ok_storeCode _ _ (by decide) (by simp)).then ok_setPc

theorem ok_setTmc (v : Int) : Tri E OK (Machine.setTmc v) fun _ => OK :=
  Tri.modify fun _ h => ⟨h.cpu, h.time, h.event, h.chips, h.consol, h.covox,
    ⟨h.kept.info, h.kept.nextScan, h.kept.nextPlayer, h.kept.song, h.kept.duration, h.kept.played, h.kept.silence,
      h.kept.silenceLeft, h.kept.rate, h.kept.frame⟩, h.trail⟩

theorem ok_setNextScan (v : Int) : Tri E OK (Machine.setNextScan v) fun _ => Ok (m0.sched v p) β lo hi elo ehi :=
  Tri.modify fun _ h => ⟨h.cpu, h.time, h.event, h.chips, h.consol, h.covox,
    ⟨h.kept.info, rfl, h.kept.nextPlayer, h.kept.song, h.kept.duration, h.kept.played, h.kept.silence,
      h.kept.silenceLeft, h.kept.rate, h.kept.frame⟩, h.trail⟩

theorem ok_setNextPlayer (v : Int) : Tri E OK (Machine.setNextPlayer v) fun _ => Ok (m0.sched s v) β lo hi elo ehi :=
  Tri.modify fun _ h => ⟨h.cpu, h.time, h.event, h.chips, h.consol, h.covox,
    ⟨h.kept.info, h.kept.nextScan, rfl, h.kept.song, h.kept.duration, h.kept.played, h.kept.silence,
      h.kept.silenceLeft, h.kept.rate, h.kept.frame⟩, h.trail⟩

theorem ok_setNextEvent {v elo' ehi' : Int} (h : elo' ≤ v ∧ v ≤ ehi') :
    Tri E OK (Machine.setNextEvent v) fun _ => Ok (m0.sched s p) β lo hi elo' ehi' :=
  Tri.modify fun _ hm => hm.setEvent h

theorem readScan {α : Type} {g : Int → C α} {Q : α → Machine → Prop} (k : Tri E OK (g s) Q) : Tri E OK (C.get (·.nextScan) >>= g) Q :=
  Tri.bindGet (φ := fun v => v = s) (fun _ h => h.kept.nextScan) fun _ hv => by rw [hv]; exact k

theorem readPlayer {α : Type} {g : Int → C α} {Q : α → Machine → Prop} (k : Tri E OK (g p) Q) : Tri E OK (C.get (·.nextPlayer) >>= g) Q :=
  Tri.bindGet (φ := fun v => v = p) (fun _ h => h.kept.nextPlayer) fun _ hv => by rw [hv]; exact k

/-- A reader of the information about the file. -/
theorem readInfo {α β : Type} {f : Info → β} {g : β → C α} {Q : α → Machine → Prop} (k : Tri E OK (g (f m0.info)) Q) :
    Tri E OK (C.get (fun m => f m.info) >>= g) Q :=
  Tri.bindGet (φ := fun v => v = f m0.info) (fun m h => congrArg f h.kept.info) fun _ hv => by rw [hv]; exact k

theorem ok_callSapD (a : Int) : Tri E OK (Machine.callSapD a) fun _ => OK := by
  unfold Machine.callSapD
  generalize h : Machine.sapDCode a = l
  have hl : l.length = 15 := by rw [← h]; rfl
  exact Tri.when (fun _ => ok_pushPc.then <| (ok_storeCode _ _ (by decide) (by rw [hl]; omega)).then ok_setPc) fun _ _ h => h

theorem ok_callSapS : Tri E OK Machine.callSapS fun _ => OK :=
  (ok_load (by omega)).bindF fun _ _ => (ok_store (by omega)).then <|
    Tri.when (fun _ => (ok_load (by omega)).bindF fun _ _ => ok_store (by omega)) fun _ _ h => h

theorem ok_callTmc (h : 0 ≤ m0.info.music + 0x1f ∧ m0.info.music + 0x1f < 65536) (a : Int) : Tri E OK (Machine.callTmc a) fun _ => OK :=
  Tri.bindGet (φ := fun _ => True) (fun _ _ => trivial) fun _ _ => (ok_setTmc _).then <|
    Tri.ite (fun _ => readInfo (f := (·.music)) <| (ok_load h).bindF fun _ _ => (ok_setTmc _).then (ok_call6502 _))
      fun _ => ok_call6502 _

theorem ok_callPlayer (h : TmcOk m0.info) : Tri E OK Machine.callPlayer fun _ => OK := by
  refine readInfo (f := (·.player)) <| readInfo (f := (·.type)) ?_
  cases ht : m0.info.type <;> first | exact ok_call6502 _ | exact ok_callSapD _ | exact ok_callSapS | exact ok_callTmc (h ht) _

/-- What the check for a player call at `c` does to the time of the next one, and its log. -/
def Called (m0 : Machine) (x : Option Int) (p c p' : Int) : Prop :=
  (c < p ∧ p' = p ∧ x = none) ∨ (p ≤ c ∧ p' = p + 114 * m0.info.fastplay ∧ x = some c)

theorem ok_logScanline (h : TmcOk m0.info) {T : Int} (hT : hi ≤ T) (hT9 : lo - s < 50 → hi + 9 ≤ T) :
    Tri E MUM Spec.logScanline fun x m => ∃ c p', (lo ≤ c ∧ c ≤ T) ∧ Called m0 x p c p' ∧ Ok (m0.sched (s + 114) p') (fun _ => b) lo T elo ehi m := by
  refine readCycle fun c hc => readScan ?_
  refine Tri.then (P' := Ok (m0.sched s p) (fun _ => b) lo T elo ehi) ?_ ?_
  · exact Tri.when (fun _ => (ok_addCycle 9).post fun _ _ h => h.widen (by omega) (hT9 (by omega))) fun _ _ h => h.widen (by omega) (by omega)
  refine (ok_setNextScan _).then <| readCycle fun c hc => readPlayer ?_
  refine Tri.ite (fun hp => ?_) fun hp => Tri.pure fun m hm => ?_
  · refine (ok_callPlayer h).then <| readPlayer <| readInfo (f := (·.fastplay)) ?_
    exact (ok_setNextPlayer _).then <| Tri.pure fun m hm => ⟨c, _, hc, Or.inr ⟨by omega, rfl, rfl⟩, hm⟩
  · exact ⟨c, p, hc, Or.inl ⟨by omega, rfl, rfl⟩, hm⟩

/-- When the player may be called in a scan line that began at `s`. -/
def late (s c : Int) : Int := if c - s < 50 then c + 9 else c

/-- The timers: the next event is not later than the next scan line, and it is in the future if the next scan line is. -/
theorem ok_checkTimers (hr : 0 ≤ m0.pk.rate ∧ m0.pk.rate ≤ 48000) (hlo : 0 ≤ lo) (hhi : hi ≤ Pair.latest) {c n : Int}
    (hc : 0 ≤ c ∧ c ≤ Pair.latest) (hn : 0 ≤ n) :
    Tri CpuBad OK (Machine.checkTimers c n) fun t m => OK m ∧ 0 ≤ t ∧ t ≤ n ∧ (c < n → c < t) := by
  refine Tri.chips fun m hm => ?_
  have h1 := Pokey.checkIrq_time' m.pk.base hc.1 hn
  have h2 := Pokey.checkIrq_time' m.pk.extra hc.1 h1.1
  have h3 : c < n → c < (m.pk.extra.checkIrq c (m.pk.base.checkIrq c n).1).1 := fun h =>
    (Pokey.checkIrq_time m.pk.extra (Pokey.checkIrq_time m.pk.base h).1).1
  have hs := hm.chips.step hr (.irq c n (m.pk.base.checkIrq c n).1) trivial
  exact ⟨hm.tell hs (Pair.Frame.chips _ _ _) (.irq c n (m.pk.base.checkIrq c n).1) rfl trivial nofun, h2.1, by omega, h3⟩

/-- An event: either the next scan line moved, or the next event is now in the future. -/
theorem ok_logEvent (h : TmcOk m0.info) (hr : 0 ≤ m0.pk.rate ∧ m0.pk.rate ≤ 48000) {c : Int} (hc : 0 ≤ c) (hhi : c + 9 ≤ Pair.latest)
    (hs : 0 ≤ s) (hl : late s c < s + 114) :
    Tri CpuBad (Ok (m0.sched s p) (fun _ => b) c c elo ehi) Spec.logEvent fun log m =>
      (c < s ∧ log = [] ∧ Ok (m0.sched s p) (fun _ => b) c (c + 9) (c + 1) s m) ∨
      (s ≤ c ∧ ∃ x c' p', log = [x] ∧ (c ≤ c' ∧ c' ≤ late s c) ∧ Called m0 x p c' p' ∧ Ok (m0.sched (s + 114) p') (fun _ => b) c (c + 9) (c + 1) (s + 114) m) := by
  refine readCycle fun c0 hc0 => readScan ?_
  obtain rfl : c0 = c := by omega
  by_cases hcs : c0 ≥ s
  · refine Tri.bind (Q := fun log m => ∃ x c' p', log = [x] ∧ (c0 ≤ c' ∧ c' ≤ late s c0) ∧ Called m0 x p c' p' ∧ Ok (m0.sched (s + 114) p') (fun _ => b) c0 (late s c0) elo ehi m) ?_ ?_
    · unfold Spec.logIf
      rw [if_pos hcs]
      refine (ok_logScanline h (T := late s c0) (by unfold late; split <;> omega) fun hx => by unfold late; rw [if_pos hx]; omega).bind
        fun x => Tri.pure fun m hm => ?_
      obtain ⟨c', p', h1, h2, h3⟩ := hm
      exact ⟨x, c', p', rfl, h1, h2, h3⟩
    · intro log m hm
      obtain ⟨x, c', p', h0, h1, h2, h3⟩ := hm
      have key : Tri CpuBad (Ok (m0.sched (s + 114) p') (fun _ => b) c0 (late s c0) elo ehi) (do
          let cycle ← C.reg (·.cycle)
          let nextScan ← C.get (·.nextScan)
          let next ← Machine.checkTimers cycle nextScan
          Machine.setNextEvent next
          pure log) fun l m => l = log ∧ Ok (m0.sched (s + 114) p') (fun _ => b) c0 (c0 + 9) (c0 + 1) (s + 114) m := by
        have hl9 : late s c0 ≤ c0 + 9 := by unfold late; split <;> omega
        refine readCycle fun c1 hc1 => readScan ?_
        exact (ok_checkTimers hr (by omega) (by omega) (by omega) (by omega)).bindF fun t ht =>
          (ok_setNextEvent (by have := ht.2.2 (by omega); omega)).then <| Tri.pure fun m hm => ⟨rfl, hm.widen (by omega) (by omega)⟩
      exact (key m h3).mono (fun _ x => x) fun r hm => Or.inr ⟨hcs, x, c', p', hm.1.trans h0, h1, h2, hm.2⟩
  · unfold Spec.logIf
    rw [if_neg hcs]
    refine Tri.bind (Q := fun log m => log = [] ∧ Ok (m0.sched s p) (fun _ => b) c0 c0 elo ehi m) (Tri.pure fun m hm => ⟨rfl, hm⟩) fun log => Tri.fact fun hlog => ?_
    refine readCycle fun c1 hc1 => readScan ?_
    refine (ok_checkTimers hr (by omega) (by omega) (by omega) (by omega)).bindF fun t ht => ?_
    refine (ok_setNextEvent (elo' := c0 + 1) (ehi' := s) (by have := ht.2.2 (by omega); omega)).then <| Tri.pure fun m hm => Or.inl ⟨by omega, hlog, ?_⟩
    exact hm.widen (by omega) (by omega)

/-- One iteration of the loop: the clock advances or the next scan line moves. -/
theorem ok_logStep (h : TmcOk m0.info) (hr : 0 ≤ m0.pk.rate ∧ m0.pk.rate ≤ 48000) {c : Int} (hc : 0 ≤ c) (hhi : c + 25 ≤ Pair.latest)
    (hs : 0 ≤ s) (hl : late s c < s + 114) {B : Int} (h31 : c + 31 ≤ B) (hB : ∀ n : Int, n ≤ c + 25 → n + (106 - n) % 114 ≤ B) :
    Tri CpuBad (Ok (m0.sched s p) id c c 0 s) Spec.logStep fun log m =>
      (c < s ∧ log = [] ∧ Ok (m0.sched s p) id (c + 1) (if s ≤ B then B else s) 0 s m) ∨
      (s ≤ c ∧ ∃ x c' p', log = [x] ∧ (c ≤ c' ∧ c' ≤ late s c) ∧ Called m0 x p c' p' ∧
        Ok (m0.sched (s + 114) p') id 0 (if s + 114 ≤ B then B else s + 114) 0 (s + 114) m) := by
  refine Tri.bind (Q := fun log m => (c < s ∧ log = [] ∧ Ok (m0.sched s p) (fun _ => c) c (c + 16) (c + 1) s m) ∨
      (s ≤ c ∧ ∃ x c' p', log = [x] ∧ (c ≤ c' ∧ c' ≤ late s c) ∧ Called m0 x p c' p' ∧ Ok (m0.sched (s + 114) p') (fun _ => c) c (c + 16) (c + 1) (s + 114) m)) ?_ ?_
  · refine readCycle fun c0 hc0 => ?_
    obtain rfl : c0 = c := by omega
    refine Tri.bind (Q := fun v m => Ok (m0.sched s p) (fun _ => c0) c0 c0 0 s m ∧ m.nextEvent = v) (Tri.get fun m hm => ⟨hm.at, rfl⟩) fun v => ?_
    refine Tri.ite (fun he => ?_) fun he => Tri.pure fun m hm => Or.inl ?_
    · refine Tri.pre ?_ fun m (hm : Ok (m0.sched s p) (fun _ => c0) c0 c0 0 s m ∧ m.nextEvent = v) => hm.1
      refine (ok_logEvent h hr hc (by omega) hs hl).bind fun log m hm => ?_
      rcases hm with ⟨h1, h0, hm⟩ | ⟨h1, x, c', p', h0, h2, h3, hm⟩
      · exact ((ok_checkIrq.then <| Tri.pure (Q := fun l m => l = log ∧ Ok (m0.sched s p) (fun _ => c0) c0 (c0 + 16) (c0 + 1) s m)
          fun m hm => ⟨rfl, hm.widen (by omega) (by omega)⟩) m hm).mono (fun _ x => x)
          fun r hr => Or.inl ⟨h1, hr.1.trans h0, hr.2⟩
      · exact ((ok_checkIrq.then <| Tri.pure (Q := fun l m => l = log ∧ Ok (m0.sched (s + 114) p') (fun _ => c0) c0 (c0 + 16) (c0 + 1) (s + 114) m)
          fun m hm => ⟨rfl, hm.widen (by omega) (by omega)⟩) m hm).mono (fun _ x => x)
          fun r hr => Or.inr ⟨h1, x, c', p', hr.1.trans h0, h2, h3, hr.2⟩
    · have := hm.1.event
      exact ⟨by omega, rfl, hm.1.cpu, by have := hm.1.time; omega, by omega, hm.1.chips, hm.1.consol, hm.1.covox, hm.1.kept, hm.1.trail⟩
  · intro log m hm
    rcases hm with ⟨h1, h0, hm⟩ | ⟨h1, x, c', p', h0, h2, h3, hm⟩
    · have key := (ok_instruction (m0 := m0.sched s p) (b := c) (lo := c) (hi := c + 16) (elo := c + 1) (ehi := s) hr (by omega) (by omega) (by omega) (by omega) (by omega) (B := B)
        (by omega) (fun n hn => hB n (by omega))).then (Tri.pure (E := CpuBad) (a := log)
        (Q := fun l m => l = log ∧ Ok (m0.sched s p) id (if c + 1 ≤ c + 2 then c + 1 else c + 2) (if s ≤ B then B else s) (c + 1) s m) fun m hm => ⟨rfl, hm⟩)
      refine (key m hm).mono (fun _ x => x) fun r hr => Or.inl ⟨h1, hr.1.trans h0, ?_⟩
      have hr := hr.2
      exact ⟨hr.cpu, by have := hr.time; repeat' split at this
                        all_goals (split <;> omega), by have := hr.event; omega, hr.chips, hr.consol, hr.covox, hr.kept, hr.trail⟩
    · have key := (ok_instruction (m0 := m0.sched (s + 114) p') (b := c) (lo := c) (hi := c + 16) (elo := c + 1) (ehi := s + 114) hr (by omega) (by omega) (by omega) (by omega) (by omega) (B := B)
        (by omega) (fun n hn => hB n (by omega))).then (Tri.pure (E := CpuBad) (a := log)
        (Q := fun l m => l = log ∧ Ok (m0.sched (s + 114) p') id (if c + 1 ≤ c + 2 then c + 1 else c + 2) (if s + 114 ≤ B then B else s + 114) (c + 1) (s + 114) m) fun m hm => ⟨rfl, hm⟩)
      refine (key m hm).mono (fun _ x => x) fun r hr => Or.inr ⟨h1, x, c', p', hr.1.trans h0, h2, h3, ?_⟩
      exact (hr.2.widen (by split <;> omega) (Int.le_refl _)).widenEvent (by omega) (Int.le_refl _)

/-- The state between instructions of a frame of `limit` cycles.  The clock is at most one scan line behind. -/
structure Between (m0 : Machine) (limit : Int) (m : Machine) : Prop where
  scan : 0 ≤ m.nextScan ∧ m.nextScan ≤ limit ∧ m.nextScan % 114 = 0
  ok : Ok (m0.sched m.nextScan m.nextPlayer) id 0 (m.nextScan + 113) 0 m.nextScan m

/-- Iterations of the loop that are left. -/
def stepsLeft (limit s c : Int) : Int := (if s < limit then (limit - s + 113) / 114 else 0) * (limit + 1) + (limit - c)

/-- An iteration of the loop, in which either nothing is scheduled, or a scan line begins, in which the player may be called. -/
def Iterated (m0 m : Machine) (log : Spec.Log) (m' : Machine) : Prop :=
  log = [] ∧ m'.nextScan = m.nextScan ∧ m.cpu.cycle < m'.cpu.cycle ∧ m'.nextPlayer = m.nextPlayer ∨
  m.nextScan ≤ m.cpu.cycle ∧ m'.nextScan = m.nextScan + 114 ∧
    ∃ x c, log = [x] ∧ (m.nextScan ≤ c ∧ c < m.nextScan + 114) ∧ Called m0 x m.nextPlayer c m'.nextPlayer

theorem between_log (h : TmcOk m0.info) (hr : 0 ≤ m0.pk.rate ∧ m0.pk.rate ≤ 48000) {limit : Int}
    (hl : 0 ≤ limit ∧ limit ≤ 312 * 114 ∧ limit % 114 = 0) {m : Machine} (hm : Between m0 limit m) (hc : m.cpu.cycle < limit) :
    XPost CpuBad (fun r => Between m0 limit r.2 ∧ Iterated m0 m r.1 r.2) (Spec.logStep m) := by
  have h0 := hm.ok.time
  have hs := hm.scan
  have hlat : (Pair.latest : Int) = 312 * 114 + 34 := rfl
  have hk := ok_logStep h hr (c := m.cpu.cycle) (s := m.nextScan) (p := m.nextPlayer) (B := if m.nextScan ≤ m.cpu.cycle then m.nextScan + 227 else m.nextScan + 113)
    h0.1 (by omega) hs.1 (by unfold late; split <;> omega) (by split <;> omega) (fun n hn => by split <;> omega) m
    ⟨hm.ok.cpu, ⟨Int.le_refl _, Int.le_refl _⟩, hm.ok.event, hm.ok.chips, hm.ok.consol, hm.ok.covox, hm.ok.kept, hm.ok.trail⟩
  refine hk.mono (fun _ x => x) fun r hx => ?_
  rcases hx with ⟨h1, hlog, hx⟩ | ⟨h1, x, c', p', hlog, h2, h3, hx⟩
  · have e1 : r.2.nextScan = m.nextScan := hx.kept.nextScan
    have e2 : r.2.nextPlayer = m.nextPlayer := hx.kept.nextPlayer
    refine ⟨⟨by omega, ?_⟩, Or.inl ⟨hlog, e1, by have := hx.time; omega, e2⟩⟩
    rw [e1, e2]
    exact hx.widen (by omega) (by rw [if_neg (by omega : ¬ m.nextScan ≤ m.cpu.cycle)]; split <;> omega)
  · have e1 : r.2.nextScan = m.nextScan + 114 := hx.kept.nextScan
    have e2 : r.2.nextPlayer = p' := hx.kept.nextPlayer
    have hlate : late m.nextScan m.cpu.cycle < m.nextScan + 114 := by unfold late; split <;> omega
    refine ⟨⟨by omega, ?_⟩, Or.inr ⟨by omega, e1, x, c', hlog, by omega, e2 ▸ h3⟩⟩
    rw [e1, e2]
    exact hx.widen (by omega) (by rw [if_pos h1]; split <;> omega)

theorem between_step (h : TmcOk m0.info) (hr : 0 ≤ m0.pk.rate ∧ m0.pk.rate ≤ 48000) {limit : Int}
    (hl : 0 ≤ limit ∧ limit ≤ 312 * 114 ∧ limit % 114 = 0) {m : Machine} (hm : Between m0 limit m) (hc : m.cpu.cycle < limit) :
    XPost CpuBad (fun r => Between m0 limit r.2 ∧ ∃ log, Iterated m0 m log r.2) (Machine.cpuStep m) := by
  have hk := between_log h hr hl hm hc
  rw [obs_step m]
  cases hx : Spec.logStep m with
  | error e => rw [hx] at hk; exact hk
  | ok r => rw [hx] at hk; exact ⟨hk.1, r.1, hk.2⟩

theorem stepsLeft_bump {limit s c c' : Int} (hl : 0 ≤ limit) (hs : s < limit) (hc : c < limit) (h0 : 0 ≤ c') :
    stepsLeft limit (s + 114) c' < stepsLeft limit s c := by
  unfold stepsLeft
  rw [if_pos hs]
  have key : ∀ q : Int, 0 ≤ q → q + 1 ≤ (limit - s + 113) / 114 →
      q * (limit + 1) + (limit - c') < (limit - s + 113) / 114 * (limit + 1) + (limit - c) := by
    intro q h0 hq
    have := Int.mul_le_mul_of_nonneg_right hq (show 0 ≤ limit + 1 by omega)
    rw [Int.add_mul] at this
    omega
  split
  · exact key _ (by omega) (by omega)
  · exact key 0 (by omega) (by omega)

theorem stepsLeft_pos {limit s c : Int} (hl : 0 ≤ limit) (hc : c < limit) : 0 < stepsLeft limit s c := by
  unfold stepsLeft
  have : 0 ≤ (if s < limit then (limit - s + 113) / 114 else 0) * (limit + 1) :=
    Int.mul_nonneg (by split <;> omega) (by omega)
  omega

/-- The loop ends within its fuel. -/
theorem ok_cpuFrame (h : TmcOk m0.info) (hr : 0 ≤ m0.pk.rate ∧ m0.pk.rate ≤ 48000) {limit : Int} (hl : 0 ≤ limit ∧ limit ≤ 312 * 114 ∧ limit % 114 = 0) :
    ∀ (fuel : Nat) (m : Machine), Between m0 limit m → stepsLeft limit m.nextScan m.cpu.cycle ≤ fuel →
      XPost CpuBad (fun r => Between m0 limit r.2 ∧ limit ≤ r.2.cpu.cycle) (Machine.cpuFrame limit fuel m)
  | 0, m, hm, hf => by
    show XPost _ _ (C.when (m.cpu.cycle < limit) _ m)
    unfold C.when
    by_cases hc : m.cpu.cycle < limit
    · have := stepsLeft_pos (s := m.nextScan) hl.1 hc
      omega
    · rw [if_neg hc]
      exact ⟨hm, by show limit ≤ m.cpu.cycle; omega⟩
  | fuel + 1, m, hm, hf => by
    show XPost _ _ (C.when (m.cpu.cycle < limit) _ m)
    unfold C.when
    by_cases hc : m.cpu.cycle < limit
    · rw [if_pos hc]
      show XPost _ _ (C.bind Machine.cpuStep _ m)
      have hk := between_step h hr hl hm hc
      unfold C.bind
      cases hstep : Machine.cpuStep m with
      | error e => rw [hstep] at hk; exact hk
      | ok r =>
        rw [hstep] at hk
        obtain ⟨h1, h2⟩ := hk
        refine ok_cpuFrame h hr hl fuel r.2 h1 ?_
        obtain ⟨log, h2⟩ := h2
        rcases h2 with ⟨_, e1, e2, _⟩ | ⟨e1, e2, _⟩
        · rw [e1]; unfold stepsLeft at *; omega
        · rw [e2]
          have := stepsLeft_bump (c' := r.2.cpu.cycle) (s := m.nextScan) hl.1 (by omega) hc h1.ok.time.1
          omega
    · rw [if_neg hc]
      exact ⟨hm, by show limit ≤ m.cpu.cycle; omega⟩
end

end Asap
