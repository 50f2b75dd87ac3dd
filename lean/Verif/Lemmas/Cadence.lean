import Verif.Lemmas.Generate

/-! When the player routine is called. -/

namespace Asap
open C Spec Machine

/-- The entry of scan line `j` of a frame that begins with scan line `L` of the song. -/
def Line (F : Int) (L j : Nat) (x : Option Int) : Prop :=
  if F ∣ ((L + j : Nat) : Int) then ∃ c, x = some c ∧ 114 * (j : Int) ≤ c ∧ c < 114 * (j : Int) + 114 else x = none

/-- The next call of the player is in the first possible scan line, in a frame that begins with scan line `L` of the song. -/
structure Sync (F : Int) (L : Nat) (m : Machine) : Prop where
  line : m.nextPlayer % 114 = 0
  lo : m.nextScan ≤ m.nextPlayer
  hi : m.nextPlayer < m.nextScan + 114 * F
  div : F ∣ (L : Int) + m.nextPlayer / 114

/-- Multiples of `F` that are close to each other. -/
theorem dvd_close {F a b : Int} (ha : F ∣ a) (hb : F ∣ b) (h1 : a < b + F) (h2 : b ≤ a) : a = b := by
  obtain ⟨c, hc⟩ := Int.dvd_sub ha hb
  have h0 : 0 < F := by omega
  have h3 : c < 1 := by
    apply Int.lt_of_mul_lt_mul_left (a := F) _ (by omega)
    rw [← hc, Int.mul_one]; omega
  have h4 : 0 ≤ c := by
    have h5 : -1 < c := by
      apply Int.lt_of_mul_lt_mul_left (a := F) _ (by omega)
      rw [← hc]; omega
    omega
  obtain rfl : c = 0 := by omega
  rw [Int.mul_zero] at hc
  omega

/-- The check for a player call in scan line `k`. -/
theorem Sync.called {m0 m m' : Machine} {L k : Nat} {x : Option Int} {c : Int} (hF : 1 ≤ m0.info.fastplay) (h : Sync m0.info.fastplay L m)
    (hk : m.nextScan = 114 * (k : Int)) (hs : m'.nextScan = m.nextScan + 114) (hc : m.nextScan ≤ c ∧ c < m.nextScan + 114)
    (hx : Called m0 x m.nextPlayer c m'.nextPlayer) : Sync m0.info.fastplay L m' ∧ Line m0.info.fastplay L k x := by
  have h1 := h.line
  have h2 := h.lo
  have h3 := h.hi
  have h4 := h.div
  unfold Line
  rcases hx with ⟨e1, e2, e3⟩ | ⟨e1, e2, e3⟩
  · have hd : ¬ m0.info.fastplay ∣ ((L + k : Nat) : Int) := by
      intro hd
      have := dvd_close h4 hd (by omega) (by omega)
      omega
    rw [if_neg hd]
    exact ⟨⟨by omega, by omega, by omega, by rw [e2]; exact h4⟩, e3⟩
  · have e4 : m.nextPlayer = 114 * (k : Int) := by omega
    have hd : m0.info.fastplay ∣ ((L + k : Nat) : Int) := by
      have : (L : Int) + m.nextPlayer / 114 = ((L + k : Nat) : Int) := by omega
      rw [← this]; exact h4
    rw [if_pos hd]
    refine ⟨⟨by omega, by omega, by omega, ?_⟩, c, e3, by omega⟩
    have : (L : Int) + m'.nextPlayer / 114 = ((L + k : Nat) : Int) + m0.info.fastplay := by omega
    rw [this]
    exact Int.dvd_add hd (Int.dvd_refl _)

/-- The loop of a frame. -/
theorem log_loop {m0 : Machine} (h : TmcOk m0.info) (hr : 0 ≤ m0.pk.rate ∧ m0.pk.rate ≤ 48000) {limit : Int}
    (hl : 0 ≤ limit ∧ limit ≤ 312 * 114 ∧ limit % 114 = 0) (hF : 1 ≤ m0.info.fastplay) (L : Nat) :
    ∀ (fuel k : Nat) (m : Machine), m.nextScan = 114 * (k : Int) → Between m0 limit m → Sync m0.info.fastplay L m →
      XPost (fun _ => True) (fun r => Between m0 limit r.2 ∧ limit ≤ r.2.cpu.cycle ∧ Sync m0.info.fastplay L r.2 ∧
        r.2.nextScan = 114 * ((k + r.1.length : Nat) : Int) ∧ ∀ i x, r.1[i]? = some x → Line m0.info.fastplay L (k + i) x)
      (logLoop limit fuel m)
  | 0, k, m, hk, hb, hs => by
    show XPost _ _ ((if m.cpu.cycle < limit then C.fail .fuel else pure [] : C Log) m)
    by_cases hc : m.cpu.cycle < limit
    · rw [if_pos hc]; trivial
    · rw [if_neg hc]
      exact ⟨hb, by show limit ≤ m.cpu.cycle; omega, hs, hk, fun i x hx => by simp at hx⟩
  | fuel + 1, k, m, hk, hb, hs => by
    show XPost _ _ ((if m.cpu.cycle < limit then (do let a ← logStep; let b ← logLoop limit fuel; pure (a ++ b)) else pure [] : C Log) m)
    by_cases hc : m.cpu.cycle < limit
    · rw [if_pos hc]
      show XPost _ _ (C.bind logStep _ m)
      have h1 := between_log h hr hl hb hc
      unfold C.bind
      cases hx : logStep m with
      | error e => trivial
      | ok r =>
        rw [hx] at h1
        obtain ⟨log, m1⟩ := r
        obtain ⟨hb1, hi⟩ := h1
        dsimp only at hb1 hi ⊢
        show XPost _ _ (C.bind (logLoop limit fuel) _ m1)
        rcases hi with ⟨e0, e1, _, e3⟩ | ⟨_, e1, x, c, e0, e2, e3⟩
        · have hs1 : Sync m0.info.fastplay L m1 := ⟨by rw [e3]; exact hs.line, by rw [e1, e3]; exact hs.lo, by rw [e1, e3]; exact hs.hi, by rw [e3]; exact hs.div⟩
          have h2 := log_loop h hr hl hF L fuel k m1 (by omega) hb1 hs1
          unfold C.bind
          cases hy : logLoop limit fuel m1 with
          | error e => trivial
          | ok t =>
            rw [hy] at h2
            show Between m0 limit t.2 ∧ _ ∧ _ ∧ t.2.nextScan = 114 * ((k + (log ++ t.1).length : Nat) : Int) ∧ ∀ i x, (log ++ t.1)[i]? = some x → _
            rw [e0, List.nil_append]
            exact h2
        · obtain ⟨hs1, hline⟩ := hs.called hF hk e1 e2 e3
          have h2 := log_loop h hr hl hF L fuel (k + 1) m1 (by omega) hb1 hs1
          unfold C.bind
          cases hy : logLoop limit fuel m1 with
          | error e => trivial
          | ok t =>
            rw [hy] at h2
            obtain ⟨g1, g2, g3, g4, g5⟩ := h2
            show Between m0 limit t.2 ∧ _ ∧ _ ∧ t.2.nextScan = 114 * ((k + (log ++ t.1).length : Nat) : Int) ∧ ∀ i x, (log ++ t.1)[i]? = some x → _
            rw [e0]
            refine ⟨g1, g2, g3, ?_, ?_⟩
            · rw [g4]
              show _ = 114 * ((k + (t.1.length + 1) : Nat) : Int)
              omega
            · intro i y hy
              cases i with
              | zero => 
                have : x = y := by simpa using hy
                rw [← this]; exact hline
              | succ i =>
                have := g5 i y (by simpa using hy)
                rw [show k + (i + 1) = k + 1 + i by omega]
                exact this
    · rw [if_neg hc]
      exact ⟨hb, by show limit ≤ m.cpu.cycle; omega, hs, hk, fun i x hx => by simp at hx⟩

/-- The entry of a scan line of the song. -/
def Entry (F : Int) (n k : Nat) (x : Option Int) : Prop :=
  if F ∣ (k : Int) then ∃ c, x = some c ∧ 114 * ((k % n : Nat) : Int) ≤ c ∧ c < 114 * ((k % n : Nat) : Int) + 114 else x = none

/-- The entries of scan lines from `L`. -/
def Entries (F : Int) (n L : Nat) (log : Log) : Prop := ∀ i x, log[i]? = some x → Entry F n (L + i) x

theorem Entries.nil {F : Int} {n L : Nat} : Entries F n L [] := fun i x h => by simp at h

theorem Entries.append {F : Int} {n L : Nat} {a b : Log} (ha : Entries F n L a) (hb : Entries F n (L + a.length) b) : Entries F n L (a ++ b) := by
  intro i x hx
  by_cases h : i < a.length
  · rw [List.getElem?_append_left h] at hx
    exact ha i x hx
  · rw [List.getElem?_append_right (by omega)] at hx
    have := hb _ x hx
    rw [show L + a.length + (i - a.length) = L + i by omega] at this
    exact this

/-- Between frames: the next frame begins with scan line `L` of the song. -/
structure AtLine (L : Nat) (m : Machine) : Prop where
  playing : Playing m
  fastplay : 1 ≤ m.info.fastplay ∧ m.info.fastplay ≤ 32767
  frame : L % scanLines m.info.ntsc = 0
  line : m.nextPlayer % 114 = 0
  lo : 0 ≤ m.nextPlayer
  hi : m.nextPlayer < 114 * m.info.fastplay
  div : m.info.fastplay ∣ (L : Int) + m.nextPlayer / 114

theorem frameCycles_lines (ntsc : Bool) : frameCycles ntsc = 114 * (scanLines ntsc : Int) := by cases ntsc <;> rfl

/-- What a program does to the schedule: it emulates the scan lines it logs. -/
def Scans (L : Nat) (m : Machine) (log : Log) (m' : Machine) : Prop :=
  AtLine (L + log.length) m' ∧ m'.info = m.info ∧ Entries m.info.fastplay (scanLines m.info.ntsc) L log

/-- A frame of a ready machine. -/
theorem log_6502Frame {m : Machine} (h : Ready m) {L : Nat} (hF : 1 ≤ m.info.fastplay ∧ m.info.fastplay ≤ 32767)
    (h1 : m.nextPlayer % 114 = 0) (h2 : 0 ≤ m.nextPlayer) (h3 : m.nextPlayer < 114 * m.info.fastplay) (h4 : m.info.fastplay ∣ (L : Int) + m.nextPlayer / 114) :
    XPost (fun _ => True) (fun r => r.1.2.length = scanLines m.info.ntsc ∧ (∀ i x, r.1.2[i]? = some x → Line m.info.fastplay L i x) ∧
      r.2.nextPlayer % 114 = 0 ∧ 0 ≤ r.2.nextPlayer ∧ r.2.nextPlayer < 114 * m.info.fastplay ∧
      m.info.fastplay ∣ ((L + scanLines m.info.ntsc : Nat) : Int) + r.2.nextPlayer / 114) (log6502Frame m) := by
  have hr : 0 ≤ m.pk.rate ∧ m.pk.rate ≤ 48000 := by have := h.rate; omega
  have hf := frameCycles_range m.info.ntsc
  have hn := frameCycles_lines m.info.ntsc
  have hk := log_loop (m0 := m.sched 0 m.nextPlayer) h.tmc hr (limit := frameCycles m.info.ntsc) (by omega) hF.1 L
    (frameFuel (frameCycles m.info.ntsc)) 0 _ rfl h.between ⟨h1, h2, by show m.nextPlayer < 0 + 114 * m.info.fastplay; omega, h4⟩
  show XPost _ _ (C.bind (logLoop (frameCycles m.info.ntsc) (frameFuel (frameCycles m.info.ntsc))) _ _)
  unfold C.bind
  cases hx : logLoop (frameCycles m.info.ntsc) (frameFuel (frameCycles m.info.ntsc))
    { m with nextEvent := 0, nextScan := 0, nmist := if m.nmist = .reset then .onVBlank else .wasVBlank } with
  | error e => trivial
  | ok r =>
    rw [hx] at hk
    obtain ⟨hb, hc, hs, hscan, hlog⟩ := hk
    have ht := hb.ok.time
    have hsc := hb.scan
    have g1 := hs.line
    have g2 := hs.lo
    have g3 : r.2.nextPlayer < r.2.nextScan + 114 * m.info.fastplay := hs.hi
    have g4 : m.info.fastplay ∣ (L : Int) + r.2.nextPlayer / 114 := hs.div
    have e1 : r.2.nextScan = frameCycles m.info.ntsc := by omega
    have hne : r.2.nextPlayer ≠ never := by unfold never; omega
    have e2 : (if r.2.nextPlayer ≠ never then r.2.nextPlayer - frameCycles m.info.ntsc else r.2.nextPlayer) = r.2.nextPlayer - frameCycles m.info.ntsc :=
      if_pos hne
    show r.1.length = _ ∧ (∀ i x, r.1[i]? = some x → _) ∧ (if r.2.nextPlayer ≠ never then r.2.nextPlayer - frameCycles m.info.ntsc else r.2.nextPlayer) % 114 = 0 ∧
      0 ≤ (if r.2.nextPlayer ≠ never then r.2.nextPlayer - frameCycles m.info.ntsc else r.2.nextPlayer) ∧
      (if r.2.nextPlayer ≠ never then r.2.nextPlayer - frameCycles m.info.ntsc else r.2.nextPlayer) < 114 * m.info.fastplay ∧
      m.info.fastplay ∣ _ + (if r.2.nextPlayer ≠ never then r.2.nextPlayer - frameCycles m.info.ntsc else r.2.nextPlayer) / 114
    rw [e2]
    refine ⟨by omega, fun i x hx => by have := hlog i x hx; rw [Nat.zero_add] at this; exact this, by omega, by omega, by omega, ?_⟩
    have : ((L + scanLines m.info.ntsc : Nat) : Int) + (r.2.nextPlayer - frameCycles m.info.ntsc) / 114 = (L : Int) + r.2.nextPlayer / 114 := by omega
    rw [this]; exact g4

theorem startChips_eq (m : Machine) : startChips m =
    match m.pk.startFrame with
    | .ok q => .ok ((), { m with pk := q })
    | .error e => .error e := by
  show C.chips _ _ = _
  unfold C.chips
  dsimp only
  cases m.pk.startFrame <;> rfl

theorem endChips_eq (cycles : Int) (m : Machine) : endChips cycles m =
    match m.pk.endFrame cycles with
    | .ok q => .ok ((), { m with pk := q })
    | .error e => .error e := by
  show C.chips _ _ = _
  unfold C.chips
  dsimp only
  cases m.pk.endFrame cycles <;> rfl

/-- `Pokeys.StartFrame` on a ready machine. -/
theorem ready_startChips {m : Machine} (h : Ready m) : XPost (fun _ => True) (fun r => Ready r.2 ∧ ∃ q, r.2 = { m with pk := q }) (startChips m) := by
  have hr : 0 ≤ m.pk.rate ∧ m.pk.rate ≤ 48000 := by have := h.rate; omega
  have h1 := h.chips.step hr .start trivial
  have h2 := startFrame_frame m.pk
  simp only [Spec.stepPair] at h1
  rw [startChips_eq]
  cases hx : m.pk.startFrame with
  | error e => trivial
  | ok q =>
    rw [hx] at h1 h2
    have e1 : q.readyStart = m.pk.readyStart := h2.start
    have e2 : q.readyEnd = m.pk.readyEnd := h2.stop
    have e3 : q.rate = m.pk.rate := h2.rate
    exact ⟨⟨h.cpu, h.time, chipsOk_congr (a := m) (b := { m with pk := q }) e3 rfl h1, h.consol, h.covox, show 100 ≤ q.rate ∧ q.rate ≤ 48000 by rw [e3]; exact h.rate,
        h.tmc, show q.readyStart ≤ q.readyEnd by rw [e1, e2]; exact h.window⟩, q, rfl⟩

/-- The schedule after `DoFrame`. -/
theorem log_frame {m : Machine} {L : Nat} (h : AtLine L m) : XPost (fun _ => True) (fun r => Scans L m r.1.2 r.2 ∧ r.1.2.length = scanLines m.info.ntsc) (logFrame m) := by
  have hp := playing_doFrame h.playing
  rw [obs_frame m] at hp
  have key : XPost (fun _ => True) (fun r => r.1.2.length = scanLines m.info.ntsc ∧ (∀ i x, r.1.2[i]? = some x → Line m.info.fastplay L i x) ∧
      r.2.nextPlayer % 114 = 0 ∧ 0 ≤ r.2.nextPlayer ∧ r.2.nextPlayer < 114 * m.info.fastplay ∧
      m.info.fastplay ∣ ((L + scanLines m.info.ntsc : Nat) : Int) + r.2.nextPlayer / 114) (logFrame m) := by
    have hm : Ready { m with external := false } :=
      ⟨h.playing.ready.cpu, h.playing.ready.time, h.playing.ready.chips, h.playing.ready.consol, h.playing.ready.covox, h.playing.ready.rate,
        h.playing.ready.tmc, h.playing.ready.window⟩
    show XPost _ _ (C.bind startChips _ { m with external := false })
    have h1 := ready_startChips hm
    unfold C.bind
    cases hx : startChips { m with external := false } with
    | error e => trivial
    | ok r =>
      rw [hx] at h1
      obtain ⟨h1, q, hq⟩ := h1
      obtain ⟨_, m1⟩ := r
      dsimp only at h1 hq ⊢
      subst hq
      show XPost _ _ (C.bind log6502Frame _ _)
      have h2 := log_6502Frame h1 (L := L) h.fastplay h.line h.lo h.hi h.div
      unfold C.bind
      cases hy : log6502Frame { m with pk := q, external := false } with
      | error e => trivial
      | ok t =>
        rw [hy] at h2
        dsimp only
        show XPost _ _ (C.bind (endChips t.1.1) _ _)
        unfold C.bind
        rw [endChips_eq]
        cases t.2.pk.endFrame t.1.1 with
        | error e => trivial
        | ok q => exact h2
  cases hx : logFrame m with
  | error e => trivial
  | ok r =>
    rw [hx] at hp key
    obtain ⟨k1, k2, k3, k4, k5, k6⟩ := key
    have hpl : Playing r.2 := hp.2.1
    have hi : r.2.info = m.info := hp.2.2.1.info
    refine ⟨⟨⟨hpl, by rw [hi]; exact h.fastplay, ?_, k3, k4, by rw [hi]; exact k5, by rw [hi, k1]; exact k6⟩, hi, ?_⟩, k1⟩
    · rw [hi, k1, Nat.add_mod_right]; exact h.frame
    · intro i x hx
      have hlt : i < scanLines m.info.ntsc := by
        rw [← k1]; exact (List.getElem?_eq_some_iff.mp hx).1
      have hl := k2 i x hx
      have e : (L + i) % scanLines m.info.ntsc = i := by rw [Nat.add_mod, h.frame, Nat.zero_add, Nat.mod_mod, Nat.mod_eq_of_lt hlt]
      unfold Entry
      rw [e]
      exact hl

theorem Scans.trans {L : Nat} {m m1 m2 : Machine} {a b : Log} (h : Scans L m a m1) (k : Scans (L + a.length) m1 b m2) : Scans L m (a ++ b) m2 := by
  obtain ⟨_, h2, h3⟩ := h
  obtain ⟨k1, k2, k3⟩ := k
  rw [h2] at k3
  exact ⟨by rw [List.length_append, ← Nat.add_assoc]; exact k1, k2.trans h2, h3.append k3⟩

theorem AtLine.scans {L : Nat} {m m' : Machine} (h : AtLine L m) (hp : Playing m') (hi : m'.info = m.info) (hn : m'.nextPlayer = m.nextPlayer) :
    Scans L m [] m' :=
  ⟨⟨hp, by rw [hi]; exact h.fastplay, by rw [hi]; exact h.frame, by rw [hn]; exact h.line, by rw [hn]; exact h.lo,
    by rw [hi, hn]; exact h.hi, by rw [hi, hn]; exact h.div⟩, hi, Entries.nil⟩

theorem log_generateLoop (f : SampleFormat) : ∀ (fuel : Nat) (left : Int) (L : Nat) (m : Machine), AtLine L m →
    XPost (fun _ => True) (fun r => Scans L m r.1.2 r.2) (logGenerateLoop f fuel left m)
  | 0, _, _, _, _ => trivial
  | fuel + 1, left, L, m, h => by
    show XPost _ _ (C.bind (generateBlocks left f) _ m)
    have hk := playing_generateBlocks h.playing left f
    unfold C.bind
    cases hx : generateBlocks left f m with
    | error e => trivial
    | ok r =>
      rw [hx] at hk
      obtain ⟨⟨bytes, n⟩, m1⟩ := r
      obtain ⟨hm1, _, he⟩ := hk
      dsimp only at hm1 he ⊢
      have s1 : Scans L m [] m1 := h.scans hm1 (by rw [he]) (by rw [he])
      by_cases hge : n ≥ left
      · rw [if_pos hge]; exact s1
      · rw [if_neg hge]
        show XPost _ _ (C.bind logFrame _ m1)
        have hd := log_frame s1.1
        unfold C.bind
        cases hy : logFrame m1 with
        | error e => trivial
        | ok t =>
          rw [hy] at hd
          obtain ⟨⟨cyc, log⟩, m2⟩ := t
          have s2 := s1.trans hd.1
          dsimp only at s2 ⊢
          rw [List.nil_append] at s2
          show XPost _ _ (C.bind (listen cyc) _ m2)
          unfold C.bind
          rw [listen_eq]
          dsimp only
          have hn3 : (m2.listened cyc).nextPlayer = m2.nextPlayer := by unfold Machine.listened; repeat' split
                                                                        all_goals rfl
          have s3 := s2.trans (s2.1.scans (s2.1.playing.listened cyc) (listened_keeps m2 cyc).1.info hn3)
          rw [List.append_nil] at s3
          by_cases hgo : m2.goesOn cyc = true
          · rw [if_pos hgo]
            show XPost _ _ (C.bind (logGenerateLoop f fuel (left - n)) _ (m2.listened cyc))
            have hrec := log_generateLoop f fuel (left - n) _ _ s3.1
            unfold C.bind
            cases hz : logGenerateLoop f fuel (left - n) (m2.listened cyc) with
            | error e => trivial
            | ok u => rw [hz] at hrec; exact s3.trans hrec
          · rw [if_neg hgo]
            exact s3

theorem log_generate {L : Nat} {m : Machine} (h : AtLine L m) (len : Int) (f : SampleFormat) :
    XPost (fun _ => True) (fun r => Scans L m r.1.2 r.2) (logGenerate len f m) := by
  show XPost _ _ ((if decide (m.silence > 0 ∧ m.silenceLeft ≤ 0) = true then _ else _ : C ((List Int × Int) × Log)) m)
  by_cases hs : decide (m.silence > 0 ∧ m.silenceLeft ≤ 0) = true
  · rw [if_pos hs]; exact h.scans h.playing rfl rfl
  · rw [if_neg hs]
    show XPost _ _ (C.bind (logGenerateLoop f ((m.wantedBlocks len f).toNat + 3) (m.wantedBlocks len f)) _ m)
    have hk := log_generateLoop f ((m.wantedBlocks len f).toNat + 3) (m.wantedBlocks len f) L m h
    unfold C.bind
    revert hk
    generalize logGenerateLoop f ((m.wantedBlocks len f).toNat + 3) (m.wantedBlocks len f) m = x
    intro hk
    cases x with
    | error e => trivial
    | ok r => exact hk

theorem log_each (f : SampleFormat) : ∀ (lens : List Int) (L : Nat) (m : Machine), AtLine L m →
    XPost (fun _ => True) (fun r => Scans L m r.1.2 r.2) (logEach f lens m)
  | [], _, _, h => h.scans h.playing rfl rfl
  | len :: lens, L, m, h => by
    show XPost _ _ (C.bind (logGenerate len f) _ m)
    have hk := log_generate h len f
    unfold C.bind
    cases hx : logGenerate len f m with
    | error e => trivial
    | ok r =>
      rw [hx] at hk
      show XPost _ _ (C.bind (logEach f lens) _ r.2)
      have hrec := log_each f lens _ _ hk.1
      unfold C.bind
      cases hy : logEach f lens r.2 with
      | error e => trivial
      | ok t => rw [hy] at hrec; exact hk.trans hrec

/-- The player is not called while its time is "never". -/
theorem never_loop {m0 : Machine} (h : TmcOk m0.info) (hr : 0 ≤ m0.pk.rate ∧ m0.pk.rate ≤ 48000) {limit : Int}
    (hl : 0 ≤ limit ∧ limit ≤ 312 * 114 ∧ limit % 114 = 0) : ∀ (fuel : Nat) (m : Machine), Between m0 limit m → m.nextPlayer = never →
      XPost (fun _ => True) (fun r => r.2.nextPlayer = never ∧ ∀ x ∈ r.1, x = none) (logLoop limit fuel m)
  | 0, m, hb, hn => by
    show XPost _ _ ((if m.cpu.cycle < limit then C.fail .fuel else pure [] : C Log) m)
    by_cases hc : m.cpu.cycle < limit
    · rw [if_pos hc]; trivial
    · rw [if_neg hc]
      exact ⟨hn, fun x hx => by simp at hx⟩
  | fuel + 1, m, hb, hn => by
    show XPost _ _ ((if m.cpu.cycle < limit then (do let a ← logStep; let b ← logLoop limit fuel; pure (a ++ b)) else pure [] : C Log) m)
    by_cases hc : m.cpu.cycle < limit
    · rw [if_pos hc]
      show XPost _ _ (C.bind logStep _ m)
      have h1 := between_log h hr hl hb hc
      unfold C.bind
      cases hx : logStep m with
      | error e => trivial
      | ok r =>
        rw [hx] at h1
        obtain ⟨log, m1⟩ := r
        obtain ⟨hb1, hi⟩ := h1
        dsimp only at hb1 hi ⊢
        show XPost _ _ (C.bind (logLoop limit fuel) _ m1)
        have hs := hb.scan
        have hk : m1.nextPlayer = never ∧ ∀ x ∈ log, x = none := by
          rcases hi with ⟨e0, _, _, e3⟩ | ⟨_, _, x, c, e0, e2, e3⟩
          · exact ⟨e3.trans hn, fun x hx => by rw [e0] at hx; simp at hx⟩
          · have hv : never = 8388608 := rfl
            rcases e3 with ⟨_, e4, e5⟩ | ⟨e4, _, _⟩
            · exact ⟨e4.trans hn, fun y hy => by rw [e0] at hy; simp at hy; rw [hy, e5]⟩
            · omega
        have h2 := never_loop h hr hl fuel m1 hb1 hk.1
        unfold C.bind
        cases hy : logLoop limit fuel m1 with
        | error e => trivial
        | ok t =>
          rw [hy] at h2
          refine ⟨h2.1, fun x hx => ?_⟩
          rcases List.mem_append.mp (show x ∈ log ++ t.1 from hx) with hx | hx
          · exact hk.2 x hx
          · exact h2.2 x hx
    · rw [if_neg hc]
      exact ⟨hn, fun x hx => by simp at hx⟩

theorem never_6502Frame {m : Machine} (h : Ready m) (hn : m.nextPlayer = never) :
    XPost (fun _ => True) (fun r => r.2.nextPlayer = never ∧ ∀ x ∈ r.1.2, x = none) (log6502Frame m) := by
  have hr : 0 ≤ m.pk.rate ∧ m.pk.rate ≤ 48000 := by have := h.rate; omega
  have hf := frameCycles_range m.info.ntsc
  have hk := never_loop (m0 := m.sched 0 m.nextPlayer) h.tmc hr (limit := frameCycles m.info.ntsc) (by omega)
    (frameFuel (frameCycles m.info.ntsc)) _ h.between hn
  show XPost _ _ (C.bind (logLoop (frameCycles m.info.ntsc) (frameFuel (frameCycles m.info.ntsc))) _ _)
  unfold C.bind
  cases hx : logLoop (frameCycles m.info.ntsc) (frameFuel (frameCycles m.info.ntsc))
    { m with nextEvent := 0, nextScan := 0, nmist := if m.nmist = .reset then .onVBlank else .wasVBlank } with
  | error e => trivial
  | ok r =>
    rw [hx] at hk
    refine ⟨?_, hk.2⟩
    show (if r.2.nextPlayer ≠ never then r.2.nextPlayer - frameCycles m.info.ntsc else r.2.nextPlayer) = never
    rw [if_neg (by simp [hk.1])]
    exact hk.1

/-- While a song is initialised. -/
def Idle (m0 m : Machine) : Prop := Starting m0 m ∧ m.nextPlayer = never

/-- Any fault. -/
def Any (_ : Hw) : Prop := True

section
variable {m0 : Machine}

theorem Tri.with {α : Type} {P P' : Machine → Prop} {Q Q' : α → Machine → Prop} {E : Hw → Prop} {f : C α} (h : Tri E P f Q) (k : Tri Any P' f Q') :
    Tri Any (fun m => P m ∧ P' m) f fun a m => Q a m ∧ Q' a m := by
  intro m hm
  have h1 := h m hm.1
  have h2 := k m hm.2
  cases hx : f m with
  | error e => trivial
  | ok r => rw [hx] at h1 h2; exact ⟨h1, h2⟩

theorem idle_setCpu {f : Cpu → Cpu} (h : Tri PlayBad (Starting m0) (C.setCpu f) fun _ => Starting m0) : Tri Any (Idle m0) (C.setCpu f) fun _ => Idle m0 :=
  h.with (P' := fun m => m.nextPlayer = never) (Tri.setCpu fun _ hm => hm)

theorem idle_store {a v : Int} (ha : 0 ≤ a ∧ a < 65536) : Tri Any (Idle m0) (store a v) fun _ => Idle m0 := by
  refine (starting_store (E := PlayBad) ha).with (P' := fun m => m.nextPlayer = never) (Q' := fun _ m => m.nextPlayer = never) fun m hm => ?_
  unfold Machine.store
  rw [if_pos ha]
  exact hm

theorem idle_frame : Tri Any (Idle m0) log6502Frame fun r m => Idle m0 m ∧ ∀ x ∈ r.2, x = none := by
  intro m hm
  have h1 := starting_frame m hm.1
  have h2 := never_6502Frame hm.1.ready hm.2
  rw [obs_6502Frame m] at h1
  cases hx : log6502Frame m with
  | error e => trivial
  | ok r => rw [hx] at h1 h2; exact ⟨⟨h1, h2.1⟩, h2.2⟩

/-- A log without calls. -/
theorem none_append {a b : Log} (ha : ∀ x ∈ a, x = none) (hb : ∀ x ∈ b, x = none) : ∀ x ∈ a ++ b, x = none := fun x hx =>
  (List.mem_append.mp hx).elim (ha x) (hb x)

theorem idle_initFrames : ∀ n, Tri Any (Idle m0) (logInitFrames n) fun log m => Idle m0 m ∧ ∀ x ∈ log, x = none
  | 0 => fun _ _ => trivial
  | n + 1 => idle_frame.bind fun _ => Tri.fact' fun h1 => Tri.bindReg (φ := fun _ => True) (fun _ _ => trivial) fun _ _ =>
      Tri.ite (fun _ => Tri.pure fun _ h => ⟨h, h1⟩) fun _ => (idle_initFrames n).bind fun _ => Tri.fact' fun h2 => Tri.pure fun _ h => ⟨h, none_append h1 h2⟩

theorem idle_init (pc a x y : Int) : Tri Any (Idle m0) (logInit pc a x y) fun log m => Idle m0 m ∧ ∀ x ∈ log, x = none := by
  unfold logInit
  generalize 50 = n
  exact (idle_setCpu starting_setPc).then <| (idle_setCpu (starting_setA (Byte.ff _))).then <| (idle_setCpu (starting_setX (Byte.ff _))).then <|
    (idle_setCpu (starting_setY (Byte.ff _))).then <| (idle_store (by omega)).then <| (idle_store (by omega)).then <| (idle_store (by omega)).then <|
    (idle_setCpu (starting_setS (by unfold Byte; decide))).then (idle_initFrames n)

theorem idle_startProgram (pc : Int) {song : Int} (hs : Byte song) : Tri Any (Idle m0) (startProgram pc song) fun _ => Idle m0 :=
  (idle_setCpu starting_setPc).then <| (idle_setCpu (starting_setA hs)).then <| (idle_setCpu (starting_setX byte_0)).then <|
    (idle_setCpu (starting_setY byte_0)).then (idle_setCpu (starting_setS (by unfold Byte; decide)))

theorem idle_modify {f : Machine → Machine} (h : Tri PlayBad (Starting m0) (C.modify f) fun _ => Starting m0) (hf : ∀ m, (f m).nextPlayer = m.nextPlayer) :
    Tri Any (Idle m0) (C.modify f) fun _ => Idle m0 :=
  h.with (P' := fun m => m.nextPlayer = never) (Tri.modify fun m hm => (hf m).trans hm)

attribute [local irreducible] logInit in
theorem idle_initSong {song : Int} (hs : Byte song) : Tri Any (Idle m0) (logInitSong song) fun log m => Idle m0 m ∧ ∀ x ∈ log, x = none := by
  have any : ∀ {α β : Type} {f : Machine → β} {g : β → C α} {Q : α → Machine → Prop}, (∀ b, Tri Any (Idle m0) (g b) Q) →
      Tri Any (Idle m0) (C.get f >>= g) Q := fun h => Tri.bindGet (φ := fun _ => True) (fun _ _ => trivial) fun b _ => h b
  have two : ∀ pc a x y pc' a' x' y', Tri Any (Idle m0) (do
      let a ← logInit pc a x y
      let b ← logInit pc' a' x' y'
      pure (a ++ b)) fun log m => Idle m0 m ∧ ∀ x ∈ log, x = none := fun pc a x y pc' a' x' y' =>
    (idle_init _ _ _ _).bind fun _ => Tri.fact' fun h1 => (idle_init _ _ _ _).bind fun _ => Tri.fact' fun h2 =>
      Tri.pure fun _ h => ⟨h, none_append h1 h2⟩
  have three : ∀ pc a x y pc' a' x' y', Tri Any (Idle m0) (do
      let a ← logInit pc a x y
      let b ← logInit pc' a' x' y'
      setTmc 1
      pure (a ++ b)) fun log m => Idle m0 m ∧ ∀ x ∈ log, x = none := fun pc a x y pc' a' x' y' =>
    (idle_init _ _ _ _).bind fun _ => Tri.fact' fun h1 => (idle_init _ _ _ _).bind fun _ => Tri.fact' fun h2 =>
      (idle_modify (starting_setTmc _) fun _ => rfl).then <| Tri.pure fun _ h => ⟨h, none_append h1 h2⟩
  have no : ∀ pc, Tri Any (Idle m0) (do
      startProgram pc song
      pure ([] : Log)) fun log m => Idle m0 m ∧ ∀ x ∈ log, x = none := fun pc =>
    (idle_startProgram pc hs).then <| Tri.pure fun _ h => ⟨h, fun x hx => by simp at hx⟩
  refine any fun player => any fun music => any fun init => any fun pos => any fun type => ?_
  cases type with
  | sapB => exact idle_init _ _ _ _
  | sapC => exact two _ _ _ _ _ _ _ _
  | sapD => exact no _
  | sapS => exact no _
  | cmc => exact two _ _ _ _ _ _ _ _
  | cm3 => exact two _ _ _ _ _ _ _ _
  | cmr => exact two _ _ _ _ _ _ _ _
  | cms => exact two _ _ _ _ _ _ _ _
  | dlt => exact idle_init _ _ _ _
  | mpt => exact two _ _ _ _ _ _ _ _
  | rmt => exact idle_init _ _ _ _
  | tmc => exact three _ _ _ _ _ _ _ _
  | tm2 => exact three _ _ _ _ _ _ _ _
  | fc => exact idle_init _ _ _ _
end

attribute [local irreducible] logInitSong in
/-- The player is not called by `PlaySong`, and it is called immediately afterwards. -/
theorem idle_playSong {m : Machine} (h : Loaded m) (song duration : Int) :
    XPost Any (fun r => r.2.nextPlayer = 0 ∧ ∀ x ∈ r.1, x = none) (logPlaySong song duration m) := by
  show XPost Any _ ((if song < 0 ∨ song ≥ m.info.songs then (C.fail .thrown : C Log) else _) m)
  by_cases hc : song < 0 ∨ song ≥ m.info.songs
  · rw [if_pos hc]; trivial
  · rw [if_neg hc]
    have hs := h.songs
    have key := ((idle_modify (m0 := m.atStart song duration) (starting_mute 0xff) fun _ => rfl).then <|
      (idle_initSong (m0 := m.atStart song duration) (show Byte song by unfold Byte; omega)).bind fun log => Tri.fact' fun hl =>
      (idle_modify (m0 := m.atStart song duration) (starting_mute 0) fun _ => rfl).then <|
      Tri.then (f := setNextPlayer 0) (P' := fun m => m.nextPlayer = 0) (Tri.modify fun _ _ => rfl) <|
      Tri.pure (E := Any) (a := log) (Q := fun log m => m.nextPlayer = 0 ∧ ∀ x ∈ log, x = none) fun m hm => ⟨hm, hl⟩)
      (m.atStart song duration) ⟨h.atStart song duration, rfl⟩
    exact key

end Asap
