import Verif.Lemmas.Playback

/-! Generating samples and seeking keep the machine ready and end. -/

namespace Asap
open Machine (frameCycles)

/-- Bytes per block. -/
def blockBytes (stereo : Bool) (f : SampleFormat) : Nat := (if stereo then 2 else 1) * (if f = .u8 then 1 else 2)

theorem sampleBytes_length (f : SampleFormat) (s : Int) : (sampleBytes f s).length = if f = .u8 then 1 else 2 := by
  cases f <;> rfl

/-- What a block of samples does not change, and its size. -/
theorem storeBlock_frame (q : Pair) (i : Int) (f : SampleFormat) :
    XPost (fun _ => True) (fun r => q.Frame r.2 ∧ r.1.length = blockBytes (decide (q.extraMask ≠ 0)) f) (q.storeBlock i f) := by
  unfold Pair.storeBlock
  refine XPost.bind (P := fun r => r.1.length = if f = .u8 then 1 else 2) ?_ fun r hl => ?_
  · unfold Pokey.storeSample
    exact XPost.ite (fun _ => sampleBytes_length f _) fun _ => trivial
  · by_cases hx : q.extraMask ≠ 0
    · rw [if_pos hx]
      refine XPost.bind (P := fun r => r.1.length = if f = .u8 then 1 else 2) ?_ fun t ht => ⟨Pair.Frame.chips q _ _, ?_⟩
      · unfold Pokey.storeSample
        exact XPost.ite (fun _ => sampleBytes_length f _) fun _ => trivial
      · unfold blockBytes
        rw [List.length_append, hl, ht, decide_eq_true hx, if_pos rfl]
        split <;> rfl
    · rw [if_neg hx]
      refine ⟨Pair.Frame.chips q _ _, ?_⟩
      unfold blockBytes
      rw [hl, decide_eq_false hx]
      simp

theorem storeBlocks_frame (f : SampleFormat) : ∀ (n : Nat) (q : Pair) (i : Int),
    XPost (fun _ => True) (fun r => q.Frame r.2 ∧ r.1.length = n * blockBytes (decide (q.extraMask ≠ 0)) f) (q.storeBlocks f n i)
  | 0, q, _ => ⟨Pair.Frame.refl q, by simp⟩
  | n + 1, q, i => by
    unfold Pair.storeBlocks
    refine XPost.bind (storeBlock_frame q i f) fun r hr => ?_
    refine XPost.bind (storeBlocks_frame f n r.2 (i + 1)) fun t ht => ⟨hr.1.trans ht.1, ?_⟩
    rw [List.length_append, hr.2, ht.2, hr.1.mask, Nat.add_mul]
    omega

/-- What `Pokeys.Generate` does to the bookkeeping. -/
structure Took (q : Pair) (blocks : Int) (f : SampleFormat) (r : List Int × Int × Pair) : Prop where
  count : r.2.1 = min blocks (q.readyEnd - q.readyStart)
  length : (r.1.length : Int) = max 0 r.2.1 * blockBytes (decide (q.extraMask ≠ 0)) f
  rate : r.2.2.rate = q.rate
  mask : r.2.2.extraMask = q.extraMask
  start : r.2.2.readyStart = q.readyStart + max 0 r.2.1
  stop : r.2.2.readyEnd = q.readyEnd
  offset : r.2.2.offset = q.offset
  factor : r.2.2.factor = q.factor

theorem generate_took (q : Pair) (blocks : Int) (f : SampleFormat) :
    XPost (fun _ => True) (Took q blocks f) (q.generate blocks f) := by
  unfold Pair.generate
  dsimp only
  generalize hn : (if blocks < q.readyEnd - q.readyStart then blocks else q.readyEnd - q.readyStart) = n
  have hmin : n = min blocks (q.readyEnd - q.readyStart) := by rw [← hn]; split <;> omega
  by_cases hp : n > 0
  · rw [if_pos hp]
    refine XPost.bind (storeBlocks_frame f n.toNat q q.readyStart) fun r hr => ?_
    have hmax : max 0 n = n := by omega
    have hlen : (r.1.length : Int) = max 0 n * blockBytes (decide (q.extraMask ≠ 0)) f := by
      rw [hr.2, hmax, Int.natCast_mul, Int.toNat_of_nonneg (by omega)]
    by_cases hx : q.readyStart + n = q.readyEnd
    · rw [if_pos hx]
      exact ⟨hmin, hlen, hr.1.rate, hr.1.mask, show q.readyStart + n = q.readyStart + max 0 n by omega, hr.1.stop, hr.1.offset, hr.1.factor⟩
    · rw [if_neg hx]
      exact ⟨hmin, hlen, hr.1.rate, hr.1.mask, show q.readyStart + n = q.readyStart + max 0 n by omega, hr.1.stop, hr.1.offset, hr.1.factor⟩
  · rw [if_neg hp]
    have hmax : max 0 n = 0 := by omega
    exact ⟨hmin, by rw [hmax]; simp, rfl, rfl, by show q.readyStart = q.readyStart + max 0 n; omega, rfl, rfl, rfl⟩

/-- A song is being played. -/
structure Playing (m : Machine) : Prop where
  ready : Ready m
  rate : 100 ≤ m.rate ∧ m.rate ≤ 48000
  songs : m.info.songs ≤ 256

theorem Playing.loaded {m : Machine} (h : Playing m) : Loaded m := ⟨h.ready.cpu, h.rate, h.ready.tmc, h.songs⟩

/-- `DoFrame` during playback. -/
theorem playing_doFrame {m : Machine} (h : Playing m) :
    XPost CpuBad (fun r => r.1 = frameCycles m.info.ntsc ∧ Playing r.2 ∧ Keeps m r.2 ∧ r.2.silenceLeft = m.silenceLeft ∧
      r.2.pk.readyStart = 0 ∧ 1 ≤ r.2.pk.readyEnd) (Machine.doFrame m) :=
  (ready_doFrame h.ready).mono (fun _ x => x) fun r hx =>
    ⟨hx.1, ⟨hx.2.1, by rw [hx.2.2.1.rate]; exact h.rate, by rw [hx.2.2.1.info]; exact h.songs⟩, hx.2.2⟩

/-- `generateBlocks` spelled out. -/
theorem generateBlocks_eq (blocks : Int) (f : SampleFormat) (m : Machine) :
    Machine.generateBlocks blocks f m =
      match m.pk.generate blocks f with
      | .ok r => .ok ((r.1, r.2.1), { m with pk := r.2.2, played := m.played + r.2.1 })
      | .error e => .error e := by
  show C.bind (C.chips _) _ m = _
  unfold C.bind C.chips
  dsimp only
  cases m.pk.generate blocks f <;> rfl

/-- Taking finished samples. -/
theorem playing_generateBlocks {m : Machine} (h : Playing m) (blocks : Int) (f : SampleFormat) :
    XPost CpuBad (fun r => Playing r.2 ∧ Took m.pk blocks f (r.1.1, r.1.2, r.2.pk) ∧
      r.2 = { m with pk := r.2.pk, played := m.played + r.1.2 }) (Machine.generateBlocks blocks f m) := by
  have hr : 0 ≤ m.pk.rate ∧ m.pk.rate ≤ 48000 := by have := h.ready.rate; omega
  have h1 := h.ready.chips.generate hr blocks f
  have h2 := generate_took m.pk blocks f
  rw [generateBlocks_eq]
  cases hx : m.pk.generate blocks f with
  | error e => rw [hx] at h1; exact Or.inr h1.2
  | ok r =>
    rw [hx] at h1 h2
    have e1 : r.2.2.rate = m.pk.rate := h2.rate
    refine ⟨⟨⟨h.ready.cpu, h.ready.time, chipsOk_congr (a := m) (b := { m with pk := r.2.2, played := m.played + r.2.1 }) e1 rfl h1,
      h.ready.consol, h.ready.covox, ?_, h.ready.tmc, ?_⟩, h.rate, h.songs⟩, h2, rfl⟩
    · show 100 ≤ r.2.2.rate ∧ r.2.2.rate ≤ 48000
      rw [e1]; exact h.ready.rate
    · have e2 := h2.start
      have e3 := h2.stop
      have e4 := h2.count
      have := h.ready.window
      show r.2.2.readyStart ≤ r.2.2.readyEnd
      omega

/-- Changes of `silenceLeft`. -/
theorem Playing.silence {m : Machine} (h : Playing m) (v : Int) : Playing { m with silenceLeft := v } :=
  ⟨⟨h.ready.cpu, h.ready.time, h.ready.chips, h.ready.consol, h.ready.covox, h.ready.rate, h.ready.tmc, h.ready.window⟩, h.rate, h.songs⟩

/-- The machine after silence detection. -/
def Machine.listened (m : Machine) (cycles : Int) : Machine :=
  if m.silence > 0 then
    if (m.pk.isSilent && !m.external) = true then { m with silenceLeft := m.silenceLeft - cycles }
    else { m with silenceLeft := m.silence }
  else m

/-- Does silence detection let playback go on? -/
def Machine.goesOn (m : Machine) (cycles : Int) : Bool :=
  !(decide (m.silence > 0) && (m.pk.isSilent && !m.external)) || decide (m.silenceLeft - cycles > 0)

theorem listen_eq (m : Machine) (cycles : Int) : Machine.listen cycles m = .ok (m.goesOn cycles, m.listened cycles) := by
  show (if m.silence > 0 then _ else _ : C Bool) m = _
  unfold Machine.goesOn Machine.listened
  by_cases h1 : m.silence > 0
  · rw [if_pos h1, if_pos h1, decide_eq_true h1]
    show (if (m.pk.isSilent && !m.external) = true then _ else _ : C Bool) m = _
    by_cases h2 : (m.pk.isSilent && !m.external) = true
    · rw [if_pos h2, if_pos h2, h2]
      rfl
    · rw [if_neg h2, if_neg h2]
      have h3 : (m.pk.isSilent && !m.external) = false := by simpa using h2
      rw [h3]
      rfl
  · rw [if_neg h1, if_neg h1, decide_eq_false h1]
    rfl

theorem Playing.listened {m : Machine} (h : Playing m) (cycles : Int) : Playing (m.listened cycles) := by
  unfold Machine.listened
  repeat' split
  · exact h.silence _
  · exact h.silence _
  · exact h

theorem listened_keeps (m : Machine) (cycles : Int) : Keeps m (m.listened cycles) ∧ (m.listened cycles).pk = m.pk ∧
    (m.listened cycles).cpu = m.cpu := by
  unfold Machine.listened
  repeat' split
  all_goals exact ⟨⟨rfl, rfl, rfl, rfl, rfl, rfl, rfl⟩, rfl, rfl⟩

/-- Results of the loop of `Generate`. -/
structure Generated (m : Machine) (left : Int) (f : SampleFormat) (r : (List Int × Int) × Machine) : Prop where
  playing : Playing r.2
  atMost : r.1.2 ≤ left
  length : (r.1.1.length : Int) = max 0 r.1.2 * blockBytes (decide (m.pk.extraMask ≠ 0)) f
  played : r.2.played = m.played + r.1.2
  info : r.2.info = m.info
  song : r.2.song = m.song
  duration : r.2.duration = m.duration
  silence : r.2.silence = m.silence
  rate : r.2.rate = m.rate
  pkRate : r.2.pk.rate = m.pk.rate
  full : m.silence ≤ 0 → r.1.2 = left
  nonneg : 0 ≤ left → 0 ≤ r.1.2

theorem mask_info {m : Machine} (h : Ready m) : m.pk.extraMask = if decide (m.info.channels > 1) then 0x10 else 0 := h.chips.mask

theorem playing_generateLoop (f : SampleFormat) : ∀ (fuel : Nat) (m : Machine) (left : Int), Playing m →
    ((1 ≤ m.pk.readyEnd ∧ m.pk.readyStart = 0 ∧ left + 1 ≤ fuel ∧ 1 ≤ fuel) ∨ (left + 2 ≤ fuel ∧ 2 ≤ fuel)) →
    XPost CpuBad (Generated m left f) (Machine.generateLoop f fuel left m)
  | 0, m, left, _, hf => by omega
  | fuel + 1, m, left, hm, hf => by
    show XPost CpuBad _ (C.bind (Machine.generateBlocks left f) _ m)
    have hk := playing_generateBlocks hm left f
    have hw := hm.ready.window
    unfold C.bind
    cases hx : Machine.generateBlocks left f m with
    | error e => rw [hx] at hk; exact hk
    | ok r =>
      rw [hx] at hk
      obtain ⟨⟨bytes, n⟩, m1⟩ := r
      obtain ⟨hm1, ht, he⟩ := hk
      dsimp only at ht he hm1 ⊢
      have hcount : n = min left (m.pk.readyEnd - m.pk.readyStart) := ht.count
      have hlen : (bytes.length : Int) = max 0 n * blockBytes (decide (m.pk.extraMask ≠ 0)) f := ht.length
      have e1 : m1.played = m.played + n := by rw [he]
      have e2 : m1.info = m.info := by rw [he]
      have e3 : m1.song = m.song := by rw [he]
      have e4 : m1.duration = m.duration := by rw [he]
      have e5 : m1.silence = m.silence := by rw [he]
      have e6 : m1.rate = m.rate := by rw [he]
      have e7 : m1.pk.rate = m.pk.rate := ht.rate
      have e8 : m1.pk.extraMask = m.pk.extraMask := ht.mask
      by_cases hge : n ≥ left
      · rw [if_pos hge]
        exact ⟨hm1, show n ≤ left by omega, hlen, e1, e2, e3, e4, e5, e6, e7, fun _ => show n = left by omega, fun _ => show 0 ≤ n by omega⟩
      · rw [if_neg hge]
        show XPost CpuBad _ (C.bind Machine.doFrame _ m1)
        have hd := playing_doFrame hm1
        unfold C.bind
        cases hy : Machine.doFrame m1 with
        | error e => rw [hy] at hd; exact hd
        | ok r2 =>
          rw [hy] at hd
          obtain ⟨cyc, m2⟩ := r2
          obtain ⟨_, hm2, hk2, _, hs2, hs3⟩ := hd
          dsimp only at hm2 hk2 hs2 hs3 ⊢
          have hls : Machine.listen cyc m2 = .ok (m2.goesOn cyc, m2.listened cyc) := listen_eq m2 cyc
          show XPost CpuBad _ (C.bind (Machine.listen cyc) _ m2)
          unfold C.bind
          rw [hls]
          dsimp only
          have hm3 := hm2.listened cyc
          obtain ⟨hk3, hp3, _⟩ := listened_keeps m2 cyc
          have hkk := hk2.trans hk3
          have hmask : (m2.listened cyc).pk.extraMask = m.pk.extraMask := by
            rw [mask_info hm3.ready, hkk.info, ← mask_info hm1.ready, e8]
          by_cases hgo : m2.goesOn cyc = true
          · rw [if_pos hgo]
            show XPost CpuBad _ (C.bind (Machine.generateLoop f fuel (left - n)) _ (m2.listened cyc))
            have hrec := playing_generateLoop f fuel (m2.listened cyc) (left - n) hm3
              (Or.inl ⟨by rw [hp3]; exact hs3, by rw [hp3]; exact hs2, by omega, by omega⟩)
            unfold C.bind
            cases hz : Machine.generateLoop f fuel (left - n) (m2.listened cyc) with
            | error e => rw [hz] at hrec; exact hrec
            | ok r3 =>
              rw [hz] at hrec
              obtain ⟨⟨bytes3, n3⟩, m4⟩ := r3
              have h4 : n3 ≤ left - n := hrec.atMost
              have hn0 : 0 ≤ n := by omega
              have hn4 : 0 ≤ n3 := hrec.nonneg (by omega)
              have hn3 : (bytes3.length : Int) = max 0 n3 * blockBytes (decide (m.pk.extraMask ≠ 0)) f := by
                have := hrec.length; rw [hmask] at this; exact this
              have hp : m4.played = m.played + (n + n3) := by
                have := hrec.played; rw [hkk.played, e1] at this
                have h5 : m4.played = m.played + n + n3 := this
                omega
              refine ⟨hrec.playing, show n + n3 ≤ left by omega, ?_, hp, hrec.info.trans (hkk.info.trans e2),
                hrec.song.trans (hkk.song.trans e3), hrec.duration.trans (hkk.duration.trans e4),
                hrec.silence.trans (hkk.silence.trans e5), hrec.rate.trans (hkk.rate.trans e6),
                hrec.pkRate.trans (hkk.pkRate.trans e7), fun hs => ?_, fun _ => show 0 ≤ n + n3 by omega⟩
              · show ((bytes ++ bytes3).length : Int) = max 0 (n + n3) * _
                rw [List.length_append, Int.natCast_add, hlen, hn3, Int.max_eq_right hn0, Int.max_eq_right hn4,
                  Int.max_eq_right (by omega), Int.add_mul]
              · have : n3 = left - n := hrec.full (by rw [hkk.silence, e5]; exact hs)
                show n + n3 = left
                omega
          · rw [if_neg hgo]
            refine ⟨hm3, show n ≤ left by omega, hlen, hkk.played.trans e1, hkk.info.trans e2, hkk.song.trans e3,
              hkk.duration.trans e4, hkk.silence.trans e5, hkk.rate.trans e6, hkk.pkRate.trans e7, fun hs => ?_, fun _ => show 0 ≤ n by omega⟩
            exfalso
            apply hgo
            unfold Machine.goesOn
            have : m2.silence = m.silence := hk2.silence.trans e5
            rw [this, decide_eq_false (by omega)]
            rfl

/-- `Generate` spelled out: nothing after silence was detected, otherwise the loop. -/
theorem generate_eq (m : Machine) (bufferLen : Int) (f : SampleFormat) :
    Machine.generate bufferLen f m =
      if decide (m.silence > 0 ∧ m.silenceLeft ≤ 0) = true then .ok (([], 0), m)
      else match Machine.generateLoop f ((m.wantedBlocks bufferLen f).toNat + 3) (m.wantedBlocks bufferLen f) m with
        | .ok r => .ok ((r.1.1, shl r.1.2 (Machine.blockShift m.info.channels f)), r.2)
        | .error e => .error e := by
  show (if decide (m.silence > 0 ∧ m.silenceLeft ≤ 0) = true then _ else _ : C (List Int × Int)) m = _
  by_cases hs : decide (m.silence > 0 ∧ m.silenceLeft ≤ 0) = true
  · rw [if_pos hs, if_pos hs]; rfl
  · rw [if_neg hs, if_neg hs]
    show C.bind (Machine.generateLoop f ((m.wantedBlocks bufferLen f).toNat + 3) (m.wantedBlocks bufferLen f)) _ m = _
    unfold C.bind
    generalize Machine.generateLoop f ((m.wantedBlocks bufferLen f).toNat + 3) (m.wantedBlocks bufferLen f) m = x
    cases x <;> rfl

/-- Results of `Generate`. -/
structure Served (m : Machine) (bufferLen : Int) (f : SampleFormat) (r : (List Int × Int) × Machine) : Prop where
  playing : Playing r.2
  info : r.2.info = m.info
  song : r.2.song = m.song
  duration : r.2.duration = m.duration
  silence : r.2.silence = m.silence
  rate : r.2.rate = m.rate
  pkRate : r.2.pk.rate = m.pk.rate
  count : ∃ n, r.1.2 = shl n (Machine.blockShift m.info.channels f) ∧ r.2.played = m.played + n ∧
    (r.1.1.length : Int) = max 0 n * blockBytes (decide (m.info.channels > 1)) f ∧
    n ≤ max 0 (m.wantedBlocks bufferLen f) ∧ (0 ≤ m.wantedBlocks bufferLen f → 0 ≤ n) ∧
    (m.silence ≤ 0 → n = m.wantedBlocks bufferLen f)

theorem playing_generate {m : Machine} (h : Playing m) (bufferLen : Int) (f : SampleFormat) :
    XPost CpuBad (Served m bufferLen f) (Machine.generate bufferLen f m) := by
  rw [generate_eq]
  by_cases hs : decide (m.silence > 0 ∧ m.silenceLeft ≤ 0) = true
  · rw [if_pos hs]
    have hs' := of_decide_eq_true hs
    exact ⟨h, rfl, rfl, rfl, rfl, rfl, rfl, 0, by unfold shl; simp, by simp, by simp, by omega, by simp, by omega⟩
  · rw [if_neg hs]
    generalize hb : Machine.wantedBlocks m bufferLen f = blocks
    have key := playing_generateLoop f (blocks.toNat + 3) m blocks h (Or.inr (by omega))
    have hmask : decide (m.pk.extraMask ≠ 0) = decide (m.info.channels > 1) := by
      rw [mask_info h.ready]
      by_cases hc : m.info.channels > 1 <;> simp [hc]
    cases hx : Machine.generateLoop f (blocks.toNat + 3) blocks m with
    | error e => rw [hx] at key; exact key
    | ok r =>
      rw [hx] at key
      refine ⟨key.playing, key.info, key.song, key.duration, key.silence, key.rate, key.pkRate, r.1.2, rfl, key.played, ?_, ?_,
        fun hp => key.nonneg (by omega), fun hq => by rw [hb]; exact key.full hq⟩
      · rw [← hmask]; exact key.length
      · have := key.atMost; omega

/-- `generate_eq` for `SeekSample`'s loop. -/
theorem playing_seekFrames (block : Int) : ∀ (fuel : Nat) (m : Machine), Playing m → m.played ≤ block →
    ((1 ≤ m.pk.readyEnd ∧ block - m.played ≤ fuel) ∨ block - m.played + 1 ≤ fuel) →
    XPost PlayBad (fun r => Playing r.2 ∧ r.2.played ≤ block ∧ block ≤ r.2.played + r.2.pk.readyEnd ∧
      r.2.info = m.info ∧ r.2.song = m.song ∧ r.2.duration = m.duration ∧ r.2.silence = m.silence ∧ r.2.rate = m.rate ∧
      r.2.pk.rate = m.pk.rate) (Machine.seekFrames block fuel m)
  | 0, m, hm, hp, hf => by
    have he : 0 ≤ m.pk.readyEnd := by have := hm.ready.window; have := hm.ready.start; omega
    have e : Machine.seekFrames block 0 m = (if m.played + m.pk.readyEnd < block then C.fail .fuel else pure () : C Unit) m := rfl
    rw [e, if_neg (by omega)]
    exact ⟨hm, hp, by show block ≤ m.played + m.pk.readyEnd; omega, rfl, rfl, rfl, rfl, rfl, rfl⟩
  | fuel + 1, m, hm, hp, hf => by
    have he : 0 ≤ m.pk.readyEnd := by have := hm.ready.window; have := hm.ready.start; omega
    have e : Machine.seekFrames block (fuel + 1) m =
        (if m.played + m.pk.readyEnd < block then (do
          Machine.setPlayed (m.played + m.pk.readyEnd)
          let _ ← Machine.doFrame
          Machine.seekFrames block fuel) else pure () : C Unit) m := rfl
    rw [e]
    by_cases hc : m.played + m.pk.readyEnd < block
    · rw [if_pos hc]
      have hm1 : Playing { m with played := m.played + m.pk.readyEnd } :=
        ⟨⟨hm.ready.cpu, hm.ready.time, hm.ready.chips, hm.ready.consol, hm.ready.covox, hm.ready.rate, hm.ready.tmc, hm.ready.window⟩,
          hm.rate, hm.songs⟩
      have hd := playing_doFrame hm1
      show XPost PlayBad _ (C.bind Machine.doFrame _ { m with played := m.played + m.pk.readyEnd })
      unfold C.bind
      cases hy : Machine.doFrame { m with played := m.played + m.pk.readyEnd } with
      | error e => rw [hy] at hd; exact Or.inl hd
      | ok r2 =>
        rw [hy] at hd
        obtain ⟨cyc, m2⟩ := r2
        obtain ⟨_, hm2, hk2, _, _, hs3⟩ := hd
        dsimp only at hm2 hk2 hs3 ⊢
        have e1 : m2.played = m.played + m.pk.readyEnd := hk2.played
        refine (playing_seekFrames block fuel m2 hm2 (by omega) (Or.inl ⟨hs3, by omega⟩)).mono (fun _ x => x) fun r hx => ?_
        obtain ⟨h1, h2, h3, h4, h5, h6, h7, h8, h9⟩ := hx
        exact ⟨h1, h2, h3, h4.trans hk2.info, h5.trans hk2.song, h6.trans hk2.duration, h7.trans hk2.silence, h8.trans hk2.rate,
          h9.trans hk2.pkRate⟩
    · rw [if_neg hc]
      exact ⟨hm, hp, by show block ≤ m.played + m.pk.readyEnd; omega, rfl, rfl, rfl, rfl, rfl, rfl⟩

/-- A song just started is being played. -/
theorem Starting.playing {m m' : Machine} {song duration : Int} (h : Loaded m) (k : Starting (m.atStart song duration) m') : Playing m' :=
  ⟨k.ready, by rw [k.keeps.rate]; exact h.rate, by rw [k.keeps.info]; exact h.songs⟩

attribute [local irreducible] Machine.playSong in
/-- Rewinding. -/
theorem playing_rewind {m : Machine} (h : Playing m) {block : Int} (hb : 0 ≤ block) :
    XPost PlayBad (fun r => Playing r.2 ∧ r.2.played ≤ block ∧ r.2.info = m.info ∧ r.2.song = m.song ∧ r.2.duration = m.duration ∧
      r.2.silence = m.silence ∧ r.2.rate = m.rate) (Machine.rewind block m) := by
  have e : Machine.rewind block m = (if block < m.played then Machine.playSong m.song m.duration else pure () : C Unit) m := rfl
  rw [e]
  by_cases hc : block < m.played
  · rw [if_pos hc]
    refine (loaded_playSong h.loaded m.song m.duration).mono (fun _ x => x) fun r hr => ?_
    exact ⟨hr.1.playing h.loaded, by rw [hr.1.keeps.played]; exact hb, hr.1.keeps.info, hr.1.keeps.song, hr.1.keeps.duration,
      hr.1.keeps.silence, hr.1.keeps.rate⟩
  · rw [if_neg hc]
    exact ⟨h, by show m.played ≤ block; omega, rfl, rfl, rfl, rfl, rfl⟩

attribute [local irreducible] Machine.rewind in
/-- Seeking to a block that exists. -/
theorem playing_seekSample {m : Machine} (h : Playing m) {block : Int} (hb : 0 ≤ block) :
    XPost PlayBad (fun r => Playing r.2 ∧ r.2.played = block ∧ r.2.info = m.info ∧ r.2.song = m.song ∧ r.2.duration = m.duration ∧
      r.2.silence = m.silence ∧ r.2.rate = m.rate) (Machine.seekSample block m) := by
  show XPost PlayBad _ (C.bind (Machine.rewind block) _ m)
  have hr := playing_rewind h hb
  unfold C.bind
  cases hx : Machine.rewind block m with
  | error e => rw [hx] at hr; exact hr
  | ok r =>
    rw [hx] at hr
    obtain ⟨_, m1⟩ := r
    obtain ⟨hm1, hp1, h1, h2, h3, h4, h5⟩ := hr
    dsimp only at hm1 hp1 h1 h2 h3 h4 h5 ⊢
    show XPost PlayBad _ (C.bind (Machine.seekFrames block ((block - m1.played).toNat + 1)) _ m1)
    have hs := playing_seekFrames block ((block - m1.played).toNat + 1) m1 hm1 hp1 (Or.inr (by omega))
    unfold C.bind
    cases hy : Machine.seekFrames block ((block - m1.played).toNat + 1) m1 with
    | error e => rw [hy] at hs; exact hs
    | ok r2 =>
      rw [hy] at hs
      obtain ⟨_, m2⟩ := r2
      obtain ⟨hm2, hp2, hq2, g1, g2, g3, g4, g5, g6⟩ := hs
      dsimp only at hm2 hp2 hq2 g1 g2 g3 g4 g5 g6 ⊢
      refine ⟨⟨⟨hm2.ready.cpu, hm2.ready.time, ?_, hm2.ready.consol, hm2.ready.covox, hm2.ready.rate, hm2.ready.tmc, ?_⟩, hm2.rate, hm2.songs⟩,
        rfl, g1.trans h1, g2.trans h2, g3.trans h3, g4.trans h4, g5.trans h5⟩
      · have g := hm2.ready.chips
        exact ⟨g.base, g.extra, g.mask, g.factor, g.offset, show 0 ≤ block - m2.played by omega, g.stop⟩
      · show block - m2.played ≤ m2.pk.readyEnd
        omega

end Asap
