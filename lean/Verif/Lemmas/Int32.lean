import Verif.Lemmas.Player
import Verif.Lemmas.Seek
import Verif.Spec.Int32

/-! Playback with 32-bit integers. -/

namespace Asap
open Asap.Spec
open Asap.Spec.Int32 (longest Ordinary)
open Machine (frameCycles)

namespace Int32

/-- `x` is `y` without overflow, and ends with `P`. -/
def Agree {α : Type} (P : α → Machine → Prop) (x : I α) (y : C α) (m : Machine) : Prop :=
  x m = some (y m) ∧ ∀ a m', y m = .ok (a, m') → P a m'

variable {α β : Type} {P : α → Machine → Prop} {Q : β → Machine → Prop} {m : Machine}

theorem Agree.bind {x : I α} {y : C α} {f : α → I β} {g : α → C β} (h : Agree P x y m) (k : ∀ a m', P a m' → Agree Q (f a) (g a) m') :
    Agree Q (x >>= f) (y >>= g) m := by
  show Agree Q (I.bind x f) (C.bind y g) m
  obtain ⟨h1, h2⟩ := h
  unfold Agree I.bind C.bind
  rw [h1]
  cases hy : y m with
  | error e => exact ⟨rfl, fun _ _ h => (nomatch h)⟩
  | ok r => exact k r.1 r.2 (h2 r.1 r.2 hy)

theorem Agree.mono {x : I α} {y : C α} {P' : α → Machine → Prop} (h : Agree P x y m) (k : ∀ a m', P a m' → P' a m') : Agree P' x y m :=
  ⟨h.1, fun a m' e => k a m' (h.2 a m' e)⟩

theorem Agree.within {E : Hw → Prop} {y : C α} (h : XPost E (fun r => P r.1 r.2) (y m)) : Agree P (within y) y m :=
  ⟨rfl, fun a m' e => by rw [e] at h; exact h⟩

theorem Agree.pure {a : α} (h : P a m) : Agree P (Pure.pure a : I α) (Pure.pure a : C α) m :=
  ⟨rfl, fun b m' e => by injection e with e; injection e with e1 e2; subst e1 e2; exact h⟩

/-- Reading a value. -/
theorem read_bind {γ : Type} (g : Machine → γ) (f : γ → I β) : (Int32.within (C.get g) >>= f) m = f (g m) m := rfl

/-- An operation in range. -/
theorem int_bind {v : Int} {f : Int → I β} (h : -2147483648 ≤ v ∧ v ≤ 2147483647) : (int v >>= f) m = f v m := by
  show I.bind (int v) f m = _
  unfold I.bind int
  rw [if_pos h]

theorem truncate_eq {v : Int} (h : -2147483648 ≤ v ∧ v ≤ 2147483647) : truncate v = v := by
  unfold truncate
  omega

/-- The number of samples in milliseconds. -/
theorem samples_range {rate ms : Int} (hr : 100 ≤ rate ∧ rate ≤ 48000) (hm : 0 ≤ ms ∧ ms ≤ 7200000) :
    millisecondsToBlocks rate ms = Machine.millisecondsToBlocks rate ms ∧ 0 ≤ Machine.millisecondsToBlocks rate ms ∧
      Machine.millisecondsToBlocks rate ms ≤ 48 * ms := by
  have h0 : 0 ≤ ms * rate := Int.mul_nonneg hm.1 (by omega)
  have h1 : ms * rate ≤ ms * 48000 := Int.mul_le_mul_of_nonneg_left hr.2 hm.1
  have e : Machine.millisecondsToBlocks rate ms = ms * rate / 1000 := Int.tdiv_eq_ediv_of_nonneg h0
  have e2 : millisecondsToBlocks rate ms = truncate (Machine.millisecondsToBlocks rate ms) := rfl
  rw [e2, e, truncate_eq (by omega)]
  omega

theorem readyEnd_range (h : Playing m) : 0 ≤ m.pk.readyEnd ∧ m.pk.readyEnd ≤ 10000 := by
  have h1 := h.ready.window
  have h2 := h.ready.start
  have h3 := h.ready.chips.stop
  have h4 := h.ready.rate
  have h5 : Pokey.bufSize m.pk.rate ≤ 10000 := by
    unfold Pokey.bufSize
    rw [Int.tdiv_eq_ediv_of_nonneg (by omega)]
    omega
  have h6 : m.pk.readyEnd ≤ Pokey.bufSize m.pk.rate := h3
  omega

/-- A song is being played and everything fits. -/
structure Fits (m : Machine) : Prop where
  playing : Playing m
  channels : m.info.channels = 1 ∨ m.info.channels = 2
  played : 0 ≤ m.played ∧ m.played ≤ 345600000
  duration : 0 < m.duration ∧ m.duration ≤ 5999999
  silence : m.silence ≤ 2147483647
  left : m.silenceLeft ≤ 2147483647

theorem Fits.total (h : Fits m) : millisecondsToBlocks m.rate m.duration = Machine.millisecondsToBlocks m.rate m.duration ∧
    0 ≤ Machine.millisecondsToBlocks m.rate m.duration ∧ Machine.millisecondsToBlocks m.rate m.duration ≤ 287999952 := by
  have := h.duration
  have := samples_range h.playing.rate (ms := m.duration) (by omega)
  exact ⟨this.1, this.2.1, by omega⟩

/-! ### Seeking -/

/-- The machine at a frame within a seek. -/
structure Seeking (m0 : Machine) (block : Int) (m : Machine) : Prop where
  playing : Playing m
  played : 0 ≤ m.played ∧ m.played ≤ block
  info : m.info = m0.info
  duration : m.duration = m0.duration
  silence : m.silence = m0.silence
  left : m.silenceLeft = m0.silenceLeft

theorem seekFrames_agree {m0 : Machine} {block : Int} (hb : block ≤ 345600000) : ∀ (fuel : Nat) (m : Machine), Seeking m0 block m →
    Agree (fun _ => Seeking m0 block) (seekFrames block fuel) (Machine.seekFrames block fuel) m
  | 0, m, h => by
    have hr := readyEnd_range h.playing
    have hp := h.played
    have e1 : seekFrames block 0 m = (if m.played + m.pk.readyEnd < block then within (C.fail .fuel) else pure () : I Unit) m := by
      show (int (m.played + m.pk.readyEnd) >>= fun here => if here < block then within (C.fail .fuel) else pure () : I Unit) m = _
      rw [int_bind (by omega)]
    have e2 : Machine.seekFrames block 0 m = (if m.played + m.pk.readyEnd < block then C.fail .fuel else pure () : C Unit) m := rfl
    unfold Agree
    rw [e1, e2]
    by_cases hc : m.played + m.pk.readyEnd < block
    · rw [if_pos hc, if_pos hc]
      exact ⟨rfl, fun _ _ h => (nomatch h)⟩
    · rw [if_neg hc, if_neg hc]
      exact Agree.pure (m := m) (a := ()) (P := fun _ => Seeking m0 block) h
  | fuel + 1, m, h => by
    have hr := readyEnd_range h.playing
    have hp := h.played
    have e1 : seekFrames block (fuel + 1) m = (if m.played + m.pk.readyEnd < block then (do
        within (Machine.setPlayed (m.played + m.pk.readyEnd))
        let _ ← within Machine.doFrame
        seekFrames block fuel) else pure () : I Unit) m := by
      show (int (m.played + m.pk.readyEnd) >>= fun here => if here < block then (do
        within (Machine.setPlayed here)
        let _ ← within Machine.doFrame
        seekFrames block fuel) else pure () : I Unit) m = _
      rw [int_bind (by omega)]
    have e2 : Machine.seekFrames block (fuel + 1) m = (if m.played + m.pk.readyEnd < block then (do
        Machine.setPlayed (m.played + m.pk.readyEnd)
        let _ ← Machine.doFrame
        Machine.seekFrames block fuel) else pure () : C Unit) m := rfl
    unfold Agree
    rw [e1, e2]
    by_cases hc : m.played + m.pk.readyEnd < block
    · rw [if_pos hc, if_pos hc]
      have hm := h.playing
      have hm1 : Playing { m with played := m.played + m.pk.readyEnd } :=
        ⟨⟨hm.ready.cpu, hm.ready.time, hm.ready.chips, hm.ready.consol, hm.ready.covox, hm.ready.rate, hm.ready.tmc, hm.ready.window⟩,
          hm.rate, hm.songs⟩
      have s1 : Seeking m0 block { m with played := m.played + m.pk.readyEnd } :=
        ⟨hm1, ⟨show 0 ≤ m.played + m.pk.readyEnd by omega, show m.played + m.pk.readyEnd ≤ block by omega⟩, h.info, h.duration, h.silence, h.left⟩
      exact Agree.bind (P := fun _ => Seeking m0 block)
        (Agree.within (E := fun _ => False) (y := Machine.setPlayed (m.played + m.pk.readyEnd)) s1) fun _ m1 h1 =>
        Agree.bind (P := fun _ => Seeking m0 block)
          (Agree.within ((playing_doFrame h1.playing).mono (fun _ x => x) fun r hx =>
            ⟨hx.2.1, by rw [hx.2.2.1.played]; exact h1.played, hx.2.2.1.info.trans h1.info, hx.2.2.1.duration.trans h1.duration,
              hx.2.2.1.silence.trans h1.silence, hx.2.2.2.1.trans h1.left⟩)) fun _ m2 h2 => seekFrames_agree hb fuel m2 h2
    · rw [if_neg hc, if_neg hc]
      exact Agree.pure (m := m) (a := ()) (P := fun _ => Seeking m0 block) h

theorem Agree.and {E : Hw → Prop} {x : I α} {y : C α} {R : α → Machine → Prop} (h : Agree P x y m) (k : XPost E (fun r => R r.1 r.2) (y m)) :
    Agree (fun a m' => P a m' ∧ R a m') x y m :=
  ⟨h.1, fun a m' e => ⟨h.2 a m' e, by rw [e] at k; exact k⟩⟩

attribute [local irreducible] Machine.playSong in
theorem rewind_post (h : Fits m) {block : Int} (hb : 0 ≤ block) :
    XPost PlayBad (fun r => Seeking r.2 block r.2 ∧ r.2.silenceLeft ≤ 2147483647) (Machine.rewind block m) := by
  have e : Machine.rewind block m = (if block < m.played then Machine.playSong m.song m.duration else pure () : C Unit) m := rfl
  rw [e]
  by_cases hc : block < m.played
  · rw [if_pos hc]
    refine (loaded_playSong h.playing.loaded m.song m.duration).mono (fun _ x => x) fun r hr => ?_
    have e1 : r.2.played = 0 := hr.1.keeps.played
    have e2 : r.2.silenceLeft = m.silence := hr.1.silenceLeft
    exact ⟨⟨hr.1.playing h.playing.loaded, by omega, rfl, rfl, rfl, rfl⟩, by rw [e2]; exact h.silence⟩
  · rw [if_neg hc]
    exact ⟨⟨h.playing, ⟨h.played.1, show m.played ≤ block by omega⟩, rfl, rfl, rfl, rfl⟩, h.left⟩

attribute [local irreducible] Machine.rewind in
theorem seekSample_agree (h : Fits m) {block : Int} (hb : 0 ≤ block ∧ block ≤ 345600000) :
    Agree (fun _ => Fits) (seekSample block) (Machine.seekSample block) m := by
  have key : Agree (fun _ m' => m'.silenceLeft ≤ 2147483647) (seekSample block) (Machine.seekSample block) m := by
    refine Agree.bind (P := fun _ m' => Seeking m' block m' ∧ m'.silenceLeft ≤ 2147483647) (Agree.within (rewind_post h hb.1)) fun _ m1 h1 => ?_
    show Agree _ (seekFrames block ((block - m1.played).toNat + 1) >>= fun _ => (do
        let played ← within (C.get (·.played))
        let _ ← int (block - played)
        within (Machine.seekTo block) : I Unit))
      (Machine.seekFrames block ((block - m1.played).toNat + 1) >>= fun _ => Machine.seekTo block) m1
    refine Agree.bind (seekFrames_agree hb.2 _ m1 h1.1) fun _ m2 h2 => ?_
    have hp := h2.played
    have e : (do
        let played ← within (C.get (·.played))
        let _ ← int (block - played)
        within (Machine.seekTo block) : I Unit) m2 = within (Machine.seekTo block) m2 := by
      show (int (block - m2.played) >>= fun _ => within (Machine.seekTo block) : I Unit) m2 = _
      rw [int_bind (by omega)]
    unfold Agree
    rw [e]
    refine ⟨rfl, fun a m' hx => ?_⟩
    injection hx with hx
    injection hx with _ hx
    rw [← hx]
    show m2.silenceLeft ≤ _
    rw [h2.left]
    exact h1.2
  refine (key.and (R := fun _ m' => Playing m' ∧ m'.played = block ∧ m'.info = m.info ∧ m'.song = m.song ∧ m'.duration = m.duration ∧
    m'.silence = m.silence ∧ m'.rate = m.rate) (playing_seekSample h.playing hb.1)).mono fun _ m' hx => ?_
  obtain ⟨h1, h2, h3, h4, h5, h6, h7, h8⟩ := hx
  exact ⟨h2, by rw [h4]; exact h.channels, by omega, by rw [h6]; exact h.duration, by rw [h7]; exact h.silence, h1⟩

theorem seek_agree (h : Fits m) {position : Int} (hp : 0 ≤ position ∧ position ≤ 7200000) :
    Agree (fun _ => Fits) (seek position) (Machine.seek position) m := by
  have hs := samples_range h.playing.rate hp
  have e1 : seek position m = seekSample (millisecondsToBlocks m.rate position) m := rfl
  have e2 : Machine.seek position m = Machine.seekSample (Machine.millisecondsToBlocks m.rate position) m := rfl
  unfold Agree
  rw [e1, e2, hs.1]
  exact seekSample_agree h (block := Machine.millisecondsToBlocks m.rate position) (by omega)

/-! ### Generating -/

theorem listen_agree {cycles : Int} (hc : 0 ≤ cycles ∧ cycles ≤ 35568) (hl : m.silence > 0 → 0 < m.silenceLeft) (hu : m.silenceLeft ≤ 2147483647) :
    listen cycles m = some (Machine.listen cycles m) := by
  have e1 : listen cycles m = (if m.silence > 0 then
      (if (m.pk.isSilent && !m.external) = true then (int (m.silenceLeft - cycles) >>= fun left => (do
        within (Machine.setSilenceLeft left)
        pure (decide (left > 0)) : I Bool))
      else (do
        within (Machine.setSilenceLeft m.silence)
        pure true : I Bool)) m
    else (pure true : I Bool) m) := by
    show (if m.silence > 0 then _ else _ : I Bool) m = _
    by_cases h1 : m.silence > 0
    · rw [if_pos h1, if_pos h1]
      show (if (m.pk.isSilent && !m.external) = true then _ else _ : I Bool) m = _
      by_cases h2 : (m.pk.isSilent && !m.external) = true
      · rw [if_pos h2, if_pos h2]
        rfl
      · rw [if_neg h2, if_neg h2]
    · rw [if_neg h1, if_neg h1]
  rw [e1, listen_eq]
  unfold Machine.goesOn Machine.listened
  by_cases h1 : m.silence > 0
  · rw [if_pos h1, if_pos h1, decide_eq_true h1]
    have := hl h1
    by_cases h2 : (m.pk.isSilent && !m.external) = true
    · rw [if_pos h2, if_pos h2, h2, int_bind (by omega)]
      rfl
    · rw [if_neg h2, if_neg h2]
      have h3 : (m.pk.isSilent && !m.external) = false := by simpa using h2
      rw [h3]
      rfl
  · rw [if_neg h1, if_neg h1, decide_eq_false h1]
    rfl

/-- The machine within `Generate`: `left` more blocks are wanted. -/
structure Going (left : Int) (m : Machine) : Prop where
  playing : Playing m
  played : 0 ≤ m.played ∧ 0 ≤ m.played + left ∧ m.played ≤ 345600000 ∧ m.played + left ≤ 345600000
  silence : m.silence ≤ 2147483647
  left : m.silenceLeft ≤ 2147483647
  quiet : m.silence > 0 → 0 < m.silenceLeft

theorem generateBlocks_agree (f : SampleFormat) {left : Int} (h : Going left m) :
    Agree (fun r m' => Going (left - r.2) m' ∧ r.2 ≤ left ∧ (r.2 < left → 0 ≤ r.2)) (generateBlocks left f) (Machine.generateBlocks left f) m := by
  have hw := h.playing.ready.window
  have hp := h.played
  have key := playing_generateBlocks h.playing left f
  refine ⟨?_, fun r m' hx => ?_⟩
  · rw [generateBlocks_eq]
    have hk := key
    rw [generateBlocks_eq] at hk
    unfold generateBlocks
    show I.bind _ _ m = _
    unfold I.bind within C.chips
    dsimp only
    simp only [bind, Except.bind]
    cases hx : m.pk.generate left f with
    | error e => rfl
    | ok r =>
      rw [hx] at hk
      have hc : r.2.1 = min left (m.pk.readyEnd - m.pk.readyStart) := hk.2.1.count
      show (int (m.played + r.2.1) >>= fun played => (do
        within (Machine.setPlayed played)
        pure (r.1, r.2.1) : I (List Int × Int))) { m with pk := r.2.2 } = _
      rw [int_bind (by omega)]
      rfl
  · rw [hx] at key
    obtain ⟨k1, k2, k3⟩ := key
    dsimp only at k1 k2 k3
    have hc : r.2 = min left (m.pk.readyEnd - m.pk.readyStart) := k2.count
    have e1 : m'.played = m.played + r.2 := by rw [k3]
    have e2 : m'.silence = m.silence := by rw [k3]
    have e3 : m'.silenceLeft = m.silenceLeft := by rw [k3]
    exact ⟨⟨k1, by omega, by rw [e2]; exact h.silence, by rw [e3]; exact h.left, fun x => by rw [e3]; exact h.quiet (by omega)⟩, by omega, by omega⟩

theorem shl_eq (v : Int) (n : Nat) : shl v n = v * 2 ^ n := by
  rfl

theorem generateLoop_agree (f : SampleFormat) (shift : Nat) (hs : shift ≤ 2) (blocks : Int) (hb : blocks * 2 ^ shift ≤ 2147483647) :
    ∀ (fuel : Nat) (block : Int) (m : Machine), Going (blocks - block) m → 0 ≤ block → (block ≤ blocks ∨ block = 0) →
    Agree (fun r m' => m'.silenceLeft ≤ 2147483647 ∧ min 0 (blocks - block) ≤ r.2 ∧ r.2 ≤ max 0 (blocks - block))
      (generateLoop f shift blocks fuel block) (Machine.generateLoop f fuel (blocks - block)) m
  | 0, block, m, h, h0, h1 => ⟨rfl, fun _ _ h => (nomatch h)⟩
  | fuel + 1, block, m, h, h0, h1 => by
    have hp := h.played
    have h2 : 0 ≤ block * 2 ^ shift := Int.mul_nonneg h0 (Int.pow_nonneg (by decide))
    have h3 : block * 2 ^ shift ≤ 2147483647 := by
      rcases h1 with h1 | h1
      · exact Int.le_trans (Int.mul_le_mul_of_nonneg_right h1 (Int.pow_nonneg (by decide))) hb
      · rw [h1]; omega
    have hblocks : blocks ≤ 2147483647 := by
      have : (1 : Int) ≤ 2 ^ shift := by
        have : shift = 0 ∨ shift = 1 ∨ shift = 2 := by omega
        rcases this with e | e | e <;> rw [e] <;> decide
      by_cases hn : 0 ≤ blocks
      · exact Int.le_trans (Int.le_trans (by omega) (Int.mul_le_mul_of_nonneg_left this hn)) hb
      · omega
    have e1 : generateLoop f shift blocks (fuel + 1) block m = (do
        let r ← generateBlocks (blocks - block) f
        let here ← int (block + r.2)
        if here ≥ blocks then pure r
        else do
          let cycles ← within Machine.doFrame
          let goOn ← listen cycles
          if goOn = true then do
            let t ← generateLoop f shift blocks fuel here
            pure (r.1 ++ t.1, r.2 + t.2)
          else pure r : I (List Int × Int)) m := by
      show (int (shl block shift) >>= fun _ => int (blocks - block) >>= fun left => _ : I (List Int × Int)) m = _
      rw [int_bind (by rw [shl_eq]; omega)]
      show (int (blocks - block) >>= fun left => _ : I (List Int × Int)) m = _
      rw [int_bind (by omega)]
    unfold Agree
    rw [e1]
    have key := generateBlocks_agree f h
    show Agree (fun r m' => m'.silenceLeft ≤ 2147483647 ∧ min 0 (blocks - block) ≤ r.2 ∧ r.2 ≤ max 0 (blocks - block)) (do
        let r ← generateBlocks (blocks - block) f
        let here ← int (block + r.2)
        if here ≥ blocks then pure r
        else do
          let cycles ← within Machine.doFrame
          let goOn ← listen cycles
          if goOn = true then do
            let t ← generateLoop f shift blocks fuel here
            pure (r.1 ++ t.1, r.2 + t.2)
          else pure r : I (List Int × Int)) (do
        let r ← Machine.generateBlocks (blocks - block) f
        if r.2 ≥ blocks - block then pure r
        else do
          let cycles ← Machine.doFrame
          let goOn ← Machine.listen cycles
          if goOn = true then do
            let t ← Machine.generateLoop f fuel (blocks - block - r.2)
            pure (r.1 ++ t.1, r.2 + t.2)
          else pure r : C (List Int × Int)) m
    refine Agree.bind key fun r m1 hr => ?_
    obtain ⟨hg, hle, hn⟩ := hr
    have hgp := hg.played
    unfold Agree
    have hrange : -2147483648 ≤ block + r.2 ∧ block + r.2 ≤ 2147483647 := by omega
    rw [int_bind hrange]
    by_cases hc : r.2 ≥ blocks - block
    · rw [if_pos hc, if_pos (show block + r.2 ≥ blocks by omega)]
      exact Agree.pure (m := m1) (a := r) ⟨hg.left, by omega, by omega⟩
    · rw [if_neg hc, if_neg (show ¬ block + r.2 ≥ blocks by omega)]
      have hr0 := hn (by omega)
      refine Agree.bind (P := fun c m' => (c = frameCycles m1.info.ntsc) ∧ Going (blocks - block - r.2) m') (Agree.within ((playing_doFrame hg.playing).mono
        (fun _ x => x) fun r' hx => ⟨hx.1, hx.2.1, by rw [hx.2.2.1.played]; exact hgp, by rw [hx.2.2.1.silence]; exact hg.silence,
          by rw [hx.2.2.2.1]; exact hg.left, fun hq => by rw [hx.2.2.2.1]; exact hg.quiet (by rw [hx.2.2.1.silence] at hq; exact hq)⟩))
        fun cycles m2 h2 => ?_
      obtain ⟨hcy, h2⟩ := h2
      have hcr := frameCycles_range m1.info.ntsc
      rw [← hcy] at hcr
      refine Agree.bind (P := fun go m' => m'.silenceLeft ≤ 2147483647 ∧ (go = true → Going (blocks - block - r.2) m'))
        ⟨listen_agree (by omega) h2.quiet h2.left, fun go m3 hx => ?_⟩ fun go m3 h3 => ?_
      · rw [listen_eq] at hx
        injection hx with hx
        injection hx with hx1 hx2
        have hk := listened_keeps m2 cycles
        have hpl := h2.playing.listened cycles
        have hlow := h2.left
        have hsil := h2.silence
        have hq := h2.quiet
        have hleft : (m2.listened cycles).silenceLeft ≤ 2147483647 ∧ (m2.goesOn cycles = true → m2.silence > 0 → 0 < (m2.listened cycles).silenceLeft) := by
          unfold Machine.listened Machine.goesOn
          by_cases g1 : m2.silence > 0
          · rw [if_pos g1]
            by_cases g2 : (m2.pk.isSilent && !m2.external) = true
            · rw [if_pos g2, g2, decide_eq_true g1]
              refine ⟨show m2.silenceLeft - cycles ≤ _ by omega, fun hgo _ => ?_⟩
              have : decide (m2.silenceLeft - cycles > 0) = true := hgo
              exact of_decide_eq_true this
            · rw [if_neg g2]
              exact ⟨hsil, fun _ x => x⟩
          · rw [if_neg g1]
            exact ⟨hlow, fun _ x => absurd x g1⟩
        rw [← hx1, ← hx2]
        exact ⟨hleft.1, fun hgo => ⟨hpl, by rw [hk.1.played]; exact h2.played, by rw [hk.1.silence]; exact hsil, hleft.1,
          fun x => hleft.2 hgo (by rw [hk.1.silence] at x; exact x)⟩⟩
      · by_cases hgo : go = true
        · rw [if_pos hgo, if_pos hgo]
          have ih := generateLoop_agree f shift hs blocks hb fuel (block + r.2) m3 (by
            rw [show blocks - (block + r.2) = blocks - block - r.2 by omega]; exact h3.2 hgo) (by omega) (by omega)
          rw [show blocks - (block + r.2) = blocks - block - r.2 by omega] at ih
          refine Agree.bind ih fun t m4 h4 => Agree.pure ⟨h4.1, ?_, ?_⟩
          · show min 0 (blocks - block) ≤ r.2 + t.2
            omega
          · show r.2 + t.2 ≤ max 0 (blocks - block)
            omega
        · rw [if_neg hgo, if_neg hgo]
          exact Agree.pure ⟨h3.1, by omega, by omega⟩

theorem wanted_range {blocks rest len size : Int} (hs : 1 ≤ size) (hl : 0 ≤ len ∧ len ≤ 2147483647) (e : blocks = if len / size > rest then rest else len / size) :
    blocks ≤ rest ∧ min 0 rest ≤ blocks ∧ blocks * size ≤ 2147483647 := by
  have h1 : 0 ≤ len / size := Int.ediv_nonneg hl.1 (by omega)
  have h2 : len / size * size ≤ len := Int.ediv_mul_le len (by omega)
  have h3 : blocks ≤ len / size := by rw [e]; split <;> omega
  have h4 : blocks * size ≤ len / size * size := Int.mul_le_mul_of_nonneg_right h3 (by omega)
  refine ⟨?_, ?_, by omega⟩
  · rw [e]; split <;> omega
  · rw [e]; split <;> omega

theorem shift_range (h : Fits m) (f : SampleFormat) : Machine.blockShift m.info.channels f ≤ 2 := by
  unfold Machine.blockShift
  have := h.channels
  omega

theorem pow_range {n : Nat} (h : n ≤ 2) : (1 : Int) ≤ 2 ^ n ∧ (2 : Int) ^ n ≤ 4 := by
  have : n = 0 ∨ n = 1 ∨ n = 2 := by omega
  rcases this with e | e | e <;> rw [e] <;> decide

theorem generate_agree (h : Fits m) (f : SampleFormat) {len : Int} (hl : 0 ≤ len ∧ len ≤ 2147483647) :
    Agree (fun _ => Fits) (generate len f) (Machine.generate len f) m := by
  have ht := h.total
  have hp := h.played
  have hsh := shift_range h f
  have hpw := pow_range hsh
  obtain ⟨hw1, hw2, hw3⟩ := wanted_range (blocks := m.wantedBlocks len f) (rest := Machine.millisecondsToBlocks m.rate m.duration - m.played)
    (size := 2 ^ Machine.blockShift m.info.channels f) hpw.1 hl (by
      unfold Machine.wantedBlocks
      rw [if_pos h.duration.1]
      rfl)
  generalize hb : m.wantedBlocks len f = blocks at hw1 hw2 hw3
  have ew : wantedBlocks len f m = some (.ok (blocks, m)) := by
    have : wantedBlocks len f m = (if m.duration > 0 then (int (millisecondsToBlocks m.rate m.duration - m.played) >>= fun rest =>
        pure (if shr len (Machine.blockShift m.info.channels f) > rest then rest else shr len (Machine.blockShift m.info.channels f)))
        else pure (shr len (Machine.blockShift m.info.channels f)) : I Int) m := rfl
    rw [this, if_pos h.duration.1, ht.1, int_bind (by omega), ← hb]
    unfold Machine.wantedBlocks
    rw [if_pos h.duration.1]
    rfl
  have key : Agree (fun _ m' => m'.silenceLeft ≤ 2147483647 ∧ (m.played + min 0 blocks ≤ m'.played)) (generate len f) (Machine.generate len f) m := by
    have e1 : generate len f m = (if decide (m.silence > 0 ∧ m.silenceLeft ≤ 0) = true then pure ([], 0) else (do
        let blocks ← wantedBlocks len f
        let r ← generateLoop f (Machine.blockShift m.info.channels f) blocks (blocks.toNat + 3) 0
        let n ← int (shl r.2 (Machine.blockShift m.info.channels f))
        pure (r.1, n)) : I (List Int × Int)) m := by
      show (if decide (m.silence > 0 ∧ m.silenceLeft ≤ 0) = true then _ else _ : I (List Int × Int)) m = _
      by_cases hs : decide (m.silence > 0 ∧ m.silenceLeft ≤ 0) = true
      · rw [if_pos hs, if_pos hs]
      · rw [if_neg hs, if_neg hs]
        rfl
    have e2 : Machine.generate len f m = (if decide (m.silence > 0 ∧ m.silenceLeft ≤ 0) = true then pure ([], 0) else (do
        let r ← Machine.generateLoop f (blocks.toNat + 3) blocks
        pure (r.1, shl r.2 (Machine.blockShift m.info.channels f))) : C (List Int × Int)) m := by
      rw [← hb]
      show (if decide (m.silence > 0 ∧ m.silenceLeft ≤ 0) = true then _ else _ : C (List Int × Int)) m = _
      by_cases hs : decide (m.silence > 0 ∧ m.silenceLeft ≤ 0) = true
      · rw [if_pos hs, if_pos hs]
      · rw [if_neg hs, if_neg hs]
        rfl
    unfold Agree
    rw [e1, e2]
    by_cases hs : decide (m.silence > 0 ∧ m.silenceLeft ≤ 0) = true
    · rw [if_pos hs, if_pos hs]
      exact Agree.pure (m := m) ⟨h.left, by omega⟩
    · rw [if_neg hs, if_neg hs]
      have hq : m.silence > 0 → 0 < m.silenceLeft := fun x => by
        have hs' : ¬ (m.silence > 0 ∧ m.silenceLeft ≤ 0) := fun y => hs (decide_eq_true y)
        omega
      have e3 : (do
        let blocks ← wantedBlocks len f
        let r ← generateLoop f (Machine.blockShift m.info.channels f) blocks (blocks.toNat + 3) 0
        let n ← int (shl r.2 (Machine.blockShift m.info.channels f))
        pure (r.1, n) : I (List Int × Int)) m = (do
        let r ← generateLoop f (Machine.blockShift m.info.channels f) blocks (blocks.toNat + 3) 0
        let n ← int (shl r.2 (Machine.blockShift m.info.channels f))
        pure (r.1, n) : I (List Int × Int)) m := by
        show I.bind _ _ m = _
        unfold I.bind
        rw [ew]
      rw [e3]
      have loop := generateLoop_agree f (Machine.blockShift m.info.channels f) hsh blocks hw3 (blocks.toNat + 3) 0 m
        ⟨h.playing, by omega, h.silence, h.left, hq⟩ (Int.le_refl 0) (Or.inr rfl)
      have e4 : blocks - 0 = blocks := by omega
      rw [e4] at loop
      have played := playing_generateLoop f (blocks.toNat + 3) m blocks h.playing (Or.inr (by omega))
      refine Agree.bind (loop.and (R := fun r m' => m'.played = m.played + r.2) (played.mono (fun _ x => x) fun r hr => hr.played)) fun r m' hr => ?_
      obtain ⟨⟨g1, g2, g3⟩, g4⟩ := hr
      have hrange : -2147483648 ≤ shl r.2 (Machine.blockShift m.info.channels f) ∧ shl r.2 (Machine.blockShift m.info.channels f) ≤ 2147483647 := by
        rw [shl_eq]
        generalize (2 : Int) ^ Machine.blockShift m.info.channels f = p at hpw hw3
        by_cases hn : 0 ≤ r.2
        · have u : 0 ≤ r.2 * p := Int.mul_nonneg hn (by omega)
          by_cases hbl : 0 ≤ blocks
          · have := Int.mul_le_mul_of_nonneg_right (show r.2 ≤ blocks by omega) (show 0 ≤ p by omega)
            omega
          · have : r.2 = 0 := by omega
            rw [this]; omega
        · have u : (-r.2) * p ≤ (-r.2) * 4 := Int.mul_le_mul_of_nonneg_left hpw.2 (by omega)
          have v : 0 ≤ (-r.2) * p := Int.mul_nonneg (by omega) (by omega)
          rw [Int.neg_mul] at u v
          omega
      unfold Agree
      rw [int_bind hrange]
      exact Agree.pure (m := m') ⟨g1, by omega⟩
  refine (key.and (R := fun r m' => Served m len f (r, m')) (playing_generate h.playing len f)).mono fun r m' hx => ?_
  obtain ⟨⟨k1, k2⟩, hs⟩ := hx
  obtain ⟨n, _, c2, _, c4, _, _⟩ := hs.count
  rw [hb] at c4
  have e : m'.played = m.played + n := c2
  have d := h.duration
  exact ⟨hs.playing, by rw [hs.info]; exact h.channels, by omega, by rw [hs.duration]; exact d, by rw [hs.silence]; exact h.silence, k1⟩

/-! ### Calls -/

theorem started (h : Loaded m) (hc : m.info.channels = 1 ∨ m.info.channels = 2) (hs : m.silence ≤ 2147483647) (song : Int) {duration : Int}
    (hd : 0 < duration ∧ duration ≤ 5999999) : Agree (fun _ => Fits) (within (Machine.playSong song duration)) (Machine.playSong song duration) m :=
  Agree.within ((loaded_playSong h song duration).mono (fun _ x => x) fun r hr => by
    have e1 : r.2.played = 0 := hr.1.keeps.played
    have e2 : r.2.duration = duration := hr.1.keeps.duration
    have e3 : r.2.silence = m.silence := hr.1.keeps.silence
    have e4 : r.2.silenceLeft = m.silence := hr.1.silenceLeft
    have e5 : r.2.info = m.info := hr.1.keeps.info
    exact ⟨hr.1.playing h, by rw [e5]; exact hc, by omega, by omega, by omega, by omega⟩)

theorem run_agree (h : Fits m) {c : Call} (hc : Ordinary c) : Agree (fun _ => Fits) (Spec.Int32.run c) c.run m := by
  cases c with
  | play song duration =>
    have hd : 0 < duration ∧ duration ≤ longest := hc
    exact started h.playing.loaded h.channels h.silence song (by unfold longest at hd; omega)
  | seek position =>
    have hd : 0 ≤ position ∧ position ≤ 2 * 3600 * 1000 := hc
    exact seek_agree h (by omega)
  | seekSample block =>
    have hd : 0 ≤ block ∧ block ≤ 2 * 3600 * 48000 := hc
    exact seekSample_agree h (by omega)
  | generate len f =>
    have hd : 0 ≤ len ∧ len < 2147483648 := hc
    exact Agree.bind (generate_agree h f (by omega)) fun _ m' h' => Agree.pure h'
  | mute mask =>
    refine Agree.within (E := fun _ => False) (y := Machine.mutePokeyChannels mask) ?_
    have hp := h.playing
    have hr : 0 ≤ m.pk.rate ∧ m.pk.rate ≤ 48000 := by have := hp.ready.rate; omega
    exact ⟨⟨⟨hp.ready.cpu, hp.ready.time, hp.ready.chips.step hr (.mute mask) trivial, hp.ready.consol, hp.ready.covox, hp.ready.rate, hp.ready.tmc,
      hp.ready.window⟩, hp.rate, hp.songs⟩, h.channels, h.played, h.duration, h.silence, h.left⟩
  | detectSilence seconds =>
    have hd : 0 ≤ seconds ∧ seconds ≤ 20 * 60 := hc
    have e : Spec.Int32.run (.detectSilence seconds) m = within (C.modify fun m => m.detectSilence seconds) m := by
      show (int (seconds * 1773447) >>= fun _ => _ : I Unit) m = _
      rw [int_bind (by omega)]
    unfold Agree
    rw [e]
    refine Agree.within (m := m) (E := fun _ => False) (y := C.modify fun m => m.detectSilence seconds) (P := fun _ => Fits) ?_
    have hp := h.playing
    exact ⟨⟨⟨hp.ready.cpu, hp.ready.time, hp.ready.chips, hp.ready.consol, hp.ready.covox, hp.ready.rate, hp.ready.tmc, hp.ready.window⟩, hp.rate, hp.songs⟩,
      h.channels, h.played, h.duration, show seconds * 1773447 ≤ _ by omega, show seconds * 1773447 ≤ _ by omega⟩
  | setSampleRate rate =>
    have hd : 100 ≤ rate ∧ rate ≤ 48000 := hc
    refine Agree.within (E := fun _ => False) (y := C.modify fun m => m.setSampleRate rate) ?_
    have hp := h.playing
    exact ⟨⟨⟨hp.ready.cpu, hp.ready.time, hp.ready.chips, hp.ready.consol, hp.ready.covox, hp.ready.rate, hp.ready.tmc, hp.ready.window⟩, hd, hp.songs⟩,
      h.channels, h.played, h.duration, h.silence, h.left⟩

theorem runCalls_agree : ∀ (cs : List Call) (m : Machine), Fits m → (∀ c ∈ cs, Ordinary c) →
    Agree (fun _ => Fits) (Spec.Int32.runCalls cs) (Spec.runCalls cs) m
  | [], _, h, _ => Agree.pure h
  | c :: cs, _, h, hv => Agree.bind (run_agree h (hv c (by simp))) fun _ m' h' => runCalls_agree cs m' h' fun x hx => hv x (by simp [hx])

end Int32
end Asap
