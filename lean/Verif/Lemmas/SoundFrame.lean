import Verif.Lemmas.SoundPoke

/-! Ends and beginnings of frames. -/

namespace Asap.Sound
open Asap.Spec Asap.Spec.Sound Asap.Pokey

variable {factor : Int} {sinc : Int → Int → Int} {T S t c : Int} {p q : Pokey} {r : Chip}
  {cfg : Cfg} {z : Noise} {s : Sound}

/-! ### The position of the noise generators -/

/-- The noise generators are moved back. -/
def shift (d : Int) (r : Chip) : Chip := { r with phase := r.phase - d }

/-- The period of all the noise generators together. -/
def turn (audctl : Int) : Int := 15 * 31 * if bit audctl 7 then 511 else 131071

theorem source_shift (z : Noise) (audc a x d : Int) (hd : d = 0 ∨ d = turn a) : z.source audc a (x - d) = z.source audc a x := by
  rcases hd with rfl | rfl
  · rw [Int.sub_zero]
  unfold Noise.source turn
  split
  · congr 2
    split <;> omega
  · split
    · congr 2; omega
    · congr 2; omega

theorem drive_shift (z : Noise) (a x d : Int) (c : Tone) (hd : d = 0 ∨ d = turn a) : c.drive z a (x - d) = c.drive z a x := by
  have h5 : (x - d) % 31 = x % 31 := by
    rcases hd with rfl | rfl
    · rw [Int.sub_zero]
    · unfold turn; split <;> omega
  unfold Tone.drive
  rw [h5, source_shift z _ _ _ _ hd]

theorem fire_shift (z : Noise) (t d : Int) (r : Chip) (i : Nat) (hd : d = 0 ∨ d = turn r.audctl) :
    (shift d r).fire z t i = shift d (r.fire z t i) := by
  show (shift d r).set i { Tone.drive z r.audctl (r.phase - d + t - i) (r.ch i) with left := r.period i } = _
  rw [show r.phase - d + t - (i : Int) = r.phase + t - i - d by omega, drive_shift z _ _ _ _ hd]
  rfl

theorem ite_shift (d : Int) {c : Prop} [Decidable c] (a b : Chip) : (if c then shift d a else shift d b) = shift d (if c then a else b) := by
  split <;> rfl

theorem clock2_shift (z : Noise) (t d : Int) (r : Chip) (hd : d = 0 ∨ d = turn r.audctl) :
    (shift d r).clock2 z t = shift d (r.clock2 z t) := by
  show (if (r.ch 2).left = 0 then (if bit r.audctl 2 then shift d (r.silence 0) else shift d r).fire z t 2 else shift d r) = _
  rw [ite_shift, fire_shift, ite_shift]
  · rfl
  · split <;> exact hd

theorem join_shift (d : Int) (r : Chip) (j i f : Nat) : (shift d r).join j i f = shift d (r.join j i f) := by
  show (if bit r.audctl j then shift d (r.restart i (r.reload i f)) else shift d r) = _
  rw [ite_shift]
  rfl

theorem clock3_shift (z : Noise) (t d : Int) (r : Chip) (hd : d = 0 ∨ d = turn r.audctl) :
    (shift d r).clock3 z t = shift d (r.clock3 z t) := by
  unfold Chip.clock3
  rw [join_shift]
  show (if (r.ch 3).left = 0 then
    (if bit r.audctl 1 then shift d ((r.join 3 2 5).silence 1) else shift d (r.join 3 2 5)).fire z t 3 else shift d r) = _
  rw [ite_shift, fire_shift, ite_shift]
  split
  · show d = 0 ∨ d = turn (r.join 3 2 5).audctl
    rw [join_audctl]; exact hd
  · rw [join_audctl]; exact hd

theorem clock0_shift (z : Noise) (t d : Int) (r : Chip) (hd : d = 0 ∨ d = turn r.audctl) :
    (shift d r).clock0 z t = shift d (r.clock0 z t) := by
  show (if (r.ch 0).left = 0 then
    (if bit r.skctl 3 ∧ ¬ bit r.skctl 7 then shift d (r.restart 1 (r.period 1)) else shift d r).fire z t 0 else shift d r) = _
  rw [ite_shift, fire_shift, ite_shift]
  · rfl
  · split <;> exact hd

theorem clock1_shift (z : Noise) (t d : Int) (r : Chip) (hd : d = 0 ∨ d = turn r.audctl) :
    (shift d r).clock1 z t = shift d (r.clock1 z t) := by
  show (if (r.ch 1).left = 0 then
    (if bit r.audctl 4 then shift d (r.restart 0 (r.reload 0 6)) else if bit r.skctl 3 then shift d (r.restart 0 (r.period 0))
      else shift d r).fire z t 1 else shift d r) = _
  rw [ite_shift, ite_shift, fire_shift, ite_shift]
  · rfl
  · repeat' split
    all_goals exact hd

theorem tick_shift (z : Noise) (t d : Int) (r : Chip) (hd : d = 0 ∨ d = turn r.audctl) :
    (shift d r).tick z t = shift d (r.tick z t) := by
  have k2 : ∀ r : Chip, (r.clock2 z t).audctl = r.audctl := fun r => by
    unfold Chip.clock2; repeat' split
    all_goals rfl
  have k3 : ∀ r : Chip, (r.clock3 z t).audctl = r.audctl := fun r => by
    unfold Chip.clock3; repeat' split
    all_goals first | rfl | exact join_audctl r 3 2 5
  have k0 : ∀ r : Chip, (r.clock0 z t).audctl = r.audctl := fun r => by
    unfold Chip.clock0; repeat' split
    all_goals rfl
  unfold Chip.tick
  rw [clock2_shift z t d r hd, clock3_shift z t d _ (by rw [k2]; exact hd), clock0_shift z t d _ (by rw [k3, k2]; exact hd),
    clock1_shift z t d _ (by rw [k0, k3, k2]; exact hd)]
  rfl

theorem wait_shift (z : Noise) (d : Int) : ∀ (n : Nat) (t : Int) (s : Sound), (d = 0 ∨ d = turn s.chip.audctl) →
    (Sound.wait z factor sinc n t ⟨shift d s.chip, s.wave⟩) =
      ⟨shift d (s.wait z factor sinc n t).chip, (s.wait z factor sinc n t).wave⟩
  | 0, _, _, _ => rfl
  | n + 1, t, s, h => by
    show Sound.wait z factor sinc n (t + 1) (Sound.become factor sinc t ⟨shift d s.chip, s.wave⟩ ((shift d s.chip).tick z t)) = _
    rw [tick_shift z t d _ h]
    refine wait_shift z d n (t + 1) (s.become factor sinc t (s.chip.tick z t)) ?_
    show d = 0 ∨ d = turn (s.chip.tick z t).audctl
    rw [(kin_tick z t s.chip).1]
    exact h

/-- By how much the noise generators are moved back at cycle `t`. -/
def back (r : Chip) (t : Int) : Int := if r.phase + t ≥ 2 * turn r.audctl then turn r.audctl else 0

theorem wrap_eq (r : Chip) (t : Int) : r.wrap t = shift (back r t) r := by
  unfold Chip.wrap shift back turn
  congr 1
  split <;> omega

theorem back_or (r : Chip) (t : Int) : back r t = 0 ∨ back r t = turn r.audctl := by
  unfold back; split
  · exact Or.inr rfl
  · exact Or.inl rfl

theorem phase_tick (z : Noise) (t : Int) (r : Chip) : (r.tick z t).phase = r.phase := by
  have k2 : ∀ r : Chip, (r.clock2 z t).phase = r.phase := fun r => by
    unfold Chip.clock2; repeat' split
    all_goals rfl
  have kj : ∀ r : Chip, (r.join 3 2 5).phase = r.phase := fun r => by
    unfold Chip.join; split <;> rfl
  have k3 : ∀ r : Chip, (r.clock3 z t).phase = r.phase := fun r => by
    unfold Chip.clock3; repeat' split
    all_goals first | rfl | exact kj r
  have k0 : ∀ r : Chip, (r.clock0 z t).phase = r.phase := fun r => by
    unfold Chip.clock0; repeat' split
    all_goals rfl
  have k1 : ∀ r : Chip, (r.clock1 z t).phase = r.phase := fun r => by
    unfold Chip.clock1; repeat' split
    all_goals rfl
  show ((((r.clock2 z t).clock3 z t).clock0 z t).clock1 z t).phase = _
  rw [k1, k0, k3, k2]

theorem phase_wait (z : Noise) : ∀ (n : Nat) (t : Int) (s : Sound), (s.wait z factor sinc n t).chip.phase = s.chip.phase
  | 0, _, _ => rfl
  | n + 1, t, s => (phase_wait z n (t + 1) _).trans (phase_tick z t s.chip)

/-- Waiting and moving back commute. -/
theorem wrap_wait (z : Noise) (n : Nat) (t e : Int) (s : Sound) :
    Sound.wait z factor sinc n t ⟨s.chip.wrap e, s.wave⟩ =
      ⟨(s.wait z factor sinc n t).chip.wrap e, (s.wait z factor sinc n t).wave⟩ := by
  rw [wrap_eq, wait_shift z _ n t s (back_or _ _), wrap_eq]
  have : back (s.wait z factor sinc n t).chip e = back s.chip e := by
    unfold back
    rw [phase_wait, (kin_wait z factor sinc n t s).1]
  rw [this]

theorem wait_join (z : Noise) {t0 t u : Int} {s : Sound} (h0 : t0 ≤ t) (h1 : t ≤ u) :
    (s.wait z factor sinc (t - t0).toNat t0).wait z factor sinc (u - t).toNat t = s.wait z factor sinc (u - t0).toNat t0 := by
  rw [show (u - t0).toNat = (t - t0).toNat + (u - t).toNat by omega, wait_add, show t0 + ((t - t0).toNat : Int) = t by omega]

/-! ### Other sources -/

theorem become_add (t u h : Int) (s : Sound) (r : Chip) :
    (s.add factor sinc u h).become factor sinc t r = (s.become factor sinc t r).add factor sinc u h := by
  show Sound.mk r (fun k => s.wave k + h * kernel factor sinc u k + 4 * (mix r.level - mix s.chip.level) * kernel factor sinc t k) =
    Sound.mk r (fun k => s.wave k + 4 * (mix r.level - mix s.chip.level) * kernel factor sinc t k + h * kernel factor sinc u k)
  refine congrArg _ (funext fun k => ?_)
  omega

theorem wait_added (z : Noise) (u h : Int) : ∀ (n : Nat) (t : Int) (s : Sound),
    (s.add factor sinc u h).wait z factor sinc n t = (s.wait z factor sinc n t).add factor sinc u h
  | 0, _, _ => rfl
  | n + 1, t, s => by
    show ((s.add factor sinc u h).become factor sinc t (s.chip.tick z t)).wait z factor sinc n (t + 1) = _
    rw [become_add]
    exact wait_added z u h n (t + 1) _

theorem Sync.external (h : Sync factor sinc T S t p s) (o : Origin factor sinc T S cfg) (c d : Int) :
    XPost (fun _ => True) (fun q => Sync factor sinc T S t q (s.add factor sinc (T + c) (d / 2 ^ 14))) (addExternalDelta cfg p c d) := by
  unfold addExternalDelta
  refine XPost.ite (fun hd => ?_) fun hd => ?_
  · subst hd
    have e : s.add factor sinc (T + c) (0 / 2 ^ 14) = s := by
      show Sound.mk s.chip (fun k => s.wave k + 0 * kernel factor sinc (T + c) k) = s
      simp
    rw [e]
    exact h
  · refine XPost.ite (fun hb => ?_) fun _ => trivial
    refine ⟨h.ch, ⟨h.regs.audctl, h.regs.audf, h.regs.div, h.regs.period, h.regs.reload1, h.regs.reload3⟩, h.bytes, h.reload1, h.reload3,
      h.skctl, h.sk, h.running, h.noise, h.sumIn, h.sumOut, ?_, ?_⟩
    · intro k
      have hk := h.buf k
      have e := kernel_shift o (T + c) k
      rw [show T + c - T = c by omega] at e
      rw [zero_step] at hk ⊢
      show (if _ then _ else _) = s.wave (S + k) + d / 2 ^ 14 * kernel factor sinc (T + c) (S + k)
      rw [e, ← hk]
      split
      · rfl
      · omega
    · intro k hk
      have hk : p.bufLen ≤ k := hk
      show (if _ then _ else _) = _
      rw [if_neg (by omega)]
      exact h.outside k hk

theorem Lazy.external (h : Lazy z factor sinc T S t p s) (o : Origin factor sinc T S cfg) (c d : Int) :
    XPost (fun _ => True) (fun q => Lazy z factor sinc T S t q (s.add factor sinc (T + c) (d / 2 ^ 14))) (addExternalDelta cfg p c d) := by
  obtain ⟨t0, s0, h0, h1, rfl⟩ := h
  refine (h1.external o c d).mono (fun _ x => x) fun q hq => ?_
  exact ⟨t0, _, h0, hq, (wait_added z _ _ _ _ _).symm⟩

/-! ### The end of a frame -/

/-- `EndFrame` after the sound has been generated. -/
theorem Sync.rebase (h : Sync factor sinc T S t p s) {len : Int} (ht : t - T < 900000) :
    Sync factor sinc (T + len) S t
      { p with
        polyIndex := if p.polyIndex + len ≥ 2 * (if band p.audctl 0x80 ≠ 0 then 15 * 31 * 511 else 15 * 31 * 131071)
          then p.polyIndex + len - (if band p.audctl 0x80 ≠ 0 then 15 * 31 * 511 else 15 * 31 * 131071) else p.polyIndex + len
        ch := fun i => { p.ch i with tick := if (p.ch i).tick ≠ never then (p.ch i).tick - len else (p.ch i).tick } }
      ⟨s.chip.wrap (T + len), s.wave⟩ := by
  have hu := h.unmuted ht
  refine ⟨?_, ⟨h.regs.audctl, h.regs.audf, h.regs.div, h.regs.period, h.regs.reload1, h.regs.reload3⟩, h.bytes, h.reload1, h.reload3,
    h.skctl, h.sk, h.running, ?_, h.sumIn, h.sumOut, ?_, h.outside⟩
  · intro i hi
    have k := h.ch i hi
    refine ⟨k.audc, k.byte, ?_, k.left, k.out, k.delta, k.loud, k.mute⟩
    show (if (p.ch i).tick ≠ never then (p.ch i).tick - len else (p.ch i).tick) = t - (T + len) + (s.chip.ch i).left
    rw [if_pos (hu i hi).2, k.tick]
    omega
  · have hb : band p.audctl 0x80 ≠ 0 ↔ bit s.chip.audctl 7 := by
      rw [h.regs.audctl]; exact band_pow_iff _ 7
    show (if p.polyIndex + len ≥ 2 * (if band p.audctl 0x80 ≠ 0 then 15 * 31 * 511 else 15 * 31 * 131071)
          then p.polyIndex + len - (if band p.audctl 0x80 ≠ 0 then 15 * 31 * 511 else 15 * 31 * 131071) else p.polyIndex + len) =
      T + len + (if s.chip.phase + (T + len) ≥ 2 * (15 * 31 * if bit s.chip.audctl 7 then 511 else 131071)
      then s.chip.phase - 15 * 31 * (if bit s.chip.audctl 7 then 511 else 131071) else s.chip.phase)
    rw [h.noise]
    by_cases hm : bit s.chip.audctl 7
    · rw [if_pos (hb.2 hm), if_pos hm]
      split <;> split <;> omega
    · rw [if_neg (mt hb.1 hm), if_neg hm]
      split <;> split <;> omega
  · intro k
    rw [zero_step]
    have := h.buf k
    rw [zero_step] at this
    exact this

/-! ### The past -/

theorem kernel_past (h0 : 0 ≤ factor) {k : Int} (hk : k < samplesAt factor t) : kernel factor sinc t k = 0 := by
  unfold kernel samplesAt at *
  exact if_neg (by omega)

theorem samplesAt_mono (h0 : 0 ≤ factor) {a b : Int} (h : a ≤ b) : samplesAt factor a ≤ samplesAt factor b :=
  Int.ediv_le_ediv (by decide) (Int.mul_le_mul_of_nonneg_right h h0)

theorem become_past (h0 : 0 ≤ factor) (r : Chip) {k : Int} (hk : k < samplesAt factor t) :
    (s.become factor sinc t r).wave k = s.wave k := by
  show s.wave k + _ * kernel factor sinc t k = _
  rw [kernel_past h0 hk]
  simp

theorem wait_past (z : Noise) (h0 : 0 ≤ factor) {k : Int} : ∀ (n : Nat) (t : Int) (s : Sound), k < samplesAt factor t →
    (s.wait z factor sinc n t).wave k = s.wave k
  | 0, _, _, _ => rfl
  | n + 1, t, s, h => by
    have := wait_past (k := k) z h0 n (t + 1) (s.become factor sinc t (s.chip.tick z t))
      (by have := samplesAt_mono h0 (show t ≤ t + 1 by omega); omega)
    exact this.trans (become_past h0 _ h)

theorem event_past (z : Noise) (h0 : 0 ≤ factor) (mine : PairEvent → Bool) {v : Tape} {k : Int} (h : k < samplesAt factor v.now)
    (e : PairEvent) (hc : ∀ x ∈ stamps v.frame [e], v.now ≤ x) :
    (v.event z factor sinc mine e).sound.wave k = v.sound.wave k ∧ v.now ≤ (v.event z factor sinc mine e).now := by
  cases e with
  | write addr data c =>
    have hc : v.now ≤ v.frame + c := hc _ (by simp [stamps])
    show (if mine (.write addr data c) then _ else v : Tape).sound.wave k = _ ∧ v.now ≤ (if mine (.write addr data c) then _ else v : Tape).now
    split
    · refine ⟨?_, hc⟩
      show ((v.sound.wait z factor sinc _ v.now).become factor sinc (v.frame + c) _).wave k = _
      rw [become_past h0 _ (by have := samplesAt_mono h0 hc; omega), wait_past z h0 _ _ _ h]
    · exact ⟨rfl, Int.le_refl _⟩
  | external side c height =>
    have hc : v.now ≤ v.frame + c := hc _ (by simp [stamps])
    show (if mine (.external side c height) then _ else v : Tape).sound.wave k = _ ∧
      v.now ≤ (if mine (.external side c height) then _ else v : Tape).now
    split
    · refine ⟨?_, Int.le_refl _⟩
      show v.sound.wave k + _ * kernel factor sinc (v.frame + c) k = _
      rw [kernel_past h0 (by have := samplesAt_mono h0 hc; omega)]
      simp
    · exact ⟨rfl, Int.le_refl _⟩
  | _ => exact ⟨rfl, Int.le_refl _⟩

/-- The emulator has generated the sound at least up to cycle `u`. -/
def From (u : Int) (z : Noise) (factor : Int) (sinc : Int → Int → Int) (T S t : Int) (p : Pokey) (s : Sound) : Prop :=
  ∃ t0 s0, u ≤ t0 ∧ t0 ≤ t ∧ Sync factor sinc T S t0 p s0 ∧ s = s0.wait z factor sinc (t - t0).toNat t0

theorem From.lazy {u : Int} (h : From u z factor sinc T S t p s) : Lazy z factor sinc T S t p s := by
  obtain ⟨t0, s0, -, h⟩ := h
  exact ⟨t0, s0, h⟩

theorem From.buf {u : Int} (h : From u z factor sinc T S t p s) (h0 : 0 ≤ factor) {k : Int} (hk : S + k < samplesAt factor u) :
    p.buf k = s.wave (S + k) := by
  obtain ⟨t0, s0, hu, ht, h1, rfl⟩ := h
  have := h1.buf k
  rw [zero_step] at this
  rw [this, wait_past z h0 _ _ _ (by have := samplesAt_mono h0 hu; omega)]

theorem Lazy.endFrame (h : Lazy z factor sinc T S t p s) (o : Origin factor sinc T S cfg) {len : Int} (ht : t - T < 900000)
    (hl : len < 900000) :
    XPost (fun _ => True) (fun q => From (T + len) z factor sinc (T + len) S (max t (T + len)) q
      ⟨(s.wait z factor sinc (T + len - t).toNat t).chip.wrap (T + len), (s.wait z factor sinc (T + len - t).toNat t).wave⟩)
      (Pokey.endFrame cfg p len) := by
  obtain ⟨t0, s0, h0, h1, rfl⟩ := h
  unfold Pokey.endFrame
  by_cases hp : t0 ≤ T + len
  · have hu := h1.until o z hp
    rw [show T + len - T = len by omega] at hu
    refine XPost.bind hu fun q hq => ?_
    refine ⟨T + len, _, by omega, by omega, hq.rebase (len := len) (by omega), ?_⟩
    by_cases hc : t ≤ T + len
    · rw [show max t (T + len) = T + len by omega, wait_join z h0 hc, Int.sub_self]
      rfl
    · rw [show max t (T + len) = t by omega, show (T + len - t).toNat = 0 by omega]
      rw [wrap_wait, wait_join z hp (by omega)]
      rfl
  · have hu := h1.past (cfg := cfg) (L := T + len) (by omega)
    rw [show T + len - T = len by omega] at hu
    rw [hu, show max t (T + len) = t by omega, show (T + len - t).toNat = 0 by omega]
    refine ⟨t0, _, by omega, h0, h1.rebase (len := len) (by omega), ?_⟩
    rw [wrap_wait]
    rfl

/-! ### The beginning of a frame -/

theorem Sync.startFrame (h : Sync factor sinc T S t p s) (hd : 0 ≤ p.trailing) :
    Sync factor sinc T (S + p.trailing) t (shiftBuf p) s := by
  refine ⟨h.ch, ⟨h.regs.audctl, h.regs.audf, h.regs.div, h.regs.period, h.regs.reload1, h.regs.reload3⟩, h.bytes, h.reload1, h.reload3,
    h.skctl, h.sk, h.running, h.noise, h.sumIn, h.sumOut, ?_, ?_⟩
  · intro k
    have := h.buf (p.trailing + k)
    rw [← Int.add_assoc, zero_step] at this
    rw [zero_step, ← this]
    show (if k < p.bufLen - p.trailing then p.buf (p.trailing + k) else 0) = _
    split
    · rfl
    · exact (h.outside _ (by omega)).symm
  · intro k hk
    have hk : p.bufLen ≤ k := hk
    exact if_neg (by omega)

theorem Lazy.startFrame (h : Lazy z factor sinc T S t p s) (hd : 0 ≤ p.trailing) :
    Lazy z factor sinc T (S + p.trailing) t (shiftBuf p) s := by
  obtain ⟨t0, s0, h0, h1, h2⟩ := h
  exact ⟨t0, s0, h0, h1.startFrame hd, h2⟩

end Asap.Sound
