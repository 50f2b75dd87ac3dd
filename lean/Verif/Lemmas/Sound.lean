import Verif.Lemmas.Noise
import Verif.Spec.Sound

/-! The emulated chip follows the chip that works cycle by cycle. -/

namespace Asap.Sound
open Asap.Spec Asap.Spec.Sound Asap.Pokey

/-- A channel of the emulator at moment `d` of the frame, and the channel it stands for. -/
structure Like (d : Int) (c : Channel) (x : Tone) : Prop where
  audc : c.audc = x.audc
  byte : 0 ≤ x.audc ∧ x.audc < 256
  tick : c.tick = d + x.left
  left : 0 ≤ x.left ∧ x.left ≤ 114 * 65536
  out : c.out = if x.flop then 1 else 0
  delta : c.delta = if x.high then x.volume else -x.volume
  loud : x.high = true → x.volume ≠ 0
  mute : c.mute = 0

/-- The emulator at cycle `t`, in the frame that begins at cycle `T` and sample `S`, and the chip it stands
for.  Since the sound was `w` and the converter's output `m`, the changes happened at cycle `t`. -/
structure Sim (factor : Int) (sinc : Int → Int → Int) (T S t : Int) (w : Int → Int) (m : Int)
    (p : Pokey) (r : Chip) : Prop where
  ch : ∀ i, i < 4 → Like (t - T) (p.ch i) (r.ch i)
  regs : Regs r.audctl (fun i => (r.ch i).audf) p
  bytes : Bytes r.audctl (fun i => (r.ch i).audf)
  reload1 : bit r.audctl 4 → p.reload1 = r.reload 0 6
  reload3 : bit r.audctl 3 → p.reload3 = r.reload 2 5
  skctl : p.skctl = r.skctl
  sk : 0 ≤ r.skctl ∧ r.skctl < 256
  running : p.init = false
  noise : p.polyIndex = T + r.phase
  sumIn : p.sumIn = r.level
  sumOut : p.sumOut = mix r.level * 65536
  buf : ∀ k, p.buf k = w (S + k) + 4 * (mix r.level - m) * kernel factor sinc t (S + k)
  outside : ∀ k, p.bufLen ≤ k → p.buf k = 0

variable {factor : Int} {sinc : Int → Int → Int} {T S t m : Int} {w : Int → Int} {p : Pokey} {r : Chip}
  {cfg : Cfg} {z : Noise}

/-- The settings of the frame. -/
structure Origin (factor : Int) (sinc : Int → Int → Int) (T S : Int) (cfg : Cfg) : Prop where
  rate : cfg.factor = factor
  table : cfg.sinc = sinc
  offset : cfg.offset + S * 2 ^ 18 = T * factor

theorem set_same (r : Chip) (i : Nat) (x : Tone) : (r.set i x).ch i = x := if_pos rfl
theorem set_other (r : Chip) {i j : Nat} (x : Tone) (h : j ≠ i) : (r.set i x).ch j = r.ch j := if_neg h
theorem set_set (r : Chip) (i : Nat) (x y : Tone) : (r.set i x).set i y = r.set i y := by
  unfold Chip.set
  simp only [Chip.mk.injEq, and_true]
  funext j
  split <;> rfl
theorem set_audctl (r : Chip) (i : Nat) (x : Tone) : (r.set i x).audctl = r.audctl := rfl

theorem set_audf (r : Chip) (i : Nat) (x : Tone) (h : x.audf = (r.ch i).audf) :
    (fun j => ((r.set i x).ch j).audf) = fun j => (r.ch j).audf := by
  funext j
  by_cases e : j = i
  · subst e; rw [set_same]; exact h
  · rw [set_other _ _ e]

theorem set_period (r : Chip) (i : Nat) (x : Tone) (h : x.audf = (r.ch i).audf) (j : Nat) : (r.set i x).period j = r.period j := by
  have e := set_audf r i x h
  have := congrFun e
  unfold Chip.period
  rw [this 0, this 1, this 2, this 3, set_audctl]

theorem set_reload (r : Chip) (i : Nat) (x : Tone) (h : x.audf = (r.ch i).audf) (j k : Nat) : (r.set i x).reload j k = r.reload j k := by
  have := congrFun (set_audf r i x h) j
  unfold Chip.reload
  rw [this, set_audctl]

theorem level_set (r : Chip) (i : Nat) (hi : i < 4) (x : Tone) :
    (r.set i x).level = r.level - (r.ch i).amplitude + x.amplitude := by
  unfold Chip.level
  have hcase : i = 0 ∨ i = 1 ∨ i = 2 ∨ i = 3 := by omega
  rcases hcase with rfl | rfl | rfl | rfl <;>
    simp [Chip.set] <;> omega

/-- A channel changes, its contribution to the sound stays. -/
theorem Sim.setCh (h : Sim factor sinc T S t w m p r) (i : Nat) {c : Channel} {x : Tone} (hi : i < 4)
    (k : Like (t - T) c x) (h1 : c.audf = (p.ch i).audf) (h2 : c.period = (p.ch i).period) (h3 : x.audf = (r.ch i).audf)
    (ha : x.amplitude = (r.ch i).amplitude) : Sim factor sinc T S t w m (p.setCh i c) (r.set i x) := by
  have hl : (r.set i x).level = r.level := by rw [level_set r i hi, ha]; omega
  have hf := set_audf r i x h3
  constructor
  · intro j hj
    by_cases e : j = i
    · subst e; rw [setCh_same, set_same]; exact k
    · rw [setCh_other _ _ e, set_other _ _ e]; exact h.ch j hj
  · rw [hf]; exact h.regs.setCh i h1 h2
  · rw [hf]; exact h.bytes
  · rw [set_reload r i x h3]; exact h.reload1
  · rw [set_reload r i x h3]; exact h.reload3
  · exact h.skctl
  · exact h.sk
  · exact h.running
  · exact h.noise
  · rw [hl]; exact h.sumIn
  · rw [hl]; exact h.sumOut
  · rw [hl]; exact h.buf
  · exact h.outside

/-! ### The mixer -/

theorem amplitude_range {d : Int} {c : Channel} {x : Tone} (h : Like d c x) : 0 ≤ x.amplitude ∧ x.amplitude ≤ 15 := by
  unfold Tone.amplitude Tone.volume; split <;> omega

theorem kernel_shift (h : Origin factor sinc T S cfg) (t k : Int) :
    kernel factor sinc t (S + k) =
      if shr ((t - T) * cfg.factor + cfg.offset) 18 ≤ k ∧ k < shr ((t - T) * cfg.factor + cfg.offset) 18 + 32 then
        cfg.sinc (band (shr ((t - T) * cfg.factor + cfg.offset) (18 - 10)) ((1 <<< 10) - 1))
          (k - shr ((t - T) * cfg.factor + cfg.offset) 18)
      else 0 := by
  have e : t * factor = ((t - T) * cfg.factor + cfg.offset) + S * 2 ^ 18 := by
    have h1 := h.offset
    rw [h.rate, Int.sub_mul]
    omega
  have hb : ∀ y : Int, band y ((1 <<< 10) - 1) = y % 2 ^ 10 := fun y => band_mask 10 y
  rw [hb, h.table]
  unfold kernel shr
  rw [e]
  generalize (t - T) * cfg.factor + cfg.offset = y
  have d18 : (y + S * 2 ^ 18) / 2 ^ 18 = y / 2 ^ 18 + S := Int.add_mul_ediv_right _ _ (by decide)
  have d8 : (y + S * 2 ^ 18) / 2 ^ 8 % 2 ^ 10 = y / 2 ^ (18 - 10) % 2 ^ 10 := by
    show (y + S * 262144) / 256 % 1024 = y / 256 % 1024
    omega
  rw [d18, d8]
  have c1 : (y / 2 ^ 18 + S ≤ S + k ∧ S + k < y / 2 ^ 18 + S + 32) ↔ (y / 2 ^ 18 ≤ k ∧ k < y / 2 ^ 18 + 32) := by omega
  simp only [c1]
  split
  · rw [show S + k - (y / 2 ^ 18 + S) = k - y / 2 ^ 18 by omega]
  · rfl

theorem shr14 (a b : Int) : shr (shl a 16 - b * 65536) 14 = 4 * (a - b) := by
  unfold shr shl
  show (a * 65536 - b * 65536) / 16384 = _
  omega

/-- What `AddDelta` does when the converter's output is right. -/
theorem addDelta_sound (o : Origin factor sinc T S cfg) (p : Pokey) (d a : Int) (hs : p.sumIn = a) (ho : p.sumOut = mix a * 65536)
    (hout : ∀ k, p.bufLen ≤ k → p.buf k = 0) :
    XPost (fun _ => True) (fun q => q = { p with
        buf := q.buf, sumIn := a + d, sumOut := mix (a + d) * 65536 } ∧
        (∀ k, q.buf k = p.buf k + 4 * (mix (a + d) - mix a) * kernel factor sinc t (S + k)) ∧
        ∀ k, p.bufLen ≤ k → q.buf k = 0) (addDelta cfg p (t - T) d) := by
  unfold addDelta
  dsimp only
  refine XPost.ite (fun h0 => ?_) fun _ => trivial
  rw [hs, ho] at *
  have hmix : ∀ v, compressedSums[(a + d).toNat]? = some v → mix (a + d) = v := by
    intro v hv; unfold mix; rw [hv]; rfl
  cases hv : compressedSums[(a + d).toNat]? with
  | none => trivial
  | some v =>
    have hm := hmix v hv
    unfold addExternalDelta
    dsimp only
    by_cases hz : shl v 16 - mix a * 65536 = 0
    · rw [if_pos hz]
      have e : mix (a + d) - mix a = 0 := by
        rw [hm]; unfold shl at hz
        have : v * 65536 - mix a * 65536 = 0 := hz
        omega
      refine ⟨?_, ?_, hout⟩
      · rw [hm]; rfl
      · intro k; rw [e]; show p.buf k = _; omega
    · rw [if_neg hz, shr14, ← hm]
      by_cases hb : 0 ≤ shr ((t - T) * cfg.factor + cfg.offset) 18 ∧ shr ((t - T) * cfg.factor + cfg.offset) 18 + 31 < p.bufLen
      · rw [if_pos hb]
        refine ⟨rfl, ?_, ?_⟩
        · intro k
          show (if _ then _ else _) = _
          rw [kernel_shift o]
          split
          · rfl
          · omega
        · intro k hk
          show (if _ then _ else _) = _
          rw [if_neg (by omega)]; exact hout k hk
      · rw [if_neg hb]; trivial

/-- The contribution of a channel changes together with the sum. -/
theorem Sim.change (h : Sim factor sinc T S t w m p r) (o : Origin factor sinc T S cfg) (i : Nat) (hi : i < 4) {c : Channel} {x : Tone}
    (k : Like (t - T) c x) (h1 : c.audf = (p.ch i).audf) (h2 : c.period = (p.ch i).period) (h3 : x.audf = (r.ch i).audf)
    (d : Int) (hd : d = x.amplitude - (r.ch i).amplitude) :
    XPost (fun _ => True) (fun q => Sim factor sinc T S t w m q (r.set i x)) (addDelta cfg (p.setCh i c) (t - T) d) := by
  have hl : (r.set i x).level = r.level + d := by rw [level_set r i hi, hd]; omega
  have hf := set_audf r i x h3
  refine (addDelta_sound (t := t) o (p.setCh i c) d r.level h.sumIn h.sumOut h.outside).mono (fun _ e => e) ?_
  rintro q ⟨e, hb, hout⟩
  rw [e]
  constructor
  · intro j hj
    show Like _ ((p.setCh i c).ch j) _
    by_cases e : j = i
    · subst e; rw [setCh_same, set_same]; exact k
    · rw [setCh_other _ _ e, set_other _ _ e]; exact h.ch j hj
  · rw [hf]; exact (h.regs.setCh i h1 h2).output _ _ _
  · rw [hf]; exact h.bytes
  · rw [set_reload r i x h3]; exact h.reload1
  · rw [set_reload r i x h3]; exact h.reload3
  · exact h.skctl
  · exact h.sk
  · exact h.running
  · exact h.noise
  · rw [hl]
  · rw [hl]
  · intro k
    show q.buf k = _
    rw [hb k, hl]
    show p.buf k + _ = _
    rw [h.buf k]
    generalize kernel factor sinc t (S + k) = y
    rw [show 4 * (mix (r.level + d) - m) = 4 * (mix r.level - m) + 4 * (mix (r.level + d) - mix r.level) by omega, Int.add_mul]
    omega
  · exact hout

/-- The output of a channel changes. -/
def flip (x : Tone) : Tone := { x with high := !x.high && decide (x.volume ≠ 0) }

theorem Like.flip {d : Int} {c : Channel} {x : Tone} (h : Like d c x) : Like d { c with delta := -c.delta } (flip x) := by
  refine ⟨h.audc, h.byte, h.tick, h.left, h.out, ?_, ?_, h.mute⟩
  · show -c.delta = if (!x.high && decide (x.volume ≠ 0)) = true then x.volume else -x.volume
    rw [h.delta]
    cases hx : x.high
    · by_cases hv : x.volume = 0 <;> simp [hv]
    · simp
  · intro hh
    have : (!x.high && decide (x.volume ≠ 0)) = true := hh
    simp only [Bool.and_eq_true, decide_eq_true_eq] at this
    exact this.2

theorem flip_amplitude {d : Int} {c : Channel} {x : Tone} (h : Like d c x) : (flip x).amplitude - x.amplitude = -c.delta := by
  have e : (Sound.flip x).amplitude = if (!x.high && decide (x.volume ≠ 0)) = true then x.volume else 0 := rfl
  rw [e, h.delta]
  unfold Tone.amplitude
  cases hx : x.high
  · by_cases hv : x.volume = 0 <;> simp [hv]
  · simp

theorem Sim.slope (h : Sim factor sinc T S t w m p r) (o : Origin factor sinc T S cfg) (i : Nat) (hi : i < 4) :
    XPost (fun _ => True) (fun q => Sim factor sinc T S t w m q (r.set i (flip (r.ch i)))) (Pokey.slope cfg p i (t - T)) := by
  unfold Pokey.slope
  have k := h.ch i hi
  exact h.change o i hi k.flip rfl rfl rfl _ (flip_amplitude k).symm

end Asap.Sound
