import Verif.Lemmas.SoundTick

/-! Generating up to a moment. -/

namespace Asap.Sound
open Asap.Spec Asap.Spec.Sound Asap.Pokey

variable {factor : Int} {sinc : Int → Int → Int} {T S t m : Int} {w : Int → Int} {p : Pokey} {r : Chip}
  {cfg : Cfg} {z : Noise} {s : Sound}

/-- The emulator has generated the sound up to cycle `t`. -/
def Sync (factor : Int) (sinc : Int → Int → Int) (T S t : Int) (p : Pokey) (s : Sound) : Prop :=
  Sim factor sinc T S t s.wave (mix s.chip.level) p s.chip

theorem Sim.settle (h : Sim factor sinc T S t w m p r) :
    Sync factor sinc T S t p ⟨r, fun k => w k + 4 * (mix r.level - m) * kernel factor sinc t k⟩ := by
  refine ⟨h.ch, h.regs, h.bytes, h.reload1, h.reload3, h.skctl, h.sk, h.running, h.noise, h.sumIn, h.sumOut, ?_, h.outside⟩
  intro k
  rw [h.buf k, Int.sub_self]
  simp

theorem zero_step (a b c : Int) : a + 4 * (b - b) * c = a := by rw [Int.sub_self]; simp

theorem level_count (r : Chip) : r.count.level = r.level := rfl

/-- The counters count down. -/
theorem Sync.count (h : Sync factor sinc T S t p s) (hl : ∀ i, i < 4 → 1 ≤ (s.chip.ch i).left) :
    Sync factor sinc T S (t + 1) p ⟨s.chip.count, s.wave⟩ := by
  refine ⟨?_, h.regs, h.bytes, h.reload1, h.reload3, h.skctl, h.sk, h.running, h.noise, h.sumIn, h.sumOut, ?_, h.outside⟩
  · intro i hi
    have k := h.ch i hi
    have l := hl i hi
    refine ⟨k.audc, k.byte, ?_, ?_, k.out, k.delta, k.loud, k.mute⟩
    · show (p.ch i).tick = t + 1 - T + ((s.chip.ch i).left - 1)
      rw [k.tick]; omega
    · show 0 ≤ (s.chip.ch i).left - 1 ∧ (s.chip.ch i).left - 1 ≤ _
      have := k.left; omega
  · intro k
    have := h.buf k
    rw [zero_step] at this
    show _ = s.wave (S + k) + 4 * (mix s.chip.count.level - mix s.chip.count.level) * _
    rw [zero_step]; exact this

theorem Sync.pos (h : Sync factor sinc T S t p s) : Pos p := h.regs.pos h.bytes

/-- A cycle in which channels are clocked. -/
theorem Sync.cycle (h : Sync factor sinc T S t p s) (o : Origin factor sinc T S cfg) (z : Noise) :
    XPost (fun _ => True) (fun q => Sync factor sinc T S (t + 1) q (s.become factor sinc t (s.chip.tick z t)))
      (tickAll cfg p (t - T)) := by
  have hc : ∀ j, j < 4 → t - T ≤ (p.ch j).tick := by
    intro j hj
    have k := h.ch j hj
    have := k.left
    rw [k.tick]; omega
  refine ((h.clocked o z).and ((tickAll_adv (cfg := cfg) (t - T) h.pos hc).mono (F := fun _ => True) (fun _ _ => trivial) fun _ x => x)).mono
    (fun _ _ => trivial) ?_
  rintro q ⟨h1, -, h2⟩
  refine h1.settle.count fun i hi => ?_
  have a := h2 i hi
  have k := h1.ch i hi
  rw [k.tick] at a
  show 1 ≤ ((clocked z t s.chip).ch i).left
  omega

theorem clocked_idle (z : Noise) (t : Int) (r : Chip) (hl : ∀ i, i < 4 → 1 ≤ (r.ch i).left) : clocked z t r = r := by
  have h0 := hl 0 (by omega); have h1 := hl 1 (by omega); have h2 := hl 2 (by omega); have h3 := hl 3 (by omega)
  unfold clocked
  have e2 : r.clock2 z t = r := if_neg (by omega)
  have e3 : r.clock3 z t = r := if_neg (by omega)
  have e0 : r.clock0 z t = r := if_neg (by omega)
  have e1 : r.clock1 z t = r := if_neg (by omega)
  rw [e2, e3, e0, e1]

theorem become_same (factor : Int) (sinc : Int → Int → Int) (t : Int) (s : Sound) (r : Chip) (h : r.level = s.chip.level) :
    s.become factor sinc t r = ⟨r, s.wave⟩ := by
  unfold Sound.become
  rw [h]
  congr 1
  funext k
  rw [zero_step]

/-- A cycle in which no channel is clocked. -/
theorem Sync.idle (h : Sync factor sinc T S t p s) (z : Noise) (hl : ∀ i, i < 4 → 1 ≤ (s.chip.ch i).left) :
    Sync factor sinc T S (t + 1) p (s.become factor sinc t (s.chip.tick z t)) := by
  have e : s.chip.tick z t = s.chip.count := congrArg Chip.count (clocked_idle z t s.chip hl)
  rw [e, become_same _ _ _ _ _ (level_count _)]
  exact h.count hl

theorem Sync.idles (z : Noise) : ∀ (n : Nat) {t : Int} {s : Sound}, Sync factor sinc T S t p s →
    (∀ i, i < 4 → (n : Int) ≤ (s.chip.ch i).left) → Sync factor sinc T S (t + n) p (s.wait z factor sinc n t)
  | 0, t, s, h, _ => by
    rw [show t + ((0 : Nat) : Int) = t by omega]; exact h
  | n + 1, t, s, h, hl => by
    have h1 : ∀ i, i < 4 → 1 ≤ (s.chip.ch i).left := fun i hi => by have := hl i hi; omega
    have e : s.chip.tick z t = s.chip.count := congrArg Chip.count (clocked_idle z t s.chip h1)
    rw [show t + ((n + 1 : Nat) : Int) = t + 1 + n by omega]
    refine Sync.idles z n (h.idle z h1) fun i hi => ?_
    show (n : Int) ≤ ((s.chip.tick z t).ch i).left
    rw [e]
    show (n : Int) ≤ (s.chip.ch i).left - 1
    have := hl i hi; omega

theorem wait_add (z : Noise) (factor : Int) (sinc : Int → Int → Int) (b : Nat) : ∀ (a : Nat) (t : Int) (s : Sound),
    s.wait z factor sinc (a + b) t = (s.wait z factor sinc a t).wait z factor sinc b (t + a)
  | 0, t, s => by rw [Nat.zero_add, show t + ((0 : Nat) : Int) = t by omega]; rfl
  | a + 1, t, s => by
    rw [show a + 1 + b = a + b + 1 by omega]
    show Sound.wait z factor sinc (a + b) (t + 1) _ = _
    rw [wait_add z factor sinc b a (t + 1), show t + ((a + 1 : Nat) : Int) = t + 1 + a by omega]
    rfl

theorem Sync.loop (o : Origin factor sinc T S cfg) (z : Noise) {L : Int} : ∀ (fuel : Nat) {t : Int} {p : Pokey} {s : Sound},
    Sync factor sinc T S t p s → t ≤ L →
    XPost (fun _ => True) (fun q => Sync factor sinc T S L q (s.wait z factor sinc (L - t).toNat t))
      (generateLoop cfg (L - T) fuel p)
  | 0, t, p, s, _, _ => trivial
  | fuel + 1, t, p, s, h, ht => by
    have hle := firstTick_le p (L - T)
    have hge : t - T ≤ p.firstTick (L - T) := by
      have g : ∀ j, j < 4 → t - T ≤ (p.ch j).tick := fun j hj => by
        have k := h.ch j hj
        have := k.left
        rw [k.tick]; omega
      have g0 := g 0 (by omega); have g1 := g 1 (by omega); have g2 := g 2 (by omega); have g3 := g 3 (by omega)
      unfold firstTick; omega
    unfold generateLoop
    dsimp only
    generalize p.firstTick (L - T) = c at *
    obtain ⟨n, hn⟩ : ∃ n : Nat, (n : Int) = c - (t - T) := ⟨(c - (t - T)).toNat, by omega⟩
    have h' := h.idles z n fun i hi => by
      have k := h.ch i hi
      have := hle.2 i hi
      rw [k.tick] at this; omega
    refine XPost.ite (fun e => ?_) fun e => ?_
    · rw [show (L - t).toNat = n by omega]
      have : t + n = L := by omega
      rw [this] at h'
      exact h'
    · have e1 : c = t + n - T := by omega
      rw [e1]
      refine XPost.bind (h'.cycle o z) fun q hq => ?_
      refine (Sync.loop o z fuel hq (by omega)).mono (fun _ x => x) fun q' hq' => ?_
      have e2 : (L - t).toNat = n + ((L - (t + n + 1)).toNat + 1) := by omega
      rw [e2, wait_add]
      exact hq'

theorem Sync.until (h : Sync factor sinc T S t p s) (o : Origin factor sinc T S cfg) (z : Noise) {L : Int} (ht : t ≤ L) :
    XPost (fun _ => True) (fun q => Sync factor sinc T S L q (s.wait z factor sinc (L - t).toNat t))
      (generateUntil cfg p (L - T)) :=
  Sync.loop o z _ h ht

/-- Nothing is generated for the past. -/
theorem Sync.past (h : Sync factor sinc T S t p s) {L : Int} (ht : L ≤ t) : generateUntil cfg p (L - T) = .ok p := by
  have hf : p.firstTick (L - T) = L - T := by
    have g : ∀ j, j < 4 → L - T ≤ (p.ch j).tick := fun j hj => by
      have k := h.ch j hj
      have := k.left
      rw [k.tick]; omega
    have g0 := g 0 (by omega); have g1 := g 1 (by omega); have g2 := g 2 (by omega); have g3 := g 3 (by omega)
    unfold firstTick; omega
  unfold generateUntil
  rw [hf]
  unfold generateLoop
  dsimp only
  rw [hf, if_pos rfl]

/-- The emulator may not have generated the latest sound yet. -/
def Lazy (z : Noise) (factor : Int) (sinc : Int → Int → Int) (T S t : Int) (p : Pokey) (s : Sound) : Prop :=
  ∃ t0 s0, t0 ≤ t ∧ Sync factor sinc T S t0 p s0 ∧ s = s0.wait z factor sinc (t - t0).toNat t0

theorem Sync.lazy (h : Sync factor sinc T S t p s) : Lazy z factor sinc T S t p s :=
  ⟨t, s, Int.le_refl _, h, by rw [Int.sub_self]; rfl⟩

theorem Lazy.wait (h : Lazy z factor sinc T S t p s) {c : Int} (hc : t ≤ c) :
    Lazy z factor sinc T S c p (s.wait z factor sinc (c - t).toNat t) := by
  obtain ⟨t0, s0, h0, h1, rfl⟩ := h
  refine ⟨t0, s0, by omega, h1, ?_⟩
  rw [show (c - t0).toNat = (t - t0).toNat + (c - t).toNat by omega, wait_add,
    show t0 + ((t - t0).toNat : Int) = t by omega]

theorem Lazy.until (h : Lazy z factor sinc T S t p s) (o : Origin factor sinc T S cfg) {c : Int} (hc : t ≤ c) :
    XPost (fun _ => True) (fun q => Sync factor sinc T S c q (s.wait z factor sinc (c - t).toNat t))
      (generateUntil cfg p (c - T)) := by
  obtain ⟨t0, s0, h0, h1, e⟩ := h.wait hc
  rw [e]
  exact h1.until o z h0

end Asap.Sound
