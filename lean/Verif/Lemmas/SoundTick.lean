import Verif.Lemmas.Sound
import Verif.Props.Noise
import Mathlib.Tactic.ByContra

/-! One cycle of the emulator and of the reference chip. -/

namespace Asap.Sound
open Asap.Spec Asap.Spec.Sound Asap.Pokey

variable {factor : Int} {sinc : Int → Int → Int} {T S t m : Int} {w : Int → Int} {p : Pokey} {r : Chip}
  {cfg : Cfg} {z : Noise}

/-! ### Noise -/

theorem four_table (z : Noise) : ∀ n, n < 15 → z.four n = Nat.testBit 0x5370 n := by
  intro n
  induction n using Nat.strongRecOn with
  | _ n ih =>
    intro hn
    by_cases h : n < 4
    · rw [z.four_start n h]
      have : ∀ k : Fin 4, false = Nat.testBit 0x5370 k.val := by decide
      exact this ⟨n, h⟩
    · obtain ⟨k, rfl⟩ : ∃ k, n = k + 4 := ⟨n - 4, by omega⟩
      rw [z.four_next k, ih k (by omega) (by omega), ih (k + 1) (by omega) (by omega)]
      have := Props.C24_short_patterns.1 k (by omega)
      rw [Nat.mod_eq_of_lt (show k + 4 < 15 by omega), Nat.mod_eq_of_lt (show k + 1 < 15 by omega)] at this
      exact this.symm

theorem five_table (z : Noise) : ∀ n, n < 31 → z.five n = Nat.testBit 0x65bd44e0 n := by
  intro n
  induction n using Nat.strongRecOn with
  | _ n ih =>
    intro hn
    by_cases h : n < 5
    · rw [z.five_start n h]
      have : ∀ k : Fin 5, false = Nat.testBit 0x65bd44e0 k.val := by decide
      exact this ⟨n, h⟩
    · obtain ⟨k, rfl⟩ : ∃ k, n = k + 5 := ⟨n - 5, by omega⟩
      rw [z.five_next k, ih k (by omega) (by omega), ih (k + 2) (by omega) (by omega)]
      have := Props.C24_short_patterns.2 k (by omega)
      rw [Nat.mod_eq_of_lt (show k + 5 < 31 by omega), Nat.mod_eq_of_lt (show k + 2 < 31 by omega)] at this
      exact this.symm

theorem five_gate (z : Noise) (x : Int) :
    band 0x65bd44e0 (shl 1 (x % 31).toNat) = 0 ↔ z.five (x % 31).toNat = false := by
  have hn : (x % 31).toNat < 31 := by omega
  have h := band_pow_iff 0x65bd44e0 (x % 31).toNat
  rw [five_table z _ hn]
  have h2 := bit_nat 0x65bd44e0 (x % 31).toNat
  have h3 : band 0x65bd44e0 (shl 1 (x % 31).toNat) ≠ 0 ↔ Nat.testBit 0x65bd44e0 (x % 31).toNat = true := h.trans h2
  rw [← Bool.not_eq_true, ← h3]
  simp

theorem source_out (z : Noise) (audc audctl y x : Int) (hy : 0 ≤ y) (ha : 0 ≤ audctl ∧ audctl < 256)
    (hc : y = x) : polyOut audc audctl y = if z.source audc audctl x then 1 else 0 := by
  have hb : band audc 0x40 ≠ 0 ↔ bit audc 6 := band_pow_iff audc 6
  unfold Noise.source
  by_cases h6 : bit audc 6
  · rw [if_pos h6]
    unfold polyOut
    rw [if_pos (hb.2 h6), band_1]
    rw [hc, four_table z _ (by omega)]
    have := bit_nat 0x5370 (x % 15).toNat
    unfold bit at this
    unfold shr
    by_cases ht : Nat.testBit 0x5370 (x % 15).toNat = true
    · rw [if_pos ht]; exact this.2 ht
    · rw [if_neg ht]
      have h3 := mt this.1 ht
      have h4 : ((0x5370 : Nat) : Int) / 2 ^ (x % 15).toNat % 2 = 0 := by omega
      exact h4
  · rw [if_neg h6, Props.C24_noise_bit audc audctl y hy z.nine z.seventeen z.nine_register z.seventeen_register
      (by by_contra hh; exact h6 (hb.1 hh))]
    have h7 : bit audctl 7 ↔ ¬ audctl < 0x80 := by
      unfold bit
      show audctl / 128 % 2 = 1 ↔ _
      omega
    by_cases hs : audctl < 0x80
    · rw [if_pos hs, if_neg (fun h => h7.1 h hs)]
      have hp := (period131071 z.seventeen_register).mod y.toNat 9
      rw [← hp, ← hc, show (y % 131071).toNat = y.toNat % 131071 by omega]
    · rw [if_neg hs, if_pos (h7.2 hs)]
      have hp := (period511 z.nine_register).mod y.toNat 1
      rw [← hp, ← hc, show (y % 511).toNat = y.toNat % 511 by omega]

/-! ### A clocked channel -/

theorem Like.amplitude {x y : Tone} (h1 : y.high = x.high) (h2 : y.audc = x.audc) : y.amplitude = x.amplitude := by
  unfold Tone.amplitude Tone.volume; rw [h1, h2]

theorem Like.restart {d n : Int} {c : Channel} {x : Tone} (h : Like d c x) (h0 : 0 ≤ n) (hn : n ≤ 114 * 65536) :
    Like d { c with tick := d + n } { x with left := n } :=
  ⟨h.audc, h.byte, rfl, ⟨h0, hn⟩, h.out, h.delta, h.loud, h.mute⟩

theorem Sim.period (h : Sim factor sinc T S t w m p r) {i : Nat} (hi : i < 4) :
    (p.ch i).period = r.period i ∧ 1 ≤ r.period i ∧ r.period i ≤ 114 * 65536 :=
  ⟨h.regs.period i hi, period_pos h.bytes i⟩

theorem Sim.restart (h : Sim factor sinc T S t w m p r) (i : Nat) (hi : i < 4) {n : Int} (h0 : 0 ≤ n) (hn : n ≤ 114 * 65536) :
    Sim factor sinc T S t w m (p.setCh i { p.ch i with tick := t - T + n }) (r.restart i n) :=
  h.setCh i hi ((h.ch i hi).restart h0 hn) rfl rfl rfl (Like.amplitude rfl rfl)

theorem audc_table : ∀ n : Fin 256, (band (n.val : Int) 0xb0 = 0xa0 ↔ bit n.val 7 ∧ bit n.val 5 ∧ ¬ bit n.val 4) := by
  decide +kernel

theorem audc_bits {a : Int} (h : 0 ≤ a ∧ a < 256) :
    (band a 0xb0 = 0xa0 ↔ bit a 7 ∧ bit a 5 ∧ ¬ bit a 4) ∧ (a < 0x80 ↔ ¬ bit a 7) := by
  constructor
  · obtain ⟨n, rfl⟩ := Int.eq_ofNat_of_zero_le h.1
    exact audc_table ⟨n, by omega⟩
  · unfold bit
    show _ ↔ ¬ a / 128 % 2 = 1
    omega

/-- The flip-flop changes, then the output. -/
theorem Sim.toggle (h : Sim factor sinc T S t w m p r) (o : Origin factor sinc T S cfg) (i : Nat) (hi : i < 4)
    (v : Int) (hv : v = if (r.ch i).flop then 0 else 1) :
    XPost (fun _ => True) (fun q => Sim factor sinc T S t w m q (r.set i (r.ch i).toggle))
      (Pokey.slope cfg (p.setCh i { p.ch i with out := v }) i (t - T)) := by
  have k := h.ch i hi
  have k' : Like (t - T) { p.ch i with out := v } { r.ch i with flop := !(r.ch i).flop } := by
    refine ⟨k.audc, k.byte, k.tick, k.left, ?_, k.delta, k.loud, k.mute⟩
    show v = _
    rw [hv]
    cases (r.ch i).flop <;> rfl
  have h' := h.setCh i hi k' rfl rfl rfl (Like.amplitude rfl rfl)
  refine (h'.slope o i hi).mono (fun _ x => x) fun q hq => ?_
  rw [set_same, set_set] at hq
  exact hq

theorem doTick_eq (p : Pokey) (i : Nat) (cycle : Int) : doTick cfg p i cycle =
    let q := p.setCh i { p.ch i with tick := (p.ch i).tick + (p.ch i).period }
    if band (q.ch i).audc 0xb0 = 0xa0 then slope cfg (q.setCh i { q.ch i with out := bxor (q.ch i).out 1 }) i cycle
    else if band (q.ch i).audc 0x10 ≠ 0 ∨ q.init = true then .ok q
    else if cycle + q.polyIndex - i < 0 then .error .poly
    else if (q.ch i).audc < 0x80 ∧ band 0x65bd44e0 (shl 1 ((cycle + q.polyIndex - i) % 31).toNat) = 0 then .ok q
    else if band (q.ch i).audc 0x20 ≠ 0 then slope cfg (q.setCh i { q.ch i with out := bxor (q.ch i).out 1 }) i cycle
    else if (q.ch i).out = polyOut (q.ch i).audc q.audctl (cycle + q.polyIndex - i) then .ok q
    else slope cfg (q.setCh i { q.ch i with out := polyOut (q.ch i).audc q.audctl (cycle + q.polyIndex - i) }) i cycle := by
  dsimp only
  rw [setCh_same]
  rfl

theorem Sim.fire (h : Sim factor sinc T S t w m p r) (o : Origin factor sinc T S cfg) (z : Noise) (i : Nat) (hi : i < 4)
    (h0 : (r.ch i).left = 0) :
    XPost (fun _ => True) (fun q => Sim factor sinc T S t w m q (r.fire z t i)) (doTick cfg p i (t - T)) := by
  obtain ⟨e1, e2, e3⟩ := h.period hi
  have ht : (p.ch i).tick + (p.ch i).period = t - T + r.period i := by rw [(h.ch i hi).tick, h0, e1]; omega
  rw [doTick_eq, ht]
  have h' := h.restart i hi (n := r.period i) (by omega) e3
  have hf : ∀ x : Tone, x = Tone.drive z r.audctl (r.phase + t - i) (r.ch i) →
      r.fire z t i = (r.restart i (r.period i)).set i { x with left := r.period i } := by
    rintro x rfl
    unfold Chip.fire Chip.restart
    rw [set_set]
  have hl : (r.restart i (r.period i)).ch i = { r.ch i with left := r.period i } := set_same _ _ _
  have ha : (r.restart i (r.period i)).audctl = r.audctl := rfl
  have hph : (r.restart i (r.period i)).phase = r.phase := rfl
  generalize p.setCh i { p.ch i with tick := t - T + r.period i } = q at *
  generalize r.restart i (r.period i) = s at *
  dsimp only
  have k := h'.ch i hi
  have kb := audc_bits k.byte
  have b4 : band (q.ch i).audc 0x10 ≠ 0 ↔ bit (r.ch i).audc 4 := by
    rw [k.audc, hl]; exact band_pow_iff _ 4
  have b5 : band (q.ch i).audc 0x20 ≠ 0 ↔ bit (r.ch i).audc 5 := by
    rw [k.audc, hl]; exact band_pow_iff _ 5
  have hau : (s.ch i).audc = (r.ch i).audc := by rw [hl]
  have hfl : (s.ch i).flop = (r.ch i).flop := by rw [hl]
  rw [hau] at kb
  have stay : r.fire z t i = s.set i { r.ch i with left := r.period i } → Sim factor sinc T S t w m q (r.fire z t i) := by
    intro e
    rw [e, ← hl]
    have : s.set i (s.ch i) = s := by
      unfold Chip.set
      have : (fun j => if j = i then s.ch i else s.ch j) = s.ch := by
        funext j; split
        · rename_i e; rw [e]
        · rfl
      rw [this]
    rw [this]; exact h'
  have go : ∀ v, (v = if (r.ch i).flop then 0 else 1) → r.fire z t i = s.set i { (r.ch i).toggle with left := r.period i } →
      XPost (fun _ => True) (fun q => Sim factor sinc T S t w m q (r.fire z t i)) (Pokey.slope cfg (q.setCh i { q.ch i with out := v }) i (t - T)) := by
    intro v hv e
    refine (h'.toggle o i hi v (by rw [hfl]; exact hv)).mono (fun _ x => x) fun q hq => ?_
    rw [e]
    have : (s.ch i).toggle = { (r.ch i).toggle with left := r.period i } := by rw [hl]; rfl
    rw [← this]; exact hq
  have hx : bxor (q.ch i).out 1 = if (r.ch i).flop then 0 else 1 := by
    rw [k.out, hfl]; cases (r.ch i).flop <;> rfl
  have hact : q.audctl = r.audctl := h'.regs.audctl.trans ha
  have hcong : t - T + q.polyIndex - i = r.phase + t - i := by
    have := h'.noise
    rw [hph] at this
    omega
  have hA : (q.ch i).audc = (r.ch i).audc := k.audc.trans hau
  refine XPost.ite (fun c1 => ?_) fun c1 => ?_
  · obtain ⟨g7, g5, g4⟩ := kb.1.1 (hA ▸ c1)
    refine go _ hx (hf _ ?_)
    unfold Tone.drive
    rw [if_neg g4, if_neg (fun h => h.1 g7), if_pos g5]
  refine XPost.ite (fun c2 => ?_) fun c2 => ?_
  · have g4 : bit (r.ch i).audc 4 := by
      rcases c2 with c2 | c2
      · exact b4.1 c2
      · rw [h'.running] at c2; nomatch c2
    refine stay (hf _ ?_)
    unfold Tone.drive
    rw [if_pos g4]
  have g4 : ¬ bit (r.ch i).audc 4 := fun g => c2 (Or.inl (b4.2 g))
  refine XPost.ite (fun _ => trivial) fun c3 => ?_
  have e31 : (t - T + q.polyIndex - i) % 31 = (r.phase + t - i) % 31 := by rw [hcong]
  have hgate : ((q.ch i).audc < 0x80 ∧ band 0x65bd44e0 (shl 1 ((t - T + q.polyIndex - i) % 31).toNat) = 0) ↔
      (¬ bit (r.ch i).audc 7 ∧ z.five ((r.phase + t - i) % 31).toNat = false) := by
    rw [hA, e31, five_gate z, kb.2]
  refine XPost.ite (fun c4 => ?_) fun c4 => ?_
  · refine stay (hf _ ?_)
    unfold Tone.drive
    rw [if_neg g4, if_pos (hgate.1 c4)]
  refine XPost.ite (fun c5 => ?_) fun c5 => ?_
  · refine go _ hx (hf _ ?_)
    unfold Tone.drive
    rw [if_neg g4, if_neg (fun g => c4 (hgate.2 g)), if_pos (b5.1 c5)]
  have g5 : ¬ bit (r.ch i).audc 5 := fun g => c5 (b5.2 g)
  have hsrc := source_out z (r.ch i).audc r.audctl _ _ (Int.not_lt.1 c3) h.bytes.1 hcong
  have hpo : polyOut (q.ch i).audc q.audctl (t - T + q.polyIndex - i) =
      if z.source (r.ch i).audc r.audctl (r.phase + t - i) then 1 else 0 := by rw [hA, hact]; exact hsrc
  rw [hpo]
  have hout := k.out
  rw [hfl] at hout
  have hd : Tone.drive z r.audctl (r.phase + t - i) (r.ch i) =
      if (r.ch i).flop = z.source (r.ch i).audc r.audctl (r.phase + t - i) then r.ch i else (r.ch i).toggle := by
    unfold Tone.drive
    rw [if_neg g4, if_neg (fun g => c4 (hgate.2 g)), if_neg g5]
  generalize z.source (r.ch i).audc r.audctl (r.phase + t - i) = b at *
  refine XPost.ite (fun c6 => ?_) fun c6 => ?_
  · have e : (r.ch i).flop = b := by
      rw [hout] at c6
      revert c6; cases (r.ch i).flop <;> cases b <;> simp
    rw [if_pos e] at hd
    exact stay (hf _ hd.symm)
  · have e : ¬ (r.ch i).flop = b := by
      rw [hout] at c6
      revert c6; cases (r.ch i).flop <;> cases b <;> simp
    rw [if_neg e] at hd
    refine go _ ?_ (hf _ hd.symm)
    revert e; cases (r.ch i).flop <;> cases b <;> simp

/-! ### The four channels -/

theorem Sim.silence (h : Sim factor sinc T S t w m p r) (o : Origin factor sinc T S cfg) (i : Nat) (hi : i < 4) (mask : Int) (k : Nat)
    (hk : band p.audctl mask ≠ 0 ↔ bit r.audctl k) :
    XPost (fun _ => True) (fun q => Sim factor sinc T S t w m q (if bit r.audctl k then r.silence i else r))
      (highPass cfg p mask i (t - T)) := by
  have c := h.ch i hi
  have same : (r.ch i).high = false → r.silence i = r := by
    intro e
    unfold Chip.silence
    rw [← e]
    unfold Chip.set
    have : (fun j => if j = i then r.ch i else r.ch j) = r.ch := by
      funext j; split
      · rename_i e; rw [e]
      · rfl
    rw [this]
  have hd : (p.ch i).delta > 0 ↔ (r.ch i).high = true := by
    have hv : 0 ≤ (r.ch i).volume := by unfold Tone.volume; omega
    rw [c.delta]
    cases hh : (r.ch i).high
    · simp; omega
    · have := c.loud hh
      simp; omega
  unfold highPass
  refine XPost.ite (fun c1 => ?_) fun c1 => ?_
  · rw [if_pos (hk.1 c1.1)]
    refine (h.slope o i hi).mono (fun _ x => x) fun q hq => ?_
    have e : flip (r.ch i) = { r.ch i with high := false } := by
      unfold flip; rw [hd.1 c1.2.1]; rfl
    rw [e] at hq; exact hq
  · show Sim _ _ _ _ _ _ _ _ _
    split
    · rename_i b
      rw [same ?_]
      · exact h
      · cases hh : (r.ch i).high
        · rfl
        · exact absurd ⟨hk.2 b, hd.2 hh, c.mute⟩ c1
    · exact h

theorem Sim.audctl (h : Sim factor sinc T S t w m p r) (k : Nat) : band p.audctl (shl 1 k) ≠ 0 ↔ bit r.audctl k := by
  rw [h.regs.audctl]; exact band_pow_iff _ _

theorem Sim.due (h : Sim factor sinc T S t w m p r) {i : Nat} (hi : i < 4) : t - T = (p.ch i).tick ↔ (r.ch i).left = 0 := by
  rw [(h.ch i hi).tick]; omega

theorem silence_left (r : Chip) (i j : Nat) : ((r.silence i).ch j).left = (r.ch j).left := by
  unfold Chip.silence Chip.set
  dsimp only
  split
  · rename_i e; rw [e]
  · rfl

theorem Sim.clock2 (h : Sim factor sinc T S t w m p r) (o : Origin factor sinc T S cfg) (z : Noise) :
    XPost (fun _ => True) (fun q => Sim factor sinc T S t w m q (r.clock2 z t)) (tick2 cfg p (t - T)) := by
  unfold tick2 Chip.clock2
  by_cases c : (r.ch 2).left = 0
  · rw [if_pos ((h.due (by omega)).2 c), if_pos c]
    refine XPost.bind (h.silence o 0 (by omega) 4 2 (h.audctl 2)) fun q hq => ?_
    refine hq.fire o z 2 (by omega) ?_
    split
    · rw [silence_left]; exact c
    · exact c
  · rw [if_neg (mt (h.due (by omega)).1 c), if_neg c]; exact h

theorem reload_range (h : Sim factor sinc T S t w m p r) {i k : Nat} (hi : i < 4) : 0 ≤ r.reload i k ∧ r.reload i k ≤ 114 * 65536 := by
  have hb := h.bytes.2 i hi
  have hd := divider_pos r.audctl
  unfold Chip.reload
  dsimp only at hb
  split
  · omega
  · have := mul_pos_bound hd (x := (r.ch i).audf + 1) (by omega)
    omega

theorem restart_left (r : Chip) {i j : Nat} (n : Int) (h : j ≠ i) : ((r.restart i n).ch j).left = (r.ch j).left := by
  unfold Chip.restart; rw [set_other _ _ h]

theorem Sim.join3 (h : Sim factor sinc T S t w m p r) :
    Sim factor sinc T S t w m (if band p.audctl 8 ≠ 0 then p.setCh 2 { p.ch 2 with tick := t - T + p.reload3 } else p) (r.join 3 2 5) := by
  have hk : band p.audctl 8 ≠ 0 ↔ bit r.audctl 3 := h.audctl 3
  unfold Chip.join
  by_cases b : bit r.audctl 3
  · rw [if_pos (hk.2 b), if_pos b, h.reload3 b]
    have hr := reload_range h (i := 2) (k := 5) (by omega)
    exact h.restart 2 (by omega) hr.1 hr.2
  · rw [if_neg (mt hk.1 b), if_neg b]; exact h

theorem join_left (r : Chip) (j : Nat) {i k : Nat} (f : Nat) (h : k ≠ i) : ((r.join j i f).ch k).left = (r.ch k).left := by
  unfold Chip.join
  split
  · exact restart_left r _ h
  · rfl

theorem join_audctl (r : Chip) (j i f : Nat) : (r.join j i f).audctl = r.audctl := by
  unfold Chip.join; split <;> rfl

theorem Sim.clock3 (h : Sim factor sinc T S t w m p r) (o : Origin factor sinc T S cfg) (z : Noise) :
    XPost (fun _ => True) (fun q => Sim factor sinc T S t w m q (r.clock3 z t)) (tick3 cfg p (t - T)) := by
  unfold tick3 Chip.clock3
  by_cases c : (r.ch 3).left = 0
  · rw [if_pos ((h.due (by omega)).2 c), if_pos c]
    have hj := h.join3
    have hc : ((r.join 3 2 5).ch 3).left = 0 := by rw [join_left r 3 5 (by omega)]; exact c
    rw [← join_audctl r 3 2 5]
    dsimp only
    generalize (if band p.audctl 8 ≠ 0 then p.setCh 2 { p.ch 2 with tick := t - T + p.reload3 } else p) = p' at hj ⊢
    generalize r.join 3 2 5 = r' at hj hc ⊢
    refine XPost.bind (hj.silence o 1 (by omega) 2 1 (hj.audctl 1)) fun q hq => ?_
    refine hq.fire o z 3 (by omega) ?_
    split
    · rw [silence_left]; exact hc
    · exact hc
  · rw [if_neg (mt (h.due (by omega)).1 c), if_neg c]; exact h

theorem skctl_table : ∀ n : Fin 256, (band (n.val : Int) 0x88 = 8 ↔ bit n.val 3 ∧ ¬ bit n.val 7) ∧
    (band (n.val : Int) 8 ≠ 0 ↔ bit n.val 3) := by
  decide +kernel

theorem skctl_bits {a : Int} (h : 0 ≤ a ∧ a < 256) : (band a 0x88 = 8 ↔ bit a 3 ∧ ¬ bit a 7) ∧ (band a 8 ≠ 0 ↔ bit a 3) := by
  obtain ⟨n, rfl⟩ := Int.eq_ofNat_of_zero_le h.1
  exact skctl_table ⟨n, by omega⟩

theorem Sim.clock0 (h : Sim factor sinc T S t w m p r) (o : Origin factor sinc T S cfg) (z : Noise) :
    XPost (fun _ => True) (fun q => Sim factor sinc T S t w m q (r.clock0 z t)) (tick0 cfg p (t - T)) := by
  have hk := (skctl_bits h.sk).1
  rw [← h.skctl] at hk
  obtain ⟨e1, e2, e3⟩ := h.period (i := 1) (by omega)
  unfold tick0 Chip.clock0
  by_cases c : (r.ch 0).left = 0
  · rw [if_pos ((h.due (by omega)).2 c), if_pos c]
    dsimp only
    rw [← h.skctl]
    by_cases b : bit p.skctl 3 ∧ ¬ bit p.skctl 7
    · rw [if_pos (hk.2 b), if_pos b, show t - T + (p.ch 1).period = t - T + r.period 1 from congrArg _ e1]
      refine (h.restart 1 (by omega) (by omega) e3).fire o z 0 (by omega) ?_
      rw [restart_left r _ (by omega)]; exact c
    · rw [if_neg (mt hk.1 b), if_neg b]
      exact h.fire o z 0 (by omega) c
  · rw [if_neg (mt (h.due (by omega)).1 c), if_neg c]; exact h

theorem Sim.clock1 (h : Sim factor sinc T S t w m p r) (o : Origin factor sinc T S cfg) (z : Noise) :
    XPost (fun _ => True) (fun q => Sim factor sinc T S t w m q (r.clock1 z t)) (tick1 cfg p (t - T)) := by
  have hk := (skctl_bits h.sk).2
  rw [← h.skctl] at hk
  have ha : band p.audctl 0x10 ≠ 0 ↔ bit r.audctl 4 := h.audctl 4
  obtain ⟨e1, e2, e3⟩ := h.period (i := 0) (by omega)
  unfold tick1 Chip.clock1
  by_cases c : (r.ch 1).left = 0
  · rw [if_pos ((h.due (by omega)).2 c), if_pos c]
    dsimp only
    rw [← h.skctl]
    by_cases a : bit r.audctl 4
    · rw [if_pos (ha.2 a), if_pos a, h.reload1 a]
      have hr := reload_range h (i := 0) (k := 6) (by omega)
      refine (h.restart 0 (by omega) hr.1 hr.2).fire o z 1 (by omega) ?_
      rw [restart_left r _ (by omega)]; exact c
    · rw [if_neg (mt ha.1 a), if_neg a]
      by_cases b : bit p.skctl 3
      · rw [if_pos (hk.2 b), if_pos b, show t - T + (p.ch 0).period = t - T + r.period 0 from congrArg _ e1]
        refine (h.restart 0 (by omega) (by omega) e3).fire o z 1 (by omega) ?_
        rw [restart_left r _ (by omega)]; exact c
      · rw [if_neg (mt hk.1 b), if_neg b]
        exact h.fire o z 1 (by omega) c
  · rw [if_neg (mt (h.due (by omega)).1 c), if_neg c]; exact h

/-- The chip at the end of a cycle, before the counters count. -/
def clocked (z : Noise) (t : Int) (r : Chip) : Chip := (((r.clock2 z t).clock3 z t).clock0 z t).clock1 z t

theorem Sim.clocked (h : Sim factor sinc T S t w m p r) (o : Origin factor sinc T S cfg) (z : Noise) :
    XPost (fun _ => True) (fun q => Sim factor sinc T S t w m q (clocked z t r)) (tickAll cfg p (t - T)) := by
  unfold tickAll
  refine XPost.bind (h.clock2 o z) fun q2 h2 => ?_
  refine XPost.bind (h2.clock3 o z) fun q3 h3 => ?_
  refine XPost.bind (h3.clock0 o z) fun q0 h0 => ?_
  exact h0.clock1 o z

end Asap.Sound
