import Verif.Lemmas.SoundRun

/-! Register writes. -/

namespace Asap.Sound
open Asap.Spec Asap.Spec.Sound Asap.Pokey

variable {factor : Int} {sinc : Int → Int → Int} {T S t m : Int} {w : Int → Int} {p q : Pokey} {r : Chip}
  {cfg : Cfg} {z : Noise} {s : Sound}

/-! ### The reference chip does not change its registers -/

/-- Same registers. -/
def Kin (r r' : Chip) : Prop :=
  r'.audctl = r.audctl ∧ r'.skctl = r.skctl ∧ ∀ i, (r'.ch i).audf = (r.ch i).audf ∧ (r'.ch i).audc = (r.ch i).audc

theorem Kin.refl (r : Chip) : Kin r r := ⟨rfl, rfl, fun _ => ⟨rfl, rfl⟩⟩

theorem Kin.trans {a b c : Chip} (h : Kin a b) (k : Kin b c) : Kin a c :=
  ⟨k.1.trans h.1, k.2.1.trans h.2.1, fun i => ⟨(k.2.2 i).1.trans (h.2.2 i).1, (k.2.2 i).2.trans (h.2.2 i).2⟩⟩

theorem kin_set (r : Chip) (i : Nat) {x : Tone} (h1 : x.audf = (r.ch i).audf) (h2 : x.audc = (r.ch i).audc) : Kin r (r.set i x) := by
  refine ⟨rfl, rfl, fun j => ?_⟩
  by_cases e : j = i
  · subst e; rw [set_same]; exact ⟨h1, h2⟩
  · rw [set_other _ _ e]; exact ⟨rfl, rfl⟩

theorem kin_ite {r a b : Chip} {c : Prop} [Decidable c] (h : Kin r a) (k : Kin r b) : Kin r (if c then a else b) := by
  split
  · exact h
  · exact k

theorem drive_regs (z : Noise) (a x : Int) (c : Tone) : (c.drive z a x).audf = c.audf ∧ (c.drive z a x).audc = c.audc := by
  unfold Tone.drive
  repeat' split
  all_goals exact ⟨rfl, rfl⟩

theorem kin_fire (z : Noise) (t : Int) (r : Chip) (i : Nat) : Kin r (r.fire z t i) :=
  kin_set r i (drive_regs z _ _ _).1 (drive_regs z _ _ _).2

theorem kin_silence (r : Chip) (i : Nat) : Kin r (r.silence i) := kin_set r i rfl rfl
theorem kin_restart (r : Chip) (i : Nat) (n : Int) : Kin r (r.restart i n) := kin_set r i rfl rfl
theorem kin_join (r : Chip) (j i f : Nat) : Kin r (r.join j i f) := kin_ite (kin_restart _ _ _) (Kin.refl _)

theorem kin_tick (z : Noise) (t : Int) (r : Chip) : Kin r (r.tick z t) := by
  have k2 : ∀ r : Chip, Kin r (r.clock2 z t) := fun r =>
    kin_ite ((kin_ite (kin_silence r 0) (Kin.refl r)).trans (kin_fire z t _ 2)) (Kin.refl r)
  have k3 : ∀ r : Chip, Kin r (r.clock3 z t) := fun r =>
    kin_ite ((kin_ite ((kin_join r 3 2 5).trans (kin_silence _ 1)) (kin_join r 3 2 5)).trans (kin_fire z t _ 3)) (Kin.refl r)
  have k0 : ∀ r : Chip, Kin r (r.clock0 z t) := fun r =>
    kin_ite ((kin_ite (kin_restart r 1 _) (Kin.refl r)).trans (kin_fire z t _ 0)) (Kin.refl r)
  have k1 : ∀ r : Chip, Kin r (r.clock1 z t) := fun r =>
    kin_ite ((kin_ite (kin_restart r 0 _) (kin_ite (kin_restart r 0 _) (Kin.refl r))).trans (kin_fire z t _ 1)) (Kin.refl r)
  have kc : ∀ r : Chip, Kin r r.count := fun r => ⟨rfl, rfl, fun _ => ⟨rfl, rfl⟩⟩
  exact ((((k2 _).trans (k3 _)).trans (k0 _)).trans (k1 _)).trans (kc _)

theorem kin_wait (z : Noise) (factor : Int) (sinc : Int → Int → Int) : ∀ (n : Nat) (t : Int) (s : Sound),
    Kin s.chip (s.wait z factor sinc n t).chip
  | 0, _, s => Kin.refl _
  | n + 1, t, s => (kin_tick z t s.chip).trans (kin_wait z factor sinc n (t + 1) _)

/-! ### What the register writes of the emulator keep -/

/-- Everything but the registers and the periods is the same. -/
structure Keep (p q : Pokey) : Prop where
  skctl : q.skctl = p.skctl
  init : q.init = p.init
  poly : q.polyIndex = p.polyIndex
  sumIn : q.sumIn = p.sumIn
  sumOut : q.sumOut = p.sumOut
  buf : q.buf = p.buf
  bufLen : q.bufLen = p.bufLen
  ch : ∀ j, (q.ch j).audc = (p.ch j).audc ∧ (q.ch j).tick = (p.ch j).tick ∧ (q.ch j).out = (p.ch j).out ∧
    (q.ch j).delta = (p.ch j).delta ∧ (q.ch j).mute = (p.ch j).mute

theorem Keep.refl (p : Pokey) : Keep p p := ⟨rfl, rfl, rfl, rfl, rfl, rfl, rfl, fun _ => ⟨rfl, rfl, rfl, rfl, rfl⟩⟩

theorem Keep.trans {a b c : Pokey} (h : Keep a b) (k : Keep b c) : Keep a c :=
  ⟨k.skctl.trans h.skctl, k.init.trans h.init, k.poly.trans h.poly, k.sumIn.trans h.sumIn, k.sumOut.trans h.sumOut,
    k.buf.trans h.buf, k.bufLen.trans h.bufLen, fun j => ⟨(k.ch j).1.trans (h.ch j).1, (k.ch j).2.1.trans (h.ch j).2.1,
      (k.ch j).2.2.1.trans (h.ch j).2.2.1, (k.ch j).2.2.2.1.trans (h.ch j).2.2.2.1, (k.ch j).2.2.2.2.trans (h.ch j).2.2.2.2⟩⟩

theorem keep_setCh (p : Pokey) (i : Nat) {c : Channel} (h1 : c.audc = (p.ch i).audc) (h2 : c.tick = (p.ch i).tick)
    (h3 : c.out = (p.ch i).out) (h4 : c.delta = (p.ch i).delta) (h5 : c.mute = (p.ch i).mute) : Keep p (p.setCh i c) := by
  refine ⟨rfl, rfl, rfl, rfl, rfl, rfl, rfl, fun j => ?_⟩
  by_cases e : j = i
  · subst e; rw [setCh_same]; exact ⟨h1, h2, h3, h4, h5⟩
  · rw [setCh_other _ _ e]; exact ⟨rfl, rfl, rfl, rfl, rfl⟩

theorem keep_setPeriod (p : Pokey) (i : Nat) (v : Int) : Keep p (p.setPeriod i v) := keep_setCh p i rfl rfl rfl rfl rfl
theorem keep_setAudf (p : Pokey) (i : Nat) (v : Int) : Keep p (p.setAudf i v) := keep_setCh p i rfl rfl rfl rfl rfl
theorem keep_setReload1 (p : Pokey) (v : Int) : Keep p (p.setReload1 v) :=
  ⟨rfl, rfl, rfl, rfl, rfl, rfl, rfl, fun _ => ⟨rfl, rfl, rfl, rfl, rfl⟩⟩
theorem keep_setReload3 (p : Pokey) (v : Int) : Keep p (p.setReload3 v) :=
  ⟨rfl, rfl, rfl, rfl, rfl, rfl, rfl, fun _ => ⟨rfl, rfl, rfl, rfl, rfl⟩⟩
theorem keep_setAudctl (p : Pokey) (v : Int) : Keep p (p.setAudctl v) :=
  ⟨rfl, rfl, rfl, rfl, rfl, rfl, rfl, fun _ => ⟨rfl, rfl, rfl, rfl, rfl⟩⟩

theorem keep_tunes (p : Pokey) (v : Int) : Keep p (tune1 p v) ∧ Keep p (tune2 p v) ∧ Keep p (tune3 p v) ∧ Keep p (tune4 p v) := by
  refine ⟨?_, ?_, ?_, ?_⟩
  · unfold tune1
    repeat' split
    all_goals first | exact keep_setPeriod _ _ _ | exact (keep_setPeriod _ _ _).trans (keep_setReload1 _ _)
  · unfold tune2
    repeat' split
    all_goals exact keep_setPeriod _ _ _
  · unfold tune3
    repeat' split
    all_goals first | exact keep_setPeriod _ _ _ | exact (keep_setPeriod _ _ _).trans (keep_setReload3 _ _)
  · unfold tune4
    repeat' split
    all_goals exact keep_setPeriod _ _ _

theorem keep_pairs (p : Pokey) (v : Int) : Keep p (audctlPair3 (audctlPair1 (p.setAudctl v))) := by
  have a : ∀ p, Keep p (audctlPair1 p) := by
    intro p
    unfold audctlPair1
    repeat' split
    all_goals first | exact (keep_setPeriod _ _ _).trans (keep_setPeriod _ _ _) |
      exact ((keep_setPeriod _ _ _).trans (keep_setPeriod _ _ _)).trans (keep_setReload1 _ _)
  have b : ∀ p, Keep p (audctlPair3 p) := by
    intro p
    unfold audctlPair3
    repeat' split
    all_goals first | exact (keep_setPeriod _ _ _).trans (keep_setPeriod _ _ _) |
      exact ((keep_setPeriod _ _ _).trans (keep_setPeriod _ _ _)).trans (keep_setReload3 _ _)
  exact ((keep_setAudctl p v).trans (a _)).trans (b _)

/-- Same tones. -/
def Tuned (r r' : Chip) : Prop :=
  r'.skctl = r.skctl ∧ r'.phase = r.phase ∧ ∀ i, (r'.ch i).audc = (r.ch i).audc ∧ (r'.ch i).left = (r.ch i).left ∧
    (r'.ch i).flop = (r.ch i).flop ∧ (r'.ch i).high = (r.ch i).high

theorem Tuned.level {r r' : Chip} (h : Tuned r r') : r'.level = r.level := by
  unfold Chip.level
  rw [Like.amplitude (h.2.2 0).2.2.2 (h.2.2 0).1, Like.amplitude (h.2.2 1).2.2.2 (h.2.2 1).1,
    Like.amplitude (h.2.2 2).2.2.2 (h.2.2 2).1, Like.amplitude (h.2.2 3).2.2.2 (h.2.2 3).1]

/-- The frequency registers change. -/
theorem Sync.retune (h : Sync factor sinc T S t p s) (k : Keep p q) {r : Chip} (hr : Tuned s.chip r)
    (h1 : Regs r.audctl (fun i => (r.ch i).audf) q) (h2 : Bytes r.audctl (fun i => (r.ch i).audf))
    (h4 : bit r.audctl 4 → q.reload1 = r.reload 0 6) (h5 : bit r.audctl 3 → q.reload3 = r.reload 2 5) :
    Sync factor sinc T S t q (s.become factor sinc t r) := by
  rw [become_same _ _ _ _ _ hr.level]
  refine ⟨?_, h1, h2, h4, h5, ?_, ?_, ?_, ?_, ?_, ?_, ?_, ?_⟩
  · intro i hi
    have a := h.ch i hi
    obtain ⟨c1, c2, c3, c4, c5⟩ := k.ch i
    obtain ⟨d1, d2, d3, d4⟩ := hr.2.2 i
    have hv : (r.ch i).volume = (s.chip.ch i).volume := by unfold Tone.volume; rw [d1]
    refine ⟨?_, ?_, ?_, ?_, ?_, ?_, ?_, ?_⟩
    · rw [c1, d1]; exact a.audc
    · rw [d1]; exact a.byte
    · rw [c2, d2]; exact a.tick
    · rw [d2]; exact a.left
    · rw [c3, d3]; exact a.out
    · rw [c4, d4, hv]; exact a.delta
    · rw [d4, hv]; exact a.loud
    · rw [c5]; exact a.mute
  · rw [k.skctl]; exact h.skctl.trans hr.1.symm
  · show 0 ≤ r.skctl ∧ r.skctl < 256
    rw [hr.1]; exact h.sk
  · rw [k.init]; exact h.running
  · show q.polyIndex = T + r.phase
    rw [k.poly, hr.2.1]; exact h.noise
  · show _ = r.level
    rw [hr.level, k.sumIn]; exact h.sumIn
  · show _ = mix r.level * _
    rw [hr.level, k.sumOut]; exact h.sumOut
  · intro j
    have := h.buf j
    rw [zero_step] at this
    show _ = s.wave (S + j) + 4 * (mix r.level - mix r.level) * _
    rw [zero_step, k.buf]; exact this
  · intro j hj
    rw [k.buf]; rw [k.bufLen] at hj
    exact h.outside j hj

/-! ### AUDF -/

theorem tuned_audf (r : Chip) (i : Nat) (v : Int) : Tuned r (r.set i { r.ch i with audf := v }) := by
  refine ⟨rfl, rfl, fun j => ?_⟩
  by_cases e : j = i
  · subst e; rw [set_same]; exact ⟨rfl, rfl, rfl, rfl⟩
  · rw [set_other _ _ e]; exact ⟨rfl, rfl, rfl, rfl⟩

theorem audf_set (r : Chip) (i : Nat) (v : Int) :
    (fun j => ((r.set i { r.ch i with audf := v }).ch j).audf) = upd (fun j => (r.ch j).audf) i v := by
  funext j
  unfold upd
  by_cases e : j = i
  · subst e; rw [set_same, if_pos rfl]
  · rw [set_other _ _ e, if_neg e]

theorem bytes_upd {a : Int} {f : Nat → Int} (h : Bytes a f) (i : Nat) {v : Int} (hv : 0 ≤ v ∧ v < 256) : Bytes a (upd f i v) := by
  refine ⟨h.1, fun j hj => ?_⟩
  unfold upd
  split
  · exact hv
  · exact h.2 j hj

theorem Sync.audf (h : Sync factor sinc T S t p s) (i : Nat) {v : Int} (hv : 0 ≤ v ∧ v < 256) (tune : Pokey → Int → Pokey)
    (hk : Keep (p.setAudf i v) (tune (p.setAudf i v) v))
    (hr : Regs s.chip.audctl (upd (fun j => (s.chip.ch j).audf) i v) (tune (p.setAudf i v) v))
    (h4 : bit s.chip.audctl 4 → (tune (p.setAudf i v) v).reload1 = (s.chip.set i { s.chip.ch i with audf := v }).reload 0 6)
    (h5 : bit s.chip.audctl 3 → (tune (p.setAudf i v) v).reload3 = (s.chip.set i { s.chip.ch i with audf := v }).reload 2 5) :
    Sync factor sinc T S t (tune (p.setAudf i v) v) (s.become factor sinc t (s.chip.set i { s.chip.ch i with audf := v })) := by
  refine h.retune ((keep_setAudf p i v).trans hk) (tuned_audf _ _ _) ?_ ?_ h4 h5
  · rw [audf_set]; exact hr
  · rw [audf_set]; exact bytes_upd h.bytes i hv

theorem reload_other (r : Chip) {i j : Nat} (x : Tone) (k : Nat) (h : j ≠ i) : (r.set i x).reload j k = r.reload j k := by
  unfold Chip.reload; rw [set_other _ _ h]; rfl

theorem reload_audf (r : Chip) (i : Nat) (v : Int) (k : Nat) : (r.set i { r.ch i with audf := v }).reload i k =
    if bit r.audctl k then v + 4 else divider r.audctl * (v + 1) := by
  unfold Chip.reload; rw [set_same]; rfl

theorem Sync.audf1 (h : Sync factor sinc T S t p s) {v : Int} (hv : 0 ≤ v ∧ v < 256) :
    Sync factor sinc T S t (tune1 (p.setAudf 0 v) v) (s.become factor sinc t (s.chip.set 0 { s.chip.ch 0 with audf := v })) := by
  refine h.audf 0 hv tune1 (keep_tunes _ v).1 (tune1_regs h.regs h.bytes hv) ?_ ?_
  · intro hj
    obtain ⟨_, t1, t3⟩ := audctl_bits h.bytes.1
    rw [reload_audf]
    unfold tune1
    rw [setAudf_audctl, h.regs.audctl, t1]
    by_cases hf : bit s.chip.audctl 6 <;>
      simp only [hf, hj, if_true, if_false, reduceIte, Int.reduceAdd, Int.reduceEq, setReload1_reload1, setAudf_div, h.regs.div]
  · intro hj
    rw [reload_other _ _ _ (by omega), ← h.reload3 hj]
    unfold tune1
    repeat' split
    all_goals rfl

theorem Sync.audf2 (h : Sync factor sinc T S t p s) {v : Int} (hv : 0 ≤ v ∧ v < 256) :
    Sync factor sinc T S t (tune2 (p.setAudf 1 v) v) (s.become factor sinc t (s.chip.set 1 { s.chip.ch 1 with audf := v })) := by
  refine h.audf 1 hv tune2 (keep_tunes _ v).2.1 (tune2_regs h.regs h.bytes hv) ?_ ?_
  · intro hj
    rw [reload_other _ _ _ (by omega), ← h.reload1 hj]
    unfold tune2
    repeat' split
    all_goals rfl
  · intro hj
    rw [reload_other _ _ _ (by omega), ← h.reload3 hj]
    unfold tune2
    repeat' split
    all_goals rfl

theorem Sync.audf3 (h : Sync factor sinc T S t p s) {v : Int} (hv : 0 ≤ v ∧ v < 256) :
    Sync factor sinc T S t (tune3 (p.setAudf 2 v) v) (s.become factor sinc t (s.chip.set 2 { s.chip.ch 2 with audf := v })) := by
  refine h.audf 2 hv tune3 (keep_tunes _ v).2.2.1 (tune3_regs h.regs h.bytes hv) ?_ ?_
  · intro hj
    rw [reload_other _ _ _ (by omega), ← h.reload1 hj]
    unfold tune3
    repeat' split
    all_goals rfl
  · intro hj
    obtain ⟨_, t1, t3⟩ := audctl_bits h.bytes.1
    rw [reload_audf]
    unfold tune3
    rw [setAudf_audctl, h.regs.audctl, t3]
    by_cases hf : bit s.chip.audctl 5 <;>
      simp only [hf, hj, if_true, if_false, reduceIte, Int.reduceAdd, Int.reduceEq, setReload3_reload3, setAudf_div, h.regs.div]

theorem Sync.audf4 (h : Sync factor sinc T S t p s) {v : Int} (hv : 0 ≤ v ∧ v < 256) :
    Sync factor sinc T S t (tune4 (p.setAudf 3 v) v) (s.become factor sinc t (s.chip.set 3 { s.chip.ch 3 with audf := v })) := by
  refine h.audf 3 hv tune4 (keep_tunes _ v).2.2.2 (tune4_regs h.regs h.bytes hv) ?_ ?_
  · intro hj
    rw [reload_other _ _ _ (by omega), ← h.reload1 hj]
    unfold tune4
    repeat' split
    all_goals rfl
  · intro hj
    rw [reload_other _ _ _ (by omega), ← h.reload3 hj]
    unfold tune4
    repeat' split
    all_goals rfl

/-! ### AUDCTL and SKCTL -/

theorem muteCh_id {i : Nat} {mask c : Int} (h : (p.ch i).mute = 0) (ht : (p.ch i).tick ≠ never) : p.muteCh i false mask c = p := by
  have e : setMute (p.ch i) false mask c = p.ch i := by
    unfold setMute
    rw [if_neg (by decide)]
    dsimp only
    rw [h, if_neg (fun x => ht x.2)]
    have : band 0 (bnot mask) = 0 := by
      have := band_range_left (a := 0) (bnot mask) (by omega); omega
    rw [this, ← h]
  unfold muteCh
  rw [e, setCh_eta]

theorem initMute_id {c : Int} (h0 : p.init = false) (h : ∀ i, i < 4 → (p.ch i).mute = 0 ∧ (p.ch i).tick ≠ never) : p.initMute c = p := by
  have a := h 0 (by omega); have b := h 1 (by omega); have d := h 2 (by omega); have e := h 3 (by omega)
  unfold initMute
  rw [h0]
  simp only [Bool.false_and]
  rw [muteCh_id a.1 a.2, muteCh_id b.1 b.2, muteCh_id d.1 d.2, muteCh_id e.1 e.2]

theorem Sync.unmuted (h : Sync factor sinc T S t p s) (ht : t - T < 900000) :
    ∀ i, i < 4 → (p.ch i).mute = 0 ∧ (p.ch i).tick ≠ never := by
  intro i hi
  have k := h.ch i hi
  refine ⟨k.mute, ?_⟩
  have := k.left
  rw [k.tick]
  unfold never
  omega

theorem Sync.audctl (h : Sync factor sinc T S t p s) {v c : Int} (hv : 0 ≤ v ∧ v < 256)
    (ht : t - T < 900000) :
    Sync factor sinc T S t (initMute (audctlPair3 (audctlPair1 (p.setAudctl v))) c)
      (s.become factor sinc t { s.chip with audctl := v }) := by
  have hk := keep_pairs p v
  have hm : initMute (audctlPair3 (audctlPair1 (p.setAudctl v))) c = audctlPair3 (audctlPair1 (p.setAudctl v)) := by
    refine initMute_id (hk.init.trans h.running) fun i hi => ?_
    have := h.unmuted ht i hi
    obtain ⟨c1, c2, c3, c4, c5⟩ := hk.ch i
    rw [c5, c2]; exact this
  rw [hm]
  obtain ⟨t0, t1, t3⟩ := audctl_bits hv
  have dv : (p.setAudctl v).div = divider v := by
    show (if band v 1 ≠ 0 then (114 : Int) else 28) = _
    unfold divider
    simp only [t0]
  have f0 := h.regs.audf 0 (by omega)
  have f2 := h.regs.audf 2 (by omega)
  refine h.retune hk ⟨rfl, rfl, fun _ => ⟨rfl, rfl, rfl, rfl⟩⟩ (audctl_regs h.regs h.bytes hv) ⟨hv, h.bytes.2⟩ ?_ ?_
  · intro hj
    have hj : bit v 4 := hj
    have e : ∀ q, (audctlPair3 q).reload1 = q.reload1 := by
      intro q; unfold audctlPair3
      repeat' split
      all_goals rfl
    rw [e]
    show _ = if bit v 6 then (s.chip.ch 0).audf + 4 else divider v * ((s.chip.ch 0).audf + 1)
    unfold audctlPair1
    rw [setAudctl_audctl, t1]
    by_cases hf : bit v 6 <;>
      simp only [hf, hj, if_true, if_false, reduceIte, Int.reduceAdd, Int.reduceEq, setReload1_reload1, dv, setAudctl_ch, f0]
  · intro hj
    have hj : bit v 3 := hj
    have h1 : (audctlPair1 (p.setAudctl v)).audctl = v ∧ (audctlPair1 (p.setAudctl v)).div = divider v ∧
        ((audctlPair1 (p.setAudctl v)).ch 2).audf = (s.chip.ch 2).audf := by
      unfold audctlPair1
      repeat' split
      all_goals exact ⟨rfl, dv, by simpa using f2⟩
    show _ = if bit v 5 then (s.chip.ch 2).audf + 4 else divider v * ((s.chip.ch 2).audf + 1)
    unfold audctlPair3
    rw [h1.1, t3]
    by_cases hf : bit v 5 <;>
      simp only [hf, hj, if_true, if_false, reduceIte, Int.reduceAdd, Int.reduceEq, setReload3_reload3, h1.2.1, h1.2.2]

theorem Sync.skctl' (h : Sync factor sinc T S t p s) {v c : Int} (hv : 0 ≤ v ∧ v < 256) (h3 : v % 4 ≠ 0) (h4 : ¬ bit v 4)
    (ht : t - T < 900000) :
    Sync factor sinc T S t ((((p.setSkctl v c).initMute c).muteCh 2 (decide (band v 0x10 ≠ 0)) muteSerial c).muteCh 3
      (decide (band v 0x10 ≠ 0)) muteSerial c) (s.become factor sinc t { s.chip with skctl := v }) := by
  have hu := h.unmuted ht
  have b3 : ¬ band v 3 = 0 := by rw [band_3]; exact h3
  have hi : (p.setSkctl v c).init = false := decide_eq_false b3
  have hm : (p.setSkctl v c).initMute c = p.setSkctl v c := initMute_id hi hu
  have hd : decide (band v 0x10 ≠ 0) = false := decide_eq_false (mt (band_pow_iff v 4).1 h4)
  rw [hm, hd, muteCh_id (p := p.setSkctl v c) (hu 2 (by omega)).1 (hu 2 (by omega)).2,
    muteCh_id (p := p.setSkctl v c) (hu 3 (by omega)).1 (hu 3 (by omega)).2,
    become_same factor sinc t s { s.chip with skctl := v } rfl]
  have hp : (p.setSkctl v c).polyIndex = p.polyIndex := if_neg (fun x => by rw [h.running] at x; nomatch x.1)
  refine ⟨h.ch, ⟨h.regs.audctl, h.regs.audf, h.regs.div, h.regs.period, h.regs.reload1, h.regs.reload3⟩, h.bytes, h.reload1, h.reload3, rfl, hv, hi, ?_, h.sumIn, h.sumOut, h.buf, h.outside⟩
  rw [hp]; exact h.noise

/-! ### AUDC -/

theorem addDelta_setDelta (p : Pokey) (i : Nat) (v c d : Int) :
    (addDelta cfg p c d >>= fun q => .ok (q.setDelta i v)) = addDelta cfg (p.setDelta i v) c d := by
  unfold addDelta
  dsimp only
  have e1 : (p.setDelta i v).sumIn = p.sumIn := rfl
  have e2 : (p.setDelta i v).sumOut = p.sumOut := rfl
  rw [e1, e2]
  split
  · cases compressedSums[(p.sumIn + d).toNat]? with
    | none => rfl
    | some y =>
      unfold addExternalDelta
      dsimp only
      have e3 : (p.setDelta i v).bufLen = p.bufLen := rfl
      rw [e3]
      split
      · rfl
      · split
        · rfl
        · rfl
  · rfl

theorem setDelta_audc (p : Pokey) (i : Nat) (a v : Int) :
    (p.setCh i { p.ch i with audc := a }).setDelta i v = p.setCh i { p.ch i with audc := a, delta := v } := by
  unfold setDelta
  rw [setCh_same]
  unfold Pokey.setCh
  congr 1
  funext j
  unfold upd
  by_cases e : j = i
  · simp [e]
  · simp [e]

theorem Sync.audc (h : Sync factor sinc T S t p s) (o : Origin factor sinc T S cfg) (i : Nat) (hi : i < 4) {v : Int}
    (hv : 0 ≤ v ∧ v < 256) (hne : ¬ (s.chip.ch i).audc = v) :
    XPost (fun _ => True) (fun q => Sync factor sinc T S t q (s.become factor sinc t (s.chip.set i ((s.chip.ch i).putAudc v))))
      (storeVolume cfg (p.setCh i { p.ch i with audc := v }) i v (t - T)) := by
  have k := h.ch i hi
  have hx : (s.chip.ch i).putAudc v = { s.chip.ch i with audc := v, high := decide ((bit v 4 ∨ (s.chip.ch i).high = true) ∧ v % 16 ≠ 0) } :=
    if_neg hne
  rw [hx]
  have like : ∀ d, (d = if (bit v 4 ∨ (s.chip.ch i).high = true) ∧ v % 16 ≠ 0 then v % 16 else -(v % 16)) →
      Like (t - T) { p.ch i with audc := v, delta := d }
        { s.chip.ch i with audc := v, high := decide ((bit v 4 ∨ (s.chip.ch i).high = true) ∧ v % 16 ≠ 0) } := by
    intro d hd
    refine ⟨rfl, hv, k.tick, k.left, k.out, ?_, ?_, k.mute⟩
    · show d = if decide _ = true then v % 16 else -(v % 16)
      rw [hd]
      simp only [decide_eq_true_eq]
    · intro hh
      exact (of_decide_eq_true hh).2
  have amp : ({ s.chip.ch i with audc := v, high := decide ((bit v 4 ∨ (s.chip.ch i).high = true) ∧ v % 16 ≠ 0) } : Tone).amplitude =
      if bit v 4 ∨ (s.chip.ch i).high = true then v % 16 else 0 := by
    show (if decide _ = true then v % 16 else 0) = _
    simp only [decide_eq_true_eq]
    by_cases a : bit v 4 ∨ (s.chip.ch i).high = true
    · by_cases b : v % 16 = 0
      · rw [if_neg (fun x => x.2 b), if_pos a, b]
      · rw [if_pos ⟨a, b⟩, if_pos a]
    · rw [if_neg (fun x => a x.1), if_neg a]
  have hvol : 0 ≤ (s.chip.ch i).volume := by unfold Tone.volume; omega
  have hd : ((p.setCh i { p.ch i with audc := v }).ch i).delta > 0 ↔ (s.chip.ch i).high = true := by
    rw [setCh_same]
    show (p.ch i).delta > 0 ↔ _
    rw [k.delta]
    cases hh : (s.chip.ch i).high
    · simp; omega
    · have := k.loud hh
      simp; omega
  have hde : ((p.setCh i { p.ch i with audc := v }).ch i).delta = (p.ch i).delta := by rw [setCh_same]
  have hmu : band ((p.setCh i { p.ch i with audc := v }).ch i).mute muteUser = 0 := by
    rw [setCh_same]
    show band (p.ch i).mute muteUser = 0
    rw [k.mute]; rfl
  have ha0 : (s.chip.ch i).amplitude = if (s.chip.ch i).high = true then (p.ch i).delta else 0 := by
    unfold Tone.amplitude
    rw [k.delta]
    cases (s.chip.ch i).high <;> rfl
  have store : ∀ d, (d = (if bit v 4 ∨ (s.chip.ch i).high = true then v % 16 else 0) - (s.chip.ch i).amplitude) →
      (bit v 4 ∨ (s.chip.ch i).high = true) →
      XPost (fun _ => True) (fun q => Sync factor sinc T S t q (s.become factor sinc t (s.chip.set i
        { s.chip.ch i with audc := v, high := decide ((bit v 4 ∨ (s.chip.ch i).high = true) ∧ v % 16 ≠ 0) })))
        (addUnmuted cfg (p.setCh i { p.ch i with audc := v }) i (t - T) d >>= fun q => .ok (q.setDelta i (v % 16))) := by
    intro d hd hor
    unfold addUnmuted
    rw [if_pos hmu, addDelta_setDelta, setDelta_audc]
    refine (h.change o i hi (like _ ?_) rfl rfl rfl d (by rw [amp]; exact hd)).mono (fun _ x => x) fun q hq => hq.settle
    by_cases b : v % 16 = 0
    · rw [if_neg (fun x => x.2 b), b]; rfl
    · rw [if_pos ⟨hor, b⟩]
  unfold storeVolume
  rw [hde] at hd ⊢
  simp only [band_f]
  refine XPost.ite (fun c1 => ?_) fun c1 => ?_
  · have c1 : bit v 4 := (band_pow_iff v 4).1 c1
    refine store _ ?_ (Or.inl c1)
    rw [if_pos (Or.inl c1), ha0]
    by_cases hh : (s.chip.ch i).high = true
    · rw [if_pos (hd.2 hh), if_pos hh]
    · rw [if_neg (mt hd.1 hh), if_neg hh]; omega
  · have c1 : ¬ bit v 4 := mt (band_pow_iff v 4).2 c1
    refine XPost.ite (fun c2 => ?_) fun c2 => ?_
    · refine store _ ?_ (Or.inr (hd.1 c2))
      rw [if_pos (Or.inr (hd.1 c2)), ha0, if_pos (hd.1 c2)]
    · rw [setDelta_audc]
      have hh : ¬ (s.chip.ch i).high = true := mt hd.2 c2
      have hn : ¬ (bit v 4 ∨ (s.chip.ch i).high = true) := by
        rintro (x | x)
        · exact c1 x
        · exact hh x
      refine (h.setCh i hi (like (-(v % 16)) ?_) rfl rfl rfl ?_).settle
      · rw [if_neg (fun x => hn x.1)]
      · rw [amp, if_neg hn, ha0, if_neg hh]

end Asap.Sound
