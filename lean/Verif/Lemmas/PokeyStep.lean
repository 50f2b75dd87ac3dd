import Verif.Lemmas.PokeyRegs

/-! Register writes keep the periods prescribed by the registers. -/

namespace Asap.Pokey
open Asap.Spec

variable {cfg : Cfg}

theorem Stable.mono {E F : Hw → Prop} {I : Pokey → Prop} (h : Stable cfg E I) (he : ∀ e, E e → F e) : Stable cfg F I :=
  ⟨h.tick, h.out, fun p i c hi hp => (h.slope p i c hi hp).mono he fun _ x => x, he _ h.poly⟩

/-- Faults other than leaving the 64K memory and not terminating. -/
def Soft (e : Hw) : Prop := e ≠ .mem ∧ e ≠ .fuel

theorem regs_until {a : Int} {f : Nat → Int} {p : Pokey} (h : Regs a f p) (hb : Bytes a f) (limit : Int) :
    XPost Soft (Regs a f) (generateUntil cfg p limit) := by
  refine (((regs_stable a f).mono ?_).until (E := Soft) (h.pos hb) h limit).mono (fun _ x => x) fun q hq => hq.1
  intro e he
  by_cases hf : e = .fuel
  · exact Or.inr hf
  · exact Or.inl ⟨he, hf⟩

theorem audctl_table : ∀ n : Fin 256,
    (band (n.val : Int) 1 ≠ 0 ↔ bit n.val 0) ∧
    band (n.val : Int) 0x50 = (if bit n.val 6 then 0x40 else 0) + (if bit n.val 4 then 0x10 else 0) ∧
    band (n.val : Int) 0x28 = (if bit n.val 5 then 0x20 else 0) + (if bit n.val 3 then 0x08 else 0) := by
  decide +kernel

theorem audctl_bits {a : Int} (h : 0 ≤ a ∧ a < 256) :
    (band a 1 ≠ 0 ↔ bit a 0) ∧
    band a 0x50 = (if bit a 6 then 0x40 else 0) + (if bit a 4 then 0x10 else 0) ∧
    band a 0x28 = (if bit a 5 then 0x20 else 0) + (if bit a 3 then 0x08 else 0) := by
  obtain ⟨n, rfl⟩ := Int.eq_ofNat_of_zero_le h.1
  exact audctl_table ⟨n, by omega⟩

theorem shl8 (x : Int) : shl x 8 = 256 * x := by unfold shl; omega

theorem four_cases {P : Nat → Prop} (h0 : P 0) (h1 : P 1) (h2 : P 2) (h3 : P 3) : ∀ i, i < 4 → P i := by
  intro i hi
  have hcase : i = 0 ∨ i = 1 ∨ i = 2 ∨ i = 3 := by omega
  rcases hcase with rfl | rfl | rfl | rfl <;> assumption

theorem mul_pos' {d x : Int} (hd : 28 ≤ d ∧ d ≤ 114) (hx : 1 ≤ x) : 1 ≤ d * x := by
  have h := Int.mul_le_mul (show (1 : Int) ≤ d by omega) hx (by omega) (by omega)
  omega


/-! ### Projections of the small updates -/

section proj
variable (p : Pokey) (i j : Nat) (v w : Int) (b : Bool) (c : Channel)

theorem setCh_ch : (p.setCh i c).ch j = if j = i then c else p.ch j := rfl
@[simp] theorem setCh_audctl : (p.setCh i c).audctl = p.audctl := rfl
@[simp] theorem setCh_div : (p.setCh i c).div = p.div := rfl
@[simp] theorem setPeriod_audf : ((p.setPeriod i v).ch j).audf = (p.ch j).audf := by
  unfold setPeriod; rw [setCh_ch]; split
  · rename_i h; rw [h]
  · rfl
@[simp] theorem setPeriod_period : ((p.setPeriod i v).ch j).period = if j = i then v else (p.ch j).period := by
  unfold setPeriod; rw [setCh_ch]; split <;> rfl
@[simp] theorem setPeriod_audctl : (p.setPeriod i v).audctl = p.audctl := rfl
@[simp] theorem setPeriod_div : (p.setPeriod i v).div = p.div := rfl
@[simp] theorem setPeriod_reload1 : (p.setPeriod i v).reload1 = p.reload1 := rfl
@[simp] theorem setPeriod_reload3 : (p.setPeriod i v).reload3 = p.reload3 := rfl
@[simp] theorem setAudf_audf : ((p.setAudf i v).ch j).audf = if j = i then v else (p.ch j).audf := by
  unfold setAudf; rw [setCh_ch]; split <;> rfl
@[simp] theorem setAudf_period : ((p.setAudf i v).ch j).period = (p.ch j).period := by
  unfold setAudf; rw [setCh_ch]; split
  · rename_i h; rw [h]
  · rfl
@[simp] theorem setAudf_audctl : (p.setAudf i v).audctl = p.audctl := rfl
@[simp] theorem setAudf_div : (p.setAudf i v).div = p.div := rfl
@[simp] theorem setAudf_reload1 : (p.setAudf i v).reload1 = p.reload1 := rfl
@[simp] theorem setAudf_reload3 : (p.setAudf i v).reload3 = p.reload3 := rfl
@[simp] theorem setReload1_ch : (p.setReload1 v).ch = p.ch := rfl
@[simp] theorem setReload1_audctl : (p.setReload1 v).audctl = p.audctl := rfl
@[simp] theorem setReload1_div : (p.setReload1 v).div = p.div := rfl
@[simp] theorem setReload1_reload1 : (p.setReload1 v).reload1 = v := rfl
@[simp] theorem setReload1_reload3 : (p.setReload1 v).reload3 = p.reload3 := rfl
@[simp] theorem setReload3_ch : (p.setReload3 v).ch = p.ch := rfl
@[simp] theorem setReload3_audctl : (p.setReload3 v).audctl = p.audctl := rfl
@[simp] theorem setReload3_div : (p.setReload3 v).div = p.div := rfl
@[simp] theorem setReload3_reload1 : (p.setReload3 v).reload1 = p.reload1 := rfl
@[simp] theorem setReload3_reload3 : (p.setReload3 v).reload3 = v := rfl
@[simp] theorem setAudctl_ch : (p.setAudctl v).ch = p.ch := rfl
@[simp] theorem setAudctl_audctl : (p.setAudctl v).audctl = v := rfl
@[simp] theorem setAudctl_reload1 : (p.setAudctl v).reload1 = p.reload1 := rfl
@[simp] theorem setAudctl_reload3 : (p.setAudctl v).reload3 = p.reload3 := rfl
end proj

theorem shl8' (x : Int) : shl x 8 = x * 256 := rfl

/-- A chip whose registers and periods are as they should be. -/
theorem Regs.mk' {a : Int} {f : Nat → Int} {p : Pokey} (h1 : p.audctl = a) (h2 : p.div = divider a)
    (f0 : (p.ch 0).audf = f 0) (f1 : (p.ch 1).audf = f 1) (f2 : (p.ch 2).audf = f 2) (f3 : (p.ch 3).audf = f 3)
    (p0 : (p.ch 0).period = periodLow (divider a) (bit a 6) (bit a 4) (f 0))
    (p1 : (p.ch 1).period = periodHigh (divider a) (bit a 6) (bit a 4) (f 0) (f 1))
    (p2 : (p.ch 2).period = periodLow (divider a) (bit a 5) (bit a 3) (f 2))
    (p3 : (p.ch 3).period = periodHigh (divider a) (bit a 5) (bit a 3) (f 2) (f 3))
    (r1 : 1 ≤ p.reload1) (r3 : 1 ≤ p.reload3) : Regs a f p :=
  ⟨h1, four_cases f0 f1 f2 f3, h2, four_cases p0 p1 p2 p3, r1, r3⟩

section Audf
variable {a data c : Int} {f : Nat → Int} {p : Pokey}

theorem upd_self (f : Nat → Int) (i : Nat) (v : Int) : upd f i v i = v := if_pos rfl
theorem upd_ne (f : Nat → Int) {i j : Nat} (v : Int) (h : j ≠ i) : upd f i v j = f j := if_neg h

theorem tune1_regs (q : Regs a f p) (hb : Bytes a f) (hd : 0 ≤ data ∧ data < 256) :
    Regs a (upd f 0 data) (tune1 (p.setAudf 0 data) data) := by
  obtain ⟨_, t1, t3⟩ := audctl_bits hb.1
  have m1 := mul_pos' (divider_pos a) (x := data + 1) (by omega)
  have p0 : _ = periodLow _ _ _ _ := q.period 0 (by omega)
  have p1 : _ = periodHigh _ _ _ _ _ := q.period 1 (by omega)
  have p2 : _ = periodLow _ _ _ _ := q.period 2 (by omega)
  have p3 : _ = periodHigh _ _ _ _ _ := q.period 3 (by omega)
  have f0 := q.audf 0 (by omega); have f1 := q.audf 1 (by omega)
  have f2 := q.audf 2 (by omega); have f3 := q.audf 3 (by omega)
  have r1 := q.reload1; have r3 := q.reload3
  unfold tune1
  rw [setAudf_audctl, q.audctl, t1]
  unfold periodLow at p0 p2
  unfold periodHigh at p1 p3
  by_cases hf : bit a 6 <;> by_cases hj : bit a 4 <;>
    simp only [hf, hj, if_true, if_false, reduceIte, Int.reduceAdd, Int.reduceEq, or_true, true_or, or_false, false_or, or_self]
      at p0 p1 p2 p3 ⊢ <;>
    apply Regs.mk' <;>
    simp [upd, q.audctl, q.div, f0, f1, f2, f3, p0, p1, p2, p3, shl8', periodLow, periodHigh, hf, hj] <;>
    first | omega | (congr 1; omega)

theorem tune2_regs (q : Regs a f p) (hb : Bytes a f) (hd : 0 ≤ data ∧ data < 256) :
    Regs a (upd f 1 data) (tune2 (p.setAudf 1 data) data) := by
  obtain ⟨_, t1, t3⟩ := audctl_bits hb.1
  have m1 := mul_pos' (divider_pos a) (x := data + 1) (by omega)
  have p0 : _ = periodLow _ _ _ _ := q.period 0 (by omega)
  have p1 : _ = periodHigh _ _ _ _ _ := q.period 1 (by omega)
  have p2 : _ = periodLow _ _ _ _ := q.period 2 (by omega)
  have p3 : _ = periodHigh _ _ _ _ _ := q.period 3 (by omega)
  have f0 := q.audf 0 (by omega); have f1 := q.audf 1 (by omega)
  have f2 := q.audf 2 (by omega); have f3 := q.audf 3 (by omega)
  have r1 := q.reload1; have r3 := q.reload3
  unfold tune2
  rw [setAudf_audctl, q.audctl, t1]
  unfold periodLow at p0 p2
  unfold periodHigh at p1 p3
  by_cases hf : bit a 6 <;> by_cases hj : bit a 4 <;>
    simp only [hf, hj, if_true, if_false, reduceIte, Int.reduceAdd, Int.reduceEq, or_true, true_or, or_false, false_or, or_self]
      at p0 p1 p2 p3 ⊢ <;>
    apply Regs.mk' <;>
    simp [upd, q.audctl, q.div, f0, f1, f2, f3, p0, p1, p2, p3, shl8', periodLow, periodHigh, hf, hj] <;>
    first | omega | (congr 1; omega)

theorem tune3_regs (q : Regs a f p) (hb : Bytes a f) (hd : 0 ≤ data ∧ data < 256) :
    Regs a (upd f 2 data) (tune3 (p.setAudf 2 data) data) := by
  obtain ⟨_, t1, t3⟩ := audctl_bits hb.1
  have m1 := mul_pos' (divider_pos a) (x := data + 1) (by omega)
  have p0 : _ = periodLow _ _ _ _ := q.period 0 (by omega)
  have p1 : _ = periodHigh _ _ _ _ _ := q.period 1 (by omega)
  have p2 : _ = periodLow _ _ _ _ := q.period 2 (by omega)
  have p3 : _ = periodHigh _ _ _ _ _ := q.period 3 (by omega)
  have f0 := q.audf 0 (by omega); have f1 := q.audf 1 (by omega)
  have f2 := q.audf 2 (by omega); have f3 := q.audf 3 (by omega)
  have r1 := q.reload1; have r3 := q.reload3
  unfold tune3
  rw [setAudf_audctl, q.audctl, t3]
  unfold periodLow at p0 p2
  unfold periodHigh at p1 p3
  by_cases hf : bit a 5 <;> by_cases hj : bit a 3 <;>
    simp only [hf, hj, if_true, if_false, reduceIte, Int.reduceAdd, Int.reduceEq, or_true, true_or, or_false, false_or, or_self]
      at p0 p1 p2 p3 ⊢ <;>
    apply Regs.mk' <;>
    simp [upd, q.audctl, q.div, f0, f1, f2, f3, p0, p1, p2, p3, shl8', periodLow, periodHigh, hf, hj] <;>
    first | omega | (congr 1; omega)

theorem tune4_regs (q : Regs a f p) (hb : Bytes a f) (hd : 0 ≤ data ∧ data < 256) :
    Regs a (upd f 3 data) (tune4 (p.setAudf 3 data) data) := by
  obtain ⟨_, t1, t3⟩ := audctl_bits hb.1
  have m1 := mul_pos' (divider_pos a) (x := data + 1) (by omega)
  have p0 : _ = periodLow _ _ _ _ := q.period 0 (by omega)
  have p1 : _ = periodHigh _ _ _ _ _ := q.period 1 (by omega)
  have p2 : _ = periodLow _ _ _ _ := q.period 2 (by omega)
  have p3 : _ = periodHigh _ _ _ _ _ := q.period 3 (by omega)
  have f0 := q.audf 0 (by omega); have f1 := q.audf 1 (by omega)
  have f2 := q.audf 2 (by omega); have f3 := q.audf 3 (by omega)
  have r1 := q.reload1; have r3 := q.reload3
  unfold tune4
  rw [setAudf_audctl, q.audctl, t3]
  unfold periodLow at p0 p2
  unfold periodHigh at p1 p3
  by_cases hf : bit a 5 <;> by_cases hj : bit a 3 <;>
    simp only [hf, hj, if_true, if_false, reduceIte, Int.reduceAdd, Int.reduceEq, or_true, true_or, or_false, false_or, or_self]
      at p0 p1 p2 p3 ⊢ <;>
    apply Regs.mk' <;>
    simp [upd, q.audctl, q.div, f0, f1, f2, f3, p0, p1, p2, p3, shl8', periodLow, periodHigh, hf, hj] <;>
    first | omega | (congr 1; omega)

theorem audctl_regs (q : Regs a f p) (hb : Bytes a f) (hd : 0 ≤ data ∧ data < 256) :
    Regs data f (audctlPair3 (audctlPair1 (p.setAudctl data))) := by
  obtain ⟨t0, t1, t3⟩ := audctl_bits hd
  have b0 := hb.2 0 (by omega); have b2 := hb.2 2 (by omega)
  have dv : (p.setAudctl data).div = divider data := by
    show (if band data 1 ≠ 0 then (114 : Int) else 28) = _
    unfold divider
    simp only [t0]
  have m0 := mul_pos' (divider_pos data) (x := f 0 + 1) (by omega)
  have m2 := mul_pos' (divider_pos data) (x := f 2 + 1) (by omega)
  have f0 := q.audf 0 (by omega); have f1 := q.audf 1 (by omega)
  have f2 := q.audf 2 (by omega); have f3 := q.audf 3 (by omega)
  have r1 := q.reload1; have r3 := q.reload3
  -- the first pair
  have h1 : ∃ p1, audctlPair1 (p.setAudctl data) = p1 ∧ p1.audctl = data ∧ p1.div = divider data ∧
      (p1.ch 0).audf = f 0 ∧ (p1.ch 1).audf = f 1 ∧ (p1.ch 2).audf = f 2 ∧ (p1.ch 3).audf = f 3 ∧
      (p1.ch 0).period = periodLow (divider data) (bit data 6) (bit data 4) (f 0) ∧
      (p1.ch 1).period = periodHigh (divider data) (bit data 6) (bit data 4) (f 0) (f 1) ∧
      1 ≤ p1.reload1 ∧ 1 ≤ p1.reload3 := by
    refine ⟨_, rfl, ?_⟩
    unfold audctlPair1
    rw [setAudctl_audctl, t1]
    by_cases hf : bit data 6 <;> by_cases hj : bit data 4 <;>
      simp only [hf, hj, if_true, if_false, reduceIte, Int.reduceAdd, Int.reduceEq] <;>
      simp [dv, f0, f1, f2, f3, shl8', periodLow, periodHigh, hf, hj, r1, r3, m0] <;>
      first | omega | (constructor <;> first | omega | (congr 1; omega)) | (congr 1; omega)
  obtain ⟨p1, e, a1, d1, g0, g1, g2, g3, P0, P1, s1, s3⟩ := h1
  rw [e]
  unfold audctlPair3
  rw [a1, t3]
  by_cases hf : bit data 5 <;> by_cases hj : bit data 3 <;>
    simp only [hf, hj, if_true, if_false, reduceIte, Int.reduceAdd, Int.reduceEq] <;>
    apply Regs.mk' <;>
    simp [a1, d1, g0, g1, g2, g3, P0, P1, shl8', s1, s3, m2] <;>
    (try simp only [periodLow, periodHigh, hf, hj, reduceIte]) <;>
    first | omega | (congr 1; omega)

theorem muteCh_regs (q : Regs a f p) (i : Nat) (e : Bool) (m c : Int) : Regs a f (p.muteCh i e m c) := by
  unfold muteCh
  refine q.setCh i ?_ ?_ <;> · unfold setMute; split <;> rfl

theorem initMute_regs (q : Regs a f p) (c : Int) : Regs a f (p.initMute c) :=
  muteCh_regs (muteCh_regs (muteCh_regs (muteCh_regs q _ _ _ _) _ _ _ _) _ _ _ _) _ _ _ _

end Audf

/-- Changing something else about every channel. -/
theorem Regs.mapCh {a : Int} {f : Nat → Int} {p q : Pokey} (h : Regs a f p) (h1 : q.audctl = p.audctl) (h2 : q.div = p.div)
    (h3 : q.reload1 = p.reload1) (h4 : q.reload3 = p.reload3)
    (h5 : ∀ i, (q.ch i).audf = (p.ch i).audf ∧ (q.ch i).period = (p.ch i).period) : Regs a f q :=
  ⟨h1.trans h.audctl, fun i hi => (h5 i).1.trans (h.audf i hi), h2.trans h.div,
    fun i hi => (h5 i).2.trans (h.period i hi), h3 ▸ h.reload1, h4 ▸ h.reload3⟩

theorem nextTimer_ends {period cycle : Int} (hp : 1 ≤ period) : ∀ (fuel : Nat) (t : Int), (cycle - t).toNat ≤ fuel →
    XPost (fun _ => False) (fun r => cycle ≤ r ∧ t ≤ r) (nextTimer period cycle fuel t)
  | 0, t, h => by
    unfold nextTimer
    rw [if_neg (by omega)]
    exact ⟨by omega, by omega⟩
  | fuel + 1, t, h => by
    unfold nextTimer
    refine XPost.ite (fun _ => ?_) fun _ => ⟨by omega, by omega⟩
    exact (nextTimer_ends hp fuel (t + period) (by omega)).mono (fun _ x => x) fun r hr => ⟨hr.1, by omega⟩

theorem irqenOne_regs {a : Int} {f : Nat → Int} {p : Pokey} (h : Regs a f p) (hb : Bytes a f) (i : Nat) (hi : i < 4)
    (data cycle next : Int) : XPost Soft (fun r => Regs a f r.2) (irqenOne p i data cycle next) := by
  unfold irqenOne
  refine XPost.ite (fun _ => ?_) fun _ => h.setCh i rfl rfl
  refine XPost.ite (fun _ => ?_) fun _ => h
  refine XPost.bind ((nextTimer_ends ((h.pos hb).period i hi) _ _ (Nat.le_refl _)).mono (fun _ x => x.elim) fun _ x => x) ?_
  exact fun t _ => h.setCh i rfl rfl

theorem pokeIrqen_regs {a : Int} {f : Nat → Int} {p : Pokey} (h : Regs a f p) (hb : Bytes a f) (data cycle : Int) :
    XPost Soft (fun r => Regs a f r.2) (pokeIrqen p data cycle) := by
  unfold pokeIrqen
  have h' : Regs a f { p with irqst := bor p.irqst (bxor data 0xff) } :=
    h.mapCh rfl rfl rfl rfl fun _ => ⟨rfl, rfl⟩
  refine XPost.bind (irqenOne_regs h' hb 3 (by omega) data cycle never) fun r hr => ?_
  refine XPost.bind (irqenOne_regs hr hb 1 (by omega) data cycle r.1) fun r hr => ?_
  exact irqenOne_regs hr hb 0 (by omega) data cycle r.1

theorem addUnmuted_frame (p : Pokey) (i : Nat) (c d : Int) :
    XPost (fun e => e = .delta ∨ e = .dac) (fun q => ∃ b s o, q = { p with buf := b, sumIn := s, sumOut := o })
      (addUnmuted cfg p i c d) := by
  unfold addUnmuted
  refine XPost.ite (fun _ => ?_) fun _ => ⟨p.buf, p.sumIn, p.sumOut, rfl⟩
  refine (addDelta_frame p c d).mono (fun _ x => x) ?_
  rintro q ⟨b, o, rfl⟩
  exact ⟨b, _, o, rfl⟩

theorem setAudc_regs {a : Int} {f : Nat → Int} {p : Pokey} (h : Regs a f p) (hb : Bytes a f) (i : Nat) (data c : Int) :
    XPost Soft (Regs a f) (setAudc cfg p i data c) := by
  have soft : ∀ e, e = Hw.delta ∨ e = Hw.dac → Soft e := by
    rintro e (rfl | rfl) <;> exact ⟨by decide, by decide⟩
  unfold setAudc
  refine XPost.ite (fun _ => h) fun _ => ?_
  refine XPost.bind (regs_until h hb c) fun q hq => ?_
  have hq' : Regs a f (q.setCh i { q.ch i with audc := data }) := hq.setCh i rfl rfl
  show XPost Soft (Regs a f) (storeVolume cfg (q.setCh i { q.ch i with audc := data }) i data c)
  generalize q.setCh i { q.ch i with audc := data } = r at hq' ⊢
  unfold storeVolume
  refine XPost.ite (fun _ => ?_) fun _ => XPost.ite (fun _ => ?_) fun _ => hq'.setCh i rfl rfl
  · refine XPost.bind ((addUnmuted_frame r i c _).mono soft fun _ x => x) ?_
    rintro _ ⟨b, s, o, rfl⟩
    exact (hq'.output b s o).setCh i rfl rfl
  · refine XPost.bind ((addUnmuted_frame r i c _).mono soft fun _ x => x) ?_
    rintro _ ⟨b, s, o, rfl⟩
    exact (hq'.output b s o).setCh i rfl rfl

theorem XPost.noEvent {E : Hw → Prop} {P : Pokey → Prop} {x : X Pokey} (h : XPost E P x) :
    XPost E (fun r : Int × Pokey => P r.2) (noEvent x) := by
  unfold Pokey.noEvent
  exact XPost.bind h fun _ hp => hp

/-- AUDCTL after writing `data` to register `r`. -/
def newAudctl (r : Int) (a data : Int) : Int := if r = 8 then data else a

/-- AUDF1-4 after writing `data` to register `r`. -/
def newAudf (r : Int) (f : Nat → Int) (data : Int) : Nat → Int := fun i => if r = 2 * i then data else f i

theorem pokeAudf_regs {a : Int} {f : Nat → Int} {p : Pokey} (h : Regs a f p) (hb : Bytes a f) (i : Nat) (hi : i < 4)
    (tune : Pokey → Int → Pokey) (data c : Int)
    (ht : ∀ q, Regs a f q → Regs a (upd f i data) (tune (q.setAudf i data) data)) :
    XPost Soft (Regs a (upd f i data)) (pokeAudf cfg p i tune data c) := by
  unfold pokeAudf
  refine XPost.ite (fun e => ?_) fun _ => ?_
  · have : upd f i data = f := by
      funext j; unfold upd; split
      · rename_i hj; rw [hj, e]; exact h.audf i hi
      · rfl
    rw [this]; exact h
  · exact XPost.bind (regs_until h hb c) fun q hq => ht q hq

theorem Regs.congr {a a' : Int} {f f' : Nat → Int} {p : Pokey} (h : Regs a f p) (ha : a = a')
    (hf : ∀ i, i < 4 → f i = f' i) : Regs a' f' p := by
  subst ha
  exact ⟨h.audctl, fun i hi => (h.audf i hi).trans (hf i hi), h.div,
    fun i hi => by
      rw [h.period i hi, hf 0 (by omega), hf 1 (by omega), hf 2 (by omega), hf 3 (by omega)],
    h.reload1, h.reload3⟩

theorem poke_regs {a : Int} {f : Nat → Int} {p : Pokey} (h : Regs a f p) (hb : Bytes a f) (addr data c : Int)
    (hd : 0 ≤ data ∧ data < 256) :
    XPost Soft (fun r => Regs (newAudctl (addr % 16) a data) (newAudf (addr % 16) f data) r.2) (poke cfg p addr data c) := by
  have hr : band addr 0xf = addr % 16 := band_f addr
  have keep : ∀ n : Nat, (addr % 16).toNat = n → n ≠ 0 → n ≠ 2 → n ≠ 4 → n ≠ 6 → n ≠ 8 →
      ∀ q, Regs a f q → Regs (newAudctl (addr % 16) a data) (newAudf (addr % 16) f data) q := by
    intro n hn h0 h2 h4 h6 h8 q hq
    refine hq.congr ?_ ?_
    · unfold newAudctl; rw [if_neg (by omega)]
    · intro i hi; unfold newAudf; rw [if_neg (by omega)]
  have audf : ∀ i : Nat, i < 4 → (addr % 16).toNat = 2 * i →
      ∀ q, Regs a (upd f i data) q → Regs (newAudctl (addr % 16) a data) (newAudf (addr % 16) f data) q := by
    intro i hi hn q hq
    refine hq.congr ?_ ?_
    · unfold newAudctl; rw [if_neg (by omega)]
    · intro j hj
      unfold newAudf upd
      by_cases e : j = i
      · subst e; rw [if_pos rfl, if_pos (by omega)]
      · rw [if_neg e, if_neg (by omega)]
  unfold poke
  rw [hr]
  split
  · rename_i e
    exact XPost.noEvent ((pokeAudf_regs h hb 0 (by omega) _ data c fun q hq => tune1_regs hq hb hd).mono (fun _ x => x) (audf 0 (by omega) e))
  · rename_i e
    exact XPost.noEvent ((setAudc_regs h hb 0 data c).mono (fun _ x => x) (keep _ e (by decide) (by decide) (by decide) (by decide) (by decide)))
  · rename_i e
    exact XPost.noEvent ((pokeAudf_regs h hb 1 (by omega) _ data c fun q hq => tune2_regs hq hb hd).mono (fun _ x => x) (audf 1 (by omega) e))
  · rename_i e
    exact XPost.noEvent ((setAudc_regs h hb 1 data c).mono (fun _ x => x) (keep _ e (by decide) (by decide) (by decide) (by decide) (by decide)))
  · rename_i e
    exact XPost.noEvent ((pokeAudf_regs h hb 2 (by omega) _ data c fun q hq => tune3_regs hq hb hd).mono (fun _ x => x) (audf 2 (by omega) e))
  · rename_i e
    exact XPost.noEvent ((setAudc_regs h hb 2 data c).mono (fun _ x => x) (keep _ e (by decide) (by decide) (by decide) (by decide) (by decide)))
  · rename_i e
    exact XPost.noEvent ((pokeAudf_regs h hb 3 (by omega) _ data c fun q hq => tune4_regs hq hb hd).mono (fun _ x => x) (audf 3 (by omega) e))
  · rename_i e
    exact XPost.noEvent ((setAudc_regs h hb 3 data c).mono (fun _ x => x) (keep _ e (by decide) (by decide) (by decide) (by decide) (by decide)))
  · rename_i e
    refine XPost.noEvent (XPost.mono (E := Soft) (P := Regs data f) ?_ (fun _ x => x) fun q hq => hq.congr ?_ ?_)
    · unfold pokeAudctl
      refine XPost.ite (fun e => ?_) fun _ => ?_
      · rw [e, h.audctl]; exact h
      · exact XPost.bind (regs_until h hb c) fun q hq => initMute_regs (audctl_regs hq hb hd) c
    · unfold newAudctl; rw [if_pos (by omega)]
    · intro i hi; unfold newAudf; rw [if_neg (by omega)]
  · rename_i e
    exact keep _ e (by decide) (by decide) (by decide) (by decide) (by decide) _
      (h.mapCh rfl rfl rfl rfl fun _ => ⟨rfl, rfl⟩)
  · rename_i e
    exact (pokeIrqen_regs h hb data c).mono (fun _ x => x) fun r hq =>
      keep _ e (by decide) (by decide) (by decide) (by decide) (by decide) _ hq
  · rename_i e
    refine XPost.noEvent (XPost.mono (E := Soft) (P := Regs a f) ?_ (fun _ x => x)
      (keep _ e (by decide) (by decide) (by decide) (by decide) (by decide)))
    unfold pokeSkctl
    refine XPost.ite (fun _ => h) fun _ => XPost.bind (regs_until h hb c) fun q hq => ?_
    have hs : Regs a f (q.setSkctl data c) := hq.mapCh rfl rfl rfl rfl fun _ => ⟨rfl, rfl⟩
    exact muteCh_regs (muteCh_regs (initMute_regs hs c) _ _ _ _) _ _ _ _
  · rename_i n0 n1 n2 n3 n4 n5 n6 n7 n8 n9 ne nf
    exact keep _ rfl (fun e => n0 e) (fun e => n2 e) (fun e => n4 e) (fun e => n6 e) (fun e => n8 e) _ h

theorem checkIrqOne_regs {a : Int} {f : Nat → Int} {p : Pokey} (h : Regs a f p) (i : Nat) (c n : Int) :
    Regs a f (checkIrqOne p i c n).2 := by
  unfold checkIrqOne
  split
  · exact (h.setCh i (c := { p.ch i with timer := never }) rfl rfl).mapCh rfl rfl rfl rfl fun _ => ⟨rfl, rfl⟩
  · exact h

theorem checkIrq_regs {a : Int} {f : Nat → Int} {p : Pokey} (h : Regs a f p) (c n : Int) :
    Regs a f (checkIrq p c n).2 := by
  unfold checkIrq
  exact checkIrqOne_regs (checkIrqOne_regs (checkIrqOne_regs h 3 c n) 1 c _) 0 c _

/-- One event: the registers become what was written. -/
theorem step_regs {a : Int} {f : Nat → Int} {p : Pokey} (h : Regs a f p) (hb : Bytes a f) (e : ChipEvent) (he : e.Byte) :
    XPost Soft (Regs (lastWrite 8 a [e]) (fun i => lastWrite (2 * i) (f i) [e])) (step cfg p e) := by
  cases e with
  | write addr data c =>
    refine XPost.map ((poke_regs h hb addr data c he).mono (fun _ x => x) fun r hr => hr.congr ?_ ?_)
    · rfl
    · intro i _; rfl
  | start =>
    show XPost Soft (Regs a f) p.startFrame
    unfold startFrame
    refine XPost.ite (fun _ => ?_) fun _ => ⟨by decide, by decide⟩
    exact h.mapCh rfl rfl rfl rfl fun _ => ⟨rfl, rfl⟩
  | finish c =>
    show XPost Soft (Regs a f) (endFrame cfg p c)
    unfold endFrame
    exact XPost.bind (regs_until h hb c) fun q hq => hq.mapCh rfl rfl rfl rfl fun _ => ⟨rfl, rfl⟩
  | external c d =>
    show XPost Soft (Regs a f) (addExternalDelta cfg p c d)
    refine (addExternalDelta_frame p c d).mono ?_ ?_
    · rintro e rfl; exact ⟨by decide, by decide⟩
    · rintro q ⟨b, rfl⟩; exact h.output b _ _
  | irq c n => exact checkIrq_regs h c n
  | timers c =>
    show Regs a f (p.endTimers c)
    refine h.mapCh rfl rfl rfl rfl fun i => ?_
    unfold endTimers; dsimp only; split <;> exact ⟨rfl, rfl⟩
  | mute m =>
    show Regs a f (p.muteAll m)
    refine h.mapCh rfl rfl rfl rfl fun i => ?_
    unfold muteAll setMute; dsimp only; repeat' split
    all_goals exact ⟨rfl, rfl⟩
  | sample i fmt =>
    show XPost Soft (Regs a f) ((p.storeSample i fmt).map Prod.snd)
    unfold storeSample
    refine XPost.map (XPost.ite (fun _ => ?_) fun _ => ⟨by decide, by decide⟩)
    exact h.mapCh rfl rfl rfl rfl fun _ => ⟨rfl, rfl⟩

theorem lastWrite_byte {r v : Int} (hv : 0 ≤ v ∧ v < 256) (e : ChipEvent) (he : e.Byte) :
    0 ≤ lastWrite r v [e] ∧ lastWrite r v [e] < 256 := by
  cases e <;> try exact hv
  unfold lastWrite lastWrite
  split
  · exact he
  · exact hv

theorem lastWrite_cons (r v : Int) (e : ChipEvent) (es : List ChipEvent) :
    lastWrite r v (e :: es) = lastWrite r (lastWrite r v [e]) es := by
  cases e <;> rfl

/-- A history: the registers are the last bytes written. -/
theorem run_regs : ∀ (es : List ChipEvent) {a : Int} {f : Nat → Int} {p : Pokey}, Regs a f p → Bytes a f →
    (∀ e ∈ es, e.Byte) →
    XPost Soft (Regs (lastWrite 8 a es) (fun i => lastWrite (2 * i) (f i) es)) (run cfg p es)
  | [], _, _, _, h, _, _ => h
  | e :: es, a, f, p, h, hb, hs => by
    have he := hs e (by simp)
    refine XPost.bind (step_regs h hb e he) fun q hq => ?_
    refine (run_regs es hq ⟨lastWrite_byte hb.1 e he, fun i hi => lastWrite_byte (hb.2 i hi) e he⟩
      fun x hx => hs x (by simp [hx])).mono (fun _ x => x) fun r hr => hr.congr ?_ ?_
    · exact (lastWrite_cons _ _ _ _).symm
    · intro i _; exact (lastWrite_cons _ _ _ _).symm

theorem initChip_regs (p : Pokey) (rate : Int) : Regs 0 (fun _ => 0) (p.initChip rate) := by
  apply Regs.mk' <;> first | rfl | exact (by decide : (1 : Int) ≤ 28)

end Asap.Pokey
