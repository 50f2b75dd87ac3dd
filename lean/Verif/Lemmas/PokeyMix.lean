import Verif.Lemmas.PokeyStep

/-! The mixer input is the sum of the volumes of the channels whose output is high. -/

namespace Asap.Pokey
open Asap.Spec

variable {cfg : Cfg}

/-- The part of a channel that counts. -/
def hi (c : Channel) : Int := max c.delta 0

/-- Sum of the parts. -/
def total (p : Pokey) : Int := hi (p.ch 0) + hi (p.ch 1) + hi (p.ch 2) + hi (p.ch 3)

/-- The mixer invariant. -/
structure Mix (p : Pokey) : Prop where
  delta : ∀ i, i < 4 → (p.ch i).delta = (p.ch i).audc % 16 ∨ (p.ch i).delta = -((p.ch i).audc % 16)
  sum : p.sumIn = total p

theorem hi_range {p : Pokey} (h : ∀ i, i < 4 → (p.ch i).delta = (p.ch i).audc % 16 ∨ (p.ch i).delta = -((p.ch i).audc % 16))
    (i : Nat) (hi4 : i < 4) : 0 ≤ hi (p.ch i) ∧ hi (p.ch i) ≤ 15 := by
  have := h i hi4
  unfold hi; omega

theorem total_range {p : Pokey} (h : ∀ i, i < 4 → (p.ch i).delta = (p.ch i).audc % 16 ∨ (p.ch i).delta = -((p.ch i).audc % 16)) :
    0 ≤ total p ∧ total p ≤ 60 := by
  have h0 := hi_range h 0 (by omega); have h1 := hi_range h 1 (by omega)
  have h2 := hi_range h 2 (by omega); have h3 := hi_range h 3 (by omega)
  unfold total; omega

theorem total_setCh (p : Pokey) (i : Nat) (hi4 : i < 4) (c : Channel) :
    total (p.setCh i c) = total p - hi (p.ch i) + hi c := by
  have hcase : i = 0 ∨ i = 1 ∨ i = 2 ∨ i = 3 := by omega
  unfold total
  rcases hcase with rfl | rfl | rfl | rfl <;> simp only [setCh_ch] <;> simp <;> omega

theorem Mix.loudness {p : Pokey} (h : Mix p) : total p = Spec.loudness p := by
  have a : ∀ i, i < 4 → hi (p.ch i) = if high (p.ch i) then volume (p.ch i) else 0 := by
    intro i hi4
    have := h.delta i hi4
    unfold hi volume
    by_cases hh : high (p.ch i)
    · rw [if_pos hh]; unfold high at hh; omega
    · rw [if_neg hh]; unfold high at hh; omega
  unfold total Spec.loudness
  rw [a 0 (by omega), a 1 (by omega), a 2 (by omega), a 3 (by omega)]

theorem addDelta_ok (p : Pokey) (c d : Int) (h : 0 ≤ p.sumIn + d ∧ p.sumIn + d ≤ 60) :
    XPost (fun e => e = .delta) (fun q => ∃ b o, q = { p with buf := b, sumIn := p.sumIn + d, sumOut := o })
      (addDelta cfg p c d) := by
  unfold addDelta
  dsimp only
  rw [if_pos h.1]
  have hl : (p.sumIn + d).toNat < compressedSums.length := by
    have : compressedSums.length = 61 := rfl
    omega
  rw [List.getElem?_eq_getElem hl]
  refine XPost.bind (addExternalDelta_frame _ c _) ?_
  rintro q ⟨b, rfl⟩
  exact ⟨b, _, rfl⟩

/-- A change of a channel that keeps its volume and output. -/
theorem Mix.setCh {p : Pokey} (h : Mix p) (i : Nat) {c : Channel} (h1 : c.audc = (p.ch i).audc) (h2 : c.delta = (p.ch i).delta) :
    Mix (p.setCh i c) := by
  refine ⟨?_, ?_⟩
  · intro j hj
    rw [setCh_ch]
    split
    · rename_i e; subst e; rw [h1, h2]; exact h.delta j hj
    · exact h.delta j hj
  · by_cases hi4 : i < 4
    · rw [total_setCh p i hi4]
      have : hi c = hi (p.ch i) := by unfold hi; rw [h2]
      show p.sumIn = _
      rw [this, h.sum]; omega
    · show p.sumIn = _
      rw [h.sum]; unfold total
      rw [setCh_other _ _ (by omega), setCh_other _ _ (by omega), setCh_other _ _ (by omega), setCh_other _ _ (by omega)]

theorem Mix.congr {p q : Pokey} (h : Mix p) (hs : q.sumIn = p.sumIn)
    (hc : ∀ i, i < 4 → (q.ch i).audc = (p.ch i).audc ∧ (q.ch i).delta = (p.ch i).delta) : Mix q := by
  refine ⟨fun i hi4 => by rw [(hc i hi4).1, (hc i hi4).2]; exact h.delta i hi4, ?_⟩
  rw [hs, h.sum]
  unfold total hi
  rw [(hc 0 (by omega)).2, (hc 1 (by omega)).2, (hc 2 (by omega)).2, (hc 3 (by omega)).2]

/-- Replacing volume and output of one channel, with the mixer told. -/
theorem Mix.change {p : Pokey} (h : Mix p) (i : Nat) (hi4 : i < 4) {c : Channel} (b : Int → Int) (o : Int)
    (h1 : c.delta = c.audc % 16 ∨ c.delta = -(c.audc % 16)) :
    Mix { p.setCh i c with buf := b, sumIn := p.sumIn + (hi c - hi (p.ch i)), sumOut := o } := by
  refine ⟨?_, ?_⟩
  · intro j hj
    show ((p.setCh i c).ch j).delta = _ ∨ _
    rw [setCh_ch]
    split
    · exact h1
    · exact h.delta j hj
  · show p.sumIn + _ = total (p.setCh i c)
    rw [total_setCh p i hi4, h.sum]; omega

theorem slope_mix {p : Pokey} (h : Mix p) (i : Nat) (hi4 : i < 4) (c : Int) :
    XPost (fun e => e = .delta) Mix (slope cfg p i c) := by
  have hd := h.delta i hi4
  have hch : Mix { p.setCh i { p.ch i with delta := -(p.ch i).delta } with
      buf := p.buf, sumIn := p.sumIn + (hi { p.ch i with delta := -(p.ch i).delta } - hi (p.ch i)), sumOut := p.sumOut } :=
    h.change i hi4 p.buf p.sumOut (by show -(p.ch i).delta = (p.ch i).audc % 16 ∨ -(p.ch i).delta = -((p.ch i).audc % 16); omega)
  have hval : hi { p.ch i with delta := -(p.ch i).delta } - hi (p.ch i) = -(p.ch i).delta := by
    unfold hi; dsimp only; omega
  have hr := total_range hch.delta
  rw [← hch.sum] at hr
  replace hr : 0 ≤ p.sumIn + -(p.ch i).delta ∧ p.sumIn + -(p.ch i).delta ≤ 60 := by rw [← hval]; exact hr
  unfold slope
  refine (addDelta_ok (p.setCh i { p.ch i with delta := -(p.ch i).delta }) c _ hr).mono (fun _ x => x) ?_
  rintro q ⟨b, o, rfl⟩
  have := h.change i hi4 (c := { p.ch i with delta := -(p.ch i).delta }) b o
    (by show -(p.ch i).delta = (p.ch i).audc % 16 ∨ -(p.ch i).delta = -((p.ch i).audc % 16); omega)
  rw [hval] at this
  exact this

/-- Faults that remain: the sample buffer and the polynomial counter (see C27). -/
def Late (e : Hw) : Prop := e = .delta ∨ e = .poly

theorem mix_stable : Stable cfg Late Mix where
  tick p i t h := h.setCh i rfl rfl
  out p i o h := h.setCh i rfl rfl
  slope p i c hi4 h := (slope_mix h i hi4 c).mono (fun _ x => Or.inl x) fun _ x => x
  poly := Or.inr rfl

/-! ### User muting -/

/-- The user mutes exactly the channels in `m`. -/
def User (m : Int) (p : Pokey) : Prop :=
  ∀ i, i < 4 → (0 ≤ (p.ch i).mute ∧ (p.ch i).mute < 8) ∧ (band (p.ch i).mute muteUser ≠ 0 ↔ bit m i)

theorem mute_table : ∀ n : Fin 8,
    (∀ k ∈ [muteInit, muteSerial],
      band (bor (n.val : Int) k) 2 = band (n.val : Int) 2 ∧ band (band (n.val : Int) (bnot k)) 2 = band (n.val : Int) 2) ∧
    band (bor (n.val : Int) 2) 2 ≠ 0 ∧ band (band (n.val : Int) (bnot 2)) 2 = 0 ∧
    (∀ k ∈ [muteInit, muteUser, muteSerial],
      (0 ≤ bor (n.val : Int) k ∧ bor (n.val : Int) k < 8) ∧
      (0 ≤ band (n.val : Int) (bnot k) ∧ band (n.val : Int) (bnot k) < 8)) := by
  decide +kernel

theorem setMute_other {c : Channel} (h : 0 ≤ c.mute ∧ c.mute < 8) (e : Bool) {m : Int} (hm : m = muteInit ∨ m = muteSerial)
    (t : Int) : (0 ≤ (setMute c e m t).mute ∧ (setMute c e m t).mute < 8) ∧
      band (setMute c e m t).mute muteUser = band c.mute muteUser := by
  obtain ⟨n, hn⟩ := Int.eq_ofNat_of_zero_le h.1
  have tb := mute_table ⟨n, by omega⟩
  have hk1 : m ∈ [muteInit, muteSerial] := by rcases hm with rfl | rfl <;> simp
  have hk2 : m ∈ [muteInit, muteUser, muteSerial] := by rcases hm with rfl | rfl <;> simp
  have t1 := tb.1 m hk1
  have t2 := tb.2.2.2 m hk2
  unfold setMute
  cases e
  · show (0 ≤ band c.mute (bnot m) ∧ band c.mute (bnot m) < 8) ∧ band (band c.mute (bnot m)) 2 = _
    rw [hn]; exact ⟨t2.2, t1.2⟩
  · show (0 ≤ bor c.mute m ∧ bor c.mute m < 8) ∧ band (bor c.mute m) 2 = _
    rw [hn]; exact ⟨t2.1, t1.1⟩

theorem setMute_user {c : Channel} (h : 0 ≤ c.mute ∧ c.mute < 8) (e : Bool) (t : Int) :
    (0 ≤ (setMute c e muteUser t).mute ∧ (setMute c e muteUser t).mute < 8) ∧
      (band (setMute c e muteUser t).mute muteUser ≠ 0 ↔ e = true) := by
  obtain ⟨n, hn⟩ := Int.eq_ofNat_of_zero_le h.1
  have tb := mute_table ⟨n, by omega⟩
  have t2 := tb.2.2.2 muteUser (by simp)
  unfold setMute
  cases e
  · show (0 ≤ band c.mute (bnot muteUser) ∧ band c.mute (bnot muteUser) < 8) ∧ (band (band c.mute (bnot 2)) 2 ≠ 0 ↔ _)
    rw [hn]; exact ⟨t2.2, by simp [tb.2.2.1]⟩
  · show (0 ≤ bor c.mute muteUser ∧ bor c.mute muteUser < 8) ∧ (band (bor c.mute 2) 2 ≠ 0 ↔ _)
    rw [hn]; exact ⟨t2.1, by simp [tb.2.1]⟩

theorem band_pow_iff (a : Int) (k : Nat) : band a (shl 1 k) ≠ 0 ↔ bit a k := by
  have e : shl 1 k = ((2 ^ k : Nat) : Int) := by unfold shl; push_cast; omega
  have hpos : (0 : Nat) < 2 ^ k := Nat.pow_pos (by omega)
  have key : ∀ n : Nat, n &&& 2 ^ k = if n / 2 ^ k % 2 = 1 then 2 ^ k else 0 := by
    intro n
    apply Nat.eq_of_testBit_eq
    intro j
    rw [Nat.testBit_and, Nat.testBit_two_pow]
    by_cases hj : k = j
    · subst hj
      rw [Nat.testBit_eq_decide_div_mod_eq]
      split <;> rename_i hb <;> simp [hb, Nat.testBit_two_pow]
    · split <;> simp [hj, Nat.testBit_two_pow]
  rw [e]
  unfold bit
  rw [show (2 : Int) ^ k = ((2 ^ k : Nat) : Int) by push_cast; rfl]
  revert hpos key
  generalize 2 ^ k = P
  intro hpos key
  cases a with
  | ofNat n =>
    show ((n &&& P : Nat) : Int) ≠ 0 ↔ (n : Int) / P % 2 = 1
    rw [key n]
    split <;> omega
  | negSucc n =>
    show ((P - (n &&& P) : Nat) : Int) ≠ 0 ↔ Int.negSucc n / P % 2 = 1
    have hd : Int.negSucc n / P = -((n / P : Nat) : Int) - 1 := by
      rw [Int.negSucc_ediv _ (by omega)]
      show -((n : Int) / P + 1) = -((n / P : Nat) : Int) - 1
      omega
    rw [hd, key n]
    split <;> omega

theorem muteAll_user {m : Int} {p : Pokey} (h : User m p) (k : Int) : User k (p.muteAll k) := by
  intro i hi4
  have := setMute_user (h i hi4).1 (decide (band k (shl 1 i) ≠ 0)) 0
  unfold muteAll
  dsimp only
  rw [if_pos hi4]
  refine ⟨this.1, this.2.trans ?_⟩
  rw [decide_eq_true_iff]
  exact band_pow_iff k i

theorem User.congr {m : Int} {p q : Pokey} (h : User m p) (hc : ∀ i, i < 4 → (q.ch i).mute = (p.ch i).mute) : User m q := by
  intro i hi4
  rw [hc i hi4]
  exact h i hi4

theorem muteCh_user {m : Int} {p : Pokey} (h : User m p) (i : Nat) (e : Bool) {k : Int} (hk : k = muteInit ∨ k = muteSerial)
    (c : Int) : User m (p.muteCh i e k c) := by
  intro j hj
  unfold muteCh
  rw [setCh_ch]
  split
  · rename_i e'; subst e'
    have := setMute_other (h j hj).1 e hk c
    refine ⟨this.1, ?_⟩
    rw [this.2]; exact (h j hj).2
  · exact h j hj

/-! ### One event -/

theorem Stable.and {E F : Hw → Prop} {I J : Pokey → Prop} (h : Stable cfg E I) (k : Stable cfg F J) :
    Stable cfg (fun e => E e ∧ F e) (fun p => I p ∧ J p) :=
  ⟨fun p i t hp => ⟨h.tick p i t hp.1, k.tick p i t hp.2⟩, fun p i o hp => ⟨h.out p i o hp.1, k.out p i o hp.2⟩,
    fun p i c hi4 hp => (h.slope p i c hi4 hp.1).and (k.slope p i c hi4 hp.2), ⟨h.poly, k.poly⟩⟩

theorem User.setCh {m : Int} {p : Pokey} (h : User m p) (i : Nat) {c : Channel} (hc : c.mute = (p.ch i).mute) :
    User m (p.setCh i c) := by
  refine h.congr fun j _ => ?_
  rw [setCh_ch]
  split
  · rename_i e; subst e; exact hc
  · rfl

theorem user_stable (m : Int) : Stable cfg (fun _ => True) (User m) where
  tick p i t h := h.setCh i rfl
  out p i o h := h.setCh i rfl
  slope p i c _ h := by
    refine (slope_frame p i c).mono (fun _ _ => trivial) ?_
    rintro q ⟨b, o, rfl⟩
    exact h.setCh i (c := { p.ch i with delta := -(p.ch i).delta }) rfl
  poly := trivial

/-- Mixer invariant and user muting together. -/
def Both (m : Int) (p : Pokey) : Prop := Mix p ∧ User m p

theorem both_until {m : Int} {p : Pokey} (hp : Pos p) (h : Both m p) (limit : Int) :
    XPost Late (Both m) (generateUntil cfg p limit) := by
  have st := (mix_stable (cfg := cfg)).and (user_stable (cfg := cfg) m)
  refine ((st.mono (F := fun e => Late e ∨ e = .fuel) fun e he => Or.inl he.1).until hp h limit).mono (fun _ x => x)
    fun q hq => hq.1

/-- Same mixer state and muting. -/
def Same (p q : Pokey) : Prop :=
  q.sumIn = p.sumIn ∧ ∀ i, (q.ch i).audc = (p.ch i).audc ∧ (q.ch i).delta = (p.ch i).delta ∧ (q.ch i).mute = (p.ch i).mute

theorem Same.refl (p : Pokey) : Same p p := ⟨rfl, fun _ => ⟨rfl, rfl, rfl⟩⟩

theorem Same.trans {p q r : Pokey} (h : Same p q) (k : Same q r) : Same p r :=
  ⟨k.1.trans h.1, fun i => ⟨(k.2 i).1.trans (h.2 i).1, (k.2 i).2.1.trans (h.2 i).2.1, (k.2 i).2.2.trans (h.2 i).2.2⟩⟩

theorem Same.both {m : Int} {p q : Pokey} (h : Same p q) (hp : Both m p) : Both m q :=
  ⟨hp.1.congr h.1 fun i _ => ⟨(h.2 i).1, (h.2 i).2.1⟩, hp.2.congr fun i _ => (h.2 i).2.2⟩

theorem Both.of {m : Int} {p q : Pokey} (hp : Both m p) (h1 : q.sumIn = p.sumIn)
    (h2 : ∀ i, (q.ch i).audc = (p.ch i).audc ∧ (q.ch i).delta = (p.ch i).delta ∧ (q.ch i).mute = (p.ch i).mute) : Both m q :=
  Same.both ⟨h1, h2⟩ hp

theorem same_setCh (p : Pokey) (i : Nat) {c : Channel} (h1 : c.audc = (p.ch i).audc) (h2 : c.delta = (p.ch i).delta)
    (h3 : c.mute = (p.ch i).mute) : Same p (p.setCh i c) := by
  refine ⟨rfl, fun j => ?_⟩
  rw [setCh_ch]
  split
  · rename_i e; subst e; exact ⟨h1, h2, h3⟩
  · exact ⟨rfl, rfl, rfl⟩

theorem same_setPeriod (p : Pokey) (i : Nat) (v : Int) : Same p (p.setPeriod i v) := same_setCh p i rfl rfl rfl
theorem same_setAudf (p : Pokey) (i : Nat) (v : Int) : Same p (p.setAudf i v) := same_setCh p i rfl rfl rfl
theorem same_setReload1 (p : Pokey) (v : Int) : Same p (p.setReload1 v) := ⟨rfl, fun _ => ⟨rfl, rfl, rfl⟩⟩
theorem same_setReload3 (p : Pokey) (v : Int) : Same p (p.setReload3 v) := ⟨rfl, fun _ => ⟨rfl, rfl, rfl⟩⟩

theorem same_tune1 (p : Pokey) (v : Int) : Same p (tune1 p v) := by
  unfold tune1
  repeat' split
  · exact same_setPeriod _ _ _
  · exact (same_setPeriod _ _ _).trans (same_setReload1 _ _)
  · exact same_setPeriod _ _ _
  · exact (same_setPeriod _ _ _).trans (same_setReload1 _ _)

theorem same_tune2 (p : Pokey) (v : Int) : Same p (tune2 p v) := by
  unfold tune2
  repeat' split
  all_goals exact same_setPeriod _ _ _

theorem same_tune3 (p : Pokey) (v : Int) : Same p (tune3 p v) := by
  unfold tune3
  repeat' split
  · exact same_setPeriod _ _ _
  · exact (same_setPeriod _ _ _).trans (same_setReload3 _ _)
  · exact same_setPeriod _ _ _
  · exact (same_setPeriod _ _ _).trans (same_setReload3 _ _)

theorem same_tune4 (p : Pokey) (v : Int) : Same p (tune4 p v) := by
  unfold tune4
  repeat' split
  all_goals exact same_setPeriod _ _ _

theorem same_pair1 (p : Pokey) : Same p (audctlPair1 p) := by
  unfold audctlPair1
  repeat' split
  · exact (same_setPeriod _ _ _).trans (same_setPeriod _ _ _)
  · exact ((same_setPeriod _ _ _).trans (same_setPeriod _ _ _)).trans (same_setReload1 _ _)
  · exact (same_setPeriod _ _ _).trans (same_setPeriod _ _ _)
  · exact ((same_setPeriod _ _ _).trans (same_setPeriod _ _ _)).trans (same_setReload1 _ _)

theorem same_pair3 (p : Pokey) : Same p (audctlPair3 p) := by
  unfold audctlPair3
  repeat' split
  · exact (same_setPeriod _ _ _).trans (same_setPeriod _ _ _)
  · exact ((same_setPeriod _ _ _).trans (same_setPeriod _ _ _)).trans (same_setReload3 _ _)
  · exact (same_setPeriod _ _ _).trans (same_setPeriod _ _ _)
  · exact ((same_setPeriod _ _ _).trans (same_setPeriod _ _ _)).trans (same_setReload3 _ _)

theorem same_audctl (p : Pokey) (v : Int) : Same p (audctlPair3 (audctlPair1 (p.setAudctl v))) :=
  ((show Same p (p.setAudctl v) from ⟨rfl, fun _ => ⟨rfl, rfl, rfl⟩⟩).trans (same_pair1 _)).trans (same_pair3 _)

theorem muteCh_both {m : Int} {p : Pokey} (h : Both m p) (i : Nat) (e : Bool) {k : Int} (hk : k = muteInit ∨ k = muteSerial)
    (c : Int) : Both m (p.muteCh i e k c) := by
  refine ⟨h.1.setCh i ?_ ?_, muteCh_user h.2 i e hk c⟩ <;> · unfold setMute; split <;> rfl

theorem initMute_both {m : Int} {p : Pokey} (h : Both m p) (c : Int) : Both m (p.initMute c) :=
  muteCh_both (muteCh_both (muteCh_both (muteCh_both h _ _ (Or.inl rfl) _) _ _ (Or.inl rfl) _) _ _ (Or.inl rfl) _) _ _
    (Or.inl rfl) _

theorem storeVolume_both {m : Int} {p : Pokey} (h : Both m p) (i : Nat) (hi4 : i < 4) (hm : ¬ bit m i) (data c : Int) :
    XPost Late (Both m) (storeVolume cfg (p.setCh i { p.ch i with audc := data }) i data c) := by
  have hu : band (p.ch i).mute muteUser = 0 := by
    have := (h.2 i hi4).2
    by_cases e : band (p.ch i).mute muteUser = 0
    · exact e
    · exact absurd (this.1 e) hm
  have hv : band data 0xf = data % 16 := band_f data
  have hu' : User m (p.setCh i { p.ch i with audc := data }) := h.2.setCh i rfl
  -- the mixer is told about the new volume
  have told : ∀ w : Int, (w = data % 16 ∨ w = -(data % 16)) → ∀ d, d = max w 0 - hi (p.ch i) →
      XPost Late (Both m) (addUnmuted cfg (p.setCh i { p.ch i with audc := data }) i c d >>= fun q => .ok (q.setDelta i w)) := by
    intro w hw d hd
    have hch := h.1.change i hi4 (c := { p.ch i with audc := data, delta := w }) p.buf p.sumOut hw
    have hr := total_range hch.delta
    rw [← hch.sum] at hr
    replace hr : 0 ≤ p.sumIn + d ∧ p.sumIn + d ≤ 60 := by rw [hd]; exact hr
    unfold addUnmuted
    rw [setCh_same, if_pos hu]
    refine XPost.bind ((addDelta_ok (p.setCh i { p.ch i with audc := data }) c d hr).mono (fun _ x => Or.inl x) fun _ x => x) ?_
    rintro q ⟨b, o, rfl⟩
    have hnew := h.1.change i hi4 (c := { p.ch i with audc := data, delta := w }) b o hw
    refine ⟨hnew.congr ?_ fun j _ => ?_, hu'.congr fun j _ => ?_⟩
    · show p.sumIn + d = p.sumIn + (max w 0 - hi (p.ch i)); rw [hd]
    · simp only [setDelta, Pokey.setCh, upd]
      by_cases e : j = i <;> simp [e]
    · simp only [setDelta, Pokey.setCh, upd]
      by_cases e : j = i <;> simp [e]
  unfold storeVolume
  rw [setCh_same, hv]
  dsimp only
  refine XPost.ite (fun _ => ?_) fun _ => XPost.ite (fun hd => ?_) fun hd => ?_
  · refine told (data % 16) (Or.inl rfl) _ ?_
    unfold hi
    split <;> omega
  · refine told (data % 16) (Or.inl rfl) _ ?_
    unfold hi
    omega
  · have hch := h.1.change i hi4 (c := { p.ch i with audc := data, delta := -(data % 16) }) p.buf p.sumOut (Or.inr rfl)
    refine ⟨hch.congr ?_ fun j _ => ?_, hu'.congr fun j _ => ?_⟩
    · show p.sumIn = p.sumIn + (max (-(data % 16)) 0 - hi (p.ch i))
      unfold hi; omega
    · simp only [setDelta, Pokey.setCh, upd]
      by_cases e : j = i <;> simp [e]
    · simp only [setDelta, Pokey.setCh, upd]
      by_cases e : j = i <;> simp [e]

theorem setAudc_both {m : Int} {p : Pokey} (hp : Pos p) (h : Both m p) (i : Nat) (hi4 : i < 4) (hm : ¬ bit m i) (data c : Int) :
    XPost Late (Both m) (setAudc cfg p i data c) := by
  unfold setAudc
  refine XPost.ite (fun _ => h) fun _ => ?_
  exact XPost.bind (both_until hp h c) fun q hq => storeVolume_both hq i hi4 hm data c

theorem pokeAudf_both {m : Int} {p : Pokey} (hp : Pos p) (h : Both m p) (i : Nat) {tune : Pokey → Int → Pokey}
    (ht : ∀ q v, Same q (tune q v)) (data c : Int) : XPost Late (Both m) (pokeAudf cfg p i tune data c) := by
  unfold pokeAudf
  refine XPost.ite (fun _ => h) fun _ => ?_
  exact XPost.bind (both_until hp h c) fun q hq => ((same_setAudf q i data).trans (ht _ _)).both hq

theorem irqenOne_same {p : Pokey} (hp : Pos p) (i : Nat) (hi4 : i < 4) (data cycle next : Int) :
    XPost (fun _ => False) (fun r => Same p r.2 ∧ Pos r.2 ∧ ∀ j, (r.2.ch j).tick = (p.ch j).tick)
      (irqenOne p i data cycle next) := by
  have one : ∀ t, Same p (p.setCh i { p.ch i with timer := t }) ∧ Pos (p.setCh i { p.ch i with timer := t }) ∧
      ∀ j, ((p.setCh i { p.ch i with timer := t }).ch j).tick = (p.ch j).tick := by
    intro t
    refine ⟨same_setCh p i rfl rfl rfl, hp.setCh i rfl, fun j => ?_⟩
    rw [setCh_ch]; split
    · rename_i e; subst e; rfl
    · rfl
  unfold irqenOne
  refine XPost.ite (fun _ => ?_) fun _ => one _
  refine XPost.ite (fun _ => ?_) fun _ => ⟨Same.refl p, hp, fun _ => rfl⟩
  exact XPost.bind (nextTimer_ends (hp.period i hi4) _ _ (Nat.le_refl _)) fun t _ => one t

theorem pokeIrqen_same {p : Pokey} (hp : Pos p) (data cycle : Int) :
    XPost (fun _ => False) (fun r => Same p r.2 ∧ ∀ j, (r.2.ch j).tick = (p.ch j).tick) (pokeIrqen p data cycle) := by
  unfold pokeIrqen
  have hp' : Pos { p with irqst := bor p.irqst (bxor data 0xff) } := ⟨hp.period, hp.reload1, hp.reload3⟩
  have s0 : Same p { p with irqst := bor p.irqst (bxor data 0xff) } := ⟨rfl, fun _ => ⟨rfl, rfl, rfl⟩⟩
  refine XPost.bind (irqenOne_same hp' 3 (by omega) data cycle never) fun r hr => ?_
  refine XPost.bind (irqenOne_same hr.2.1 1 (by omega) data cycle r.1) fun r1 hr1 => ?_
  refine (irqenOne_same hr1.2.1 0 (by omega) data cycle r1.1).mono (fun _ x => x) fun r2 hr2 => ?_
  exact ⟨((s0.trans hr.1).trans hr1.1).trans hr2.1, fun j => ((hr2.2.2 j).trans (hr1.2.2 j)).trans (hr.2.2 j)⟩

theorem poke_both {m : Int} {p : Pokey} (hp : Pos p) (h : Both m p) (addr data c : Int)
    (hm : ∀ i, i < 4 → isAudc addr i → ¬ bit m i) : XPost Late (fun r => Both m r.2) (poke cfg p addr data c) := by
  have hr : band addr 0xf = addr % 16 := band_f addr
  unfold poke
  rw [hr]
  split
  · exact XPost.noEvent (pokeAudf_both hp h 0 same_tune1 data c)
  · rename_i e
    exact XPost.noEvent (setAudc_both hp h 0 (by omega) (hm 0 (by omega) (by unfold isAudc; omega)) data c)
  · exact XPost.noEvent (pokeAudf_both hp h 1 same_tune2 data c)
  · rename_i e
    exact XPost.noEvent (setAudc_both hp h 1 (by omega) (hm 1 (by omega) (by unfold isAudc; omega)) data c)
  · exact XPost.noEvent (pokeAudf_both hp h 2 same_tune3 data c)
  · rename_i e
    exact XPost.noEvent (setAudc_both hp h 2 (by omega) (hm 2 (by omega) (by unfold isAudc; omega)) data c)
  · exact XPost.noEvent (pokeAudf_both hp h 3 same_tune4 data c)
  · rename_i e
    exact XPost.noEvent (setAudc_both hp h 3 (by omega) (hm 3 (by omega) (by unfold isAudc; omega)) data c)
  · refine XPost.noEvent ?_
    unfold pokeAudctl
    refine XPost.ite (fun _ => h) fun _ => ?_
    exact XPost.bind (both_until hp h c) fun q hq => initMute_both ((same_audctl q data).both hq) c
  · exact (show Same p (p.pokeStimer c) from ⟨rfl, fun _ => ⟨rfl, rfl, rfl⟩⟩).both h
  · exact (pokeIrqen_same hp data c).mono (fun _ x => x.elim) fun r hq => hq.1.both h
  · refine XPost.noEvent ?_
    unfold pokeSkctl
    refine XPost.ite (fun _ => h) fun _ => XPost.bind (both_until hp h c) fun q hq => ?_
    have hs : Both m (q.setSkctl data c) := hq.of rfl fun _ => ⟨rfl, rfl, rfl⟩
    exact muteCh_both (muteCh_both (initMute_both hs c) _ _ (Or.inr rfl) _) _ _ (Or.inr rfl) _
  · exact h

theorem checkIrqOne_same (p : Pokey) (i : Nat) (c n : Int) :
    Same p (checkIrqOne p i c n).2 ∧ ∀ j, ((checkIrqOne p i c n).2.ch j).tick = (p.ch j).tick := by
  unfold checkIrqOne
  split
  · refine ⟨⟨rfl, fun j => ?_⟩, fun j => ?_⟩ <;> dsimp only [upd] <;> by_cases e : j = i <;> simp [e]
  · exact ⟨Same.refl p, fun _ => rfl⟩

theorem checkIrq_same (p : Pokey) (c n : Int) :
    Same p (checkIrq p c n).2 ∧ ∀ j, ((checkIrq p c n).2.ch j).tick = (p.ch j).tick := by
  unfold checkIrq
  have h3 := checkIrqOne_same p 3 c n
  have h1 := checkIrqOne_same (checkIrqOne p 3 c n).2 1 c (checkIrqOne p 3 c n).1
  have h0 := checkIrqOne_same (checkIrqOne (checkIrqOne p 3 c n).2 1 c (checkIrqOne p 3 c n).1).2 0 c
    (checkIrqOne (checkIrqOne p 3 c n).2 1 c (checkIrqOne p 3 c n).1).1
  exact ⟨(h3.1.trans h1.1).trans h0.1, fun j => ((h0.2 j).trans (h1.2 j)).trans (h3.2 j)⟩

theorem same_endTimers (p : Pokey) (c : Int) :
    Same p (p.endTimers c) ∧ ∀ j, ((p.endTimers c).ch j).tick = (p.ch j).tick := by
  refine ⟨⟨rfl, fun i => ?_⟩, fun i => ?_⟩ <;> unfold endTimers <;> dsimp only <;> split <;> simp

/-- The user's mask after an event. -/
def newMask (m : Int) : ChipEvent → Int
  | .mute k => k
  | _ => m

theorem careful_cons {m : Int} {e : ChipEvent} {es : List ChipEvent} (h : Careful m (e :: es)) :
    Careful (newMask m e) es := by
  cases e <;> first | exact h | exact h.2

theorem step_both {m : Int} {p : Pokey} (hp : Pos p) (h : Both m p) (e : ChipEvent) {es : List ChipEvent}
    (hc : Careful m (e :: es)) : XPost Late (Both (newMask m e)) (step cfg p e) := by
  cases e with
  | write addr data c => exact XPost.map (poke_both hp h addr data c hc.1)
  | start =>
    show XPost Late (Both m) p.startFrame
    unfold startFrame
    refine XPost.ite (fun _ => ?_) fun _ => Or.inl rfl
    exact (show Same p p.shiftBuf from ⟨rfl, fun _ => ⟨rfl, rfl, rfl⟩⟩).both h
  | finish c =>
    show XPost Late (Both m) (endFrame cfg p c)
    unfold endFrame
    exact XPost.bind (both_until hp h c) fun q hq => hq.of rfl fun _ => ⟨rfl, rfl, rfl⟩
  | external c d =>
    refine (addExternalDelta_frame p c d).mono (fun _ x => Or.inl x) ?_
    rintro q ⟨b, rfl⟩
    exact h.of rfl fun _ => ⟨rfl, rfl, rfl⟩
  | irq c n => exact (checkIrq_same p c n).1.both h
  | timers c => exact (same_endTimers p c).1.both h
  | mute k =>
    refine ⟨h.1.congr rfl fun i _ => ?_, muteAll_user h.2 k⟩
    unfold muteAll setMute; dsimp only; repeat' split
    all_goals exact ⟨rfl, rfl⟩
  | sample i fmt =>
    show XPost Late (Both m) ((p.storeSample i fmt).map Prod.snd)
    unfold storeSample
    refine XPost.map (XPost.ite (fun _ => ?_) fun _ => Or.inl rfl)
    exact h.of rfl fun _ => ⟨rfl, rfl, rfl⟩

/-- A careful history keeps the mixer invariant. -/
theorem run_both : ∀ (es : List ChipEvent) {m a : Int} {f : Nat → Int} {p : Pokey}, Regs a f p → Bytes a f → Both m p →
    (∀ e ∈ es, e.Byte) → Careful m es → XPost Late Mix (run cfg p es)
  | [], _, _, _, _, _, _, h, _, _ => h.1
  | e :: es, m, a, f, p, hr, hb, h, hs, hc => by
    have he := hs e (by simp)
    refine XPost.bind (((step_both (cfg := cfg) (hr.pos hb) h e hc).and (step_regs hr hb e he)).mono (fun _ x => x.1)
      fun _ x => x) fun q hq => ?_
    exact run_both es hq.2 ⟨lastWrite_byte hb.1 e he, fun i hi4 => lastWrite_byte (hb.2 i hi4) e he⟩ hq.1
      (fun x hx => hs x (by simp [hx])) (careful_cons hc)

/-! ### The INIT phase: everything muted -/

/-- All channels muted by the user, stopped and low. -/
structure Hush (p : Pokey) : Prop where
  mix : Mix p
  user : User 15 p
  tick : ∀ i, i < 4 → (p.ch i).tick = never
  low : ∀ i, i < 4 → (p.ch i).delta ≤ 0

theorem Hush.until {p : Pokey} (h : Hush p) {c : Int} (hc : c ≤ never) : generateUntil cfg p c = .ok p := by
  have e : p.firstTick c = c := by
    unfold firstTick
    rw [h.tick 0 (by omega), h.tick 1 (by omega), h.tick 2 (by omega), h.tick 3 (by omega)]
    omega
  unfold generateUntil generateLoop
  dsimp only
  rw [e, if_pos rfl]

theorem bit15 {i : Nat} (h : i < 4) : bit 15 i := by
  have hcase : i = 0 ∨ i = 1 ∨ i = 2 ∨ i = 3 := by omega
  rcases hcase with rfl | rfl | rfl | rfl <;> decide

theorem Hush.same {p q : Pokey} (h : Hush p) (hs : Same p q) (ht : ∀ j, (q.ch j).tick = (p.ch j).tick) : Hush q :=
  ⟨(hs.both ⟨h.mix, h.user⟩).1, (hs.both ⟨h.mix, h.user⟩).2, fun i hi4 => (ht i).trans (h.tick i hi4),
    fun i hi4 => (hs.2 i).2.1 ▸ h.low i hi4⟩

theorem setMute_hush {c : Channel} (h : c.tick = never) (hm : 0 ≤ c.mute ∧ c.mute < 8) (hu : band c.mute muteUser ≠ 0) (e : Bool)
    {m : Int} (hk : m = muteInit ∨ m = muteSerial) (t : Int) : (setMute c e m t).tick = never := by
  have := (setMute_other hm e hk t).2
  unfold setMute at this ⊢
  cases e
  · show (if band c.mute (bnot m) = 0 ∧ c.tick = never then t else c.tick) = never
    rw [if_neg, h]
    intro hh
    apply hu
    rw [← this]
    show band (band c.mute (bnot m)) muteUser = 0
    rw [hh.1]; decide
  · rfl

theorem Hush.muteCh {p : Pokey} (h : Hush p) (i : Nat) (hi4 : i < 4) (e : Bool) {k : Int} (hk : k = muteInit ∨ k = muteSerial)
    (c : Int) : Hush (p.muteCh i e k c) := by
  have hb := muteCh_both ⟨h.mix, h.user⟩ i e hk c
  refine ⟨hb.1, hb.2, fun j hj => ?_, fun j hj => ?_⟩ <;> unfold Pokey.muteCh <;> rw [setCh_ch] <;> split
  · exact setMute_hush (h.tick i hi4) (h.user i hi4).1 ((h.user i hi4).2.2 (bit15 hi4)) e hk c
  · exact h.tick j hj
  · have : (setMute (p.ch i) e k c).delta = (p.ch i).delta := by unfold setMute; split <;> rfl
    rw [this]; exact h.low i hi4
  · exact h.low j hj

theorem Hush.initMute {p : Pokey} (h : Hush p) (c : Int) : Hush (p.initMute c) :=
  (((h.muteCh 0 (by omega) _ (Or.inl rfl) c).muteCh 1 (by omega) _ (Or.inl rfl) c).muteCh 2 (by omega) _ (Or.inl rfl) c).muteCh 3
    (by omega) _ (Or.inl rfl) c

theorem audc_bit4 (data : Int) : band data 0x10 ≠ 0 ↔ bit data 4 := band_pow_iff data 4

theorem Hush.setAudc {p : Pokey} (h : Hush p) (i : Nat) (hi4 : i < 4) (data : Int) {c : Int} (hc : c ≤ never)
    (hq : bit data 4 → data % 16 = 0) : XPost Late Hush (setAudc cfg p i data c) := by
  have hlow := h.low i hi4
  have hmu : band (p.ch i).mute muteUser ≠ 0 := (h.user i hi4).2.2 (bit15 hi4)
  have hv : band data 0xf = data % 16 := band_f data
  have done : ∀ w, (w = data % 16 ∨ w = -(data % 16)) → w ≤ 0 →
      Hush ((p.setCh i { p.ch i with audc := data }).setDelta i w) := by
    intro w hw hw0
    have hch := h.mix.change i hi4 (c := { p.ch i with audc := data, delta := w }) p.buf p.sumOut hw
    have hz : hi { p.ch i with audc := data, delta := w } - hi (p.ch i) = 0 := by unfold hi; dsimp only; omega
    refine ⟨hch.congr ?_ fun j _ => ?_, h.user.congr fun j _ => ?_, fun j hj => ?_, fun j hj => ?_⟩
    · show p.sumIn = p.sumIn + _; rw [hz]; omega
    · simp only [setDelta, Pokey.setCh, upd]; by_cases e : j = i <;> simp [e]
    · simp only [setDelta, Pokey.setCh, upd]; by_cases e : j = i <;> simp [e]
    · have := h.tick j hj
      simp only [setDelta, Pokey.setCh, upd]; by_cases e : j = i
      · subst e; simpa using this
      · simpa [e] using this
    · have := h.low j hj
      simp only [setDelta, Pokey.setCh, upd]; by_cases e : j = i
      · subst e; simpa using hw0
      · simpa [e] using this
  unfold Pokey.setAudc
  refine XPost.ite (fun _ => h) fun _ => ?_
  rw [h.until hc]
  show XPost Late Hush (storeVolume cfg (p.setCh i { p.ch i with audc := data }) i data c)
  unfold storeVolume addUnmuted
  rw [setCh_same, hv]
  dsimp only
  rw [if_neg hmu]
  refine XPost.ite (fun h4 => ?_) fun _ => XPost.ite (fun hd => absurd hd (by omega)) fun _ => ?_
  · have z := hq ((audc_bit4 data).1 h4)
    exact done (data % 16) (Or.inl rfl) (by omega)
  · exact done _ (Or.inr rfl) (by omega)

theorem Hush.pokeAudf {p : Pokey} (h : Hush p) (i : Nat) {tune : Pokey → Int → Pokey} (ht : ∀ q v, Same q (tune q v))
    (hk : ∀ q v j, ((tune q v).ch j).tick = (q.ch j).tick) (data : Int) {c : Int} (hc : c ≤ never) :
    XPost Late Hush (pokeAudf cfg p i tune data c) := by
  unfold Pokey.pokeAudf
  refine XPost.ite (fun _ => h) fun _ => ?_
  rw [h.until hc]
  refine h.same ((same_setAudf p i data).trans (ht _ _)) fun j => ?_
  rw [hk]
  unfold setAudf; rw [setCh_ch]; split
  · rename_i e; subst e; rfl
  · rfl

theorem setPeriod_tick (p : Pokey) (i j : Nat) (v : Int) : ((p.setPeriod i v).ch j).tick = (p.ch j).tick := by
  unfold setPeriod; rw [setCh_ch]; split
  · rename_i e; subst e; rfl
  · rfl

theorem tune1_tick (q : Pokey) (v : Int) (j : Nat) : ((tune1 q v).ch j).tick = (q.ch j).tick := by
  unfold tune1; repeat' split
  all_goals simp only [setReload1_ch, setPeriod_tick]
theorem tune2_tick (q : Pokey) (v : Int) (j : Nat) : ((tune2 q v).ch j).tick = (q.ch j).tick := by
  unfold tune2; repeat' split
  all_goals simp only [setPeriod_tick]
theorem tune3_tick (q : Pokey) (v : Int) (j : Nat) : ((tune3 q v).ch j).tick = (q.ch j).tick := by
  unfold tune3; repeat' split
  all_goals simp only [setReload3_ch, setPeriod_tick]
theorem tune4_tick (q : Pokey) (v : Int) (j : Nat) : ((tune4 q v).ch j).tick = (q.ch j).tick := by
  unfold tune4; repeat' split
  all_goals simp only [setPeriod_tick]
theorem audctl_tick (q : Pokey) (v : Int) (j : Nat) :
    ((audctlPair3 (audctlPair1 (q.setAudctl v))).ch j).tick = (q.ch j).tick := by
  have h1 : ∀ r : Pokey, ((audctlPair1 r).ch j).tick = (r.ch j).tick := by
    intro r; unfold audctlPair1; repeat' split
    all_goals simp only [setReload1_ch, setPeriod_tick]
  have h3 : ∀ r : Pokey, ((audctlPair3 r).ch j).tick = (r.ch j).tick := by
    intro r; unfold audctlPair3; repeat' split
    all_goals simp only [setReload3_ch, setPeriod_tick]
  rw [h3, h1]; rfl

theorem Hush.poke {p : Pokey} (hp : Pos p) (h : Hush p) (addr data : Int) {c : Int} (hc : c ≤ never)
    (hq : ∀ i, i < 4 → isAudc addr i → bit data 4 → data % 16 = 0) :
    XPost Late (fun r => Hush r.2) (poke cfg p addr data c) := by
  have hr : band addr 0xf = addr % 16 := band_f addr
  unfold Pokey.poke
  rw [hr]
  split
  · exact XPost.noEvent (h.pokeAudf 0 same_tune1 tune1_tick data hc)
  · rename_i e
    exact XPost.noEvent (h.setAudc 0 (by omega) data hc (hq 0 (by omega) (by unfold isAudc; omega)))
  · exact XPost.noEvent (h.pokeAudf 1 same_tune2 tune2_tick data hc)
  · rename_i e
    exact XPost.noEvent (h.setAudc 1 (by omega) data hc (hq 1 (by omega) (by unfold isAudc; omega)))
  · exact XPost.noEvent (h.pokeAudf 2 same_tune3 tune3_tick data hc)
  · rename_i e
    exact XPost.noEvent (h.setAudc 2 (by omega) data hc (hq 2 (by omega) (by unfold isAudc; omega)))
  · exact XPost.noEvent (h.pokeAudf 3 same_tune4 tune4_tick data hc)
  · rename_i e
    exact XPost.noEvent (h.setAudc 3 (by omega) data hc (hq 3 (by omega) (by unfold isAudc; omega)))
  · refine XPost.noEvent ?_
    unfold pokeAudctl
    refine XPost.ite (fun _ => h) fun _ => ?_
    rw [h.until hc]
    exact (h.same (same_audctl p data) (audctl_tick p data)).initMute c
  · refine h.same (q := p.pokeStimer c) ⟨rfl, fun _ => ⟨rfl, rfl, rfl⟩⟩ |> fun k => ?_
    have hb : Both 15 (p.pokeStimer c) := Both.of ⟨h.mix, h.user⟩ rfl fun _ => ⟨rfl, rfl, rfl⟩
    refine ⟨hb.1, hb.2, fun j hj => ?_, fun j hj => h.low j hj⟩
    show (if (p.ch j).tick ≠ never then c + (p.ch j).period else (p.ch j).tick) = never
    rw [h.tick j hj]; simp
  · exact (pokeIrqen_same hp data c).mono (fun _ x => x.elim) fun r hq => h.same hq.1 hq.2
  · refine XPost.noEvent ?_
    unfold pokeSkctl
    refine XPost.ite (fun _ => h) fun _ => ?_
    rw [h.until hc]
    have hs : Hush (p.setSkctl data c) := h.same ⟨rfl, fun _ => ⟨rfl, rfl, rfl⟩⟩ fun _ => rfl
    exact ((hs.initMute c).muteCh 2 (by omega) _ (Or.inr rfl) c).muteCh 3 (by omega) _ (Or.inr rfl) c
  · exact h

theorem Hush.step {p : Pokey} (hp : Pos p) (h : Hush p) (e : ChipEvent) (hq : e.Quiet) : XPost Late Hush (step cfg p e) := by
  cases e with
  | write addr data c => exact XPost.map (h.poke hp addr data hq.1 hq.2)
  | external c d =>
    refine (addExternalDelta_frame p c d).mono (fun _ x => Or.inl x) ?_
    rintro q ⟨b, rfl⟩
    exact h.same ⟨rfl, fun _ => ⟨rfl, rfl, rfl⟩⟩ fun _ => rfl
  | irq c n => exact h.same (checkIrq_same p c n).1 (checkIrq_same p c n).2
  | timers c => exact h.same (same_endTimers p c).1 (same_endTimers p c).2
  | start => exact hq.elim
  | finish c => exact hq.elim
  | mute k => exact hq.elim
  | sample i f => exact hq.elim

/-- INIT keeps everything hushed, and the registers are what was written. -/
theorem run_hush : ∀ (es : List ChipEvent) {a : Int} {f : Nat → Int} {p : Pokey}, Regs a f p → Bytes a f → Hush p →
    (∀ e ∈ es, e.Byte) → (∀ e ∈ es, e.Quiet) →
    XPost Late (fun q => Hush q ∧ ∃ a f, Regs a f q ∧ Bytes a f) (run cfg p es)
  | [], a, f, _, hr, hb, h, _, _ => ⟨h, a, f, hr, hb⟩
  | e :: es, a, f, p, hr, hb, h, hs, hq => by
    have he := hs e (by simp)
    refine XPost.bind (((h.step (cfg := cfg) (hr.pos hb) e (hq e (by simp))).and (step_regs hr hb e he)).mono (fun _ x => x.1)
      fun _ x => x) fun q hq' => ?_
    exact run_hush es hq'.2 ⟨lastWrite_byte hb.1 e he, fun i hi4 => lastWrite_byte (hb.2 i hi4) e he⟩ hq'.1
      (fun x hx => hs x (by simp [hx])) (fun x hx => hq x (by simp [hx]))

theorem initChip_both (p : Pokey) (rate : Int) : Both 0 (p.initChip rate) := by
  refine ⟨⟨fun i _ => Or.inl rfl, rfl⟩, fun i hi4 => ⟨⟨show (0:Int) ≤ 0 by decide, show (0:Int) < 8 by decide⟩, ?_⟩⟩
  have : ¬ bit 0 i := by unfold bit; simp
  simp only [this, iff_false]
  show ¬ band 0 muteUser ≠ 0
  decide

theorem initChip_hush (p : Pokey) (rate : Int) : Hush ((p.initChip rate).muteAll 15) := by
  have hb := initChip_both p rate
  have hm : Mix ((p.initChip rate).muteAll 15) := by
    refine hb.1.congr rfl fun i _ => ?_
    unfold muteAll setMute; dsimp only; repeat' split
    all_goals exact ⟨rfl, rfl⟩
  refine ⟨hm, muteAll_user hb.2 15, fun i hi4 => ?_, fun i hi4 => ?_⟩
  · unfold muteAll; dsimp only
    rw [if_pos hi4]
    have : decide (band 15 (shl 1 i) ≠ 0) = true := decide_eq_true ((band_pow_iff 15 i).2 (bit15 hi4))
    rw [this]; rfl
  · have : (((p.initChip rate).muteAll 15).ch i).delta = 0 := by
      unfold muteAll setMute; dsimp only; repeat' split
      all_goals rfl
    omega

end Asap.Pokey
