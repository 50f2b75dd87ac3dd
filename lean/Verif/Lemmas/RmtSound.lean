import Verif.Lemmas.RmtSong

/-! The last sound of an instrument. -/

namespace Asap.Module.Tracker
open Asap Asap.Module
open Asap.Spec.Pattern (Has byte offset address visit)
open Asap.Spec.Rmt (Voice Envelope EnvelopeOf Mute Fades)

theorem okP_true {α : Type} (x : M α) : OkP (fun _ => True) x := okP_iff.mpr fun _ _ => trivial

/-! ### Envelopes -/

theorem lt_pass {x : Envelope} {k : Nat} : k < x.pass ↔ x.first + 3 * k < x.last := by
  unfold Envelope.pass
  omega

theorem entry_pass {x : Envelope} {k : Nat} (h : x.first + 3 * k < x.last) : x.entry k = x.first + 3 * k := by
  induction k with
  | zero =>
    unfold Envelope.entry
    exact if_pos (by omega)
  | succ k ih =>
    unfold Envelope.entry
    rw [ih (by omega), if_pos (by omega)]
    omega

theorem drop_pass {x : Envelope} {k : Nat} (h : k ≤ x.pass) : x.drop k = 0 := by
  unfold Envelope.drop
  rw [show k - x.pass = 0 by omega, Nat.zero_mul]

theorem drop_mono {x : Envelope} {k j : Nat} (h : k ≤ j) : x.drop k ≤ x.drop j := by
  unfold Envelope.drop
  exact Nat.div_le_div_right (Nat.add_le_add_right (Nat.mul_le_mul_right _ (by omega)) _)

/-- The slide of the volume after call `k`. -/
theorem drop_next {x : Envelope} (hs : x.slide < 256) {k : Nat} (h : x.pass ≤ k) {slide : Int} (h1 : slide = 128 + 256 * x.drop k - ((k - x.pass) * x.slide : Nat)) :
    (slide - x.slide < 0 → x.drop (k + 1) = x.drop k + 1 ∧ slide - x.slide + 256 = 128 + 256 * x.drop (k + 1) - ((k + 1 - x.pass) * x.slide : Nat)) ∧
      (¬ slide - x.slide < 0 → x.drop (k + 1) = x.drop k ∧ slide - x.slide = 128 + 256 * x.drop (k + 1) - ((k + 1 - x.pass) * x.slide : Nat)) := by
  unfold Envelope.drop at *
  rw [show k + 1 - x.pass = (k - x.pass) + 1 by omega, Nat.succ_mul]
  generalize (k - x.pass) * x.slide = q at *
  omega

/-- The places of the loop. -/
theorem entry_loop {x : Envelope} (hl : x.loop < x.last) {k : Nat} (h : x.entry k = x.loop) {j : Nat} (hj : k ≤ j) : ∃ i, x.entry j = x.loop + 3 * i ∧ x.entry j < x.last := by
  induction j with
  | zero =>
    rw [show k = 0 by omega] at h
    exact ⟨0, by rw [h]; rfl, by rw [h]; exact hl⟩
  | succ j ih =>
    by_cases hk : k = j + 1
    · subst hk
      exact ⟨0, by rw [h]; rfl, by rw [h]; exact hl⟩
    · obtain ⟨i, h1, h2⟩ := ih (by omega)
      unfold Envelope.entry
      split
      · exact ⟨i + 1, by omega, by omega⟩
      · exact ⟨0, rfl, hl⟩

/-! ### The last loud call -/

/-- `calls` is the number of calls until after the last loud one before call `k`. -/
def Best (m : List Nat) (x : Envelope) (e : Bool) (vol : Nat) (c0 : Int) (k : Nat) (calls : Int) : Prop :=
  (∃ j, j < k ∧ x.counts vol j ∧ x.Loud m e vol j ∧ calls = c0 + j + 1 ∧ ∀ i, j < i → i < k → x.counts vol i → ¬ x.Loud m e vol i) ∨
    ((∀ j, j < k → x.counts vol j → ¬ x.Loud m e vol j) ∧ calls = c0)

theorem Best.step {m : List Nat} {x : Envelope} {e : Bool} {vol : Nat} {c0 : Int} {k : Nat} {calls : Int} (h : Best m x e vol c0 k calls) (hc : x.counts vol k) {loud : Bool}
    (hl : loud = true ↔ x.Loud m e vol k) : Best m x e vol c0 (k + 1) (if loud then c0 + k + 1 else calls) := by
  by_cases hk : loud = true
  · rw [if_pos hk]
    exact .inl ⟨k, by omega, hc, hl.mp hk, rfl, fun i h1 h2 => absurd h2 (by omega)⟩
  · rw [if_neg hk]
    have hn : ¬ x.Loud m e vol k := fun h => hk (hl.mpr h)
    rcases h with ⟨j, h1, h2, h3, h4, h5⟩ | ⟨h1, h2⟩
    · refine .inl ⟨j, by omega, h2, h3, h4, fun i hi1 hi2 => ?_⟩
      by_cases hik : i = k
      · subst hik
        exact fun _ => hn
      · exact h5 i hi1 (by omega)
    · refine .inr ⟨fun j hj => ?_, h2⟩
      by_cases hjk : j = k
      · subst hjk
        exact fun _ => hn
      · exact h1 j (by omega)

/-- All calls. -/
def BestOf (m : List Nat) (x : Envelope) (e : Bool) (vol : Nat) (c0 : Int) (calls : Int) : Prop :=
  (∃ j : Nat, x.counts vol j ∧ x.Loud m e vol j ∧ calls = c0 + j + 1 ∧ ∀ i, j < i → x.counts vol i → ¬ x.Loud m e vol i) ∨
    ((∀ j, x.counts vol j → ¬ x.Loud m e vol j) ∧ calls = c0)

theorem Best.all {m : List Nat} {x : Envelope} {e : Bool} {vol : Nat} {c0 : Int} {k : Nat} {calls : Int} (h : Best m x e vol c0 k calls)
    (hq : ∀ j, k ≤ j → x.counts vol j → ¬ x.Loud m e vol j) : BestOf m x e vol c0 calls := by
  rcases h with ⟨j, h1, h2, h3, h4, h5⟩ | ⟨h1, h2⟩
  · refine .inl ⟨j, h2, h3, h4, fun i hi => ?_⟩
    by_cases hik : i < k
    · exact h5 i hi hik
    · exact hq i (by omega)
  · refine .inr ⟨fun j => ?_, h2⟩
    by_cases hjk : j < k
    · exact h1 j hjk
    · exact hq j (by omega)

theorem silent_table (vol : Nat) (hv : vol < 16) (x : Nat) (hx : x < 16) : rmtVolumeSilent.getD vol 0 ≤ x ↔ 15 ≤ 2 * (vol * x) := by
  have key : ∀ v : Fin 16, ∀ y : Fin 16, rmtVolumeSilent.getD v.val 0 ≤ y.val ↔ 15 ≤ 2 * (v.val * y.val) := by decide +kernel
  exact key ⟨vol, hv⟩ ⟨x, hx⟩

theorem rmtLoud_level {m : List Nat} (hb : AllBytes m) (ins index : Int) (vol : Nat) (e : Bool) :
    OkP (fun r : Bool => ∃ b, Has m (ins + index) b ∧ (r = true ↔ 15 ≤ 2 * (vol * if e then b / 16 else b % 16))) (rmtLoud m ins index vol e) := by
  unfold rmtLoud
  refine PostE.bind (rdI_okP m _) fun b hbb => PostE.bind (rdI_okP rmtVolumeSilent _) fun l hl => ?_
  have h256 : b < 256 := hb _ (List.mem_of_getElem? hbb.2)
  have hl2 : rmtVolumeSilent[vol]? = some l := hl.2
  have hv : vol < 16 := by
    have := (List.getElem?_eq_some_iff.mp hl2).1
    exact this
  have hlim : rmtVolumeSilent.getD vol 0 = l := by
    rw [List.getD_eq_getElem?_getD, hl2]
    rfl
  refine ⟨b, hbb, ?_⟩
  show decide (_ ≥ l) = true ↔ _
  rw [decide_eq_true_iff, ← hlim]
  cases e with
  | true =>
    show _ ≤ b / 16 % 16 ↔ 15 ≤ 2 * (vol * (b / 16))
    rw [Nat.mod_eq_of_lt (show b / 16 < 16 by omega)]
    exact silent_table vol hv _ (by omega)
  | false => exact silent_table vol hv _ (Nat.mod_lt _ (by decide))

/-- The test of one call. -/
theorem rmtLoud_call {m : List Nat} (hb : AllBytes m) (x : Envelope) (index : Int) (vol : Nat) (e : Bool) (k : Nat) (hi : index = x.entry k) :
    OkP (fun r : Bool => r = true ↔ x.Loud m e vol k) (rmtLoud m x.place index ((vol - x.drop k : Nat) : Int) e) := by
  refine (rmtLoud_level hb _ _ _ _).mono (fun _ h => h) ?_
  rintro r ⟨b, h1, h2⟩
  rw [h2]
  refine ⟨fun h => ⟨b, by rw [← hi]; exact h1, h⟩, ?_⟩
  rintro ⟨c, h3, h4⟩
  rw [← hi] at h3
  rw [has_fun h1 h3]
  exact h4

theorem rmtAttack_best {m : List Nat} (hb : AllBytes m) (x : Envelope) (vol : Nat) (e : Bool) (c0 : Int) (fuel k : Nat) (calls : Int) (hk : x.first + 3 * k < x.last)
    (h : Best m x e vol c0 k calls) :
    OkP (fun r : Int × Int × Int => r.1 = c0 + x.pass ∧ Best m x e vol c0 x.pass r.2.1 ∧ r.2.2 = x.first + 3 * x.pass ∧ (x.last : Int) ≤ r.2.2 ∧ x.entry x.pass = x.loop)
      (rmtAttack m x.place x.last vol e fuel (c0 + k) calls (x.first + 3 * k)) := by
  induction fuel generalizing k calls with
  | zero => trivial
  | succ fuel ih =>
    unfold rmtAttack
    have hkp : k < x.pass := lt_pass.mpr hk
    have hd := rmtLoud_call hb x (x.first + 3 * k) vol e k (by rw [entry_pass hk]; omega)
    rw [drop_pass (by omega), Nat.sub_zero] at hd
    refine PostE.bind hd fun loud hl => ?_
    have hB := h.step (.inl hkp) hl
    refine PostE.ite (fun hlt => ?_) fun hlt => ?_
    · have := ih (k + 1) _ (by omega) hB
      rw [show c0 + ((k + 1 : Nat) : Int) = c0 + k + 1 by omega, show (x.first : Int) + 3 * ((k + 1 : Nat) : Int) = x.first + 3 * k + 3 by omega] at this
      exact this
    · have hp : x.pass = k + 1 := by
        unfold Envelope.pass
        omega
      rw [hp]
      refine ⟨by show c0 + k + 1 = _; omega, hB, by show (x.first : Int) + 3 * k + 3 = _; omega, by show (x.last : Int) ≤ x.first + 3 * k + 3; omega, ?_⟩
      unfold Envelope.entry
      rw [entry_pass hk]
      exact if_neg (by omega)

theorem rmtFirst_best {m : List Nat} (hb : AllBytes m) (x : Envelope) (vol : Nat) (e : Bool) (c0 : Int) (hl : x.loop < x.last) :
    OkP (fun r : Int × Int × Int => r.1 = c0 + x.pass ∧ Best m x e vol c0 x.pass r.2.1 ∧ ((r.2.2 = x.entry x.pass ∧ x.entry x.pass < x.last) ∨ ((x.last : Int) ≤ r.2.2 ∧ x.entry x.pass = x.loop)))
      (rmtFirst m x.place x.last x.loop vol e c0 x.first) := by
  unfold rmtFirst
  refine PostE.ite (fun h => ?_) fun h => ?_
  · have hp : x.pass = 0 := by
      unfold Envelope.pass
      omega
    rw [hp]
    have e0 : x.entry 0 = x.loop + (x.first - x.last) % (x.last - x.loop) := if_neg (by omega)
    refine ⟨by show c0 = _; omega, .inr ⟨fun j hj => absurd hj (Nat.not_lt_zero j), rfl⟩, .inl ⟨?_, ?_⟩⟩
    · show Int.tmod ((x.first : Int) - x.last) ((x.last : Int) - x.loop) + x.loop = _
      rw [e0, Int.tmod_eq_emod_of_nonneg (by omega), show (x.first : Int) - x.last = ((x.first - x.last : Nat) : Int) by omega,
        show (x.last : Int) - x.loop = ((x.last - x.loop : Nat) : Int) by omega, ← Int.natCast_emod]
      omega
    · rw [e0]
      have := Nat.mod_lt (x.first - x.last) (show x.last - x.loop > 0 by omega)
      omega
  · have := rmtAttack_best hb x vol e c0 100 0 c0 (by omega) (.inr ⟨fun j hj => absurd hj (Nat.not_lt_zero j), rfl⟩)
    rw [show c0 + ((0 : Nat) : Int) = c0 by omega, show (x.first : Int) + 3 * ((0 : Nat) : Int) = x.first by omega] at this
    refine this.mono (fun _ h => h) ?_
    rintro r ⟨h1, h2, _, h3, h4⟩
    exact ⟨h1, h2, .inr ⟨h3, h4⟩⟩

/-- Nothing is heard at the places of the loop before an index. -/
def Quiet (m : List Nat) (x : Envelope) (e : Bool) (vol k : Nat) (index : Int) : Prop :=
  (∃ i : Nat, index = x.loop + 3 * i) ∧
    ∀ i : Nat, (x.loop + 3 * i : Int) < index → x.loop + 3 * i < x.last → ∀ b, Has m (x.place + (x.loop + 3 * i : Nat)) b → ¬ 15 ≤ 2 * ((vol - x.drop k) * if e then b / 16 else b % 16)

theorem Quiet.later {m : List Nat} {x : Envelope} {e : Bool} {vol k : Nat} {index : Int} (h : Quiet m x e vol k index) (hi : (x.last : Int) ≤ index) (hl : x.loop < x.last)
    (hk : x.entry k = x.loop) : ∀ j, k ≤ j → x.counts vol j → ¬ x.Loud m e vol j := by
  rintro j hj _ ⟨b, h1, h2⟩
  obtain ⟨i, e1, e2⟩ := entry_loop hl hk hj
  rw [e1] at h1 e2
  refine h.2 i (by omega) e2 b h1 (Nat.le_trans h2 (Nat.mul_le_mul_left _ (Nat.mul_le_mul_right _ ?_)))
  have := drop_mono (x := x) hj
  omega

theorem rmtDecay_best {m : List Nat} (hb : AllBytes m) (x : Envelope) (vol : Nat) (e : Bool) (c0 : Int) (hl : x.loop < x.last) (hs : x.slide < 256) (hs0 : x.slide ≠ 0) (fuel k : Nat)
    (hk : x.pass ≤ k) (calls index slide : Int) (silent : Bool) (hB : Best m x e vol c0 k calls) (hc : x.drop k = 0 ∨ x.least + x.drop k < vol)
    (hi : (index = x.entry k ∧ x.entry k < x.last) ∨ ((x.last : Int) ≤ index ∧ x.entry k = x.loop))
    (hsl : slide = 128 + 256 * x.drop k - ((k - x.pass) * x.slide : Nat)) (hq : silent = true → Quiet m x e vol k index) :
    OkP (fun r : Int => BestOf m x e vol c0 r) (rmtDecay m x.place x.last x.loop x.slide x.least e fuel (c0 + k) calls index ((vol - x.drop k : Nat) : Int) slide silent) := by
  induction fuel generalizing k calls index slide silent with
  | zero => trivial
  | succ fuel ih =>
    unfold rmtDecay
    refine PostE.ite (fun h => ?_) fun h => ?_
    · refine hB.all ((hq h.2).later h.1 hl ?_)
      rcases hi with ⟨h1, h2⟩ | ⟨_, h2⟩
      · omega
      · exact h2
    · dsimp only
      have hidx : (if index ≥ (x.last : Int) then (x.loop : Int) else index) = x.entry k := by
        rcases hi with ⟨h1, h2⟩ | ⟨h1, h2⟩
        · rw [if_neg (by omega), h1]
        · rw [if_pos h1, h2]
      have hlt : x.entry k < x.last := by
        rcases hi with ⟨_, h2⟩ | ⟨_, h2⟩
        · exact h2
        · omega
      rw [hidx]
      refine PostE.bind (rmtLoud_call hb x _ vol e k rfl) fun loud hloud => ?_
      have hB' := hB.step (.inr ⟨hs0, hc⟩) hloud
      obtain ⟨d1, d2⟩ := drop_next hs hk hsl
      have hmono := drop_mono (x := x) (show k ≤ k + 1 by omega)
      have hi' : ((x.entry k : Int) + 3 = x.entry (k + 1) ∧ x.entry (k + 1) < x.last) ∨ ((x.last : Int) ≤ (x.entry k : Int) + 3 ∧ x.entry (k + 1) = x.loop) := by
        have e1 : x.entry (k + 1) = if x.entry k + 3 < x.last then x.entry k + 3 else x.loop := rfl
        by_cases hc : x.entry k + 3 < x.last
        · rw [if_pos hc] at e1
          exact .inl ⟨by omega, by omega⟩
        · rw [if_neg hc] at e1
          exact .inr ⟨by omega, e1⟩
      have hq' : ((silent || decide (index ≥ (x.last : Int))) && !loud) = true → Quiet m x e vol (k + 1) ((x.entry k : Int) + 3) := by
        intro hsil
        rw [Bool.and_eq_true, Bool.or_eq_true, decide_eq_true_iff, Bool.not_eq_true'] at hsil
        obtain ⟨hsil, hnl⟩ := hsil
        have hnl' : ¬ x.Loud m e vol k := fun h => by rw [hloud.mpr h] at hnl; cases hnl
        have hQ : Quiet m x e vol k (x.entry k) := by
          rcases hi with ⟨h1, h2⟩ | ⟨h1, h2⟩
          · rcases hsil with hsil | hsil
            · rw [← h1]
              exact hq hsil
            · omega
          · rw [h2]
            exact ⟨⟨0, by omega⟩, fun i hi => absurd hi (by omega)⟩
        obtain ⟨⟨i, hi0⟩, hQ⟩ := hQ
        refine ⟨⟨i + 1, by omega⟩, fun j hj1 hj2 b hbb hge => ?_⟩
        have hge' : 15 ≤ 2 * ((vol - x.drop k) * if e then b / 16 else b % 16) := Nat.le_trans hge (Nat.mul_le_mul_left _ (Nat.mul_le_mul_right _ (by omega)))
        by_cases hji : j = i
        · subst hji
          refine hnl' ⟨b, ?_, hge'⟩
          rw [show x.entry k = x.loop + 3 * j by omega]
          exact hbb
        · exact hQ j (by omega) hj2 b hbb hge'
      refine PostE.ite (fun hneg => ?_) fun hneg => ?_
      · obtain ⟨e1, e2⟩ := d1 hneg
        refine PostE.ite (fun hmin => ?_) fun hmin => ?_
        · refine hB'.all fun j hj hcj => ?_
          have := drop_mono (x := x) hj
          have hkp : ¬ j < x.pass := by omega
          rcases hcj with h | ⟨_, h | h⟩
          · exact absurd h hkp
          · omega
          · omega
        · have := ih (k + 1) (by omega) _ ((x.entry k : Int) + 3) (slide - x.slide + 256) _ hB' (.inr (by omega)) hi' e2 hq'
          rw [show c0 + ((k + 1 : Nat) : Int) = c0 + k + 1 by omega, show ((vol - x.drop (k + 1) : Nat) : Int) = ((vol - x.drop k : Nat) : Int) - 1 by omega] at this
          exact this
      · obtain ⟨e1, e2⟩ := d2 hneg
        have := ih (k + 1) (by omega) _ ((x.entry k : Int) + 3) (slide - x.slide) _ hB' (by rw [e1]; exact hc) hi' e2 hq'
        rw [show c0 + ((k + 1 : Nat) : Int) = c0 + k + 1 by omega, e1] at this
        exact this

theorem tdiv_nat (a b : Nat) : Int.tdiv (a : Int) (b : Int) = (a / b : Nat) := rfl

theorem BestOf.fades {m : List Nat} {x : Envelope} {e : Bool} {v : Voice} {rate : Nat} (hr : 0 < rate) (hv : v.since ≤ v.changed) {calls : Int}
    (he : EnvelopeOf m v.instrument ((v.changed - v.since) * rate) x) (h : BestOf m x e v.volume ((v.changed - v.since) * rate : Nat) calls) :
    0 ≤ Int.tdiv calls rate ∧ ∃ s : Nat, Fades m rate e v s ∧ (s : Int) = v.since + Int.tdiv calls rate := by
  rcases h with ⟨j, h1, h2, h3, h4⟩ | ⟨h1, h2⟩
  · have ed : Int.tdiv calls rate = (((v.changed - v.since) * rate + j + 1) / rate : Nat) := by
      rw [h3]
      exact tdiv_nat ((v.changed - v.since) * rate + j + 1) rate
    rw [ed]
    exact ⟨Int.natCast_nonneg _, _, .heard he h1 h2 h4, by rw [Int.natCast_add]⟩
  · have ed : Int.tdiv calls rate = (v.changed - v.since : Nat) := by
      rw [h2, tdiv_nat, Nat.mul_div_cancel _ hr]
    rw [ed]
    exact ⟨by omega, _, .silent he h1, by omega⟩

theorem rmtFrames_fades {m : List Nat} (hb : AllBytes m) (v : Voice) (e : Bool) (hr : 0 < byte m 0xc) (hv : v.since ≤ v.changed) :
    OkP (fun r : Int => 0 ≤ r ∧ ∃ s : Nat, Fades m (byte m 0xc) e v s ∧ (s : Int) = v.since + r)
      (getRmtInstrumentFrames m v.instrument v.volume ((v.changed : Int) - v.since) e) := by
  unfold getRmtInstrumentFrames
  refine PostE.bind (getWord_okP m 2) fun a ha => PostE.bind (getWord_okP m 0xe) fun t ht => ?_
  have ent : (t : Int) - ((a : Int) - 6) + (v.instrument : Int) * 2 = Spec.Rmt.entry m v.instrument := by
    have e1 : t = address m 0xe 0xf := ht
    have e2 : a = byte m 2 + 256 * byte m 3 := ha
    unfold Spec.Rmt.entry offset
    rw [e1, e2]
    omega
  dsimp only
  rw [ent]
  refine PostE.bind (rdI_okP m _) fun hi hhi => PostE.ite (fun h0 => ?_) fun h0 => ?_
  · rw [h0] at hhi
    exact ⟨Int.le_refl 0, v.since, .mute (.inl hhi), by show (v.since : Int) = v.since + 0; omega⟩
  have hA : OkP (fun w => ∃ lo, Has m (Spec.Rmt.entry m v.instrument) lo ∧ w = lo + 256 * hi) (getWordI m (Spec.Rmt.entry m v.instrument)) := by
    unfold getWordI
    refine PostE.bind (rdI_okP m _) fun lo hlo => PostE.bind (rdI_okP m _) fun hi' hhi' => ?_
    exact ⟨lo, hlo, by rw [has_fun hhi hhi']⟩
  refine PostE.bind hA ?_
  rintro w ⟨lo, hlo, hw⟩
  have ins : (w : Int) - ((a : Int) - 6) = offset m (lo + 256 * hi) := by
    have e2 : a = byte m 2 + 256 * byte m 3 := ha
    unfold offset
    rw [hw, e2]
    omega
  rw [ins]
  refine PostE.bind (rd_okP m 0xc) fun rate hrate => ?_
  rw [← byte_eq hrate]
  refine PostE.bind (rdI_okP m _) fun first hfirst => PostE.bind (rdI_okP m _) fun last hlast => PostE.bind (rdI_okP m _) fun loop hloop => ?_
  refine PostE.ite (fun hge => ?_) fun hge => ?_
  · exact ⟨Int.le_refl 0, v.since, .mute (.inr ⟨lo, hi, last, loop, hlo, hhi, h0, hlast, hloop, by omega⟩), by show (v.since : Int) = v.since + 0; omega⟩
  refine PostE.bind (rdI_okP m _) fun depth hdepth => PostE.bind (rdI_okP m _) fun min hmin => ?_
  have ecall : ((v.changed : Int) - v.since) * (byte m 0xc : Int) = (((v.changed - v.since) * byte m 0xc : Nat) : Int) := by
    rw [Int.natCast_mul, Int.ofNat_sub hv]
  rw [ecall]
  let x : Envelope := ⟨offset m (lo + 256 * hi), first + 1 + 3 * ((v.changed - v.since) * byte m 0xc), loop, last + 3, depth, min⟩
  have he : EnvelopeOf m v.instrument ((v.changed - v.since) * byte m 0xc) x :=
    ⟨lo, hi, first, last, hlo, hhi, h0, rfl, hfirst, hlast, hloop, hdepth, hmin, rfl, rfl, by show loop < last + 3; omega⟩
  have hl : x.loop < x.last := by show loop < last + 3; omega
  have hF := rmtFirst_best hb x v.volume e (((v.changed - v.since) * byte m 0xc : Nat) : Int) hl
  have e1 : ((x.last : Nat) : Int) = (last : Int) + 3 := by show ((last + 3 : Nat) : Int) = _; omega
  have e2 : ((x.first : Nat) : Int) = (first : Int) + 1 + (((v.changed - v.since) * byte m 0xc : Nat) : Int) * 3 := by
    show ((first + 1 + 3 * ((v.changed - v.since) * byte m 0xc) : Nat) : Int) = _
    omega
  rw [e1, e2] at hF
  refine PostE.bind hF ?_
  rintro ⟨call, calls, index⟩ ⟨h1, h2, h3⟩
  dsimp only at h1 h2 h3 ⊢
  refine PostE.ite (fun hd => ?_) fun hd => ?_
  · refine BestOf.fades hr hv he (h2.all fun j hj hc => ?_)
    rcases hc with h | ⟨h, _⟩
    · omega
    · exact absurd hd h
  · have hs : x.slide < 256 := hb _ (List.mem_of_getElem? hdepth.2)
    have hdp : x.drop x.pass = 0 := drop_pass (Nat.le_refl _)
    have hD := rmtDecay_best hb x v.volume e (((v.changed - v.since) * byte m 0xc : Nat) : Int) hl hs hd 5000 x.pass (Nat.le_refl _) calls index 128 false h2 (.inl hdp)
      (by rw [e1]; exact h3) (by rw [hdp, Nat.sub_self, Nat.zero_mul]; rfl) (fun h => (nomatch h))
    rw [← h1, e1, hdp, Nat.sub_zero] at hD
    exact PostE.bind hD fun c hc => BestOf.fades hr hv he hc

/-! ### The last sound is determined -/

theorem envelope_det {m : List Nat} {i calls : Nat} {x y : Envelope} (h1 : EnvelopeOf m i calls x) (h2 : EnvelopeOf m i calls y) : x = y := by
  obtain ⟨lo, hi, first, last, a1, a2, _, a3, a4, a5, a6, a7, a8, a9, a10, _⟩ := h1
  obtain ⟨lo', hi', first', last', b1, b2, _, b3, b4, b5, b6, b7, b8, b9, b10, _⟩ := h2
  cases has_fun a1 b1
  cases has_fun a2 b2
  rw [← b3] at a3
  rw [a3] at a4 a5 a6 a7 a8
  cases has_fun a4 b4
  cases has_fun a5 b5
  cases x
  cases y
  dsimp only at *
  rw [a3, a9, b9, a10, b10, has_fun a6 b6, has_fun a7 b7, has_fun a8 b8]

theorem mute_envelope {m : List Nat} {i calls : Nat} {x : Envelope} (h1 : Mute m i) (h2 : EnvelopeOf m i calls x) : False := by
  obtain ⟨lo', hi', first', last', b1, b2, b0, b3, b4, b5, b6, _, _, _, b7, b8⟩ := h2
  rcases h1 with h | ⟨lo, hi, last, loop, a1, a2, _, a3, a4, a5⟩
  · exact b0 (has_fun b2 h)
  · cases has_fun a1 b1
    cases has_fun a2 b2
    rw [← b3] at a3 a4
    have := has_fun a3 b5
    have := has_fun a4 b6
    omega

theorem fades_det {m : List Nat} {rate : Nat} {e : Bool} {v : Voice} {a b : Nat} (h1 : Fades m rate e v a) (h2 : Fades m rate e v b) : a = b := by
  cases h1 with
  | mute h =>
    cases h2 with
    | mute => rfl
    | silent he => exact (mute_envelope h he).elim
    | heard he => exact (mute_envelope h he).elim
  | silent he hs =>
    cases h2 with
    | mute h => exact (mute_envelope h he).elim
    | silent => rfl
    | heard he' hc hl =>
      cases envelope_det he he'
      exact absurd hl (hs _ hc)
  | @heard x k he hc hl hm =>
    cases h2 with
    | mute h => exact (mute_envelope h he).elim
    | silent he' hs =>
      cases envelope_det he he'
      exact absurd hl (hs _ hc)
    | @heard y j he' hc' hl' hm' =>
      cases envelope_det he he'
      rw [show k = j from ?_]
      by_cases h1 : k < j
      · exact absurd hl' (hm j h1 hc')
      · by_cases h2 : j < k
        · exact absurd hl (hm' k h2 hc)
        · omega

theorem lastSound_det {m : List Nat} {n : Nat} {vs : Nat → Spec.Rmt.Track} {a b : Nat} (h1 : Spec.Rmt.LastSound m n vs a) (h2 : Spec.Rmt.LastSound m n vs b) : a = b := by
  have key : ∀ {a b}, Spec.Rmt.LastSound m n vs a → Spec.Rmt.LastSound m n vs b → a ≤ b := by
    intro a b h1 h2
    rcases h1.2 with h | ⟨ch, hch, h⟩
    · omega
    · obtain ⟨s, hs, hf⟩ := h2.1 ch hch
      rw [fades_det h hf]
      exact hs
  exact Nat.le_antisymm (key h1 h2) (key h2 h1)

end Asap.Module.Tracker
