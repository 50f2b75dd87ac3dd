import Verif.Lemmas.SoundOut

/-! The INIT routine of a song: registers are written while all the channels are muted. -/

namespace Asap.Sound
open Asap.Spec Asap.Spec.Sound Asap.Pokey

variable {factor : Int} {sinc : Int → Int → Int} {T S t c : Int} {p q : Pokey} {r : Chip}
  {cfg : Cfg} {z : Noise} {s : Sound}

/-! ### The chip as it will be when the channels are unmuted -/

/-- The chip with its channels running. -/
def wake (p : Pokey) : Pokey :=
  { p with init := false, ch := fun i => if i < 4 then { p.ch i with tick := 0, mute := 0 } else Channel.fresh }

theorem wake_ch (p : Pokey) (i : Nat) (hi : i < 4) : (wake p).ch i = { p.ch i with tick := 0, mute := 0 } := if_pos hi

theorem wake_setCh (p : Pokey) (i : Nat) (hi : i < 4) (x : Channel) :
    wake (p.setCh i x) = (wake p).setCh i { x with tick := 0, mute := 0 } := by
  have : (wake (p.setCh i x)).ch = ((wake p).setCh i { x with tick := 0, mute := 0 }).ch := by
    funext j
    by_cases hj : j < 4
    · rw [wake_ch _ _ hj]
      by_cases e : j = i
      · subst e; rw [setCh_same, setCh_same]
      · rw [setCh_other _ _ e, setCh_other _ _ e, wake_ch _ _ hj]
    · rw [setCh_other _ _ (by omega)]
      show (if j < 4 then _ else Channel.fresh) = if j < 4 then _ else Channel.fresh
      rw [if_neg hj, if_neg hj]
  show ({ p with init := false, ch := (wake (p.setCh i x)).ch } : Pokey) = _
  rw [this]
  rfl

theorem wake_setPeriod (p : Pokey) (i : Nat) (hi : i < 4) (v : Int) : wake (p.setPeriod i v) = (wake p).setPeriod i v := by
  unfold setPeriod
  rw [wake_setCh p i hi, wake_ch p i hi]

theorem wake_setAudf (p : Pokey) (i : Nat) (hi : i < 4) (v : Int) : wake (p.setAudf i v) = (wake p).setAudf i v := by
  unfold setAudf
  rw [wake_setCh p i hi, wake_ch p i hi]

theorem wake_muteCh (p : Pokey) (i : Nat) (hi : i < 4) (e : Bool) (m c : Int) : wake (p.muteCh i e m c) = wake p := by
  unfold muteCh
  rw [wake_setCh p i hi]
  have : ({ setMute (p.ch i) e m c with tick := 0, mute := 0 } : Channel) = (wake p).ch i := by
    rw [wake_ch p i hi]
    unfold setMute
    split <;> rfl
  rw [this]
  unfold Pokey.setCh
  have : upd (wake p).ch i ((wake p).ch i) = (wake p).ch := by
    funext j
    unfold upd
    split
    · rename_i e; rw [e]
    · rfl
  rw [this]

theorem wake_initMute (p : Pokey) (c : Int) : wake (p.initMute c) = wake p := by
  unfold Pokey.initMute
  rw [wake_muteCh _ 3 (by omega), wake_muteCh _ 2 (by omega), wake_muteCh _ 1 (by omega), wake_muteCh _ 0 (by omega)]

theorem wake_tune1 (p : Pokey) (v : Int) : wake (tune1 p v) = tune1 (wake p) v := by
  have h0 := fun v => wake_setPeriod p 0 (by omega) v
  have h1 := fun v => wake_setPeriod p 1 (by omega) v
  have r1 : ∀ (q : Pokey) (v : Int), wake (q.setReload1 v) = (wake q).setReload1 v := fun _ _ => rfl
  have a1 : ((wake p).ch 1).audf = (p.ch 1).audf := rfl
  have a2 : (wake p).audctl = p.audctl := rfl
  have a3 : (wake p).div = p.div := rfl
  unfold tune1
  simp only [a1, a2, a3]
  repeat' split
  all_goals simp only [h0, h1, r1, wake_setPeriod _ 1 (by omega), wake_setPeriod _ 0 (by omega)]

theorem wake_tune2 (p : Pokey) (v : Int) : wake (tune2 p v) = tune2 (wake p) v := by
  have a1 : ((wake p).ch 0).audf = (p.ch 0).audf := rfl
  have a2 : (wake p).audctl = p.audctl := rfl
  have a3 : (wake p).div = p.div := rfl
  unfold tune2
  simp only [a1, a2, a3]
  repeat' split
  all_goals simp only [wake_setPeriod _ 1 (by omega)]

theorem wake_tune3 (p : Pokey) (v : Int) : wake (tune3 p v) = tune3 (wake p) v := by
  have r1 : ∀ (q : Pokey) (v : Int), wake (q.setReload3 v) = (wake q).setReload3 v := fun _ _ => rfl
  have a1 : ((wake p).ch 3).audf = (p.ch 3).audf := rfl
  have a2 : (wake p).audctl = p.audctl := rfl
  have a3 : (wake p).div = p.div := rfl
  unfold tune3
  simp only [a1, a2, a3]
  repeat' split
  all_goals simp only [r1, wake_setPeriod _ 3 (by omega), wake_setPeriod _ 2 (by omega)]

theorem wake_tune4 (p : Pokey) (v : Int) : wake (tune4 p v) = tune4 (wake p) v := by
  have a1 : ((wake p).ch 2).audf = (p.ch 2).audf := rfl
  have a2 : (wake p).audctl = p.audctl := rfl
  have a3 : (wake p).div = p.div := rfl
  unfold tune4
  simp only [a1, a2, a3]
  repeat' split
  all_goals simp only [wake_setPeriod _ 3 (by omega)]

theorem wake_pair1 (p : Pokey) : wake (audctlPair1 p) = audctlPair1 (wake p) := by
  have r1 : ∀ (q : Pokey) (v : Int), wake (q.setReload1 v) = (wake q).setReload1 v := fun _ _ => rfl
  have a0 : ((wake p).ch 0).audf = (p.ch 0).audf := rfl
  have a1 : ((wake p).ch 1).audf = (p.ch 1).audf := rfl
  have a2 : (wake p).audctl = p.audctl := rfl
  have a3 : (wake p).div = p.div := rfl
  unfold audctlPair1
  simp only [a0, a1, a2, a3]
  repeat' split
  all_goals simp only [r1, wake_setPeriod _ 1 (by omega), wake_setPeriod _ 0 (by omega)]

theorem wake_pair3 (p : Pokey) : wake (audctlPair3 p) = audctlPair3 (wake p) := by
  have r1 : ∀ (q : Pokey) (v : Int), wake (q.setReload3 v) = (wake q).setReload3 v := fun _ _ => rfl
  have a0 : ((wake p).ch 2).audf = (p.ch 2).audf := rfl
  have a1 : ((wake p).ch 3).audf = (p.ch 3).audf := rfl
  have a2 : (wake p).audctl = p.audctl := rfl
  have a3 : (wake p).div = p.div := rfl
  unfold audctlPair3
  simp only [a0, a1, a2, a3]
  repeat' split
  all_goals simp only [r1, wake_setPeriod _ 3 (by omega), wake_setPeriod _ 2 (by omega)]

theorem wake_audctl (p : Pokey) (v : Int) :
    wake (audctlPair3 (audctlPair1 (p.setAudctl v))) = audctlPair3 (audctlPair1 ((wake p).setAudctl v)) := by
  rw [wake_pair3, wake_pair1]
  rfl

theorem wake_stimer (p : Pokey) (c : Int) : wake (p.pokeStimer c) = wake p := rfl

theorem wake_core (h : core q = core p) : core (wake q) = core (wake p) := by
  have e : ∀ p : Pokey, core (wake p) = core (wake (core p)) := by
    intro p
    have : (fun i => { (wake p).ch i with timer := 0 }) = fun i => { (wake (core p)).ch i with timer := 0 } := by
      funext i
      show ({ (if i < 4 then _ else _ : Channel) with timer := 0 } : Channel) = { (if i < 4 then _ else _ : Channel) with timer := 0 }
      split <;> rfl
    show ({ wake p with ch := fun i => { (wake p).ch i with timer := 0 }, irqst := 0, iirAcc := 0, iirRate := 0, trailing := 0 } : Pokey) = _
    rw [this]
    rfl
  rw [e q, h, ← e p]

/-! ### Why the channels are muted -/

/-- The channels are muted by the user, and otherwise only for the reasons that SKCTL gives. -/
def Locks (p : Pokey) : Prop := ∀ i, i < 4 →
  (p.init = false → band (p.ch i).mute 1 = 0) ∧ (i < 2 ∨ ¬ bit p.skctl 4 → band (p.ch i).mute 4 = 0)

theorem lock_table : ∀ n : Fin 8,
    band (bor (n.val : Int) 1) 4 = band (n.val : Int) 4 ∧ band (band (n.val : Int) (bnot 1)) 4 = band (n.val : Int) 4 ∧
    band (bor (n.val : Int) 4) 1 = band (n.val : Int) 1 ∧ band (band (n.val : Int) (bnot 4)) 1 = band (n.val : Int) 1 ∧
    band (band (n.val : Int) (bnot 1)) 1 = 0 ∧ band (band (n.val : Int) (bnot 4)) 4 = 0 ∧
    (band (n.val : Int) 2 ≠ 0 → band (n.val : Int) 1 = 0 → band (n.val : Int) 4 = 0 → (n.val : Int) = 2) := by
  decide +kernel

theorem setMute_init {x : Channel} (h : 0 ≤ x.mute ∧ x.mute < 8) (e : Bool) (c : Int) :
    band (setMute x e muteInit c).mute 4 = band x.mute 4 ∧ (e = false → band (setMute x e muteInit c).mute 1 = 0) := by
  obtain ⟨n, hn⟩ := Int.eq_ofNat_of_zero_le h.1
  have tb := lock_table ⟨n, by omega⟩
  unfold setMute
  cases e
  · show band (band x.mute (bnot 1)) 4 = _ ∧ (_ → band (band x.mute (bnot 1)) 1 = 0)
    rw [hn]; exact ⟨tb.2.1, fun _ => tb.2.2.2.2.1⟩
  · show band (bor x.mute 1) 4 = _ ∧ _
    rw [hn]; exact ⟨tb.1, fun h => nomatch h⟩

theorem setMute_serial {x : Channel} (h : 0 ≤ x.mute ∧ x.mute < 8) (e : Bool) (c : Int) :
    band (setMute x e muteSerial c).mute 1 = band x.mute 1 ∧ (e = false → band (setMute x e muteSerial c).mute 4 = 0) := by
  obtain ⟨n, hn⟩ := Int.eq_ofNat_of_zero_le h.1
  have tb := lock_table ⟨n, by omega⟩
  unfold setMute
  cases e
  · show band (band x.mute (bnot 4)) 1 = _ ∧ (_ → band (band x.mute (bnot 4)) 4 = 0)
    rw [hn]; exact ⟨tb.2.2.2.1, fun _ => tb.2.2.2.2.2.1⟩
  · show band (bor x.mute 4) 1 = _ ∧ _
    rw [hn]; exact ⟨tb.2.2.1, fun h => nomatch h⟩

theorem initMute_ch (p : Pokey) (c : Int) (i : Nat) (hi : i < 4) :
    ∃ e : Bool, (p.init = false → e = false) ∧ (p.initMute c).ch i = setMute (p.ch i) e muteInit c := by
  have f : p.init = false → ∀ b, (p.init && b) = false := fun h b => by rw [h]; rfl
  rcases (by omega : i = 0 ∨ i = 1 ∨ i = 2 ∨ i = 3) with rfl | rfl | rfl | rfl
  · exact ⟨_, fun h => f h _, rfl⟩
  · exact ⟨_, fun h => f h _, rfl⟩
  · exact ⟨_, fun h => f h _, rfl⟩
  · exact ⟨_, fun h => f h _, rfl⟩

theorem initMute_init (p : Pokey) (c : Int) : (p.initMute c).init = p.init ∧ (p.initMute c).skctl = p.skctl := ⟨rfl, rfl⟩

theorem initMute_locks (hu : User 15 p) (h : ∀ i, i < 4 → i < 2 ∨ ¬ bit p.skctl 4 → band (p.ch i).mute 4 = 0) (c : Int) :
    Locks (p.initMute c) := by
  intro i hi
  obtain ⟨e, h1, h2⟩ := initMute_ch p c i hi
  obtain ⟨m1, m2⟩ := setMute_init (hu i hi).1 e c
  rw [h2, m1]
  exact ⟨fun hf => m2 (h1 hf), h i hi⟩

theorem Locks.same (h : Locks p) (h1 : q.init = p.init) (h2 : q.skctl = p.skctl) (h3 : ∀ i, (q.ch i).mute = (p.ch i).mute) : Locks q := by
  intro i hi
  rw [h1, h2, h3]
  exact h i hi

/-! ### Register writes -/

/-- During INIT: the emulator is muted; unmuted it would be in step with `r`, which has made no sound. -/
structure Still (factor : Int) (sinc : Int → Int → Int) (S : Int) (r : Chip) (p : Pokey) : Prop where
  hush : Hush p
  sync : Sync factor sinc 0 S 0 (wake p) ⟨r, fun _ => 0⟩
  low : ∀ i, i < 4 → (r.ch i).high = false
  init : p.init = decide (r.skctl % 4 = 0)
  locks : Locks p

theorem Still.skctl (h : Still factor sinc S r p) : p.skctl = r.skctl := h.sync.skctl

theorem Still.audf (h : Still factor sinc S r p) (i : Nat) (hi : i < 4) : (p.ch i).audf = (r.ch i).audf := by
  have := h.sync.regs.audf i hi
  rw [wake_ch p i hi] at this
  exact this

theorem Still.audc (h : Still factor sinc S r p) (i : Nat) (hi : i < 4) : (p.ch i).audc = (r.ch i).audc := by
  have := (h.sync.ch i hi).audc
  rw [wake_ch p i hi] at this
  exact this

theorem Still.core (h : Still factor sinc S r p) (hh : Hush q) (e : Sound.core q = Sound.core p) : Still factor sinc S r q := by
  refine ⟨hh, h.sync.twin (wake_core e), h.low, ?_, ?_⟩
  · have e1 : (Sound.core q).init = (Sound.core p).init := congrArg (fun p : Pokey => p.init) e
    exact Eq.trans e1 h.init
  · have e1 : (Sound.core q).init = (Sound.core p).init := congrArg (fun p : Pokey => p.init) e
    have e2 : (Sound.core q).skctl = (Sound.core p).skctl := congrArg (fun p : Pokey => p.skctl) e
    have e3 : ∀ i, ((Sound.core q).ch i).mute = ((Sound.core p).ch i).mute := fun i => congrArg (fun p : Pokey => (p.ch i).mute) e
    exact h.locks.same e1 e2 e3

theorem become_wave {w : Int → Int} {r r' : Chip} (h : Sync factor sinc T S t p ((⟨r, w⟩ : Sound).become factor sinc t r')) (hl : r'.level = r.level) :
    Sync factor sinc T S t p ⟨r', w⟩ := by
  rwa [become_same factor sinc t ⟨r, w⟩ r' hl] at h

theorem level_low (h : ∀ i, i < 4 → (r.ch i).high = false) : r.level = 0 := by
  have a : ∀ i, i < 4 → (r.ch i).amplitude = 0 := fun i hi => by unfold Tone.amplitude; rw [h i hi]; rfl
  unfold Chip.level
  rw [a 0 (by omega), a 1 (by omega), a 2 (by omega), a 3 (by omega)]
  rfl

theorem set_low (h : ∀ i, i < 4 → (r.ch i).high = false) (i : Nat) {x : Tone} (hx : x.high = false) :
    ∀ j, j < 4 → ((r.set i x).ch j).high = false := by
  intro j hj
  by_cases e : j = i
  · subst e; rw [set_same]; exact hx
  · rw [set_other _ _ e]; exact h j hj

theorem prepare_put (r : Chip) (addr data c : Int) (h : addr % 16 ≠ 15) : r.prepare addr data c = r.put addr data := by
  unfold Chip.prepare
  rw [if_neg (by omega)]

theorem Still.pokeAudf (h : Still factor sinc S r p) (hc : c ≤ never) (i : Nat) (hi : i < 4) {tune : Pokey → Int → Pokey} {data : Int}
    (hs : ∀ q v, Same q (tune q v)) (hk : ∀ q v j, ((tune q v).ch j).tick = (q.ch j).tick)
    (hq : ∀ q v, (tune q v).init = q.init ∧ (tune q v).skctl = q.skctl)
    (hw : ∀ q v, wake (tune q v) = tune (wake q) v)
    (ht : ∀ {p s}, Sync factor sinc 0 S 0 p s →
      Sync factor sinc 0 S 0 (tune (p.setAudf i data) data) (s.become factor sinc 0 (s.chip.set i { s.chip.ch i with audf := data }))) :
    XPost (fun _ => True) (Still factor sinc S (r.set i { r.ch i with audf := data })) (Pokey.pokeAudf cfg p i tune data c) := by
  unfold Pokey.pokeAudf
  refine XPost.ite (fun e => ?_) fun _ => ?_
  · rw [set_audf_self r i (e.trans (h.audf i hi))]
    exact h
  rw [h.hush.until hc]
  have hsame := (same_setAudf p i data).trans (hs (p.setAudf i data) data)
  have hl : ∀ j, j < 4 → ((r.set i { r.ch i with audf := data }).ch j).high = false := set_low h.low i (h.low i hi)
  refine ⟨h.hush.same hsame fun j => ?_, ?_, hl, ?_, ?_⟩
  · rw [hk]
    unfold setAudf; rw [setCh_ch]; split
    · rename_i e; subst e; rfl
    · rfl
  · rw [hw, wake_setAudf p i hi]
    exact become_wave (ht h.sync) ((level_low hl).trans (level_low h.low).symm)
  · rw [(hq _ _).1]; exact h.init
  · exact h.locks.same (hq _ _).1 (hq _ _).2 fun j => (hsame.2 j).2.2

theorem tune1_state (q : Pokey) (v : Int) : (tune1 q v).init = q.init ∧ (tune1 q v).skctl = q.skctl := by
  unfold tune1; repeat' split
  all_goals exact ⟨rfl, rfl⟩
theorem tune2_state (q : Pokey) (v : Int) : (tune2 q v).init = q.init ∧ (tune2 q v).skctl = q.skctl := by
  unfold tune2; repeat' split
  all_goals exact ⟨rfl, rfl⟩
theorem tune3_state (q : Pokey) (v : Int) : (tune3 q v).init = q.init ∧ (tune3 q v).skctl = q.skctl := by
  unfold tune3; repeat' split
  all_goals exact ⟨rfl, rfl⟩
theorem tune4_state (q : Pokey) (v : Int) : (tune4 q v).init = q.init ∧ (tune4 q v).skctl = q.skctl := by
  unfold tune4; repeat' split
  all_goals exact ⟨rfl, rfl⟩

/-- Volume and output of a muted channel that is low. -/
theorem Still.volume (h : Still factor sinc S r p) (i : Nat) (hi : i < 4) {data w : Int} (hd : 0 ≤ data ∧ data < 256)
    (hw : w = -(data % 16)) (hh : Hush ((p.setCh i { p.ch i with audc := data }).setDelta i w)) :
    Still factor sinc S (r.set i { r.ch i with audc := data, high := false }) ((p.setCh i { p.ch i with audc := data }).setDelta i w) := by
  have e : (p.setCh i { p.ch i with audc := data }).setDelta i w = p.setCh i { p.ch i with audc := data, delta := w } := by
    unfold setDelta
    rw [setCh_same]
    unfold Pokey.setCh
    have : upd (upd p.ch i { p.ch i with audc := data }) i { p.ch i with audc := data, delta := w } =
        upd p.ch i { p.ch i with audc := data, delta := w } := by
      funext j
      unfold upd
      split <;> rfl
    simp only [this]
  rw [e] at hh ⊢
  have k := h.sync.ch i hi
  have hl : ∀ j, j < 4 → ((r.set i { r.ch i with audc := data, high := false }).ch j).high = false := set_low h.low i rfl
  refine ⟨hh, ?_, hl, h.init, h.locks.same rfl rfl fun j => ?_⟩
  · have hs : Sim factor sinc 0 S 0 (fun _ => 0) (mix r.level) ((wake p).setCh i { (wake p).ch i with audc := data, delta := w })
        (r.set i { r.ch i with audc := data, high := false }) := by
      refine Sim.setCh h.sync i hi ⟨rfl, hd, k.tick, k.left, k.out, ?_, fun h => (nomatch h), k.mute⟩ rfl rfl rfl ?_
      · exact hw
      · show (if false = true then _ else (0 : Int)) = (r.ch i).amplitude
        unfold Tone.amplitude
        rw [h.low i hi]
        rfl
    have hm : mix (r.set i { r.ch i with audc := data, high := false }).level = mix r.level := by
      rw [level_low hl, level_low h.low]
    rw [wake_setCh p i hi]
    have e2 : ({ (wake p).ch i with audc := data, delta := w } : Channel) = { p.ch i with audc := data, delta := w, tick := 0, mute := 0 } := by
      rw [wake_ch p i hi]
    rw [e2] at hs
    rw [← hm] at hs
    exact hs
  · rw [setCh_ch]
    split
    · rename_i e; subst e; rfl
    · rfl

theorem putAudc_low {x : Tone} {data : Int} (hx : x.high = false) (hq : bit data 4 → data % 16 = 0) (hne : x.audc ≠ data) :
    x.putAudc data = { x with audc := data, high := false } := by
  unfold Tone.putAudc
  rw [if_neg hne]
  have : decide ((bit data 4 ∨ x.high = true) ∧ data % 16 ≠ 0) = false := by
    refine decide_eq_false ?_
    rintro ⟨a | a, b⟩
    · exact b (hq a)
    · rw [hx] at a; nomatch a
  rw [this]

theorem Still.pokeAudc (h : Still factor sinc S r p) (hc : c ≤ never) (i : Nat) (hi : i < 4) {data : Int} (hd : 0 ≤ data ∧ data < 256)
    (hq : bit data 4 → data % 16 = 0) :
    XPost (fun _ => True) (Still factor sinc S (r.set i ((r.ch i).putAudc data))) (setAudc cfg p i data c) := by
  have hhush := h.hush.setAudc (cfg := cfg) i hi data hc hq
  have hlow := h.hush.low i hi
  have hmu : band (p.ch i).mute muteUser ≠ 0 := (h.hush.user i hi).2.2 (bit15 hi)
  have hv : band data 0xf = data % 16 := band_f data
  unfold Pokey.setAudc at hhush ⊢
  by_cases e : (p.ch i).audc = data
  · rw [if_pos e] at hhush ⊢
    rw [set_audc_self r i ((h.audc i hi).symm.trans e)]
    exact h
  rw [if_neg e] at hhush ⊢
  rw [h.hush.until hc] at hhush ⊢
  have hne : (r.ch i).audc ≠ data := fun x => e ((h.audc i hi).trans x)
  rw [putAudc_low (h.low i hi) hq hne]
  change XPost _ _ (storeVolume cfg (p.setCh i { p.ch i with audc := data }) i data c) at hhush
  show XPost _ _ (storeVolume cfg (p.setCh i { p.ch i with audc := data }) i data c)
  unfold storeVolume addUnmuted at hhush ⊢
  rw [setCh_same, hv] at hhush ⊢
  dsimp only at hhush ⊢
  rw [if_neg hmu] at hhush ⊢
  by_cases h4 : band data 0x10 ≠ 0
  · rw [if_pos h4] at hhush ⊢
    have zz := hq ((audc_bit4 data).1 h4)
    exact h.volume i hi hd (by omega) hhush
  · rw [if_neg h4, if_neg (by omega)] at hhush ⊢
    exact h.volume i hi hd rfl hhush

theorem pairs_state (q : Pokey) (v : Int) : (audctlPair3 (audctlPair1 (q.setAudctl v))).init = q.init ∧
    (audctlPair3 (audctlPair1 (q.setAudctl v))).skctl = q.skctl :=
  ⟨(keep_pairs q v).init, (keep_pairs q v).skctl⟩

theorem Still.pokeAudctl (h : Still factor sinc S r p) (hp : Pos p) (hc : c ≤ never) {data : Int} (hd : 0 ≤ data ∧ data < 256) :
    XPost (fun _ => True) (Still factor sinc S { r with audctl := data }) (pokeAudctl cfg p data c) := by
  unfold Pokey.pokeAudctl
  refine XPost.ite (fun e => ?_) fun _ => ?_
  · have e2 : ({ r with audctl := data } : Chip) = r := by
      have : p.audctl = r.audctl := h.sync.regs.audctl
      rw [e, this]
    rw [e2]
    exact h
  rw [h.hush.until hc]
  have hhush := (h.hush.same (same_audctl p data) (audctl_tick p data)).initMute c
  have hsame := same_audctl p data
  obtain ⟨s1, s2⟩ := pairs_state p data
  refine ⟨hhush, ?_, h.low, ?_, ?_⟩
  · rw [wake_initMute, wake_audctl]
    have := become_wave (h.sync.audctl (c := 0) hd (by decide)) (show Chip.level { r with audctl := data } = r.level from rfl)
    have e := congrArg wake (rfl : initMute (audctlPair3 (audctlPair1 ((wake p).setAudctl data))) 0 = _)
    have hk := keep_pairs (wake p) data
    have hm : initMute (audctlPair3 (audctlPair1 ((wake p).setAudctl data))) 0 = audctlPair3 (audctlPair1 ((wake p).setAudctl data)) := by
      refine initMute_id (hk.init.trans h.sync.running) fun i hi => ?_
      have := h.sync.unmuted (by decide) i hi
      obtain ⟨c1, c2, c3, c4, c5⟩ := hk.ch i
      rw [c5, c2]; exact this
    rw [hm] at this
    exact this
  · rw [(initMute_init _ c).1, s1]; exact h.init
  · refine initMute_locks ((hsame.both ⟨h.hush.mix, h.hush.user⟩).2) (fun i hi hs => ?_) c
    rw [s2] at hs
    rw [(hsame.2 i).2.2]
    exact (h.locks i hi).2 hs

theorem Still.pokeSkctl (h : Still factor sinc S r p) (hc : c ≤ never) {addr data : Int} (ha : addr % 16 = 15) (hd : 0 ≤ data ∧ data < 256) :
    XPost (fun _ => True) (Still factor sinc S (r.prepare addr data c)) (pokeSkctl cfg p data c) := by
  have hsk := h.skctl
  unfold Pokey.pokeSkctl
  refine XPost.ite (fun e => ?_) fun _ => ?_
  · have e2 : r.prepare addr data c = r := by
      have e3 : data = r.skctl := e.trans hsk
      unfold Chip.prepare
      rw [if_neg (by rw [e3]; omega), put_15 r addr data ha, e3]
    rw [e2]
    exact h
  rw [h.hush.until hc]
  have hs : Hush (p.setSkctl data c) := h.hush.same ⟨rfl, fun _ => ⟨rfl, rfl, rfl⟩⟩ fun _ => rfl
  have hhush := ((hs.initMute c).muteCh 2 (by omega) (decide (band data 0x10 ≠ 0)) (Or.inr rfl) c).muteCh 3 (by omega)
    (decide (band data 0x10 ≠ 0)) (Or.inr rfl) c
  have hk : (r.prepare addr data c).skctl = data ∧ (r.prepare addr data c).ch = r.ch ∧ (r.prepare addr data c).audctl = r.audctl ∧
      (r.prepare addr data c).phase = (p.setSkctl data c).polyIndex := by
    unfold Chip.prepare
    have hph : p.polyIndex = 0 + r.phase := h.sync.noise
    have hct : p.audctl = r.audctl := h.sync.regs.audctl
    by_cases hi : r.skctl % 4 = 0 ∧ data % 4 ≠ 0
    · rw [if_pos ⟨ha, hi⟩]
      refine ⟨rfl, rfl, rfl, ?_⟩
      have hi2 : p.init = true ∧ band data 3 ≠ 0 := ⟨by rw [h.init]; exact decide_eq_true hi.1, by rw [band_3]; exact hi.2⟩
      have hset : (p.setSkctl data c).polyIndex = (if band p.audctl 0x80 ≠ 0 then 15 * 31 * 511 - 1 else 15 * 31 * 131071 - 1) - c := if_pos hi2
      rw [hset, hct]
      show 15 * 31 * (if bit r.audctl 7 then (511 : Int) else 131071) - 1 - c = _
      by_cases h7 : bit r.audctl 7
      · have k : band r.audctl 0x80 ≠ 0 := (band_pow_iff r.audctl 7).2 h7
        rw [if_pos h7, if_pos k]
      · have k : ¬ band r.audctl 0x80 ≠ 0 := mt (band_pow_iff r.audctl 7).1 h7
        rw [if_neg h7, if_neg k]
    · rw [if_neg (fun x => hi x.2), put_15 r addr data ha]
      refine ⟨rfl, rfl, rfl, ?_⟩
      show r.phase = if p.init = true ∧ band data 3 ≠ 0 then (if band p.audctl 0x80 ≠ 0 then 15 * 31 * 511 - 1 else 15 * 31 * 131071 - 1) - c
        else p.polyIndex
      rw [if_neg, hph, Int.zero_add]
      rintro ⟨a, b⟩
      rw [h.init] at a
      rw [band_3] at b
      exact hi ⟨of_decide_eq_true a, b⟩
  generalize r.prepare addr data c = r' at hk
  obtain ⟨k1, k2, k3, k4⟩ := hk
  obtain ⟨rc, ra, rs, rp⟩ := r'
  dsimp only at k1 k2 k3 k4
  subst k1 k2 k3
  have hb3 : (p.setSkctl rs c).init = decide (rs % 4 = 0) := by
    show decide (band rs 3 = 0) = _
    rw [band_3]
  refine ⟨hhush, ?_, h.low, hb3, ?_⟩
  · rw [wake_muteCh _ 3 (by omega), wake_muteCh _ 2 (by omega), wake_initMute]
    have g := h.sync
    refine ⟨g.ch, ⟨g.regs.audctl, g.regs.audf, g.regs.div, g.regs.period, g.regs.reload1, g.regs.reload3⟩, g.bytes, g.reload1, g.reload3,
      rfl, hd, rfl, ?_, g.sumIn, g.sumOut, g.buf, g.outside⟩
    show (p.setSkctl rs c).polyIndex = 0 + rp
    rw [k4, Int.zero_add]
  · have hi1 := initMute_ch (p.setSkctl rs c) c
    have hus : User 15 (p.setSkctl rs c) := hs.user
    have hui : User 15 ((p.setSkctl rs c).initMute c) := (hs.initMute c).user
    have base : ∀ i, i < 4 → ((p.setSkctl rs c).init = false → band (((p.setSkctl rs c).initMute c).ch i).mute 1 = 0) ∧
        band (((p.setSkctl rs c).initMute c).ch i).mute 4 = band (p.ch i).mute 4 := by
      intro i hi
      obtain ⟨e, h1, h2⟩ := hi1 i hi
      obtain ⟨m1, m2⟩ := setMute_init (hus i hi).1 e c
      rw [h2]
      exact ⟨fun hf => m2 (h1 hf), m1⟩
    have hd4 : ¬ bit rs 4 → decide (band rs 0x10 ≠ 0) = false := fun h4 => decide_eq_false (mt (band_pow_iff rs 4).1 h4)
    intro i hi
    rcases (by omega : i < 2 ∨ i = 2 ∨ i = 3) with h2 | rfl | rfl
    · have e : (((((p.setSkctl rs c).initMute c).muteCh 2 (decide (band rs 0x10 ≠ 0)) muteSerial c).muteCh 3
          (decide (band rs 0x10 ≠ 0)) muteSerial c).ch i) = ((p.setSkctl rs c).initMute c).ch i := by
        unfold Pokey.muteCh
        rw [setCh_other _ _ (by omega), setCh_other _ _ (by omega)]
      rw [e]
      exact ⟨(base i hi).1, fun _ => (base i hi).2.trans ((h.locks i hi).2 (Or.inl h2))⟩
    · have m := setMute_serial (hui 2 (by omega)).1 (decide (band rs 0x10 ≠ 0)) c
      have e : (((((p.setSkctl rs c).initMute c).muteCh 2 (decide (band rs 0x10 ≠ 0)) muteSerial c).muteCh 3
          (decide (band rs 0x10 ≠ 0)) muteSerial c).ch 2) = setMute (((p.setSkctl rs c).initMute c).ch 2) (decide (band rs 0x10 ≠ 0)) muteSerial c := by
        unfold Pokey.muteCh
        rw [setCh_other _ _ (by omega), setCh_same]
      rw [e]
      refine ⟨fun hf => m.1.trans ((base 2 (by omega)).1 hf), fun h4 => m.2 (hd4 ?_)⟩
      exact h4.resolve_left (by omega)
    · have m := setMute_serial (hui 3 (by omega)).1 (decide (band rs 0x10 ≠ 0)) c
      have e : (((((p.setSkctl rs c).initMute c).muteCh 2 (decide (band rs 0x10 ≠ 0)) muteSerial c).muteCh 3
          (decide (band rs 0x10 ≠ 0)) muteSerial c).ch 3) = setMute (((p.setSkctl rs c).initMute c).ch 3) (decide (band rs 0x10 ≠ 0)) muteSerial c := by
        unfold Pokey.muteCh
        rw [setCh_same, setCh_other _ _ (by omega)]
      rw [e]
      refine ⟨fun hf => m.1.trans ((base 3 (by omega)).1 hf), fun h4 => m.2 (hd4 ?_)⟩
      exact h4.resolve_left (by omega)

theorem Still.poke (h : Still factor sinc S r p) (hp : Pos p) (hc : c ≤ never) {addr data : Int} (hd : 0 ≤ data ∧ data < 256)
    (hq : ∀ i, i < 4 → isAudc addr i → bit data 4 → data % 16 = 0) :
    XPost (fun _ => True) (fun x => Still factor sinc S (r.prepare addr data c) x.2) (poke cfg p addr data c) := by
  have hr : band addr 0xf = addr % 16 := band_f addr
  unfold Pokey.poke
  rw [hr]
  split
  · rw [prepare_put r addr data c (by omega), put_0 r _ _ (by omega)]
    exact XPost.noEvent (h.pokeAudf hc 0 (by omega) same_tune1 tune1_tick tune1_state wake_tune1 fun hq => hq.audf1 hd)
  · rw [prepare_put r addr data c (by omega), put_1 r _ _ (by omega)]
    exact XPost.noEvent (h.pokeAudc hc 0 (by omega) hd (hq 0 (by omega) (by unfold isAudc; omega)))
  · rw [prepare_put r addr data c (by omega), put_2 r _ _ (by omega)]
    exact XPost.noEvent (h.pokeAudf hc 1 (by omega) same_tune2 tune2_tick tune2_state wake_tune2 fun hq => hq.audf2 hd)
  · rw [prepare_put r addr data c (by omega), put_3 r _ _ (by omega)]
    exact XPost.noEvent (h.pokeAudc hc 1 (by omega) hd (hq 1 (by omega) (by unfold isAudc; omega)))
  · rw [prepare_put r addr data c (by omega), put_4 r _ _ (by omega)]
    exact XPost.noEvent (h.pokeAudf hc 2 (by omega) same_tune3 tune3_tick tune3_state wake_tune3 fun hq => hq.audf3 hd)
  · rw [prepare_put r addr data c (by omega), put_5 r _ _ (by omega)]
    exact XPost.noEvent (h.pokeAudc hc 2 (by omega) hd (hq 2 (by omega) (by unfold isAudc; omega)))
  · rw [prepare_put r addr data c (by omega), put_6 r _ _ (by omega)]
    exact XPost.noEvent (h.pokeAudf hc 3 (by omega) same_tune4 tune4_tick tune4_state wake_tune4 fun hq => hq.audf4 hd)
  · rw [prepare_put r addr data c (by omega), put_7 r _ _ (by omega)]
    exact XPost.noEvent (h.pokeAudc hc 3 (by omega) hd (hq 3 (by omega) (by unfold isAudc; omega)))
  · rw [prepare_put r addr data c (by omega), put_8 r _ _ (by omega)]
    exact XPost.noEvent (h.pokeAudctl hp hc hd)
  · rw [prepare_put r addr data c (by omega), put_other r _ _ (by omega)]
    have hh : Hush (p.pokeStimer c) := by
      have hb : Both 15 (p.pokeStimer c) := Both.of ⟨h.hush.mix, h.hush.user⟩ rfl fun _ => ⟨rfl, rfl, rfl⟩
      refine ⟨hb.1, hb.2, fun j hj => ?_, fun j hj => h.hush.low j hj⟩
      show (if (p.ch j).tick ≠ never then c + (p.ch j).period else (p.ch j).tick) = never
      rw [h.hush.tick j hj]; simp
    exact ⟨hh, h.sync, h.low, h.init, h.locks.same rfl rfl fun _ => rfl⟩
  · rw [prepare_put r addr data c (by omega), put_other r _ _ (by omega)]
    refine (((pokeIrqen_same hp data c).mono (F := fun _ => True) (fun _ _ => trivial) fun _ x => x).and (core_irqen p data c)).mono
      (fun _ _ => trivial) fun x hx => ?_
    exact h.core (h.hush.same hx.1.1 hx.1.2) hx.2
  · exact XPost.noEvent (h.pokeSkctl hc (by omega) hd)
  · rename_i n0 n1 n2 n3 n4 n5 n6 n7 n8 n9 ne nf
    have m0 : (addr % 16).toNat ≠ 0 := n0
    have m1 : (addr % 16).toNat ≠ 1 := n1
    have m2 : (addr % 16).toNat ≠ 2 := n2
    have m3 : (addr % 16).toNat ≠ 3 := n3
    have m4 : (addr % 16).toNat ≠ 4 := n4
    have m5 : (addr % 16).toNat ≠ 5 := n5
    have m6 : (addr % 16).toNat ≠ 6 := n6
    have m7 : (addr % 16).toNat ≠ 7 := n7
    have m8 : (addr % 16).toNat ≠ 8 := n8
    have mf : (addr % 16).toNat ≠ 15 := nf
    rw [prepare_put r addr data c (by omega), put_other r _ _ (by omega)]
    exact h

/-! ### Both chips -/

/-- What an event of INIT does to a reference chip. -/
def prep (m : PairEvent → Bool) (r : Chip) : PairEvent → Chip
  | .write addr data c => if m (.write addr data c) then r.prepare addr data c else r
  | _ => r

theorem prepared_eq (m : PairEvent → Bool) : ∀ (es : List PairEvent) (r : Chip) (w : Int → Int) (a b : Int),
    es.foldl (Tape.prepare m) ⟨⟨r, w⟩, a, b⟩ = ⟨⟨es.foldl (prep m) r, w⟩, a, b⟩
  | [], _, _, _, _ => rfl
  | e :: es, r, w, a, b => by
    have one : Tape.prepare m ⟨⟨r, w⟩, a, b⟩ e = ⟨⟨prep m r e, w⟩, a, b⟩ := by
      cases e with
      | write addr data c =>
        show (if m (.write addr data c) then _ else _) = (⟨⟨if m (.write addr data c) then r.prepare addr data c else r, w⟩, a, b⟩ : Tape)
        split <;> rfl
      | _ => rfl
    rw [List.foldl_cons, List.foldl_cons, one]
    exact prepared_eq m es _ w a b

variable {stereo : Bool} {iir : Int} {R : Bool → Chip} {pr : Pair}

/-- The pair in INIT. -/
structure Silent (factor : Int) (sinc : Int → Int → Int) (stereo : Bool) (iir : Int) (R : Bool → Chip) (q : Pair) : Prop where
  desk : Desk factor sinc stereo 0 0 q
  sides : ∀ r, ∃ d, 0 ≤ d ∧ Filt 0 iir d (chipOf r q) ∧ Still factor sinc (0 - d) (R r) (chipOf r q)

theorem Silent.chips {b e : Pokey} {R' : Bool → Chip} (h : Silent factor sinc stereo iir R pr)
    (hb : ∃ d, 0 ≤ d ∧ Filt 0 iir d b ∧ Still factor sinc (0 - d) (R' false) b)
    (he : ∃ d, 0 ≤ d ∧ Filt 0 iir d e ∧ Still factor sinc (0 - d) (R' true) e) :
    Silent factor sinc stereo iir R' { pr with base := b, extra := e } := by
  refine ⟨⟨h.desk.mask, h.desk.rate, h.desk.table, h.desk.offset, h.desk.range⟩, fun r => ?_⟩
  cases r
  · exact hb
  · exact he

theorem Silent.step {e : PairEvent} (h : Silent factor sinc stereo iir R pr) (hp : ∀ r, Pos (chipOf r pr)) (hk : ∀ addr c, 0 ≤ c → ∃ v, pr.peek addr c = .ok v)
    (he : InInit e) (hw : e.Within (312 * 114 + 34)) :
    XPost Late (Silent factor sinc stereo iir fun r => prep (mine stereo r) (R r) e) (stepPair pr e) := by
  have one : ∀ (r : Bool) (addr data c : Int), (0 ≤ data ∧ data < 256) → c ≤ 312 * 114 + 34 →
      (∀ i, i < 4 → isAudc addr i → bit data 4 → data % 16 = 0) →
      XPost Late (fun x => ∃ d, 0 ≤ d ∧ Filt 0 iir d x.2 ∧ Still factor sinc (0 - d) ((R r).prepare addr data c) x.2)
        ((chipOf r pr).poke pr.cfg addr data c) := by
    intro r addr data c hd hc hq
    have hc' : c ≤ never := Int.le_trans hc (by decide)
    obtain ⟨d, h0, h1, h2⟩ := h.sides r
    refine (((filt_poke (cfg := pr.cfg) h1 addr data c).and (h2.poke (cfg := pr.cfg) (hp r) hc' hd hq)).and
      (h2.hush.poke (cfg := pr.cfg) (hp r) addr data hc' hq)).mono (fun _ x => x.2) fun x hx => ?_
    exact ⟨d, h0, hx.1.1, hx.1.2⟩
  cases e with
  | write addr data c =>
    have hw : (0 ≤ data ∧ data < 256) ∧ 0 ≤ c ∧ c ≤ 312 * 114 + 34 := hw
    have hm := mask_bit h.desk.mask addr
    have hv : ∀ r, prep (mine stereo r) (R r) (.write addr data c) = if mine stereo r (.write addr data c) then (R r).prepare addr data c else R r :=
      fun _ => rfl
    show XPost _ _ ((pr.poke addr data c).map Prod.snd)
    refine XPost.map ?_
    unfold Pair.poke
    refine XPost.ite (fun hb => ?_) fun hb => ?_
    · have hb := hm.1 hb
      refine XPost.bind (one true addr data c hw.1 hw.2.2 he) fun x hx => ?_
      refine h.chips ?_ ?_
      · rw [hv, if_neg (by rw [mine_write, hb]; decide)]
        exact h.sides false
      · rw [hv, if_pos (by rw [mine_write, hb]; rfl)]
        exact hx
    · have hb := mt hm.2 hb
      have hb : (stereo && right addr) = false := by simpa using hb
      refine XPost.bind (one false addr data c hw.1 hw.2.2 he) fun x hx => ?_
      refine h.chips ?_ ?_
      · rw [hv, if_pos (by rw [mine_write, hb]; rfl)]
        exact hx
      · rw [hv, if_neg (by rw [mine_write, hb]; decide)]
        exact h.sides true
  | read addr c =>
    have hw : 0 ≤ c ∧ c ≤ 312 * 114 + 34 := hw
    obtain ⟨v, hv⟩ := hk addr c hw.1
    show XPost _ _ ((pr.peek addr c).map fun _ => pr)
    rw [hv]
    exact h
  | irq c n n' =>
    obtain ⟨d, h0, h1, h2⟩ := h.sides false
    obtain ⟨d', h0', h1', h2'⟩ := h.sides true
    refine h.chips ⟨d, h0, filt_check h1 c n, h2.core ?_ (core_check _ c n)⟩ ⟨d', h0', filt_check h1' c n', h2'.core ?_ (core_check _ c n')⟩
    · exact h2.hush.same (checkIrq_same pr.base c n).1 (checkIrq_same pr.base c n).2
    · exact h2'.hush.same (checkIrq_same pr.extra c n').1 (checkIrq_same pr.extra c n').2
  | timers c =>
    obtain ⟨d, h0, h1, h2⟩ := h.sides false
    obtain ⟨d', h0', h1', h2'⟩ := h.sides true
    refine h.chips ⟨d, h0, h1, h2.core ?_ (core_timers _ c)⟩ ⟨d', h0', h1', h2'.core ?_ (core_timers _ c)⟩
    · exact h2.hush.same (same_endTimers pr.base c).1 (same_endTimers pr.base c).2
    · exact h2'.hush.same (same_endTimers pr.extra c).1 (same_endTimers pr.extra c).2
  | start => exact he.elim
  | finish => exact he.elim
  | external => exact he.elim
  | mute => exact he.elim
  | generate => exact he.elim

variable {rate : Int} {ntsc : Bool}

/-- The INIT routine. -/
theorem init_sound (hr : 0 ≤ rate ∧ rate ≤ 48000) : ∀ (es : List PairEvent) (pr : Pair) (R : Bool → Chip) (m m' : Int),
    Silent factor sinc stereo iir R pr → Pair.Good false rate ntsc stereo m m' pr → (∀ e ∈ es, InInit e) →
    (∀ e ∈ es, e.Within (312 * 114 + 34)) →
    ∃ q', produce pr es = .ok ([], q') ∧ Silent factor sinc stereo iir (fun r => es.foldl (prep (mine stereo r)) (R r)) q' ∧
      ∃ n n', Pair.Good false rate ntsc stereo n n' q'
  | [], pr, R, m, m', h, hg, _, _ => ⟨pr, rfl, h, m, m', hg⟩
  | e :: es, pr, R, m, m', h, hg, hi, hw => by
    have he := hi e (by simp)
    have hp : ∀ r, Pos (chipOf r pr) := by
      intro r
      cases r
      · obtain ⟨a, f, h1, h2⟩ := hg.base.regs
        exact h1.pos h2
      · obtain ⟨a, f, h1, h2⟩ := hg.extra.regs
        exact h1.pos h2
    have k1 := h.step hp (fun addr c hc => hg.peek addr hc) he (hw e (by simp))
    have k2 := Pair.stepPair_good hg hr e (hw e (by simp)) (es := []) (es' := []) (fun h => nomatch h) (fun h => nomatch h)
    have hq : ∀ b f, e ≠ .generate b f := by
      intro b f hh
      subst hh
      exact he
    cases hs : stepPair pr e with
    | error x =>
      rw [hs] at k1 k2
      have k2 : Bad false x := k2
      have k1 : Late x := k1
      rw [k2.2] at k1
      rcases k1 with k | k <;> cases k
    | ok q1 =>
      rw [hs] at k1 k2
      obtain ⟨q', a1, a2, a3⟩ := init_sound hr es q1 _ _ _ k1 k2 (fun x hx => hi x (by simp [hx])) (fun x hx => hw x (by simp [hx]))
      refine ⟨q', ?_, a2, a3⟩
      show (produceOne pr e >>= fun r => produce r.2 es >>= fun s => .ok (r.1 ++ s.1, s.2)) = _
      rw [produce_quiet hq, hs]
      show (produce q1 es >>= fun s => .ok ([] ++ s.1, s.2)) = _
      rw [a1]
      rfl

/-! ### The channels are unmuted -/

theorem Sync.near (h : Sync factor sinc T S t p s) (e : ∀ i, i < 4 → q.ch i = p.ch i) (e1 : { q with ch := p.ch } = p) : Sync factor sinc T S t q s := by
  have hb : q.bufLen = p.bufLen := by rw [← e1]
  have hbuf : q.buf = p.buf := by rw [← e1]
  have h1 : q.audctl = p.audctl := by rw [← e1]
  have h2 : q.div = p.div := by rw [← e1]
  have h3 : q.reload1 = p.reload1 := by rw [← e1]
  have h4 : q.reload3 = p.reload3 := by rw [← e1]
  have h5 : q.skctl = p.skctl := by rw [← e1]
  have h6 : q.init = p.init := by rw [← e1]
  have h7 : q.polyIndex = p.polyIndex := by rw [← e1]
  have h8 : q.sumIn = p.sumIn := by rw [← e1]
  have h9 : q.sumOut = p.sumOut := by rw [← e1]
  refine ⟨fun i hi => by rw [e i hi]; exact h.ch i hi, ⟨h1.trans h.regs.audctl, fun i hi => by rw [e i hi]; exact h.regs.audf i hi, h2.trans h.regs.div,
    fun i hi => by rw [e i hi]; exact h.regs.period i hi, by rw [h3]; exact h.regs.reload1, by rw [h4]; exact h.regs.reload3⟩, h.bytes, fun k => h3.trans (h.reload1 k),
    fun k => h4.trans (h.reload3 k), h5.trans h.skctl, h.sk, h6.trans h.running, h7.trans h.noise, h8.trans h.sumIn, h9.trans h.sumOut,
    fun k => by rw [hbuf]; exact h.buf k, fun k hk => by rw [hbuf]; exact h.outside k (by rw [← hb]; exact hk)⟩

theorem Still.unmute (h : Still factor sinc S r p) (hw : r.Working) : Sync factor sinc 0 S 0 (p.muteAll 0) ⟨r, fun _ => 0⟩ := by
  have hi : p.init = false := by rw [h.init]; exact decide_eq_false hw.1
  refine h.sync.near (fun i hi4 => ?_) ?_
  · have hu := h.hush.user i hi4
    obtain ⟨l1, l4⟩ := h.locks i hi4
    have l1 := l1 hi
    have l4 := l4 (Or.inr (by rw [h.skctl]; exact hw.2))
    have hm : (p.ch i).mute = 2 := by
      obtain ⟨n, hn⟩ := Int.eq_ofNat_of_zero_le hu.1.1
      have tb := (lock_table ⟨n, by omega⟩).2.2.2.2.2.2
      have hu2 : band (p.ch i).mute 2 ≠ 0 := hu.2.2 (bit15 hi4)
      rw [hn] at l1 l4 hu2 ⊢
      exact tb hu2 l1 l4
    have ht := h.hush.tick i hi4
    have hz : decide (band 0 (shl 1 i) ≠ 0) = false := by
      refine decide_eq_false ?_
      intro hx
      have := (band_pow_iff 0 i).1 hx
      unfold bit at this
      simp at this
    rw [wake_ch p i hi4]
    show (if i < 4 then setMute (p.ch i) (decide (band 0 (shl 1 i) ≠ 0)) muteUser 0 else _) = _
    rw [if_pos hi4, hz]
    show ({ p.ch i with mute := band (p.ch i).mute (bnot muteUser), tick := if band (p.ch i).mute (bnot muteUser) = 0 ∧ (p.ch i).tick = never then 0 else (p.ch i).tick } : Channel) = _
    rw [hm, ht]
    have hb : band 2 (bnot muteUser) = 0 := by decide
    rw [hb, if_pos ⟨rfl, rfl⟩]
  · show ({ p with ch := (wake p).ch } : Pokey) = { p with init := false, ch := (wake p).ch }
    rw [← hi]

/-- A chip after INIT. -/
theorem Silent.bound (h : Silent factor sinc stereo iir R pr) (hw : ∀ r, (R r).Working) :
    Bound z factor sinc stereo 0 0 iir (fun r => ⟨⟨R r, fun _ => 0⟩, 0, 0⟩)
      { pr with base := pr.base.muteAll 0, extra := pr.extra.muteAll 0 } := by
  refine ⟨⟨h.desk.mask, h.desk.rate, h.desk.table, h.desk.offset, h.desk.range⟩, fun r _ => ?_, fun _ _ => Int.le_refl _⟩
  obtain ⟨d, h0, h1, h2⟩ := h.sides r
  have e : chipOf r { pr with base := pr.base.muteAll 0, extra := pr.extra.muteAll 0 } = (chipOf r pr).muteAll 0 := by
    cases r <;> rfl
  rw [e]
  have hf : Filt 0 iir d ((chipOf r pr).muteAll 0) := h1
  have ht : ((chipOf r pr).muteAll 0).trailing = d := hf.2.2
  rw [ht]
  exact ⟨rfl, h0, ⟨(h2.unmute (hw r)).lazy, ⟨d, hf⟩, show (0 : Int) - 0 < 900000 by decide⟩⟩

theorem Silent.good {m m' : Int} (h : Silent factor sinc stereo iir R pr) (hg : Pair.Good false rate ntsc stereo m m' pr) (hr : 0 ≤ rate ∧ rate ≤ 48000) :
    Pair.Good true rate ntsc stereo 0 0 { pr with base := pr.base.muteAll 0, extra := pr.extra.muteAll 0 } := by
  have k2 : Pair.Good false rate ntsc stereo _ _ { pr with base := pr.base.muteAll 0, extra := pr.extra.muteAll 0 } :=
    Pair.stepPair_good hg hr (.mute 0) trivial (es := []) (es' := []) (fun h => nomatch h) (fun h => nomatch h)
  have one : ∀ p : Pokey, Hush p → Both 0 (p.muteAll 0) := by
    intro p hp
    refine ⟨hp.mix.congr rfl fun i _ => ?_, muteAll_user hp.user 0⟩
    unfold muteAll setMute; dsimp only; repeat' split
    all_goals exact ⟨rfl, rfl⟩
  obtain ⟨d, h0, h1, h2⟩ := h.sides false
  obtain ⟨d', h0', h1', h2'⟩ := h.sides true
  exact ⟨⟨k2.base.regs, fun _ => one _ h2.hush, k2.base.box⟩, ⟨k2.extra.regs, fun _ => one _ h2'.hush, k2.extra.box⟩,
    k2.mask, k2.factor, k2.offset, k2.start, k2.stop⟩

/-! ### The beginning -/

theorem start_still {p : Pokey} (rate : Int) (hz : p.sumOut = 0) :
    Still factor sinc (0 - ((p.initChip rate).muteAll 0).trailing) Chip.start ((p.initChip rate).muteAll 255) := by
  have e15 : (p.initChip rate).muteAll 255 = (p.initChip rate).muteAll 15 := by
    have : (fun i => if i < 4 then setMute ((p.initChip rate).ch i) (decide (band 255 (shl 1 i) ≠ 0)) muteUser 0 else (p.initChip rate).ch i) =
        fun i => if i < 4 then setMute ((p.initChip rate).ch i) (decide (band 15 (shl 1 i) ≠ 0)) muteUser 0 else (p.initChip rate).ch i := by
      funext i
      by_cases hi : i < 4
      · rw [if_pos hi, if_pos hi]
        rcases (by omega : i = 0 ∨ i = 1 ∨ i = 2 ∨ i = 3) with rfl | rfl | rfl | rfl <;> rfl
      · rw [if_neg hi, if_neg hi]
    unfold muteAll
    rw [this]
  have hc : ∀ m : Int, (m = 0 ∨ m = 255) → ∀ i, i < 4 → ({ ((p.initChip rate).muteAll m).ch i with tick := 0, mute := 0 } : Channel) = ⟨0, 0, 28, 0, never, 0, 0, 0⟩ ∧
      (((p.initChip rate).muteAll m).ch i).mute = if m = 0 then 0 else 2 := by
    intro m hm i hi
    have e : ((p.initChip rate).muteAll m).ch i = setMute Channel.fresh (decide (band m (shl 1 i) ≠ 0)) muteUser 0 := if_pos hi
    rw [e]
    rcases hm with rfl | rfl <;> rcases (by omega : i = 0 ∨ i = 1 ∨ i = 2 ∨ i = 3) with rfl | rfl | rfl | rfl <;> decide
  refine ⟨e15 ▸ initChip_hush p rate, ?_, fun i _ => rfl, rfl, ?_⟩
  · refine (start_sync (factor := factor) (sinc := sinc) rate hz).near (fun i hi => ?_) rfl
    rw [wake_ch _ i hi, (hc 255 (Or.inr rfl) i hi).1, ← (hc 0 (Or.inl rfl) i hi).1]
    have e : ((p.initChip rate).muteAll 0).ch i = setMute Channel.fresh (decide (band 0 (shl 1 i) ≠ 0)) muteUser 0 := if_pos hi
    rw [e]
    rcases (by omega : i = 0 ∨ i = 1 ∨ i = 2 ∨ i = 3) with rfl | rfl | rfl | rfl <;> decide
  · intro i hi
    have := (hc 255 (Or.inr rfl) i hi).2
    rw [this]
    exact ⟨fun _ => by decide, fun _ => by decide⟩

/-- A pair that has been initialised, with all the channels muted. -/
def muted (q : Pair) (ntsc stereo : Bool) (rate : Int) : Pair :=
  { q.initPair ntsc stereo rate with
    base := (q.base.initChip rate).muteAll 255
    extra := (q.extra.initChip rate).muteAll 15 }

theorem muteAll_255 (p : Pokey) : p.muteAll 255 = p.muteAll 15 := by
  have : (fun i => if i < 4 then setMute (p.ch i) (decide (band 255 (shl 1 i) ≠ 0)) muteUser 0 else p.ch i) =
      fun i => if i < 4 then setMute (p.ch i) (decide (band 15 (shl 1 i) ≠ 0)) muteUser 0 else p.ch i := by
    funext i
    by_cases hi : i < 4
    · rw [if_pos hi, if_pos hi]
      rcases (by omega : i = 0 ∨ i = 1 ∨ i = 2 ∨ i = 3) with rfl | rfl | rfl | rfl <;> rfl
    · rw [if_neg hi, if_neg hi]
  unfold muteAll
  rw [this]

theorem muted_silent {q : Pair} (hr : 1 ≤ rate) (hz : q.base.sumOut = 0 ∧ q.extra.sumOut = 0) :
    Silent (begun q ntsc stereo rate).factor q.sinc stereo (Int.tdiv (44100 * 6) rate) (fun _ => Chip.start) (muted q ntsc stereo rate) := by
  have one : ∀ p : Pokey, p.sumOut = 0 → ∃ d, 0 ≤ d ∧ Filt 0 (Int.tdiv (44100 * 6) rate) d ((p.initChip rate).muteAll 255) ∧
      Still (begun q ntsc stereo rate).factor q.sinc (0 - d) Chip.start ((p.initChip rate).muteAll 255) := by
    intro p hp
    refine ⟨_, ?_, ⟨rfl, rfl, rfl⟩, start_still rate hp⟩
    show 0 ≤ Int.tdiv (rate * 312 * 114) 1773447 + 32 + 2
    have := Int.tdiv_nonneg (a := rate * 312 * 114) (b := 1773447) (by omega) (by decide)
    omega
  refine ⟨⟨rfl, rfl, rfl, ?_, ?_⟩, ?_⟩
  · show (0 : Int) + 0 * 2 ^ 18 = 0 * _
    simp
  · show (0 : Int) ≤ 0 ∧ (0 : Int) < 2 ^ 18
    decide
  · intro r
    cases r
    · exact one q.base hz.1
    · have := one q.extra hz.2
      rw [muteAll_255] at this
      exact this

end Asap.Sound
