import Verif.Lemmas.SoundWrite
import Verif.Spec.SoundPlay

/-! Register writes, interrupts and reads. -/

namespace Asap.Sound
open Asap.Spec Asap.Spec.Sound Asap.Pokey

variable {factor : Int} {sinc : Int → Int → Int} {T S t c : Int} {p q : Pokey} {r : Chip}
  {cfg : Cfg} {z : Noise} {s : Sound}

/-! ### What does not concern the sound -/

/-- The chip without timers and without the filter of its output. -/
def core (p : Pokey) : Pokey :=
  { p with ch := fun i => { p.ch i with timer := 0 }, irqst := 0, iirAcc := 0, iirRate := 0, trailing := 0 }

theorem Sync.core (h : Sync factor sinc T S t p s) : Sync factor sinc T S t (core p) s :=
  ⟨fun i hi => let k := h.ch i hi; ⟨k.audc, k.byte, k.tick, k.left, k.out, k.delta, k.loud, k.mute⟩,
    ⟨h.regs.audctl, h.regs.audf, h.regs.div, h.regs.period, h.regs.reload1, h.regs.reload3⟩, h.bytes, h.reload1, h.reload3,
    h.skctl, h.sk, h.running, h.noise, h.sumIn, h.sumOut, h.buf, h.outside⟩

theorem Sync.of_core (h : Sync factor sinc T S t (Sound.core p) s) : Sync factor sinc T S t p s :=
  ⟨fun i hi => let k := h.ch i hi; ⟨k.audc, k.byte, k.tick, k.left, k.out, k.delta, k.loud, k.mute⟩,
    ⟨h.regs.audctl, h.regs.audf, h.regs.div, h.regs.period, h.regs.reload1, h.regs.reload3⟩, h.bytes, h.reload1, h.reload3,
    h.skctl, h.sk, h.running, h.noise, h.sumIn, h.sumOut, h.buf, h.outside⟩

theorem Sync.twin (h : Sync factor sinc T S t p s) (e : Sound.core q = Sound.core p) : Sync factor sinc T S t q s := by
  have := h.core
  rw [← e] at this
  exact this.of_core

theorem Lazy.twin (h : Lazy z factor sinc T S t p s) (e : Sound.core q = Sound.core p) : Lazy z factor sinc T S t q s := by
  obtain ⟨t0, s0, h0, h1, h2⟩ := h
  exact ⟨t0, s0, h0, h1.twin e, h2⟩

theorem core_timer (p : Pokey) (i : Nat) (v : Int) : core (p.setCh i { p.ch i with timer := v }) = core p := by
  have : (fun j => { (p.setCh i { p.ch i with timer := v }).ch j with timer := 0 }) = fun j => { p.ch j with timer := 0 } := by
    funext j
    by_cases e : j = i
    · subst e; rw [setCh_same]
    · rw [setCh_other _ _ e]
  show { p with ch := _, irqst := 0, iirAcc := 0, iirRate := 0, trailing := 0 } = _
  rw [this]
  rfl

theorem core_irqen1 (p : Pokey) (i : Nat) (data c n : Int) :
    XPost (fun _ => True) (fun r => core r.2 = core p) (irqenOne p i data c n) := by
  unfold irqenOne
  refine XPost.ite (fun _ => XPost.ite (fun _ => ?_) fun _ => rfl) fun _ => core_timer p i never
  refine XPost.bind (P := fun _ => True) ?_ fun t _ => core_timer p i t
  cases nextTimer (p.ch i).period c (c - (p.ch i).tick).toNat (p.ch i).tick <;> trivial

theorem core_irqen (p : Pokey) (data c : Int) :
    XPost (fun _ => True) (fun r => core r.2 = core p) (pokeIrqen p data c) := by
  unfold pokeIrqen
  refine XPost.bind (core_irqen1 _ 3 data c never) fun r hr => ?_
  refine XPost.bind (core_irqen1 _ 1 data c _) fun r1 hr1 => ?_
  refine (core_irqen1 _ 0 data c _).mono (fun _ x => x) fun r2 hr2 => ?_
  exact hr2.trans (hr1.trans hr)

theorem core_check1 (p : Pokey) (i : Nat) (c n : Int) : core (checkIrqOne p i c n).2 = core p := by
  unfold checkIrqOne
  split
  · exact core_timer p i never
  · rfl

theorem core_check (p : Pokey) (c n : Int) : core (checkIrq p c n).2 = core p := by
  unfold checkIrq
  exact (core_check1 _ 0 c _).trans ((core_check1 _ 1 c _).trans (core_check1 p 3 c n))

theorem core_timers (p : Pokey) (c : Int) : core (p.endTimers c) = core p := by
  have : (fun j => { (p.endTimers c).ch j with timer := 0 }) = fun j => { p.ch j with timer := 0 } := by
    funext j
    unfold endTimers
    dsimp only
    split <;> rfl
  show { p with ch := _, irqst := 0, iirAcc := 0, iirRate := 0, trailing := 0 } = _
  rw [this]
  rfl

/-! ### Register writes -/

/-- The registers, of which the emulator knows the newest values even if it is late. -/
theorem Lazy.known (h : Lazy z factor sinc T S t p s) :
    p.audctl = s.chip.audctl ∧ p.skctl = s.chip.skctl ∧
    ∀ i, i < 4 → (p.ch i).audf = (s.chip.ch i).audf ∧ (p.ch i).audc = (s.chip.ch i).audc := by
  obtain ⟨t0, s0, h0, h1, rfl⟩ := h
  have k := kin_wait z factor sinc (t - t0).toNat t0 s0
  refine ⟨h1.regs.audctl.trans k.1.symm, h1.skctl.trans k.2.1.symm, fun i hi => ?_⟩
  have := k.2.2 i
  exact ⟨(h1.regs.audf i hi).trans this.1.symm, ((h1.ch i hi).audc).trans this.2.symm⟩

theorem set_self (r : Chip) (i : Nat) : r.set i (r.ch i) = r := by
  unfold Chip.set
  have : (fun j => if j = i then r.ch i else r.ch j) = r.ch := by
    funext j
    split
    · rename_i e; rw [e]
    · rfl
  rw [this]

theorem set_audf_self (r : Chip) (i : Nat) {v : Int} (h : v = (r.ch i).audf) : r.set i { r.ch i with audf := v } = r := by
  have : ({ r.ch i with audf := v } : Tone) = r.ch i := by rw [h]
  rw [this, set_self]

theorem set_audc_self (r : Chip) (i : Nat) {v : Int} (h : (r.ch i).audc = v) : r.set i ((r.ch i).putAudc v) = r := by
  have : (r.ch i).putAudc v = r.ch i := if_pos h
  rw [this, set_self]

/-- A write without an effect. -/
theorem Lazy.vain (h : Lazy z factor sinc T S t p s) (hc : t ≤ c) {addr data : Int}
    (hr : ∀ r : Chip, Kin s.chip r → r.put addr data = r) :
    Lazy z factor sinc T S c p (s.write z factor sinc t c addr data) := by
  unfold Sound.write
  dsimp only
  rw [hr _ (kin_wait z factor sinc _ t s), become_same _ _ _ _ _ rfl]
  exact h.wait hc

theorem put_0 (r : Chip) (addr data : Int) (h : addr % 16 = 0) : r.put addr data = r.set 0 { r.ch 0 with audf := data } := if_pos h
theorem put_1 (r : Chip) (addr data : Int) (h : addr % 16 = 1) : r.put addr data = r.set 0 ((r.ch 0).putAudc data) := by
  unfold Chip.put; repeat (first | rw [if_pos h] | rw [if_neg (by omega)])
theorem put_2 (r : Chip) (addr data : Int) (h : addr % 16 = 2) : r.put addr data = r.set 1 { r.ch 1 with audf := data } := by
  unfold Chip.put; repeat (first | rw [if_pos h] | rw [if_neg (by omega)])
theorem put_3 (r : Chip) (addr data : Int) (h : addr % 16 = 3) : r.put addr data = r.set 1 ((r.ch 1).putAudc data) := by
  unfold Chip.put; repeat (first | rw [if_pos h] | rw [if_neg (by omega)])
theorem put_4 (r : Chip) (addr data : Int) (h : addr % 16 = 4) : r.put addr data = r.set 2 { r.ch 2 with audf := data } := by
  unfold Chip.put; repeat (first | rw [if_pos h] | rw [if_neg (by omega)])
theorem put_5 (r : Chip) (addr data : Int) (h : addr % 16 = 5) : r.put addr data = r.set 2 ((r.ch 2).putAudc data) := by
  unfold Chip.put; repeat (first | rw [if_pos h] | rw [if_neg (by omega)])
theorem put_6 (r : Chip) (addr data : Int) (h : addr % 16 = 6) : r.put addr data = r.set 3 { r.ch 3 with audf := data } := by
  unfold Chip.put; repeat (first | rw [if_pos h] | rw [if_neg (by omega)])
theorem put_7 (r : Chip) (addr data : Int) (h : addr % 16 = 7) : r.put addr data = r.set 3 ((r.ch 3).putAudc data) := by
  unfold Chip.put; repeat (first | rw [if_pos h] | rw [if_neg (by omega)])
theorem put_8 (r : Chip) (addr data : Int) (h : addr % 16 = 8) : r.put addr data = { r with audctl := data } := by
  unfold Chip.put; repeat (first | rw [if_pos h] | rw [if_neg (by omega)])
theorem put_15 (r : Chip) (addr data : Int) (h : addr % 16 = 15) : r.put addr data = { r with skctl := data } := by
  unfold Chip.put; repeat (first | rw [if_pos h] | rw [if_neg (by omega)])
theorem put_other (r : Chip) (addr data : Int) (h : addr % 16 = 9 ∨ 9 < addr % 16 ∧ addr % 16 < 15) : r.put addr data = r := by
  unfold Chip.put; repeat (first | rw [if_neg (by omega)])

theorem write_eq {addr data : Int} {f : Chip → Chip} (h : ∀ r : Chip, r.put addr data = f r) :
    s.write z factor sinc t c addr data = (s.wait z factor sinc (c - t).toNat t).become factor sinc c
      (f (s.wait z factor sinc (c - t).toNat t).chip) := by
  rw [← h]
  rfl

theorem Lazy.pokeAudf (h : Lazy z factor sinc T S t p s) (o : Origin factor sinc T S cfg) (hc : t ≤ c) (i : Nat) (hi : i < 4)
    (tune : Pokey → Int → Pokey) {addr data : Int} (hp : ∀ r : Chip, r.put addr data = r.set i { r.ch i with audf := data })
    (ht : ∀ {p s}, Sync factor sinc T S c p s →
      Sync factor sinc T S c (tune (p.setAudf i data) data) (s.become factor sinc c (s.chip.set i { s.chip.ch i with audf := data }))) :
    XPost (fun _ => True) (fun q => Lazy z factor sinc T S c q (s.write z factor sinc t c addr data))
      (Pokey.pokeAudf cfg p i tune data (c - T)) := by
  unfold Pokey.pokeAudf
  refine XPost.ite (fun e => ?_) fun _ => XPost.bind (h.until o hc) fun q hq => ?_
  · refine h.vain hc fun r hr => ?_
    rw [hp]
    exact set_audf_self r i (e.trans (((h.known).2.2 i hi).1.trans (hr.2.2 i).1.symm))
  · have := (ht hq).lazy (z := z)
    rw [write_eq hp]
    exact this

theorem Lazy.pokeAudc (h : Lazy z factor sinc T S t p s) (o : Origin factor sinc T S cfg) (hc : t ≤ c) (i : Nat) (hi : i < 4)
    {addr data : Int} (hd : 0 ≤ data ∧ data < 256) (hp : ∀ r : Chip, r.put addr data = r.set i ((r.ch i).putAudc data)) :
    XPost (fun _ => True) (fun q => Lazy z factor sinc T S c q (s.write z factor sinc t c addr data))
      (setAudc cfg p i data (c - T)) := by
  unfold setAudc
  refine XPost.ite (fun e => ?_) fun ne => XPost.bind (h.until o hc) fun q hq => ?_
  · refine h.vain hc fun r hr => ?_
    rw [hp]
    exact set_audc_self r i (((hr.2.2 i).2.trans (((h.known).2.2 i hi).2.symm)).trans e)
  · have k := kin_wait z factor sinc (c - t).toNat t s
    refine (hq.audc o i hi hd ?_).mono (fun _ x => x) fun q' hq' => ?_
    · intro e
      exact ne ((((h.known).2.2 i hi).2.trans (k.2.2 i).2.symm).trans e)
    · rw [write_eq hp]
      exact hq'.lazy

theorem Lazy.poke (h : Lazy z factor sinc T S t p s) (o : Origin factor sinc T S cfg) (hc : t ≤ c) (hT : c - T < 900000)
    {addr data : Int} (hd : 0 ≤ data ∧ data < 256) (hp : Plain addr data) :
    XPost (fun _ => True) (fun r => Lazy z factor sinc T S c r.2 (s.write z factor sinc t c addr data))
      (poke cfg p addr data (c - T)) := by
  have hr : band addr 0xf = addr % 16 := band_f addr
  unfold Pokey.poke
  rw [hr]
  split
  · exact XPost.noEvent (h.pokeAudf o hc 0 (by omega) tune1 (fun r => put_0 r _ _ (by omega)) fun hq => hq.audf1 hd)
  · exact XPost.noEvent (h.pokeAudc o hc 0 (by omega) hd fun r => put_1 r _ _ (by omega))
  · exact XPost.noEvent (h.pokeAudf o hc 1 (by omega) tune2 (fun r => put_2 r _ _ (by omega)) fun hq => hq.audf2 hd)
  · exact XPost.noEvent (h.pokeAudc o hc 1 (by omega) hd fun r => put_3 r _ _ (by omega))
  · exact XPost.noEvent (h.pokeAudf o hc 2 (by omega) tune3 (fun r => put_4 r _ _ (by omega)) fun hq => hq.audf3 hd)
  · exact XPost.noEvent (h.pokeAudc o hc 2 (by omega) hd fun r => put_5 r _ _ (by omega))
  · exact XPost.noEvent (h.pokeAudf o hc 3 (by omega) tune4 (fun r => put_6 r _ _ (by omega)) fun hq => hq.audf4 hd)
  · exact XPost.noEvent (h.pokeAudc o hc 3 (by omega) hd fun r => put_7 r _ _ (by omega))
  · rename_i e
    refine XPost.noEvent (P := fun q => Lazy z factor sinc T S c q (s.write z factor sinc t c addr data)) ?_
    have hput : ∀ r : Chip, r.put addr data = { r with audctl := data } := fun r => put_8 r _ _ (by omega)
    unfold pokeAudctl
    refine XPost.ite (fun e => ?_) fun _ => XPost.bind (h.until o hc) fun q hq => ?_
    · refine h.vain hc fun r hr => ?_
      rw [hput, e, h.known.1, ← hr.1]
    · have := (hq.audctl (c := c - T) hd hT).lazy (z := z)
      rw [write_eq hput]
      exact this
  · rename_i e
    exact absurd (show addr % 16 = 9 by omega) hp.1
  · refine (core_irqen p data (c - T)).mono (fun _ x => x) fun q hq => ?_
    exact (h.vain hc fun r _ => put_other r _ _ (by omega)).twin hq
  · rename_i e
    refine XPost.noEvent (P := fun q => Lazy z factor sinc T S c q (s.write z factor sinc t c addr data)) ?_
    have hput : ∀ r : Chip, r.put addr data = { r with skctl := data } := fun r => put_15 r _ _ (by omega)
    obtain ⟨g3, g4⟩ := hp.2 (by omega)
    unfold pokeSkctl
    refine XPost.ite (fun e => ?_) fun _ => XPost.bind (h.until o hc) fun q hq => ?_
    · refine h.vain hc fun r hr => ?_
      rw [hput, e, h.known.2.1, ← hr.2.1]
    · have := (hq.skctl' (c := c - T) hd g3 g4 hT).lazy (z := z)
      rw [write_eq hput]
      exact this
  · rename_i n0 n1 n2 n3 n4 n5 n6 n7 n8 n9 ne nf
    refine h.vain hc fun r _ => put_other r _ _ ?_
    have m0 : (addr % 16).toNat ≠ 0 := n0
    have m1 : (addr % 16).toNat ≠ 1 := n1
    have m2 : (addr % 16).toNat ≠ 2 := n2
    have m3 : (addr % 16).toNat ≠ 3 := n3
    have m4 : (addr % 16).toNat ≠ 4 := n4
    have m5 : (addr % 16).toNat ≠ 5 := n5
    have m6 : (addr % 16).toNat ≠ 6 := n6
    have m7 : (addr % 16).toNat ≠ 7 := n7
    have m8 : (addr % 16).toNat ≠ 8 := n8
    have mf : (addr % 16).toNat ≠ 15 := nf
    omega

end Asap.Sound
