import Verif.Props.Digital
import Verif.Lemmas.Reset
import Verif.Spec.Reset
import Verif.Model.Pokey

/-! # C67: the POKEYs at the start of executables

The full claim, `Fresh 0xd200` and `Fresh 0xd210` when the song is initialised, is false: the code writes 3 to 0xD200, the period of the first channel, instead of 0xD20F. -/

namespace Asap.Props
open Asap.Isa Asap.Spec.Flat Asap.Flat Asap.Spec.Reset
open Asap.Spec.Schedule (Driver)
open Asap.Spec.Convert (cfg wr wr_self wr_other)

/-- The registers ASAP has when it starts a song: the ones of `Fresh`. -/
theorem C67_asap (p : Pokey) (rate : Int) :
    (∀ i, ((Pokey.initChip p rate).ch i).audf = 0 ∧ ((Pokey.initChip p rate).ch i).audc = 0) ∧ (Pokey.initChip p rate).audctl = 0 ∧ (Pokey.initChip p rate).skctl = 3 :=
  ⟨fun _ => ⟨rfl, rfl⟩, rfl, rfl⟩

theorem started_clear {before mem : Int → Int} {changed : Int → Prop} (hk : ∀ b, ¬ changed b → mem b = before b) (hs : ¬ changed 0xd20f) :
    Started before (wr (wr (clear 8 mem) 0xd21f 3) 0xd200 3) changed := by
  refine ⟨⟨fun r h1 h2 => ?_, ?_⟩, fun r h1 h2 => ?_, wr_self _ _ _, ?_, fun b h1 h2 h3 h4 => ?_⟩
  · rw [wr_other (by omega), wr_other (by omega), clear_self 8 (by omega) (by omega)]
  · rw [wr_other (by omega)]; exact wr_self _ _ _
  · rw [wr_other (by omega), wr_other (by omega), clear_self 8 (by omega) (by omega)]
  · rw [wr_other (by omega), wr_other (by omega), clear_other 8 (by omega) (by omega), hk _ hs]
  · rw [wr_other (by omega), wr_other (by omega), clear_other 8 (by omega) (by omega), hk _ h4]

/-- Types other than D: from 0x13A, where the title screen returns to, with 0 in A. -/
theorem C67_start_partial (st : State) (fastplay : Nat) (hc : Driver playerDriver fastplay st.mem) (hpc : st.pc = 0x13a) (ha : st.a = 0) (hd : st.d = false) :
    ∃ st', Runs st st' ∧ st'.pc = 0x14d ∧ st'.d = false ∧ st'.s = st.s ∧ st'.y = st.y ∧ Started st.mem st'.mem (fun _ => False) := by
  have R : Resets 0x13a st.mem := by
    intro j b e
    have hj := (List.getElem?_eq_some_iff.mp e).1
    rw [show resetCode.length = 19 by decide] at hj
    have e' : driverCode[22 + j]? = some b := by
      rw [← e]
      have : ∀ j : Fin 19, driverCode[22 + j.val]? = resetCode[j.val]? := by decide +kernel
      exact this ⟨j, hj⟩
    exact Driver.at (R := hc) (22 + j) (by omega) e' (by omega) (by unfold Spec.Schedule.Variable; omega)
  obtain ⟨st', r, ⟨e1, e2, e3, e4⟩, e5⟩ := to_reset (Q := fun g => g.pc = 0x14d ∧ g.s = st.s ∧ g.y = st.y ∧ g.mem = wr (wr (clear 8 st.mem) 0xd21f 3) 0xd200 3)
    (x := st.x) (y := st.y) (s := st.s) (z := st.z) (c := st.c) (by omega) R (fun z => To.refl ⟨rfl, rfl, rfl, rfl⟩) st (by rw [← ha, ← hpc]; rfl) hd
  have e4 : st'.mem = _ := e4
  exact ⟨st', r, e1, e5, e2, e3, by rw [e4]; exact started_clear (fun _ _ => rfl) id⟩

/-- Type D: interrupts of POKEY are switched off, too.  `C66_start` goes on at 0x150. -/
theorem C67_digital_partial (st : State) (hc : Spec.Digital.Program digitalDriver st.mem) (hpc : st.pc = 0x13a) (ha : st.a = 0) (hd : st.d = false) :
    ∃ st', Runs st st' ∧ st'.pc = 0x150 ∧ st'.d = false ∧ st'.s = st.s ∧ st'.y = st.y ∧ Started st.mem st'.mem (fun b => b = 0xd20e) ∧ st'.mem 0xd20e = 0 ∧
      Spec.Digital.Program digitalDriver st'.mem := by
  have D1 : Digi (wr st.mem 0xd20e 0) := Digi.stack hc (by omega)
  have R : Resets 0x13d (wr st.mem 0xd20e 0) := by
    intro j b e
    have hj := (List.getElem?_eq_some_iff.mp e).1
    rw [show resetCode.length = 19 by decide] at hj
    have e' : digitalCode[25 + j]? = some b := by
      rw [← e]
      have : ∀ j : Fin 19, digitalCode[25 + j.val]? = resetCode[j.val]? := by decide +kernel
      exact this ⟨j, hj⟩
    exact D1.at (25 + j) (by omega) e' (by omega)
  have go : To ⟨0, st.x, st.y, st.s, 0x13a, st.z, st.c, st.mem⟩
      (fun g => g.pc = 0x150 ∧ g.s = st.s ∧ g.y = st.y ∧ g.mem = wr (wr (clear 8 (wr st.mem 0xd20e 0)) 0xd21f 3) 0xd200 3) := by
    refine to_sta_abs (p := 0xd20e) (Digi.at hc 0x16) (by rw [Digi.at hc 0x17 (b := 0x0e), Digi.at hc 0x18 (b := 0xd2)]; omega) (by omega) ?_
    exact to_reset (q := 0x13d) (by omega) R fun z => To.refl ⟨rfl, rfl, rfl, rfl⟩
  obtain ⟨st', r, ⟨e1, e2, e3, e4⟩, e5⟩ := go st (by rw [← ha, ← hpc]; rfl) hd
  have e4 : st'.mem = _ := e4
  have S : Started st.mem st'.mem (fun b => b = 0xd20e) := by rw [e4]; exact started_clear (fun b hb => wr_other hb) (by omega)
  refine ⟨st', r, e1, e5, e2, e3, S, ?_, Digi.kept hc fun b h1 h2 => S.kept b (by omega) (by omega) (by omega) (by omega)⟩
  rw [e4, wr_other (by omega), wr_other (by omega), clear_other 8 (by omega) (by omega), wr_self]

/-- The first POKEY is never fresh. -/
theorem C67_not_fresh {before after : Int → Int} {changed : Int → Prop} (h : Started before after changed) : ¬ Fresh 0xd200 after := by
  intro f
  have h1 := f.silent 0 (by omega) (by omega)
  have h2 := h.period
  rw [show (0xd200 : Int) + 0 = 0xd200 from rfl] at h1
  omega

/-- Whatever mode the serial port was in, e.g. two-tone mode, it stays in it. -/
theorem C67_skctl_stays {before after : Int → Int} {changed : Int → Prop} (h : Started before after changed) (hb : before 0xd20f ≠ 3) : after (0xd200 + 15) ≠ 3 := by
  rw [show (0xd200 : Int) + 15 = 0xd20f from rfl, h.skctl]
  exact hb

/-! ## Cases -/

/-- The hypotheses of `C67_start_partial` are met. -/
theorem C67_sample : ∃ st', Runs { playing99 0 with pc := 0x13a, a := 0, d := false } st' ∧ st'.pc = 0x14d ∧ Fresh 0xd210 st'.mem ∧ ¬ Fresh 0xd200 st'.mem := by
  obtain ⟨st', r, h1, _, _, _, h2⟩ := C67_start_partial { playing99 0 with pc := 0x13a, a := 0, d := false } 99 (playing_driver _).1 rfl rfl rfl
  exact ⟨st', r, h1, h2.second, C67_not_fresh h2⟩

/-- Those of `C67_digital_partial`. -/
theorem C67_sample_digital : ∃ st', Runs { digitalState with pc := 0x13a, a := 0, d := false } st' ∧ st'.pc = 0x150 ∧ Fresh 0xd210 st'.mem ∧ ¬ Fresh 0xd200 st'.mem := by
  obtain ⟨st', r, h1, _, _, _, h2, _⟩ := C67_digital_partial { digitalState with pc := 0x13a, a := 0, d := false } digital_loaded.program rfl rfl rfl
  exact ⟨st', r, h1, h2.second, C67_not_fresh h2⟩

end Asap.Props
