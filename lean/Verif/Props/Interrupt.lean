import Verif.Props.Schedule
import Verif.Lemmas.Interrupt

/-! # C65: the interrupt of executables -/

namespace Asap.Props
open Asap.Isa Asap.Spec.Flat Asap.Spec.Schedule Asap.Flat
open Asap.Spec.Countdown (Program Parts Reads Empty parts)
open Asap.Spec.Convert (cfg wr wr_self wr_other)

/-- The stack when the routine starts. -/
def nmiStack (st : State) : Int → Int := wr (wr (wr st.mem (256 + st.s) (st.pc / 256 % 256)) (255 + st.s) (st.pc % 256)) (254 + st.s) (st.status false)

theorem cfg_nmi {st : State} (hs : 3 ≤ st.s ∧ st.s < 256) {start : Int} (hv : Vector start st.mem) : cfg (nmi st) = ⟨st.a, st.x, st.y, st.s - 3, start, st.z, st.c, nmiStack st⟩ := by
  have e : cfg (nmi st) = ⟨st.a, st.x, st.y, (((st.s - 1) % 256 - 1) % 256 - 1) % 256, st.mem 0xfffa + 256 * st.mem 0xfffb, st.z, st.c,
      wr (wr (wr st.mem (256 + st.s) (st.pc / 256 % 256)) (256 + (st.s - 1) % 256) (st.pc % 256)) (256 + ((st.s - 1) % 256 - 1) % 256) (st.status false)⟩ := by
    unfold nmi State.interrupt State.push State.write cfg wr
    dsimp only
  rw [e, hv.1, hv.2, show start % 256 + 256 * (start / 256) = start by omega, show (((st.s - 1) % 256 - 1) % 256 - 1) % 256 = st.s - 3 by omega,
    show (256 : Int) + (st.s - 1) % 256 = 255 + st.s by omega, show (256 : Int) + ((st.s - 1) % 256 - 1) % 256 = 254 + st.s by omega]
  rfl

theorem nmi_driver {st : State} {fastplay : Nat} (hs : 0xe2 ≤ st.s) (hc : Driver playerDriver fastplay st.mem) : Driver driverCode fastplay (nmiStack st) :=
  Driver.stack (Driver.stack (Driver.stack (R := hc) (by omega)) (by omega)) (by omega)

theorem nmi_kept {st : State} {b : Int} (h : ¬ (256 + st.s - 3 < b ∧ b ≤ 256 + st.s)) : nmiStack st b = st.mem b := by
  unfold nmiStack
  rw [wr_other (by omega), wr_other (by omega), wr_other (by omega)]

/-- The end of the interrupt. -/
theorem nmi_back {st : State} {mem : Int → Int} {fastplay : Nat} (hpc : 0 ≤ st.pc ∧ st.pc < 65536) (hs : 3 ≤ st.s ∧ st.s < 256) (R : Driver driverCode fastplay mem)
    (hk : ∀ b, 253 + st.s < b → b ≤ 256 + st.s → mem b = nmiStack st b)
    (h : ∃ st', Runs (nmi st) st' ∧ ∃ z c, cfg st' = ⟨st.a, st.x, st.y, st.s - 3, 0x1d1, z, c, mem⟩) : Runs (nmi st) { st with mem := mem } := by
  obtain ⟨st', r, z, c, e⟩ := h
  injection e with e1 e2 e3 e4 e5 e6 e7 e8
  subst e8
  have s1 : st'.mem (254 + st.s) = st.status false := by
    rw [hk _ (by omega) (by omega)]; exact wr_self _ _ _
  have s2 : st'.mem (255 + st.s) = st.pc % 256 := by
    rw [hk _ (by omega) (by omega)]; unfold nmiStack; rw [wr_other (by omega)]; exact wr_self _ _ _
  have s3 : st'.mem (256 + st.s) = st.pc / 256 % 256 := by
    rw [hk _ (by omega) (by omega)]; unfold nmiStack; rw [wr_other (by omega), wr_other (by omega)]; exact wr_self _ _ _
  refine runs_trans r (.step .rti ⟨0x40, .imp, 6⟩ (by decide) (by rw [e5]; exact R.at 0xad) (by omega) (by rw [e5]; decide) ?_)
  show Runs (st'.after .rti .imp) _
  rw [rti_restores hpc hs e4 e1 e2 e3 s1 s2 s3]
  exact .refl _

/-- Executables without the information: an interrupt counts frames and is not noticed otherwise. -/
theorem C65_interrupt (st : State) (fastplay : Nat) (hc : Driver playerDriver fastplay st.mem) (hv : Vector 0x1ce st.mem) (hpc : 0 ≤ st.pc ∧ st.pc < 65536) (hs : 0xe2 ≤ st.s ∧ st.s < 256) :
    ∃ mem, Unnoticed 3 (fun _ => False) st mem := by
  have R := nmi_driver hs.1 hc
  have R1 : Driver driverCode fastplay (wr (nmiStack st) 0x1ba ((nmiStack st 0x1ba + 1) % 256)) := R.put (by unfold Spec.Schedule.Variable; omega)
  refine ⟨_, nmi_back hpc (by omega) R1 (fun b h1 h2 => wr_other (by omega)) ?_, ?_, fun b h1 _ h3 => ?_⟩
  · exact any_count (Q := fun g => ∃ z c, g = ⟨st.a, st.x, st.y, st.s - 3, 0x1d1, z, c, _⟩) R rfl (fun z => Any.refl ⟨_, _, rfl⟩) (nmi st) (cfg_nmi (by omega) hv)
  · rw [wr_self, nmi_kept (by omega)]
  · rw [wr_other h1, nmi_kept h3]

/-- The routine with the countdown, `T` of it being known. -/
theorem nmi_info {st : State} {fastplay tv : Nat} {T : (Int → Int) → Prop} (hc : Driver playerDriver fastplay st.mem) (ht : st.mem 0x191 = tv)
    (hv : Vector 0x1c2 st.mem) (hpc : 0 ≤ st.pc ∧ st.pc < 65536) (hs : 0xe6 ≤ st.s ∧ st.s < 256)
    (h : ∀ st1 : State, st1.pc = 0xfc98 → st1.x = tv → (∀ b, 0xfc4b ≤ b → b ≤ 0xfcdd → st1.mem b = st.mem b) →
      ∃ st2, Spec.Countdown.Returns st1 st2 ∧ T st2.mem ∧ ∀ b, ¬ Spec.Countdown.Variable b → st2.mem b = st1.mem b) :
    ∃ mem mem', Unnoticed 7 Spec.Countdown.Variable st mem ∧ T mem' ∧ ∀ b, 0x200 ≤ b → mem b = mem' b := by
  have R := nmi_driver (by omega) hc
  obtain ⟨st1, r1, e⟩ := any_enter (Q := fun g => ∃ z c, g = ⟨st.x, tv, st.y, st.s - 7, 0xfc98, z, c, frameStack (nmiStack st) (st.s - 3) st.a st.x⟩) (tv := tv) R
    (by rw [nmi_kept (by omega), ht]) (by omega) (fun z => Any.refl ⟨z, st.c, by rw [show st.s - 3 - 4 = st.s - 7 by omega]⟩) (nmi st) (cfg_nmi (by omega) hv)
  obtain ⟨z, c, e⟩ := e
  injection e with e1 e2 e3 e4 e5 e6 e7 e8
  have m1 : ∀ b, ¬ (256 + st.s - 7 < b ∧ b ≤ 256 + st.s - 3) → st1.mem b = nmiStack st b := by
    intro b hb
    rw [e8]
    unfold frameStack
    rw [wr_other (by omega), wr_other (by omega), wr_other (by omega), wr_other (by omega)]
  obtain ⟨st2, ⟨r2, p2, s2, y2⟩, hT, k2⟩ := h st1 e5 e2 (fun b h1 h2 => by rw [m1 b (by omega), nmi_kept (by omega)])
  have m2 : ∀ b, ¬ Spec.Countdown.Variable b → ¬ (256 + st.s - 7 < b ∧ b ≤ 256 + st.s - 3) → st2.mem b = nmiStack st b := fun b h1 h2 => (k2 b h1).trans (m1 b h2)
  have low : ∀ b : Int, b < 0x200 → ¬ Spec.Countdown.Variable b := by
    intro b hb
    unfold Spec.Countdown.Variable Spec.Countdown.place
    omega
  have R2 : Driver driverCode fastplay st2.mem := kept_driver (fun b h1 h2 _ => m2 b (low b (by omega)) (by omega)) R
  have a1 : st1.mem (253 + st.s) = st.a := by
    rw [e8]; unfold frameStack
    rw [wr_other (by omega), wr_other (by omega), wr_other (by omega), show (256 : Int) + (st.s - 3) = 253 + st.s by omega, wr_self]
  have x1 : st1.mem (252 + st.s) = st.x := by
    rw [e8]; unfold frameStack
    rw [wr_other (by omega), wr_other (by omega), show (255 : Int) + (st.s - 3) = 252 + st.s by omega, wr_self]
  have h1 : st1.mem (251 + st.s) = 1 := by
    rw [e8]; unfold frameStack
    rw [wr_other (by omega), show (254 : Int) + (st.s - 3) = 251 + st.s by omega, wr_self]
  have l1 : st1.mem (250 + st.s) = 0xca := by
    rw [e8]; unfold frameStack
    rw [show (253 : Int) + (st.s - 3) = 250 + st.s by omega, wr_self]
  have p3 : st2.pc = 0x1cb := by
    rw [p2]
    unfold Spec.Countdown.back
    rw [e4, show (256 : Int) + (st.s - 7 + 1) % 256 = 250 + st.s by omega, show (256 : Int) + (st.s - 7 + 2) % 256 = 251 + st.s by omega, h1, l1]
    rfl
  have s3 : st2.s = st.s - 5 := by rw [s2, e4]; omega
  have c2 : cfg st2 = ⟨st2.a, st2.x, st.y, st.s - 5, 0x1cb, st2.z, st2.c, st2.mem⟩ := by
    unfold cfg
    rw [p3, s3, y2, show st1.y = st.y from e3]
  obtain ⟨st3, r3, e3⟩ := any_leave (Q := fun g => ∃ z c, g = ⟨st.a, st.x, st.y, st.s - 3, 0x1d1, z, c, wr st2.mem 0x1ba ((st2.mem 0x1ba + 1) % 256)⟩) (a' := st.a) (x' := st.x) R2 (by omega)
    (by rw [show (257 : Int) + (st.s - 5) = 252 + st.s by omega, k2 _ (low _ (by omega)), x1]) (by rw [show (258 : Int) + (st.s - 5) = 253 + st.s by omega, k2 _ (low _ (by omega)), a1]) rfl
    (fun z c => Any.refl ⟨z, c, by rw [show st.s - 5 + 2 = st.s - 3 by omega]⟩) st2 c2
  have R3 : Driver driverCode fastplay (wr st2.mem 0x1ba ((st2.mem 0x1ba + 1) % 256)) := R2.put (by unfold Spec.Schedule.Variable; omega)
  refine ⟨_, st2.mem, ⟨nmi_back hpc (by omega) R3 (fun b h1 h2 => ?_) ⟨st3, runs_trans r1 (runs_trans r2 r3), e3⟩, ?_, fun b h1 h2 h3 => ?_⟩, hT, fun b hb => wr_other (by omega)⟩
  · rw [wr_other (by omega), m2 b (low b (by omega)) (by omega)]
  · rw [wr_self, m2 _ (low _ (by omega)) (by omega), nmi_kept (by omega)]
  · rw [wr_other h1, m2 b h2 (by omega), nmi_kept (by omega)]

/-- Executables with the information: an interrupt counts frames, counts the time down and is not noticed otherwise. -/
theorem C65_interrupt_time (st : State) (fastplay tv p t : Nat) (htv : tv = 0 ∨ tv = 1) (hc : Driver playerDriver fastplay st.mem) (ht : st.mem 0x191 = tv) (hp : Program titleProgram st.mem)
    (hv : Vector 0x1c2 st.mem) (hpc : 0 ≤ st.pc ∧ st.pc < 65536) (hs : 0xe6 ≤ st.s ∧ st.s < 256) (h1 : Parts st.mem p) (h2 : Reads st.mem t) :
    ∃ mem, Unnoticed 7 Spec.Countdown.Variable st mem ∧ Program titleProgram mem ∧ Parts mem ((p + parts tv) % 65536) ∧ Reads mem (if 65536 ≤ p + parts tv then t - 1 else t) := by
  obtain ⟨mem, mem', hu, ⟨g1, g2, g3⟩, hk⟩ := nmi_info (T := fun m => Program titleProgram m ∧ Parts m ((p + parts tv) % 65536) ∧ Reads m (if 65536 ≤ p + parts tv then t - 1 else t)) hc ht hv hpc hs
    (fun st1 e1 e2 hk => by
      obtain ⟨st2, r, q1, q2, q3, q4⟩ := C63_frame st1 tv p t htv (kept_program hk hp) e1 e2 (kept_parts hk h1) (kept_reads hk h2)
      exact ⟨st2, r, ⟨q3, q2, q1⟩, q4⟩)
  have hk' : ∀ b : Int, 0xfc4b ≤ b → b ≤ 0xfcdd → mem b = mem' b := fun b hb _ => hk b (by omega)
  exact ⟨mem, hu, kept_program hk' g1, kept_parts hk' g2, kept_reads hk' g3⟩

/-- The same if there is no time. -/
theorem C65_interrupt_empty (st : State) (fastplay tv p : Nat) (htv : tv = 0 ∨ tv = 1) (hc : Driver playerDriver fastplay st.mem) (ht : st.mem 0x191 = tv) (hp : Program titleProgram st.mem)
    (hv : Vector 0x1c2 st.mem) (hpc : 0 ≤ st.pc ∧ st.pc < 65536) (hs : 0xe6 ≤ st.s ∧ st.s < 256) (h1 : Parts st.mem p) (h2 : Empty st.mem) :
    ∃ mem, Unnoticed 7 Spec.Countdown.Variable st mem ∧ Program titleProgram mem ∧ Parts mem ((p + parts tv) % 65536) ∧ Empty mem := by
  obtain ⟨mem, mem', hu, ⟨g1, g2, g3⟩, hk⟩ := nmi_info (T := fun m => Program titleProgram m ∧ Parts m ((p + parts tv) % 65536) ∧ Empty m) hc ht hv hpc hs
    (fun st1 e1 e2 hk => by
      obtain ⟨st2, r, q1, q2, q3, q4⟩ := C63_frame_empty st1 tv p htv (kept_program hk hp) e1 e2 (kept_parts hk h1) (kept_empty hk h2)
      exact ⟨st2, r, ⟨q3, q2, q1⟩, q4⟩)
  have hk' : ∀ b : Int, 0xfc4b ≤ b → b ≤ 0xfcdd → mem b = mem' b := fun b hb _ => hk b (by omega)
  exact ⟨mem, hu, kept_program hk' g1, kept_parts hk' g2, kept_empty hk' g3⟩

/-- The program and its plan are not changed by interrupts, as `Between` and `Caller` suppose. -/
theorem C65_plan_kept {st : State} {mem : Int → Int} {used : Int} (hu : used ≤ 7) (hs : 0xe6 ≤ st.s ∧ st.s < 256) (h : Unnoticed used Spec.Countdown.Variable st mem) (tv fastplay k : Nat)
    (hc : Driver playerDriver fastplay st.mem) (hw : Waits tv fastplay k st.mem) : Driver playerDriver fastplay mem ∧ Waits tv fastplay k mem := by
  have hk : ∀ b : Int, 0x124 ≤ b → b ≤ 0x1df → b ≠ 0x1ba → mem b = st.mem b :=
    fun b h1 h2 h3 => h.kept b h3 (by unfold Spec.Countdown.Variable Spec.Countdown.place; omega) (by omega)
  exact ⟨kept_driver hk hc, kept_waits hk hw⟩

/-! ## Before the first call -/

/-- The kind of TV is told from VCOUNT after line 261: it is 0 if frames have 262 lines.  Then, at 0x168, the song is initialised, with its number in A. -/
theorem C65_kind_of_tv (st : State) (fastplay : Nat) (hc : Driver playerDriver fastplay st.mem) (hw : Waits 0 fastplay 0 st.mem) (hpc : st.pc = 0x15d) (hd : st.d = false) :
    ∃ st', Runs st st' ∧ st'.pc = 0x168 ∧ st'.d = false ∧ st'.s = st.s ∧ st'.a = st.mem 0x1da ∧ Driver playerDriver fastplay st'.mem ∧
      Waits (if st.mem 0xd40b = 0 then 1 else 0) fastplay 0 st'.mem ∧ (∀ b, b ≠ 0x191 → st'.mem b = st.mem b) ∧
      st'.mem 0x168 = 0x20 ∧ st'.mem 0x169 = 0xd4 ∧ st'.mem 0x16a = 0x01 := by
  obtain ⟨st', r, ⟨e1, e2, e3, e4⟩, e5⟩ := to_kind (Q := fun g => g.pc = 0x168 ∧ g.s = st.s ∧ g.a = st.mem 0x1da ∧ g.mem = if st.mem 0xd40b = 0 then wr st.mem 0x191 1 else st.mem)
    (a := st.a) (x := st.x) (y := st.y) (s := st.s) (z := st.z) (c := st.c) (v := st.mem 0xd40b) hc rfl hw.kind (fun z => To.refl ⟨rfl, rfl, rfl, rfl⟩) st (by rw [← hpc]; rfl) hd
  have e4 : st'.mem = _ := e4
  have hk : ∀ b, b ≠ 0x191 → st'.mem b = st.mem b := by
    intro b hb
    rw [e4]
    split
    · exact wr_other hb
    · rfl
  have R : Driver playerDriver fastplay st'.mem := by
    rw [e4]
    split
    · exact Driver.put (R := hc) (by unfold Spec.Schedule.Variable; omega)
    · exact hc
  have d0 : due fastplay 0 = 125 := by unfold due; omega
  refine ⟨st', r, e1, e5, e2, e3, R, ⟨?_, ?_, ?_, fun h => (hk _ (by omega)).trans (hw.calls h)⟩, hk, Driver.at R 0x44, Driver.at R 0x45, Driver.at R 0x46⟩
  · rw [e4]
    split
    · exact wr_self _ _ _
    · exact hw.kind
  · rw [hk _ (by omega), hw.vcount, d0]
    by_cases h : st.mem 0xd40b = 0
    · rw [if_pos h]; rfl
    · rw [if_neg h]
  · rw [hk _ (by omega), hw.frame, d0]
    by_cases h : st.mem 0xd40b = 0
    · rw [if_pos h]; rfl
    · rw [if_neg h]

/-- When the song is initialised, the memory is there instead of ROM, with the address of the right interrupt routine, interrupts are switched on, and the first call is waited
for at its VCOUNT. -/
theorem C65_first_call (st : State) (tv fastplay : Nat) (htv : tv = 0 ∨ tv = 1) (hc : Driver playerDriver fastplay st.mem) (hw : Waits tv fastplay 0 st.mem) (hpc : st.pc = 0x16b) (hd : st.d = false) :
    ∃ st', Runs st st' ∧ st'.pc = 0x188 ∧ st'.d = false ∧ st'.s = st.s ∧ st'.a = due fastplay 0 % steps tv ∧ Driver playerDriver fastplay st'.mem ∧ Waits tv fastplay 0 st'.mem ∧
      Vector (if st.mem 0x135 = 0 then 0x1ce else 0x1c2) st'.mem ∧ st'.mem 0xd301 = 0xfe ∧ st'.mem 0xd40e = 0x40 ∧
      ∀ b, b ≠ 0xd301 → b ≠ 0xfffa → b ≠ 0xfffb → b ≠ 0xd40e → st'.mem b = st.mem b := by
  obtain ⟨st', r, ⟨e1, e2, e3, e4⟩, e5⟩ := to_set_up (Q := fun g => g.pc = 0x188 ∧ g.s = st.s ∧ g.a = 125 ∧ g.mem = setUp st.mem (if st.mem 0x135 = 0 then 0xce else 0xc2))
    (a := st.a) (x := st.x) (y := st.y) (s := st.s) (z := st.z) (c := st.c) hc rfl (fun x z c => To.refl ⟨rfl, rfl, rfl, rfl⟩) st (by rw [← hpc]; rfl) hd
  have e4 : st'.mem = _ := e4
  unfold setUp at e4
  have hk : ∀ b, b ≠ 0xd301 → b ≠ 0xfffa → b ≠ 0xfffb → b ≠ 0xd40e → st'.mem b = st.mem b := by
    intro b h1 h2 h3 h4
    rw [e4, wr_other h4, wr_other h3, wr_other h2, wr_other h1]
  have low : ∀ b : Int, 0x124 ≤ b → b ≤ 0x1df → b ≠ 0x1ba → st'.mem b = st.mem b := fun b _ h2 _ => hk b (by omega) (by omega) (by omega) (by omega)
  refine ⟨st', r, e1, e5, e2, ?_, kept_driver low hc, kept_waits low hw, ⟨?_, ?_⟩, ?_, ?_, hk⟩
  · rw [show st'.a = 125 from e3, show due fastplay 0 = 125 by unfold due; omega]
    rcases htv with rfl | rfl <;> rfl
  · rw [e4, wr_other (by omega), wr_other (by omega), wr_self]
    split <;> rfl
  · rw [e4, wr_other (by omega), wr_self]
    split <;> rfl
  · rw [e4, wr_other (by omega), wr_other (by omega), wr_other (by omega), wr_self]
  · rw [e4, wr_self]

/-! ## A case -/

/-- A song that calls its player every 99 scan lines, with the time 01:00, and the interrupt routine at `r`. -/
def playingMem (r : Int) (b : Int) : Int := if b ≤ 0x1df then mem99 b else if b = 0xfffa then r else if b = 0xfffb then 1 else minuteMem b

/-- In the middle of the player, in decimal mode. -/
def playing99 (r : Int) : State := { a := 0x12, x := 0x34, y := 0x56, s := 0xf0, pc := 0x2345, n := true, v := false, d := true, i := false, z := true, c := true, mem := playingMem r }

theorem playing_driver (r : Int) : Driver playerDriver 99 (playingMem r) ∧ Waits 0 99 0 (playingMem r) :=
  have hk : ∀ b : Int, 0x124 ≤ b → b ≤ 0x1df → b ≠ 0x1ba → playingMem r b = mem99 b := fun _ _ h _ => if_pos h
  ⟨kept_driver hk ready99.1, kept_waits hk ready99.2.1⟩

theorem playing_time (r : Int) : ∀ b : Int, 0xfc4b ≤ b → b ≤ 0xfcdd → playingMem r b = minuteMem b := by
  intro b h1 h2
  unfold playingMem
  rw [if_neg (by omega), if_neg (by omega), if_neg (by omega)]

/-- The hypotheses of `C65_interrupt_time` are met: the program goes on at 0x2345, in decimal mode, a frame is counted, and the time still reads 01:00. -/
theorem C65_sample : ∃ mem, Unnoticed 7 Spec.Countdown.Variable (playing99 0xc2) mem ∧ mem 0x1ba = 1 ∧ Reads mem 60 ∧ Parts mem 1314 := by
  obtain ⟨mem, h1, _, h3, h4⟩ := C65_interrupt_time (playing99 0xc2) 99 0 0 60 (.inl rfl) (playing_driver 0xc2).1 (playing_driver 0xc2).2.kind (kept_program (playing_time _) minute_program) ⟨rfl, rfl⟩ (by decide)
    (by decide) (kept_parts (playing_time _) minute_parts) (kept_reads (playing_time _) minute_reads)
  exact ⟨mem, h1, h1.frame.trans (by decide +kernel), h4, h3⟩

/-- Those of `C65_interrupt`. -/
theorem C65_sample_plain : ∃ mem, Unnoticed 3 (fun _ => False) (playing99 0xce) mem ∧ mem 0x1ba = 1 := by
  obtain ⟨mem, h⟩ := C65_interrupt (playing99 0xce) 99 (playing_driver _).1 ⟨rfl, rfl⟩ (by decide) (by decide)
  exact ⟨mem, h, h.frame.trans (by decide +kernel)⟩

/-- Those of `C65_kind_of_tv` and `C65_first_call`: VCOUNT is 0, which is NTSC; without the information, frames are counted only. -/
theorem C65_sample_start : (∃ st', Runs { playing99 0 with pc := 0x15d, d := false } st' ∧ st'.pc = 0x168 ∧ Waits 1 99 0 st'.mem) ∧
    ∃ st', Runs { playing99 0 with pc := 0x16b, d := false } st' ∧ st'.pc = 0x188 ∧ st'.a = 125 ∧ Vector 0x1ce st'.mem := by
  refine ⟨?_, ?_⟩
  · obtain ⟨st', r, h1, _, _, _, _, h2, _⟩ := C65_kind_of_tv { playing99 0 with pc := 0x15d, d := false } 99 (playing_driver _).1 (playing_driver _).2 rfl rfl
    rw [if_pos (by show playingMem 0 0xd40b = 0; decide +kernel)] at h2
    exact ⟨st', r, h1, h2⟩
  · obtain ⟨st', r, h1, _, _, h2, _, _, h3, _⟩ := C65_first_call { playing99 0 with pc := 0x16b, d := false } 0 99 (.inl rfl) (playing_driver _).1 (playing_driver _).2 rfl rfl
    rw [if_pos (by show playingMem 0 0x135 = 0; decide +kernel)] at h3
    exact ⟨st', r, h1, h2, h3⟩

end Asap.Props
