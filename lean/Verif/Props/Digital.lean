import Verif.Props.Interrupt
import Verif.Lemmas.Digital

/-! # C66: executables of type D -/

namespace Asap.Props
open Asap.Isa Asap.Spec.Flat Asap.Spec.Digital Asap.Flat Asap.Spec.FlashPack
open Asap.Spec.Schedule (nmi Vector)
open Asap.Spec.Countdown (Parts Reads Empty parts Loaded)
open Asap.Spec.Convert (cfg wr wr_self wr_other)

/-- The program, without the addresses of the song. -/
def digitalDriver : List Nat := Obx.xexd.drop 6

/-- The stack when the player is called. -/
def calledStack (st : State) : Int → Int := playerStack (wr (nmiStack st) (254 + st.s) (st.status true)) (st.s - 3) st.a st.x st.y

theorem called_kept {st : State} {b : Int} (h : ¬ (256 + st.s - 8 < b ∧ b ≤ 256 + st.s)) : calledStack st b = st.mem b := by
  unfold calledStack playerStack
  rw [wr_other (by omega), wr_other (by omega), wr_other (by omega), wr_other (by omega), wr_other (by omega), wr_other (by omega), nmi_kept (by omega)]

/-- From the interrupt to the player. -/
theorem to_called {st : State} (hc : Program digitalDriver st.mem) (hv : Vector 0x172 st.mem) (hs : 0xa1 ≤ st.s ∧ st.s < 256) :
    ∃ st1, Called st st1 ∧ st1.mem = calledStack st := by
  have R0 : Digi (nmiStack st) := Digi.kept hc fun b h1 h2 => nmi_kept (by omega)
  have R1 : Digi (wr (nmiStack st) (254 + st.s) (st.status true)) := R0.stack (by omega)
  have hn : nmi st = { st with i := true, s := st.s - 3, pc := 0x172, mem := nmiStack st } := by
    have e : nmi st = { st with i := true, s := (((st.s - 1) % 256 - 1) % 256 - 1) % 256, pc := st.mem 0xfffa + 256 * st.mem 0xfffb, mem := wr (wr (wr st.mem (256 + st.s) (st.pc / 256 % 256)) (256 + (st.s - 1) % 256) (st.pc % 256)) (256 + ((st.s - 1) % 256 - 1) % 256) (st.status false) } := by
      unfold nmi State.interrupt State.push State.write wr
      dsimp only
    rw [e, hv.1, hv.2, show (((st.s - 1) % 256 - 1) % 256 - 1) % 256 = st.s - 3 by omega, show (256 : Int) + (st.s - 1) % 256 = 255 + st.s by omega,
      show (256 : Int) + ((st.s - 1) % 256 - 1) % 256 = 254 + st.s by omega]
    rfl
  have hu := unblocked (by omega) hn (wr_self _ _ _)
  have e0 : (nmi st).mem = nmiStack st := by rw [hn]
  have e1 : (nmi st).pc = 0x172 := by rw [hn]
  have e2 : ((nmi st).after .plp .imp).mem = nmiStack st := e0
  have e3 : ((nmi st).after .plp .imp).pc = 0x173 := by
    show (nmi st).pc + 1 = _
    rw [e1]; rfl
  obtain ⟨st1, r, z, h⟩ := any_to_player (Q := fun g => ∃ z, g = ⟨st.y, st.x, st.y, st.s - 8, 0x195, z, st.c, calledStack st⟩) (a := st.a) (x := st.x) (y := st.y) (z := st.z) (c := st.c) R1
    (s := st.s - 3) (by omega) (fun z => Any.refl ⟨z, by rw [show st.s - 3 - 5 = st.s - 8 by omega]; rfl⟩) { st with s := st.s - 3, pc := 0x174, mem := wr (nmiStack st) (254 + st.s) (st.status true) } rfl
  injection h with g1 g2 g3 g4 g5 g6 g7 g8
  refine ⟨st1, ⟨?_, g5, g4, fun b hb => ?_⟩, g8⟩
  · refine .step .plp ⟨0x28, .imp, 4⟩ (by decide) (by rw [e0, e1]; exact R0.at 0x4e) (by omega) (by rw [e1]; decide) ?_
    refine .step .php ⟨0x08, .imp, 3⟩ (by decide) (by show ((nmi st).after .plp .imp).mem ((nmi st).after .plp .imp).pc = _; rw [e2, e3]; exact R0.at 0x4f)
      (by show 0 ≤ ((nmi st).after .plp .imp).pc; omega) (by show ((nmi st).after .plp .imp).pc + _ ≤ _; rw [e3]; decide) ?_
    show Runs (((nmi st).after .plp .imp).after .php .imp) st1
    rw [hu]
    exact r
  · rw [g8, called_kept hb]

/-- What is on the stack. -/
theorem called_stack {st : State} :
    calledStack st (249 + st.s) = 0x7b ∧ calledStack st (250 + st.s) = 1 ∧ calledStack st (251 + st.s) = st.y ∧ calledStack st (252 + st.s) = st.x ∧ calledStack st (253 + st.s) = st.a ∧
    calledStack st (254 + st.s) = st.status true ∧ calledStack st (255 + st.s) = st.pc % 256 ∧ calledStack st (256 + st.s) = st.pc / 256 % 256 := by
  unfold calledStack playerStack nmiStack
  rw [show (256 : Int) + (st.s - 3) = 253 + st.s by omega, show (255 : Int) + (st.s - 3) = 252 + st.s by omega, show (254 : Int) + (st.s - 3) = 251 + st.s by omega,
    show (253 : Int) + (st.s - 3) = 250 + st.s by omega, show (252 : Int) + (st.s - 3) = 249 + st.s by omega]
  refine ⟨?_, ?_, ?_, ?_, ?_, ?_, ?_, ?_⟩
  · rw [wr_self]
  · rw [wr_other (by omega), wr_self]
  · rw [wr_other (by omega), wr_other (by omega), wr_self]
  · rw [wr_other (by omega), wr_other (by omega), wr_other (by omega), wr_self]
  · rw [wr_other (by omega), wr_other (by omega), wr_other (by omega), wr_other (by omega), wr_self]
  · rw [wr_other (by omega), wr_other (by omega), wr_other (by omega), wr_other (by omega), wr_other (by omega), wr_self]
  · rw [wr_other (by omega), wr_other (by omega), wr_other (by omega), wr_other (by omega), wr_other (by omega), wr_other (by omega), wr_other (by omega), wr_self]
  · rw [wr_other (by omega), wr_other (by omega), wr_other (by omega), wr_other (by omega), wr_other (by omega), wr_other (by omega), wr_other (by omega), wr_other (by omega), wr_self]

/-- When the player has returned. -/
theorem returned_cfg {st st1 st2 : State} (hs : 0xa1 ≤ st.s ∧ st.s < 256) (h1 : Called st st1) (hm : st1.mem = calledStack st) (h2 : Returned st st1 st2) :
    cfg st2 = ⟨st2.a, st2.x, st2.y, st.s - 6, 0x17c, st2.z, st2.c, st2.mem⟩ := by
  obtain ⟨c1, c2, _⟩ := called_stack (st := st)
  unfold cfg
  rw [h2.pc, h2.sp]
  unfold Spec.Countdown.back
  rw [h1.sp, hm, show (256 : Int) + (st.s - 8 + 1) % 256 = 249 + st.s by omega, show (256 : Int) + (st.s - 8 + 2) % 256 = 250 + st.s by omega, c1, c2, show (st.s - 8 + 2) % 256 = st.s - 6 by omega]
  rfl

/-- The end of the interrupt. -/
theorem restored {st st3 : State} {mem : Int → Int} {a x y : Int} {z c : Bool} (hpc : 0 ≤ st.pc ∧ st.pc < 65536) (hs : 0xa1 ≤ st.s ∧ st.s < 256) (R : Digi mem)
    (hk : ∀ b, 256 + st.s - 6 < b → b ≤ 256 + st.s → mem b = calledStack st b) (h : cfg st3 = ⟨a, x, y, st.s - 6, 0x18c, z, c, mem⟩) : Runs st3 { st with mem := mem } := by
  obtain ⟨_, _, c3, c4, c5, c6, c7, c8⟩ := called_stack (st := st)
  obtain ⟨st', r, z, e⟩ := any_restore (Q := fun g => ∃ z, g = ⟨st.a, st.x, st.y, st.s - 3, 0x191, z, c, mem⟩) (a' := st.a) (x' := st.x) (y' := st.y) R (by omega)
    (by rw [show (257 : Int) + (st.s - 6) = 251 + st.s by omega, hk _ (by omega) (by omega), c3]) (by rw [show (258 : Int) + (st.s - 6) = 252 + st.s by omega, hk _ (by omega) (by omega), c4])
    (by rw [show (259 : Int) + (st.s - 6) = 253 + st.s by omega, hk _ (by omega) (by omega), c5]) (fun z => Any.refl ⟨z, by rw [show st.s - 6 + 3 = st.s - 3 by omega]⟩) st3 h
  injection e with e1 e2 e3 e4 e5 e6 e7 e8
  subst e8
  refine runs_trans r (.step .rti ⟨0x40, .imp, 6⟩ (by decide) (by rw [e5]; exact R.at 0x6d) (by omega) (by rw [e5]; decide) ?_)
  show Runs (st'.after .rti .imp) _
  rw [rti_restores' hpc (by omega) e4 e1 e2 e3 (by rw [hk _ (by omega) (by omega), c6]) (by rw [hk _ (by omega) (by omega), c7]) (by rw [hk _ (by omega) (by omega), c8])]
  exact .refl _

/-- Executables of type D without the information: in an interrupt the player is called, once; when it has returned, whatever it has done, the program goes on where it was, with all registers
and flags, and with the memory as the player left it. -/
theorem C66_interrupt (st : State) (hc : Program digitalDriver st.mem) (hv : Vector 0x172 st.mem) (hpc : 0 ≤ st.pc ∧ st.pc < 65536) (hs : 0xa1 ≤ st.s ∧ st.s < 256) (hi : st.mem 0x135 = 0) :
    ∃ st1, Called st st1 ∧ ∀ st2, Returned st st1 st2 → Runs st2 { st with mem := st2.mem } := by
  obtain ⟨st1, h1, hm⟩ := to_called hc hv hs
  refine ⟨st1, h1, fun st2 h2 => ?_⟩
  have R : Digi st2.mem := Digi.kept hc fun b g1 g2 => by rw [h2.program b g1 (by omega), h1.mem b (by omega)]
  obtain ⟨st3, r, x, z, e⟩ := any_from_player (Q := fun g => ∃ x z, g = ⟨st2.a, x, st2.y, st.s - 6, 0x18c, z, st2.c, st2.mem⟩) R (by rw [h2.program _ (by omega) (by omega), h1.mem _ (by omega), hi])
    (fun x z => Any.refl ⟨x, z, rfl⟩) st2 (returned_cfg hs h1 hm h2)
  exact runs_trans r (restored hpc hs R (fun b g1 g2 => by rw [h2.stack b g1 g2, hm]) e)

/-- The kind of TV, from GTIA. -/
def kindOfTv (mem : Int → Int) : Nat := if mem 0xd014 = 1 then 0 else 1

theorem digital_info {st : State} (hc : Program digitalDriver st.mem) (hv : Vector 0x172 st.mem) (hpc : 0 ≤ st.pc ∧ st.pc < 65536) (hs : 0xa1 ≤ st.s ∧ st.s < 256) (hi : st.mem 0x135 ≠ 0) :
    ∃ st1, Called st st1 ∧ ∀ (st2 : State) (T : (Int → Int) → Prop), Returned st st1 st2 → (0 ≤ st2.mem 0xd014 ∧ st2.mem 0xd014 < 256) →
      (∀ st3 : State, st3.pc = 0xfc98 → st3.x = kindOfTv st2.mem → (∀ b : Int, 0xfc4b ≤ b → b ≤ 0xfcdd → st3.mem b = st2.mem b) →
        ∃ st4, Spec.Countdown.Returns st3 st4 ∧ T st4.mem ∧ ∀ b, ¬ Spec.Countdown.Variable b → st4.mem b = st3.mem b) →
      ∃ mem, Runs st2 { st with mem := mem } ∧ T mem ∧
        ∀ b, ¬ Spec.Countdown.Variable b → ¬ (256 + st.s - 8 < b ∧ b ≤ 256 + st.s - 6) → mem b = st2.mem b := by
  obtain ⟨st1, h1, hm⟩ := to_called hc hv hs
  refine ⟨st1, h1, fun st2 T h2 hb frame => ?_⟩
  have R : Digi st2.mem := Digi.kept hc fun b g1 g2 => by rw [h2.program b g1 (by omega), h1.mem b (by omega)]
  obtain ⟨st3, r, z, e⟩ := any_to_countdown (Q := fun g => ∃ z, g = ⟨st2.a, (kindOfTv st2.mem : Int), st2.y, st.s - 8, 0xfc98, z, st2.c, wr (wr st2.mem (250 + st.s) 1) (249 + st.s) 0x8b⟩) R
    (by omega) (by rw [h2.program _ (by omega) (by omega), h1.mem _ (by omega)]; exact hi) hb
    (fun z => Any.refl ⟨z, by rw [show st.s - 6 - 2 = st.s - 8 by omega, show (256 : Int) + (st.s - 6) = 250 + st.s by omega, show (255 : Int) + (st.s - 6) = 249 + st.s by omega]; rfl⟩) st2
    (returned_cfg hs h1 hm h2)
  injection e with e1 e2 e3 e4 e5 e6 e7 e8
  have m3 : ∀ b, ¬ (256 + st.s - 8 < b ∧ b ≤ 256 + st.s - 6) → st3.mem b = st2.mem b := by
    intro b hb
    rw [e8, wr_other (by omega), wr_other (by omega)]
  have hk : ∀ b : Int, 0xfc4b ≤ b → b ≤ 0xfcdd → st3.mem b = st2.mem b := fun b g1 g2 => m3 b (by omega)
  obtain ⟨st4, ⟨r4, p4, s4, _⟩, q1, q4⟩ := frame st3 e5 e2 hk
  have low : ∀ b : Int, b < 0x200 → ¬ Spec.Countdown.Variable b := by
    intro b hb
    unfold Spec.Countdown.Variable Spec.Countdown.place
    omega
  have p5 : st4.pc = 0x18c := by
    rw [p4]
    unfold Spec.Countdown.back
    rw [e4, e8, show (256 : Int) + (st.s - 8 + 1) % 256 = 249 + st.s by omega, show (256 : Int) + (st.s - 8 + 2) % 256 = 250 + st.s by omega, wr_self, wr_other (by omega), wr_self]
    rfl
  have s5 : st4.s = st.s - 6 := by rw [s4, e4]; omega
  have c5 : cfg st4 = ⟨st4.a, st4.x, st4.y, st.s - 6, 0x18c, st4.z, st4.c, st4.mem⟩ := by
    unfold cfg
    rw [p5, s5]
  refine ⟨st4.mem, runs_trans r (runs_trans r4 (restored hpc hs (R.kept fun b g1 g2 => ?_) (fun b g1 g2 => ?_) c5)), q1, fun b g1 g2 => ?_⟩
  · rw [q4 b (low b (by omega)), m3 b (by omega)]
  · rw [q4 b (low b (by omega)), m3 b (by omega), h2.stack b g1 g2, hm]
  · rw [q4 b g1, m3 b g2]

theorem kind_cases (mem : Int → Int) : kindOfTv mem = 0 ∨ kindOfTv mem = 1 := by unfold kindOfTv; split <;> omega

/-- With the information: the time is counted down, too. -/
theorem C66_interrupt_time (st : State) (hc : Program digitalDriver st.mem) (hv : Vector 0x172 st.mem) (hpc : 0 ≤ st.pc ∧ st.pc < 65536) (hs : 0xa1 ≤ st.s ∧ st.s < 256) (hi : st.mem 0x135 ≠ 0) :
    ∃ st1, Called st st1 ∧ ∀ st2 p t, Returned st st1 st2 → (0 ≤ st2.mem 0xd014 ∧ st2.mem 0xd014 < 256) → Spec.Countdown.Program titleProgram st2.mem → Parts st2.mem p → Reads st2.mem t →
      ∃ mem, Runs st2 { st with mem := mem } ∧ Spec.Countdown.Program titleProgram mem ∧ Parts mem ((p + parts (kindOfTv st2.mem)) % 65536) ∧
        Reads mem (if 65536 ≤ p + parts (kindOfTv st2.mem) then t - 1 else t) ∧
        ∀ b, ¬ Spec.Countdown.Variable b → ¬ (256 + st.s - 8 < b ∧ b ≤ 256 + st.s - 6) → mem b = st2.mem b := by
  obtain ⟨st1, h1, h⟩ := digital_info hc hv hpc hs hi
  refine ⟨st1, h1, fun st2 p t h2 hb hp hp1 ht => ?_⟩
  obtain ⟨mem, r, ⟨g1, g2, g3⟩, k⟩ := h st2 (fun m => Spec.Countdown.Program titleProgram m ∧ Parts m ((p + parts (kindOfTv st2.mem)) % 65536) ∧ Reads m (if 65536 ≤ p + parts (kindOfTv st2.mem) then t - 1 else t)) h2 hb fun st3 e5 e2 hk => by
    obtain ⟨st4, r, q1, q2, q3, q4⟩ := C63_frame st3 (kindOfTv st2.mem) p t (kind_cases _) (kept_program hk hp) e5 e2 (kept_parts hk hp1) (kept_reads hk ht)
    exact ⟨st4, r, ⟨q3, q2, q1⟩, q4⟩
  exact ⟨mem, r, g1, g2, g3, k⟩

/-- The same if there is no time. -/
theorem C66_interrupt_empty (st : State) (hc : Program digitalDriver st.mem) (hv : Vector 0x172 st.mem) (hpc : 0 ≤ st.pc ∧ st.pc < 65536) (hs : 0xa1 ≤ st.s ∧ st.s < 256) (hi : st.mem 0x135 ≠ 0) :
    ∃ st1, Called st st1 ∧ ∀ st2 p, Returned st st1 st2 → (0 ≤ st2.mem 0xd014 ∧ st2.mem 0xd014 < 256) → Spec.Countdown.Program titleProgram st2.mem → Parts st2.mem p → Empty st2.mem →
      ∃ mem, Runs st2 { st with mem := mem } ∧ Spec.Countdown.Program titleProgram mem ∧ Parts mem ((p + parts (kindOfTv st2.mem)) % 65536) ∧
        Empty mem ∧
        ∀ b, ¬ Spec.Countdown.Variable b → ¬ (256 + st.s - 8 < b ∧ b ≤ 256 + st.s - 6) → mem b = st2.mem b := by
  obtain ⟨st1, h1, h⟩ := digital_info hc hv hpc hs hi
  refine ⟨st1, h1, fun st2 p h2 hb hp hp1 ht => ?_⟩
  obtain ⟨mem, r, ⟨g1, g2, g3⟩, k⟩ := h st2 (fun m => Spec.Countdown.Program titleProgram m ∧ Parts m ((p + parts (kindOfTv st2.mem)) % 65536) ∧ Empty m) h2 hb fun st3 e5 e2 hk => by
    obtain ⟨st4, r, q1, q2, q3, q4⟩ := C63_frame_empty st3 (kindOfTv st2.mem) p (kind_cases _) (kept_program hk hp) e5 e2 (kept_parts hk hp1) (kept_empty hk ht)
    exact ⟨st4, r, ⟨q3, q2, q1⟩, q4⟩
  exact ⟨mem, r, g1, g2, g3, k⟩

/-- The beginning: there is memory instead of ROM; the interrupt is installed and switched on exactly if there is a player; the program of the song is started at 0x192 with its number in A. -/
theorem C66_start (st : State) (hc : Program digitalDriver st.mem) (hpc : st.pc = 0x150) (hd : st.d = false) (hb : 0 ≤ st.mem 0x195 ∧ st.mem 0x195 < 256) :
    ∃ st', Runs st st' ∧ st'.pc = 0x192 ∧ st'.d = false ∧ st'.s = st.s ∧ st'.a = st.mem 0x198 ∧ st'.mem 0xd301 = 0xfe ∧
      (st.mem 0x195 ≠ 0x60 → Vector 0x172 st'.mem ∧ st'.mem 0xd40e = 0x40) ∧
      (∀ b, b ≠ 0xd301 → (st.mem 0x195 = 0x60 ∨ (b ≠ 0xfffa ∧ b ≠ 0xfffb ∧ b ≠ 0xd40e)) → st'.mem b = st.mem b) := by
  obtain ⟨st', r, ⟨e1, e2, e3, e4⟩, e5⟩ := to_song (Q := fun g => g.pc = 0x192 ∧ g.s = st.s ∧ g.a = st.mem 0x198 ∧ g.mem = if st.mem 0x195 = 0x60 then wr st.mem 0xd301 0xfe else setUp st.mem 0x72)
    (a := st.a) (x := st.x) (y := st.y) (s := st.s) (z := st.z) (c := st.c) hc rfl hb (fun z c => To.refl ⟨rfl, rfl, rfl, rfl⟩) st (by rw [← hpc]; rfl) hd
  have e4 : st'.mem = _ := e4
  by_cases g : st.mem 0x195 = 0x60
  · rw [if_pos g] at e4
    exact ⟨st', r, e1, e5, e2, e3, by rw [e4, wr_self], fun h => absurd g h, fun b h1 _ => by rw [e4, wr_other h1]⟩
  · rw [if_neg g] at e4
    unfold setUp at e4
    refine ⟨st', r, e1, e5, e2, e3, ?_, fun _ => ⟨⟨?_, ?_⟩, ?_⟩, fun b h1 h2 => ?_⟩
    · rw [e4, wr_other (by omega), wr_other (by omega), wr_other (by omega), wr_self]
    · rw [e4, wr_other (by omega), wr_other (by omega), wr_self]; rfl
    · rw [e4, wr_other (by omega), wr_self]; rfl
    · rw [e4, wr_self]
    · obtain ⟨g1, g2, g3⟩ := h2.resolve_left g
      rw [e4, wr_other g3, wr_other g2, wr_other g1, wr_other h1]

/-! ## Executables -/

/-- The bytes of the block with the program. -/
def digitalData (ip : Int × Int) (song : Int) : List Nat :=
  digitalDriver ++ ([toByte (ip.1 % 256), toByte (ip.1 / 256)] ++ ((if ip.2 < 0 then [0x60, 0x60, 0x60] else [0x4c, toByte (ip.2 % 256), toByte (ip.2 / 256)]) ++ [toByte song]))

theorem digital_length {ip : Int × Int} {song : Int} : (digitalData ip song).length = 117 := by
  unfold digitalData
  rw [List.length_append, show digitalDriver.length = 111 by decide +kernel]
  split <;> rfl

theorem emits_digital {info : Info} {ip : Int × Int} (h : info.fastplay = 312) : Emits (writeXexD info ip) ([0x24, 0x01, 0x98, 0x01] ++ digitalData ip info.defaultSong) := by
  have word : ∀ v : Int, Emits (writeWord v) [toByte (v % 256), toByte (v / 256)] := fun v => Emits.seq (emits_byte _) (emits_byte _) rfl
  have code : Emits (writeBytes Obx.xexd 2 Obx.xexd.length) ([0x24, 0x01, 0x98, 0x01] ++ digitalDriver) := by
    have := emits_bytes (a := Obx.xexd) (i := 2) (j := Obx.xexd.length) (by decide +kernel) (Nat.le_refl _)
    rwa [show (Obx.xexd.drop 2).take (Obx.xexd.length - 2) = [0x24, 0x01, 0x98, 0x01] ++ digitalDriver by decide +kernel] at this
  unfold writeXexD
  rw [if_neg (fun g => g h)]
  refine Emits.seq code (Emits.seq (word ip.1) (b := ((if ip.2 < 0 then [0x60, 0x60, 0x60] else [0x4c, toByte (ip.2 % 256), toByte (ip.2 / 256)]) ++ [toByte info.defaultSong])) ?_ rfl) ?_
  · by_cases g : ip.2 < 0
    · rw [if_pos g, if_pos g]
      exact Antic.emits_seq _
    · rw [if_neg g, if_neg g]
      exact Emits.seq (emits_byte 0x4c) (Emits.seq (word ip.2) (emits_byte _) rfl) rfl
  · unfold digitalData
    rw [List.append_assoc]

/-- An executable without the information: the music, the program, the start address. -/
theorem plain_digital {info : Info} {m out : List Nat} {stop : Nat} (hs : stop ≤ out.length) {w : Writer} (h : writeXexFile info m false (setOutput out 0 stop) = (.ok (), w)) (ht : info.type = .sapD) :
    ∃ music ip w1, writeExecutable true info m (setOutput out 0 stop) = (.ok ip, w1) ∧
      w.output.take w.offset = (music ++ ([0x24, 0x01, 0x98, 0x01] ++ digitalData ip info.defaultSong)) ++ [0xe0, 0x02, 0xe1, 0x02, 0x24, 0x01] := by
  have hv : (setOutput out 0 stop).Valid := ⟨Nat.zero_le _, hs⟩
  unfold writeXexFile at h
  obtain ⟨ip, w1, h1, h⟩ := w_bind_ok h
  obtain ⟨_, w2, h2, h⟩ := w_bind_ok h
  obtain ⟨_, w3, h3, h⟩ := w_bind_ok h
  have v1 : w1.Valid := by
    have := ((stays_executable true info m).kept _ hv).valid hv
    rwa [h1] at this
  have e2 : writeXexDriver info ip = writeXexD info ip := by
    unfold writeXexDriver
    rw [ht]
  rw [e2] at h2
  have hf : info.fastplay = 312 := by
    apply Decidable.byContradiction
    intro g
    unfold writeXexD at h2
    rw [if_pos g] at h2
    cases h2
  obtain ⟨f2, rfl⟩ := emits_ok (emits_digital hf) v1 h2
  have v2 := Writer.put_valid v1 f2
  rw [show W.when (false = true) (writeXexInfo info) = pure () from rfl] at h3
  cases h3
  have run : Emits (do writeWord 0x2e0; writeWord 0x2e1; writeWord (if false = true then 0x100 else 0x124)) [0xe0, 0x02, 0xe1, 0x02, 0x24, 0x01] :=
    Emits.seq (emits_word (v := 0x2e0)) (Emits.seq (emits_word (v := 0x2e1)) (emits_word (v := 0x124)) rfl) rfl
  obtain ⟨_, rfl⟩ := emits_ok run v2 h
  exact ⟨w1.output.take w1.offset, _, _, h1, by rw [put_bytes v2, put_bytes v1]⟩

/-- What is in the memory when an executable of type D is loaded: the program; jumps to the two addresses that the song has, or RTS if it has no player; its number; the byte at 0x135
tells whether there is information. -/
structure DigitalLoaded (ip : Int × Int) (song : Nat) (tag : Bool) (mem : Int → Int) : Prop where
  program : Program digitalDriver mem
  init : mem 0x192 = 0x4c ∧ mem 0x193 = ip.1 % 256 ∧ mem 0x194 = ip.1 / 256 % 256
  player : 0 ≤ ip.2 → mem 0x195 = 0x4c ∧ mem 0x196 = ip.2 % 256 ∧ mem 0x197 = ip.2 / 256 % 256
  noPlayer : ip.2 < 0 → mem 0x195 = 0x60
  number : mem 0x198 = song % 256
  information : mem 0x135 = if tag then 0xd0 else 0

theorem digital_ready {image : Nat → Option Nat} {mem : Int → Int} {ip : Int × Int} {song : Nat} {tag : Bool} (h : HasAt image 0x13a ((digitalData ip song).drop 22)) (hl : Loaded image mem)
    (hi : mem 0x135 = if tag then 0xd0 else 0) : DigitalLoaded ip song tag mem := by
  have lp : digitalDriver.length = 111 := by decide +kernel
  have at' : ∀ (j b : Nat), (digitalData ip song)[j]? = some b → 22 ≤ j → mem (0x124 + j : Nat) = b := by
    intro j b hj h22
    have hk : ((digitalData ip song).drop 22)[j - 22]? = some b := by rw [List.getElem?_drop, show 22 + (j - 22) = j by omega, hj]
    refine hl _ _ ?_
    rw [show 0x124 + j = 0x13a + (j - 22) by omega, h _ (List.getElem?_eq_some_iff.mp hk).1, hk]
  have code : Program digitalDriver mem := by
    intro j b hj h22
    refine at' j b ?_ h22
    unfold digitalData
    rw [List.getElem?_append_left (List.getElem?_eq_some_iff.mp hj).1, hj]
  have tail : ∀ (j b : Nat), ([toByte (ip.1 % 256), toByte (ip.1 / 256)] ++ ((if ip.2 < 0 then [0x60, 0x60, 0x60] else [0x4c, toByte (ip.2 % 256), toByte (ip.2 / 256)]) ++ [toByte song]))[j]? = some b →
      mem (0x193 + j : Nat) = b := by
    intro j b hj
    have := at' (111 + j) b (by
      unfold digitalData
      rw [List.getElem?_append_right (by omega), lp, Nat.add_sub_cancel_left]
      exact hj) (by omega)
    rwa [show 0x124 + (111 + j) = 0x193 + j by omega] at this
  have byte : ∀ v : Int, ((toByte v : Nat) : Int) = v % 256 := by intro v; unfold toByte; omega
  refine ⟨code, ⟨Digi.at code 0x6e, (tail 0 _ rfl).trans ?_, (tail 1 _ rfl).trans (byte _)⟩, fun g => ?_, fun g => ?_, ?_, hi⟩
  · rw [byte]; omega
  · rw [if_neg (by omega)] at tail
    refine ⟨tail 2 _ rfl, (tail 3 _ rfl).trans ?_, (tail 4 _ rfl).trans (byte _)⟩
    rw [byte]; omega
  · rw [if_pos g] at tail
    exact tail 2 _ rfl
  · refine (tail 5 (toByte song) ?_).trans (byte _)
    split <;> rfl

/-- Every executable of type D, before its compression (C30), with or without the information. -/
theorem C66_executable (info : Info) (m out : List Nat) (stop : Nat) (tag : Bool) (hs : stop ≤ out.length) (w' : Writer)
    (h : writeXexFile info m tag (setOutput out 0 stop) = (.ok (), w')) (ht : info.type = .sapD) :
    ∃ music rest ip w1, writeExecutable true info m (setOutput out 0 stop) = (.ok ip, w1) ∧ w'.output.take w'.offset = music ++ rest ∧
      ∀ image, Image music image → ∃ image', Image (music ++ rest) image' ∧ RunsAt image' (if tag then 0x100 else 0x124) ∧
        ∀ mem, Loaded image' mem → DigitalLoaded ip info.defaultSong tag mem := by
  have block : ∀ {ip : Int × Int} {song : Nat}, Block ([0x24, 0x01, 0x98, 0x01] ++ digitalData ip song) 0x124 0x198 (digitalData ip song) :=
    ⟨by omega, by omega, digital_length, Or.inl rfl, fun e => by omega⟩
  have split : ∀ (ip : Int × Int) (song : Nat), digitalData ip song = (digitalData ip song).take 22 ++ ((digitalData ip song).drop 22 ++ []) := by
    intro ip song
    rw [List.append_nil, List.take_append_drop]
  cases tag with
  | false =>
    obtain ⟨music, ip, w1, h1, e⟩ := plain_digital hs h ht
    refine ⟨music, ([0x24, 0x01, 0x98, 0x01] ++ digitalData ip info.defaultSong) ++ [0xe0, 0x02, 0xe1, 0x02, 0x24, 0x01], ip, w1, h1, by rw [e, List.append_assoc], fun image him => ?_⟩
    have b3 : Block [0xe0, 0x02, 0xe1, 0x02, 0x24, 0x01] 0x2e0 0x2e1 [0x24, 0x01] := ⟨by omega, by omega, rfl, Or.inl rfl, fun e => by omega⟩
    have hd : (digitalData ip info.defaultSong).length = 117 := digital_length
    have im := Image.block (Image.block him (block (ip := ip) (song := info.defaultSong))) b3
    rw [List.append_assoc] at im
    refine ⟨_, im, ⟨by decide, hasAt_first (x := []) (z := []) rfl rfl rfl (by omega)⟩, fun mem hm => ?_⟩
    refine digital_ready (hasAt_later (first := 0x2e0) (last := 0x2e1) (data := [0x24, 0x01]) (hasAt_first (mem := image) (first := 0x124) (last := 0x198) (split ip info.defaultSong) ?_ hd (by omega)) (.inl ?_)) hm ?_
    · rw [List.length_take, hd]; rfl
    · rw [List.length_drop, hd]; omega
    · refine hm 0x135 0 ?_
      dsimp only
      rw [if_neg (by omega), if_pos (by omega)]
      unfold digitalData
      rw [List.getElem?_append_left (by rw [show digitalDriver.length = 111 by decide +kernel]; omega)]
      decide +kernel
  | true =>
    obtain ⟨_, _, _, before, blocks, w0, _, _, _, h0, e0, e1, _, _, h2⟩ := C62_title_screen info m out stop hs w' h
    obtain ⟨music, ip, w1, h1, e⟩ := plain_digital hs h0 ht
    have eb : before = music ++ ([0x24, 0x01, 0x98, 0x01] ++ digitalData ip info.defaultSong) := List.append_cancel_right (e0.symm.trans e)
    have hd : (digitalData ip info.defaultSong).length = 117 := digital_length
    refine ⟨music, ([0x24, 0x01, 0x98, 0x01] ++ digitalData ip info.defaultSong) ++ blocks, ip, w1, h1, by rw [e1, eb, List.append_assoc], fun image him => ?_⟩
    have im := Image.block him (block (ip := ip) (song := info.defaultSong))
    rw [← eb] at im
    obtain ⟨image', i1, i2, i3, _, _, _, i7⟩ := h2 _ im
    refine ⟨image', by rw [← List.append_assoc, ← eb]; exact i1, i2, fun mem hm => ?_⟩
    refine digital_ready (i7 _ _ (hasAt_first (split ip info.defaultSong) ?_ hd (by omega)) (by omega) ?_) hm ?_
    · rw [List.length_take, hd]; rfl
    · rw [List.length_drop, hd]; omega
    · refine hm 0x135 0xd0 ?_
      have := i3 0x35 (by decide +kernel)
      rw [show 0x100 + 0x35 = 0x135 from rfl] at this
      rw [this]
      decide +kernel

/-! ## A case -/

/-- A song of type D with its program at 0x2000 and its player at 0x2003. -/
def digitalImage : Nat → Option Nat := fun a => if 0x13a ≤ a ∧ a ≤ 0x198 then ((digitalData (0x2000, 0x2003) 0).drop 22)[a - 0x13a]? else none

/-- Its memory, with the information and the time 01:00, on PAL. -/
def digitalMem (b : Int) : Int :=
  if 0x13a ≤ b ∧ b ≤ 0x198 then ((digitalImage b.toNat).getD 0 : Nat) else if b = 0x135 then 0xd0 else if b = 0xfffa then 0x72 else if b = 0xfffb then 1 else if b = 0xd014 then 1 else minuteMem b

/-- Its program is running. -/
def digitalState : State := { a := 0x12, x := 0x34, y := 0x56, s := 0xf0, pc := 0x2345, n := true, v := false, d := true, i := false, z := true, c := true, mem := digitalMem }

theorem digital_loaded : DigitalLoaded (0x2000, 0x2003) 0 true digitalMem := by
  refine digital_ready (image := digitalImage) (fun k hk => ?_) (fun a b hab => ?_) (by decide +kernel)
  · rw [List.length_drop, digital_length] at hk
    unfold digitalImage
    rw [if_pos (by omega), Nat.add_sub_cancel_left]
    rfl
  · have ha : 0x13a ≤ a ∧ a ≤ 0x198 := by
      apply Decidable.byContradiction
      intro g
      unfold digitalImage at hab
      rw [if_neg g] at hab
      cases hab
    unfold digitalMem
    rw [if_pos (by omega), show ((a : Int)).toNat = a from rfl, hab]
    rfl

theorem digital_time : ∀ b : Int, 0xfc4b ≤ b → b ≤ 0xfcdd → digitalMem b = minuteMem b := by
  intro b h1 h2
  unfold digitalMem
  rw [if_neg (by omega), if_neg (by omega), if_neg (by omega), if_neg (by omega), if_neg (by omega)]

/-- The hypotheses of `C66_interrupt_time` are met, with a player that returns at once. -/
theorem C66_sample : ∃ st1 st2 mem, Called digitalState st1 ∧ Returned digitalState st1 st2 ∧ Runs st2 { digitalState with mem := mem } ∧ Reads mem 60 ∧ Parts mem 1314 := by
  obtain ⟨st1, h1, h2⟩ := C66_interrupt_time digitalState digital_loaded.program ⟨by decide +kernel, by decide +kernel⟩ (by decide) (by decide) (by decide +kernel)
  have hr : Returned digitalState st1 { st1 with pc := Spec.Countdown.back st1, s := (st1.s + 2) % 256 } := ⟨rfl, rfl, fun _ _ _ => rfl, fun _ _ _ => rfl⟩
  have hk : ∀ b : Int, 0x200 ≤ b → st1.mem b = digitalMem b := fun b hb => h1.mem b (by show ¬ (256 + 0xf0 - 8 < b ∧ b ≤ 256 + 0xf0); omega)
  have hk' : ∀ b : Int, 0xfc4b ≤ b → b ≤ 0xfcdd → st1.mem b = minuteMem b := fun b g1 g2 => (hk b (by omega)).trans (digital_time b g1 g2)
  have hg : st1.mem 0xd014 = 1 := (hk _ (by decide)).trans (by decide +kernel)
  obtain ⟨mem, g1, _, g3, g4, _⟩ := h2 _ 0 60 hr (by show 0 ≤ st1.mem 0xd014 ∧ st1.mem 0xd014 < 256; omega) (kept_program hk' minute_program) (kept_parts hk' minute_parts) (kept_reads hk' minute_reads)
  have e : kindOfTv st1.mem = 0 := if_pos hg
  have g3 : Parts mem ((0 + parts (kindOfTv st1.mem)) % 65536) := g3
  have g4 : Reads mem (if 65536 ≤ 0 + parts (kindOfTv st1.mem) then 60 - 1 else 60) := g4
  rw [e] at g3 g4
  exact ⟨st1, _, mem, h1, hr, g1, g4, g3⟩

/-- Those of `C66_start`: the interrupt is installed. -/
theorem C66_sample_start : ∃ st', Runs { digitalState with pc := 0x150, d := false } st' ∧ st'.pc = 0x192 ∧ st'.a = 0 ∧ Vector 0x172 st'.mem ∧ st'.mem 0xd40e = 0x40 := by
  obtain ⟨st', r, h1, _, _, h2, _, h3, _⟩ := C66_start { digitalState with pc := 0x150, d := false } digital_loaded.program rfl rfl (by decide +kernel)
  have := h3 (by decide +kernel)
  exact ⟨st', r, h1, h2.trans (by decide +kernel), this.1, this.2⟩

/-- Those of `C66_executable` (and, for another type, `C64_executable`): songs are written, with and without the information. -/
theorem C66_sample_written : (match (writeXexFile { titled with type := .sapD } titledData true (setOutput (List.replicate 900 0) 0 900)).1 with | .ok _ => true | .error _ => false) = true ∧
    (match (writeXexFile { titled with type := .sapD } titledData false (setOutput (List.replicate 900 0) 0 900)).1 with | .ok _ => true | .error _ => false) = true ∧
    (match (writeXexFile { titled with fastplay := 99 } titledData true (setOutput (List.replicate 900 0) 0 900)).1 with | .ok _ => true | .error _ => false) = true := by
  decide +kernel

end Asap.Props
