import Verif.Props.Start
import Verif.Lemmas.BanksStart

/-! # C68: the font is copied from ROM to the memory under it -/

namespace Asap.Props
open Asap.Isa Asap.Flat Asap.Spec.Start Asap.Spec.Banks Asap.Spec.FlashPack
open Asap.Spec.Schedule (Driver)
open Asap.Spec.Reset (Started)
open Asap.Spec.Countdown (Loaded Program)
open Asap.Spec.Convert (cfg wr wr_self wr_other)

/-- As `C68_title`, with ROM: whatever is in ROM and in the memory under it, the font is copied from ROM to the memory under it, and from then on the program of the title screen is read from there. -/
theorem C68_rom (rom : Int → Int) (st : State) (hc : At titleStart 0x100 st.mem) (hp : Program titleProgram st.mem) (hst : Starts 0x100 st) :
    ∃ st', ReadyRom rom st st' ∧ Font rom st'.mem ∧ Screen st'.mem ∧ st'.mem 0xd301 = 0xfe ∧
      ∀ b, ¬ (0xd000 ≤ b ∧ b < 0xd800) → ¬ (0xfd00 ≤ b ∧ b ≤ 0xffff) → ¬ (255 + st.s ≤ b ∧ b ≤ 256 + st.s) → st'.mem b = st.mem b := by
  have C : CodeAt (startCode ++ fontCode) 0x100 st.mem := by
    rw [show startCode ++ fontCode = titleStart by decide +kernel]; exact hc
  have R : CodeAt startCode 0x100 st.mem := by
    intro j b e
    refine C j b ?_
    rw [List.getElem?_append_left (List.getElem?_eq_some_iff.mp e).1]
    exact e
  have F : CodeAt fontCode 0x116 st.mem := by
    intro j b e
    have := C (22 + j) b (by rw [List.getElem?_append_right (by show 22 ≤ 22 + j; omega), show 22 + j - startCode.length = j by show 22 + j - 22 = j; omega]; exact e)
    rw [← this]
    congr 1
    omega
  let m0 := dark 29 (wr (wr st.mem 0xd40e 0) 0xd400 0)
  have k0 : ∀ b, ¬ (0xd000 ≤ b ∧ b ≤ 0xd01d) → b ≠ 0xd400 → b ≠ 0xd40e → m0 b = st.mem b := by
    intro b h1 h2 h3
    show dark 29 _ b = _
    rw [dark_other 29 (by omega), wr_other h2, wr_other h3]
  have P0 : Prog m0 := by
    intro j b e h1 h2
    rw [k0 _ (by omega) (by omega) (by omega)]
    exact prog_iff.mp hp j b e h1 h2
  have F0 : CodeAt fontCode 0x116 m0 := F.kept fun b h1 h2 => by
    rw [show fontCode.length = 36 from rfl] at h2
    exact k0 b (by omega) (by omega) (by omega)
  obtain ⟨st', r, ⟨e1, e2, _, e3, e4⟩, e5⟩ := by_off (rom := rom) (q := 0x100) (Q := fun g => g.pc = 0x13a ∧ g.s = st.s ∧ g.y = 0 ∧ g.a = 0 ∧ g.mem = shownRom rom st.s m0)
    (a := st.a) (x := st.x) (y := st.y) (s := st.s) (z := st.z) (c := st.c) (by omega) R hst.vcount (fun z => by_title F0 P0 hst.stack ((k0 0xd40b (by omega) (by omega) (by omega)).trans hst.vcount)) st
    (by rw [← hst.pc]; rfl) hst.binary
  have e4 : st'.mem = _ := e4
  have hs := hst.stack
  have kf : ∀ b, ¬ (0xfd00 ≤ b ∧ b ≤ 0xffff) → ¬ (255 + st.s ≤ b ∧ b ≤ 256 + st.s) → b ≠ 0xd301 → wr (wr (fontRom rom st.s 256 m0) (256 + st.s) 1) (255 + st.s) 0x39 b = m0 b := by
    intro b h1 h2 h3
    rw [wr_other (by omega), wr_other (by omega), fontRom_other 256 (by omega) h3 (by omega) (by omega) (by omega) (by omega) (by omega)]
  have d0 : ∀ r : Int, 0 ≤ r → r ≤ 29 → m0 (0xd000 + r) = 0 := fun r h1 h2 => dark_self 29 (by omega)
  unfold shownRom at e4
  refine ⟨st', ⟨r, e1, e3, e2, e5, ?_, fun r h1 h2 h3 h4 => ?_⟩, fun i h1 h2 => ?_, ?_, ?_, fun b h1 h2 h3 => ?_⟩
  · rw [e4]
    unfold screenOn
    rw [wr_other (by omega), wr_other (by omega), wr_other (by omega), wr_other (by omega), wr_other (by omega), wr_other (by omega), wr_other (by omega), kf _ (by omega) (by omega) (by omega)]
    show dark 29 _ _ = _
    rw [dark_other 29 (by omega), wr_other (by omega), wr_self]
  · rw [e4]
    unfold screenOn
    rw [wr_other (by omega), wr_other (by omega), wr_other (by omega), wr_other (by omega), wr_other (by omega), wr_other (by omega), wr_other (by omega), kf _ (by omega) (by omega) (by omega)]
    exact d0 r h1 h2
  · rw [e4, screenOn_other (by omega), screenOn_other (by omega), screenOn_other (by omega), wr_other (by omega), wr_other (by omega), wr_other (by omega), wr_other (by omega), wr_other (by omega), wr_other (by omega)]
    exact fontRom_self (by omega) 256 (by omega) (by omega) h2
  · rw [e4]
    unfold screenOn
    refine ⟨⟨?_, ?_⟩, wr_self _ _ _, ?_, ⟨?_, ?_⟩, ?_⟩
    · rw [wr_other (by omega), wr_other (by omega), wr_self]
    · rw [wr_other (by omega), wr_self]
    · rw [wr_other (by omega), wr_other (by omega), wr_other (by omega), wr_self]
    · rw [wr_other (by omega), wr_other (by omega), wr_other (by omega), wr_other (by omega), wr_other (by omega), wr_self]
    · rw [wr_other (by omega), wr_other (by omega), wr_other (by omega), wr_other (by omega), wr_self]
    · rw [wr_other (by omega), wr_other (by omega), wr_other (by omega), wr_other (by omega), wr_other (by omega), wr_other (by omega), wr_self]
  · rw [e4]
    unfold screenOn
    rw [wr_other (by omega), wr_other (by omega), wr_other (by omega), wr_other (by omega), wr_other (by omega), wr_other (by omega), wr_other (by omega), wr_other (by omega), wr_other (by omega)]
    exact fontRom_portb 255 (by omega)
  · rw [e4, screenOn_other h1, kf _ h2 h3 (by omega), k0 _ (by omega) (by omega) (by omega)]

/-- As `C68_plain`, with ROM, on or off. -/
theorem C68_rom_plain (rom : Int → Int) (st : State) (hc : At plainStart 0x124 st.mem) (hst : Starts 0x124 st) :
    ∃ st', ReadyRom rom st st' ∧ st'.mem 0xd400 = 0 ∧ (∀ r : Int, 0 ≤ r → r ≤ 29 → st'.mem (0xd000 + r) = 0) ∧
      ∀ b, ¬ (0xd000 ≤ b ∧ b ≤ 0xd01d) → b ≠ 0xd400 → b ≠ 0xd40e → st'.mem b = st.mem b := by
  have R : CodeAt startCode 0x124 st.mem := by
    rw [show startCode = plainStart by decide +kernel]; exact hc
  obtain ⟨st', r, ⟨e1, e2, e3, e4⟩, e5⟩ := by_off (rom := rom) (q := 0x124) (Q := fun g => g.pc = 0x13a ∧ g.s = st.s ∧ g.a = 0 ∧ g.mem = dark 29 (wr (wr st.mem 0xd40e 0) 0xd400 0))
    (a := st.a) (x := st.x) (y := st.y) (s := st.s) (z := st.z) (c := st.c) (by omega) R hst.vcount (fun z => By.refl ⟨rfl, rfl, rfl, rfl⟩) st (by rw [← hst.pc]; rfl) hst.binary
  have e4 : st'.mem = _ := e4
  have g : ∀ r : Int, 0 ≤ r → r ≤ 29 → st'.mem (0xd000 + r) = 0 := fun r h1 h2 => by rw [e4]; exact dark_self 29 (by omega)
  refine ⟨st', ⟨r, e1, e3, e2, e5, ?_, fun r h1 h2 _ _ => g r h1 h2⟩, ?_, g, fun b h1 h2 h3 => ?_⟩
  · rw [e4, dark_other 29 (by omega), wr_other (by omega), wr_self]
  · rw [e4, dark_other 29 (by omega), wr_self]
  · rw [e4, dark_other 29 (by omega), wr_other h2, wr_other h3]

/-- As `C68_executable`, with ROM. -/
theorem C68_rom_executable (info : Info) (m out : List Nat) (stop : Nat) (hs : stop ≤ out.length) (w' : Writer) (h : writeXexFile info m true (setOutput out 0 stop) = (.ok (), w')) :
    ∃ before info_blocks, w'.output.take w'.offset = before ++ info_blocks ∧ ∀ image, Image before image → ∃ image', Image (before ++ info_blocks) image' ∧ RunsAt image' 0x100 ∧
      ∀ rom st, Loaded image' st.mem → Starts 0x100 st → ∃ st', ReadyRom rom st st' ∧ Font rom st'.mem ∧ Screen st'.mem := by
  obtain ⟨_, _, _, before, blocks, _, _, _, _, _, _, h1, _, _, h2⟩ := C62_title_screen info m out stop hs w' h
  refine ⟨before, blocks, h1, fun image hi => ?_⟩
  obtain ⟨image', i1, i0, ic, i2, _, _, _⟩ := h2 image hi
  refine ⟨image', i1, i0, fun rom st hl hst => ?_⟩
  obtain ⟨st', g1, g2, g3, _⟩ := C68_rom rom st (at_loaded hl ic) (C63_loaded image' st.mem hl i2).1 hst
  exact ⟨st', g1, g2, g3⟩

/-- From then on, as long as PORTB is 0xFE, ROM makes no difference. -/
theorem C68_rom_off (rom : Int → Int) (st : State) (mn : Mn) (mode : Mode) (h : st.mem 0xd301 = 0xfe) : see rom st.mem = st.mem ∧ stepRom rom mn mode st = st.after mn mode := by
  refine ⟨see_off h, ?_⟩
  have e : ∀ m, put st.mem m = m := fun m => funext fun b => if_neg fun e => by rw [h] at e; omega
  unfold stepRom
  rw [see_off h, e]

/-- As `C67_start_partial`, with ROM, on or off; missing is what is missing there. -/
theorem C67_start_rom_partial (rom : Int → Int) (st : State) (fastplay : Nat) (hc : Driver playerDriver fastplay st.mem) (hpc : st.pc = 0x13a) (ha : st.a = 0) (hd : st.d = false) :
    ∃ st', RunsRom rom st st' ∧ st'.pc = 0x14d ∧ st'.d = false ∧ st'.s = st.s ∧ st'.y = st.y ∧ Started st.mem st'.mem (fun _ => False) := by
  have R : Resets 0x13a st.mem := by
    intro j b e
    have hj := (List.getElem?_eq_some_iff.mp e).1
    rw [show resetCode.length = 19 by decide] at hj
    have e' : driverCode[22 + j]? = some b := by
      rw [← e]
      have : ∀ j : Fin 19, driverCode[22 + j.val]? = resetCode[j.val]? := by decide +kernel
      exact this ⟨j, hj⟩
    exact Driver.at (R := hc) (22 + j) (by omega) e' (by omega) (by unfold Spec.Schedule.Variable; omega)
  obtain ⟨st', r, ⟨e1, e2, e3, e4⟩, e5⟩ := by_reset (rom := rom) (Q := fun g => g.pc = 0x14d ∧ g.s = st.s ∧ g.y = st.y ∧ g.mem = wr (wr (clear 8 st.mem) 0xd21f 3) 0xd200 3)
    (x := st.x) (y := st.y) (s := st.s) (z := st.z) (c := st.c) (by omega) R (fun z => By.refl ⟨rfl, rfl, rfl, rfl⟩) st (by rw [← ha, ← hpc]; rfl) hd
  have e4 : st'.mem = _ := e4
  exact ⟨st', r, e1, e5, e2, e3, by rw [e4]; exact started_clear (fun _ _ => rfl) id⟩

/-- As `C67_digital_partial`. -/
theorem C67_digital_rom_partial (rom : Int → Int) (st : State) (hc : Spec.Digital.Program digitalDriver st.mem) (hpc : st.pc = 0x13a) (ha : st.a = 0) (hd : st.d = false) :
    ∃ st', RunsRom rom st st' ∧ st'.pc = 0x150 ∧ st'.d = false ∧ st'.s = st.s ∧ st'.y = st.y ∧ Started st.mem st'.mem (fun b => b = 0xd20e) ∧ st'.mem 0xd20e = 0 ∧
      Spec.Digital.Program digitalDriver st'.mem := by
  have D1 : Digi (wr st.mem 0xd20e 0) := Digi.stack hc (by omega)
  have R : Resets 0x13d (wr st.mem 0xd20e 0) := by
    intro j b e
    have hj := (List.getElem?_eq_some_iff.mp e).1
    rw [show resetCode.length = 19 by decide] at hj
    have e' : digitalCode[25 + j]? = some b := by
      rw [← e]
      have : ∀ j : Fin 19, digitalCode[25 + j.val]? = resetCode[j.val]? := by decide +kernel
      exact this ⟨j, hj⟩
    exact D1.at (25 + j) (by omega) e' (by omega)
  have go : By rom ⟨0, st.x, st.y, st.s, 0x13a, st.z, st.c, st.mem⟩
      (fun g => g.pc = 0x150 ∧ g.s = st.s ∧ g.y = st.y ∧ g.mem = wr (wr (clear 8 (wr st.mem 0xd20e 0)) 0xd21f 3) 0xd200 3) := by
    refine by_sta_abs (p := 0xd20e) (Digi.at hc 0x16) (by rw [Digi.at hc 0x17 (b := 0x0e), Digi.at hc 0x18 (b := 0xd2)]; omega) (by omega) (by unfold Rom; omega) ?_
    exact by_reset (rom := rom) (q := 0x13d) (by omega) R fun z => By.refl ⟨rfl, rfl, rfl, rfl⟩
  obtain ⟨st', r, ⟨e1, e2, e3, e4⟩, e5⟩ := go st (by rw [← ha, ← hpc]; rfl) hd
  have e4 : st'.mem = _ := e4
  have S : Started st.mem st'.mem (fun b => b = 0xd20e) := by rw [e4]; exact started_clear (fun b hb => wr_other hb) (by omega)
  refine ⟨st', r, e1, e5, e2, e3, S, ?_, Digi.kept hc fun b h1 h2 => S.kept b (by omega) (by omega) (by omega) (by omega)⟩
  rw [e4, wr_other (by omega), wr_other (by omega), clear_other 8 (by omega) (by omega), wr_self]

/-- What is reached meets the hypotheses of these. -/
theorem C68_rom_goes_on {rom : Int → Int} {st st' : State} (h : ReadyRom rom st st') (hs : 0xe2 ≤ st.s)
    (hk : ∀ b, ¬ (0xd000 ≤ b ∧ b < 0xd800) → ¬ (0xfd00 ≤ b ∧ b ≤ 0xffff) → ¬ (255 + st.s ≤ b ∧ b ≤ 256 + st.s) → st'.mem b = st.mem b) :
    (∀ fastplay, Driver playerDriver fastplay st.mem → ∃ st2, RunsRom rom st' st2 ∧ st2.pc = 0x14d ∧ Started st'.mem st2.mem (fun _ => False)) ∧
    (Spec.Digital.Program digitalDriver st.mem → ∃ st2, RunsRom rom st' st2 ∧ st2.pc = 0x150 ∧ Started st'.mem st2.mem (fun b => b = 0xd20e)) := by
  have low : ∀ b : Int, 0x124 ≤ b → b ≤ 0x1df → st'.mem b = st.mem b := fun b h1 h2 => hk b (by omega) (by omega) (by omega)
  refine ⟨fun fastplay hd => ?_, fun hd => ?_⟩
  · obtain ⟨st2, r, h1, _, _, _, h2⟩ := C67_start_rom_partial rom st' fastplay (kept_driver (fun b h1 h2 _ => low b h1 h2) hd) h.pc h.a h.binary
    exact ⟨st2, r, h1, h2⟩
  · obtain ⟨st2, r, h1, _, _, _, h2, _⟩ := C67_digital_rom_partial rom st' (Digi.kept hd fun b h1 h2 => low b h1 (by omega)) h.pc h.a h.binary
    exact ⟨st2, r, h1, h2⟩

/-- From the start to the program that plays: when it is reached, the title screen is shown, with the font from ROM, and the second POKEY is fresh.  Missing: the first POKEY, which is not (C67). -/
theorem C68_rom_start_partial (rom : Int → Int) (st : State) (hc : At titleStart 0x100 st.mem) (hp : Program titleProgram st.mem) (hst : Starts 0x100 st) (fastplay : Nat) (hd : Driver playerDriver fastplay st.mem) :
    ∃ st', RunsRom rom st st' ∧ st'.pc = 0x14d ∧ Screen st'.mem ∧ Font rom st'.mem ∧ st'.mem 0xd301 = 0xfe ∧ Spec.Reset.Fresh 0xd210 st'.mem := by
  obtain ⟨st1, h1, h2, h3, h4, h5⟩ := C68_rom rom st hc hp hst
  obtain ⟨st2, r, e, S⟩ := (C68_rom_goes_on h1 hst.stack.1 h5).1 fastplay hd
  have k : ∀ b, ¬ (0xd200 ≤ b ∧ b ≤ 0xd21f) → st2.mem b = st1.mem b := fun b hb => S.kept b (by omega) (by omega) (by omega) id
  refine ⟨st2, runsRom_trans h1.runs r, e, ⟨?_, ?_, ?_, ?_, ?_⟩, fun i i1 i2 => ?_, ?_, S.second⟩
  · rw [k _ (by omega), k _ (by omega)]; exact h3.list
  · rw [k _ (by omega)]; exact h3.font
  · rw [k _ (by omega)]; exact h3.on
  · rw [k _ (by omega), k _ (by omega)]; exact h3.colours
  · rw [k _ (by omega)]; exact h3.scroll
  · rw [k _ (by omega), k _ (by omega), k _ (by omega)]; exact h2 i i1 i2
  · rw [k _ (by omega)]; exact h4

/-- The hypotheses of `C68_rom` are met: a line of the letter A is another one in ROM than in the memory under it. -/
theorem C68_sample_rom : ∃ st', ReadyRom (fun b => if b = 0xe108 then 0x3c else 0) startState st' ∧ Screen st'.mem ∧ st'.mem 0xfe08 = 0x3c ∧ startState.mem 0xe108 = 0x18 := by
  have hc : At titleStart 0x100 startMem := by
    intro j b e
    have := (List.getElem?_eq_some_iff.mp e).1
    rw [show titleStart.length = 58 by decide +kernel] at this
    unfold startMem
    rw [if_pos (by omega), show ((0x100 : Int) + j - 0x100).toNat = j by omega, e]
    rfl
  have ht : ∀ b : Int, 0xfc4b ≤ b → b ≤ 0xfcdd → startMem b = minuteMem b := by
    intro b h1 h2
    unfold startMem
    rw [if_neg (by omega), if_neg (by omega)]
    exact playing_time 0 b h1 h2
  obtain ⟨st', h1, h2, h3, _⟩ := C68_rom (fun b => if b = 0xe108 then 0x3c else 0) startState hc (kept_program ht minute_program) ⟨rfl, rfl, by decide, by decide +kernel⟩
  exact ⟨st', h1, h3, (h2 8 (by omega) (by omega)).2.1.trans (by decide), by decide +kernel⟩

/-- Those of `C68_rom_plain`. -/
theorem C68_sample_rom_plain : ∃ st', ReadyRom (fun _ => 0x60) { startState with pc := 0x124, mem := plainMem } st' ∧ st'.mem 0xd400 = 0 := by
  have hc : At plainStart 0x124 plainMem := by
    intro j b e
    have := (List.getElem?_eq_some_iff.mp e).1
    rw [show plainStart.length = 22 by decide +kernel] at this
    unfold plainMem
    rw [if_pos (by omega), show ((0x124 : Int) + j - 0x124).toNat = j by omega, e]
    rfl
  obtain ⟨st', h1, h2, _⟩ := C68_rom_plain (fun _ => 0x60) { startState with pc := 0x124, mem := plainMem } hc ⟨rfl, rfl, by decide, by decide +kernel⟩
  exact ⟨st', h1, h2⟩

/-- Those of `C67_start_rom_partial`. -/
theorem C67_sample_rom : ∃ st', RunsRom (fun _ => 0x60) { playing99 0 with pc := 0x13a, a := 0, d := false } st' ∧ st'.pc = 0x14d ∧ Spec.Reset.Fresh 0xd210 st'.mem ∧ ¬ Spec.Reset.Fresh 0xd200 st'.mem := by
  obtain ⟨st', r, h1, _, _, _, h2⟩ := C67_start_rom_partial (fun _ => 0x60) { playing99 0 with pc := 0x13a, a := 0, d := false } 99 (playing_driver _).1 rfl rfl rfl
  exact ⟨st', r, h1, h2.second, C67_not_fresh h2⟩

/-- Those of `C67_digital_rom_partial`. -/
theorem C67_sample_digital_rom : ∃ st', RunsRom (fun _ => 0x60) { digitalState with pc := 0x13a, a := 0, d := false } st' ∧ st'.pc = 0x150 ∧ Spec.Reset.Fresh 0xd210 st'.mem ∧ ¬ Spec.Reset.Fresh 0xd200 st'.mem := by
  obtain ⟨st', r, h1, _, _, _, h2, _⟩ := C67_digital_rom_partial (fun _ => 0x60) { digitalState with pc := 0x13a, a := 0, d := false } digital_loaded.program rfl rfl rfl
  exact ⟨st', r, h1, h2.second, C67_not_fresh h2⟩

/-- Those of `C68_rom_start_partial`: the program that plays is there, together with the title screen. -/
theorem C68_sample_rom_start : ∃ st', RunsRom (fun b => if b = 0xe108 then 0x3c else 0) startState st' ∧ st'.pc = 0x14d ∧ st'.mem 0xfe08 = 0x3c ∧ Spec.Reset.Fresh 0xd210 st'.mem := by
  have hc : At titleStart 0x100 startMem := by
    intro j b e
    have := (List.getElem?_eq_some_iff.mp e).1
    rw [show titleStart.length = 58 by decide +kernel] at this
    unfold startMem
    rw [if_pos (by omega), show ((0x100 : Int) + j - 0x100).toNat = j by omega, e]
    rfl
  have ht : ∀ b : Int, 0xfc4b ≤ b → b ≤ 0xfcdd → startMem b = minuteMem b := by
    intro b h1 h2
    unfold startMem
    rw [if_neg (by omega), if_neg (by omega)]
    exact playing_time 0 b h1 h2
  have hm : ∀ b : Int, 0x13a ≤ b → b ≤ 0x1df → startMem b = playingMem 0 b := by
    intro b h1 h2
    unfold startMem
    rw [if_neg (by omega), if_neg (by omega)]
  have D := (playing_driver 0).1
  have hd : Driver playerDriver 99 startMem := by
    refine ⟨fun j b e h22 hv => ?_, (hm _ (by decide) (by decide)).trans D.odd, (hm _ (by decide) (by decide)).trans D.pal, (hm _ (by decide) (by decide)).trans D.ntsc,
      (hm _ (by decide) (by decide)).trans D.frames, (hm _ (by decide) (by decide)).trans D.framesNtsc⟩
    have := (List.getElem?_eq_some_iff.mp e).1
    rw [show playerDriver.length = 177 by decide +kernel] at this
    rw [hm _ (by omega) (by omega)]
    exact D.program j b e h22 hv
  obtain ⟨st', r, e, _, h, _, f⟩ := C68_rom_start_partial (fun b => if b = 0xe108 then 0x3c else 0) startState hc (kept_program ht minute_program) ⟨rfl, rfl, by decide, by decide +kernel⟩ 99 hd
  exact ⟨st', r, e, (h 8 (by omega) (by omega)).2.1.trans (by decide), f⟩

end Asap.Props
