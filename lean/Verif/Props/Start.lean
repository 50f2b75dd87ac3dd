import Verif.Props.Reset
import Verif.Lemmas.Start
import Verif.Spec.Start

/-! # C68: the start of executables -/

namespace Asap.Props
open Asap.Isa Asap.Spec.Flat Asap.Flat Asap.Spec.Start Asap.Spec.FlashPack
open Asap.Spec.Schedule (Driver)
open Asap.Spec.Countdown (Loaded Program)
open Asap.Spec.Convert (cfg wr wr_self wr_other)

/-- The program at 0x100, in executables with information. -/
def titleStart : List Nat := Obx.xexinfo.drop 120

/-- The program at 0x124, in executables without. -/
def plainStart : List Nat := (Obx.xexb.drop 6).take 22

/-- It is the same for type D. -/
theorem C68_same_start : plainStart = (Obx.xexd.drop 6).take 22 := by decide +kernel

/-- Without information: nothing but the registers is changed, so the program that plays is reached as it was loaded. -/
theorem C68_plain (st : State) (hc : At plainStart 0x124 st.mem) (hst : Starts 0x124 st) :
    ∃ st', Ready st st' ∧ st'.mem 0xd400 = 0 ∧ (∀ r : Int, 0 ≤ r → r ≤ 29 → st'.mem (0xd000 + r) = 0) ∧
      ∀ b, ¬ (0xd000 ≤ b ∧ b ≤ 0xd01d) → b ≠ 0xd400 → b ≠ 0xd40e → st'.mem b = st.mem b := by
  have R : CodeAt startCode 0x124 st.mem := by
    rw [show startCode = plainStart by decide +kernel]; exact hc
  obtain ⟨st', r, ⟨e1, e2, e3, e4⟩, e5⟩ := to_off (q := 0x124) (Q := fun g => g.pc = 0x13a ∧ g.s = st.s ∧ g.a = 0 ∧ g.mem = dark 29 (wr (wr st.mem 0xd40e 0) 0xd400 0))
    (a := st.a) (x := st.x) (y := st.y) (s := st.s) (z := st.z) (c := st.c) (by omega) R hst.vcount (fun z => To.refl ⟨rfl, rfl, rfl, rfl⟩) st (by rw [← hst.pc]; rfl) hst.binary
  have e4 : st'.mem = _ := e4
  have g : ∀ r : Int, 0 ≤ r → r ≤ 29 → st'.mem (0xd000 + r) = 0 := fun r h1 h2 => by rw [e4]; exact dark_self 29 (by omega)
  refine ⟨st', ⟨r, e1, e3, e2, e5, ?_, fun r h1 h2 _ _ => g r h1 h2⟩, ?_, g, fun b h1 h2 h3 => ?_⟩
  · rw [e4, dark_other 29 (by omega), wr_other (by omega), wr_self]
  · rw [e4, dark_other 29 (by omega), wr_self]
  · rw [e4, dark_other 29 (by omega), wr_other h2, wr_other h3]

/-- With information: the font is copied and the screen is switched on. -/
theorem C68_title (st : State) (hc : At titleStart 0x100 st.mem) (hp : Program titleProgram st.mem) (hst : Starts 0x100 st) :
    ∃ st', Ready st st' ∧ Font st.mem st'.mem ∧ Screen st'.mem ∧ st'.mem 0xd301 = 0xfe ∧
      ∀ b, ¬ (0xd000 ≤ b ∧ b < 0xd800) → ¬ (0xfd00 ≤ b ∧ b ≤ 0xffff) → ¬ (255 + st.s ≤ b ∧ b ≤ 256 + st.s) → st'.mem b = st.mem b := by
  have C : CodeAt (startCode ++ fontCode) 0x100 st.mem := by
    rw [show startCode ++ fontCode = titleStart by decide +kernel]; exact hc
  have R : CodeAt startCode 0x100 st.mem := by
    intro j b e
    refine C j b ?_
    rw [List.getElem?_append_left (List.getElem?_eq_some_iff.mp e).1]
    exact e
  have F : CodeAt fontCode 0x116 st.mem := by
    intro j b e
    have := C (22 + j) b (by rw [List.getElem?_append_right (by show 22 ≤ 22 + j; omega), show 22 + j - startCode.length = j by show 22 + j - 22 = j; omega]; exact e)
    rw [← this]
    congr 1
    omega
  let m0 := dark 29 (wr (wr st.mem 0xd40e 0) 0xd400 0)
  have k0 : ∀ b, ¬ (0xd000 ≤ b ∧ b ≤ 0xd01d) → b ≠ 0xd400 → b ≠ 0xd40e → m0 b = st.mem b := by
    intro b h1 h2 h3
    show dark 29 _ b = _
    rw [dark_other 29 (by omega), wr_other h2, wr_other h3]
  have P0 : Prog m0 := by
    intro j b e h1 h2
    rw [k0 _ (by omega) (by omega) (by omega)]
    exact prog_iff.mp hp j b e h1 h2
  have F0 : CodeAt fontCode 0x116 m0 := F.kept fun b h1 h2 => by
    rw [show fontCode.length = 36 from rfl] at h2
    exact k0 b (by omega) (by omega) (by omega)
  obtain ⟨st', r, ⟨e1, e2, _, e3, e4⟩, e5⟩ := to_off (q := 0x100) (Q := fun g => g.pc = 0x13a ∧ g.s = st.s ∧ g.y = 0 ∧ g.a = 0 ∧ g.mem = shown st.s m0)
    (a := st.a) (x := st.x) (y := st.y) (s := st.s) (z := st.z) (c := st.c) (by omega) R hst.vcount (fun z => to_title F0 P0 hst.stack ((k0 0xd40b (by omega) (by omega) (by omega)).trans hst.vcount)) st
    (by rw [← hst.pc]; rfl) hst.binary
  have e4 : st'.mem = _ := e4
  have hs := hst.stack
  have kf : ∀ b, ¬ (0xfd00 ≤ b ∧ b ≤ 0xffff) → ¬ (255 + st.s ≤ b ∧ b ≤ 256 + st.s) → b ≠ 0xd301 → wr (wr (font st.s 256 m0) (256 + st.s) 1) (255 + st.s) 0x39 b = m0 b := by
    intro b h1 h2 h3
    rw [wr_other (by omega), wr_other (by omega), font_other 256 (by omega) h3 (by omega) (by omega) (by omega) (by omega) (by omega)]
  have d0 : ∀ r : Int, 0 ≤ r → r ≤ 29 → m0 (0xd000 + r) = 0 := fun r h1 h2 => dark_self 29 (by omega)
  unfold shown at e4
  refine ⟨st', ⟨r, e1, e3, e2, e5, ?_, fun r h1 h2 h3 h4 => ?_⟩, fun i h1 h2 => ?_, ?_, ?_, fun b h1 h2 h3 => ?_⟩
  · rw [e4]
    unfold screenOn
    rw [wr_other (by omega), wr_other (by omega), wr_other (by omega), wr_other (by omega), wr_other (by omega), wr_other (by omega), wr_other (by omega), kf _ (by omega) (by omega) (by omega)]
    show dark 29 _ _ = _
    rw [dark_other 29 (by omega), wr_other (by omega), wr_self]
  · rw [e4]
    unfold screenOn
    rw [wr_other (by omega), wr_other (by omega), wr_other (by omega), wr_other (by omega), wr_other (by omega), wr_other (by omega), wr_other (by omega), kf _ (by omega) (by omega) (by omega)]
    exact d0 r h1 h2
  · rw [e4, screenOn_other (by omega), screenOn_other (by omega), screenOn_other (by omega), wr_other (by omega), wr_other (by omega), wr_other (by omega), wr_other (by omega), wr_other (by omega), wr_other (by omega),
      ← k0 (0xe000 + i) (by omega) (by omega) (by omega), ← k0 (0xe100 + i) (by omega) (by omega) (by omega), ← k0 (0xe300 + i) (by omega) (by omega) (by omega)]
    exact font_self (by omega) 256 (by omega) (by omega) h2
  · rw [e4]
    unfold screenOn
    refine ⟨⟨?_, ?_⟩, wr_self _ _ _, ?_, ⟨?_, ?_⟩, ?_⟩
    · rw [wr_other (by omega), wr_other (by omega), wr_self]
    · rw [wr_other (by omega), wr_self]
    · rw [wr_other (by omega), wr_other (by omega), wr_other (by omega), wr_self]
    · rw [wr_other (by omega), wr_other (by omega), wr_other (by omega), wr_other (by omega), wr_other (by omega), wr_self]
    · rw [wr_other (by omega), wr_other (by omega), wr_other (by omega), wr_other (by omega), wr_self]
    · rw [wr_other (by omega), wr_other (by omega), wr_other (by omega), wr_other (by omega), wr_other (by omega), wr_other (by omega), wr_self]
  · rw [e4]
    unfold screenOn
    rw [wr_other (by omega), wr_other (by omega), wr_other (by omega), wr_other (by omega), wr_other (by omega), wr_other (by omega), wr_other (by omega), wr_other (by omega), wr_other (by omega)]
    exact font_portb 255 (by omega)
  · rw [e4, screenOn_other h1, kf _ h2 h3 (by omega), k0 _ (by omega) (by omega) (by omega)]

/-- If VCOUNT is not 0, the program waits: it reads VCOUNT again, with nothing changed. -/
theorem C68_wait (st : State) (q : Int) (code : List Nat) (hq : q = 0x100 ∧ code = titleStart ∨ q = 0x124 ∧ code = plainStart) (hc : At code q st.mem) (hpc : st.pc = q + 6) (hd : st.d = false) (hv : st.mem 0xd40b ≠ 0) :
    ∃ st', Runs st st' ∧ st'.pc = q + 6 ∧ st'.a = st.mem 0xd40b ∧ st'.s = st.s ∧ st'.mem = st.mem := by
  have C : ∀ (j b : Nat), startCode[j]? = some b → st.mem (q + j) = b := by
    intro j b e
    rcases hq with ⟨_, h⟩ | ⟨_, h⟩
    · refine hc j b ?_
      rw [h, show titleStart = startCode ++ fontCode by decide +kernel, List.getElem?_append_left (List.getElem?_eq_some_iff.mp e).1]
      exact e
    · refine hc j b ?_
      rw [h, show plainStart = startCode by decide +kernel]
      exact e
  have R : CodeAt startCode q st.mem := C
  have hq0 : 0 ≤ q ∧ q ≤ 0x124 := by rcases hq with ⟨h, _⟩ | ⟨h, _⟩ <;> omega
  have go : To ⟨st.a, st.x, st.y, st.s, q + 6, st.z, st.c, st.mem⟩ fun g => g.pc = q + 6 ∧ g.a = st.mem 0xd40b ∧ g.s = st.s ∧ g.mem = st.mem := by
    refine to_lda_abs (p := 0xd40b) (v := st.mem 0xd40b) (R.at 6) (by rw [R.at 7 (b := 0x0b), R.at 8 (b := 0xd4)]; omega) rfl (by omega) ?_
    refine to_bne (t := q + 6) (d := 0xfb) (R.at 9) (R.at 10) (by omega) (by rw [show State.signed 0xfb = -5 by decide]; omega) (by omega) ?_
    rw [decide_eq_false hv, if_neg (by decide)]
    exact To.refl ⟨rfl, rfl, rfl, rfl⟩
  obtain ⟨st', r, ⟨e1, e2, e3, e4⟩, _⟩ := go st (by rw [← hpc]; rfl) hd
  exact ⟨st', r, e1, e2, e3, e4⟩

/-- The hypotheses of `C67_start_partial` and `C67_digital_partial` are what is reached: the program that plays and resets POKEYs is not changed. -/
theorem C68_goes_on {st st' : State} (h : Ready st st') (hs : 0xe2 ≤ st.s)
    (hk : ∀ b, ¬ (0xd000 ≤ b ∧ b < 0xd800) → ¬ (0xfd00 ≤ b ∧ b ≤ 0xffff) → ¬ (255 + st.s ≤ b ∧ b ≤ 256 + st.s) → st'.mem b = st.mem b) :
    (∀ fastplay, Driver playerDriver fastplay st.mem → ∃ st2, Runs st' st2 ∧ st2.pc = 0x14d ∧ Spec.Reset.Started st'.mem st2.mem (fun _ => False)) ∧
    (Spec.Digital.Program digitalDriver st.mem → ∃ st2, Runs st' st2 ∧ st2.pc = 0x150 ∧ Spec.Reset.Started st'.mem st2.mem (fun b => b = 0xd20e)) := by
  have low : ∀ b : Int, 0x124 ≤ b → b ≤ 0x1df → st'.mem b = st.mem b := fun b h1 h2 => hk b (by omega) (by omega) (by omega)
  refine ⟨fun fastplay hd => ?_, fun hd => ?_⟩
  · obtain ⟨st2, r, h1, _, _, _, h2⟩ := C67_start_partial st' fastplay (kept_driver (fun b h1 h2 _ => low b h1 h2) hd) h.pc h.a h.binary
    exact ⟨st2, r, h1, h2⟩
  · obtain ⟨st2, r, h1, _, _, _, h2, _⟩ := C67_digital_partial st' (Digi.kept hd fun b h1 h2 => low b h1 (by omega)) h.pc h.a h.binary
    exact ⟨st2, r, h1, h2⟩

theorem at_loaded {image : Nat → Option Nat} {mem : Int → Int} {code : List Nat} {q : Nat} (hl : Loaded image mem) (h : HasAt image q code) : At code q mem := by
  intro j b e
  have := hl (q + j) b (by rw [h j (List.getElem?_eq_some_iff.mp e).1, e])
  rw [← this, Int.natCast_add]

/-- The executables with information: wherever in a loaded one the program is started, as its header says, the title screen of C62 is shown. -/
theorem C68_executable (info : Info) (m out : List Nat) (stop : Nat) (hs : stop ≤ out.length) (w' : Writer) (h : writeXexFile info m true (setOutput out 0 stop) = (.ok (), w')) :
    ∃ before info_blocks, w'.output.take w'.offset = before ++ info_blocks ∧ ∀ image, Image before image → ∃ image', Image (before ++ info_blocks) image' ∧ RunsAt image' 0x100 ∧
      ∀ st, Loaded image' st.mem → Starts 0x100 st → ∃ st', Ready st st' ∧ Font st.mem st'.mem ∧ Screen st'.mem := by
  obtain ⟨_, _, _, before, blocks, _, _, _, _, _, _, h1, _, _, h2⟩ := C62_title_screen info m out stop hs w' h
  refine ⟨before, blocks, h1, fun image hi => ?_⟩
  obtain ⟨image', i1, i0, ic, i2, _, _, _⟩ := h2 image hi
  refine ⟨image', i1, i0, fun st hl hst => ?_⟩
  obtain ⟨st', g1, g2, g3, _⟩ := C68_title st (at_loaded hl ic) (C63_loaded image' st.mem hl i2).1 hst
  exact ⟨st', g1, g2, g3⟩

/-- The last two blocks of an executable without information. -/
theorem plain_starts {music data : List Nat} {last : Nat} (hd : data.length = last + 1 - 0x124) (hl : 0x13a ≤ last ∧ last < 0x2e0) (e : data.take 22 = plainStart)
    (hb : Block ([0x24, 0x01, last % 256, last / 256] ++ data) 0x124 last data) (image : Nat → Option Nat) (him : Image music image) :
    ∃ image', Image (music ++ (([0x24, 0x01, last % 256, last / 256] ++ data) ++ [0xe0, 0x02, 0xe1, 0x02, 0x24, 0x01])) image' ∧ RunsAt image' 0x124 ∧
      ∀ st, Loaded image' st.mem → Starts 0x124 st → ∃ st', Ready st st' := by
  have b3 : Block [0xe0, 0x02, 0xe1, 0x02, 0x24, 0x01] 0x2e0 0x2e1 [0x24, 0x01] := ⟨by omega, by omega, rfl, Or.inl rfl, fun e => by omega⟩
  have im := Image.block (Image.block him hb) b3
  rw [List.append_assoc] at im
  refine ⟨_, im, ⟨by decide, hasAt_first (x := []) (z := []) rfl rfl rfl (by omega)⟩, fun st hm hst => ?_⟩
  have lp : plainStart.length = 22 := by decide +kernel
  have hc : At plainStart (0x124 : Nat) st.mem := at_loaded hm (hasAt_later (first := 0x2e0) (last := 0x2e1) (data := [0x24, 0x01])
    (hasAt_first (mem := image) (first := 0x124) (last := last) (x := []) (z := data.drop 22) (by rw [← e, List.nil_append, List.take_append_drop]) rfl hd (by omega)) (.inl (by omega)))
  obtain ⟨st', h, _⟩ := C68_plain st hc hst
  exact ⟨st', h⟩

/-- The executables without information, of all types. -/
theorem C68_plain_executable (info : Info) (m out : List Nat) (stop fastplay : Nat) (hs : stop ≤ out.length) (w' : Writer) (h : writeXexFile info m false (setOutput out 0 stop) = (.ok (), w'))
    (hf : info.fastplay = fastplay) (hl : fastplay ≤ 65535) :
    ∃ music rest, w'.output.take w'.offset = music ++ rest ∧ ∀ image, Image music image → ∃ image', Image (music ++ rest) image' ∧ RunsAt image' 0x124 ∧
      ∀ st, Loaded image' st.mem → Starts 0x124 st → ∃ st', Ready st st' := by
  by_cases ht : info.type = .sapD
  · obtain ⟨music, ip, w1, _, e⟩ := plain_digital hs h ht
    rw [List.append_assoc] at e
    refine ⟨music, _, e, plain_starts (last := 0x198) digital_length (by omega) ?_ ⟨by omega, by omega, digital_length, Or.inl rfl, fun e => by omega⟩⟩
    unfold digitalData
    rw [List.take_append_of_le_length (by rw [show digitalDriver.length = 111 by decide +kernel]; omega)]
    decide +kernel
  · have ht2 : info.type ≠ .sapS := by
      intro e
      unfold writeXexFile at h
      obtain ⟨ip, w1, _, h⟩ := w_bind_ok h
      obtain ⟨_, w2, h2, _⟩ := w_bind_ok h
      unfold writeXexDriver at h2
      rw [e] at h2
      cases h2
    obtain ⟨music, init, player, song, hi, hp, e⟩ := plain_written hs h ⟨ht, ht2⟩ hf hl
    rw [List.append_assoc] at e
    refine ⟨music, _, e, plain_starts (last := 0x1df) (driver_length hi hp) (by omega) ?_ ⟨by omega, by omega, driver_length hi hp, Or.inl rfl, fun e => by omega⟩⟩
    unfold driverData
    rw [List.take_append_of_le_length (by rw [show playerDriver.length = 177 by decide +kernel]; omega)]
    decide +kernel

/-! ## From the reset of POKEYs to the test of the kind of TV -/

/-- `C67_start_partial` is followed by a wait for VCOUNT 130 and three lines more; `C65_kind_of_tv` goes on at 0x15D. -/
theorem C65_line (st : State) (fastplay : Nat) (hc : Driver playerDriver fastplay st.mem) (hpc : st.pc = 0x14d) (hd : st.d = false) (hv : st.mem 0xd40b = 130) :
    ∃ st', Runs st st' ∧ st'.pc = 0x15d ∧ st'.d = false ∧ st'.s = st.s ∧ ∀ b, b ≠ 0xd40a → st'.mem b = st.mem b := by
  have R : Driver driverCode fastplay st.mem := hc
  have go : To ⟨st.a, st.x, st.y, st.s, 0x14d, st.z, st.c, st.mem⟩ fun g => g.pc = 0x15d ∧ g.s = st.s ∧ g.mem = wr (wr (wr st.mem 0xd40a 130) 0xd40a 130) 0xd40a 130 := by
    refine to_lda_imm (v := 130) (R.at 0x29) (R.at 0x2a) (by omega) ?_
    refine to_cmp_abs (p := 0xd40b) (v := 130) (R.at 0x2b) (by rw [R.at 0x2c (b := 0x0b), R.at 0x2d (b := 0xd4)]; omega) hv (by omega) ?_
    refine to_bne (t := 0x14f) (d := 0xfb) (R.at 0x2e) (R.at 0x2f) (by omega) (by decide) (by omega) ?_
    rw [if_pos (by decide)]
    refine to_sta_abs (p := 0xd40a) (R.at 0x30) (by rw [R.at 0x31 (b := 0x0a), R.at 0x32 (b := 0xd4)]; omega) (by omega) ?_
    have R1 := R.stack (q := 0xd40a) (v := 130) (by omega)
    refine to_sta_abs (p := 0xd40a) (R1.at 0x33) (by rw [R1.at 0x34 (b := 0x0a), R1.at 0x35 (b := 0xd4)]; omega) (by omega) ?_
    have R2 := R1.stack (q := 0xd40a) (v := 130) (by omega)
    refine to_sta_abs (p := 0xd40a) (R2.at 0x36) (by rw [R2.at 0x37 (b := 0x0a), R2.at 0x38 (b := 0xd4)]; omega) (by omega) ?_
    exact To.refl ⟨rfl, rfl, rfl⟩
  obtain ⟨st', r, ⟨e1, e2, e3⟩, e4⟩ := go st (by rw [← hpc]; rfl) hd
  have e3 : st'.mem = _ := e3
  exact ⟨st', r, e1, e4, e2, fun b hb => by rw [e3, wr_other hb, wr_other hb, wr_other hb]⟩

/-- With another VCOUNT it is compared again, with nothing changed. -/
theorem C65_other_line (st : State) (fastplay : Nat) (hc : Driver playerDriver fastplay st.mem) (hpc : st.pc = 0x14f) (ha : st.a = 130) (hd : st.d = false) (hv : st.mem 0xd40b ≠ 130)
    (hb : 0 ≤ st.mem 0xd40b ∧ st.mem 0xd40b < 256) : ∃ st', Runs st st' ∧ st'.pc = 0x14f ∧ st'.a = 130 ∧ st'.s = st.s ∧ st'.mem = st.mem := by
  have R : Driver driverCode fastplay st.mem := hc
  have go : To ⟨130, st.x, st.y, st.s, 0x14f, st.z, st.c, st.mem⟩ fun g => g.pc = 0x14f ∧ g.a = 130 ∧ g.s = st.s ∧ g.mem = st.mem := by
    refine to_cmp_abs (p := 0xd40b) (v := st.mem 0xd40b) (R.at 0x2b) (by rw [R.at 0x2c (b := 0x0b), R.at 0x2d (b := 0xd4)]; omega) rfl (by omega) ?_
    refine to_bne (t := 0x14f) (d := 0xfb) (R.at 0x2e) (R.at 0x2f) (by omega) (by decide) (by omega) ?_
    rw [if_neg (by simp only [decide_eq_true_eq]; omega)]
    exact To.refl ⟨rfl, rfl, rfl, rfl⟩
  obtain ⟨st', r, ⟨e1, e2, e3, e4⟩, _⟩ := go st (by rw [← hpc, ← ha]; rfl) hd
  exact ⟨st', r, e1, e2, e3, e4⟩

/-! ## A case -/

/-- A memory with both programs, and one byte of the font. -/
def startMem (b : Int) : Int := if 0x100 ≤ b ∧ b ≤ 0x139 then (titleStart[(b - 0x100).toNat]?.getD 0 : Nat) else if b = 0xe108 then 0x18 else playingMem 0 b

/-- Just loaded. -/
def startState : State := { playing99 0 with pc := 0x100, d := false, mem := startMem }

/-- The hypotheses of `C68_title` are met: the title screen is on, with a line of the letter A. -/
theorem C68_sample : ∃ st', Ready startState st' ∧ Screen st'.mem ∧ st'.mem 0xfe08 = 0x18 := by
  have hc : At titleStart 0x100 startMem := by
    intro j b e
    have := (List.getElem?_eq_some_iff.mp e).1
    rw [show titleStart.length = 58 by decide +kernel] at this
    unfold startMem
    rw [if_pos (by omega), show ((0x100 : Int) + j - 0x100).toNat = j by omega, e]
    rfl
  have ht : ∀ b : Int, 0xfc4b ≤ b → b ≤ 0xfcdd → startMem b = minuteMem b := by
    intro b h1 h2
    unfold startMem
    rw [if_neg (by omega), if_neg (by omega)]
    exact playing_time 0 b h1 h2
  obtain ⟨st', h1, h2, h3, _⟩ := C68_title startState hc (kept_program ht minute_program) ⟨rfl, rfl, by decide, by decide +kernel⟩
  refine ⟨st', h1, h3, (h2 8 (by omega) (by omega)).2.1.trans ?_⟩
  decide +kernel

/-- A memory with the program of executables without information. -/
def plainMem (b : Int) : Int := if 0x124 ≤ b ∧ b ≤ 0x139 then (plainStart[(b - 0x124).toNat]?.getD 0 : Nat) else playingMem 0 b

/-- Those of `C68_plain`. -/
theorem C68_sample_plain : ∃ st', Ready { startState with pc := 0x124, mem := plainMem } st' ∧ st'.mem 0xd400 = 0 := by
  have hc : At plainStart 0x124 plainMem := by
    intro j b e
    have := (List.getElem?_eq_some_iff.mp e).1
    rw [show plainStart.length = 22 by decide +kernel] at this
    unfold plainMem
    rw [if_pos (by omega), show ((0x124 : Int) + j - 0x124).toNat = j by omega, e]
    rfl
  obtain ⟨st', h1, h2, _⟩ := C68_plain { startState with pc := 0x124, mem := plainMem } hc ⟨rfl, rfl, by decide, by decide +kernel⟩
  exact ⟨st', h1, h2⟩

/-- Those of `C65_line` and `C65_other_line`. -/
theorem C65_sample_line : (∃ st', Runs { startState with pc := 0x14d, mem := fun b => if b = 0xd40b then 130 else playingMem 0 b } st' ∧ st'.pc = 0x15d) ∧
    ∃ st', Runs { startState with pc := 0x14f, a := 130, mem := playingMem 0 } st' ∧ st'.pc = 0x14f := by
  refine ⟨?_, ?_⟩
  · have hk : Driver playerDriver 99 (fun b => if b = 0xd40b then 130 else playingMem 0 b) := kept_driver (fun b _ h _ => if_neg (by omega)) (playing_driver 0).1
    obtain ⟨st', r, h, _⟩ := C65_line { startState with pc := 0x14d, mem := fun b => if b = 0xd40b then 130 else playingMem 0 b } 99 hk rfl rfl rfl
    exact ⟨st', r, h⟩
  · obtain ⟨st', r, h, _⟩ := C65_other_line { startState with pc := 0x14f, a := 130, mem := playingMem 0 } 99 (playing_driver 0).1 rfl rfl rfl (by decide +kernel) (by decide +kernel)
    exact ⟨st', r, h⟩

/-! ## No time -/

/-- `mem` with blanks instead of the time. -/
def blank (mem : Int → Int) (b : Int) : Int := if 0xfc4b ≤ b ∧ b ≤ 0xfc4f then 32 else mem b

theorem blank_empty (mem : Int → Int) : Spec.Countdown.Empty (blank mem) := fun k h1 h2 => if_pos (by unfold Spec.Countdown.place; omega)

theorem blank_program {mem : Int → Int} (h : Program titleProgram mem) : Program titleProgram (blank mem) := by
  intro j b e h1 h2
  unfold blank
  rw [if_neg (by omega)]
  exact h j b e h1 h2

theorem blank_parts : Spec.Countdown.Parts (blank minuteMem) 0 := ⟨by decide, by decide +kernel, by decide +kernel⟩

/-- The hypotheses of `C63_no_time` are met. -/
theorem C63_sample_empty : ∃ mems, mems 0 = blank minuteMem ∧ Spec.Countdown.Frames idle mems ∧ Spec.Countdown.Empty (mems 100000) := by
  obtain ⟨mems, h0, h1, h2⟩ := C63_no_time 0 (.inl rfl) (blank minuteMem) idle ⟨fun _ _ => rfl, fun _ _ => rfl, fun _ _ _ _ _ => rfl⟩ (blank_program minute_program) blank_parts (blank_empty _)
  exact ⟨mems, h0, h1, h2 100000⟩

/-- Those of `C65_interrupt_empty`. -/
theorem C65_sample_empty : ∃ mem, Spec.Schedule.Unnoticed 7 Spec.Countdown.Variable { playing99 0xc2 with mem := blank (playingMem 0xc2) } mem ∧ Spec.Countdown.Empty mem := by
  have hk : ∀ b : Int, 0xfc4b ≤ b → b ≤ 0xfcdd → blank (playingMem 0xc2) b = blank minuteMem b := fun b h1 h2 => by unfold blank; rw [playing_time _ b h1 h2]
  have hd : Driver playerDriver 99 (blank (playingMem 0xc2)) := kept_driver (fun b _ h _ => if_neg (by omega)) (playing_driver 0xc2).1
  obtain ⟨mem, h1, _, _, h2⟩ := C65_interrupt_empty { playing99 0xc2 with mem := blank (playingMem 0xc2) } 99 0 0 (.inl rfl) hd (by show blank (playingMem 0xc2) 0x191 = 0; decide +kernel)
    (kept_program hk (blank_program minute_program)) ⟨by show blank (playingMem 0xc2) 0xfffa = _; decide +kernel, by show blank (playingMem 0xc2) 0xfffb = _; decide +kernel⟩ (by decide) (by decide)
    (kept_parts hk blank_parts) (kept_empty hk (blank_empty _))
  exact ⟨mem, h1, h2⟩

/-- Those of `C66_interrupt_empty`. -/
theorem C66_sample_empty : ∃ st1 st2 mem, Spec.Digital.Called { digitalState with mem := blank digitalMem } st1 ∧ Spec.Digital.Returned { digitalState with mem := blank digitalMem } st1 st2 ∧
    Runs st2 { digitalState with mem := mem } ∧ Spec.Countdown.Empty mem := by
  have hp : Spec.Digital.Program digitalDriver (blank digitalMem) := Digi.kept digital_loaded.program fun b _ _ => if_neg (by omega)
  obtain ⟨st1, h1, h2⟩ := C66_interrupt_empty { digitalState with mem := blank digitalMem } hp ⟨by show blank digitalMem 0xfffa = _; decide +kernel, by show blank digitalMem 0xfffb = _; decide +kernel⟩
    (by decide) (by decide) (by show blank digitalMem 0x135 ≠ 0; decide +kernel)
  have hr : Spec.Digital.Returned { digitalState with mem := blank digitalMem } st1 { st1 with pc := Spec.Countdown.back st1, s := (st1.s + 2) % 256 } := ⟨rfl, rfl, fun _ _ _ => rfl, fun _ _ _ => rfl⟩
  have hk : ∀ b : Int, 0x200 ≤ b → st1.mem b = blank digitalMem b := fun b hb => h1.mem b (by show ¬ (256 + 0xf0 - 8 < b ∧ b ≤ 256 + 0xf0); omega)
  have hk' : ∀ b : Int, 0xfc4b ≤ b → b ≤ 0xfcdd → st1.mem b = blank minuteMem b := fun b g1 g2 => (hk b (by omega)).trans (by unfold blank; rw [digital_time b g1 g2])
  have hg : st1.mem 0xd014 = 1 := (hk _ (by decide)).trans (by decide +kernel)
  obtain ⟨mem, g1, _, _, g4, _⟩ := h2 _ 0 hr (by show 0 ≤ st1.mem 0xd014 ∧ st1.mem 0xd014 < 256; omega) (kept_program hk' (blank_program minute_program)) (kept_parts hk' blank_parts) (kept_empty hk' (blank_empty _))
  exact ⟨st1, _, mem, h1, hr, g1, g4⟩

end Asap.Props
