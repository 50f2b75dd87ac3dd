import Verif.Lemmas.Countdown
import Verif.Props.TitleScreen

/-! # C63: the time on the title screen -/

namespace Asap.Props
open Asap.Isa Asap.Spec.Flat Asap.Spec.Countdown Asap.Flat Asap.Spec.FlashPack

/-- The program at 0xFC73 of every executable with information, asapwriter.fu:664-753 (6502/xexinfo.asx:57-145). -/
def titleProgram : List Nat := (Obx.xexinfo.drop 9).take 107

theorem prog_iff {mem : Int → Int} : Program titleProgram mem ↔ Prog mem := by
  show Program Antic.program mem ↔ _
  rw [screenCode_eq]; rfl

/-- One frame: from whatever state it is called, the subroutine returns, adds the length of a frame to the parts of a second, takes a second off
the time if they are a full second, unless the time is 00:00, and changes nothing else. -/
theorem C63_frame (st : State) (tv p t : Nat) (htv : tv = 0 ∨ tv = 1) (hc : Program titleProgram st.mem) (hpc : st.pc = 0xfc98) (hx : st.x = tv) (hp : Parts st.mem p)
    (ht : Reads st.mem t) :
    ∃ st', Returns st st' ∧ Reads st'.mem (if 65536 ≤ p + parts tv then t - 1 else t) ∧ Parts st'.mem ((p + parts tv) % 65536) ∧ Program titleProgram st'.mem ∧
      ∀ b, ¬ Variable b → st'.mem b = st.mem b := by
  have R := prog_iff.mp hc
  obtain ⟨st', r, ⟨h1, h2, h3⟩, h4⟩ := returns_of R hpc hx fun a y z c => to_frame (a := a) (y := y) (s := st.s) (z := z) (c := c) R htv hp ht
  refine ⟨st', r, ?_, h2, prog_iff.mpr h3, h4⟩
  have hlt : parts tv < 2000 := by unfold parts; split <;> omega
  have := hp.1
  by_cases g : 65536 ≤ p + parts tv
  · rw [if_pos g]
    rwa [show (p + parts tv) / 65536 = 1 by omega] at h1
  · rw [if_neg g]
    rwa [show (p + parts tv) / 65536 = 0 by omega] at h1

/-- One frame when there is no time: it stays empty. -/
theorem C63_frame_empty (st : State) (tv p : Nat) (htv : tv = 0 ∨ tv = 1) (hc : Program titleProgram st.mem) (hpc : st.pc = 0xfc98) (hx : st.x = tv) (hp : Parts st.mem p)
    (ht : Empty st.mem) :
    ∃ st', Returns st st' ∧ Empty st'.mem ∧ Parts st'.mem ((p + parts tv) % 65536) ∧ Program titleProgram st'.mem ∧ ∀ b, ¬ Variable b → st'.mem b = st.mem b := by
  have R := prog_iff.mp hc
  obtain ⟨st', r, ⟨h1, h2, h3⟩, h4⟩ := returns_of R hpc hx fun a y z c => to_frame_empty (a := a) (y := y) (s := st.s) (z := z) (c := c) R htv hp ht
  exact ⟨st', r, h1, h2, prog_iff.mpr h3, h4⟩

/-- Any number of steps that keep an invariant. -/
theorem steps_exist {α : Type} {I : Nat → α → Prop} {S : Nat → α → α → Prop} {m : α} (h0 : I 0 m) (hs : ∀ n a, I n a → ∃ a', S n a a' ∧ I (n + 1) a') :
    ∃ f : Nat → α, f 0 = m ∧ ∀ n, I n (f n) ∧ S n (f n) (f (n + 1)) := by
  let g : (n : Nat) → { a // I n a } := fun n => Nat.rec (motive := fun n => { a // I n a }) ⟨m, h0⟩
    (fun n a => ⟨Classical.choose (hs n a.1 a.2), (Classical.choose_spec (hs n a.1 a.2)).2⟩) n
  exact ⟨fun n => (g n).1, rfl, fun n => ⟨(g n).2, (Classical.choose_spec (hs n (g n).1 (g n).2)).1⟩⟩

theorem kept_parts {mem mem' : Int → Int} {p : Nat} (h : ∀ b, 0xfc4b ≤ b → b ≤ 0xfcdd → mem' b = mem b) (hp : Parts mem p) : Parts mem' p :=
  ⟨hp.1, (h _ (by decide) (by decide)).trans hp.2.1, (h _ (by decide) (by decide)).trans hp.2.2⟩

theorem kept_reads {mem mem' : Int → Int} {t : Nat} (h : ∀ b, 0xfc4b ≤ b → b ≤ 0xfcdd → mem' b = mem b) (ht : Reads mem t) : Reads mem' t :=
  ⟨ht.range, (h _ (by decide) (by decide)).trans ht.minutes10, (h _ (by decide) (by decide)).trans ht.minutes, (h _ (by decide) (by decide)).trans ht.colon,
    (h _ (by decide) (by decide)).trans ht.seconds10, (h _ (by decide) (by decide)).trans ht.seconds⟩

theorem kept_empty {mem mem' : Int → Int} (h : ∀ b, 0xfc4b ≤ b → b ≤ 0xfcdd → mem' b = mem b) (ht : Empty mem) : Empty mem' :=
  fun k h1 h2 => (h _ (by unfold place; omega) (by unfold place; omega)).trans (ht k h1 h2)

theorem kept_program {mem mem' : Int → Int} (h : ∀ b, 0xfc4b ≤ b → b ≤ 0xfcdd → mem' b = mem b) (hc : Program titleProgram mem) : Program titleProgram mem' := by
  intro j b hj h1 h2
  have : j < 107 := by
    have := (List.getElem?_eq_some_iff.mp hj).1
    rwa [show titleProgram.length = 107 by decide +kernel] at this
  rw [h _ (by omega) (by omega)]
  exact hc j b hj h1 h2

theorem less_frame (t n q : Nat) (hq : q < 65536) :
    (if 65536 ≤ n * q % 65536 + q then t - n * q / 65536 - 1 else t - n * q / 65536) = t - (n + 1) * q / 65536 := by
  rw [Nat.succ_mul]
  generalize n * q = m
  split <;> omega

/-- Any number of frames: each call returns, and after `n` frames the time is as many seconds less as there are in `n` frames, down to 00:00 and no further. -/
theorem C63_countdown (tv t : Nat) (htv : tv = 0 ∨ tv = 1) (mem : Int → Int) (call : Nat → (Int → Int) → State) (hcall : Caller tv call)
    (hc : Program titleProgram mem) (hp : Parts mem 0) (ht : Reads mem t) :
    ∃ mems, mems 0 = mem ∧ Frames call mems ∧ ∀ n, Reads (mems n) (t - n * parts tv / 65536) := by
  have hlt : parts tv < 65536 := by unfold parts; split <;> omega
  obtain ⟨f, h0, hf⟩ := steps_exist (m := mem)
    (I := fun n m => Program titleProgram m ∧ Parts m (n * parts tv % 65536) ∧ Reads m (t - n * parts tv / 65536))
    (S := fun n m m' => ∃ st', Returns (call n m) st' ∧ st'.mem = m')
    ⟨hc, by simpa using hp, by simpa using ht⟩ (fun n m ⟨i1, i2, i3⟩ => by
      have k := hcall.mem n m
      obtain ⟨st', r, g1, g2, g3, _⟩ := C63_frame (call n m) tv _ _ htv (kept_program k i1) (hcall.pc n m) (hcall.x n m) (kept_parts k i2) (kept_reads k i3)
      refine ⟨st'.mem, ⟨st', r, rfl⟩, g3, ?_, ?_⟩
      · rwa [Nat.mod_add_mod, ← Nat.succ_mul] at g2
      · rwa [less_frame _ _ _ hlt] at g1)
  exact ⟨f, h0, fun n => (hf n).2, fun n => (hf n).1.2.2⟩

/-- Without a time, the place stays empty. -/
theorem C63_no_time (tv : Nat) (htv : tv = 0 ∨ tv = 1) (mem : Int → Int) (call : Nat → (Int → Int) → State) (hcall : Caller tv call)
    (hc : Program titleProgram mem) (hp : Parts mem 0) (ht : Empty mem) :
    ∃ mems, mems 0 = mem ∧ Frames call mems ∧ ∀ n, Empty (mems n) := by
  obtain ⟨f, h0, hf⟩ := steps_exist (m := mem)
    (I := fun n m => Program titleProgram m ∧ Parts m (n * parts tv % 65536) ∧ Empty m)
    (S := fun n m m' => ∃ st', Returns (call n m) st' ∧ st'.mem = m')
    ⟨hc, by simpa using hp, ht⟩ (fun n m ⟨i1, i2, i3⟩ => by
      have k := hcall.mem n m
      obtain ⟨st', r, g1, g2, g3, _⟩ := C63_frame_empty (call n m) tv _ htv (kept_program k i1) (hcall.pc n m) (hcall.x n m) (kept_parts k i2) (kept_empty k i3)
      refine ⟨st'.mem, ⟨st', r, rfl⟩, g3, ?_, g1⟩
      rwa [Nat.mod_add_mod, ← Nat.succ_mul] at g2)
  exact ⟨f, h0, fun n => (hf n).2, fun n => (hf n).1.2.2⟩

/-- Seconds on the screen are seconds: in `n` frames, which take `n * cycles` cycles of the processor, no more seconds are counted
than passed, and fewer only by less than one thousandth and one second. -/
theorem C63_accurate (tv n : Nat) (htv : tv = 0 ∨ tv = 1) :
    n * parts tv / 65536 * clock tv ≤ n * cycles tv ∧ 999 * (n * cycles tv) ≤ 1000 * ((n * parts tv / 65536 + 1) * clock tv) := by
  rcases htv with rfl | rfl
  · rw [show parts 0 = 1314 from rfl, show clock 0 = 1773447 from rfl, show cycles 0 = 35568 from rfl]
    omega
  · rw [show parts 1 = 1093 from rfl, show clock 1 = 1789772 from rfl, show cycles 1 = 29868 from rfl]
    omega

/-- The executables that `C62_title_screen` is about meet the hypotheses: their memory has the program with no parts of a second counted, and the time is that
of the song, rounded up to full seconds. -/
theorem C63_loaded (image : Nat → Option Nat) (mem : Int → Int) (hl : Loaded image mem) (hc : HasAt image 0xfc73 titleProgram) :
    Program titleProgram mem ∧ Parts mem 0 ∧
    ∀ (duration : Int) time, 0 < duration → Duration.secondsToString (duration + 999) = some time → HasAt image 0xfc4b time → Reads mem ((duration + 999) / 1000).toNat := by
  have len : titleProgram.length = 107 := by decide +kernel
  have at' : ∀ (j b : Nat), titleProgram[j]? = some b → mem (0xfc73 + j : Nat) = b := fun j b hj => hl _ _ (by rw [hc j (List.getElem?_eq_some_iff.mp hj).1, hj])
  refine ⟨fun j b hj _ _ => at' j b hj, ⟨by decide, at' 0x2b 0 (by decide +kernel), at' 0x33 0 (by decide +kernel)⟩, fun d time hd hs ht => ?_⟩
  unfold Duration.secondsToString at hs
  split at hs
  · cases hs
  · rename_i hr
    simp only [Option.some.injEq] at hs
    obtain ⟨e, he⟩ : ∃ e : Nat, d + 999 = e := ⟨(d + 999).toNat, by omega⟩
    rw [he] at hs hr ⊢
    have e1 : ((e : Int) / 1000).toNat = e / 1000 := by omega
    rw [show (e : Int).toNat = e from rfl] at hs
    rw [e1]
    have lt : e / 1000 < 6000 := by omega
    generalize e / 1000 = t at hs lt ⊢
    subst hs
    have g : ∀ (k b : Nat), (Duration.twoDigits (t / 60) ++ [58] ++ Duration.twoDigits (t % 60))[k]? = some b → mem (0xfc4b + k : Nat) = b :=
      fun k b hk => hl _ _ (by rw [ht k (List.getElem?_eq_some_iff.mp hk).1, hk])
    exact ⟨lt, g 0 (48 + t / 60 / 10) rfl, g 1 (48 + t / 60 % 10) rfl, g 2 58 rfl, g 3 (48 + t % 60 / 10) rfl, g 4 (48 + t % 60 % 10) rfl⟩

/-- The executables of C62, together: when the title screen is on, the time is that of the default song, rounded up to seconds, and is then counted down. -/
theorem C63_title_time (info : Info) (m out : List Nat) (stop : Nat) (hs : stop ≤ out.length) (w' : Writer) (h : writeXexFile info m true (setOutput out 0 stop) = (.ok (), w'))
    (hd : 0 < info.durations info.defaultSong) (hd' : info.durations info.defaultSong ≤ 5999000) :
    ∃ before info_blocks, w'.output.take w'.offset = before ++ info_blocks ∧ ∀ image, Image before image → ∃ image', Image (before ++ info_blocks) image' ∧
      ∀ tv mem call, tv = 0 ∨ tv = 1 → Loaded image' mem → Caller tv call →
        ∃ mems, mems 0 = mem ∧ Frames call mems ∧ ∀ n, Reads (mems n) (((info.durations info.defaultSong + 999) / 1000).toNat - n * parts tv / 65536) := by
  obtain ⟨_, _, _, before, blocks, _, _, _, _, _, _, h1, _, _, h2⟩ := C62_title_screen info m out stop hs w' h
  refine ⟨before, blocks, h1, fun image hi => ?_⟩
  obtain ⟨image', i1, _, _, i2, _, i3, _⟩ := h2 image hi
  refine ⟨image', i1, fun tv mem call htv hl hcall => ?_⟩
  obtain ⟨g1, g2, g3⟩ := C63_loaded image' mem hl i2
  obtain ⟨time, ht⟩ : ∃ time, Duration.secondsToString (info.durations info.defaultSong + 999) = some time := by
    unfold Duration.secondsToString
    rw [if_neg (by omega)]
    exact ⟨_, rfl⟩
  exact C63_countdown tv _ htv mem call hcall g1 g2 (g3 _ time hd ht (i3 time hd ht))

/-- Switching on the screen: called at 0xFC73 when the beam is at the top, the subroutine returns with ANTIC's list of instructions at 0xFC50,
as `C62_title_screen` supposes, its display on with 32 columns, no scrolled lines and the font at 0xFC00.  It writes to these registers and two colors only. -/
theorem C63_screen_on (st : State) (hd : st.d = false) (hpc : st.pc = 0xfc73) (hc : Program titleProgram st.mem) (hv : st.mem 0xd40b = 0) :
    ∃ st', Returns st st' ∧ st'.mem 0xd402 = 0x50 ∧ st'.mem 0xd403 = 0xfc ∧ st'.mem 0xd400 = 0x21 ∧ st'.mem 0xd405 = 0 ∧ st'.mem 0xd409 = 0xfc ∧
      ∀ b : Int, b ≠ 0xd400 → b ≠ 0xd402 → b ≠ 0xd403 → b ≠ 0xd405 → b ≠ 0xd409 → b ≠ 0xd016 → b ≠ 0xd017 → st'.mem b = st.mem b := by
  obtain ⟨st', r, ⟨e1, e2, ey, e3, _⟩, _⟩ := to_screen (a := st.a) (x := st.x) (y := st.y) (s := st.s) (z := st.z) (c := st.c) (prog_iff.mp hc) hv st (by rw [← hpc]; rfl) hd
  have e3 : st'.mem = _ := e3
  refine ⟨st', ⟨r, e1, e2, ey⟩, ?_, ?_, ?_, ?_, ?_, fun b h1 h2 h3 h4 h5 h6 h7 => ?_⟩
  · rw [e3]; rfl
  · rw [e3]; rfl
  · rw [e3]; rfl
  · rw [e3]; rfl
  · rw [e3]; rfl
  · rw [e3, Spec.Convert.wr_other h5, Spec.Convert.wr_other h3, Spec.Convert.wr_other h2, Spec.Convert.wr_other h1, Spec.Convert.wr_other h7, Spec.Convert.wr_other h6, Spec.Convert.wr_other h4]

/-! ## A case -/

/-- A memory with the program and the time 01:00. -/
def minuteMem (b : Int) : Int :=
  if 0xfc73 ≤ b ∧ b < 0xfc73 + 107 then (titleProgram[(b - 0xfc73).toNat]?.getD 0 : Nat)
  else if b = 0xfc4b then 48 else if b = 0xfc4c then 49 else if b = 0xfc4d then 58 else if b = 0xfc4e then 48 else if b = 0xfc4f then 48 else 0

/-- A caller that does nothing in between. -/
def idle (_ : Nat) (mem : Int → Int) : State := { a := 0, x := 0, y := 0, s := 0xfd, pc := 0xfc98, n := false, v := false, d := true, i := true, z := false, c := false, mem := mem }

theorem minute_program : Program titleProgram minuteMem := by
  intro j b hj _ _
  have := (List.getElem?_eq_some_iff.mp hj).1
  rw [show titleProgram.length = 107 by decide +kernel] at this
  unfold minuteMem
  rw [if_pos (by omega), show ((0xfc73 : Int) + j - 0xfc73).toNat = j by omega, hj]
  rfl

theorem minute_parts : Parts minuteMem 0 := ⟨by decide, by decide +kernel, by decide +kernel⟩

theorem minute_reads : Reads minuteMem 60 := ⟨by decide, by decide +kernel, by decide +kernel, by decide +kernel, by decide +kernel, by decide +kernel⟩

/-- The hypotheses of `C63_countdown` are met: 00:01 after 2943 frames of PAL, 00:00 after 2993 frames and later. -/
theorem C63_sample : ∃ mems, mems 0 = minuteMem ∧ Frames idle mems ∧ Reads (mems 2943) 1 ∧ Reads (mems 2993) 0 ∧ Reads (mems 100000) 0 := by
  obtain ⟨mems, h0, h1, h2⟩ := C63_countdown 0 60 (.inl rfl) minuteMem idle ⟨fun _ _ => rfl, fun _ _ => rfl, fun _ _ _ _ _ => rfl⟩ minute_program minute_parts minute_reads
  exact ⟨mems, h0, h1, h2 2943, h2 2993, h2 100000⟩

/-- Those of `C63_screen_on`, too. -/
theorem C63_screen_sample : ∃ st', Returns { idle 0 minuteMem with pc := 0xfc73, d := false } st' ∧ st'.mem 0xd402 = 0x50 ∧ st'.mem 0xd403 = 0xfc := by
  obtain ⟨st', h, h1, h2, _⟩ := C63_screen_on { idle 0 minuteMem with pc := 0xfc73, d := false } rfl rfl minute_program (by show minuteMem 0xd40b = 0; decide +kernel)
  exact ⟨st', h, h1, h2⟩

/-- And those of `C63_title_time`: the song of C62, one minute long. -/
theorem C63_title_sample : ∃ w', writeXexFile titled titledData true (setOutput (List.replicate 900 0) 0 900) = (.ok (), w') ∧
    0 < titled.durations titled.defaultSong ∧ titled.durations titled.defaultSong ≤ 5999000 := by
  obtain ⟨w', _, _, _, h, _⟩ := C62_sample
  exact ⟨w', h, by decide, by decide⟩

end Asap.Props
