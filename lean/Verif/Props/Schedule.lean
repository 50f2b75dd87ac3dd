import Verif.Lemmas.Schedule
import Verif.Props.Countdown

/-! # C64: when executables call the player -/

namespace Asap.Props
open Asap.Isa Asap.Spec.Flat Asap.Spec.Schedule Asap.Flat Asap.Spec.FlashPack
open Asap.Spec.Countdown (Loaded)

/-- The program that calls the player in executables, asapwriter.fu:847 (6502/xexb.asx:8-106). -/
def playerDriver : List Nat := Obx.xexb.drop 6

/-- After a call of the player: the next one is planned, and the program begins to wait for it, with nothing else changed. -/
theorem C64_next (st : State) (tv fastplay k : Nat) (htv : tv = 0 ∨ tv = 1) (hc : Driver playerDriver fastplay st.mem) (hpc : st.pc = 0x190) (hd : st.d = false)
    (hw : Waits tv fastplay k st.mem) :
    ∃ st', Runs st st' ∧ st'.pc = 0x1b9 ∧ st'.a = st'.mem 0x1b5 ∧ st'.d = false ∧ st'.s = st.s ∧ Driver playerDriver fastplay st'.mem ∧ Waits tv fastplay (k + 1) st'.mem ∧
      ∀ b, b ≠ 0x199 → b ≠ 0x1a2 → b ≠ 0x1b5 → st'.mem b = st.mem b := by
  obtain ⟨st', r, ⟨e1, e2, e3, e4, e5, e6⟩, e7⟩ := to_wait (a := st.a) (x := st.x) (y := st.y) (s := st.s) (z := st.z) (c := st.c) hc htv hw st (by rw [← hpc]; rfl) hd
  exact ⟨st', r, e1, e2, e7, e3, e4, e5, e6⟩

theorem kept_driver {mem mem' : Int → Int} {fastplay : Nat} (h : ∀ b, 0x124 ≤ b → b ≤ 0x1df → b ≠ 0x1ba → mem' b = mem b) (hc : Driver playerDriver fastplay mem) :
    Driver playerDriver fastplay mem' := by
  refine ⟨fun j b hj h22 hv => ?_, (h _ (by decide) (by decide) (by decide)).trans hc.odd, (h _ (by decide) (by decide) (by decide)).trans hc.pal,
    (h _ (by decide) (by decide) (by decide)).trans hc.ntsc, (h _ (by decide) (by decide) (by decide)).trans hc.frames, (h _ (by decide) (by decide) (by decide)).trans hc.framesNtsc⟩
  have : j < 177 := by
    have := (List.getElem?_eq_some_iff.mp hj).1
    rwa [show playerDriver.length = 177 by decide +kernel] at this
  rw [h _ (by omega) (by omega) (fun e => hv (by unfold Variable; omega))]
  exact hc.program j b hj h22 hv

theorem kept_waits {mem mem' : Int → Int} {tv fastplay k : Nat} (h : ∀ b, 0x124 ≤ b → b ≤ 0x1df → b ≠ 0x1ba → mem' b = mem b) (hw : Waits tv fastplay k mem) : Waits tv fastplay k mem' :=
  ⟨(h _ (by decide) (by decide) (by decide)).trans hw.kind, (h _ (by decide) (by decide) (by decide)).trans hw.vcount, (h _ (by decide) (by decide) (by decide)).trans hw.frame,
    fun g => (h _ (by decide) (by decide) (by decide)).trans (hw.calls g)⟩

/-- Any number of calls: call `n` is waited for at the frame and VCOUNT that are `n * fastplay / 2` steps after the first call.  There is no drift. -/
theorem C64_schedule (tv fastplay : Nat) (htv : tv = 0 ∨ tv = 1) (mem : Int → Int) (call : Nat → (Int → Int) → State) (hcall : Between call)
    (hc : Driver playerDriver fastplay mem) (hw : Waits tv fastplay 0 mem) :
    ∃ mems, mems 0 = mem ∧ Plans call mems ∧ ∀ n, Driver playerDriver fastplay (mems n) ∧ Waits tv fastplay n (mems n) := by
  obtain ⟨f, h0, hf⟩ := steps_exist (m := mem)
    (I := fun n m => Driver playerDriver fastplay m ∧ Waits tv fastplay n m)
    (S := fun n m m' => ∃ st', Runs (call n m) st' ∧ st'.pc = 0x1b9 ∧ st'.a = st'.mem 0x1b5 ∧ st'.d = false ∧ st'.mem = m')
    ⟨hc, hw⟩ (fun n m ⟨i1, i2⟩ => by
      have k := hcall.mem n m
      obtain ⟨st', r, g1, g2, g3, _, g4, g5, _⟩ := C64_next (call n m) tv fastplay n htv (kept_driver k i1) (hcall.pc n m) (hcall.binary n m) (kept_waits k i2)
      exact ⟨st'.mem, ⟨st', r, g1, g2, g3, rfl⟩, g4, g5⟩)
  exact ⟨f, h0, fun n => (hf n).2, fun n => (hf n).1⟩

/-- In another frame than the one that is planned, the program stays in a loop of two instructions and changes nothing. -/
theorem C64_other_frame (st : State) (tv fastplay k : Nat) (hc : Driver playerDriver fastplay st.mem) (hw : Waits tv fastplay k st.mem) (hpc : st.pc = 0x1b9)
    (ha : st.a = st.mem 0x1b5) (frame : Nat) (hf : st.mem 0x1ba = frame % 256) (hne : frame % 256 ≠ due fastplay k / steps tv % 256) (st' : State) (hr : Runs st st') :
    (st'.pc = 0x1b9 ∨ st'.pc = 0x1bb) ∧ st'.a = st.a ∧ st'.mem = st.mem :=
  stays_frame hr st.a hc (by rw [ha, hw.frame, hf]; omega) rfl (.inl hpc)

/-- In the frame that is planned, VCOUNT is waited for. -/
theorem C64_this_frame (st : State) (tv fastplay k : Nat) (hc : Driver playerDriver fastplay st.mem) (hw : Waits tv fastplay k st.mem) (hpc : st.pc = 0x1b9) (hd : st.d = false)
    (ha : st.a = st.mem 0x1b5) (frame : Nat) (hf : st.mem 0x1ba = frame % 256) (he : frame % 256 = due fastplay k / steps tv % 256) :
    ∃ st', Runs st st' ∧ st'.pc = 0x188 ∧ st'.a = due fastplay k % steps tv ∧ st'.d = false ∧ st'.s = st.s ∧ st'.mem = st.mem := by
  have e : st.mem 0x1ba = st.a := by rw [ha, hw.frame, hf]; omega
  obtain ⟨st', r, ⟨e1, e2, e3, e4⟩, e5⟩ := to_this_frame (a := st.a) (x := st.x) (y := st.y) (s := st.s) (z := st.z) (c := st.c)
    (Q := fun g => g.pc = 0x188 ∧ g.a = st.mem 0x1a2 ∧ g.s = st.s ∧ g.mem = st.mem) hc e (fun _ _ => To.refl ⟨rfl, rfl, rfl, rfl⟩) st (by rw [← hpc]; rfl) hd
  exact ⟨st', r, e1, e2.trans hw.vcount, e5, e3, e4⟩

/-- At another VCOUNT than the one that is planned, the program stays in a loop of two instructions and changes nothing. -/
theorem C64_other_line (st : State) (tv fastplay k : Nat) (hc : Driver playerDriver fastplay st.mem) (hpc : st.pc = 0x188)
    (ha : st.a = due fastplay k % steps tv) (vcount : Nat) (hv : st.mem 0xd40b = vcount) (hv' : vcount < 256) (hne : vcount ≠ due fastplay k % steps tv) (st' : State) (hr : Runs st st') :
    (st'.pc = 0x188 ∨ st'.pc = 0x18b) ∧ st'.a = st.a ∧ st'.mem = st.mem := by
  have h1 : due fastplay k % steps tv < steps tv := Nat.mod_lt _ (by unfold steps; split <;> omega)
  have h2 : steps tv ≤ 156 := by unfold steps; split <;> omega
  refine stays_line hr st.a hc ?_ rfl (.inl hpc)
  rw [ha, hv]
  generalize due fastplay k = t at *
  generalize hS : steps tv = S at *
  have h3 : (t : Int) % S = (t % S : Nat) := by omega
  rw [h3]
  omega

/-- At the VCOUNT that is planned, the program goes on to the call at 0x18D. -/
theorem C64_this_line (st : State) (tv fastplay k : Nat) (hc : Driver playerDriver fastplay st.mem) (hpc : st.pc = 0x188) (hd : st.d = false)
    (ha : st.a = due fastplay k % steps tv) (hv : st.mem 0xd40b = due fastplay k % steps tv) :
    ∃ st', Runs st st' ∧ st'.pc = 0x18d ∧ st'.d = false ∧ st'.s = st.s ∧ st'.mem = st.mem ∧ st'.mem 0x18d = 0x20 ∧ st'.mem 0x18e = 0xd7 ∧ st'.mem 0x18f = 0x01 := by
  obtain ⟨st', r, ⟨e1, e3, e4⟩, e5⟩ := to_this_line (a := st.a) (x := st.x) (y := st.y) (s := st.s) (z := st.z) (c := st.c)
    (Q := fun g => g.pc = 0x18d ∧ g.s = st.s ∧ g.mem = st.mem) hc (by rw [hv, ha]) (fun _ _ => To.refl ⟨rfl, rfl, rfl⟩) st (by rw [← hpc]; rfl) hd
  have e4' : st'.mem = st.mem := e4
  refine ⟨st', r, e1, e5, e3, e4, ?_, ?_, ?_⟩
  · rw [e4']; exact Spec.Schedule.Driver.at hc 0x69
  · rw [e4']; exact Spec.Schedule.Driver.at hc 0x6a
  · rw [e4']; exact Spec.Schedule.Driver.at hc 0x6b

/-! ## Executables -/

/-- The bytes of the block with the program. -/
def driverData (init player : List Nat) (song fastplay : Nat) : List Nat :=
  playerDriver ++ (init ++ ([0x4c] ++ (player ++ [song, fastplay % 2, fastplay / 2 % 156, fastplay / 2 % 131, fastplay / 312, fastplay / 262])))

theorem emits_driver {info : Info} {ip : Int × Int} {fastplay : Nat} (h : info.type ≠ .sapD ∧ info.type ≠ .sapS) (hf : info.fastplay = fastplay) (hl : fastplay ≤ 65535) :
    Emits (writeXexDriver info ip) ([0x24, 0x01, 0xdf, 0x01] ++ driverData [toByte (ip.1 % 256), toByte (ip.1 / 256)] [toByte (ip.2 % 256), toByte (ip.2 / 256)] (toByte info.defaultSong) fastplay) := by
  have e : writeXexDriver info ip = writeXexB info ip := by
    unfold writeXexDriver
    split
    · exact absurd ‹_› h.1
    · exact absurd ‹_› h.2
    · rfl
  have word : ∀ v : Int, Emits (writeWord v) [toByte (v % 256), toByte (v / 256)] := fun v => Emits.seq (emits_byte _) (emits_byte _) rfl
  have code : Emits (writeBytes Obx.xexb 2 Obx.xexb.length) ([0x24, 0x01, 0xdf, 0x01] ++ playerDriver) := by
    have := emits_bytes (a := Obx.xexb) (i := 2) (j := Obx.xexb.length) (by decide +kernel) (Nat.le_refl _)
    rwa [show (Obx.xexb.drop 2).take (Obx.xexb.length - 2) = [0x24, 0x01, 0xdf, 0x01] ++ playerDriver by decide +kernel] at this
  rw [e]
  unfold writeXexB
  refine Emits.seq code (Emits.seq (word ip.1) (Emits.seq (emits_byte 0x4c) (Emits.seq (word ip.2) (Antic.emits_seq _) rfl) rfl) rfl) ?_
  unfold driverData
  rw [hf]
  have t1 : toByte ((fastplay : Int) % 2) = fastplay % 2 := by unfold toByte; omega
  have t2 : toByte ((fastplay : Int) / 2 % 156) = fastplay / 2 % 156 := by unfold toByte; omega
  have t3 : toByte ((fastplay : Int) / 2 % 131) = fastplay / 2 % 131 := by unfold toByte; omega
  have t4 : toByte ((fastplay : Int) / 312) = fastplay / 312 := by unfold toByte; omega
  have t5 : toByte ((fastplay : Int) / 262) = fastplay / 262 := by unfold toByte; omega
  simp only [List.map_cons, List.map_nil, t1, t2, t3, t4, t5]
  simp only [List.append_assoc]
  rfl

/-- A memory that has the block is ready for the first call. -/
theorem ready {image : Nat → Option Nat} {mem : Int → Int} {init player : List Nat} {song fastplay : Nat} (hi : init.length = 2) (hp : player.length = 2)
    (h : HasAt image 0x13a ((driverData init player song fastplay).drop 22)) (hl : Loaded image mem) :
    Driver playerDriver fastplay mem ∧ Waits 0 fastplay 0 mem ∧ mem 0x1ba = 0 := by
  have lp : playerDriver.length = 177 := by decide +kernel
  obtain ⟨i0, i1, rfl⟩ : ∃ i0 i1, init = [i0, i1] := by
    match init, hi with
    | [i0, i1], _ => exact ⟨i0, i1, rfl⟩
  obtain ⟨p0, p1, rfl⟩ : ∃ p0 p1, player = [p0, p1] := by
    match player, hp with
    | [p0, p1], _ => exact ⟨p0, p1, rfl⟩
  have at' : ∀ (j b : Nat), (driverData [i0, i1] [p0, p1] song fastplay)[j]? = some b → 22 ≤ j → mem (0x124 + j : Nat) = b := by
    intro j b hj h22
    have hk : ((driverData [i0, i1] [p0, p1] song fastplay).drop 22)[j - 22]? = some b := by rw [List.getElem?_drop, show 22 + (j - 22) = j by omega, hj]
    refine hl _ _ ?_
    rw [show 0x124 + j = 0x13a + (j - 22) by omega, h _ (List.getElem?_eq_some_iff.mp hk).1, hk]
  have code : ∀ (j b : Nat), playerDriver[j]? = some b → 22 ≤ j → mem (0x124 + j : Nat) = b := by
    intro j b hj h22
    refine at' j b ?_ h22
    unfold driverData
    rw [List.getElem?_append_left (List.getElem?_eq_some_iff.mp hj).1, hj]
  have tail : ∀ (j b : Nat), [i0, i1, 0x4c, p0, p1, song, fastplay % 2, fastplay / 2 % 156, fastplay / 2 % 131, fastplay / 312, fastplay / 262][j]? = some b → mem (0x1d5 + j : Nat) = b := by
    intro j b hj
    have := at' (177 + j) b (by
      unfold driverData
      rw [List.getElem?_append_right (by omega), lp, Nat.add_sub_cancel_left]
      exact hj) (by omega)
    rwa [show 0x124 + (177 + j) = 0x1d5 + j by omega] at this
  refine ⟨⟨fun j b hj h22 _ => code j b hj h22, tail 6 (fastplay % 2) rfl, tail 7 (fastplay / 2 % 156) rfl, tail 8 (fastplay / 2 % 131) rfl, tail 9 (fastplay / 312) rfl, tail 10 (fastplay / 262) rfl⟩,
    ⟨code 0x6d 0 (by decide +kernel) (by decide), ?_, ?_, fun _ => code 0x75 0 (by decide +kernel) (by decide)⟩, code 0x96 0 (by decide +kernel) (by decide)⟩
  · rw [show due fastplay 0 = 125 by unfold due; omega]
    exact code 0x7e 125 (by decide +kernel) (by decide)
  · rw [show due fastplay 0 = 125 by unfold due; omega]
    exact code 0x91 0 (by decide +kernel) (by decide)

theorem driver_length {init player : List Nat} {song fastplay : Nat} (hi : init.length = 2) (hp : player.length = 2) : (driverData init player song fastplay).length = 188 := by
  unfold driverData
  simp only [List.length_append, List.length_cons, List.length_nil, hi, hp, show playerDriver.length = 177 by decide +kernel]

/-- An executable without the information: the music, the program, the start address. -/
theorem plain_written {info : Info} {m out : List Nat} {stop fastplay : Nat} (hs : stop ≤ out.length) {w : Writer} (h : writeXexFile info m false (setOutput out 0 stop) = (.ok (), w))
    (ht : info.type ≠ .sapD ∧ info.type ≠ .sapS) (hf : info.fastplay = fastplay) (hl : fastplay ≤ 65535) :
    ∃ music init player song, init.length = 2 ∧ player.length = 2 ∧
      w.output.take w.offset = (music ++ ([0x24, 0x01, 0xdf, 0x01] ++ driverData init player song fastplay)) ++ [0xe0, 0x02, 0xe1, 0x02, 0x24, 0x01] := by
  have hv : (setOutput out 0 stop).Valid := ⟨Nat.zero_le _, hs⟩
  unfold writeXexFile at h
  obtain ⟨ip, w1, h1, h⟩ := w_bind_ok h
  obtain ⟨_, w2, h2, h⟩ := w_bind_ok h
  obtain ⟨_, w3, h3, h⟩ := w_bind_ok h
  have v1 : w1.Valid := by
    have := ((stays_executable true info m).kept _ hv).valid hv
    rwa [h1] at this
  obtain ⟨f2, rfl⟩ := emits_ok (emits_driver ht hf hl) v1 h2
  have v2 := Writer.put_valid v1 f2
  rw [show W.when (false = true) (writeXexInfo info) = pure () from rfl] at h3
  cases h3
  have run : Emits (do writeWord 0x2e0; writeWord 0x2e1; writeWord (if false = true then 0x100 else 0x124)) [0xe0, 0x02, 0xe1, 0x02, 0x24, 0x01] :=
    Emits.seq (emits_word (v := 0x2e0)) (Emits.seq (emits_word (v := 0x2e1)) (emits_word (v := 0x124)) rfl) rfl
  obtain ⟨_, rfl⟩ := emits_ok run v2 h
  exact ⟨w1.output.take w1.offset, _, _, _, rfl, rfl, by rw [put_bytes v2, put_bytes v1]⟩

/-- Every executable but those of type D, before its compression (C30), with or without the information: when it is loaded, the program, with the FASTPLAY of the song, is in the
memory, the first call is planned, and no frames have passed; the byte at 0x135 tells whether there is information. -/
theorem C64_executable (info : Info) (m out : List Nat) (stop fastplay : Nat) (tag : Bool) (hs : stop ≤ out.length) (w' : Writer)
    (h : writeXexFile info m tag (setOutput out 0 stop) = (.ok (), w')) (ht : info.type ≠ .sapD) (hf : info.fastplay = fastplay) (hl : fastplay ≤ 65535) :
    ∃ music rest, w'.output.take w'.offset = music ++ rest ∧ ∀ image, Image music image → ∃ image', Image (music ++ rest) image' ∧ RunsAt image' (if tag then 0x100 else 0x124) ∧
      ∀ mem, Loaded image' mem → Driver playerDriver fastplay mem ∧ Waits 0 fastplay 0 mem ∧ mem 0x1ba = 0 ∧ mem 0x135 = if tag then 0xd0 else 0 := by
  have ht2 : info.type ≠ .sapS := by
    intro e
    unfold writeXexFile at h
    obtain ⟨ip, w1, _, h⟩ := w_bind_ok h
    obtain ⟨_, w2, h2, _⟩ := w_bind_ok h
    unfold writeXexDriver at h2
    rw [e] at h2
    cases h2
  have block : ∀ {init player : List Nat} {song : Nat}, init.length = 2 → player.length = 2 →
      Block ([0x24, 0x01, 0xdf, 0x01] ++ driverData init player song fastplay) 0x124 0x1df (driverData init player song fastplay) :=
    fun hi hp => ⟨by omega, by omega, driver_length hi hp, Or.inl rfl, fun e => by omega⟩
  have split : ∀ (init player : List Nat) (song : Nat), driverData init player song fastplay = (driverData init player song fastplay).take 22 ++ ((driverData init player song fastplay).drop 22 ++ []) := by
    intro init player song
    rw [List.append_nil, List.take_append_drop]
  cases tag with
  | false =>
    obtain ⟨music, init, player, song, hi, hp, e⟩ := plain_written hs h ⟨ht, ht2⟩ hf hl
    refine ⟨music, ([0x24, 0x01, 0xdf, 0x01] ++ driverData init player song fastplay) ++ [0xe0, 0x02, 0xe1, 0x02, 0x24, 0x01], by rw [e, List.append_assoc], fun image him => ?_⟩
    have b3 : Block [0xe0, 0x02, 0xe1, 0x02, 0x24, 0x01] 0x2e0 0x2e1 [0x24, 0x01] := ⟨by omega, by omega, rfl, Or.inl rfl, fun e => by omega⟩
    have hd := driver_length (song := song) (fastplay := fastplay) hi hp
    have im := Image.block (Image.block him (block (song := song) hi hp)) b3
    rw [List.append_assoc] at im
    refine ⟨_, im, ⟨by decide, hasAt_first (x := []) (z := []) rfl rfl rfl (by omega)⟩, fun mem hm => ?_⟩
    have hr := ready hi hp (hasAt_later (first := 0x2e0) (last := 0x2e1) (data := [0x24, 0x01]) (hasAt_first (mem := image) (first := 0x124) (last := 0x1df) (split init player song) ?_ hd (by omega)) (.inl ?_)) hm
    · refine ⟨hr.1, hr.2.1, hr.2.2, hm 0x135 0 ?_⟩
      dsimp only
      rw [if_neg (by omega), if_pos (by omega)]
      unfold driverData
      rw [List.getElem?_append_left (by rw [show playerDriver.length = 177 by decide +kernel]; omega)]
      decide +kernel
    · rw [List.length_take, hd]; rfl
    · rw [List.length_drop, hd]; omega
  | true =>
    obtain ⟨_, _, _, before, blocks, w0, _, _, _, h0, e0, e1, _, _, h2⟩ := C62_title_screen info m out stop hs w' h
    obtain ⟨music, init, player, song, hi, hp, e⟩ := plain_written hs h0 ⟨ht, ht2⟩ hf hl
    have eb : before = music ++ ([0x24, 0x01, 0xdf, 0x01] ++ driverData init player song fastplay) := List.append_cancel_right (e0.symm.trans e)
    have hd := driver_length (song := song) (fastplay := fastplay) hi hp
    refine ⟨music, ([0x24, 0x01, 0xdf, 0x01] ++ driverData init player song fastplay) ++ blocks, by rw [e1, eb, List.append_assoc], fun image him => ?_⟩
    have im := Image.block him (block (song := song) hi hp)
    rw [← eb] at im
    obtain ⟨image', i1, i2, i3, _, _, _, i7⟩ := h2 _ im
    refine ⟨image', by rw [← List.append_assoc, ← eb]; exact i1, i2, fun mem hm => ?_⟩
    have hr := ready hi hp (i7 _ _ (hasAt_first (split init player song) ?_ hd (by omega)) (by omega) ?_) hm
    · refine ⟨hr.1, hr.2.1, hr.2.2, hm 0x135 0xd0 ?_⟩
      have := i3 0x35 (by decide +kernel)
      rw [show 0x100 + 0x35 = 0x135 from rfl] at this
      rw [this]
      decide +kernel
    · rw [List.length_take, hd]; rfl
    · rw [List.length_drop, hd]; omega

/-! ## A case -/

/-- A song that calls its player every 99 scan lines. -/
def every99 : Nat → Option Nat := fun a => if 0x13a ≤ a then ((driverData [0, 0x20] [3, 0x20] 0 99).drop 22)[a - 0x13a]? else none

/-- Its memory. -/
def mem99 (b : Int) : Int := ((every99 b.toNat).getD 0 : Nat)

/-- A player that does nothing. -/
def idlePlayer (_ : Nat) (mem : Int → Int) : State := { idle 0 mem with pc := 0x190, d := false }

theorem ready99 : Driver playerDriver 99 mem99 ∧ Waits 0 99 0 mem99 ∧ mem99 0x1ba = 0 := by
  refine ready (image := every99) (init := [0, 0x20]) (player := [3, 0x20]) (song := 0) rfl rfl (fun k hk => ?_) (fun a b hab => ?_)
  · unfold every99
    rw [if_pos (by omega), Nat.add_sub_cancel_left]
  · unfold mem99
    rw [show ((a : Int)).toNat = a from rfl, hab]
    rfl

/-- The hypotheses of `C64_schedule` are met: the third call is waited for at VCOUNT 68 of frame 1, the fourth one at VCOUNT 117. -/
theorem C64_sample : ∃ mems, mems 0 = mem99 ∧ Plans idlePlayer mems ∧ mems 2 0x1a2 = 68 ∧ mems 2 0x1b5 = 1 ∧ mems 3 0x1a2 = 117 ∧ mems 3 0x1b5 = 1 := by
  have hr := ready99
  obtain ⟨mems, h0, h1, h2⟩ := C64_schedule 0 99 (.inl rfl) mem99 idlePlayer ⟨fun _ _ => rfl, fun _ _ => rfl, fun _ _ _ _ _ _ => rfl⟩ hr.1 hr.2.1
  exact ⟨mems, h0, h1, (h2 2).2.vcount, (h2 2).2.frame, (h2 3).2.vcount, (h2 3).2.frame⟩

end Asap.Props
