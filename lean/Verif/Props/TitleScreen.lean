import Verif.Lemmas.Antic
import Verif.Props.Write

/-! C62: the title screen of executables. -/

namespace Asap.Props
open Asap Asap.Spec.Antic Asap.Spec.FlashPack

theorem w_bind_ok {α β : Type} {m : W α} {f : α → W β} {w w' : Writer} {b : β} (h : (m >>= f) w = (.ok b, w')) :
    ∃ a w1, m w = (.ok a, w1) ∧ f a w1 = (.ok b, w') := by
  have h : W.bind m f w = (.ok b, w') := h
  unfold W.bind at h
  rcases hm : m w with ⟨r, w1⟩
  rw [hm] at h
  cases r with
  | ok a => exact ⟨a, w1, rfl, h⟩
  | error e => cases h

theorem w_bind_eq {α β : Type} {m : W α} {f : α → W β} {w w1 : Writer} {a : α} (h : m w = (.ok a, w1)) : (m >>= f) w = f a w1 := by
  show W.bind m f w = _
  unfold W.bind
  rw [h]

theorem lift_ok {α : Type} {x : M α} {a : α} {w w' : Writer} (h : W.lift x w = (.ok a, w')) : x = .ok a ∧ w = w' := by
  unfold W.lift at h
  simp only [Prod.mk.injEq] at h
  exact h

theorem emits_ok {m : W Unit} {bs : List Nat} (hm : Emits m bs) {w w' : Writer} (hw : w.Valid) (h : m w = (.ok (), w')) :
    w.offset + bs.length ≤ w.stop ∧ w' = w.put bs := by
  by_cases hf : w.offset + bs.length ≤ w.stop
  · have := (hm w hw).1 hf
    rw [this] at h
    simp only [Prod.mk.injEq, true_and] at h
    exact ⟨hf, h.symm⟩
  · obtain ⟨k, _, hk⟩ := (hm w hw).2 (by omega)
    rw [hk] at h
    cases h

theorem put_bytes {w : Writer} (hw : w.Valid) (bs : List Nat) : (w.put bs).output.take (w.put bs).offset = w.output.take w.offset ++ bs := by
  have := hw.le
  have := hw.fits
  simp only [Writer.put]
  rw [List.take_left' (by rw [List.length_append, List.length_take]; omega)]

/-! ## Blocks -/

theorem hasAt_first {mem : Nat → Option Nat} {first last a : Nat} {x y z data : List Nat} (e : data = x ++ (y ++ z)) (ha : a = first + x.length)
    (hl : data.length = last + 1 - first) (hfl : first ≤ last) : HasAt (fun a => if first ≤ a ∧ a ≤ last then data[a - first]? else mem a) a y := by
  intro k hk
  have : data.length = x.length + (y.length + z.length) := by rw [e, List.length_append, List.length_append]
  have h1 : first ≤ a + k ∧ a + k ≤ last := by omega
  show (if first ≤ a + k ∧ a + k ≤ last then data[a + k - first]? else mem (a + k)) = y[k]?
  rw [if_pos h1, e, show a + k - first = x.length + k by omega, List.getElem?_append_right (by omega), Nat.add_sub_cancel_left, List.getElem?_append_left hk]

theorem hasAt_later {mem : Nat → Option Nat} {first last a : Nat} {y data : List Nat} (h : HasAt mem a y) (hd : a + y.length ≤ first ∨ last < a) :
    HasAt (fun a => if first ≤ a ∧ a ≤ last then data[a - first]? else mem a) a y := by
  intro k hk
  show (if first ≤ a + k ∧ a + k ≤ last then data[a + k - first]? else mem (a + k)) = y[k]?
  rw [if_neg (by omega)]
  exact h k hk

theorem at_of_hasAt {image : Nat → Option Nat} {mem : Nat → Nat} {a : Nat} {l : List Nat} (h : HasAt image a l) (hm : ∀ a b, image a = some b → mem a = b) :
    Antic.At mem a l := by
  intro k b hk
  exact hm _ _ (by rw [h k (List.getElem?_eq_some_iff.mp hk).1, hk])

/-- The blocks that follow the driver. -/
theorem title_image {before title author date : List Nat} {t a o place : Nat} {image : Nat → Option Nat} (hi : Image before image) (h : t + 1 + a + o ≤ 26)
    (ht : title.length = 32 * (t + 1)) (ha : author.length = 32 * a) (ho : date.length = 32 * o)
    (hp : place + (title.length + 8 + author.length + date.length) = 0xfc50) :
    ∃ image', Image (before ++ ([place % 256, place / 256, 0xdd, 0xfc] ++ Antic.data t a o place title author date) ++ ([0x00, 0x01, 0x39, 0x01] ++ Antic.start) ++ [0xe0, 0x02, 0xe1, 0x02, 0x00, 0x01]) image' ∧
      RunsAt image' 0x100 ∧ HasAt image' 0x100 Antic.start ∧ HasAt image' 0xfc73 Antic.program ∧ Shows image' 0xfc50 (titleScreen title author date) ∧
      (∀ d time, date = d ++ time → HasAt image' (0xfc50 - time.length) time) ∧
      ∀ q y, HasAt image q y → 0x13a ≤ q → q + y.length ≤ 0x2e0 → HasAt image' q y := by
  obtain ⟨_, _, _, lp, ls⟩ := Antic.obx_split
  have ll := Antic.list_length (place := place) h
  have ld : (Antic.data t a o place title author date).length = 0xfcdd + 1 - place := by
    simp only [Antic.data, List.length_append, List.length_replicate, List.length_cons, List.length_nil, lp, ll]
    omega
  have b1 : Block ([place % 256, place / 256, 0xdd, 0xfc] ++ Antic.data t a o place title author date) place 0xfcdd (Antic.data t a o place title author date) :=
    ⟨by omega, by omega, ld, Or.inl rfl, fun e => by omega⟩
  have b2 : Block ([0x00, 0x01, 0x39, 0x01] ++ Antic.start) 0x100 0x139 Antic.start := ⟨by omega, by omega, ls, Or.inl rfl, fun e => by omega⟩
  have b3 : Block [0xe0, 0x02, 0xe1, 0x02, 0x00, 0x01] 0x2e0 0x2e1 [0x00, 0x01] := ⟨by omega, by omega, rfl, Or.inl rfl, fun e => by omega⟩
  have later : ∀ (q : Nat) (y : List Nat) (im : Nat → Option Nat), HasAt im q y → 0x300 ≤ q → HasAt _ q y := fun q y im g hq =>
    hasAt_later (first := 0x2e0) (last := 0x2e1) (data := [0x00, 0x01]) (hasAt_later (first := 0x100) (last := 0x139) (data := Antic.start) g (Or.inr (by omega))) (Or.inr (by omega))
  have whole : ∀ x y z q, Antic.data t a o place title author date = x ++ (y ++ z) → q = place + x.length →
      HasAt (fun a_1 => if place ≤ a_1 ∧ a_1 ≤ 0xfcdd then (Antic.data t a o place title author date)[a_1 - place]? else image a_1) q y :=
    fun x y z q e hq => hasAt_first e hq ld (by omega)
  refine ⟨_, Image.block (Image.block (Image.block hi b1) b2) b3, ⟨by omega, ?_⟩, ?_, ?_, ?_, ?_, ?_⟩
  · exact hasAt_first (x := []) (z := []) rfl rfl rfl (by omega)
  · exact hasAt_later (hasAt_first (x := []) (z := []) (by simp) rfl ls (by omega)) (Or.inl (by rw [ls]; omega))
  · refine later _ _ _ (whole (title ++ (List.replicate 8 0x55 ++ (author ++ (date ++ (Antic.list t a o place ++ [0x41, 0x50, 0xfc]))))) Antic.program [] _ ?_ ?_) (by omega)
    · simp [Antic.data]
    · simp only [List.length_append, List.length_replicate, List.length_cons, List.length_nil, ll]
      omega
  · intro mem hm scan
    refine Antic.frame_list (t := t) (a := a) (o := o) (place := place) h ht ha ho hp (at_of_hasAt (later _ _ _ (whole [] _ Antic.program _ ?_ rfl) (by omega)) hm)
    simp [Antic.data]
  · intro d time e
    have hl : date.length = d.length + time.length := by rw [e, List.length_append]
    refine later _ _ _ (whole (title ++ (List.replicate 8 0x55 ++ (author ++ d))) time (Antic.list t a o place ++ ([0x41, 0x50, 0xfc] ++ Antic.program)) _ ?_ ?_) (by omega)
    · simp [Antic.data, e]
    · simp only [List.length_append, List.length_replicate]
      omega
  · intro q y g h1 h2
    exact hasAt_later (hasAt_later (hasAt_later g (.inl (by omega))) (.inr (by omega))) (.inl (by omega))

theorem stays_xexDriver (info : Info) (ip : Int × Int) : Stays (writeXexDriver info ip) := by
  have h3 : Stays (writeXexD info ip) := by unfold writeXexD; stays
  have h4 : Stays (writeXexB info ip) := by unfold writeXexB; stays
  unfold writeXexDriver
  split
  · exact h3
  · exact stays_fail _
  · exact h4

/-! ## The theorem -/

/-- An executable with information about the music, before its compression (C30), starts with the program at 0x100.  After what is
written without the information, it has the same program for every song at 0x100 and 0xFC73, and makes ANTIC, from the instructions at 0xFC50 that this
program tells it, show the title, a bar, the authors and the date line, in order, complete and without anything else, on 223 scan lines.  The time, which
the program counts down, is always at 0xFC4B.  From 0x13A to 0x2DF, where the program that plays is, nothing is changed. -/
theorem C62_title_screen (info : Info) (m out : List Nat) (stop : Nat) (hs : stop ≤ out.length) (w' : Writer)
    (h : writeXexFile info m true (setOutput out 0 stop) = (.ok (), w')) :
    ∃ title author date before info_blocks w0,
      XexInfo.title info = .ok title ∧ XexInfo.author info = .ok author ∧ XexInfo.other info = .ok date ∧
      writeXexFile info m false (setOutput out 0 stop) = (.ok (), w0) ∧ w0.output.take w0.offset = before ++ [0xe0, 0x02, 0xe1, 0x02, 0x24, 0x01] ∧
      w'.output.take w'.offset = before ++ info_blocks ∧
      characters (titleScreen title author date) = title ++ author ++ date ∧ height (titleScreen title author date) = 223 ∧
      ∀ image, Image before image → ∃ image', Image (before ++ info_blocks) image' ∧ RunsAt image' 0x100 ∧
        HasAt image' 0x100 (Obx.xexinfo.drop 120) ∧ HasAt image' 0xfc73 ((Obx.xexinfo.drop 9).take 107) ∧
        Shows image' 0xfc50 (titleScreen title author date) ∧
        (∀ time, 0 < info.durations info.defaultSong → Duration.secondsToString (info.durations info.defaultSong + 999) = some time → HasAt image' 0xfc4b time) ∧
        ∀ q y, HasAt image q y → 0x13a ≤ q → q + y.length ≤ 0x2e0 → HasAt image' q y := by
  have hv : (setOutput out 0 stop).Valid := ⟨Nat.zero_le _, hs⟩
  unfold writeXexFile at h
  obtain ⟨ip, w1, h1, h⟩ := w_bind_ok h
  obtain ⟨_, w2, h2, h⟩ := w_bind_ok h
  obtain ⟨_, w3, h3, h⟩ := w_bind_ok h
  have v1 : w1.Valid := by
    have := ((stays_executable true info m).kept _ hv).valid hv
    rwa [h1] at this
  have v2 : w2.Valid := by
    have := ((stays_xexDriver info ip).kept _ v1).valid v1
    rwa [h2] at this
  rw [W.when, if_pos rfl] at h3
  unfold writeXexInfo at h3
  obtain ⟨title, x1, l1, p1⟩ := w_bind_ok h3
  obtain ⟨g1, u1⟩ := lift_ok l1
  subst u1
  obtain ⟨author, x2, l2, p2⟩ := w_bind_ok p1
  obtain ⟨g2, u2⟩ := lift_ok l2
  subst u2
  obtain ⟨date, x3, l3, p3⟩ := w_bind_ok p2
  obtain ⟨g3, u3⟩ := lift_ok l3
  subst u3
  obtain ⟨t1, t2, t3⟩ := Antic.title_shape g1
  obtain ⟨a1, a2⟩ := Antic.author_shape g2
  obtain ⟨o1, o2, o3⟩ := Antic.other_shape g3
  obtain ⟨t, ht⟩ : ∃ t, title.length = 32 * (t + 1) := ⟨title.length / 32 - 1, by omega⟩
  obtain ⟨a, ha⟩ : ∃ a, author.length = 32 * a := ⟨author.length / 32, by omega⟩
  obtain ⟨o, ho⟩ : ∃ o, date.length = 32 * o := ⟨date.length / 32, by omega⟩
  obtain ⟨place, hp⟩ : ∃ place, place + (title.length + 8 + author.length + date.length) = 0xfc50 := ⟨0xfc50 - (title.length + 8 + author.length + date.length), by omega⟩
  obtain ⟨f1, e1⟩ := emits_ok (Antic.emits_texts ht ha ho hp) v2 p3
  subst e1
  have v3 := Writer.put_valid v2 f1
  have run : ∀ tag : Bool, Emits (do writeWord 0x2e0; writeWord 0x2e1; writeWord (if tag = true then 0x100 else 0x124))
      (if tag = true then [0xe0, 0x02, 0xe1, 0x02, 0x00, 0x01] else [0xe0, 0x02, 0xe1, 0x02, 0x24, 0x01]) := by
    intro tag
    cases tag
    · exact Emits.seq (emits_word (v := 0x2e0)) (Emits.seq (emits_word (v := 0x2e1)) (emits_word (v := 0x124)) rfl) rfl
    · exact Emits.seq (emits_word (v := 0x2e0)) (Emits.seq (emits_word (v := 0x2e1)) (emits_word (v := 0x100)) rfl) rfl
  obtain ⟨f2, rfl⟩ := emits_ok (run true) v3 h
  have f0 : w2.offset + 6 ≤ w2.stop := by
    have : w2.offset + _ ≤ w2.stop := f1
    simp only [List.length_append, Antic.data, List.length_replicate] at this
    omega
  have h0 := (run false w2 v2).1 f0
  refine ⟨title, author, date, w2.output.take w2.offset,
    ([place % 256, place / 256, 0xdd, 0xfc] ++ Antic.data t a o place title author date ++ [0x00, 0x01, 0x39, 0x01] ++ Antic.start) ++ [0xe0, 0x02, 0xe1, 0x02, 0x00, 0x01], w2.put [0xe0, 0x02, 0xe1, 0x02, 0x24, 0x01], g1, g2, g3, ?_, put_bytes v2 _, ?_,
    Antic.characters_screen t2 a2 o2, Antic.height_screen (by omega), fun image him => ?_⟩
  · unfold writeXexFile
    rw [w_bind_eq h1, w_bind_eq h2, w_bind_eq (show W.when (false = true) (writeXexInfo info) w2 = (.ok (), w2) from rfl)]
    exact h0
  · rw [put_bytes v3, put_bytes v2, List.append_assoc]
    rfl
  · obtain ⟨image', i1, i2, i3, i4, i5, i6, i7⟩ := title_image him (by omega) ht ha ho hp
    refine ⟨image', ?_, i2, i3, i4, i5, fun time p1 p2 => ?_, i7⟩
    · simpa only [List.append_assoc, List.cons_append, List.nil_append] using i1
    · obtain ⟨d, hd⟩ := o3 time p1 p2
      have := i6 d time hd
      rwa [Antic.seconds_length p2] at this

theorem toByte_all : ∀ {l : List Nat}, AllBytes l → (l.map (Nat.cast (R := Int))).map toByte = l
  | [], _ => rfl
  | b :: l, h => by
    rw [List.map_cons, List.map_cons, toByte_all fun c hc => h c (List.mem_cons_of_mem b hc), toByte_of_lt (h b (by simp))]

/-- `Write` with a name that ends with `.xex` makes the executable that `C62_title_screen` is about, compressed as C30 describes. -/
theorem C62_written (fuel : Nat) (target : List Nat) (info : Info) (m out : List Nat) (tag : Bool) (stop n : Nat) (hs : stop ≤ out.length) (hx : Spec.Named target (ascii "xex"))
    (w' : Writer) (h : write fuel target info m tag (setOutput out 0 stop) = (.ok n, w')) :
    ∃ w1 packed, writeXexFile info m tag (setOutput out 0 stop) = (.ok (), w1) ∧ FlashPack.compress (w1.output.take w1.offset) = .ok packed ∧
      n = packed.length ∧ (AllBytes packed → w'.output.take n = packed) := by
  have hv : (setOutput out 0 stop).Valid := ⟨Nat.zero_le _, hs⟩
  rw [write_xex hx] at h
  obtain ⟨_, w1, h1, h⟩ := w_bind_ok h
  obtain ⟨_, w2, h2, h⟩ := w_bind_ok h
  have v1 : w1.Valid := by
    have := ((stays_xexFile info m tag).kept _ hv).valid hv
    rwa [h1] at this
  rcases writeCompressed_cases w1 with ⟨e, he⟩ | ⟨pk, hpk, he⟩
  · rw [he] at h2; cases h2
  · rw [he] at h2
    obtain ⟨rest, hr, hl⟩ := compress_starts hpk
    have h105 : 105 ≤ pk.length := by rw [hr]; simp; omega
    have v2 : ({ w1 with offset := 0 } : Writer).Valid := ⟨Nat.zero_le _, v1.fits⟩
    obtain ⟨_, e2⟩ := emits_ok (emits_packedBytes h105) v2 h2
    subst e2
    simp only [outputOffset, Prod.mk.injEq, Except.ok.injEq] at h
    obtain ⟨hn, rfl⟩ := h
    have len : n = pk.length := by
      rw [← hn]
      simp only [Writer.put, List.length_append, List.length_map, List.length_take, List.length_drop]
      omega
    refine ⟨w1, pk, h1, hpk, len, fun hb => ?_⟩
    rw [← hn, put_bytes v2]
    rw [toByte_all fun c hc => hb c (List.mem_of_mem_take hc), toByte_all fun c hc => hb c (List.mem_of_mem_drop hc)]
    show [] ++ _ = _
    rw [List.nil_append]
    have e3 : pk.drop (pk.length - 94) = (pk.drop 11).drop (pk.length - 94 - 11) := by rw [List.drop_drop]; congr 1; omega
    rw [e3, List.take_append_drop, List.take_append_drop]

/-! ## A case -/

/-- A song of TYPE B with the title "Song" by Someone, one minute long. -/
def titled : Info := { Info.blank [] with type := .sapB, init := 0x2000, player := 0x2000, headerLen := 0, title := ascii "Song", author := ascii "Someone", date := ascii "2024", durations := fun _ => 60000 }

/-- Its data: RTS at 0x2000. -/
def titledData : List Nat := [255, 255, 0, 32, 0, 32, 96]

theorem titled_ok : (match (writeXexFile titled titledData true (setOutput (List.replicate 900 0) 0 900)).1 with | .ok _ => true | .error _ => false) = true := by decide +kernel

theorem titled_before : (let w := (writeXexFile titled titledData false (setOutput (List.replicate 900 0) 0 900)).2
    (w.output.take w.offset).take (7 + 192) = titledData ++ ([0x24, 0x01, 0xdf, 0x01] ++ ((w.output.take w.offset).drop 11).take 188) ∧ w.offset = 7 + 192 + 6) := by decide +kernel

/-- The hypotheses of `C62_title_screen` are met: a song is written with its title, and what comes before is an executable. -/
theorem C62_sample : ∃ (w' w0 : Writer) (image : Nat → Option Nat) (before : List Nat),
    writeXexFile titled titledData true (setOutput (List.replicate 900 0) 0 900) = (.ok (), w') ∧
    writeXexFile titled titledData false (setOutput (List.replicate 900 0) 0 900) = (.ok (), w0) ∧
    w0.output.take w0.offset = before ++ [0xe0, 0x02, 0xe1, 0x02, 0x24, 0x01] ∧ Image before image := by
  have h := titled_ok
  rcases hw : writeXexFile titled titledData true (setOutput (List.replicate 900 0) 0 900) with ⟨r, w'⟩
  rw [hw] at h
  cases r with
  | error e => simp at h
  | ok _ =>
    obtain ⟨_, _, _, before, _, w0, _, _, _, h0, h1, _⟩ := C62_title_screen titled titledData (List.replicate 900 0) 900 (by rw [List.length_replicate]; exact Nat.le_refl _) w' hw
    have hb := titled_before
    rw [h0] at hb
    simp only at hb
    obtain ⟨b1, b2⟩ := hb
    have len : (w0.output.take w0.offset).length = before.length + 6 := by rw [h1]; simp
    have hl : w0.offset ≤ w0.output.length := by
      have hv : (setOutput (List.replicate 900 0) 0 900).Valid := ⟨Nat.zero_le _, by show 900 ≤ (List.replicate 900 0).length; rw [List.length_replicate]; exact Nat.le_refl _⟩
      have := ((stays_xexFile titled titledData false).kept _ hv).valid hv
      rw [h0] at this
      exact Nat.le_trans this.le this.fits
    rw [List.length_take, Nat.min_eq_left hl, b2] at len
    have e : before = (w0.output.take w0.offset).take (7 + 192) := by rw [h1, List.take_left' (by omega)]
    rw [b1] at e
    have len2 : (((w0.output.take w0.offset).drop 11).take 188).length = 0x1df + 1 - 0x124 := by
      rw [List.length_take, List.length_drop, List.length_take]
      omega
    have him := Image.block (first := 0x124) (last := 0x1df) (data := ((w0.output.take w0.offset).drop 11).take 188)
      (Image.block (file := []) (b := titledData) (first := 0x2000) (last := 0x2000) (data := [96]) Image.empty ⟨by omega, by omega, rfl, Or.inr rfl, fun e => by omega⟩)
      ⟨by omega, by omega, len2, Or.inl rfl, fun e => by omega⟩
    exact ⟨w', w0, _, before, rfl, h0, h1, by rw [e]; exact him⟩

end Asap.Props
