import Mathlib.Tactic.ByContra
import Verif.Lemmas.Flat
import Verif.Lemmas.FlashCompress

/-! # The depacker of compressed executables as a 6502 program -/

namespace Asap.Flat
open Asap.Isa Asap.Spec.Flat Asap.Spec.FlashPack
open Asap.Spec.Convert (cfg wr wr_self wr_other called)
open Asap.FlashPack (depacker byte word)

/-- What the depacker uses for itself: its variables, two bytes of the stack, and its code at `C`. -/
def Private (C : Nat) (s a : Int) : Prop := (0xfc ≤ a ∧ a ≤ 0xff) ∨ a = 256 + s ∨ a = 256 + (s - 1) % 256 ∨ (C ≤ a ∧ a < C + 0x58)

/-- The code of the depacker at `C`; the bytes at 1, 2 and 0x1A change. -/
def bodyOf (C run : Int) : List Int :=
  [0xad, 0, 0, 0xee, (C + 1) % 256, (C + 1) / 256 % 256, 0xd0, 0x03, 0xee, (C + 2) % 256, (C + 2) / 256 % 256, 0x60,
   0x4c, run % 256, run / 256 % 256,
   0x85, 0xfe, 0x8a, 0x2a, 0xaa, 0xf0, 0xf6, 0xb1, 0xfe, 0x99, 0x80, 0x80, 0xc8, 0xd0, 0x09, 0x98, 0x38, 0x65, 0xff, 0x85, 0xff,
   0x8d, (C + 0x1a) % 256, (C + 0x1a) / 256 % 256, 0xca, 0xd0, 0xec, 0x06, 0xfd, 0xd0, 0x15, 0x06, 0xfc, 0xd0, 0x07, 0x38,
   0x20, C % 256, C / 256 % 256, 0x2a, 0x85, 0xfc, 0xa9, 0x01, 0x90, 0x04, 0x20, C % 256, C / 256 % 256, 0x2a, 0x85, 0xfd,
   0x20, C % 256, C / 256 % 256, 0xa2, 0x01, 0x90, 0xce, 0x4a, 0xd0, 0xc2, 0x20, C % 256, C / 256 % 256, 0xb0, 0xc1, 0xa8,
   0x20, C % 256, C / 256 % 256, 0x90, 0xca]

theorem bodyOf_length (C run : Int) : (bodyOf C run).length = 0x58 := rfl

/-- May be read and written while `n` bytes of the stream, which ends at `C`, are unread. -/
def Safe (C : Nat) (s : Int) (n a : Nat) : Prop := ¬ Private C s a ∧ ¬ (C ≤ a + n ∧ a < C)

/-- The memory, except for the output address. -/
structure Base (C run : Nat) (s : Int) (d : Depacker) (mem : Int → Int) : Prop where
  place : 0x2000 + d.input.length ≤ C ∧ C + 0x58 ≤ 0xbc20
  sp : 0 ≤ s ∧ s < 256
  body : ∀ (j : Nat) (b : Int), (bodyOf C run)[j]? = some b → j ≠ 1 ∧ j ≠ 2 ∧ j ≠ 0x1a → mem (C + j) = b
  lo : mem (C + 1) = ((C : Int) - d.input.length) % 256
  hi : mem (C + 2) = ((C : Int) - d.input.length) / 256
  bytes : ∀ b ∈ d.input, b < 256
  stream : ∀ (k b : Nat), d.input[k]? = some b → mem ((C : Int) - d.input.length + k) = b
  ram : ∀ a : Nat, a < 65536 → ¬ Private C s a → mem a = d.ram a
  fe : 0 ≤ mem 0xfe ∧ mem 0xfe < 256 ∧ ((d.dist : Int) + mem 0xfe) % 65536 = 128 ∧ d.dist ≤ 65536

/-- The output address: in Y, 0xFF and the code; not before the first address in the stream. -/
def Ptr (C : Nat) (d : Depacker) (mem : Int → Int) (y : Int) : Prop :=
  d.out = C ∨ ((0 ≤ y ∧ y < 256) ∧ mem 0xff = mem (C + 0x1a) ∧ (0 ≤ mem 0xff ∧ mem 0xff < 256) ∧ (d.out : Int) = (256 * mem 0xff + 128 + y) % 65536)

variable {C run : Nat} {s : Int} {d d' : Depacker} {mem : Int → Int} {a x y : Int} {z c : Bool} {Q : Spec.Convert.Cfg → Prop}

theorem Base.at (R : Base C run s d mem) {q b : Int} (j : Nat) (hq : q = C + j := by omega)
    (e : (bodyOf C run)[j]? = some b := by rfl) (hj : j ≠ 1 ∧ j ≠ 2 ∧ j ≠ 0x1a := by decide) : mem q = b := by
  rw [hq]; exact R.body j b e hj

theorem Base.same (R : Base C run s d mem) (h1 : d'.ram = d.ram) (h2 : d'.dist = d.dist) (h3 : d'.input = d.input) : Base C run s d' mem := by
  refine ⟨by rw [h3]; exact R.place, R.sp, R.body, by rw [h3]; exact R.lo, by rw [h3]; exact R.hi, by rw [h3]; exact R.bytes, by rw [h3]; exact R.stream,
    by rw [h1]; exact R.ram, by rw [h2]; exact R.fe⟩

theorem byte_cast (v : Int) : ((byte v : Nat) : Int) = v % 256 := by unfold byte; omega

/-- Writing to variables. -/
theorem Base.scratch (R : Base C run s d mem) {q v : Int} (hq : q = 0xfc ∨ q = 0xfd ∨ q = 0xff ∨ q = 256 + s ∨ q = 256 + (s - 1) % 256 ∨ q = C + 0x1a) :
    Base C run s d (wr mem q v) := by
  have hp := R.place
  have hs := R.sp
  have hl : ∀ j, (bodyOf C run)[j]? ≠ none → j < 0x58 := by
    intro j hj
    by_contra hge
    refine hj ?_
    exact List.getElem?_eq_none (by rw [bodyOf_length]; omega)
  refine ⟨hp, hs, fun j b e hj => ?_, ?_, ?_, R.bytes, fun k b e => ?_, fun a ha hpr => ?_, ?_⟩
  · have := hl j (by rw [e]; exact fun h => nomatch h)
    rw [wr_other (by omega)]; exact R.body j b e hj
  · rw [wr_other (by omega)]; exact R.lo
  · rw [wr_other (by omega)]; exact R.hi
  · have : k < d.input.length := by
      by_contra hge
      rw [List.getElem?_eq_none (by omega)] at e; cases e
    rw [wr_other (by omega)]; exact R.stream k b e
  · unfold Private at hpr
    rw [wr_other (by omega)]; exact R.ram a ha (by unfold Private; exact hpr)
  · rw [wr_other (by omega)]; exact R.fe

theorem Ptr.keep {m : Int → Int} (h : Ptr C d mem y) (ho : d'.out = d.out) (h1 : m 0xff = mem 0xff) (h2 : m (C + 0x1a) = mem (C + 0x1a)) : Ptr C d' m y := by
  unfold Ptr
  rw [ho, h1, h2]; exact h

/-- After a byte of the stream. -/
theorem Base.next (R : Base C run s d mem) {b : Nat} {rest : List Nat} (hi : d.input = b :: rest) {m : Int → Int} (h1 : m (C + 1) = ((C : Int) - rest.length) % 256)
    (h2 : m (C + 2) = ((C : Int) - rest.length) / 256) (h : ∀ q : Int, q ≠ C + 1 → q ≠ C + 2 → m q = mem q) : Base C run s { d with input := rest } m := by
  have hp := R.place
  have hs := R.sp
  rw [hi, List.length_cons] at hp
  refine ⟨⟨by show 0x2000 + rest.length ≤ C; omega, hp.2⟩, hs, fun j b e hj => ?_, h1, h2, fun b hb => R.bytes b (by rw [hi]; exact List.mem_cons_of_mem _ hb), fun k b e => ?_, fun a ha hpr => ?_, ?_⟩
  · rw [h _ (by omega) (by omega)]; exact R.body j b e hj
  · have e : rest[k]? = some b := e
    have hk : k < rest.length := by
      by_contra hge
      rw [List.getElem?_eq_none (by omega)] at e; cases e
    have := R.stream (k + 1) b (by rw [hi, List.getElem?_cons_succ]; exact e)
    rw [hi, List.length_cons] at this
    show m ((C : Int) - rest.length + k) = b
    rw [h _ (by omega) (by omega), ← this]
    congr 1
    omega
  · unfold Private at hpr
    rw [h _ (by omega) (by omega)]; exact R.ram a ha (by unfold Private; exact hpr)
  · rw [h _ (by omega) (by omega)]; exact R.fe

/-- `JSR getByte`. -/
theorem to_get {q : Int} (R : Base C run s d mem) (P : Ptr C d mem y) {b : Nat} {rest : List Nat} (hi : d.input = b :: rest) (hq : mem q = 0x20)
    (h1 : mem (q + 1) = (C : Int) % 256) (h2 : mem (q + 2) = (C : Int) / 256) (hqr : C ≤ q ∧ q < C + 0x58)
    (K : ∀ z' mem', Base C run s { d with input := rest } mem' → Ptr C { d with input := rest } mem' y → mem' 0xfc = mem 0xfc → mem' 0xfd = mem 0xfd →
      To ⟨b, x, y, s, q + 3, z', c, mem'⟩ Q) : To ⟨a, x, y, s, q, z, c, mem⟩ Q := by
  have hp := R.place
  have hs := R.sp
  refine to_jsr hq h1 h2 (by omega) hs ?_
  have R1 : Base C run s d (called mem s q) := (R.scratch (.inr (.inr (.inr (.inl rfl))))).scratch (.inr (.inr (.inr (.inr (.inl rfl)))))
  have e0 : ∀ t, t < 256 ∨ 0x200 ≤ t → called mem s q t = mem t := fun t ht => by
    unfold called
    rw [wr_other (by omega), wr_other (by omega)]
  have hm := e0
  have s1 : called mem s q (256 + (s - 1) % 256) = (q + 2) % 256 := wr_self _ _ _
  have s2 : called mem s q (256 + s) = (q + 2) / 256 := by
    unfold called
    rw [wr_other (by omega), wr_self]
  generalize called mem s q = M at R1 e0 hm s1 s2 ⊢
  have hlo := R1.lo
  have hhi := R1.hi
  rw [hi, List.length_cons] at hlo hhi hp
  have hb := R1.stream 0 b (by rw [hi]; rfl)
  rw [hi, List.length_cons] at hb
  have back : ∀ {N : Int → Int} {z' : Bool}, (∀ t : Int, t ≠ C + 1 → t ≠ C + 2 → N t = M t) → Base C run s { d with input := rest } N →
      To ⟨b, x, y, (s - 1 - 1) % 256, C + 0x0b, z', c, N⟩ Q := by
    intro N z' hN RN
    refine to_rts (RN.at 0x0b) (by omega) (v := q + 3) ?_ ?_
    · rw [hN _ (by omega) (by omega), hN _ (by omega) (by omega), show ((s - 1 - 1) % 256 + 1) % 256 = (s - 1) % 256 by omega, show ((s - 1 - 1) % 256 + 2) % 256 = s by omega, s1, s2]
      omega
    · rw [show ((s - 1 - 1) % 256 + 2) % 256 = s by omega]
      refine K z' N RN (P.keep rfl ?_ ?_) ?_ ?_
      · rw [hN _ (by omega) (by omega), hm _ (by omega)]
      · rw [hN _ (by omega) (by omega), hm _ (by omega)]
      · rw [hN _ (by omega) (by omega), hm _ (by omega)]
      · rw [hN _ (by omega) (by omega), hm _ (by omega)]
  refine to_lda_abs (p := (C : Int) - (rest.length + 1 : Nat)) (v := b) (R1.at 0) (by rw [hlo, hhi]; omega) (by simpa using hb) (by omega) ?_
  refine to_inc_abs (p := C + 1) (R1.at 3) ?_ rfl (by omega) ?_
  · rw [R1.at (q := (C : Int) + 3 + 1) (b := ((C : Int) + 1) % 256) 4, R1.at (q := (C : Int) + 3 + 2) (b := ((C : Int) + 1) / 256 % 256) 5]
    omega
  rw [hlo]
  have RM : ∀ t, t ≠ (C : Int) + 1 → wr M (C + 1) ((((C : Int) - (rest.length + 1 : Nat)) % 256 + 1) % 256) t = M t := fun t ht => wr_other ht
  refine to_bne (t := C + 0x0b) (d := 3) ?_ ?_ (by omega) (by unfold State.signed; rw [if_pos (by decide)]; omega) (by omega) ?_
  · rw [RM _ (by omega)]; exact R1.at 6
  · rw [RM _ (by omega)]; exact R1.at 7
  by_cases hz : (((C : Int) - (rest.length + 1 : Nat)) % 256 + 1) % 256 = 0
  · rw [decide_eq_true hz, if_pos rfl]
    refine to_inc_abs (p := C + 2) (v := ((C : Int) - rest.length) / 256) ?_ ?_ ?_ (by omega) ?_
    · rw [RM _ (by omega)]; exact R1.at 8
    · rw [RM _ (by omega), RM _ (by omega), R1.at (q := (C : Int) + 3 + 3 + 2 + 1) (b := ((C : Int) + 2) % 256) 9,
        R1.at (q := (C : Int) + 3 + 3 + 2 + 2) (b := ((C : Int) + 2) / 256 % 256) 10]
      omega
    · rw [RM _ (by omega), hhi]; omega
    · have hN : ∀ t, t ≠ (C : Int) + 1 → t ≠ C + 2 → wr (wr M (C + 1) ((((C : Int) - (rest.length + 1 : Nat)) % 256 + 1) % 256)) (C + 2) (((C : Int) - rest.length) / 256) t = M t :=
        fun t h1 h2 => by rw [wr_other h2, wr_other h1]
      rw [show (C : Int) + 3 + 3 + 2 + 3 = C + 0x0b by omega]
      exact back hN (R1.next hi (by rw [wr_other (by omega), wr_self]; omega) (wr_self _ _ _) hN)
  · rw [decide_eq_false hz, if_neg (by decide)]
    exact back (fun t h1 _ => RM t h1) (R1.next hi (by rw [wr_self]; omega) (by rw [RM _ (by omega), hhi]; omega) fun t h1 _ => RM t h1)

/-! ### Output -/

theorem Base.put (R : Base C run s d mem) (v : Nat) (ho : Safe C s d.input.length d.out) :
    Base C run s (d.put v) (wr mem d.out v) := by
  have hp := R.place
  have hs := R.sp
  unfold Safe Private at ho
  have hl : ∀ j, (bodyOf C run)[j]? ≠ none → j < 0x58 := by
    intro j hj
    by_contra hge
    refine hj ?_
    exact List.getElem?_eq_none (by rw [bodyOf_length]; omega)
  refine ⟨hp, hs, fun j b e hj => ?_, ?_, ?_, R.bytes, fun k b e => ?_, fun a ha hpr => ?_, ?_⟩
  · have := hl j (by rw [e]; exact fun h => nomatch h)
    rw [wr_other (by omega)]; exact R.body j b e hj
  · rw [wr_other (by omega)]; exact R.lo
  · rw [wr_other (by omega)]; exact R.hi
  · have e : d.input[k]? = some b := e
    have : k < d.input.length := by
      by_contra hge
      rw [List.getElem?_eq_none (by omega)] at e; cases e
    show wr mem d.out v ((C : Int) - d.input.length + k) = b
    rw [wr_other (by omega)]; exact R.stream k b e
  · show wr mem d.out v a = ((if a = d.out then v else d.ram a : Nat) : Int)
    by_cases e : a = d.out
    · rw [e, wr_self, if_pos rfl]
    · rw [wr_other (by omega), if_neg e]; exact R.ram a ha hpr
  · rw [wr_other (by omega)]; exact R.fe

/-- `putByte`. -/
theorem to_put (R : Base C run s d mem) (P : Ptr C d mem y) (v : Nat) (ho : Safe C s d.input.length d.out)
    (K : ∀ a' y' z' c' mem', Base C run s (d.put v) mem' → Ptr C (d.put v) mem' y' → mem' 0xfc = mem 0xfc → mem' 0xfd = mem 0xfd →
      To ⟨a', x, y', s, C + 0x27, z', c', mem'⟩ Q) : To ⟨v, x, y, s, C + 0x18, z, c, mem⟩ Q := by
  have hp := R.place
  have hs := R.sp
  have hR := R.put v ho
  have hc : d.out ≠ C := by
    intro h
    unfold Safe Private at ho
    omega
  rcases P with P | P
  · exact absurd P hc
  obtain ⟨hy, hf, hr, hout⟩ := P
  unfold Safe Private at ho
  refine to_sta_absy (p := d.out) (R.at 0x18) ?_ (by omega) ?_
  · rw [R.at (q := (C : Int) + 0x18 + 1) (b := 0x80) 0x19, show (C : Int) + 0x18 + 2 = C + 0x1a by omega, ← hf, hout]
    omega
  have hM : ∀ t : Int, t ≠ d.out → wr mem d.out v t = mem t := fun t ht => wr_other ht
  have f1 := hM 0xfc (by omega)
  have f2 := hM 0xfd (by omega)
  have f3 := hM 0xff (by omega)
  have f4 := hM (C + 0x1a) (by omega)
  generalize wr mem d.out v = M at hR hM f1 f2 f3 f4 ⊢
  refine to_iny (hR.at 0x1b) (by omega) ?_
  refine to_bne (t := C + 0x27) (d := 9) (hR.at 0x1c) (hR.at 0x1d) (by omega) (by unfold State.signed; rw [if_pos (by decide)]; omega) (by omega) ?_
  have ho' : (d.put v).out = (d.out + 1) % 65536 := rfl
  by_cases hz : (y + 1) % 256 = 0
  · rw [decide_eq_true hz, if_pos rfl, hz]
    refine to_tya (hR.at 0x1e) (by omega) ?_
    refine to_sec (hR.at 0x1f) (by omega) ?_
    refine to_adc_zp (p := 0xff) (v := mem 0xff) (hR.at 0x20) (hR.at 0x21) f3 (by omega) ?_
    rw [show (0 + mem 0xff + State.bit true) % 256 = (mem 0xff + 1) % 256 by unfold State.bit; rw [if_pos rfl]; omega]
    refine to_sta_zp (p := 0xff) (hR.at 0x22) (hR.at 0x23) (by omega) ?_
    have hR2 := hR.scratch (q := 0xff) (v := (mem 0xff + 1) % 256) (.inr (.inr (.inl rfl)))
    refine to_sta_abs (p := C + 0x1a) (hR2.at 0x24) ?_ (by omega) ?_
    · rw [hR2.at (q := (C : Int) + 0x18 + 3 + 1 + 2 + 1 + 1 + 2 + 2 + 1) (b := ((C : Int) + 0x1a) % 256) 0x25,
        hR2.at (q := (C : Int) + 0x18 + 3 + 1 + 2 + 1 + 1 + 2 + 2 + 2) (b := ((C : Int) + 0x1a) / 256 % 256) 0x26]
      omega
    have hR3 := hR2.scratch (q := C + 0x1a) (v := (mem 0xff + 1) % 256) (.inr (.inr (.inr (.inr (.inr rfl)))))
    rw [show (C : Int) + 0x18 + 3 + 1 + 2 + 1 + 1 + 2 + 2 + 3 = C + 0x27 by omega]
    refine K _ 0 _ _ _ hR3 (.inr ⟨by decide, ?_, ?_, ?_⟩) ?_ ?_
    · rw [wr_self, wr_other (by omega), wr_self]
    · rw [wr_other (by omega), wr_self]; omega
    · rw [wr_other (by omega), wr_self, ho']; omega
    · rw [wr_other (by omega), wr_other (by decide), f1]
    · rw [wr_other (by omega), wr_other (by decide), f2]
  · rw [decide_eq_false hz, if_neg (by decide)]
    refine K _ _ _ _ _ hR (.inr ⟨by omega, by rw [f3, f4]; exact hf, by rw [f3]; exact hr, ?_⟩) f1 f2
    rw [f3, ho']; omega

theorem copy_used (n : Nat) : ∀ (d : Depacker) (u : Nat), u ∈ d.used → u ∈ (Depacker.copy n d).used := by
  induction n with
  | zero => intro d u h; exact h
  | succ n ih => intro d u h; exact ih _ u (List.mem_cons_of_mem _ (List.mem_cons_of_mem _ h))

/-- The loop that copies bytes. -/
theorem to_copy (n : Nat) : ∀ {d : Depacker} {mem : Int → Int} {y a : Int} {z c : Bool}, Base C run s d mem → Ptr C d mem y → 1 ≤ n → n < 256 →
    (∀ u ∈ (Depacker.copy n d).used, u < 65536 → Safe C s d.input.length u) → d.out < 65536 →
    (∀ a' y' z' c' mem', Base C run s (Depacker.copy n d) mem' → Ptr C (Depacker.copy n d) mem' y' → mem' 0xfc = mem 0xfc → mem' 0xfd = mem 0xfd →
      To ⟨a', 0, y', s, C + 0x2a, z', c', mem'⟩ Q) → To ⟨a, n, y, s, C + 0x16, z, c, mem⟩ Q := by
  induction n with
  | zero => intro d mem y a z c _ _ h; omega
  | succ n ih =>
    intro d mem y a z c R P h1 h2 hu hlt K
    have hp := R.place
    have hs := R.sp
    have hfe := R.fe
    have s1 : Safe C s d.input.length d.out := hu _ (copy_used n _ _ (List.mem_cons_self ..)) hlt
    have hsrc : (d.out + 65536 - d.dist) % 65536 < 65536 := Nat.mod_lt _ (by decide)
    have s2 : Safe C s d.input.length ((d.out + 65536 - d.dist) % 65536) := hu _ (copy_used n _ _ (List.mem_cons_of_mem _ (List.mem_cons_self ..))) hsrc
    have hc : d.out ≠ C := by
      intro h
      unfold Safe Private at s1
      omega
    have P' := P
    rcases P with P | P
    · exact absurd P hc
    refine to_lda_indy (p := 0xfe) (q := ((d.out + 65536 - d.dist) % 65536 : Nat)) (v := d.ram ((d.out + 65536 - d.dist) % 65536)) (R.at 0x16) (R.at 0x17) ?_ (R.ram _ hsrc s2.1) (by omega) ?_
    · show (mem 0xfe + 256 * mem 0xff + y) % 65536 = _
      obtain ⟨hy, hf, hr, hout⟩ := P
      omega
    rw [show (C : Int) + 0x16 + 2 = C + 0x18 by omega]
    refine to_put (d := { d with used := (d.out + 65536 - d.dist) % 65536 :: d.used }) (R.same rfl rfl rfl) (P'.keep rfl rfl rfl) _ s1 ?_
    intro a' y' z' c' M hR hP g1 g2
    refine to_dex (hR.at 0x27) (by omega) ?_
    refine to_bne (t := C + 0x16) (d := 0xec) (hR.at 0x28) (hR.at 0x29) (by omega) (by unfold State.signed; rw [if_neg (by decide)]; omega) (by omega) ?_
    rw [show (((n + 1 : Nat) : Int) - 1) % 256 = n by omega]
    by_cases hn : n = 0
    · subst hn
      rw [decide_eq_true (by rfl), if_pos rfl, show (C : Int) + 0x27 + 1 + 2 = C + 0x2a by omega]
      exact K _ _ _ _ _ hR hP g1 g2
    · rw [decide_eq_false (by omega), if_neg (by decide)]
      refine ih hR hP (by omega) (by omega) (fun u h => hu u h) (Nat.mod_lt _ (by decide)) ?_
      intro a2 y2 z2 c2 M2 k1 k2 k3 k4
      exact K _ _ _ _ _ k1 k2 (k3.trans g1) (k4.trans g2)

end Asap.Flat
