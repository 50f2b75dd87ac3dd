import Verif.Lemmas.Depacker

/-! # The depacker follows the stream -/

namespace Asap.Flat
open Asap.Isa Asap.Spec.Flat Asap.Spec.FlashPack
open Asap.Spec.Convert (cfg wr wr_self wr_other called)

/-- Flags in a byte: from the highest bit on, then a one, then zeros. -/
def enc : List Bool → Int
  | [] => 128
  | b :: t => (if b then 128 else 0) + enc t / 2

theorem enc_shape (n : Nat) : ∀ t : List Bool, t.length ≤ n → n ≤ 7 → ∃ k : Int, 0 < k ∧ enc t = k * 2 ^ (7 - n) ∧ enc t < 256 := by
  induction n with
  | zero =>
    intro t ht _
    obtain rfl : t = [] := List.eq_nil_of_length_eq_zero (by omega)
    exact ⟨1, by decide, rfl, by decide⟩
  | succ n ih =>
    intro t ht hn
    have e : (2 : Int) ^ (7 - n) = 2 * 2 ^ (7 - (n + 1)) := by
      rw [show 7 - n = 7 - (n + 1) + 1 by omega, Int.pow_succ, Int.mul_comm]
    cases t with
    | nil =>
      refine ⟨2 ^ (n + 1), Int.pow_pos (by decide), ?_, by decide⟩
      rw [← Int.pow_add, show n + 1 + (7 - (n + 1)) = 7 by omega]
      rfl
    | cons b t =>
      obtain ⟨k, h0, hk, hlt⟩ := ih t (by simp at ht; omega) (by omega)
      have hd : enc t / 2 = k * 2 ^ (7 - (n + 1)) := by
        rw [hk, e, show k * (2 * 2 ^ (7 - (n + 1))) = 2 * (k * 2 ^ (7 - (n + 1))) by rw [← Int.mul_assoc, Int.mul_comm k 2, Int.mul_assoc]]
        omega
      have h128 : (128 : Int) = 2 ^ (n + 1) * 2 ^ (7 - (n + 1)) := by
        rw [← Int.pow_add, show n + 1 + (7 - (n + 1)) = 7 by omega]
        rfl
      cases b with
      | false => exact ⟨k, h0, by show 0 + enc t / 2 = _; rw [hd]; omega, by show 0 + enc t / 2 < 256; omega⟩
      | true =>
        refine ⟨2 ^ (n + 1) + k, ?_, ?_, by show 128 + enc t / 2 < 256; omega⟩
        · have : (0 : Int) < 2 ^ (n + 1) := Int.pow_pos (by decide)
          omega
        · show 128 + enc t / 2 = _
          rw [hd, Int.add_mul, ← h128]

/-- Shifting flags. -/
theorem enc_cons {b : Bool} {t : List Bool} (h : t.length ≤ 6) : 2 * enc (b :: t) % 256 = enc t ∧ decide (128 ≤ enc (b :: t)) = b ∧ enc t ≠ 0 := by
  obtain ⟨k, h0, hk, hlt⟩ := enc_shape 6 t h (by decide)
  have hk : enc t = k * 2 := hk
  cases b with
  | false =>
    show 2 * (0 + enc t / 2) % 256 = enc t ∧ decide (128 ≤ 0 + enc t / 2) = false ∧ _
    exact ⟨by omega, decide_eq_false (by omega), by omega⟩
  | true =>
    show 2 * (128 + enc t / 2) % 256 = enc t ∧ decide (128 ≤ 128 + enc t / 2) = true ∧ _
    exact ⟨by omega, decide_eq_true (by omega), by omega⟩

/-- A new byte of flags. -/
theorem enc_bits {b : Nat} (h : b < 256) : ∃ f t, bits b = f :: t ∧ t.length = 7 ∧ enc t = (2 * (b : Int) + 1) % 256 ∧ f = decide (128 ≤ (b : Int)) := by
  have key : ∀ b : Fin 256, (bits b).tail.length = 7 ∧ enc (bits b).tail = (2 * (b.val : Int) + 1) % 256 ∧ (bits b).head? = some (decide (128 ≤ (b.val : Int))) := by decide +kernel
  have := key ⟨b, h⟩
  exact ⟨b.testBit 7, _, rfl, this.1, this.2.1, Option.some.inj this.2.2⟩

section
variable (C run : Nat) (s : Int) (d : Depacker) (g : Spec.Convert.Cfg)

/-- Before the next item. -/
def At2A : Prop := ∃ a x y z c mem, g = ⟨a, x, y, s, C + 0x2a, z, c, mem⟩ ∧ Base C run s d mem ∧ Ptr C d mem y ∧ mem 0xfd = enc d.flags ∧ mem 0xfc = enc d.groups ∧
  d.flags.length ≤ 7 ∧ d.groups.length ≤ 7

/-- Before the next byte for eight groups. -/
def At32 : Prop := ∃ a x y z c mem, g = ⟨a, x, y, s, C + 0x32, z, c, mem⟩ ∧ Base C run s d mem ∧ Ptr C d mem y ∧ d.flags = [] ∧ d.groups = []

/-- Before the next group; its kind is in the carry. -/
def At39 : Prop := ∃ a x y z c mem, g = ⟨a, x, y, s, C + 0x39, z, c, mem⟩ ∧ Base C run s d mem ∧ Ptr C d mem y ∧ d.flags = [] ∧
  ∃ t, d.groups = c :: t ∧ t.length ≤ 7 ∧ mem 0xfc = enc t

/-- At the next item; its kind is in the carry. -/
def At43 : Prop := ∃ a x y z c mem, g = ⟨a, x, y, s, C + 0x43, z, c, mem⟩ ∧ Base C run s d mem ∧ Ptr C d mem y ∧ (∃ t, d.flags = c :: t ∧ t.length ≤ 7 ∧ mem 0xfd = enc t) ∧
  d.groups.length ≤ 7 ∧ mem 0xfc = enc d.groups

/-- The 6502 is where the depacker is. -/
def Sim : Prop := At2A C run s d g ∨ At32 C run s d g ∨ At39 C run s d g ∨ At43 C run s d g

end

variable {C run : Nat} {s : Int} {d d' : Depacker} {g : Spec.Convert.Cfg}

theorem Ptr.lt {mem : Int → Int} {y : Int} (h : Ptr C d mem y) (hC : C + 0x58 ≤ 0xbc20) : d.out < 65536 := by
  rcases h with h | ⟨_, _, _, h⟩ <;> omega

theorem Base.flags {mem : Int → Int} (R : Base C run s d mem) (f h : List Bool) : Base C run s { d with groups := h, flags := f } mem := R.same rfl rfl rfl

/-- To the next item. -/
theorem to_item (h : Sim C run s d g) {f : Bool} {t : List Bool} (hf : d.flags = f :: t) : To g (At43 C run s d) := by
  rcases h with h | h | h | h
  · obtain ⟨a, x, y, z, c, mem, rfl, R, P, h1, h2, h3, h4⟩ := h
    have hp := R.place
    have hs := R.sp
    rw [hf] at h1 h3
    have ht : t.length ≤ 6 := by simp at h3; omega
    obtain ⟨e1, e2, e3⟩ := enc_cons (b := f) ht
    refine to_asl_zp (p := 0xfd) (R.at 0x2a) (R.at 0x2b) h1 (by omega) ?_
    rw [e1, e2]
    have R2 := R.scratch (q := 0xfd) (v := enc t) (.inr (.inl rfl))
    refine to_bne (t := C + 0x43) (d := 0x15) (R2.at 0x2c) (R2.at 0x2d) (by omega) (by unfold State.signed; rw [if_pos (by decide)]; omega) (by omega) ?_
    rw [decide_eq_false e3, if_neg (by decide)]
    exact To.refl ⟨_, _, _, _, _, _, rfl, R2, P.keep rfl (wr_other (by decide)) (wr_other (by omega)), ⟨t, hf, by omega, wr_self _ _ _⟩, h4, (wr_other (by decide)).trans h2⟩
  · obtain ⟨a, x, y, z, c, mem, rfl, R, P, h1, _⟩ := h
    rw [hf] at h1; cases h1
  · obtain ⟨a, x, y, z, c, mem, rfl, R, P, h1, _⟩ := h
    rw [hf] at h1; cases h1
  · exact To.refl h

theorem enc_nil : 2 * enc [] % 256 = 0 := by decide

/-- To the next group. -/
theorem to_group (h : Sim C run s d g) (hf : d.flags = []) {f : Bool} {t : List Bool} (hg : d.groups = f :: t) : To g (At39 C run s d) := by
  rcases h with h | h | h | h
  · obtain ⟨a, x, y, z, c, mem, rfl, R, P, h1, h2, h3, h4⟩ := h
    have hp := R.place
    have hs := R.sp
    rw [hf] at h1
    rw [hg] at h2 h4
    have ht : t.length ≤ 6 := by simp at h4; omega
    obtain ⟨e1, e2, e3⟩ := enc_cons (b := f) ht
    refine to_asl_zp (p := 0xfd) (R.at 0x2a) (R.at 0x2b) h1 (by omega) ?_
    rw [enc_nil]
    have R2 := R.scratch (q := 0xfd) (v := 0) (.inr (.inl rfl))
    refine to_bne (t := C + 0x43) (d := 0x15) (R2.at 0x2c) (R2.at 0x2d) (by omega) (by unfold State.signed; rw [if_pos (by decide)]; omega) (by omega) ?_
    rw [decide_eq_true rfl, if_pos rfl]
    refine to_asl_zp (p := 0xfc) (R2.at 0x2e) (R2.at 0x2f) ((wr_other (by decide)).trans h2) (by omega) ?_
    rw [e1, e2]
    have R3 := R2.scratch (q := 0xfc) (v := enc t) (.inl rfl)
    refine to_bne (t := C + 0x39) (d := 0x07) (R3.at 0x30) (R3.at 0x31) (by omega) (by unfold State.signed; rw [if_pos (by decide)]; omega) (by omega) ?_
    rw [decide_eq_false e3, if_neg (by decide)]
    exact To.refl ⟨_, _, _, _, _, _, rfl, R3, P.keep rfl (by rw [wr_other (by decide), wr_other (by decide)]) (by rw [wr_other (by omega), wr_other (by omega)]), hf, t, hg, by omega, wr_self _ _ _⟩
  · obtain ⟨a, x, y, z, c, mem, rfl, R, P, _, h1⟩ := h
    rw [hg] at h1; cases h1
  · exact To.refl h
  · obtain ⟨a, x, y, z, c, mem, rfl, R, P, ⟨t, h1, _⟩, _⟩ := h
    rw [hf] at h1; cases h1

/-- To the next eight groups. -/
theorem to_groups (h : Sim C run s d g) (hf : d.flags = []) (hg : d.groups = []) : To g (At32 C run s d) := by
  rcases h with h | h | h | h
  · obtain ⟨a, x, y, z, c, mem, rfl, R, P, h1, h2, h3, h4⟩ := h
    have hp := R.place
    have hs := R.sp
    rw [hf] at h1
    rw [hg] at h2 h4
    refine to_asl_zp (p := 0xfd) (R.at 0x2a) (R.at 0x2b) h1 (by omega) ?_
    rw [enc_nil]
    have R2 := R.scratch (q := 0xfd) (v := 0) (.inr (.inl rfl))
    refine to_bne (t := C + 0x43) (d := 0x15) (R2.at 0x2c) (R2.at 0x2d) (by omega) (by unfold State.signed; rw [if_pos (by decide)]; omega) (by omega) ?_
    rw [decide_eq_true rfl, if_pos rfl]
    refine to_asl_zp (p := 0xfc) (R2.at 0x2e) (R2.at 0x2f) ((wr_other (by decide)).trans h2) (by omega) ?_
    rw [enc_nil]
    have R3 := R2.scratch (q := 0xfc) (v := 0) (.inl rfl)
    refine to_bne (t := C + 0x39) (d := 0x07) (R3.at 0x30) (R3.at 0x31) (by omega) (by unfold State.signed; rw [if_pos (by decide)]; omega) (by omega) ?_
    rw [decide_eq_true rfl, if_pos rfl, show (C : Int) + 0x2a + 2 + 2 + 2 + 2 = C + 0x32 by omega]
    exact To.refl ⟨_, _, _, _, _, _, rfl, R3, P.keep rfl (by rw [wr_other (by decide), wr_other (by decide)]) (by rw [wr_other (by omega), wr_other (by omega)]), hf, hg⟩
  · exact To.refl h
  · obtain ⟨a, x, y, z, c, mem, rfl, R, P, _, t, h1, _⟩ := h
    rw [hg] at h1; cases h1
  · obtain ⟨a, x, y, z, c, mem, rfl, R, P, ⟨t, h1, _⟩, _⟩ := h
    rw [hf] at h1; cases h1

/-- Reading the byte for eight groups. -/
theorem step_groups (h : At32 C run s d g) {b : Nat} {rest : List Nat} (hi : d.input = b :: rest) :
    To g (Sim C run s { d with groups := bits b, input := rest }) := by
  obtain ⟨a, x, y, z, c, mem, rfl, R, P, h1, h2⟩ := h
  have hp := R.place
  have hs := R.sp
  have hb := R.bytes b (by rw [hi]; exact List.mem_cons_self ..)
  obtain ⟨f, t, hbits, ht, e1, e2⟩ := enc_bits hb
  refine to_sec (R.at 0x32) (by omega) ?_
  refine to_get R P hi (R.at 0x33) (R.at 0x34) (by rw [R.at (b := (C : Int) / 256 % 256) 0x35]; omega) (by omega) ?_
  intro z' M R1 P1 g1 g2
  refine to_rol (v := enc t) (R1.at 0x36) (by omega) (by rw [e1]; rfl) ?_
  refine to_sta_zp (p := 0xfc) (R1.at 0x37) (R1.at 0x38) (by omega) ?_
  rw [show (C : Int) + 0x32 + 1 + 3 + 1 + 2 = C + 0x39 by omega, ← e2]
  exact To.refl (.inr (.inr (.inl ⟨_, _, _, _, _, _, rfl, (R1.scratch (.inl rfl)).same rfl rfl rfl, P1.keep rfl (wr_other (by decide)) (wr_other (by omega)), h1, t, hbits, by omega, wr_self _ _ _⟩)))

/-- A group of literals. -/
theorem step_plain (h : At39 C run s d g) {t : List Bool} (hg : d.groups = false :: t) :
    To g (Sim C run s { d with groups := t, flags := List.replicate 8 false }) := by
  obtain ⟨a, x, y, z, c, mem, rfl, R, P, h1, t', h2, h3, h4⟩ := h
  have hp := R.place
  have hs := R.sp
  rw [hg] at h2
  injection h2 with e1 e2
  subst e1 e2
  refine to_lda_imm (v := 1) (R.at 0x39) (R.at 0x3a) (by omega) ?_
  refine to_bcc (t := C + 0x41) (d := 4) (R.at 0x3b) (R.at 0x3c) (by omega) (by unfold State.signed; rw [if_pos (by decide)]; omega) (by omega) ?_
  rw [if_neg (by decide)]
  refine to_sta_zp (p := 0xfd) (R.at 0x41) (R.at 0x42) (by omega) ?_
  rw [show (C : Int) + 0x41 + 2 = C + 0x43 by omega]
  exact To.refl (.inr (.inr (.inr ⟨_, _, _, _, _, _, rfl, (R.scratch (.inr (.inl rfl))).same rfl rfl rfl, P.keep rfl (wr_other (by decide)) (wr_other (by omega)),
    ⟨List.replicate 7 false, rfl, by decide, (wr_self _ _ _).trans (by decide)⟩, h3, (wr_other (by decide)).trans h4⟩)))

/-- A group with flags. -/
theorem step_mixed (h : At39 C run s d g) {t : List Bool} (hg : d.groups = true :: t) {b : Nat} {rest : List Nat} (hi : d.input = b :: rest) :
    To g (Sim C run s { d with groups := t, flags := bits b, input := rest }) := by
  obtain ⟨a, x, y, z, c, mem, rfl, R, P, h1, t', h2, h3, h4⟩ := h
  have hp := R.place
  have hs := R.sp
  rw [hg] at h2
  injection h2 with e1 e2
  subst e1 e2
  have hb := R.bytes b (by rw [hi]; exact List.mem_cons_self ..)
  obtain ⟨f, u, hbits, hu, e1, e2⟩ := enc_bits hb
  refine to_lda_imm (v := 1) (R.at 0x39) (R.at 0x3a) (by omega) ?_
  refine to_bcc (t := C + 0x41) (d := 4) (R.at 0x3b) (R.at 0x3c) (by omega) (by unfold State.signed; rw [if_pos (by decide)]; omega) (by omega) ?_
  rw [if_pos rfl]
  refine to_get R P hi (R.at 0x3d) (R.at 0x3e) (by rw [R.at (b := (C : Int) / 256 % 256) 0x3f]; omega) (by omega) ?_
  intro z' M R1 P1 g1 g2
  refine to_rol (v := enc u) (R1.at 0x40) (by omega) (by rw [e1]; rfl) ?_
  refine to_sta_zp (p := 0xfd) (R1.at 0x41) (R1.at 0x42) (by omega) ?_
  rw [show (C : Int) + 0x39 + 2 + 2 + 3 + 1 + 2 = C + 0x43 by omega, ← e2]
  exact To.refl (.inr (.inr (.inr ⟨_, _, _, _, _, _, rfl, (R1.scratch (.inr (.inl rfl))).same rfl rfl rfl, P1.keep rfl (wr_other (by decide)) (wr_other (by omega)),
    ⟨u, hbits, by omega, wr_self _ _ _⟩, h3, (wr_other (by decide)).trans (g1.trans h4)⟩)))

/-- A literal. -/
theorem step_literal (h : At43 C run s d g) {t : List Bool} (hf : d.flags = false :: t) {b : Nat} {rest : List Nat} (hi : d.input = b :: rest)
    (ho : Safe C s rest.length d.out) : To g (Sim C run s (Depacker.put { d with flags := t, input := rest } b)) := by
  obtain ⟨a, x, y, z, c, mem, rfl, R, P, ⟨t', h1, h2, h3⟩, h4, h5⟩ := h
  have hp := R.place
  have hs := R.sp
  rw [hf] at h1
  injection h1 with e1 e2
  subst e1 e2
  refine to_get R P hi (R.at 0x43) (R.at 0x44) (by rw [R.at (b := (C : Int) / 256 % 256) 0x45]; omega) (by omega) ?_
  intro z' M R1 P1 g1 g2
  refine to_ldx_imm (v := 1) (R1.at 0x46) (R1.at 0x47) (by omega) ?_
  refine to_bcc (t := C + 0x18) (d := 0xce) (R1.at 0x48) (R1.at 0x49) (by omega) (by unfold State.signed; rw [if_neg (by decide)]; omega) (by omega) ?_
  rw [if_neg (by decide)]
  refine to_put (d := { d with flags := t, input := rest }) (R1.same rfl rfl rfl) (P1.keep rfl rfl rfl) b ho ?_
  intro a' y' z2 c' M2 R2 P2 k1 k2
  refine to_dex (R2.at 0x27) (by omega) ?_
  refine to_bne (t := C + 0x16) (d := 0xec) (R2.at 0x28) (R2.at 0x29) (by omega) (by unfold State.signed; rw [if_neg (by decide)]; omega) (by omega) ?_
  rw [decide_eq_true (by decide), if_pos rfl, show (C : Int) + 0x27 + 1 + 2 = C + 0x2a by omega]
  exact To.refl (.inl ⟨_, _, _, _, _, _, rfl, R2, P2, k2.trans (g2.trans h3), k1.trans (g1.trans h5), h2, h4⟩)

theorem copy_flags (n : Nat) : ∀ d : Depacker, (Depacker.copy n d).flags = d.flags ∧ (Depacker.copy n d).groups = d.groups ∧ (Depacker.copy n d).input = d.input := by
  induction n with
  | zero => intro d; exact ⟨rfl, rfl, rfl⟩
  | succ n ih => intro d; exact ih _

/-- The end of an item that copies. -/
theorem at_copied {n : Nat} {a x y : Int} {z c : Bool} {M mem : Int → Int} (R : Base C run s (Depacker.copy n d) M) (P : Ptr C (Depacker.copy n d) M y)
    (k1 : M 0xfc = enc d.groups) (k2 : M 0xfd = enc d.flags) (h1 : d.groups.length ≤ 7) (h2 : d.flags.length ≤ 7) :
    Sim C run s (Depacker.copy n d) ⟨a, x, y, s, C + 0x2a, z, c, M⟩ := by
  have := copy_flags n d
  exact .inl ⟨_, _, _, _, _, _, rfl, R, P, by rw [this.1]; exact k2, by rw [this.2.1]; exact k1, by rw [this.1]; exact h2, by rw [this.2.1]; exact h1⟩

/-- A copy from a new distance. -/
theorem step_copy (h : At43 C run s d g) {t : List Bool} (hf : d.flags = true :: t) {b : Nat} {rest : List Nat} (hi : d.input = b :: rest) (h2b : 2 ≤ b)
    (ho : ∀ u ∈ (Depacker.copy (2 + b % 2) { d with flags := t, input := rest, dist := 128 - b / 2 }).used, Safe C s rest.length u) :
    To g (Sim C run s (Depacker.copy (2 + b % 2) { d with flags := t, input := rest, dist := 128 - b / 2 })) := by
  obtain ⟨a, x, y, z, c, mem, rfl, R, P, ⟨t', h1, h2, h3⟩, h4, h5⟩ := h
  have hp := R.place
  have hs := R.sp
  have hlt := P.lt hp.2
  rw [hf] at h1
  injection h1 with e1 e2
  subst e1 e2
  have hb := R.bytes b (by rw [hi]; exact List.mem_cons_self ..)
  refine to_get R P hi (R.at 0x43) (R.at 0x44) (by rw [R.at (b := (C : Int) / 256 % 256) 0x45]; omega) (by omega) ?_
  intro z' M R1 P1 g1 g2
  refine to_ldx_imm (v := 1) (R1.at 0x46) (R1.at 0x47) (by omega) ?_
  refine to_bcc (t := C + 0x18) (d := 0xce) (R1.at 0x48) (R1.at 0x49) (by omega) (by unfold State.signed; rw [if_neg (by decide)]; omega) (by omega) ?_
  rw [if_pos rfl]
  refine to_lsr (R1.at 0x4a) (by omega) ?_
  refine to_bne (t := C + 0x0f) (d := 0xc2) (R1.at 0x4b) (R1.at 0x4c) (by omega) (by unfold State.signed; rw [if_neg (by decide)]; omega) (by omega) ?_
  rw [decide_eq_false (by omega), if_neg (by decide)]
  refine to_sta_zp (p := 0xfe) (R1.at 0x0f) (R1.at 0x10) (by omega) ?_
  have R2 : Base C run s { d with flags := t, input := rest, dist := 128 - b / 2 } (wr M 0xfe ((b : Int) / 2)) := by
    refine ⟨R1.place, hs, fun j v e hj => ?_, ?_, ?_, R1.bytes, fun k v e => ?_, fun u hu hpr => ?_, ?_⟩
    · rw [wr_other (by omega)]; exact R1.body j v e hj
    · rw [wr_other (by omega)]; exact R1.lo
    · rw [wr_other (by omega)]; exact R1.hi
    · have hr := R1.place
      have e : rest[k]? = some v := e
      have hr : 0x2000 + rest.length ≤ C ∧ C + 0x58 ≤ 0xbc20 := hr
      show wr M 0xfe _ ((C : Int) - rest.length + k) = _
      rw [wr_other (by omega)]; exact R1.stream k v e
    · have hpr' := hpr
      unfold Private at hpr'
      rw [wr_other (by omega)]; exact R1.ram u hu hpr
    · rw [wr_self]
      show 0 ≤ (b : Int) / 2 ∧ (b : Int) / 2 < 256 ∧ (((128 - b / 2 : Nat) : Int) + (b : Int) / 2) % 65536 = 128 ∧ 128 - b / 2 ≤ 65536
      omega
  have P2 : Ptr C { d with flags := t, input := rest, dist := 128 - b / 2 } (wr M 0xfe ((b : Int) / 2)) y := P1.keep rfl (wr_other (by decide)) (wr_other (by omega))
  have k1 : wr M 0xfe ((b : Int) / 2) 0xfc = enc d.groups := (wr_other (by decide)).trans (g1.trans h5)
  have k2 : wr M 0xfe ((b : Int) / 2) 0xfd = enc t := (wr_other (by decide)).trans (g2.trans h3)
  generalize wr M 0xfe ((b : Int) / 2) = N at R2 P2 k1 k2 ⊢
  refine to_txa (R2.at 0x11) (by omega) ?_
  refine to_rol (v := (2 + b % 2 : Nat)) (R2.at 0x12) (by omega) ?_ ?_
  · unfold State.bit
    rcases (by omega : b % 2 = 0 ∨ b % 2 = 1) with e | e
    · rw [e, decide_eq_false (by omega), if_neg (by decide)]; rfl
    · rw [e, decide_eq_true (by omega), if_pos rfl]; rfl
  refine to_tax (R2.at 0x13) (by omega) ?_
  refine to_beq (t := C + 0x0c) (d := 0xf6) (R2.at 0x14) (R2.at 0x15) (by omega) (by unfold State.signed; rw [if_neg (by decide)]; omega) (by omega) ?_
  rw [decide_eq_false (by omega), if_neg (by decide), show (C : Int) + 0x0f + 2 + 1 + 1 + 1 + 2 = C + 0x16 by omega]
  refine to_copy _ R2 P2 (by omega) (by omega) (fun u hu _ => ho u hu) hlt ?_
  intro a' y' z2 c' M2 R3 P3 q1 q2
  exact To.refl (at_copied (mem := M2) R3 P3 (q1.trans k1) (q2.trans k2) h4 h2)

/-- A copy from the same distance. -/
theorem step_again (h : At43 C run s d g) {t : List Bool} (hf : d.flags = true :: t) {n : Nat} {rest : List Nat} (hi : d.input = 1 :: n :: rest) (hn : n ≠ 0)
    (ho : ∀ u ∈ (Depacker.copy n { d with flags := t, input := rest }).used, Safe C s rest.length u) :
    To g (Sim C run s (Depacker.copy n { d with flags := t, input := rest })) := by
  obtain ⟨a, x, y, z, c, mem, rfl, R, P, ⟨t', h1, h2, h3⟩, h4, h5⟩ := h
  have hp := R.place
  have hs := R.sp
  have hlt := P.lt hp.2
  rw [hf] at h1
  injection h1 with e1 e2
  subst e1 e2
  have hb := R.bytes n (by rw [hi]; exact List.mem_cons_of_mem _ (List.mem_cons_self ..))
  refine to_get R P hi (R.at 0x43) (R.at 0x44) (by rw [R.at (b := (C : Int) / 256 % 256) 0x45]; omega) (by omega) ?_
  intro z' M R1 P1 g1 g2
  refine to_ldx_imm (v := 1) (R1.at 0x46) (R1.at 0x47) (by omega) ?_
  refine to_bcc (t := C + 0x18) (d := 0xce) (R1.at 0x48) (R1.at 0x49) (by omega) (by unfold State.signed; rw [if_neg (by decide)]; omega) (by omega) ?_
  rw [if_pos rfl]
  refine to_lsr (R1.at 0x4a) (by omega) ?_
  refine to_bne (t := C + 0x0f) (d := 0xc2) (R1.at 0x4b) (R1.at 0x4c) (by omega) (by unfold State.signed; rw [if_neg (by decide)]; omega) (by omega) ?_
  rw [decide_eq_true (by decide), if_pos rfl, decide_eq_true (by decide)]
  refine to_get R1 P1 (rest := rest) (b := n) rfl (R1.at 0x4d) (R1.at 0x4e) (by rw [R1.at (b := (C : Int) / 256 % 256) 0x4f]; omega) (by omega) ?_
  intro z2 M2 R2 P2 g3 g4
  refine to_bcs (t := C + 0x13) (d := 0xc1) (R2.at 0x50) (R2.at 0x51) (by omega) (by unfold State.signed; rw [if_neg (by decide)]; omega) (by omega) ?_
  rw [if_pos rfl]
  refine to_tax (R2.at 0x13) (by omega) ?_
  refine to_beq (t := C + 0x0c) (d := 0xf6) (R2.at 0x14) (R2.at 0x15) (by omega) (by unfold State.signed; rw [if_neg (by decide)]; omega) (by omega) ?_
  rw [decide_eq_false (by omega), if_neg (by decide), show (C : Int) + 0x13 + 1 + 2 = C + 0x16 by omega]
  refine to_copy n (d := { d with flags := t, input := rest }) (R2.same rfl rfl rfl) (P2.keep rfl rfl rfl) (by omega) (by omega) (fun u hu _ => ho u hu) hlt ?_
  intro a' y' z3 c' M3 R3 P3 q1 q2
  exact To.refl (at_copied (mem := M3) R3 P3 (q1.trans (g3.trans (g1.trans h5))) (q2.trans (g4.trans (g2.trans h3))) h4 h2)

/-- An address. -/
theorem step_goto (h : At43 C run s d g) {t : List Bool} (hf : d.flags = true :: t) {lo hi : Nat} {rest : List Nat} (hin : d.input = 0 :: lo :: hi :: rest) :
    To g (Sim C run s { d with flags := t, input := rest, out := (lo + 256 * hi + 128) % 65536 }) := by
  obtain ⟨a, x, y, z, c, mem, rfl, R, P, ⟨t', h1, h2, h3⟩, h4, h5⟩ := h
  have hp := R.place
  have hs := R.sp
  rw [hf] at h1
  injection h1 with e1 e2
  subst e1 e2
  have hb1 := R.bytes lo (by rw [hin]; exact List.mem_cons_of_mem _ (List.mem_cons_self ..))
  have hb2 := R.bytes hi (by rw [hin]; exact List.mem_cons_of_mem _ (List.mem_cons_of_mem _ (List.mem_cons_self ..)))
  refine to_get R P hin (R.at 0x43) (R.at 0x44) (by rw [R.at (b := (C : Int) / 256 % 256) 0x45]; omega) (by omega) ?_
  intro z' M R1 P1 g1 g2
  refine to_ldx_imm (v := 1) (R1.at 0x46) (R1.at 0x47) (by omega) ?_
  refine to_bcc (t := C + 0x18) (d := 0xce) (R1.at 0x48) (R1.at 0x49) (by omega) (by unfold State.signed; rw [if_neg (by decide)]; omega) (by omega) ?_
  rw [if_pos rfl]
  refine to_lsr (R1.at 0x4a) (by omega) ?_
  refine to_bne (t := C + 0x0f) (d := 0xc2) (R1.at 0x4b) (R1.at 0x4c) (by omega) (by unfold State.signed; rw [if_neg (by decide)]; omega) (by omega) ?_
  rw [decide_eq_true (by decide), if_pos rfl, decide_eq_false (by decide)]
  refine to_get R1 P1 (rest := hi :: rest) (b := lo) rfl (R1.at 0x4d) (R1.at 0x4e) (by rw [R1.at (b := (C : Int) / 256 % 256) 0x4f]; omega) (by omega) ?_
  intro z2 M2 R2 P2 g3 g4
  refine to_bcs (t := C + 0x13) (d := 0xc1) (R2.at 0x50) (R2.at 0x51) (by omega) (by unfold State.signed; rw [if_neg (by decide)]; omega) (by omega) ?_
  rw [if_neg (by decide)]
  refine to_tay (R2.at 0x52) (by omega) ?_
  -- the old output address is forgotten
  have R2' : Base C run s { d with input := hi :: rest, out := C } M2 := R2.same rfl rfl rfl
  refine to_get (y := lo) R2' (.inl rfl) (rest := rest) (b := hi) rfl (R2.at 0x53) (R2.at 0x54) (by rw [R2.at (b := (C : Int) / 256 % 256) 0x55]; omega) (by omega) ?_
  intro z3 M3 R3 _ g5 g6
  refine to_bcc (t := C + 0x22) (d := 0xca) (R3.at 0x56) (R3.at 0x57) (by omega) (by unfold State.signed; rw [if_neg (by decide)]; omega) (by omega) ?_
  rw [if_neg (by decide)]
  refine to_sta_zp (p := 0xff) (R3.at 0x22) (R3.at 0x23) (by omega) ?_
  have R4 := R3.scratch (q := 0xff) (v := hi) (.inr (.inr (.inl rfl)))
  refine to_sta_abs (p := C + 0x1a) (R4.at 0x24) ?_ (by omega) ?_
  · rw [R4.at (q := (C : Int) + 0x22 + 2 + 1) (b := ((C : Int) + 0x1a) % 256) 0x25, R4.at (q := (C : Int) + 0x22 + 2 + 2) (b := ((C : Int) + 0x1a) / 256 % 256) 0x26]
    omega
  have R5 := R4.scratch (q := C + 0x1a) (v := hi) (.inr (.inr (.inr (.inr (.inr rfl)))))
  refine to_dex (R5.at 0x27) (by omega) ?_
  refine to_bne (t := C + 0x16) (d := 0xec) (R5.at 0x28) (R5.at 0x29) (by omega) (by unfold State.signed; rw [if_neg (by decide)]; omega) (by omega) ?_
  rw [decide_eq_true (by decide), if_pos rfl, show (C : Int) + 0x22 + 2 + 3 + 1 + 2 = C + 0x2a by omega]
  refine To.refl (.inl ⟨_, _, _, _, _, _, rfl, R5.same rfl rfl rfl, .inr ⟨by omega, ?_, ?_, ?_⟩, ?_, ?_, h2, h4⟩)
  · rw [wr_self, wr_other (by omega), wr_self]
  · rw [wr_other (by omega), wr_self]; omega
  · rw [wr_other (by omega), wr_self]
    show (((lo + 256 * hi + 128) % 65536 : Nat) : Int) = _
    omega
  · rw [wr_other (by omega), wr_other (by decide)]; exact g6.trans (g4.trans (g2.trans h3))
  · rw [wr_other (by omega), wr_other (by decide)]; exact g5.trans (g3.trans (g1.trans h5))

/-- The end: to the program. -/
theorem step_end (h : At43 C run s d g) {t : List Bool} (hf : d.flags = true :: t) {rest : List Nat} (hi : d.input = 1 :: 0 :: rest) (hrun : run < 65536) :
    To g (fun g' => ∃ a x y z c mem, g' = ⟨a, x, y, s, run, z, c, mem⟩ ∧ Base C run s { d with input := rest } mem) := by
  obtain ⟨a, x, y, z, c, mem, rfl, R, P, ⟨t', h1, h2, h3⟩, h4, h5⟩ := h
  have hp := R.place
  have hs := R.sp
  rw [hf] at h1
  injection h1 with e1 e2
  subst e1 e2
  refine to_get R P hi (R.at 0x43) (R.at 0x44) (by rw [R.at (b := (C : Int) / 256 % 256) 0x45]; omega) (by omega) ?_
  intro z' M R1 P1 g1 g2
  refine to_ldx_imm (v := 1) (R1.at 0x46) (R1.at 0x47) (by omega) ?_
  refine to_bcc (t := C + 0x18) (d := 0xce) (R1.at 0x48) (R1.at 0x49) (by omega) (by unfold State.signed; rw [if_neg (by decide)]; omega) (by omega) ?_
  rw [if_pos rfl]
  refine to_lsr (R1.at 0x4a) (by omega) ?_
  refine to_bne (t := C + 0x0f) (d := 0xc2) (R1.at 0x4b) (R1.at 0x4c) (by omega) (by unfold State.signed; rw [if_neg (by decide)]; omega) (by omega) ?_
  rw [decide_eq_true (by decide), if_pos rfl, decide_eq_true (by decide)]
  refine to_get R1 P1 (rest := rest) (b := 0) rfl (R1.at 0x4d) (R1.at 0x4e) (by rw [R1.at (b := (C : Int) / 256 % 256) 0x4f]; omega) (by omega) ?_
  intro z2 M2 R2 P2 g3 g4
  refine to_bcs (t := C + 0x13) (d := 0xc1) (R2.at 0x50) (R2.at 0x51) (by omega) (by unfold State.signed; rw [if_neg (by decide)]; omega) (by omega) ?_
  rw [if_pos rfl]
  refine to_tax (R2.at 0x13) (by omega) ?_
  refine to_beq (t := C + 0x0c) (d := 0xf6) (R2.at 0x14) (R2.at 0x15) (by omega) (by unfold State.signed; rw [if_neg (by decide)]; omega) (by omega) ?_
  rw [decide_eq_true (by decide), if_pos rfl]
  refine to_jmp (v := run) (R2.at 0x0c) ?_ (by omega) ?_
  · rw [R2.at (q := (C : Int) + 0x0c + 1) (b := (run : Int) % 256) 0x0d, R2.at (q := (C : Int) + 0x0c + 2) (b := (run : Int) / 256 % 256) 0x0e]
    omega
  exact To.refl ⟨_, _, _, _, _, _, rfl, R2⟩

/-- The 6502 does what the depacker does, as long as the addresses are safe. -/
theorem simulate (h : Steps d d') : ∀ {g : Spec.Convert.Cfg}, Sim C run s d g → (∀ d1, Steps d d1 → Steps d1 d' → ∀ u ∈ d1.used, Safe C s d1.input.length u) →
    To g (Sim C run s d') := by
  induction h with
  | done => intro g hs _; exact To.refl hs
  | groups hf hg hi hr ih =>
    intro g hs H
    exact (to_groups hs hf hg).trans fun _ h1 => (step_groups h1 hi).trans fun _ h2 => ih h2 fun d1 k1 k2 => H d1 (.groups hf hg hi k1) k2
  | plain hf hg hr ih =>
    intro g hs H
    exact (to_group hs hf hg).trans fun _ h1 => (step_plain h1 hg).trans fun _ h2 => ih h2 fun d1 k1 k2 => H d1 (.plain hf hg k1) k2
  | mixed hf hg hi hr ih =>
    intro g hs H
    exact (to_group hs hf hg).trans fun _ h1 => (step_mixed h1 hg hi).trans fun _ h2 => ih h2 fun d1 k1 k2 => H d1 (.mixed hf hg hi k1) k2
  | literal hf hi hr ih =>
    intro g hs H
    have ho := H _ (.literal hf hi .done) hr _ (List.mem_cons_self ..)
    exact (to_item hs hf).trans fun _ h1 => (step_literal h1 hf hi ho).trans fun _ h2 => ih h2 fun d1 k1 k2 => H d1 (.literal hf hi k1) k2
  | copy hf hi hb hr ih =>
    intro g hs H
    have ho := H _ (.copy hf hi hb .done) hr
    rw [(copy_flags _ _).2.2] at ho
    exact (to_item hs hf).trans fun _ h1 => (step_copy h1 hf hi hb ho).trans fun _ h2 => ih h2 fun d1 k1 k2 => H d1 (.copy hf hi hb k1) k2
  | again hf hi hn hr ih =>
    intro g hs H
    have ho := H _ (.again hf hi hn .done) hr
    rw [(copy_flags _ _).2.2] at ho
    exact (to_item hs hf).trans fun _ h1 => (step_again h1 hf hi hn ho).trans fun _ h2 => ih h2 fun d1 k1 k2 => H d1 (.again hf hi hn k1) k2
  | goto hf hi hr ih =>
    intro g hs H
    exact (to_item hs hf).trans fun _ h1 => (step_goto h1 hf hi).trans fun _ h2 => ih h2 fun d1 k1 k2 => H d1 (.goto hf hi k1) k2

theorem used_mono (h : Steps d d') : ∀ u ∈ d.used, u ∈ d'.used := by
  induction h with
  | done => exact fun _ h => h
  | groups _ _ _ _ ih => exact ih
  | plain _ _ _ ih => exact ih
  | mixed _ _ _ _ ih => exact ih
  | literal _ _ _ ih => exact fun u hu => ih u (List.mem_cons_of_mem _ hu)
  | copy _ _ _ _ ih => exact fun u hu => ih u (copy_used _ _ u hu)
  | again _ _ _ _ ih => exact fun u hu => ih u (copy_used _ _ u hu)
  | goto _ _ _ ih => exact ih

end Asap.Flat
