import Verif.Lemmas.Reset

/-! # Start of executables -/

namespace Asap.Flat
open Asap.Isa Asap.Spec.Flat
open Asap.Spec.Convert (cfg wr wr_self wr_other)

variable {a x y s pc : Int} {z c : Bool} {mem : Int → Int} {Q : Spec.Convert.Cfg → Prop}

/-! ## Instructions -/

theorem to_sei (h : mem pc = 0x78) (hp : 0 ≤ pc ∧ pc < 0xff00) (hq : To ⟨a, x, y, s, pc + 1, z, c, mem⟩ Q) : To ⟨a, x, y, s, pc, z, c, mem⟩ Q := by
  refine to_step .sei ⟨0x78, .imp, 2⟩ (by decide) h hp.1 (by show pc + 1 ≤ _; omega) ?_ hq
  intro st hst hd
  injection hst with e1 e2 e3 e4 e5 e6 e7 e8
  subst e1 e2 e3 e4 e5 e6 e7 e8
  exact ⟨rfl, hd⟩

theorem to_inx (h : mem pc = 0xe8) (hp : 0 ≤ pc ∧ pc < 0xff00) (hq : To ⟨a, (x + 1) % 256, y, s, pc + 1, decide ((x + 1) % 256 = 0), c, mem⟩ Q) : To ⟨a, x, y, s, pc, z, c, mem⟩ Q := by
  refine to_step .inx ⟨0xe8, .imp, 2⟩ (by decide) h hp.1 (by show pc + 1 ≤ _; omega) ?_ hq
  intro st hst hd
  injection hst with e1 e2 e3 e4 e5 e6 e7 e8
  subst e1 e2 e3 e4 e5 e6 e7 e8
  exact ⟨rfl, hd⟩

theorem to_ldy_imm {v : Int} (h : mem pc = 0xa0) (hv : mem (pc + 1) = v) (hp : 0 ≤ pc ∧ pc < 0xff00) (hq : To ⟨a, x, v, s, pc + 2, decide (v = 0), c, mem⟩ Q) :
    To ⟨a, x, y, s, pc, z, c, mem⟩ Q := by
  refine to_step .ldy ⟨0xa0, .imm, 2⟩ (by decide) h hp.1 (by show pc + 2 ≤ _; omega) ?_ hq
  intro st hst hd
  injection hst with e1 e2 e3 e4 e5 e6 e7 e8
  subst e1 e2 e3 e4 e5 e6 e7 e8 hv
  exact ⟨rfl, hd⟩

theorem to_sty_abs {p : Int} (h : mem pc = 0x8c) (hv : mem (pc + 1) + 256 * mem (pc + 2) = p) (hp : 0 ≤ pc ∧ pc < 0xff00)
    (hq : To ⟨a, x, y, s, pc + 3, z, c, wr mem p y⟩ Q) : To ⟨a, x, y, s, pc, z, c, mem⟩ Q := by
  refine to_step .sty ⟨0x8c, .abs, 4⟩ (by decide) h hp.1 (by show pc + 3 ≤ _; omega) ?_ hq
  intro st hst hd
  injection hst with e1 e2 e3 e4 e5 e6 e7 e8
  subst e1 e2 e3 e4 e5 e6 e7 e8 hv
  exact ⟨rfl, hd⟩

theorem to_lda_absy {p v : Int} (h : mem pc = 0xb9) (hv : (mem (pc + 1) + 256 * mem (pc + 2) + y) % 65536 = p) (hm : mem p = v) (hp : 0 ≤ pc ∧ pc < 0xff00)
    (hq : To ⟨v, x, y, s, pc + 3, decide (v = 0), c, mem⟩ Q) : To ⟨a, x, y, s, pc, z, c, mem⟩ Q := by
  refine to_step .lda ⟨0xb9, .absy, 4⟩ (by decide) h hp.1 (by show pc + 3 ≤ _; omega) ?_ hq
  intro st hst hd
  injection hst with e1 e2 e3 e4 e5 e6 e7 e8
  subst e1 e2 e3 e4 e5 e6 e7 e8 hv hm
  exact ⟨rfl, hd⟩

theorem to_pha (h : mem pc = 0x48) (hp : 0 ≤ pc ∧ pc < 0xff00) (hs : 1 ≤ s ∧ s < 256) (hq : To ⟨a, x, y, s - 1, pc + 1, z, c, wr mem (256 + s) a⟩ Q) :
    To ⟨a, x, y, s, pc, z, c, mem⟩ Q := by
  refine to_step .pha ⟨0x48, .imp, 3⟩ (by decide) h hp.1 (by show pc + 1 ≤ _; omega) ?_ hq
  intro st hst hd
  injection hst with e1 e2 e3 e4 e5 e6 e7 e8
  subst e1 e2 e3 e4 e5 e6 e7 e8
  rw [show st.s - 1 = (st.s - 1) % 256 by omega]
  exact ⟨rfl, hd⟩

theorem to_pla {v : Int} (h : mem pc = 0x68) (hp : 0 ≤ pc ∧ pc < 0xff00) (hs : 0 ≤ s ∧ s < 255) (hv : mem (257 + s) = v) (hq : To ⟨v, x, y, s + 1, pc + 1, decide (v = 0), c, mem⟩ Q) :
    To ⟨a, x, y, s, pc, z, c, mem⟩ Q := by
  refine to_step .pla ⟨0x68, .imp, 4⟩ (by decide) h hp.1 (by show pc + 1 ≤ _; omega) ?_ hq
  intro st hst hd
  injection hst with e1 e2 e3 e4 e5 e6 e7 e8
  subst e1 e2 e3 e4 e5 e6 e7 e8 hv
  refine ⟨?_, hd⟩
  rw [show (257 : Int) + st.s = 256 + (st.s + 1) % 256 by omega, show st.s + 1 = (st.s + 1) % 256 by omega, Int.emod_emod]
  rfl

/-- A call from the page of the stack, of which the call is not a part. -/
theorem to_jsr_page {v : Int} (h : mem pc = 0x20) (hl : mem (pc + 1) = v % 256) (hh : mem (pc + 2) = v / 256) (hp : 0 ≤ pc ∧ pc + 2 < 255 + s) (hs : 2 ≤ s ∧ s < 256)
    (hq : To ⟨a, x, y, s - 2, v, z, c, wr (wr mem (256 + s) ((pc + 2) / 256)) (255 + s) ((pc + 2) % 256)⟩ Q) : To ⟨a, x, y, s, pc, z, c, mem⟩ Q := by
  refine to_step .jsr ⟨0x20, .abs, 6⟩ (by decide) h hp.1 (by show pc + 3 ≤ _; omega) ?_ hq
  intro st hst hd
  injection hst with e1 e2 e3 e4 e5 e6 e7 e8
  subst e1 e2 e3 e4 e5 e6 e7 e8
  refine ⟨?_, hd⟩
  have e2 : ({ st with pc := st.pc + 3 } : State).jsr (st.effective .abs) =
      { st with mem := wr (wr st.mem (256 + st.s) ((st.pc + 2) / 256)) (256 + (st.s - 1) % 256) ((st.pc + 2) % 256), s := ((st.s - 1) % 256 - 1) % 256,
                pc := (st.mem (st.pc + 1) + 256 * st.mem (st.pc + 2)) % 256 + 256 * wr (wr st.mem (256 + st.s) ((st.pc + 2) / 256)) (256 + (st.s - 1) % 256) ((st.pc + 2) % 256) (st.pc + 2) } := by
    unfold State.jsr
    dsimp only
    rw [show st.pc + 3 - 1 = st.pc + 2 by omega]
    rfl
  show cfg (({ st with pc := st.pc + 3 } : State).jsr (st.effective .abs)) = _
  rw [e2, wr_other (by omega), wr_other (by omega), hl, hh]
  unfold cfg
  dsimp only
  rw [show (v % 256 + 256 * (v / 256)) % 256 + 256 * (v / 256) = v by omega, show ((st.s - 1) % 256 - 1) % 256 = st.s - 2 by omega, show (256 : Int) + (st.s - 1) % 256 = 255 + st.s by omega]

/-! ## Hardware off -/

/-- The program at the start, with and without the title screen. -/
def startCode : List Nat := [0x78, 0xa0, 0x00, 0x8c, 0x0e, 0xd4, 0xad, 0x0b, 0xd4, 0xd0, 0xfb, 0x8d, 0x00, 0xd4, 0xa2, 0x1d, 0x9d, 0x00, 0xd0, 0xca, 0x10, 0xfa]

/-- `code` is at `q`. -/
def CodeAt (code : List Nat) (q : Int) (mem : Int → Int) : Prop := ∀ j b : Nat, code[j]? = some b → mem (q + j) = b

theorem CodeAt.at {code : List Nat} {q p : Int} {mem : Int → Int} (R : CodeAt code q mem) {b : Nat} (j : Nat) (hp : p = q + j := by omega) (e : code[j]? = some b := by decide) : mem p = b := by
  rw [hp]; exact R j b e

theorem CodeAt.kept {code : List Nat} {q : Int} {mem mem' : Int → Int} (R : CodeAt code q mem) (h : ∀ b, q ≤ b → b < q + code.length → mem' b = mem b) : CodeAt code q mem' := by
  intro j b e
  have := (List.getElem?_eq_some_iff.mp e).1
  rw [h _ (by omega) (by omega)]
  exact R j b e

theorem CodeAt.put {code : List Nat} {q p v : Int} {mem : Int → Int} (R : CodeAt code q mem) (h : q + code.length ≤ p) : CodeAt code q (wr mem p v) :=
  R.kept fun _ _ _ => wr_other (by omega)

/-- GTIA's registers `n` to 0. -/
def dark : Nat → (Int → Int) → Int → Int
  | 0, mem => wr mem 0xd000 0
  | n + 1, mem => dark n (wr mem (0xd000 + (n + 1 : Nat)) 0)

theorem dark_other (n : Nat) : ∀ {mem : Int → Int} {b : Int}, ¬ (0xd000 ≤ b ∧ b ≤ 0xd000 + n) → dark n mem b = mem b := by
  induction n with
  | zero => intro mem b h1; unfold dark; rw [wr_other (by omega)]
  | succ n ih => intro mem b h1; unfold dark; rw [ih (by omega), wr_other (by omega)]

theorem dark_self (n : Nat) : ∀ {mem : Int → Int} {b : Int}, 0xd000 ≤ b ∧ b ≤ 0xd000 + n → dark n mem b = 0 := by
  induction n with
  | zero => intro mem b h; unfold dark; rw [show b = 0xd000 by omega, wr_self]
  | succ n ih =>
    intro mem b h
    unfold dark
    by_cases h' : 0xd000 ≤ b ∧ b ≤ 0xd000 + n
    · exact ih h'
    · rw [dark_other n (by omega), show b = 0xd000 + (n + 1 : Nat) by omega, wr_self]

theorem to_dark {q : Int} (hq0 : 0 ≤ q ∧ q < 0xc000) (n : Nat) (hn : n ≤ 29) : ∀ {mem : Int → Int} {z : Bool}, CodeAt startCode q mem → (∀ z, To ⟨0, 255, y, s, q + 22, z, c, dark n mem⟩ Q) →
    To ⟨0, n, y, s, q + 16, z, c, mem⟩ Q := by
  have len : startCode.length = 22 := rfl
  have body : ∀ {mem : Int → Int} {z : Bool} {x : Int}, CodeAt startCode q mem → 0 ≤ x ∧ x ≤ 29 →
      (∀ z, To ⟨0, (x - 1) % 256, y, s, if 128 ≤ (x - 1) % 256 then q + 22 else q + 16, z, c, wr mem (0xd000 + x) 0⟩ Q) → To ⟨0, x, y, s, q + 16, z, c, mem⟩ Q := by
    intro mem z x R hx hh
    refine to_sta_absx (p := 0xd000 + x) (R.at 16) (by rw [R.at 17 (b := 0x00), R.at 18 (b := 0xd0)]; omega) (by omega) ?_
    have R1 : CodeAt startCode q (wr mem (0xd000 + x) 0) := R.put (by omega)
    refine to_dex_bpl (d := 0xfa) (t := q + 16) (R1.at 19) (R1.at 20) (R1.at 21) (by omega) (by rw [show State.signed 0xfa = -6 by decide]; omega) (by omega) ?_
    rw [show q + 16 + 3 + 3 = q + 22 by omega]
    exact hh _
  induction n with
  | zero =>
    intro mem z R h
    exact body R (by omega) fun z => h z
  | succ n ih =>
    intro mem z R h
    refine body R (by omega) fun z => ?_
    rw [show (((n + 1 : Nat) : Int) - 1) % 256 = n by omega, if_neg (by omega)]
    exact ih (by omega) (R.put (by omega)) h

/-- All of it, when VCOUNT is 0. -/
theorem to_off {q : Int} (hq0 : 0 ≤ q ∧ q < 0xc000) (R : CodeAt startCode q mem) (hv : mem 0xd40b = 0) (hq : ∀ z, To ⟨0, 255, 0, s, q + 22, z, c, dark 29 (wr (wr mem 0xd40e 0) 0xd400 0)⟩ Q) :
    To ⟨a, x, y, s, q, z, c, mem⟩ Q := by
  have len : startCode.length = 22 := rfl
  refine to_sei (R.at 0) (by omega) ?_
  refine to_ldy_imm (v := 0) (R.at 1) (R.at 2) (by omega) ?_
  refine to_sty_abs (p := 0xd40e) (R.at 3) (by rw [R.at 4 (b := 0x0e), R.at 5 (b := 0xd4)]; omega) (by omega) ?_
  have R1 : CodeAt startCode q (wr mem 0xd40e 0) := R.put (by omega)
  refine to_lda_abs (p := 0xd40b) (v := 0) (R1.at 6) (by rw [R1.at 7 (b := 0x0b), R1.at 8 (b := 0xd4)]; omega) (by rw [wr_other (by omega), hv]) (by omega) ?_
  refine to_bne (t := q + 6) (d := 0xfb) (R1.at 9) (R1.at 10) (by omega) (by rw [show State.signed 0xfb = -5 by decide]; omega) (by omega) ?_
  rw [if_pos (by decide)]
  refine to_sta_abs (p := 0xd400) (R1.at 11) (by rw [R1.at 12 (b := 0x00), R1.at 13 (b := 0xd4)]; omega) (by omega) ?_
  have R2 : CodeAt startCode q (wr (wr mem 0xd40e 0) 0xd400 0) := R1.put (by omega)
  refine to_ldx_imm (v := 29) (R2.at 14) (R2.at 15) (by omega) ?_
  rw [show q + 1 + 2 + 3 + 3 + 2 + 3 + 2 = q + 16 by omega]
  exact to_dark hq0 29 (by omega) R2 hq

/-! ## The font -/

/-- The program from 0x116 on. -/
def fontCode : List Nat :=
  [0x8e, 0x01, 0xd3, 0xb9, 0x00, 0xe0, 0x48, 0xb9, 0x00, 0xe1, 0x48, 0xb9, 0x00, 0xe3, 0xca, 0x8e, 0x01, 0xd3, 0xe8, 0x99, 0x00, 0xff, 0x68, 0x99, 0x00, 0xfe, 0x68, 0x99, 0x00, 0xfd, 0xc8, 0xd0, 0xdf,
   0x20, 0x73, 0xfc]

/-- Byte `y` of each of three pages. -/
def copy1 (s y : Int) (mem : Int → Int) : Int → Int :=
  wr (wr (wr (wr (wr (wr (wr mem 0xd301 0xff) (256 + s) (mem (0xe000 + y))) (255 + s) (mem (0xe100 + y))) 0xd301 0xfe) (0xff00 + y) (mem (0xe300 + y))) (0xfe00 + y) (mem (0xe100 + y))) (0xfd00 + y) (mem (0xe000 + y))

/-- The last `n` bytes of the pages. -/
def font (s : Int) : Nat → (Int → Int) → Int → Int
  | 0, mem => mem
  | n + 1, mem => font s n (copy1 s (255 - n) mem)

theorem copy1_other {b : Int} (h1 : b ≠ 0xd301) (h2 : b ≠ 256 + s) (h3 : b ≠ 255 + s) (h4 : b ≠ 0xfd00 + y) (h5 : b ≠ 0xfe00 + y) (h6 : b ≠ 0xff00 + y) : copy1 s y mem b = mem b := by
  unfold copy1
  rw [wr_other h4, wr_other h5, wr_other h6, wr_other h1, wr_other h3, wr_other h2, wr_other h1]

theorem copy1_self : copy1 s y mem (0xfd00 + y) = mem (0xe000 + y) ∧ copy1 s y mem (0xfe00 + y) = mem (0xe100 + y) ∧ copy1 s y mem (0xff00 + y) = mem (0xe300 + y) := by
  unfold copy1
  refine ⟨wr_self _ _ _, ?_, ?_⟩
  · rw [wr_other (by omega), wr_self]
  · rw [wr_other (by omega), wr_other (by omega), wr_self]

theorem font_other (n : Nat) (hn : n ≤ 256) : ∀ {mem : Int → Int} {b : Int}, b ≠ 0xd301 → b ≠ 256 + s → b ≠ 255 + s → ¬ (0xfe00 - n ≤ b ∧ b < 0xfe00) → ¬ (0xff00 - n ≤ b ∧ b < 0xff00) →
    ¬ (0x10000 - n ≤ b ∧ b < 0x10000) → font s n mem b = mem b := by
  induction n with
  | zero => intro mem b _ _ _ _ _ _; rfl
  | succ n ih =>
    intro mem b h1 h2 h3 h4 h5 h6
    unfold font
    rw [ih (by omega) h1 h2 h3 (by omega) (by omega) (by omega), copy1_other h1 h2 h3 (by omega) (by omega) (by omega)]

theorem font_self (hs : 0 ≤ s ∧ s < 256) (n : Nat) (hn : n ≤ 256) : ∀ {mem : Int → Int} {i : Int}, 256 - (n : Int) ≤ i → i ≤ 255 →
    font s n mem (0xfd00 + i) = mem (0xe000 + i) ∧ font s n mem (0xfe00 + i) = mem (0xe100 + i) ∧ font s n mem (0xff00 + i) = mem (0xe300 + i) := by
  induction n with
  | zero => intro mem i h1 h2; omega
  | succ n ih =>
    intro mem i h1 h2
    unfold font
    by_cases h : i = 255 - n
    · rw [font_other n (by omega) (by omega) (by omega) (by omega) (by omega) (by omega) (by omega), font_other n (by omega) (by omega) (by omega) (by omega) (by omega) (by omega) (by omega),
        font_other n (by omega) (by omega) (by omega) (by omega) (by omega) (by omega) (by omega), h]
      exact copy1_self
    · have := ih (by omega) (mem := copy1 s (255 - n) mem) (i := i) (by omega) h2
      rw [copy1_other (b := 0xe000 + i) (by omega) (by omega) (by omega) (by omega) (by omega) (by omega), copy1_other (b := 0xe100 + i) (by omega) (by omega) (by omega) (by omega) (by omega) (by omega),
        copy1_other (b := 0xe300 + i) (by omega) (by omega) (by omega) (by omega) (by omega) (by omega)] at this
      exact this

theorem font_portb (n : Nat) : ∀ {mem : Int → Int}, n ≤ 255 → font s (n + 1) mem 0xd301 = 0xfe := by
  induction n with
  | zero =>
    intro mem _
    rw [font, font]
    unfold copy1
    rw [wr_other (by omega), wr_other (by omega), wr_other (by omega), wr_self]
  | succ n ih => intro mem h; unfold font; exact ih (by omega)

theorem to_glyph (R : CodeAt fontCode 0x116 mem) (hs : 0xe2 ≤ s ∧ s < 256) (hy : 0 ≤ y ∧ y ≤ 255)
    (hq : ∀ a z, To ⟨a, 255, (y + 1) % 256, s, if (y + 1) % 256 = 0 then 0x137 else 0x116, z, c, copy1 s y mem⟩ Q) : To ⟨a, 255, y, s, 0x116, z, c, mem⟩ Q := by
  have len : fontCode.length = 36 := rfl
  refine to_stx_abs (p := 0xd301) (R.at 0) (by rw [R.at 1 (b := 0x01), R.at 2 (b := 0xd3)]; omega) (by omega) ?_
  have R1 : CodeAt fontCode 0x116 (wr mem 0xd301 255) := R.put (by omega)
  refine to_lda_absy (p := 0xe000 + y) (v := mem (0xe000 + y)) (R1.at 3) (by rw [R1.at 4 (b := 0x00), R1.at 5 (b := 0xe0)]; omega) (wr_other (by omega)) (by omega) ?_
  refine to_pha (R1.at 6) (by omega) (by omega) ?_
  have R2 := R1.put (p := 256 + s) (v := mem (0xe000 + y)) (by omega)
  refine to_lda_absy (p := 0xe100 + y) (v := mem (0xe100 + y)) (R2.at 7) (by rw [R2.at 8 (b := 0x00), R2.at 9 (b := 0xe1)]; omega) (by rw [wr_other (by omega), wr_other (by omega)]) (by omega) ?_
  refine to_pha (R2.at 10) (by omega) (by omega) ?_
  rw [show (256 : Int) + (s - 1) = 255 + s by omega]
  have R3 := R2.put (p := 255 + s) (v := mem (0xe100 + y)) (by omega)
  refine to_lda_absy (p := 0xe300 + y) (v := mem (0xe300 + y)) (R3.at 11) (by rw [R3.at 12 (b := 0x00), R3.at 13 (b := 0xe3)]; omega)
    (by rw [wr_other (by omega), wr_other (by omega), wr_other (by omega)]) (by omega) ?_
  refine to_dex (R3.at 14) (by omega) ?_
  rw [show ((255 : Int) - 1) % 256 = 254 by decide]
  refine to_stx_abs (p := 0xd301) (R3.at 15) (by rw [R3.at 16 (b := 0x01), R3.at 17 (b := 0xd3)]; omega) (by omega) ?_
  have R4 := R3.put (p := 0xd301) (v := 254) (by omega)
  refine to_inx (R4.at 18) (by omega) ?_
  rw [show ((254 : Int) + 1) % 256 = 255 by decide]
  refine to_sta_absy (p := 0xff00 + y) (R4.at 19) (by rw [R4.at 20 (b := 0x00), R4.at 21 (b := 0xff)]; omega) (by omega) ?_
  have R5 := R4.put (p := 0xff00 + y) (v := mem (0xe300 + y)) (by omega)
  refine to_pla (v := mem (0xe100 + y)) (R5.at 22) (by omega) (by omega) ?_ ?_
  · rw [show (257 : Int) + (s - 1 - 1) = 255 + s by omega, wr_other (by omega), wr_other (by omega), wr_self]
  refine to_sta_absy (p := 0xfe00 + y) (R5.at 23) (by rw [R5.at 24 (b := 0x00), R5.at 25 (b := 0xfe)]; omega) (by omega) ?_
  have R6 := R5.put (p := 0xfe00 + y) (v := mem (0xe100 + y)) (by omega)
  refine to_pla (v := mem (0xe000 + y)) (R6.at 26) (by omega) (by omega) ?_ ?_
  · rw [show (257 : Int) + (s - 1 - 1 + 1) = 256 + s by omega, wr_other (by omega), wr_other (by omega), wr_other (by omega), wr_other (by omega), wr_self]
  refine to_sta_absy (p := 0xfd00 + y) (R6.at 27) (by rw [R6.at 28 (b := 0x00), R6.at 29 (b := 0xfd)]; omega) (by omega) ?_
  have R7 := R6.put (p := 0xfd00 + y) (v := mem (0xe000 + y)) (by omega)
  refine to_iny (R7.at 30) (by omega) ?_
  refine to_bne (t := 0x116) (d := 0xdf) (R7.at 31) (R7.at 32) (by omega) (by decide) (by omega) ?_
  have := hq (mem (0xe000 + y)) (decide ((y + 1) % 256 = 0))
  unfold copy1 at this
  rw [show s - 1 - 1 + 1 + 1 = s by omega]
  by_cases h : (y + 1) % 256 = 0
  · rw [if_pos h] at this
    rw [decide_eq_true h] at this ⊢
    rw [if_pos rfl]
    exact this
  · rw [if_neg h] at this
    rw [decide_eq_false h] at this ⊢
    rw [if_neg (by decide)]
    exact this

theorem to_font_loop (hs : 0xe2 ≤ s ∧ s < 256) (n : Nat) (hn : n ≤ 255) : ∀ {mem : Int → Int} {a : Int} {z : Bool}, CodeAt fontCode 0x116 mem →
    (∀ a z, To ⟨a, 255, 0, s, 0x137, z, c, font s (n + 1) mem⟩ Q) → To ⟨a, 255, 255 - n, s, 0x116, z, c, mem⟩ Q := by
  induction n with
  | zero =>
    intro mem a z R h
    refine to_glyph R hs (by omega) fun a z => ?_
    exact h a z
  | succ n ih =>
    intro mem a z R h
    refine to_glyph R hs (by omega) fun a z => ?_
    rw [show ((255 : Int) - (n + 1 : Nat) + 1) % 256 = 255 - n by omega, if_neg (by omega)]
    refine ih (by omega) (R.kept fun b h1 h2 => ?_) h
    rw [show fontCode.length = 36 from rfl] at h2
    exact copy1_other (by omega) (by omega) (by omega) (by omega) (by omega) (by omega)

/-- What switching the screen on writes. -/
def screenOn (mem : Int → Int) : Int → Int := wr (wr (wr (wr (wr (wr (wr mem 0xd405 0) 0xd016 0x26) 0xd017 0x0a) 0xd400 0x21) 0xd402 0x50) 0xd403 0xfc) 0xd409 0xfc

theorem screenOn_other {b : Int} (h : ¬ (0xd000 ≤ b ∧ b < 0xd800)) : screenOn mem b = mem b := by
  unfold screenOn
  rw [wr_other (by omega), wr_other (by omega), wr_other (by omega), wr_other (by omega), wr_other (by omega), wr_other (by omega), wr_other (by omega)]

/-- The memory after all of it. -/
def shown (s : Int) (mem : Int → Int) : Int → Int := screenOn (wr (wr (font s 256 mem) (256 + s) 1) (255 + s) 0x39)

/-- From the copy of the font to the program that plays. -/
theorem to_title (R : CodeAt fontCode 0x116 mem) (P : Prog mem) (hs : 0xe2 ≤ s ∧ s < 256) (hv : mem 0xd40b = 0) :
    To ⟨a, 255, 0, s, 0x116, z, c, mem⟩ fun g => g.pc = 0x13a ∧ g.s = s ∧ g.y = 0 ∧ g.a = 0 ∧ g.mem = shown s mem := by
  refine to_font_loop hs 255 (by omega) R fun a z => ?_
  have k : ∀ b : Int, 0 ≤ b → b < 0xfd00 → b ≠ 0xd301 → b ≠ 256 + s → b ≠ 255 + s → font s 256 mem b = mem b :=
    fun b h0 h1 h2 h3 h4 => font_other 256 (by omega) h2 h3 h4 (by omega) (by omega) (by omega)
  have R1 : CodeAt fontCode 0x116 (font s 256 mem) := R.kept fun b h1 h2 => by
    rw [show fontCode.length = 36 from rfl] at h2
    exact k b (by omega) (by omega) (by omega) (by omega) (by omega)
  refine to_jsr_page (v := 0xfc73) (R1.at 33) (R1.at 34) (R1.at 35) (by omega) (by omega) ?_
  have P1 : Prog (wr (wr (font s 256 mem) (256 + s) ((0x137 + 2) / 256)) (255 + s) ((0x137 + 2) % 256)) := by
    refine Prog.put (Prog.put ?_ (by omega)) (by omega)
    intro j b e h1 h2
    have := (List.getElem?_eq_some_iff.mp e).1
    rw [show screenCode.length = 107 from rfl] at this
    rw [k _ (by omega) (by omega) (by omega) (by omega) (by omega)]
    exact P j b e h1 h2
  have hv1 : wr (wr (font s 256 mem) (256 + s) ((0x137 + 2) / 256)) (255 + s) ((0x137 + 2) % 256) 0xd40b = 0 := by
    rw [wr_other (by omega), wr_other (by omega), k _ (by omega) (by omega) (by omega) (by omega) (by omega), hv]
  intro st e hd
  obtain ⟨st', r, ⟨e1, e2, e3, e4, e5⟩, e6⟩ := to_screen P1 hv1 st e hd
  refine ⟨st', r, ⟨?_, ?_, e3, e5, e4⟩, e6⟩
  · rw [e1, show (256 : Int) + (s - 2 + 1) % 256 = 255 + s by omega, show (256 : Int) + (s - 2 + 2) % 256 = 256 + s by omega, wr_self, wr_other (by omega), wr_self]
    decide
  · rw [e2]; omega

end Asap.Flat
