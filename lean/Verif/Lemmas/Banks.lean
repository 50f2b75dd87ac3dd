import Verif.Lemmas.Start
import Verif.Spec.Banks

/-! # The copy of the font, with ROM and the memory under it -/

namespace Asap.Flat
open Asap.Isa Asap.Spec.Flat Asap.Spec.Banks
open Asap.Spec.Convert (cfg wr wr_self wr_other)

/-- As `To`, with ROM. -/
def By (rom : Int → Int) (f : Spec.Convert.Cfg) (P : Spec.Convert.Cfg → Prop) : Prop := ∀ st, cfg st = f → st.d = false → ∃ st', RunsRom rom st st' ∧ P (cfg st') ∧ st'.d = false

variable {a x y s pc : Int} {z c : Bool} {rom mem : Int → Int} {Q : Spec.Convert.Cfg → Prop}

theorem By.refl {f : Spec.Convert.Cfg} (h : Q f) : By rom f Q := fun st e hd => ⟨st, .refl st, e ▸ h, hd⟩

theorem see_plain {b : Int} (h : ¬ Rom b) : see rom mem b = mem b := if_neg fun e => h e.1

theorem see_low {b : Int} (h : b < 0xc000) : see rom mem b = mem b := see_plain (by unfold Rom; omega)

theorem see_off (h : mem 0xd301 = 0xfe) : see rom mem = mem := by
  funext b
  exact if_neg fun e => by rw [h] at e; omega

theorem see_on {b : Int} (h : mem 0xd301 = 0xff) (hr : Rom b) : see rom mem b = rom b := if_pos ⟨hr, by rw [h]; decide⟩

theorem put_see : put mem (see rom mem) = mem := by
  funext b
  unfold put see
  split <;> rfl

/-- A write to memory without ROM, or when it is off. -/
theorem put_wr {p v : Int} (h : ¬ Rom p ∨ mem 0xd301 = 0xfe) : put mem (wr (see rom mem) p v) = wr mem p v := by
  funext b
  unfold put
  by_cases e : Rom b ∧ mem 0xd301 % 2 = 1
  · rw [if_pos e, wr_other]
    intro hb
    rcases h with h | h
    · exact h (hb ▸ e.1)
    · rw [h] at e; omega
  · rw [if_neg e]
    by_cases hb : b = p
    · rw [hb, wr_self, wr_self]
    · rw [wr_other hb, wr_other hb]
      exact if_neg e

theorem by_step {a' x' y' s' pc' : Int} {z' c' : Bool} {m' mem' : Int → Int} (mn : Mn) (k : Code) (hd : k ∈ codes mn) (hf : mem pc = k.opcode) (hp : 0 ≤ pc ∧ pc < 0xbf00)
    (h : ∀ st, cfg st = ⟨a, x, y, s, pc, z, c, see rom mem⟩ → st.d = false → cfg (st.after mn k.mode) = ⟨a', x', y', s', pc', z', c', m'⟩ ∧ (st.after mn k.mode).d = false)
    (hm : put mem m' = mem') (hq : By rom ⟨a', x', y', s', pc', z', c', mem'⟩ Q) : By rom ⟨a, x, y, s, pc, z, c, mem⟩ Q := by
  intro st e hdec
  injection e with e1 e2 e3 e4 e5 e6 e7 e8
  obtain ⟨g1, g2⟩ := h { st with mem := see rom st.mem } (by unfold cfg; rw [← e1, ← e2, ← e3, ← e4, ← e5, ← e6, ← e7, ← e8]) hdec
  have hsz : k.mode.size ≤ 3 := by cases k.mode <;> decide
  obtain ⟨st', r, p, d⟩ := hq (stepRom rom mn k.mode st) (by
    injection g1 with f1 f2 f3 f4 f5 f6 f7 f8
    unfold cfg stepRom
    rw [← hm, ← f8, ← f1, ← f2, ← f3, ← f4, ← f5, ← f6, ← f7, ← e8]) g2
  exact ⟨st', .step mn k hd (by rw [e5, e8, see_low (by omega)]; exact hf) (by omega) (by omega) r, p, d⟩

theorem by_dex (h : mem pc = 0xca) (hp : 0 ≤ pc ∧ pc < 0xbf00) (hq : By rom ⟨a, (x - 1) % 256, y, s, pc + 1, decide ((x - 1) % 256 = 0), c, mem⟩ Q) :
    By rom ⟨a, x, y, s, pc, z, c, mem⟩ Q := by
  refine by_step (m' := (see rom mem)) .dex ⟨0xca, .imp, 2⟩ (by decide) h hp ?_ put_see hq
  clear hq h
  generalize see rom mem = m at ⊢
  intro st hst hd
  injection hst with e1 e2 e3 e4 e5 e6 e7 e8
  subst e1 e2 e3 e4 e5 e6 e7 e8
  exact ⟨rfl, hd⟩

theorem by_iny (h : mem pc = 0xc8) (hp : 0 ≤ pc ∧ pc < 0xbf00) (hq : By rom ⟨a, x, (y + 1) % 256, s, pc + 1, decide ((y + 1) % 256 = 0), c, mem⟩ Q) :
    By rom ⟨a, x, y, s, pc, z, c, mem⟩ Q := by
  refine by_step (m' := (see rom mem)) .iny ⟨0xc8, .imp, 2⟩ (by decide) h hp ?_ put_see hq
  clear hq h
  generalize see rom mem = m at ⊢
  intro st hst hd
  injection hst with e1 e2 e3 e4 e5 e6 e7 e8
  subst e1 e2 e3 e4 e5 e6 e7 e8
  exact ⟨rfl, hd⟩

theorem by_inx (h : mem pc = 0xe8) (hp : 0 ≤ pc ∧ pc < 0xbf00) (hq : By rom ⟨a, (x + 1) % 256, y, s, pc + 1, decide ((x + 1) % 256 = 0), c, mem⟩ Q) : By rom ⟨a, x, y, s, pc, z, c, mem⟩ Q := by
  refine by_step (m' := (see rom mem)) .inx ⟨0xe8, .imp, 2⟩ (by decide) h hp ?_ put_see hq
  clear hq h
  generalize see rom mem = m at ⊢
  intro st hst hd
  injection hst with e1 e2 e3 e4 e5 e6 e7 e8
  subst e1 e2 e3 e4 e5 e6 e7 e8
  exact ⟨rfl, hd⟩

theorem by_pha (h : mem pc = 0x48) (hp : 0 ≤ pc ∧ pc < 0xbf00) (hs : 1 ≤ s ∧ s < 256) (hq : By rom ⟨a, x, y, s - 1, pc + 1, z, c, wr mem (256 + s) a⟩ Q) :
    By rom ⟨a, x, y, s, pc, z, c, mem⟩ Q := by
  refine by_step (m' := wr (see rom mem) (256 + s) a) .pha ⟨0x48, .imp, 3⟩ (by decide) h hp ?_ (put_wr (.inl (by unfold Rom; omega))) hq
  clear hq h
  generalize see rom mem = m at ⊢
  intro st hst hd
  injection hst with e1 e2 e3 e4 e5 e6 e7 e8
  subst e1 e2 e3 e4 e5 e6 e7 e8
  rw [show st.s - 1 = (st.s - 1) % 256 by omega]
  exact ⟨rfl, hd⟩

theorem by_pla {v : Int} (h : mem pc = 0x68) (hp : 0 ≤ pc ∧ pc < 0xbf00) (hs : 0 ≤ s ∧ s < 255) (hv : mem (257 + s) = v) (hq : By rom ⟨v, x, y, s + 1, pc + 1, decide (v = 0), c, mem⟩ Q) :
    By rom ⟨a, x, y, s, pc, z, c, mem⟩ Q := by
  rw [← see_low (rom := rom) (mem := mem) (b := 257 + s) (by omega)] at hv
  refine by_step (m' := (see rom mem)) .pla ⟨0x68, .imp, 4⟩ (by decide) h hp ?_ put_see hq
  clear hq h
  generalize see rom mem = m at hv ⊢
  intro st hst hd
  injection hst with e1 e2 e3 e4 e5 e6 e7 e8
  subst e1 e2 e3 e4 e5 e6 e7 e8 hv
  refine ⟨?_, hd⟩
  rw [show (257 : Int) + st.s = 256 + (st.s + 1) % 256 by omega, show st.s + 1 = (st.s + 1) % 256 by omega, Int.emod_emod]
  rfl

theorem by_stx_abs {p : Int} (h : mem pc = 0x8e) (hv : mem (pc + 1) + 256 * mem (pc + 2) = p) (hp : 0 ≤ pc ∧ pc < 0xbf00) (hb : ¬ Rom p)
    (hq : By rom ⟨a, x, y, s, pc + 3, z, c, wr mem p x⟩ Q) : By rom ⟨a, x, y, s, pc, z, c, mem⟩ Q := by
  rw [← see_low (rom := rom) (mem := mem) (b := pc + 1) (by omega), ← see_low (rom := rom) (mem := mem) (b := pc + 2) (by omega)] at hv
  refine by_step (m' := wr (see rom mem) p x) .stx ⟨0x8e, .abs, 4⟩ (by decide) h hp ?_ (put_wr (.inl hb)) hq
  clear hq h
  generalize see rom mem = m at hv ⊢
  intro st hst hd
  injection hst with e1 e2 e3 e4 e5 e6 e7 e8
  subst e1 e2 e3 e4 e5 e6 e7 e8 hv
  exact ⟨rfl, hd⟩

theorem by_lda_absy {p v : Int} (h : mem pc = 0xb9) (hv : (mem (pc + 1) + 256 * mem (pc + 2) + y) % 65536 = p) (hm : rom p = v) (hp : 0 ≤ pc ∧ pc < 0xbf00) (hb : mem 0xd301 = 0xff) (hr : Rom p)
    (hq : By rom ⟨v, x, y, s, pc + 3, decide (v = 0), c, mem⟩ Q) : By rom ⟨a, x, y, s, pc, z, c, mem⟩ Q := by
  rw [← see_low (rom := rom) (mem := mem) (b := pc + 1) (by omega), ← see_low (rom := rom) (mem := mem) (b := pc + 2) (by omega)] at hv
  rw [← see_on (rom := rom) (mem := mem) hb hr] at hm
  refine by_step (m' := (see rom mem)) .lda ⟨0xb9, .absy, 4⟩ (by decide) h hp ?_ put_see hq
  clear hq h
  generalize see rom mem = m at hv hm ⊢
  intro st hst hd
  injection hst with e1 e2 e3 e4 e5 e6 e7 e8
  subst e1 e2 e3 e4 e5 e6 e7 e8 hv hm
  exact ⟨rfl, hd⟩

theorem by_sta_absy {p : Int} (h : mem pc = 0x99) (hv : (mem (pc + 1) + 256 * mem (pc + 2) + y) % 65536 = p) (hp : 0 ≤ pc ∧ pc < 0xbf00) (hb : mem 0xd301 = 0xfe)
    (hq : By rom ⟨a, x, y, s, pc + 3, z, c, wr mem p a⟩ Q) : By rom ⟨a, x, y, s, pc, z, c, mem⟩ Q := by
  rw [← see_low (rom := rom) (mem := mem) (b := pc + 1) (by omega), ← see_low (rom := rom) (mem := mem) (b := pc + 2) (by omega)] at hv
  refine by_step (m' := wr (see rom mem) p a) .sta ⟨0x99, .absy, 5⟩ (by decide) h hp ?_ (put_wr (.inr hb)) hq
  clear hq h
  generalize see rom mem = m at hv ⊢
  intro st hst hd
  injection hst with e1 e2 e3 e4 e5 e6 e7 e8
  subst e1 e2 e3 e4 e5 e6 e7 e8 hv
  exact ⟨rfl, hd⟩

theorem by_bne {d t : Int} (h : mem pc = 0xd0) (hv : mem (pc + 1) = d) (hp : 0 ≤ pc ∧ pc < 0xbf00) (ht : pc + 2 + State.signed d = t) (h0 : 0 ≤ t ∧ t < 65536)
    (hq : By rom ⟨a, x, y, s, if z then pc + 2 else t, z, c, mem⟩ Q) : By rom ⟨a, x, y, s, pc, z, c, mem⟩ Q := by
  rw [← see_low (rom := rom) (mem := mem) (b := pc + 1) (by omega)] at hv
  refine by_step (m' := see rom mem) .bne ⟨0xd0, .rel, 2⟩ (by decide) h hp ?_ put_see hq
  clear hq h
  generalize see rom mem = m at hv ⊢
  intro st hst hd
  injection hst with e1 e2 e3 e4 e5 e6 e7 e8
  subst e1 e2 e3 e4 e5 e6 e7 e8 hv
  have e : (st.pc + 2 + State.signed (st.mem (st.pc + 1))) % 65536 = t := by rw [ht]; omega
  refine ⟨?_, hd⟩
  show cfg { st with pc := if !st.z then (st.pc + 2 + State.signed (st.mem (st.pc + 1))) % 65536 else st.pc + 2 } = _
  rw [e]
  unfold cfg
  cases st.z <;> rfl

/-- As `copy1`, from ROM. -/
def copyRom (rom : Int → Int) (s y : Int) (mem : Int → Int) : Int → Int :=
  wr (wr (wr (wr (wr (wr (wr mem 0xd301 0xff) (256 + s) (rom (0xe000 + y))) (255 + s) (rom (0xe100 + y))) 0xd301 0xfe) (0xff00 + y) (rom (0xe300 + y))) (0xfe00 + y) (rom (0xe100 + y))) (0xfd00 + y) (rom (0xe000 + y))

/-- As `font`, from ROM. -/
def fontRom (rom : Int → Int) (s : Int) : Nat → (Int → Int) → Int → Int
  | 0, mem => mem
  | n + 1, mem => fontRom rom s n (copyRom rom s (255 - n) mem)

theorem copyRom_other {b : Int} (h1 : b ≠ 0xd301) (h2 : b ≠ 256 + s) (h3 : b ≠ 255 + s) (h4 : b ≠ 0xfd00 + y) (h5 : b ≠ 0xfe00 + y) (h6 : b ≠ 0xff00 + y) : copyRom rom s y mem b = mem b := by
  unfold copyRom
  rw [wr_other h4, wr_other h5, wr_other h6, wr_other h1, wr_other h3, wr_other h2, wr_other h1]

theorem copyRom_self : copyRom rom s y mem (0xfd00 + y) = rom (0xe000 + y) ∧ copyRom rom s y mem (0xfe00 + y) = rom (0xe100 + y) ∧ copyRom rom s y mem (0xff00 + y) = rom (0xe300 + y) := by
  unfold copyRom
  refine ⟨wr_self _ _ _, ?_, ?_⟩
  · rw [wr_other (by omega), wr_self]
  · rw [wr_other (by omega), wr_other (by omega), wr_self]

theorem fontRom_other (n : Nat) (hn : n ≤ 256) : ∀ {mem : Int → Int} {b : Int}, b ≠ 0xd301 → b ≠ 256 + s → b ≠ 255 + s → ¬ (0xfe00 - n ≤ b ∧ b < 0xfe00) → ¬ (0xff00 - n ≤ b ∧ b < 0xff00) →
    ¬ (0x10000 - n ≤ b ∧ b < 0x10000) → fontRom rom s n mem b = mem b := by
  induction n with
  | zero => intro mem b _ _ _ _ _ _; rfl
  | succ n ih =>
    intro mem b h1 h2 h3 h4 h5 h6
    unfold fontRom
    rw [ih (by omega) h1 h2 h3 (by omega) (by omega) (by omega), copyRom_other h1 h2 h3 (by omega) (by omega) (by omega)]

theorem fontRom_self (hs : 0 ≤ s ∧ s < 256) (n : Nat) (hn : n ≤ 256) : ∀ {mem : Int → Int} {i : Int}, 256 - (n : Int) ≤ i → i ≤ 255 →
    fontRom rom s n mem (0xfd00 + i) = rom (0xe000 + i) ∧ fontRom rom s n mem (0xfe00 + i) = rom (0xe100 + i) ∧ fontRom rom s n mem (0xff00 + i) = rom (0xe300 + i) := by
  induction n with
  | zero => intro mem i h1 h2; omega
  | succ n ih =>
    intro mem i h1 h2
    unfold fontRom
    by_cases h : i = 255 - n
    · rw [fontRom_other n (by omega) (by omega) (by omega) (by omega) (by omega) (by omega) (by omega), fontRom_other n (by omega) (by omega) (by omega) (by omega) (by omega) (by omega) (by omega),
        fontRom_other n (by omega) (by omega) (by omega) (by omega) (by omega) (by omega) (by omega), h]
      exact copyRom_self
    · exact ih (by omega) (mem := copyRom rom s (255 - n) mem) (i := i) (by omega) h2

theorem fontRom_portb (n : Nat) : ∀ {mem : Int → Int}, n ≤ 255 → fontRom rom s (n + 1) mem 0xd301 = 0xfe := by
  induction n with
  | zero =>
    intro mem _
    rw [fontRom, fontRom]
    unfold copyRom
    rw [wr_other (by omega), wr_other (by omega), wr_other (by omega), wr_self]
  | succ n ih => intro mem h; unfold fontRom; exact ih (by omega)

theorem by_glyph (R : CodeAt fontCode 0x116 mem) (hs : 0xe2 ≤ s ∧ s < 256) (hy : 0 ≤ y ∧ y ≤ 255)
    (hq : ∀ a z, By rom ⟨a, 255, (y + 1) % 256, s, if (y + 1) % 256 = 0 then 0x137 else 0x116, z, c, copyRom rom s y mem⟩ Q) : By rom ⟨a, 255, y, s, 0x116, z, c, mem⟩ Q := by
  have len : fontCode.length = 36 := rfl
  refine by_stx_abs (p := 0xd301) (R.at 0) (by rw [R.at 1 (b := 0x01), R.at 2 (b := 0xd3)]; omega) (by omega) (by unfold Rom; omega) ?_
  have R1 : CodeAt fontCode 0x116 (wr mem 0xd301 255) := R.put (by omega)
  refine by_lda_absy (p := 0xe000 + y) (v := rom (0xe000 + y)) (R1.at 3) (by rw [R1.at 4 (b := 0x00), R1.at 5 (b := 0xe0)]; omega) rfl (by omega) (wr_self _ _ _) (by unfold Rom; omega) ?_
  refine by_pha (R1.at 6) (by omega) (by omega) ?_
  have R2 := R1.put (p := 256 + s) (v := rom (0xe000 + y)) (by omega)
  refine by_lda_absy (p := 0xe100 + y) (v := rom (0xe100 + y)) (R2.at 7) (by rw [R2.at 8 (b := 0x00), R2.at 9 (b := 0xe1)]; omega) rfl (by omega) ((wr_other (by omega)).trans (wr_self _ _ _)) (by unfold Rom; omega) ?_
  refine by_pha (R2.at 10) (by omega) (by omega) ?_
  rw [show (256 : Int) + (s - 1) = 255 + s by omega]
  have R3 := R2.put (p := 255 + s) (v := rom (0xe100 + y)) (by omega)
  refine by_lda_absy (p := 0xe300 + y) (v := rom (0xe300 + y)) (R3.at 11) (by rw [R3.at 12 (b := 0x00), R3.at 13 (b := 0xe3)]; omega)
    rfl (by omega) (by rw [wr_other (by omega), wr_other (by omega), wr_self]) (by unfold Rom; omega) ?_
  refine by_dex (R3.at 14) (by omega) ?_
  rw [show ((255 : Int) - 1) % 256 = 254 by decide]
  refine by_stx_abs (p := 0xd301) (R3.at 15) (by rw [R3.at 16 (b := 0x01), R3.at 17 (b := 0xd3)]; omega) (by omega) (by unfold Rom; omega) ?_
  have R4 := R3.put (p := 0xd301) (v := 254) (by omega)
  refine by_inx (R4.at 18) (by omega) ?_
  rw [show ((254 : Int) + 1) % 256 = 255 by decide]
  refine by_sta_absy (p := 0xff00 + y) (R4.at 19) (by rw [R4.at 20 (b := 0x00), R4.at 21 (b := 0xff)]; omega) (by omega) (wr_self _ _ _) ?_
  have R5 := R4.put (p := 0xff00 + y) (v := rom (0xe300 + y)) (by omega)
  refine by_pla (v := rom (0xe100 + y)) (R5.at 22) (by omega) (by omega) ?_ ?_
  · rw [show (257 : Int) + (s - 1 - 1) = 255 + s by omega, wr_other (by omega), wr_other (by omega), wr_self]
  refine by_sta_absy (p := 0xfe00 + y) (R5.at 23) (by rw [R5.at 24 (b := 0x00), R5.at 25 (b := 0xfe)]; omega) (by omega) ((wr_other (by omega)).trans (wr_self _ _ _)) ?_
  have R6 := R5.put (p := 0xfe00 + y) (v := rom (0xe100 + y)) (by omega)
  refine by_pla (v := rom (0xe000 + y)) (R6.at 26) (by omega) (by omega) ?_ ?_
  · rw [show (257 : Int) + (s - 1 - 1 + 1) = 256 + s by omega, wr_other (by omega), wr_other (by omega), wr_other (by omega), wr_other (by omega), wr_self]
  refine by_sta_absy (p := 0xfd00 + y) (R6.at 27) (by rw [R6.at 28 (b := 0x00), R6.at 29 (b := 0xfd)]; omega) (by omega) (by rw [wr_other (by omega), wr_other (by omega), wr_self]) ?_
  have R7 := R6.put (p := 0xfd00 + y) (v := rom (0xe000 + y)) (by omega)
  refine by_iny (R7.at 30) (by omega) ?_
  refine by_bne (t := 0x116) (d := 0xdf) (R7.at 31) (R7.at 32) (by omega) (by decide) (by omega) ?_
  have := hq (rom (0xe000 + y)) (decide ((y + 1) % 256 = 0))
  unfold copyRom at this
  rw [show s - 1 - 1 + 1 + 1 = s by omega]
  by_cases h : (y + 1) % 256 = 0
  · rw [if_pos h] at this
    rw [decide_eq_true h] at this ⊢
    rw [if_pos rfl]
    exact this
  · rw [if_neg h] at this
    rw [decide_eq_false h] at this ⊢
    rw [if_neg (by decide)]
    exact this

theorem by_font_loop (hs : 0xe2 ≤ s ∧ s < 256) (n : Nat) (hn : n ≤ 255) : ∀ {mem : Int → Int} {a : Int} {z : Bool}, CodeAt fontCode 0x116 mem →
    (∀ a z, By rom ⟨a, 255, 0, s, 0x137, z, c, fontRom rom s (n + 1) mem⟩ Q) → By rom ⟨a, 255, 255 - n, s, 0x116, z, c, mem⟩ Q := by
  induction n with
  | zero =>
    intro mem a z R h
    refine by_glyph R hs (by omega) fun a z => ?_
    exact h a z
  | succ n ih =>
    intro mem a z R h
    refine by_glyph R hs (by omega) fun a z => ?_
    rw [show ((255 : Int) - (n + 1 : Nat) + 1) % 256 = 255 - n by omega, if_neg (by omega)]
    refine ih (by omega) (R.kept fun b h1 h2 => ?_) h
    rw [show fontCode.length = 36 from rfl] at h2
    exact copyRom_other (by omega) (by omega) (by omega) (by omega) (by omega) (by omega)

end Asap.Flat
