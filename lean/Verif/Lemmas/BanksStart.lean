import Verif.Lemmas.Banks

/-! # The start of executables, with ROM -/

namespace Asap.Flat
open Asap.Isa Asap.Spec.Flat Asap.Spec.Banks
open Asap.Spec.Convert (cfg wr wr_self wr_other)

variable {a x y s pc : Int} {z c : Bool} {rom mem : Int → Int} {Q : Spec.Convert.Cfg → Prop}

theorem runsRom_trans {st st' st2 : State} (h : RunsRom rom st st') (h' : RunsRom rom st' st2) : RunsRom rom st st2 := by
  induction h with
  | refl => exact h'
  | step mn k h1 h2 h3 h4 _ ih => exact .step mn k h1 h2 h3 h4 (ih h')

/-! ## Below ROM -/

theorem by_sei (h : mem pc = 0x78) (hp : 0 ≤ pc ∧ pc < 0xbf00) (hq : By rom ⟨a, x, y, s, pc + 1, z, c, mem⟩ Q) : By rom ⟨a, x, y, s, pc, z, c, mem⟩ Q := by
  refine by_step (m' := (see rom mem)) .sei ⟨0x78, .imp, 2⟩ (by decide) h hp ?_ put_see hq
  clear hq h
  generalize see rom mem = m at ⊢
  intro st hst hd
  injection hst with e1 e2 e3 e4 e5 e6 e7 e8
  subst e1 e2 e3 e4 e5 e6 e7 e8
  exact ⟨rfl, hd⟩

theorem by_ldy_imm {v : Int} (h : mem pc = 0xa0) (hv : mem (pc + 1) = v) (hp : 0 ≤ pc ∧ pc < 0xbf00) (hq : By rom ⟨a, x, v, s, pc + 2, decide (v = 0), c, mem⟩ Q) :
    By rom ⟨a, x, y, s, pc, z, c, mem⟩ Q := by
  rw [← see_low (rom := rom) (mem := mem) (b := pc + 1) (by omega)] at hv
  refine by_step (m' := (see rom mem)) .ldy ⟨0xa0, .imm, 2⟩ (by decide) h hp ?_ put_see hq
  clear hq h
  generalize see rom mem = m at hv ⊢
  intro st hst hd
  injection hst with e1 e2 e3 e4 e5 e6 e7 e8
  subst e1 e2 e3 e4 e5 e6 e7 e8 hv
  exact ⟨rfl, hd⟩

theorem by_ldx_imm {v : Int} (h : mem pc = 0xa2) (hv : mem (pc + 1) = v) (hp : 0 ≤ pc ∧ pc < 0xbf00) (hq : By rom ⟨a, v, y, s, pc + 2, decide (v = 0), c, mem⟩ Q) :
    By rom ⟨a, x, y, s, pc, z, c, mem⟩ Q := by
  rw [← see_low (rom := rom) (mem := mem) (b := pc + 1) (by omega)] at hv
  refine by_step (m' := (see rom mem)) .ldx ⟨0xa2, .imm, 2⟩ (by decide) h hp ?_ put_see hq
  clear hq h
  generalize see rom mem = m at hv ⊢
  intro st hst hd
  injection hst with e1 e2 e3 e4 e5 e6 e7 e8
  subst e1 e2 e3 e4 e5 e6 e7 e8 hv
  exact ⟨rfl, hd⟩

theorem by_sty_abs {p : Int} (h : mem pc = 0x8c) (hv : mem (pc + 1) + 256 * mem (pc + 2) = p) (hp : 0 ≤ pc ∧ pc < 0xbf00) (hb : ¬ Rom p)
    (hq : By rom ⟨a, x, y, s, pc + 3, z, c, wr mem p y⟩ Q) : By rom ⟨a, x, y, s, pc, z, c, mem⟩ Q := by
  rw [← see_low (rom := rom) (mem := mem) (b := pc + 1) (by omega), ← see_low (rom := rom) (mem := mem) (b := pc + 2) (by omega)] at hv
  refine by_step (m' := wr (see rom mem) p y) .sty ⟨0x8c, .abs, 4⟩ (by decide) h hp ?_ (put_wr (.inl hb)) hq
  clear hq h
  generalize see rom mem = m at hv ⊢
  intro st hst hd
  injection hst with e1 e2 e3 e4 e5 e6 e7 e8
  subst e1 e2 e3 e4 e5 e6 e7 e8 hv
  exact ⟨rfl, hd⟩

theorem by_sta_abs {p : Int} (h : mem pc = 0x8d) (hv : mem (pc + 1) + 256 * mem (pc + 2) = p) (hp : 0 ≤ pc ∧ pc < 0xbf00) (hb : ¬ Rom p)
    (hq : By rom ⟨a, x, y, s, pc + 3, z, c, wr mem p a⟩ Q) : By rom ⟨a, x, y, s, pc, z, c, mem⟩ Q := by
  rw [← see_low (rom := rom) (mem := mem) (b := pc + 1) (by omega), ← see_low (rom := rom) (mem := mem) (b := pc + 2) (by omega)] at hv
  refine by_step (m' := wr (see rom mem) p a) .sta ⟨0x8d, .abs, 4⟩ (by decide) h hp ?_ (put_wr (.inl hb)) hq
  clear hq h
  generalize see rom mem = m at hv ⊢
  intro st hst hd
  injection hst with e1 e2 e3 e4 e5 e6 e7 e8
  subst e1 e2 e3 e4 e5 e6 e7 e8 hv
  exact ⟨rfl, hd⟩

theorem by_sta_absx {p : Int} (h : mem pc = 0x9d) (hv : (mem (pc + 1) + 256 * mem (pc + 2) + x) % 65536 = p) (hp : 0 ≤ pc ∧ pc < 0xbf00) (hb : ¬ Rom p)
    (hq : By rom ⟨a, x, y, s, pc + 3, z, c, wr mem p a⟩ Q) : By rom ⟨a, x, y, s, pc, z, c, mem⟩ Q := by
  rw [← see_low (rom := rom) (mem := mem) (b := pc + 1) (by omega), ← see_low (rom := rom) (mem := mem) (b := pc + 2) (by omega)] at hv
  refine by_step (m' := wr (see rom mem) p a) .sta ⟨0x9d, .absx, 5⟩ (by decide) h hp ?_ (put_wr (.inl hb)) hq
  clear hq h
  generalize see rom mem = m at hv ⊢
  intro st hst hd
  injection hst with e1 e2 e3 e4 e5 e6 e7 e8
  subst e1 e2 e3 e4 e5 e6 e7 e8 hv
  exact ⟨rfl, hd⟩

theorem by_lda_abs {p v : Int} (h : mem pc = 0xad) (hv : mem (pc + 1) + 256 * mem (pc + 2) = p) (hm : mem p = v) (hp : 0 ≤ pc ∧ pc < 0xbf00) (hb : ¬ Rom p)
    (hq : By rom ⟨v, x, y, s, pc + 3, decide (v = 0), c, mem⟩ Q) : By rom ⟨a, x, y, s, pc, z, c, mem⟩ Q := by
  rw [← see_low (rom := rom) (mem := mem) (b := pc + 1) (by omega), ← see_low (rom := rom) (mem := mem) (b := pc + 2) (by omega)] at hv
  rw [← see_plain (rom := rom) (mem := mem) hb] at hm
  refine by_step (m' := (see rom mem)) .lda ⟨0xad, .abs, 4⟩ (by decide) h hp ?_ put_see hq
  clear hq h
  generalize see rom mem = m at hv hm ⊢
  intro st hst hd
  injection hst with e1 e2 e3 e4 e5 e6 e7 e8
  subst e1 e2 e3 e4 e5 e6 e7 e8 hv hm
  exact ⟨rfl, hd⟩

theorem by_dex_bpl {d t : Int} (h1 : mem pc = 0xca) (h2 : mem (pc + 1) = 0x10) (hv : mem (pc + 2) = d) (hp : 0 ≤ pc ∧ pc < 0xbf00) (ht : pc + 3 + State.signed d = t) (h0 : 0 ≤ t ∧ t < 65536)
    (hq : By rom ⟨a, (x - 1) % 256, y, s, if 128 ≤ (x - 1) % 256 then pc + 3 else t, decide ((x - 1) % 256 = 0), c, mem⟩ Q) : By rom ⟨a, x, y, s, pc, z, c, mem⟩ Q := by
  intro st hst hd
  injection hst with e1 e2 e3 e4 e5 e6 e7 e8
  subst e1 e2 e3 e4 e5 e6 e7 e8
  have k1 : cfg (stepRom rom .dex .imp st) = ⟨st.a, (st.x - 1) % 256, st.y, st.s, st.pc + 1, decide ((st.x - 1) % 256 = 0), st.c, put st.mem (see rom st.mem)⟩ := rfl
  rw [put_see] at k1
  have k2 : (stepRom rom .dex .imp st).d = false := hd
  have k3 : (stepRom rom .dex .imp st).n = decide (128 ≤ (st.x - 1) % 256) := rfl
  generalize hu : stepRom rom .dex .imp st = u at k1 k2 k3
  injection k1 with f1 f2 f3 f4 f5 f6 f7 f8
  have k4 : cfg (stepRom rom .bpl .rel u) = ⟨u.a, u.x, u.y, u.s, if !u.n then (u.pc + 2 + State.signed (see rom u.mem (u.pc + 1))) % 65536 else u.pc + 2, u.z, u.c, put u.mem (see rom u.mem)⟩ := rfl
  rw [put_see, k3, f1, f2, f3, f4, f5, f6, f7, f8, see_low (by omega), show st.pc + 1 + 1 = st.pc + 2 by omega, hv, show st.pc + 1 + 2 = st.pc + 3 by omega, ht, show t % 65536 = t by omega] at k4
  have k5 : (if (!decide (128 ≤ (st.x - 1) % 256)) = true then t else st.pc + 3) = if 128 ≤ (st.x - 1) % 256 then st.pc + 3 else t := by
    by_cases h : 128 ≤ (st.x - 1) % 256
    · rw [decide_eq_true h, if_pos h]; rfl
    · rw [decide_eq_false h, if_neg h]; rfl
  rw [k5] at k4
  obtain ⟨st', r, p, d'⟩ := hq _ k4 k2
  refine ⟨st', .step .dex ⟨0xca, .imp, 2⟩ (by decide) (by rw [see_low (by omega)]; exact h1) hp.1 (by show st.pc + 1 ≤ _; omega) ?_, p, d'⟩
  show RunsRom rom (stepRom rom .dex .imp st) st'
  rw [hu]
  exact .step .bpl ⟨0x10, .rel, 2⟩ (by decide) (by rw [f5, f8, see_low (by omega)]; exact h2) (by rw [f5]; omega) (by rw [f5]; show st.pc + 1 + 2 ≤ _; omega) r

theorem by_dark {q : Int} (hq0 : 0 ≤ q ∧ q < 0xb000) (n : Nat) (hn : n ≤ 29) : ∀ {mem : Int → Int} {z : Bool}, CodeAt startCode q mem → (∀ z, By rom ⟨0, 255, y, s, q + 22, z, c, dark n mem⟩ Q) →
    By rom ⟨0, n, y, s, q + 16, z, c, mem⟩ Q := by
  have len : startCode.length = 22 := rfl
  have body : ∀ {mem : Int → Int} {z : Bool} {x : Int}, CodeAt startCode q mem → 0 ≤ x ∧ x ≤ 29 →
      (∀ z, By rom ⟨0, (x - 1) % 256, y, s, if 128 ≤ (x - 1) % 256 then q + 22 else q + 16, z, c, wr mem (0xd000 + x) 0⟩ Q) → By rom ⟨0, x, y, s, q + 16, z, c, mem⟩ Q := by
    intro mem z x R hx hh
    refine by_sta_absx (p := 0xd000 + x) (R.at 16) (by rw [R.at 17 (b := 0x00), R.at 18 (b := 0xd0)]; omega) (by omega) (by unfold Rom; omega) ?_
    have R1 : CodeAt startCode q (wr mem (0xd000 + x) 0) := R.put (by omega)
    refine by_dex_bpl (d := 0xfa) (t := q + 16) (R1.at 19) (R1.at 20) (R1.at 21) (by omega) (by rw [show State.signed 0xfa = -6 by decide]; omega) (by omega) ?_
    rw [show q + 16 + 3 + 3 = q + 22 by omega]
    exact hh _
  induction n with
  | zero =>
    intro mem z R h
    exact body R (by omega) fun z => h z
  | succ n ih =>
    intro mem z R h
    refine body R (by omega) fun z => ?_
    rw [show (((n + 1 : Nat) : Int) - 1) % 256 = n by omega, if_neg (by omega)]
    exact ih (by omega) (R.put (by omega)) h

theorem by_off {q : Int} (hq0 : 0 ≤ q ∧ q < 0xb000) (R : CodeAt startCode q mem) (hv : mem 0xd40b = 0) (hq : ∀ z, By rom ⟨0, 255, 0, s, q + 22, z, c, dark 29 (wr (wr mem 0xd40e 0) 0xd400 0)⟩ Q) :
    By rom ⟨a, x, y, s, q, z, c, mem⟩ Q := by
  have len : startCode.length = 22 := rfl
  refine by_sei (R.at 0) (by omega) ?_
  refine by_ldy_imm (v := 0) (R.at 1) (R.at 2) (by omega) ?_
  refine by_sty_abs (p := 0xd40e) (R.at 3) (by rw [R.at 4 (b := 0x0e), R.at 5 (b := 0xd4)]; omega) (by omega) (by unfold Rom; omega) ?_
  have R1 : CodeAt startCode q (wr mem 0xd40e 0) := R.put (by omega)
  refine by_lda_abs (p := 0xd40b) (v := 0) (R1.at 6) (by rw [R1.at 7 (b := 0x0b), R1.at 8 (b := 0xd4)]; omega) (by rw [wr_other (by omega), hv]) (by omega) (by unfold Rom; omega) ?_
  refine by_bne (t := q + 6) (d := 0xfb) (R1.at 9) (R1.at 10) (by omega) (by rw [show State.signed 0xfb = -5 by decide]; omega) (by omega) ?_
  rw [if_pos (by decide)]
  refine by_sta_abs (p := 0xd400) (R1.at 11) (by rw [R1.at 12 (b := 0x00), R1.at 13 (b := 0xd4)]; omega) (by omega) (by unfold Rom; omega) ?_
  have R2 : CodeAt startCode q (wr (wr mem 0xd40e 0) 0xd400 0) := R1.put (by omega)
  refine by_ldx_imm (v := 29) (R2.at 14) (R2.at 15) (by omega) ?_
  rw [show q + 1 + 2 + 3 + 3 + 2 + 3 + 2 = q + 16 by omega]
  exact by_dark hq0 29 (by omega) R2 hq

/-! ## POKEYs -/

theorem by_lda_imm {v : Int} (h : mem pc = 0xa9) (hv : mem (pc + 1) = v) (hp : 0 ≤ pc ∧ pc < 0xbf00) (hq : By rom ⟨v, x, y, s, pc + 2, decide (v = 0), c, mem⟩ Q) :
    By rom ⟨a, x, y, s, pc, z, c, mem⟩ Q := by
  rw [← see_low (rom := rom) (mem := mem) (b := pc + 1) (by omega)] at hv
  refine by_step (m' := (see rom mem)) .lda ⟨0xa9, .imm, 2⟩ (by decide) h hp ?_ put_see hq
  clear hq h
  generalize see rom mem = m at hv ⊢
  intro st hst hd
  injection hst with e1 e2 e3 e4 e5 e6 e7 e8
  subst e1 e2 e3 e4 e5 e6 e7 e8 hv
  exact ⟨rfl, hd⟩

theorem by_clear {q : Int} (hq0 : 0 ≤ q ∧ q < 0xb000) (n : Nat) (hn : n ≤ 8) : ∀ {mem : Int → Int} {z : Bool}, Resets q mem → (∀ z, By rom ⟨0, 255, y, s, q + 11, z, c, clear n mem⟩ Q) →
    By rom ⟨0, n, y, s, q + 2, z, c, mem⟩ Q := by
  have body : ∀ {mem : Int → Int} {z : Bool} {x : Int}, Resets q mem → 0 ≤ x ∧ x ≤ 8 →
      (∀ z, By rom ⟨0, (x - 1) % 256, y, s, if 128 ≤ (x - 1) % 256 then q + 11 else q + 2, z, c, wr (wr mem (0xd210 + x) 0) (0xd200 + x) 0⟩ Q) → By rom ⟨0, x, y, s, q + 2, z, c, mem⟩ Q := by
    intro mem z x R hx hh
    refine by_sta_absx (p := 0xd210 + x) (R.at 2) (by rw [R.at 3 (b := 0x10), R.at 4 (b := 0xd2)]; omega) (by omega) (by unfold Rom; omega) ?_
    have R1 : Resets q (wr mem (0xd210 + x) 0) := R.put (by omega)
    refine by_sta_absx (p := 0xd200 + x) (R1.at 5) (by rw [R1.at 6 (b := 0x00), R1.at 7 (b := 0xd2)]; omega) (by omega) (by unfold Rom; omega) ?_
    have R2 : Resets q (wr (wr mem (0xd210 + x) 0) (0xd200 + x) 0) := R1.put (by omega)
    refine by_dex_bpl (d := 0xf7) (t := q + 2) (R2.at 8) (R2.at 9) (R2.at 10) (by omega) (by rw [show State.signed 0xf7 = -9 by decide]; omega) (by omega) ?_
    rw [show q + 2 + 3 + 3 + 3 = q + 11 by omega]
    exact hh _
  induction n with
  | zero =>
    intro mem z R h
    exact body R (by omega) fun z => h z
  | succ n ih =>
    intro mem z R h
    refine body R (by omega) fun z => ?_
    rw [show (((n + 1 : Nat) : Int) - 1) % 256 = n by omega, if_neg (by omega)]
    exact ih (by omega) ((R.put (by omega)).put (by omega)) h

theorem by_reset {q : Int} (hq0 : 0 ≤ q ∧ q < 0xb000) (R : Resets q mem) (hq : ∀ z, By rom ⟨3, 255, y, s, q + 19, z, c, wr (wr (clear 8 mem) 0xd21f 3) 0xd200 3⟩ Q) : By rom ⟨0, x, y, s, q, z, c, mem⟩ Q := by
  refine by_ldx_imm (v := 8) (R.at 0) (R.at 1) (by omega) ?_
  refine by_clear hq0 8 (by omega) R fun z => ?_
  have R1 : Resets q (clear 8 mem) := by
    intro j b e
    have := (List.getElem?_eq_some_iff.mp e).1
    rw [show resetCode.length = 19 by decide] at this
    rw [clear_other 8 (by omega) (by omega)]
    exact R j b e
  refine by_lda_imm (v := 3) (R1.at 11) (R1.at 12) (by omega) ?_
  refine by_sta_abs (p := 0xd21f) (R1.at 13) (by rw [R1.at 14 (b := 0x1f), R1.at 15 (b := 0xd2)]; omega) (by omega) (by unfold Rom; omega) ?_
  have R2 : Resets q (wr (clear 8 mem) 0xd21f 3) := R1.put (by omega)
  refine by_sta_abs (p := 0xd200) (R2.at 16) (by rw [R2.at 17 (b := 0x00), R2.at 18 (b := 0xd2)]; omega) (by omega) (by unfold Rom; omega) ?_
  rw [show q + 11 + 2 + 3 + 3 = q + 19 by omega]
  exact hq _

/-! ## ROM off -/

theorem bo_step {f g : Spec.Convert.Cfg} (mn : Mn) (k : Code) (hd : k ∈ codes mn) (hf : f.mem f.pc = k.opcode) (h0 : 0 ≤ f.pc) (h1 : f.pc + k.mode.size ≤ 65536) (ho : f.mem 0xd301 = 0xfe)
    (h : ∀ st, cfg st = f → st.d = false → cfg (st.after mn k.mode) = g ∧ (st.after mn k.mode).d = false) (hq : By rom g Q) : By rom f Q := by
  intro st e hdec
  have e1 : st.mem = f.mem := congrArg Spec.Convert.Cfg.mem e
  have e2 : st.pc = f.pc := congrArg Spec.Convert.Cfg.pc e
  have o : st.mem 0xd301 = 0xfe := by rw [e1]; exact ho
  have e3 : stepRom rom mn k.mode st = st.after mn k.mode := by
    have e : ∀ m, put st.mem m = m := fun m => funext fun b => if_neg fun e => by rw [o] at e; omega
    unfold stepRom
    rw [see_off o, e]
  obtain ⟨g1, g2⟩ := h st e hdec
  obtain ⟨st', r, p, d⟩ := hq _ g1 g2
  exact ⟨st', .step mn k hd (by rw [see_off o, e1, e2]; exact hf) (by rw [e2]; exact h0) (by rw [e2]; exact h1) (by rw [e3]; exact r), p, d⟩

theorem bo_lda_abs {p v : Int} (h : mem pc = 0xad) (hv : mem (pc + 1) + 256 * mem (pc + 2) = p) (hm : mem p = v) (ho : mem 0xd301 = 0xfe) (hp : 0 ≤ pc ∧ pc < 0xff00)
    (hq : By rom ⟨v, x, y, s, pc + 3, decide (v = 0), c, mem⟩ Q) : By rom ⟨a, x, y, s, pc, z, c, mem⟩ Q := by
  refine bo_step .lda ⟨0xad, .abs, 4⟩ (by decide) h hp.1 (by show pc + 3 ≤ _; omega) ho ?_ hq
  intro st hst hd
  injection hst with e1 e2 e3 e4 e5 e6 e7 e8
  subst e1 e2 e3 e4 e5 e6 e7 e8 hv hm
  exact ⟨rfl, hd⟩

theorem bo_sta_abs {p : Int} (h : mem pc = 0x8d) (hv : mem (pc + 1) + 256 * mem (pc + 2) = p) (ho : mem 0xd301 = 0xfe) (hp : 0 ≤ pc ∧ pc < 0xff00)
    (hq : By rom ⟨a, x, y, s, pc + 3, z, c, wr mem p a⟩ Q) : By rom ⟨a, x, y, s, pc, z, c, mem⟩ Q := by
  refine bo_step .sta ⟨0x8d, .abs, 4⟩ (by decide) h hp.1 (by show pc + 3 ≤ _; omega) ho ?_ hq
  intro st hst hd
  injection hst with e1 e2 e3 e4 e5 e6 e7 e8
  subst e1 e2 e3 e4 e5 e6 e7 e8 hv
  exact ⟨rfl, hd⟩

theorem bo_ldx_imm {v : Int} (h : mem pc = 0xa2) (hv : mem (pc + 1) = v) (ho : mem 0xd301 = 0xfe) (hp : 0 ≤ pc ∧ pc < 0xff00) (hq : By rom ⟨a, v, y, s, pc + 2, decide (v = 0), c, mem⟩ Q) :
    By rom ⟨a, x, y, s, pc, z, c, mem⟩ Q := by
  refine bo_step .ldx ⟨0xa2, .imm, 2⟩ (by decide) h hp.1 (by show pc + 2 ≤ _; omega) ho ?_ hq
  intro st hst hd
  injection hst with e1 e2 e3 e4 e5 e6 e7 e8
  subst e1 e2 e3 e4 e5 e6 e7 e8 hv
  exact ⟨rfl, hd⟩

theorem bo_stx_abs {p : Int} (h : mem pc = 0x8e) (hv : mem (pc + 1) + 256 * mem (pc + 2) = p) (ho : mem 0xd301 = 0xfe) (hp : 0 ≤ pc ∧ pc < 0xff00)
    (hq : By rom ⟨a, x, y, s, pc + 3, z, c, wr mem p x⟩ Q) : By rom ⟨a, x, y, s, pc, z, c, mem⟩ Q := by
  refine bo_step .stx ⟨0x8e, .abs, 4⟩ (by decide) h hp.1 (by show pc + 3 ≤ _; omega) ho ?_ hq
  intro st hst hd
  injection hst with e1 e2 e3 e4 e5 e6 e7 e8
  subst e1 e2 e3 e4 e5 e6 e7 e8 hv
  exact ⟨rfl, hd⟩

theorem bo_rts {v : Int} (h : mem pc = 0x60) (ho : mem 0xd301 = 0xfe) (hp : 0 ≤ pc ∧ pc < 0xff00) (hv : (mem (256 + (s + 1) % 256) + 256 * mem (256 + (s + 2) % 256) + 1) % 65536 = v)
    (hq : By rom ⟨a, x, y, (s + 2) % 256, v, z, c, mem⟩ Q) :
    By rom ⟨a, x, y, s, pc, z, c, mem⟩ Q := by
  refine bo_step .rts ⟨0x60, .imp, 6⟩ (by decide) h hp.1 (by show pc + 1 ≤ _; omega) ho ?_ hq
  intro st hst hd
  injection hst with e1 e2 e3 e4 e5 e6 e7 e8
  subst e1 e2 e3 e4 e5 e6 e7 e8 hv
  exact ⟨rfl, hd⟩

theorem bo_jsr_page {v : Int} (h : mem pc = 0x20) (hl : mem (pc + 1) = v % 256) (hh : mem (pc + 2) = v / 256) (ho : mem 0xd301 = 0xfe) (hp : 0 ≤ pc ∧ pc + 2 < 255 + s) (hs : 2 ≤ s ∧ s < 256)
    (hq : By rom ⟨a, x, y, s - 2, v, z, c, wr (wr mem (256 + s) ((pc + 2) / 256)) (255 + s) ((pc + 2) % 256)⟩ Q) : By rom ⟨a, x, y, s, pc, z, c, mem⟩ Q := by
  refine bo_step .jsr ⟨0x20, .abs, 6⟩ (by decide) h hp.1 (by show pc + 3 ≤ _; omega) ho ?_ hq
  intro st hst hd
  injection hst with e1 e2 e3 e4 e5 e6 e7 e8
  subst e1 e2 e3 e4 e5 e6 e7 e8
  refine ⟨?_, hd⟩
  have e2 : ({ st with pc := st.pc + 3 } : State).jsr (st.effective .abs) =
      { st with mem := wr (wr st.mem (256 + st.s) ((st.pc + 2) / 256)) (256 + (st.s - 1) % 256) ((st.pc + 2) % 256), s := ((st.s - 1) % 256 - 1) % 256,
                pc := (st.mem (st.pc + 1) + 256 * st.mem (st.pc + 2)) % 256 + 256 * wr (wr st.mem (256 + st.s) ((st.pc + 2) / 256)) (256 + (st.s - 1) % 256) ((st.pc + 2) % 256) (st.pc + 2) } := by
    unfold State.jsr
    dsimp only
    rw [show st.pc + 3 - 1 = st.pc + 2 by omega]
    rfl
  show cfg (({ st with pc := st.pc + 3 } : State).jsr (st.effective .abs)) = _
  rw [e2, wr_other (by omega), wr_other (by omega), hl, hh]
  unfold cfg
  dsimp only
  rw [show (v % 256 + 256 * (v / 256)) % 256 + 256 * (v / 256) = v by omega, show ((st.s - 1) % 256 - 1) % 256 = st.s - 2 by omega, show (256 : Int) + (st.s - 1) % 256 = 255 + st.s by omega]

theorem bo_branch {f : Spec.Convert.Cfg} {d t : Int} {b : Bool} (mn : Mn) (o : Int) (hd : ⟨o, .rel, 2⟩ ∈ codes mn) (h : f.mem f.pc = o) (hv : f.mem (f.pc + 1) = d)
    (ho : f.mem 0xd301 = 0xfe) (hp : 0 ≤ f.pc ∧ f.pc < 0xff00) (ht : f.pc + 2 + State.signed d = t) (h0 : 0 ≤ t ∧ t < 65536)
    (hb : ∀ st, cfg st = f → st.taken mn = b) (hq : By rom { f with pc := if b then t else f.pc + 2 } Q) : By rom f Q := by
  refine bo_step mn ⟨o, .rel, 2⟩ hd h hp.1 (by show f.pc + 2 ≤ _; omega) ho ?_ hq
  intro st hst hdec
  have hk := hb st hst
  subst hst
  have e : (st.pc + 2 + State.signed st.b1) % 65536 = t := by
    unfold State.b1
    rw [show st.mem (st.pc + 1) = d from hv]
    show ((cfg st).pc + 2 + State.signed d) % 65536 = t
    rw [ht]
    omega
  refine ⟨?_, hdec⟩
  show cfg { st with pc := if st.taken mn then (st.pc + 2 + State.signed st.b1) % 65536 else st.pc + 2 } = _
  rw [e, hk]
  rfl

theorem bo_bne {d t : Int} (h : mem pc = 0xd0) (hv : mem (pc + 1) = d) (ho : mem 0xd301 = 0xfe) (hp : 0 ≤ pc ∧ pc < 0xff00) (ht : pc + 2 + State.signed d = t) (h0 : 0 ≤ t ∧ t < 65536)
    (hq : By rom ⟨a, x, y, s, if z then pc + 2 else t, z, c, mem⟩ Q) : By rom ⟨a, x, y, s, pc, z, c, mem⟩ Q := by
  refine bo_branch (f := ⟨a, x, y, s, pc, z, c, mem⟩) (b := !z) .bne 0xd0 (by decide) h hv ho hp ht h0
    (fun st hst => by injection hst with _ _ _ _ _ e6; rw [← e6]; rfl) ?_
  cases z <;> exact hq

theorem bo_screen (R : Prog mem) (hv : mem 0xd40b = 0) (O : mem 0xd301 = 0xfe) :
    By rom ⟨a, x, y, s, 0xfc73, z, c, mem⟩ fun g => g.pc = (mem (256 + (s + 1) % 256) + 256 * mem (256 + (s + 2) % 256) + 1) % 65536 ∧ g.s = (s + 2) % 256 ∧ g.y = y ∧
      g.mem = wr (wr (wr (wr (wr (wr (wr mem 0xd405 0) 0xd016 0x26) 0xd017 0x0a) 0xd400 0x21) 0xd402 0x50) 0xd403 0xfc) 0xd409 0xfc ∧ g.a = 0 := by
  refine bo_lda_abs (p := 0xd40b) (v := 0) (R.at 0x00) (by rw [R.at 0x01 (b := 0x0b), R.at 0x02 (b := 0xd4)]; omega) hv O (by omega) ?_
  refine bo_bne (t := 0xfc73) (d := 0xfb) (R.at 0x03) (R.at 0x04) O (by omega) (by decide) (by omega) ?_
  rw [if_pos (by decide)]
  refine bo_sta_abs (p := 0xd405) (R.at 0x05) (by rw [R.at 0x06 (b := 0x05), R.at 0x07 (b := 0xd4)]; omega) O (by omega) ?_
  have R1 := R.put (q := 0xd405) (v := 0) (by omega)
  have O1 := (wr_other (mem := _) (p := 0xd405) (v := 0) (by omega)).trans O
  refine bo_ldx_imm (v := 0x26) (R1.at 0x08) (R1.at 0x09) O1 (by omega) ?_
  refine bo_stx_abs (p := 0xd016) (R1.at 0x0a) (by rw [R1.at 0x0b (b := 0x16), R1.at 0x0c (b := 0xd0)]; omega) O1 (by omega) ?_
  have R2 := R1.put (q := 0xd016) (v := 0x26) (by omega)
  have O2 := (wr_other (mem := _) (p := 0xd016) (v := 0x26) (by omega)).trans O1
  refine bo_ldx_imm (v := 0x0a) (R2.at 0x0d) (R2.at 0x0e) O2 (by omega) ?_
  refine bo_stx_abs (p := 0xd017) (R2.at 0x0f) (by rw [R2.at 0x10 (b := 0x17), R2.at 0x11 (b := 0xd0)]; omega) O2 (by omega) ?_
  have R3 := R2.put (q := 0xd017) (v := 0x0a) (by omega)
  have O3 := (wr_other (mem := _) (p := 0xd017) (v := 0x0a) (by omega)).trans O2
  refine bo_ldx_imm (v := 0x21) (R3.at 0x12) (R3.at 0x13) O3 (by omega) ?_
  refine bo_stx_abs (p := 0xd400) (R3.at 0x14) (by rw [R3.at 0x15 (b := 0x00), R3.at 0x16 (b := 0xd4)]; omega) O3 (by omega) ?_
  have R4 := R3.put (q := 0xd400) (v := 0x21) (by omega)
  have O4 := (wr_other (mem := _) (p := 0xd400) (v := 0x21) (by omega)).trans O3
  refine bo_ldx_imm (v := 0x50) (R4.at 0x17) (R4.at 0x18) O4 (by omega) ?_
  refine bo_stx_abs (p := 0xd402) (R4.at 0x19) (by rw [R4.at 0x1a (b := 0x02), R4.at 0x1b (b := 0xd4)]; omega) O4 (by omega) ?_
  have R5 := R4.put (q := 0xd402) (v := 0x50) (by omega)
  have O5 := (wr_other (mem := _) (p := 0xd402) (v := 0x50) (by omega)).trans O4
  refine bo_ldx_imm (v := 0xfc) (R5.at 0x1c) (R5.at 0x1d) O5 (by omega) ?_
  refine bo_stx_abs (p := 0xd403) (R5.at 0x1e) (by rw [R5.at 0x1f (b := 0x03), R5.at 0x20 (b := 0xd4)]; omega) O5 (by omega) ?_
  have R6 := R5.put (q := 0xd403) (v := 0xfc) (by omega)
  have O6 := (wr_other (mem := _) (p := 0xd403) (v := 0xfc) (by omega)).trans O5
  refine bo_stx_abs (p := 0xd409) (R6.at 0x21) (by rw [R6.at 0x22 (b := 0x09), R6.at 0x23 (b := 0xd4)]; omega) O6 (by omega) ?_
  have R7 := R6.put (q := 0xd409) (v := 0xfc) (by omega)
  have O7 := (wr_other (mem := _) (p := 0xd409) (v := 0xfc) (by omega)).trans O6
  refine bo_rts (R7.at 0x24) O7 (by omega) rfl (By.refl ⟨?_, rfl, rfl, rfl, rfl⟩)
  have k : ∀ b : Int, b < 0xd000 → wr (wr (wr (wr (wr (wr (wr mem 0xd405 0) 0xd016 0x26) 0xd017 0x0a) 0xd400 0x21) 0xd402 0x50) 0xd403 0xfc) 0xd409 0xfc b = mem b := by
    intro b hb
    rw [wr_other (by omega), wr_other (by omega), wr_other (by omega), wr_other (by omega), wr_other (by omega), wr_other (by omega), wr_other (by omega)]
  dsimp only
  rw [k _ (by omega), k _ (by omega)]

/-- As `shown`, with ROM. -/
def shownRom (rom : Int → Int) (s : Int) (mem : Int → Int) : Int → Int := screenOn (wr (wr (fontRom rom s 256 mem) (256 + s) 1) (255 + s) 0x39)

theorem by_title (R : CodeAt fontCode 0x116 mem) (P : Prog mem) (hs : 0xe2 ≤ s ∧ s < 256) (hv : mem 0xd40b = 0) :
    By rom ⟨a, 255, 0, s, 0x116, z, c, mem⟩ fun g => g.pc = 0x13a ∧ g.s = s ∧ g.y = 0 ∧ g.a = 0 ∧ g.mem = shownRom rom s mem := by
  refine by_font_loop hs 255 (by omega) R fun a z => ?_
  have k : ∀ b : Int, 0 ≤ b → b < 0xfd00 → b ≠ 0xd301 → b ≠ 256 + s → b ≠ 255 + s → fontRom rom s 256 mem b = mem b :=
    fun b h0 h1 h2 h3 h4 => fontRom_other 256 (by omega) h2 h3 h4 (by omega) (by omega) (by omega)
  have R1 : CodeAt fontCode 0x116 (fontRom rom s 256 mem) := R.kept fun b h1 h2 => by
    rw [show fontCode.length = 36 from rfl] at h2
    exact k b (by omega) (by omega) (by omega) (by omega) (by omega)
  refine bo_jsr_page (v := 0xfc73) (R1.at 33) (R1.at 34) (R1.at 35) (fontRom_portb 255 (by omega)) (by omega) (by omega) ?_
  have P1 : Prog (wr (wr (fontRom rom s 256 mem) (256 + s) ((0x137 + 2) / 256)) (255 + s) ((0x137 + 2) % 256)) := by
    refine Prog.put (Prog.put ?_ (by omega)) (by omega)
    intro j b e h1 h2
    have := (List.getElem?_eq_some_iff.mp e).1
    rw [show screenCode.length = 107 from rfl] at this
    rw [k _ (by omega) (by omega) (by omega) (by omega) (by omega)]
    exact P j b e h1 h2
  have hv1 : wr (wr (fontRom rom s 256 mem) (256 + s) ((0x137 + 2) / 256)) (255 + s) ((0x137 + 2) % 256) 0xd40b = 0 := by
    rw [wr_other (by omega), wr_other (by omega), k _ (by omega) (by omega) (by omega) (by omega) (by omega), hv]
  have O1 : wr (wr (fontRom rom s 256 mem) (256 + s) ((0x137 + 2) / 256)) (255 + s) ((0x137 + 2) % 256) 0xd301 = 0xfe := by
    rw [wr_other (by omega), wr_other (by omega)]
    exact fontRom_portb 255 (by omega)
  intro st e hd
  obtain ⟨st', r, ⟨e1, e2, e3, e4, e5⟩, e6⟩ := bo_screen P1 hv1 O1 st e hd
  refine ⟨st', r, ⟨?_, ?_, e3, e5, e4⟩, e6⟩
  · rw [e1, show (256 : Int) + (s - 2 + 1) % 256 = 255 + s by omega, show (256 : Int) + (s - 2 + 2) % 256 = 256 + s by omega, wr_self, wr_other (by omega), wr_self]
    decide
  · rw [e2]; omega

end Asap.Flat
