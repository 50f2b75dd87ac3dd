import Verif.Spec.Convert

/-! # Steps of short programs -/

namespace Asap.Spec.Convert
open Asap.Isa

theorem manual_trans {p : Bool} {a b c : State} {n k : Nat} {t u : Int} (h1 : Manual p a n b t) (h2 : Manual p b k c u) : ∃ l v, Manual p a l c v := by
  induction h1 with
  | none st => exact ⟨_, _, h2⟩
  | next mn k' hd hf ho _ ih =>
    obtain ⟨l, v, h⟩ := ih h2
    exact ⟨_, _, .next mn k' hd hf ho h⟩

theorem Runs.refl (st : State) : Runs st st := ⟨0, 0, .none st⟩

theorem Runs.trans {a b c : State} (h1 : Runs a b) (h2 : Runs b c) : Runs a c := by
  obtain ⟨n, t, h1⟩ := h1
  obtain ⟨k, u, h2⟩ := h2
  exact manual_trans h1 h2

theorem Runs.step {st : State} (mn : Mn) (k : Code) (hd : k ∈ codes mn) (hf : st.mem st.pc = k.opcode) (ho : Ordinary st mn k.mode false) :
    Runs st (st.after mn k.mode) := ⟨_, _, .next mn k hd hf ho (.none _)⟩

/-- What matters of a state here. -/
structure Cfg where
  a : Int
  x : Int
  y : Int
  s : Int
  pc : Int
  z : Bool
  c : Bool
  mem : Int → Int

/-- What matters of a state here. -/
def cfg (st : State) : Cfg := ⟨st.a, st.x, st.y, st.s, st.pc, st.z, st.c, st.mem⟩

/-- From all states that look like the first one, the program gets to one that looks like the second one. -/
def Goes (f g : Cfg) : Prop := ∀ st, cfg st = f → ∃ st', Runs st st' ∧ cfg st' = g

theorem Goes.refl (f : Cfg) : Goes f f := fun st h => ⟨st, Runs.refl st, h⟩

theorem Goes.trans {f g h : Cfg} (h1 : Goes f g) (h2 : Goes g h) : Goes f h := by
  intro st hst
  obtain ⟨st1, r1, e1⟩ := h1 st hst
  obtain ⟨st2, r2, e2⟩ := h2 st1 e1
  exact ⟨st2, r1.trans r2, e2⟩

/-- Memory after a store. -/
def wr (mem : Int → Int) (p v : Int) : Int → Int := fun b => if b = p then v else mem b

theorem wr_self (mem : Int → Int) (p v : Int) : wr mem p v p = v := if_pos rfl
theorem wr_other {mem : Int → Int} {p v b : Int} (h : b ≠ p) : wr mem p v b = mem b := if_neg h

/-- `Ordinary` without interrupts, pointers and branches. -/
theorem ordinary_of {st : State} {mn : Mn} {mode : Mode} (hp : 0 ≤ st.pc ∧ st.pc + mode.size ≤ 0x10000)
    (hr : usesMemory mn mode → ¬ hardwarePage (st.effective mode / 256)) (h1 : mode ≠ .rel) (h2 : mn ≠ .rts) (h3 : mode ≠ .ind) :
    Ordinary st mn mode false :=
  ⟨hp, hr, fun h => absurd h h1, fun h => absurd h h2, fun h => absurd h h3, fun _ => rfl⟩

theorem not_hardware {p : Int} (h : 0 ≤ p ∧ p < 0xd000) : ¬ hardwarePage (p / 256) := by
  unfold hardwarePage
  omega

variable {a x y s pc : Int} {z c : Bool} {mem : Int → Int}

/-- A step from a state of the given look. -/
theorem goes_step {f g : Cfg} (mn : Mn) (k : Code) (hd : k ∈ codes mn) (hf : f.mem f.pc = k.opcode)
    (h : ∀ st, cfg st = f → Ordinary st mn k.mode false ∧ cfg (st.after mn k.mode) = g) : Goes f g := by
  intro st hst
  have hm : st.mem st.pc = k.opcode := by
    have e1 : st.mem = f.mem := congrArg Cfg.mem hst
    have e2 : st.pc = f.pc := congrArg Cfg.pc hst
    rw [e1, e2]; exact hf
  exact ⟨_, Runs.step mn k hd hm (h st hst).1, (h st hst).2⟩

theorem goes_pha (h : mem pc = 0x48) (hp : 0 ≤ pc ∧ pc < 0xd000) :
    Goes ⟨a, x, y, s, pc, z, c, mem⟩ ⟨a, x, y, (s - 1) % 256, pc + 1, z, c, wr mem (256 + s) a⟩ := by
  refine goes_step .pha ⟨0x48, .imp, 3⟩ (by decide) h ?_
  intro st hst
  injection hst with e1 e2 e3 e4 e5 e6 e7 e8
  subst e1 e2 e3 e4 e5 e6 e7 e8
  exact ⟨ordinary_of ⟨hp.1, by show st.pc + 1 ≤ _; omega⟩ (fun h => by simp [usesMemory] at h) (by decide) (by decide) (by decide), rfl⟩

theorem goes_pla (h : mem pc = 0x68) (hp : 0 ≤ pc ∧ pc < 0xd000) {v : Int} (hv : mem (256 + (s + 1) % 256) = v) :
    Goes ⟨a, x, y, s, pc, z, c, mem⟩ ⟨v, x, y, (s + 1) % 256, pc + 1, decide (v = 0), c, mem⟩ := by
  refine goes_step .pla ⟨0x68, .imp, 4⟩ (by decide) h ?_
  intro st hst
  injection hst with e1 e2 e3 e4 e5 e6 e7 e8
  subst e1 e2 e3 e4 e5 e6 e7 e8 hv
  exact ⟨ordinary_of ⟨hp.1, by show st.pc + 1 ≤ _; omega⟩ (fun h => by simp [usesMemory] at h) (by decide) (by decide) (by decide), rfl⟩

theorem goes_tax (h : mem pc = 0xaa) (hp : 0 ≤ pc ∧ pc < 0xd000) :
    Goes ⟨a, x, y, s, pc, z, c, mem⟩ ⟨a, a, y, s, pc + 1, decide (a = 0), c, mem⟩ := by
  refine goes_step .tax ⟨0xaa, .imp, 2⟩ (by decide) h ?_
  intro st hst
  injection hst with e1 e2 e3 e4 e5 e6 e7 e8
  subst e1 e2 e3 e4 e5 e6 e7 e8
  exact ⟨ordinary_of ⟨hp.1, by show st.pc + 1 ≤ _; omega⟩ (fun h => by simp [usesMemory] at h) (by decide) (by decide) (by decide), rfl⟩

theorem goes_tay (h : mem pc = 0xa8) (hp : 0 ≤ pc ∧ pc < 0xd000) :
    Goes ⟨a, x, y, s, pc, z, c, mem⟩ ⟨a, x, a, s, pc + 1, decide (a = 0), c, mem⟩ := by
  refine goes_step .tay ⟨0xa8, .imp, 2⟩ (by decide) h ?_
  intro st hst
  injection hst with e1 e2 e3 e4 e5 e6 e7 e8
  subst e1 e2 e3 e4 e5 e6 e7 e8
  exact ⟨ordinary_of ⟨hp.1, by show st.pc + 1 ≤ _; omega⟩ (fun h => by simp [usesMemory] at h) (by decide) (by decide) (by decide), rfl⟩

theorem imm_ram {st : State} {mn : Mn} (hp : 0 ≤ st.pc ∧ st.pc < 0xcf00) : usesMemory mn .imm → ¬ hardwarePage (st.effective .imm / 256) :=
  fun _ => not_hardware (by show 0 ≤ st.pc + 1 ∧ st.pc + 1 < _; omega)

theorem goes_lda {v : Int} (h : mem pc = 0xa9) (hv : mem (pc + 1) = v) (hp : 0 ≤ pc ∧ pc < 0xcf00) :
    Goes ⟨a, x, y, s, pc, z, c, mem⟩ ⟨v, x, y, s, pc + 2, decide (v = 0), c, mem⟩ := by
  refine goes_step .lda ⟨0xa9, .imm, 2⟩ (by decide) h ?_
  intro st hst
  injection hst with e1 e2 e3 e4 e5 e6 e7 e8
  subst e1 e2 e3 e4 e5 e6 e7 e8 hv
  exact ⟨ordinary_of ⟨hp.1, by show st.pc + 2 ≤ _; omega⟩ (imm_ram hp) (by decide) (by decide) (by decide), rfl⟩

theorem goes_ldx {v : Int} (h : mem pc = 0xa2) (hv : mem (pc + 1) = v) (hp : 0 ≤ pc ∧ pc < 0xcf00) :
    Goes ⟨a, x, y, s, pc, z, c, mem⟩ ⟨a, v, y, s, pc + 2, decide (v = 0), c, mem⟩ := by
  refine goes_step .ldx ⟨0xa2, .imm, 2⟩ (by decide) h ?_
  intro st hst
  injection hst with e1 e2 e3 e4 e5 e6 e7 e8
  subst e1 e2 e3 e4 e5 e6 e7 e8 hv
  exact ⟨ordinary_of ⟨hp.1, by show st.pc + 2 ≤ _; omega⟩ (imm_ram hp) (by decide) (by decide) (by decide), rfl⟩

theorem goes_ldy {v : Int} (h : mem pc = 0xa0) (hv : mem (pc + 1) = v) (hp : 0 ≤ pc ∧ pc < 0xcf00) :
    Goes ⟨a, x, y, s, pc, z, c, mem⟩ ⟨a, x, v, s, pc + 2, decide (v = 0), c, mem⟩ := by
  refine goes_step .ldy ⟨0xa0, .imm, 2⟩ (by decide) h ?_
  intro st hst
  injection hst with e1 e2 e3 e4 e5 e6 e7 e8
  subst e1 e2 e3 e4 e5 e6 e7 e8 hv
  exact ⟨ordinary_of ⟨hp.1, by show st.pc + 2 ≤ _; omega⟩ (imm_ram hp) (by decide) (by decide) (by decide), rfl⟩

theorem goes_jmp {v : Int} (h : mem pc = 0x4c) (hv : mem (pc + 1) + 256 * mem (pc + 2) = v) (hp : 0 ≤ pc ∧ pc < 0xcf00) :
    Goes ⟨a, x, y, s, pc, z, c, mem⟩ ⟨a, x, y, s, v, z, c, mem⟩ := by
  refine goes_step .jmp ⟨0x4c, .abs, 3⟩ (by decide) h ?_
  intro st hst
  injection hst with e1 e2 e3 e4 e5 e6 e7 e8
  subst e1 e2 e3 e4 e5 e6 e7 e8 hv
  exact ⟨ordinary_of ⟨hp.1, by show st.pc + 3 ≤ _; omega⟩ (fun h => by simp [usesMemory] at h) (by decide) (by decide) (by decide), rfl⟩

/-- The memory after a call from `pc`. -/
def called (mem : Int → Int) (s pc : Int) : Int → Int :=
  wr (wr mem (256 + s) ((pc + 2) / 256)) (256 + (s - 1) % 256) ((pc + 2) % 256)

theorem goes_jsr {v : Int} (h : mem pc = 0x20) (hl : mem (pc + 1) = v % 256) (hh : mem (pc + 2) = v / 256) (hp : 0x200 ≤ pc ∧ pc < 0xcf00)
    (hs : 0 ≤ s ∧ s < 256) :
    Goes ⟨a, x, y, s, pc, z, c, mem⟩ ⟨a, x, y, (s - 1 - 1) % 256, v, z, c, called mem s pc⟩ := by
  refine goes_step .jsr ⟨0x20, .abs, 6⟩ (by decide) h ?_
  intro st hst
  injection hst with e1 e2 e3 e4 e5 e6 e7 e8
  subst e1 e2 e3 e4 e5 e6 e7 e8
  refine ⟨ordinary_of ⟨by omega, by show st.pc + 3 ≤ _; omega⟩ (fun h => by simp [usesMemory] at h) (by decide) (by decide) (by decide), ?_⟩
  have e : called st.mem st.s st.pc (st.pc + 2) = v / 256 := by
    unfold called
    rw [wr_other (by omega), wr_other (by omega), hh]
  have e2 : ({ st with pc := st.pc + 3 } : State).jsr (st.effective .abs) =
      { st with mem := called st.mem st.s st.pc, s := ((st.s - 1) % 256 - 1) % 256, pc := (st.mem (st.pc + 1) + 256 * st.mem (st.pc + 2)) % 256 + 256 * called st.mem st.s st.pc (st.pc + 2) } := by
    unfold State.jsr
    dsimp only
    rw [show st.pc + 3 - 1 = st.pc + 2 by omega]
    rfl
  show cfg (({ st with pc := st.pc + 3 } : State).jsr (st.effective .abs)) = _
  rw [e2, e, hl, hh]
  unfold cfg
  dsimp only
  rw [show (v % 256 + 256 * (v / 256)) % 256 + 256 * (v / 256) = v by omega, show ((st.s - 1) % 256 - 1) % 256 = (st.s - 1 - 1) % 256 by omega]

theorem goes_ldyX {p v : Int} (h : mem pc = 0xbc) (hv : mem (pc + 1) + 256 * mem (pc + 2) = p) (hp : 0 ≤ pc ∧ pc < 0xcf00) (hx : 0 ≤ p + x ∧ p + x < 0xd000)
    (hm : mem (p + x) = v) :
    Goes ⟨a, x, y, s, pc, z, c, mem⟩ ⟨a, x, v, s, pc + 3, decide (v = 0), c, mem⟩ := by
  refine goes_step .ldy ⟨0xbc, .absx, 4⟩ (by decide) h ?_
  intro st hst
  injection hst with e1 e2 e3 e4 e5 e6 e7 e8
  subst e1 e2 e3 e4 e5 e6 e7 e8 hv
  have e : st.effective .absx = st.mem (st.pc + 1) + 256 * st.mem (st.pc + 2) + st.x := by
    refine Int.emod_eq_of_lt hx.1 ?_
    have h2 := hx.2
    exact Int.lt_trans h2 (by decide)
  refine ⟨ordinary_of ⟨hp.1, by show st.pc + 3 ≤ _; omega⟩ (fun _ => by rw [e]; exact not_hardware hx) (by decide) (by decide) (by decide), ?_⟩
  have e' : ∀ mn, st.after mn .absx = ({ st with pc := st.pc + 3 } : State).exec mn .absx (st.effective .absx) (st.mem (st.effective .absx)) := fun _ => rfl
  show cfg (st.after _ .absx) = _
  rw [e', e, hm]
  rfl

theorem goes_ldxY {p v : Int} (h : mem pc = 0xbe) (hv : mem (pc + 1) + 256 * mem (pc + 2) = p) (hp : 0 ≤ pc ∧ pc < 0xcf00) (hx : 0 ≤ p + y ∧ p + y < 0xd000)
    (hm : mem (p + y) = v) :
    Goes ⟨a, x, y, s, pc, z, c, mem⟩ ⟨a, v, y, s, pc + 3, decide (v = 0), c, mem⟩ := by
  refine goes_step .ldx ⟨0xbe, .absy, 4⟩ (by decide) h ?_
  intro st hst
  injection hst with e1 e2 e3 e4 e5 e6 e7 e8
  subst e1 e2 e3 e4 e5 e6 e7 e8 hv
  have e : st.effective .absy = st.mem (st.pc + 1) + 256 * st.mem (st.pc + 2) + st.y := by
    refine Int.emod_eq_of_lt hx.1 ?_
    have h2 := hx.2
    exact Int.lt_trans h2 (by decide)
  refine ⟨ordinary_of ⟨hp.1, by show st.pc + 3 ≤ _; omega⟩ (fun _ => by rw [e]; exact not_hardware hx) (by decide) (by decide) (by decide), ?_⟩
  have e' : ∀ mn, st.after mn .absy = ({ st with pc := st.pc + 3 } : State).exec mn .absy (st.effective .absy) (st.mem (st.effective .absy)) := fun _ => rfl
  show cfg (st.after _ .absy) = _
  rw [e', e, hm]
  rfl

theorem goes_ldaY {p v : Int} (h : mem pc = 0xb9) (hv : mem (pc + 1) + 256 * mem (pc + 2) = p) (hp : 0 ≤ pc ∧ pc < 0xcf00) (hx : 0 ≤ p + y ∧ p + y < 0xd000)
    (hm : mem (p + y) = v) :
    Goes ⟨a, x, y, s, pc, z, c, mem⟩ ⟨v, x, y, s, pc + 3, decide (v = 0), c, mem⟩ := by
  refine goes_step .lda ⟨0xb9, .absy, 4⟩ (by decide) h ?_
  intro st hst
  injection hst with e1 e2 e3 e4 e5 e6 e7 e8
  subst e1 e2 e3 e4 e5 e6 e7 e8 hv
  have e : st.effective .absy = st.mem (st.pc + 1) + 256 * st.mem (st.pc + 2) + st.y := by
    refine Int.emod_eq_of_lt hx.1 ?_
    have h2 := hx.2
    exact Int.lt_trans h2 (by decide)
  refine ⟨ordinary_of ⟨hp.1, by show st.pc + 3 ≤ _; omega⟩ (fun _ => by rw [e]; exact not_hardware hx) (by decide) (by decide) (by decide), ?_⟩
  have e' : ∀ mn, st.after mn .absy = ({ st with pc := st.pc + 3 } : State).exec mn .absy (st.effective .absy) (st.mem (st.effective .absy)) := fun _ => rfl
  show cfg (st.after _ .absy) = _
  rw [e', e, hm]
  rfl

/-! ## Page zero -/

theorem zp_ram {st : State} {mn : Mn} {v : Int} (hv : st.mem (st.pc + 1) = v) (h : 0 ≤ v ∧ v < 256) :
    usesMemory mn .zp → ¬ hardwarePage (st.effective .zp / 256) :=
  fun _ => not_hardware (by show 0 ≤ st.mem (st.pc + 1) ∧ st.mem (st.pc + 1) < _; omega)

theorem goes_ldaZ {v : Int} (h : mem pc = 0xa5) (h0 : mem (pc + 1) = 0) (hv : mem 0 = v) (hp : 0 ≤ pc ∧ pc < 0xcf00) :
    Goes ⟨a, x, y, s, pc, z, c, mem⟩ ⟨v, x, y, s, pc + 2, decide (v = 0), c, mem⟩ := by
  refine goes_step .lda ⟨0xa5, .zp, 3⟩ (by decide) h ?_
  intro st hst
  injection hst with e1 e2 e3 e4 e5 e6 e7 e8
  subst e1 e2 e3 e4 e5 e6 e7 e8
  refine ⟨ordinary_of ⟨hp.1, by show st.pc + 2 ≤ _; omega⟩ (zp_ram h0 (by decide)) (by decide) (by decide) (by decide), ?_⟩
  have e' : ∀ mn, st.after mn .zp = ({ st with pc := st.pc + 2 } : State).exec mn .zp (st.mem (st.pc + 1)) (st.mem (st.mem (st.pc + 1))) := fun _ => rfl
  show cfg (st.after _ .zp) = _
  rw [e', h0, hv]
  rfl

theorem goes_sty (h : mem pc = 0x84) (h0 : mem (pc + 1) = 0) (hp : 0 ≤ pc ∧ pc < 0xcf00) :
    Goes ⟨a, x, y, s, pc, z, c, mem⟩ ⟨a, x, y, s, pc + 2, z, c, wr mem 0 y⟩ := by
  refine goes_step .sty ⟨0x84, .zp, 3⟩ (by decide) h ?_
  intro st hst
  injection hst with e1 e2 e3 e4 e5 e6 e7 e8
  subst e1 e2 e3 e4 e5 e6 e7 e8
  refine ⟨ordinary_of ⟨hp.1, by show st.pc + 2 ≤ _; omega⟩ (zp_ram h0 (by decide)) (by decide) (by decide) (by decide), ?_⟩
  have e' : ∀ mn, st.after mn .zp = ({ st with pc := st.pc + 2 } : State).exec mn .zp (st.mem (st.pc + 1)) (st.mem (st.mem (st.pc + 1))) := fun _ => rfl
  show cfg (st.after _ .zp) = _
  rw [e', h0]
  rfl

theorem goes_inc {v : Int} (h : mem pc = 0xe6) (h0 : mem (pc + 1) = 0) (hv : mem 0 = v) (hp : 0 ≤ pc ∧ pc < 0xcf00) :
    Goes ⟨a, x, y, s, pc, z, c, mem⟩ ⟨a, x, y, s, pc + 2, decide ((v + 1) % 256 = 0), c, wr mem 0 ((v + 1) % 256)⟩ := by
  refine goes_step .inc ⟨0xe6, .zp, 5⟩ (by decide) h ?_
  intro st hst
  injection hst with e1 e2 e3 e4 e5 e6 e7 e8
  subst e1 e2 e3 e4 e5 e6 e7 e8
  refine ⟨ordinary_of ⟨hp.1, by show st.pc + 2 ≤ _; omega⟩ (zp_ram h0 (by decide)) (by decide) (by decide) (by decide), ?_⟩
  have e' : ∀ mn, st.after mn .zp = ({ st with pc := st.pc + 2 } : State).exec mn .zp (st.mem (st.pc + 1)) (st.mem (st.mem (st.pc + 1))) := fun _ => rfl
  show cfg (st.after _ .zp) = _
  rw [e', h0, hv]
  rfl

theorem goes_dec {v : Int} (h : mem pc = 0xc6) (h0 : mem (pc + 1) = 0) (hv : mem 0 = v) (hp : 0 ≤ pc ∧ pc < 0xcf00) :
    Goes ⟨a, x, y, s, pc, z, c, mem⟩ ⟨a, x, y, s, pc + 2, decide ((v - 1) % 256 = 0), c, wr mem 0 ((v - 1) % 256)⟩ := by
  refine goes_step .dec ⟨0xc6, .zp, 5⟩ (by decide) h ?_
  intro st hst
  injection hst with e1 e2 e3 e4 e5 e6 e7 e8
  subst e1 e2 e3 e4 e5 e6 e7 e8
  refine ⟨ordinary_of ⟨hp.1, by show st.pc + 2 ≤ _; omega⟩ (zp_ram h0 (by decide)) (by decide) (by decide) (by decide), ?_⟩
  have e' : ∀ mn, st.after mn .zp = ({ st with pc := st.pc + 2 } : State).exec mn .zp (st.mem (st.pc + 1)) (st.mem (st.mem (st.pc + 1))) := fun _ => rfl
  show cfg (st.after _ .zp) = _
  rw [e', h0, hv]
  rfl

theorem goes_asl {v : Int} (h : mem pc = 0x06) (h0 : mem (pc + 1) = 0) (hv : mem 0 = v) (hp : 0 ≤ pc ∧ pc < 0xcf00) :
    Goes ⟨a, x, y, s, pc, z, c, mem⟩ ⟨a, x, y, s, pc + 2, decide (2 * v % 256 = 0), decide (128 ≤ v), wr mem 0 (2 * v % 256)⟩ := by
  refine goes_step .asl ⟨0x06, .zp, 5⟩ (by decide) h ?_
  intro st hst
  injection hst with e1 e2 e3 e4 e5 e6 e7 e8
  subst e1 e2 e3 e4 e5 e6 e7 e8
  refine ⟨ordinary_of ⟨hp.1, by show st.pc + 2 ≤ _; omega⟩ (zp_ram h0 (by decide)) (by decide) (by decide) (by decide), ?_⟩
  have e' : ∀ mn, st.after mn .zp = ({ st with pc := st.pc + 2 } : State).exec mn .zp (st.mem (st.pc + 1)) (st.mem (st.mem (st.pc + 1))) := fun _ => rfl
  show cfg (st.after _ .zp) = _
  rw [e', h0, hv]
  rfl

theorem goes_lsr (h : mem pc = 0x4a) (hp : 0 ≤ pc ∧ pc < 0xd000) :
    Goes ⟨a, x, y, s, pc, z, c, mem⟩ ⟨a / 2, x, y, s, pc + 1, decide (a / 2 = 0), decide (a % 2 = 1), mem⟩ := by
  refine goes_step .lsr ⟨0x4a, .acc, 2⟩ (by decide) h ?_
  intro st hst
  injection hst with e1 e2 e3 e4 e5 e6 e7 e8
  subst e1 e2 e3 e4 e5 e6 e7 e8
  exact ⟨ordinary_of ⟨hp.1, by show st.pc + 1 ≤ _; omega⟩ (fun h => by simp [usesMemory] at h) (by decide) (by decide) (by decide), rfl⟩

/-! ## Branches, forward -/

/-- A branch over `d` bytes. -/
theorem goes_branch {f : Cfg} {d : Int} {b : Bool} (mn : Mn) (o : Int) (hd : ⟨o, .rel, 2⟩ ∈ codes mn) (h : f.mem f.pc = o) (hv : f.mem (f.pc + 1) = d)
    (hp : 0 ≤ f.pc ∧ f.pc < 0xcf00) (h127 : 0 ≤ d ∧ d < 128) (hr : mn ≠ .rts) (hq : ¬ (mn = .cli ∨ mn = .plp ∨ mn = .rti))
    (hb : ∀ st, cfg st = f → st.taken mn = b) :
    Goes f { f with pc := if b then f.pc + 2 + d else f.pc + 2 } := by
  refine goes_step mn ⟨o, .rel, 2⟩ hd h ?_
  intro st hst
  have hk := hb st hst
  subst hst
  have e : State.signed st.b1 = d := by
    unfold State.signed State.b1
    rw [show st.mem (st.pc + 1) = d from hv, if_pos h127.2]
  have e2 : (cfg st).pc = st.pc := rfl
  rw [e2] at hp
  refine ⟨⟨⟨hp.1, by show st.pc + 2 ≤ _; omega⟩, fun h => absurd rfl h.2.2.1, fun _ _ => by rw [e]; omega, fun h => absurd h hr, fun h => (by cases h),
    fun h => absurd h hq⟩, ?_⟩
  show cfg { st with pc := if st.taken mn then (st.pc + 2 + State.signed st.b1) % 65536 else st.pc + 2 } = _
  rw [e, Int.emod_eq_of_lt (by omega) (by omega), hk]
  rfl

theorem goes_bne {d : Int} (h : mem pc = 0xd0) (hv : mem (pc + 1) = d) (hp : 0 ≤ pc ∧ pc < 0xcf00) (h127 : 0 ≤ d ∧ d < 128) :
    Goes ⟨a, x, y, s, pc, z, c, mem⟩ ⟨a, x, y, s, if z then pc + 2 else pc + 2 + d, z, c, mem⟩ := by
  have := goes_branch (f := ⟨a, x, y, s, pc, z, c, mem⟩) (b := !z) .bne 0xd0 (by decide) h hv hp h127 (by decide) (by decide)
    (fun st hst => by injection hst with _ _ _ _ _ e6; rw [← e6]; rfl)
  cases z <;> exact this

theorem goes_bcc {d : Int} (h : mem pc = 0x90) (hv : mem (pc + 1) = d) (hp : 0 ≤ pc ∧ pc < 0xcf00) (h127 : 0 ≤ d ∧ d < 128) :
    Goes ⟨a, x, y, s, pc, z, c, mem⟩ ⟨a, x, y, s, if c then pc + 2 else pc + 2 + d, z, c, mem⟩ := by
  have := goes_branch (f := ⟨a, x, y, s, pc, z, c, mem⟩) (b := !c) .bcc 0x90 (by decide) h hv hp h127 (by decide) (by decide)
    (fun st hst => by injection hst with _ _ _ _ _ e6 e7; rw [← e7]; rfl)
  cases c <;> exact this

theorem goes_bcs {d : Int} (h : mem pc = 0xb0) (hv : mem (pc + 1) = d) (hp : 0 ≤ pc ∧ pc < 0xcf00) (h127 : 0 ≤ d ∧ d < 128) :
    Goes ⟨a, x, y, s, pc, z, c, mem⟩ ⟨a, x, y, s, if c then pc + 2 + d else pc + 2, z, c, mem⟩ :=
  goes_branch (f := ⟨a, x, y, s, pc, z, c, mem⟩) (b := c) .bcs 0xb0 (by decide) h hv hp h127 (by decide) (by decide)
    (fun st hst => by injection hst)

end Asap.Spec.Convert
