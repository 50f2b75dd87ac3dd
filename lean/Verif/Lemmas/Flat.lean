import Verif.Spec.Flat
import Verif.Lemmas.ConvertCode

/-! # Programs on a 6502 with nothing but memory -/

namespace Asap.Flat
open Asap.Isa Asap.Spec.Flat
open Asap.Spec.Convert (cfg wr wr_self wr_other called)

theorem runs_trans {a b c : State} (h1 : Runs a b) (h2 : Runs b c) : Runs a c := by
  induction h1 with
  | refl => exact h2
  | step mn k g1 g2 g3 g4 _ ih => exact .step mn k g1 g2 g3 g4 (ih h2)

/-- From all states that look like `f`, in binary mode, the program gets to one whose look satisfies `P`. -/
def To (f : Spec.Convert.Cfg) (P : Spec.Convert.Cfg → Prop) : Prop := ∀ st, cfg st = f → st.d = false → ∃ st', Runs st st' ∧ P (cfg st') ∧ st'.d = false

theorem To.refl {f : Spec.Convert.Cfg} {P : Spec.Convert.Cfg → Prop} (h : P f) : To f P := fun st e hd => ⟨st, .refl st, e ▸ h, hd⟩

theorem To.trans {f : Spec.Convert.Cfg} {P Q : Spec.Convert.Cfg → Prop} (h1 : To f P) (h2 : ∀ g, P g → To g Q) : To f Q := by
  intro st e hd
  obtain ⟨st1, r1, p1, d1⟩ := h1 st e hd
  obtain ⟨st2, r2, p2, d2⟩ := h2 _ p1 st1 rfl d1
  exact ⟨st2, runs_trans r1 r2, p2, d2⟩

theorem To.mono {f : Spec.Convert.Cfg} {P Q : Spec.Convert.Cfg → Prop} (h1 : To f P) (h2 : ∀ g, P g → Q g) : To f Q := h1.trans fun _ hg => To.refl (h2 _ hg)

/-- A step from a state of the given look. -/
theorem to_step {f g : Spec.Convert.Cfg} {Q : Spec.Convert.Cfg → Prop} (mn : Mn) (k : Code) (hd : k ∈ codes mn) (hf : f.mem f.pc = k.opcode) (h0 : 0 ≤ f.pc) (h1 : f.pc + k.mode.size ≤ 65536)
    (h : ∀ st, cfg st = f → st.d = false → cfg (st.after mn k.mode) = g ∧ (st.after mn k.mode).d = false) (hq : To g Q) : To f Q := by
  intro st e hdec
  have e1 : st.mem = f.mem := congrArg Spec.Convert.Cfg.mem e
  have e2 : st.pc = f.pc := congrArg Spec.Convert.Cfg.pc e
  obtain ⟨g1, g2⟩ := h st e hdec
  obtain ⟨st', r, p, d⟩ := hq _ g1 g2
  exact ⟨st', .step mn k hd (by rw [e1, e2]; exact hf) (by rw [e2]; exact h0) (by rw [e2]; exact h1) r, p, d⟩

variable {a x y s pc : Int} {z c : Bool} {mem : Int → Int} {Q : Spec.Convert.Cfg → Prop}

theorem to_tax (h : mem pc = 0xaa) (hp : 0 ≤ pc ∧ pc < 0xff00) (hq : To ⟨a, a, y, s, pc + 1, decide (a = 0), c, mem⟩ Q) : To ⟨a, x, y, s, pc, z, c, mem⟩ Q := by
  refine to_step .tax ⟨0xaa, .imp, 2⟩ (by decide) h hp.1 (by show pc + 1 ≤ _; omega) ?_ hq
  intro st hst hd
  injection hst with e1 e2 e3 e4 e5 e6 e7 e8
  subst e1 e2 e3 e4 e5 e6 e7 e8
  exact ⟨rfl, hd⟩

theorem to_tay (h : mem pc = 0xa8) (hp : 0 ≤ pc ∧ pc < 0xff00) (hq : To ⟨a, x, a, s, pc + 1, decide (a = 0), c, mem⟩ Q) : To ⟨a, x, y, s, pc, z, c, mem⟩ Q := by
  refine to_step .tay ⟨0xa8, .imp, 2⟩ (by decide) h hp.1 (by show pc + 1 ≤ _; omega) ?_ hq
  intro st hst hd
  injection hst with e1 e2 e3 e4 e5 e6 e7 e8
  subst e1 e2 e3 e4 e5 e6 e7 e8
  exact ⟨rfl, hd⟩

theorem to_txa (h : mem pc = 0x8a) (hp : 0 ≤ pc ∧ pc < 0xff00) (hq : To ⟨x, x, y, s, pc + 1, decide (x = 0), c, mem⟩ Q) : To ⟨a, x, y, s, pc, z, c, mem⟩ Q := by
  refine to_step .txa ⟨0x8a, .imp, 2⟩ (by decide) h hp.1 (by show pc + 1 ≤ _; omega) ?_ hq
  intro st hst hd
  injection hst with e1 e2 e3 e4 e5 e6 e7 e8
  subst e1 e2 e3 e4 e5 e6 e7 e8
  exact ⟨rfl, hd⟩

theorem to_tya (h : mem pc = 0x98) (hp : 0 ≤ pc ∧ pc < 0xff00) (hq : To ⟨y, x, y, s, pc + 1, decide (y = 0), c, mem⟩ Q) : To ⟨a, x, y, s, pc, z, c, mem⟩ Q := by
  refine to_step .tya ⟨0x98, .imp, 2⟩ (by decide) h hp.1 (by show pc + 1 ≤ _; omega) ?_ hq
  intro st hst hd
  injection hst with e1 e2 e3 e4 e5 e6 e7 e8
  subst e1 e2 e3 e4 e5 e6 e7 e8
  exact ⟨rfl, hd⟩

theorem to_sec (h : mem pc = 0x38) (hp : 0 ≤ pc ∧ pc < 0xff00) (hq : To ⟨a, x, y, s, pc + 1, z, true, mem⟩ Q) : To ⟨a, x, y, s, pc, z, c, mem⟩ Q := by
  refine to_step .sec ⟨0x38, .imp, 2⟩ (by decide) h hp.1 (by show pc + 1 ≤ _; omega) ?_ hq
  intro st hst hd
  injection hst with e1 e2 e3 e4 e5 e6 e7 e8
  subst e1 e2 e3 e4 e5 e6 e7 e8
  exact ⟨rfl, hd⟩

theorem to_dex (h : mem pc = 0xca) (hp : 0 ≤ pc ∧ pc < 0xff00) (hq : To ⟨a, (x - 1) % 256, y, s, pc + 1, decide ((x - 1) % 256 = 0), c, mem⟩ Q) :
    To ⟨a, x, y, s, pc, z, c, mem⟩ Q := by
  refine to_step .dex ⟨0xca, .imp, 2⟩ (by decide) h hp.1 (by show pc + 1 ≤ _; omega) ?_ hq
  intro st hst hd
  injection hst with e1 e2 e3 e4 e5 e6 e7 e8
  subst e1 e2 e3 e4 e5 e6 e7 e8
  exact ⟨rfl, hd⟩

theorem to_iny (h : mem pc = 0xc8) (hp : 0 ≤ pc ∧ pc < 0xff00) (hq : To ⟨a, x, (y + 1) % 256, s, pc + 1, decide ((y + 1) % 256 = 0), c, mem⟩ Q) :
    To ⟨a, x, y, s, pc, z, c, mem⟩ Q := by
  refine to_step .iny ⟨0xc8, .imp, 2⟩ (by decide) h hp.1 (by show pc + 1 ≤ _; omega) ?_ hq
  intro st hst hd
  injection hst with e1 e2 e3 e4 e5 e6 e7 e8
  subst e1 e2 e3 e4 e5 e6 e7 e8
  exact ⟨rfl, hd⟩

theorem to_lsr (h : mem pc = 0x4a) (hp : 0 ≤ pc ∧ pc < 0xff00) (hq : To ⟨a / 2, x, y, s, pc + 1, decide (a / 2 = 0), decide (a % 2 = 1), mem⟩ Q) :
    To ⟨a, x, y, s, pc, z, c, mem⟩ Q := by
  refine to_step .lsr ⟨0x4a, .acc, 2⟩ (by decide) h hp.1 (by show pc + 1 ≤ _; omega) ?_ hq
  intro st hst hd
  injection hst with e1 e2 e3 e4 e5 e6 e7 e8
  subst e1 e2 e3 e4 e5 e6 e7 e8
  exact ⟨rfl, hd⟩

theorem to_rol {v : Int} (h : mem pc = 0x2a) (hp : 0 ≤ pc ∧ pc < 0xff00) (hv : (2 * a + State.bit c) % 256 = v)
    (hq : To ⟨v, x, y, s, pc + 1, decide (v = 0), decide (128 ≤ a), mem⟩ Q) :
    To ⟨a, x, y, s, pc, z, c, mem⟩ Q := by
  refine to_step .rol ⟨0x2a, .acc, 2⟩ (by decide) h hp.1 (by show pc + 1 ≤ _; omega) ?_ hq
  intro st hst hd
  injection hst with e1 e2 e3 e4 e5 e6 e7 e8
  subst e1 e2 e3 e4 e5 e6 e7 e8 hv
  exact ⟨rfl, hd⟩

theorem to_lda_imm {v : Int} (h : mem pc = 0xa9) (hv : mem (pc + 1) = v) (hp : 0 ≤ pc ∧ pc < 0xff00) (hq : To ⟨v, x, y, s, pc + 2, decide (v = 0), c, mem⟩ Q) :
    To ⟨a, x, y, s, pc, z, c, mem⟩ Q := by
  refine to_step .lda ⟨0xa9, .imm, 2⟩ (by decide) h hp.1 (by show pc + 2 ≤ _; omega) ?_ hq
  intro st hst hd
  injection hst with e1 e2 e3 e4 e5 e6 e7 e8
  subst e1 e2 e3 e4 e5 e6 e7 e8 hv
  exact ⟨rfl, hd⟩

theorem to_ldx_imm {v : Int} (h : mem pc = 0xa2) (hv : mem (pc + 1) = v) (hp : 0 ≤ pc ∧ pc < 0xff00) (hq : To ⟨a, v, y, s, pc + 2, decide (v = 0), c, mem⟩ Q) :
    To ⟨a, x, y, s, pc, z, c, mem⟩ Q := by
  refine to_step .ldx ⟨0xa2, .imm, 2⟩ (by decide) h hp.1 (by show pc + 2 ≤ _; omega) ?_ hq
  intro st hst hd
  injection hst with e1 e2 e3 e4 e5 e6 e7 e8
  subst e1 e2 e3 e4 e5 e6 e7 e8 hv
  exact ⟨rfl, hd⟩

theorem to_jmp {v : Int} (h : mem pc = 0x4c) (hv : mem (pc + 1) + 256 * mem (pc + 2) = v) (hp : 0 ≤ pc ∧ pc < 0xff00) (hq : To ⟨a, x, y, s, v, z, c, mem⟩ Q) :
    To ⟨a, x, y, s, pc, z, c, mem⟩ Q := by
  refine to_step .jmp ⟨0x4c, .abs, 3⟩ (by decide) h hp.1 (by show pc + 3 ≤ _; omega) ?_ hq
  intro st hst hd
  injection hst with e1 e2 e3 e4 e5 e6 e7 e8
  subst e1 e2 e3 e4 e5 e6 e7 e8 hv
  exact ⟨rfl, hd⟩

theorem to_jsr {v : Int} (h : mem pc = 0x20) (hl : mem (pc + 1) = v % 256) (hh : mem (pc + 2) = v / 256) (hp : 0x200 ≤ pc ∧ pc < 0xff00)
    (hs : 0 ≤ s ∧ s < 256) (hq : To ⟨a, x, y, (s - 1 - 1) % 256, v, z, c, called mem s pc⟩ Q) :
    To ⟨a, x, y, s, pc, z, c, mem⟩ Q := by
  refine to_step .jsr ⟨0x20, .abs, 6⟩ (by decide) h (by show 0 ≤ pc; omega) (by show pc + 3 ≤ _; omega) ?_ hq
  intro st hst hd
  injection hst with e1 e2 e3 e4 e5 e6 e7 e8
  subst e1 e2 e3 e4 e5 e6 e7 e8
  refine ⟨?_, hd⟩
  have e : called st.mem st.s st.pc (st.pc + 2) = v / 256 := by
    unfold called
    rw [wr_other (by omega), wr_other (by omega), hh]
  have e2 : ({ st with pc := st.pc + 3 } : State).jsr (st.effective .abs) =
      { st with mem := called st.mem st.s st.pc, s := ((st.s - 1) % 256 - 1) % 256, pc := (st.mem (st.pc + 1) + 256 * st.mem (st.pc + 2)) % 256 + 256 * called st.mem st.s st.pc (st.pc + 2) } := by
    unfold State.jsr
    dsimp only
    rw [show st.pc + 3 - 1 = st.pc + 2 by omega]
    rfl
  show cfg (({ st with pc := st.pc + 3 } : State).jsr (st.effective .abs)) = _
  rw [e2, e, hl, hh]
  unfold cfg
  dsimp only
  rw [show (v % 256 + 256 * (v / 256)) % 256 + 256 * (v / 256) = v by omega, show ((st.s - 1) % 256 - 1) % 256 = (st.s - 1 - 1) % 256 by omega]

theorem to_rts {v : Int} (h : mem pc = 0x60) (hp : 0 ≤ pc ∧ pc < 0xff00) (hv : (mem (256 + (s + 1) % 256) + 256 * mem (256 + (s + 2) % 256) + 1) % 65536 = v)
    (hq : To ⟨a, x, y, (s + 2) % 256, v, z, c, mem⟩ Q) :
    To ⟨a, x, y, s, pc, z, c, mem⟩ Q := by
  refine to_step .rts ⟨0x60, .imp, 6⟩ (by decide) h hp.1 (by show pc + 1 ≤ _; omega) ?_ hq
  intro st hst hd
  injection hst with e1 e2 e3 e4 e5 e6 e7 e8
  subst e1 e2 e3 e4 e5 e6 e7 e8 hv
  exact ⟨rfl, hd⟩

/-! ## Memory -/

theorem to_lda_abs {p v : Int} (h : mem pc = 0xad) (hv : mem (pc + 1) + 256 * mem (pc + 2) = p) (hm : mem p = v) (hp : 0 ≤ pc ∧ pc < 0xff00)
    (hq : To ⟨v, x, y, s, pc + 3, decide (v = 0), c, mem⟩ Q) : To ⟨a, x, y, s, pc, z, c, mem⟩ Q := by
  refine to_step .lda ⟨0xad, .abs, 4⟩ (by decide) h hp.1 (by show pc + 3 ≤ _; omega) ?_ hq
  intro st hst hd
  injection hst with e1 e2 e3 e4 e5 e6 e7 e8
  subst e1 e2 e3 e4 e5 e6 e7 e8 hv hm
  exact ⟨rfl, hd⟩

theorem to_inc_abs {p v : Int} (h : mem pc = 0xee) (hv : mem (pc + 1) + 256 * mem (pc + 2) = p) (hm : (mem p + 1) % 256 = v) (hp : 0 ≤ pc ∧ pc < 0xff00)
    (hq : To ⟨a, x, y, s, pc + 3, decide (v = 0), c, wr mem p v⟩ Q) : To ⟨a, x, y, s, pc, z, c, mem⟩ Q := by
  refine to_step .inc ⟨0xee, .abs, 6⟩ (by decide) h hp.1 (by show pc + 3 ≤ _; omega) ?_ hq
  intro st hst hd
  injection hst with e1 e2 e3 e4 e5 e6 e7 e8
  subst e1 e2 e3 e4 e5 e6 e7 e8 hv hm
  exact ⟨rfl, hd⟩

theorem to_sta_abs {p : Int} (h : mem pc = 0x8d) (hv : mem (pc + 1) + 256 * mem (pc + 2) = p) (hp : 0 ≤ pc ∧ pc < 0xff00)
    (hq : To ⟨a, x, y, s, pc + 3, z, c, wr mem p a⟩ Q) : To ⟨a, x, y, s, pc, z, c, mem⟩ Q := by
  refine to_step .sta ⟨0x8d, .abs, 4⟩ (by decide) h hp.1 (by show pc + 3 ≤ _; omega) ?_ hq
  intro st hst hd
  injection hst with e1 e2 e3 e4 e5 e6 e7 e8
  subst e1 e2 e3 e4 e5 e6 e7 e8 hv
  exact ⟨rfl, hd⟩

theorem to_sta_absy {p : Int} (h : mem pc = 0x99) (hv : (mem (pc + 1) + 256 * mem (pc + 2) + y) % 65536 = p) (hp : 0 ≤ pc ∧ pc < 0xff00)
    (hq : To ⟨a, x, y, s, pc + 3, z, c, wr mem p a⟩ Q) : To ⟨a, x, y, s, pc, z, c, mem⟩ Q := by
  refine to_step .sta ⟨0x99, .absy, 5⟩ (by decide) h hp.1 (by show pc + 3 ≤ _; omega) ?_ hq
  intro st hst hd
  injection hst with e1 e2 e3 e4 e5 e6 e7 e8
  subst e1 e2 e3 e4 e5 e6 e7 e8 hv
  exact ⟨rfl, hd⟩

theorem to_sta_zp {p : Int} (h : mem pc = 0x85) (hv : mem (pc + 1) = p) (hp : 0 ≤ pc ∧ pc < 0xff00)
    (hq : To ⟨a, x, y, s, pc + 2, z, c, wr mem p a⟩ Q) : To ⟨a, x, y, s, pc, z, c, mem⟩ Q := by
  refine to_step .sta ⟨0x85, .zp, 3⟩ (by decide) h hp.1 (by show pc + 2 ≤ _; omega) ?_ hq
  intro st hst hd
  injection hst with e1 e2 e3 e4 e5 e6 e7 e8
  subst e1 e2 e3 e4 e5 e6 e7 e8 hv
  exact ⟨rfl, hd⟩

theorem to_asl_zp {p v : Int} (h : mem pc = 0x06) (hv : mem (pc + 1) = p) (hm : mem p = v) (hp : 0 ≤ pc ∧ pc < 0xff00)
    (hq : To ⟨a, x, y, s, pc + 2, decide (2 * v % 256 = 0), decide (128 ≤ v), wr mem p (2 * v % 256)⟩ Q) : To ⟨a, x, y, s, pc, z, c, mem⟩ Q := by
  refine to_step .asl ⟨0x06, .zp, 5⟩ (by decide) h hp.1 (by show pc + 2 ≤ _; omega) ?_ hq
  intro st hst hd
  injection hst with e1 e2 e3 e4 e5 e6 e7 e8
  subst e1 e2 e3 e4 e5 e6 e7 e8 hv hm
  exact ⟨rfl, hd⟩

theorem to_adc_zp {p v : Int} (h : mem pc = 0x65) (hv : mem (pc + 1) = p) (hm : mem p = v) (hp : 0 ≤ pc ∧ pc < 0xff00)
    (hq : To ⟨(a + v + State.bit c) % 256, x, y, s, pc + 2, decide ((a + v + State.bit c) % 256 = 0), decide (256 ≤ a + v + State.bit c), mem⟩ Q) :
    To ⟨a, x, y, s, pc, z, c, mem⟩ Q := by
  refine to_step .adc ⟨0x65, .zp, 3⟩ (by decide) h hp.1 (by show pc + 2 ≤ _; omega) ?_ hq
  intro st hst hd
  injection hst with e1 e2 e3 e4 e5 e6 e7 e8
  subst e1 e2 e3 e4 e5 e6 e7 e8 hv hm
  have e : st.after .adc .zp = ({ st with pc := st.pc + 2 } : State).adc (st.mem (st.mem (st.pc + 1))) := by
    show (if st.d then _ else _) = _
    rw [hd]; rfl
  show cfg (st.after .adc .zp) = _ ∧ (st.after .adc .zp).d = false
  rw [e]
  exact ⟨rfl, hd⟩

theorem to_lda_indy {p q v : Int} (h : mem pc = 0xb1) (hv : mem (pc + 1) = p) (hw : (mem p + 256 * mem ((p + 1) % 256) + y) % 65536 = q) (hm : mem q = v)
    (hp : 0 ≤ pc ∧ pc < 0xff00) (hq : To ⟨v, x, y, s, pc + 2, decide (v = 0), c, mem⟩ Q) : To ⟨a, x, y, s, pc, z, c, mem⟩ Q := by
  refine to_step .lda ⟨0xb1, .indy, 5⟩ (by decide) h hp.1 (by show pc + 2 ≤ _; omega) ?_ hq
  intro st hst hd
  injection hst with e1 e2 e3 e4 e5 e6 e7 e8
  subst e1 e2 e3 e4 e5 e6 e7 e8 hv hw hm
  exact ⟨rfl, hd⟩

/-! ## Branches -/

theorem to_branch {f : Spec.Convert.Cfg} {d t : Int} {b : Bool} (mn : Mn) (o : Int) (hd : ⟨o, .rel, 2⟩ ∈ codes mn) (h : f.mem f.pc = o) (hv : f.mem (f.pc + 1) = d)
    (hp : 0 ≤ f.pc ∧ f.pc < 0xff00) (ht : f.pc + 2 + State.signed d = t) (h0 : 0 ≤ t ∧ t < 65536)
    (hb : ∀ st, cfg st = f → st.taken mn = b) (hq : To { f with pc := if b then t else f.pc + 2 } Q) : To f Q := by
  refine to_step mn ⟨o, .rel, 2⟩ hd h hp.1 (by show f.pc + 2 ≤ _; omega) ?_ hq
  intro st hst hdec
  have hk := hb st hst
  subst hst
  have e : (st.pc + 2 + State.signed st.b1) % 65536 = t := by
    unfold State.b1
    rw [show st.mem (st.pc + 1) = d from hv]
    show ((cfg st).pc + 2 + State.signed d) % 65536 = t
    rw [ht]
    omega
  refine ⟨?_, hdec⟩
  show cfg { st with pc := if st.taken mn then (st.pc + 2 + State.signed st.b1) % 65536 else st.pc + 2 } = _
  rw [e, hk]
  rfl

theorem to_bne {d t : Int} (h : mem pc = 0xd0) (hv : mem (pc + 1) = d) (hp : 0 ≤ pc ∧ pc < 0xff00) (ht : pc + 2 + State.signed d = t) (h0 : 0 ≤ t ∧ t < 65536)
    (hq : To ⟨a, x, y, s, if z then pc + 2 else t, z, c, mem⟩ Q) : To ⟨a, x, y, s, pc, z, c, mem⟩ Q := by
  refine to_branch (f := ⟨a, x, y, s, pc, z, c, mem⟩) (b := !z) .bne 0xd0 (by decide) h hv hp ht h0
    (fun st hst => by injection hst with _ _ _ _ _ e6; rw [← e6]; rfl) ?_
  cases z <;> exact hq

theorem to_beq {d t : Int} (h : mem pc = 0xf0) (hv : mem (pc + 1) = d) (hp : 0 ≤ pc ∧ pc < 0xff00) (ht : pc + 2 + State.signed d = t) (h0 : 0 ≤ t ∧ t < 65536)
    (hq : To ⟨a, x, y, s, if z then t else pc + 2, z, c, mem⟩ Q) : To ⟨a, x, y, s, pc, z, c, mem⟩ Q := by
  refine to_branch (f := ⟨a, x, y, s, pc, z, c, mem⟩) (b := z) .beq 0xf0 (by decide) h hv hp ht h0
    (fun st hst => by injection hst with _ _ _ _ _ e6) ?_
  cases z <;> exact hq

theorem to_bcc {d t : Int} (h : mem pc = 0x90) (hv : mem (pc + 1) = d) (hp : 0 ≤ pc ∧ pc < 0xff00) (ht : pc + 2 + State.signed d = t) (h0 : 0 ≤ t ∧ t < 65536)
    (hq : To ⟨a, x, y, s, if c then pc + 2 else t, z, c, mem⟩ Q) : To ⟨a, x, y, s, pc, z, c, mem⟩ Q := by
  refine to_branch (f := ⟨a, x, y, s, pc, z, c, mem⟩) (b := !c) .bcc 0x90 (by decide) h hv hp ht h0
    (fun st hst => by injection hst with _ _ _ _ _ e6 e7; rw [← e7]; rfl) ?_
  cases c <;> exact hq

theorem to_bcs {d t : Int} (h : mem pc = 0xb0) (hv : mem (pc + 1) = d) (hp : 0 ≤ pc ∧ pc < 0xff00) (ht : pc + 2 + State.signed d = t) (h0 : 0 ≤ t ∧ t < 65536)
    (hq : To ⟨a, x, y, s, if c then t else pc + 2, z, c, mem⟩ Q) : To ⟨a, x, y, s, pc, z, c, mem⟩ Q := by
  refine to_branch (f := ⟨a, x, y, s, pc, z, c, mem⟩) (b := c) .bcs 0xb0 (by decide) h hv hp ht h0
    (fun st hst => by injection hst with _ _ _ _ _ e6 e7) ?_
  cases c <;> exact hq

end Asap.Flat
