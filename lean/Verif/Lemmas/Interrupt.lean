import Verif.Lemmas.Schedule

/-! # The interrupt of executables, in binary and decimal mode -/

namespace Asap.Flat
open Asap.Isa Asap.Spec.Flat
open Asap.Spec.Schedule (Driver)
open Asap.Spec.Convert (cfg wr wr_self wr_other)

/-- From all states that look like `f`, the program gets to one whose look satisfies `P`. -/
def Any (f : Spec.Convert.Cfg) (P : Spec.Convert.Cfg → Prop) : Prop := ∀ st, cfg st = f → ∃ st', Runs st st' ∧ P (cfg st')

theorem Any.refl {f : Spec.Convert.Cfg} {P : Spec.Convert.Cfg → Prop} (h : P f) : Any f P := fun st e => ⟨st, .refl st, e ▸ h⟩

theorem any_step {f g : Spec.Convert.Cfg} {Q : Spec.Convert.Cfg → Prop} (mn : Mn) (k : Code) (hd : k ∈ codes mn) (hf : f.mem f.pc = k.opcode) (h0 : 0 ≤ f.pc) (h1 : f.pc + k.mode.size ≤ 65536)
    (h : ∀ st, cfg st = f → cfg (st.after mn k.mode) = g) (hq : Any g Q) : Any f Q := by
  intro st e
  have e1 : st.mem = f.mem := congrArg Spec.Convert.Cfg.mem e
  have e2 : st.pc = f.pc := congrArg Spec.Convert.Cfg.pc e
  obtain ⟨st', r, p⟩ := hq _ (h st e)
  exact ⟨st', .step mn k hd (by rw [e1, e2]; exact hf) (by rw [e2]; exact h0) (by rw [e2]; exact h1) r, p⟩

variable {a x y s pc : Int} {z c : Bool} {mem : Int → Int} {Q : Spec.Convert.Cfg → Prop}

theorem any_pha (h : mem pc = 0x48) (hp : 0 ≤ pc ∧ pc < 0xff00) (hs : 1 ≤ s ∧ s < 256) (hq : Any ⟨a, x, y, s - 1, pc + 1, z, c, wr mem (256 + s) a⟩ Q) :
    Any ⟨a, x, y, s, pc, z, c, mem⟩ Q := by
  refine any_step .pha ⟨0x48, .imp, 3⟩ (by decide) h hp.1 (by show pc + 1 ≤ _; omega) ?_ hq
  intro st hst
  injection hst with e1 e2 e3 e4 e5 e6 e7 e8
  subst e1 e2 e3 e4 e5 e6 e7 e8
  rw [show st.s - 1 = (st.s - 1) % 256 by omega]
  rfl

theorem any_pla {v : Int} (h : mem pc = 0x68) (hp : 0 ≤ pc ∧ pc < 0xff00) (hs : 0 ≤ s ∧ s < 255) (hv : mem (257 + s) = v) (hq : Any ⟨v, x, y, s + 1, pc + 1, decide (v = 0), c, mem⟩ Q) :
    Any ⟨a, x, y, s, pc, z, c, mem⟩ Q := by
  refine any_step .pla ⟨0x68, .imp, 4⟩ (by decide) h hp.1 (by show pc + 1 ≤ _; omega) ?_ hq
  intro st hst
  injection hst with e1 e2 e3 e4 e5 e6 e7 e8
  subst e1 e2 e3 e4 e5 e6 e7 e8 hv
  rw [show (257 : Int) + st.s = 256 + (st.s + 1) % 256 by omega, show st.s + 1 = (st.s + 1) % 256 by omega, Int.emod_emod]
  rfl

theorem any_txa (h : mem pc = 0x8a) (hp : 0 ≤ pc ∧ pc < 0xff00) (hq : Any ⟨x, x, y, s, pc + 1, decide (x = 0), c, mem⟩ Q) : Any ⟨a, x, y, s, pc, z, c, mem⟩ Q := by
  refine any_step .txa ⟨0x8a, .imp, 2⟩ (by decide) h hp.1 (by show pc + 1 ≤ _; omega) ?_ hq
  intro st hst
  injection hst with e1 e2 e3 e4 e5 e6 e7 e8
  subst e1 e2 e3 e4 e5 e6 e7 e8
  rfl

theorem any_tax (h : mem pc = 0xaa) (hp : 0 ≤ pc ∧ pc < 0xff00) (hq : Any ⟨a, a, y, s, pc + 1, decide (a = 0), c, mem⟩ Q) : Any ⟨a, x, y, s, pc, z, c, mem⟩ Q := by
  refine any_step .tax ⟨0xaa, .imp, 2⟩ (by decide) h hp.1 (by show pc + 1 ≤ _; omega) ?_ hq
  intro st hst
  injection hst with e1 e2 e3 e4 e5 e6 e7 e8
  subst e1 e2 e3 e4 e5 e6 e7 e8
  rfl

theorem any_ldx_abs {p v : Int} (h : mem pc = 0xae) (hv : mem (pc + 1) + 256 * mem (pc + 2) = p) (hm : mem p = v) (hp : 0 ≤ pc ∧ pc < 0xff00)
    (hq : Any ⟨a, v, y, s, pc + 3, decide (v = 0), c, mem⟩ Q) : Any ⟨a, x, y, s, pc, z, c, mem⟩ Q := by
  refine any_step .ldx ⟨0xae, .abs, 4⟩ (by decide) h hp.1 (by show pc + 3 ≤ _; omega) ?_ hq
  intro st hst
  injection hst with e1 e2 e3 e4 e5 e6 e7 e8
  subst e1 e2 e3 e4 e5 e6 e7 e8 hv hm
  rfl

theorem any_inc_abs {p v : Int} (h : mem pc = 0xee) (hv : mem (pc + 1) + 256 * mem (pc + 2) = p) (hm : (mem p + 1) % 256 = v) (hp : 0 ≤ pc ∧ pc < 0xff00)
    (hq : Any ⟨a, x, y, s, pc + 3, decide (v = 0), c, wr mem p v⟩ Q) : Any ⟨a, x, y, s, pc, z, c, mem⟩ Q := by
  refine any_step .inc ⟨0xee, .abs, 6⟩ (by decide) h hp.1 (by show pc + 3 ≤ _; omega) ?_ hq
  intro st hst
  injection hst with e1 e2 e3 e4 e5 e6 e7 e8
  subst e1 e2 e3 e4 e5 e6 e7 e8 hv hm
  rfl

/-- A call from the page of the stack, of which the call is not a part. -/
theorem any_jsr {v : Int} (h : mem pc = 0x20) (hl : mem (pc + 1) = v % 256) (hh : mem (pc + 2) = v / 256) (hp : 0 ≤ pc ∧ pc + 2 < 255 + s) (hs : 2 ≤ s ∧ s < 256)
    (hq : Any ⟨a, x, y, s - 2, v, z, c, wr (wr mem (256 + s) ((pc + 2) / 256)) (255 + s) ((pc + 2) % 256)⟩ Q) : Any ⟨a, x, y, s, pc, z, c, mem⟩ Q := by
  refine any_step .jsr ⟨0x20, .abs, 6⟩ (by decide) h hp.1 (by show pc + 3 ≤ _; omega) ?_ hq
  intro st hst
  injection hst with e1 e2 e3 e4 e5 e6 e7 e8
  subst e1 e2 e3 e4 e5 e6 e7 e8
  have e2 : ({ st with pc := st.pc + 3 } : State).jsr (st.effective .abs) =
      { st with mem := wr (wr st.mem (256 + st.s) ((st.pc + 2) / 256)) (256 + (st.s - 1) % 256) ((st.pc + 2) % 256), s := ((st.s - 1) % 256 - 1) % 256,
                pc := (st.mem (st.pc + 1) + 256 * st.mem (st.pc + 2)) % 256 + 256 * wr (wr st.mem (256 + st.s) ((st.pc + 2) / 256)) (256 + (st.s - 1) % 256) ((st.pc + 2) % 256) (st.pc + 2) } := by
    unfold State.jsr
    dsimp only
    rw [show st.pc + 3 - 1 = st.pc + 2 by omega]
    rfl
  show cfg (({ st with pc := st.pc + 3 } : State).jsr (st.effective .abs)) = _
  rw [e2, wr_other (by omega), wr_other (by omega), hl, hh]
  unfold cfg
  dsimp only
  rw [show (v % 256 + 256 * (v / 256)) % 256 + 256 * (v / 256) = v by omega, show ((st.s - 1) % 256 - 1) % 256 = st.s - 2 by omega, show (256 : Int) + (st.s - 1) % 256 = 255 + st.s by omega]

/-! ## The routine -/

theorem _root_.Asap.Spec.Schedule.Driver.stack {mem : Int → Int} {fp : Nat} (R : Driver driverCode fp mem) {q v : Int} (h : 0x1e0 ≤ q) : Driver driverCode fp (wr mem q v) := by
  have o : ∀ b : Int, b < 0x1e0 → wr mem q v b = mem b := fun b hb => wr_other (by omega)
  refine ⟨fun j b e h2 hj => (o _ ?_).trans (R.program j b e h2 hj), ?_, ?_, ?_, ?_, ?_⟩
  · have := (List.getElem?_eq_some_iff.mp e).1
    rw [show driverCode.length = 177 by decide +kernel] at this
    omega
  · exact (o _ (by omega)).trans R.odd
  · exact (o _ (by omega)).trans R.pal
  · exact (o _ (by omega)).trans R.ntsc
  · exact (o _ (by omega)).trans R.frames
  · exact (o _ (by omega)).trans R.framesNtsc

/-- The stack when the countdown is called. -/
def frameStack (mem : Int → Int) (s a x : Int) : Int → Int := wr (wr (wr (wr mem (256 + s) a) (255 + s) x) (254 + s) 1) (253 + s) 0xca

/-- To the countdown. -/
theorem any_enter {fp : Nat} {tv : Int} (R : Driver driverCode fp mem) (ht : mem 0x191 = tv) (hs : 0xe3 ≤ s ∧ s < 256)
    (hq : ∀ z, Any ⟨x, tv, y, s - 4, 0xfc98, z, c, frameStack mem s a x⟩ Q) : Any ⟨a, x, y, s, 0x1c2, z, c, mem⟩ Q := by
  refine any_pha (R.at 0x9e) (by omega) (by omega) ?_
  have R1 := R.stack (q := 256 + s) (v := a) (by omega)
  refine any_txa (R1.at 0x9f) (by omega) ?_
  refine any_pha (R1.at 0xa0) (by omega) (by omega) ?_
  have R2 := R1.stack (q := 256 + (s - 1)) (v := x) (by omega)
  refine any_ldx_abs (p := 0x191) (v := tv) (R2.at 0xa1) (by rw [R2.at 0xa2 (b := 0x91), R2.at 0xa3 (b := 0x01)]; omega) ?_ (by omega) ?_
  · rw [wr_other (by omega), wr_other (by omega), ht]
  refine any_jsr (v := 0xfc98) (R2.at 0xa4) (R2.at 0xa5) (R2.at 0xa6) (by omega) (by omega) ?_
  have := hq (decide (tv = 0))
  unfold frameStack at this
  rw [show (256 : Int) + (s - 1) = 255 + s by omega, show (256 : Int) + (s - 1 - 1) = 254 + s by omega, show (255 : Int) + (s - 1 - 1) = 253 + s by omega, show s - 1 - 1 - 2 = s - 4 by omega]
  exact this

/-- The end of the routine, with or without the countdown. -/
theorem any_count {fp : Nat} {v : Int} (R : Driver driverCode fp mem) (hm : (mem 0x1ba + 1) % 256 = v) (hq : ∀ z, Any ⟨a, x, y, s, 0x1d1, z, c, wr mem 0x1ba v⟩ Q) :
    Any ⟨a, x, y, s, 0x1ce, z, c, mem⟩ Q :=
  any_inc_abs (p := 0x1ba) (R.at 0xaa) (by rw [R.at 0xab (b := 0xba), R.at 0xac (b := 0x01)]; omega) hm (by omega) (hq _)

/-- From the countdown. -/
theorem any_leave {fp : Nat} {v a' x' : Int} (R : Driver driverCode fp mem) (hs : 0 ≤ s ∧ s < 254) (hx : mem (257 + s) = x') (ha : mem (258 + s) = a') (hm : (mem 0x1ba + 1) % 256 = v)
    (hq : ∀ z c, Any ⟨a', x', y, s + 2, 0x1d1, z, c, wr mem 0x1ba v⟩ Q) : Any ⟨a, x, y, s, 0x1cb, z, c, mem⟩ Q := by
  refine any_pla (R.at 0xa7) (by omega) (by omega) hx ?_
  refine any_tax (R.at 0xa8) (by omega) ?_
  refine any_pla (v := a') (R.at 0xa9) (by omega) (by omega) (by rw [show (257 : Int) + (s + 1) = 258 + s by omega, ha]) ?_
  rw [show s + 1 + 1 = s + 2 by omega]
  exact any_count R hm fun z => hq z _

/-! ## Interrupts -/

theorem flags_back : ∀ n v d i z c : Bool,
    let p := 128 * State.bit n + 64 * State.bit v + 32 + 16 * State.bit false + 8 * State.bit d + 4 * State.bit i + 2 * State.bit z + State.bit c
    decide (p / 128 % 2 = 1) = n ∧ decide (p / 64 % 2 = 1) = v ∧ decide (p / 8 % 2 = 1) = d ∧ decide (p / 4 % 2 = 1) = i ∧ decide (p / 2 % 2 = 1) = z ∧ decide (p % 2 = 1) = c := by
  decide

/-- The last instruction restores everything. -/
theorem rti_restores {st st' : State} (hpc : 0 ≤ st.pc ∧ st.pc < 65536) (hs : 3 ≤ st.s ∧ st.s < 256) (h1 : st'.s = st.s - 3) (h2 : st'.a = st.a) (h3 : st'.x = st.x) (h4 : st'.y = st.y)
    (m1 : st'.mem (254 + st.s) = st.status false) (m2 : st'.mem (255 + st.s) = st.pc % 256) (m3 : st'.mem (256 + st.s) = st.pc / 256 % 256) :
    st'.after .rti .imp = { st with mem := st'.mem } := by
  obtain ⟨f1, f2, f3, f4, f5, f6⟩ := flags_back st.n st.v st.d st.i st.z st.c
  have t1 : st'.mem (256 + (st'.s + 1) % 256) = st.status false := by rw [h1, show (256 : Int) + (st.s - 3 + 1) % 256 = 254 + st.s by omega, m1]
  have t2 : st'.mem (256 + (st'.s + 2) % 256) = st.pc % 256 := by rw [h1, show (256 : Int) + (st.s - 3 + 2) % 256 = 255 + st.s by omega, m2]
  have t3 : st'.mem (256 + (st'.s + 3) % 256) = st.pc / 256 % 256 := by rw [h1, show (256 : Int) + (st.s - 3 + 3) % 256 = 256 + st.s by omega, m3]
  have e : st'.after .rti .imp = { a := st'.a, x := st'.x, y := st'.y, s := (st'.s + 3) % 256, pc := st'.mem (256 + (st'.s + 2) % 256) + 256 * st'.mem (256 + (st'.s + 3) % 256), n := decide (st'.mem (256 + (st'.s + 1) % 256) / 128 % 2 = 1), v := decide (st'.mem (256 + (st'.s + 1) % 256) / 64 % 2 = 1), d := decide (st'.mem (256 + (st'.s + 1) % 256) / 8 % 2 = 1), i := decide (st'.mem (256 + (st'.s + 1) % 256) / 4 % 2 = 1), z := decide (st'.mem (256 + (st'.s + 1) % 256) / 2 % 2 = 1), c := decide (st'.mem (256 + (st'.s + 1) % 256) % 2 = 1), mem := st'.mem } := rfl
  rw [e, t1, t2, t3, h1, h2, h3, h4, show st.pc % 256 + 256 * (st.pc / 256 % 256) = st.pc by omega, show (st.s - 3 + 3) % 256 = st.s by omega]
  unfold State.status
  rw [f1, f2, f3, f4, f5, f6]

/-! ## The beginning of the program -/

theorem to_ldx_abs {p v : Int} (h : mem pc = 0xae) (hv : mem (pc + 1) + 256 * mem (pc + 2) = p) (hm : mem p = v) (hp : 0 ≤ pc ∧ pc < 0xff00)
    (hq : To ⟨a, v, y, s, pc + 3, decide (v = 0), c, mem⟩ Q) : To ⟨a, x, y, s, pc, z, c, mem⟩ Q := by
  refine to_step .ldx ⟨0xae, .abs, 4⟩ (by decide) h hp.1 (by show pc + 3 ≤ _; omega) ?_ hq
  intro st hst hd
  injection hst with e1 e2 e3 e4 e5 e6 e7 e8
  subst e1 e2 e3 e4 e5 e6 e7 e8 hv hm
  exact ⟨rfl, hd⟩

/-- What the program sets before it waits for the first call: memory instead of ROM, the interrupt routine at `r`, interrupts on. -/
def setUp (mem : Int → Int) (r : Int) : Int → Int := wr (wr (wr (wr mem 0xd301 0xfe) 0xfffa r) 0xfffb 1) 0xd40e 0x40

/-- From the return of the initialisation of the song to the wait for the first call. -/
theorem to_set_up {fp : Nat} {v : Int} (R : Driver driverCode fp mem) (hm : mem 0x135 = v)
    (hq : ∀ x z c, To ⟨125, x, y, s, 0x188, z, c, setUp mem (if v = 0 then 0xce else 0xc2)⟩ Q) : To ⟨a, x, y, s, 0x16b, z, c, mem⟩ Q := by
  refine to_lda_imm (v := 0xfe) (R.at 0x47) (R.at 0x48) (by omega) ?_
  refine to_sta_abs (p := 0xd301) (R.at 0x49) (by rw [R.at 0x4a (b := 0x01), R.at 0x4b (b := 0xd3)]; omega) (by omega) ?_
  have R1 := R.stack (q := 0xd301) (v := 0xfe) (by omega)
  refine to_lda_imm (v := 0xce) (R1.at 0x4c) (R1.at 0x4d) (by omega) ?_
  refine to_ldx_abs (p := 0x135) (v := v) (R1.at 0x4e) (by rw [R1.at 0x4f (b := 0x35), R1.at 0x50 (b := 0x01)]; omega) (by rw [wr_other (by omega), hm]) (by omega) ?_
  refine to_beq (t := 0x179) (d := 0x02) (R1.at 0x51) (R1.at 0x52) (by omega) (by decide) (by omega) ?_
  have fin : ∀ (r : Int) (z c : Bool), (∀ x z c, To ⟨125, x, y, s, 0x188, z, c, setUp mem r⟩ Q) → To ⟨r, v, y, s, 0x179, z, c, wr mem 0xd301 0xfe⟩ Q := by
    intro r z c hr
    refine to_sta_abs (p := 0xfffa) (R1.at 0x55) (by rw [R1.at 0x56 (b := 0xfa), R1.at 0x57 (b := 0xff)]; omega) (by omega) ?_
    have R2 := R1.stack (q := 0xfffa) (v := r) (by omega)
    refine to_lda_imm (v := 1) (R2.at 0x58) (R2.at 0x59) (by omega) ?_
    refine to_sta_abs (p := 0xfffb) (R2.at 0x5a) (by rw [R2.at 0x5b (b := 0xfb), R2.at 0x5c (b := 0xff)]; omega) (by omega) ?_
    have R3 := R2.stack (q := 0xfffb) (v := 1) (by omega)
    refine to_lda_imm (v := 0x40) (R3.at 0x5d) (R3.at 0x5e) (by omega) ?_
    refine to_sta_abs (p := 0xd40e) (R3.at 0x5f) (by rw [R3.at 0x60 (b := 0x0e), R3.at 0x61 (b := 0xd4)]; omega) (by omega) ?_
    have R4 := R3.stack (q := 0xd40e) (v := 0x40) (by omega)
    exact to_lda_imm (v := 125) (R4.at 0x62) (R4.at 0x63) (by omega) (hr _ _ _)
  by_cases h : v = 0
  · rw [decide_eq_true h, if_pos rfl]
    rw [if_pos h] at hq
    exact fin _ _ _ hq
  · rw [decide_eq_false h, if_neg (by decide)]
    rw [if_neg h] at hq
    exact to_lda_imm (v := 0xc2) (R1.at 0x53) (R1.at 0x54) (by omega) (fin _ _ _ hq)

/-- The kind of TV: after VCOUNT 130, only the longer frames of PAL do not start again. -/
theorem to_kind {fp : Nat} {v : Int} (R : Driver driverCode fp mem) (hm : mem 0xd40b = v) (h0 : mem 0x191 = 0)
    (hq : ∀ z, To ⟨mem 0x1da, x, y, s, 0x168, z, c, if v = 0 then wr mem 0x191 1 else mem⟩ Q) : To ⟨a, x, y, s, 0x15d, z, c, mem⟩ Q := by
  refine to_lda_abs (p := 0xd40b) (v := v) (R.at 0x39) (by rw [R.at 0x3a (b := 0x0b), R.at 0x3b (b := 0xd4)]; omega) hm (by omega) ?_
  refine to_bne (t := 0x165) (d := 0x03) (R.at 0x3c) (R.at 0x3d) (by omega) (by decide) (by omega) ?_
  by_cases h : v = 0
  · rw [decide_eq_true h, if_pos rfl]
    rw [if_pos h] at hq
    refine to_inc_abs (p := 0x191) (v := 1) (R.at 0x3e) (by rw [R.at 0x3f (b := 0x91), R.at 0x40 (b := 0x01)]; omega) (by rw [h0]; decide) (by omega) ?_
    have R1 := R.put (q := 0x191) (v := 1) (by unfold Spec.Schedule.Variable; omega)
    exact to_lda_abs (p := 0x1da) (v := mem 0x1da) (R1.at 0x41) (by rw [R1.at 0x42 (b := 0xda), R1.at 0x43 (b := 0x01)]; omega) (wr_other (by omega)) (by omega) (hq _)
  · rw [decide_eq_false h, if_neg (by decide)]
    rw [if_neg h] at hq
    exact to_lda_abs (p := 0x1da) (v := mem 0x1da) (R.at 0x41) (by rw [R.at 0x42 (b := 0xda), R.at 0x43 (b := 0x01)]; omega) rfl (by omega) (hq _)

end Asap.Flat
