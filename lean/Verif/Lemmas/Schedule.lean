import Verif.Lemmas.Countdown
import Verif.Spec.Schedule

/-! # The program that calls the player in executables -/

namespace Asap.Flat
open Asap.Isa Asap.Spec.Flat
open Asap.Spec.Schedule (steps due Driver Waits)
open Asap.Spec.Convert (cfg wr wr_self wr_other)

variable {a x y s pc : Int} {z c : Bool} {mem : Int → Int} {Q : Spec.Convert.Cfg → Prop}

theorem to_cmp_abs {p v : Int} (h : mem pc = 0xcd) (hv : mem (pc + 1) + 256 * mem (pc + 2) = p) (hm : mem p = v) (hp : 0 ≤ pc ∧ pc < 0xff00)
    (hq : To ⟨a, x, y, s, pc + 3, decide ((a - v) % 256 = 0), decide (v ≤ a), mem⟩ Q) : To ⟨a, x, y, s, pc, z, c, mem⟩ Q := by
  refine to_step .cmp ⟨0xcd, .abs, 4⟩ (by decide) h hp.1 (by show pc + 3 ≤ _; omega) ?_ hq
  intro st hst hd
  injection hst with e1 e2 e3 e4 e5 e6 e7 e8
  subst e1 e2 e3 e4 e5 e6 e7 e8 hv hm
  exact ⟨rfl, hd⟩

theorem to_cmp_absx {p v : Int} (h : mem pc = 0xdd) (hv : (mem (pc + 1) + 256 * mem (pc + 2) + x) % 65536 = p) (hm : mem p = v) (hp : 0 ≤ pc ∧ pc < 0xff00)
    (hq : To ⟨a, x, y, s, pc + 3, decide ((a - v) % 256 = 0), decide (v ≤ a), mem⟩ Q) : To ⟨a, x, y, s, pc, z, c, mem⟩ Q := by
  refine to_step .cmp ⟨0xdd, .absx, 4⟩ (by decide) h hp.1 (by show pc + 3 ≤ _; omega) ?_ hq
  intro st hst hd
  injection hst with e1 e2 e3 e4 e5 e6 e7 e8
  subst e1 e2 e3 e4 e5 e6 e7 e8 hv hm
  exact ⟨rfl, hd⟩

theorem to_sbc_absx {p v : Int} (h : mem pc = 0xfd) (hv : (mem (pc + 1) + 256 * mem (pc + 2) + x) % 65536 = p) (hm : mem p = v) (hp : 0 ≤ pc ∧ pc < 0xff00)
    (hq : To ⟨(a - v - (1 - State.bit c)) % 256, x, y, s, pc + 3, decide ((a - v - (1 - State.bit c)) % 256 = 0), decide (0 ≤ a - v - (1 - State.bit c)), mem⟩ Q) :
    To ⟨a, x, y, s, pc, z, c, mem⟩ Q := by
  refine to_step .sbc ⟨0xfd, .absx, 4⟩ (by decide) h hp.1 (by show pc + 3 ≤ _; omega) ?_ hq
  intro st hst hd
  injection hst with e1 e2 e3 e4 e5 e6 e7 e8
  subst e1 e2 e3 e4 e5 e6 e7 e8 hv hm
  have e : st.after .sbc .absx = ({ st with pc := st.pc + 3 } : State).sbc (st.mem ((st.mem (st.pc + 1) + 256 * st.mem (st.pc + 2) + st.x) % 65536)) := by
    show (if st.d then _ else _) = _
    rw [hd]; rfl
  show cfg (st.after .sbc .absx) = _ ∧ (st.after .sbc .absx).d = false
  rw [e]
  exact ⟨rfl, hd⟩

/-! ## The program -/

/-- The program from 0x124 to 0x1D4. -/
def driverCode : List Nat := Obx.xexb.drop 6

theorem _root_.Asap.Spec.Schedule.Driver.at {mem : Int → Int} {fp : Nat} (R : Driver driverCode fp mem) {q : Int} {b : Nat} (j : Nat) (hq : q = 0x124 + j := by omega)
    (e : driverCode[j]? = some b := by decide +kernel) (hj : 22 ≤ j := by decide) (h : ¬ Spec.Schedule.Variable (0x124 + j : Int) := by unfold Spec.Schedule.Variable; omega) :
    mem q = b := by
  rw [hq]; exact R.program j b e hj h

theorem _root_.Asap.Spec.Schedule.Driver.put {mem : Int → Int} {fp : Nat} (R : Driver driverCode fp mem) {q v : Int} (h : Spec.Schedule.Variable q) : Driver driverCode fp (wr mem q v) := by
  have o : ∀ b : Int, ¬ Spec.Schedule.Variable b → wr mem q v b = mem b := fun b hb => wr_other (fun e => hb (e ▸ h))
  refine ⟨fun j b e h2 hj => (o _ hj).trans (R.program j b e h2 hj), ?_, ?_, ?_, ?_, ?_⟩
  · exact (o _ (by unfold Spec.Schedule.Variable; omega)).trans R.odd
  · exact (o _ (by unfold Spec.Schedule.Variable; omega)).trans R.pal
  · exact (o _ (by unfold Spec.Schedule.Variable; omega)).trans R.ntsc
  · exact (o _ (by unfold Spec.Schedule.Variable; omega)).trans R.frames
  · exact (o _ (by unfold Spec.Schedule.Variable; omega)).trans R.framesNtsc

/-- The additional step of every other call. -/
def extra (fp k : Nat) : Nat := if fp % 2 = 1 ∧ k % 2 = 1 then 1 else 0

theorem due_next (fp k : Nat) : due fp (k + 1) = due fp k + (fp / 2 + extra fp k) := by
  unfold due extra
  rw [Nat.succ_mul]
  rcases Nat.mod_two_eq_zero_or_one fp with h | h
  · rw [if_neg (by omega)]
    omega
  · have : k * fp % 2 = k % 2 := by rw [Nat.mul_mod, h]; omega
    split <;> omega

/-- From the return of the player to the addition. -/
theorem to_odd {fp k tv : Nat} (R : Driver driverCode fp mem) (ht : mem 0x191 = tv) (hc : fp % 2 = 1 → mem 0x199 = k % 256)
    (hq : ∀ a z cy (mem' : Int → Int), (∀ b, b ≠ 0x199 → mem' b = mem b) → (fp % 2 = 1 → mem' 0x199 = ((k : Int) + 1) % 256) → Driver driverCode fp mem' → State.bit cy = extra fp k →
      To ⟨a, tv, y, s, 0x19e, z, cy, mem'⟩ Q) :
    To ⟨a, x, y, s, 0x190, z, c, mem⟩ Q := by
  refine to_ldx_imm (v := tv) (R.at 0x6c) ht (by omega) ?_
  refine to_lda_abs (p := 0x1db) (v := fp % 2) (R.at 0x6e) (by rw [R.at 0x6f (b := 0xdb), R.at 0x70 (b := 0x01)]; omega) R.odd (by omega) ?_
  refine to_lsr (R.at 0x71) (by omega) ?_
  refine to_bcc (t := 0x19e) (d := 0x06) (R.at 0x72) (R.at 0x73) (by omega) (by decide) (by omega) ?_
  rcases Nat.mod_two_eq_zero_or_one fp with h | h
  · have e : decide ((fp : Int) % 2 % 2 = 1) = false := decide_eq_false (by omega)
    rw [e, if_neg (by decide)]
    exact hq _ _ _ mem (fun _ _ => rfl) (fun g => by omega) R (by unfold extra; rw [if_neg (by omega)]; rfl)
  · have e : decide ((fp : Int) % 2 % 2 = 1) = true := decide_eq_true (by omega)
    rw [e, if_pos rfl]
    have hk := hc h
    refine to_lda_imm (v := k % 256) (R.at 0x74) hk (by omega) ?_
    refine to_inc_abs (p := 0x199) (v := (k + 1) % 256) (R.at 0x76) (by rw [R.at 0x77 (b := 0x99), R.at 0x78 (b := 0x01)]; omega) (by rw [hk]; omega) (by omega) ?_
    have R1 := R.put (q := 0x199) (v := (k + 1) % 256) (by unfold Spec.Schedule.Variable; omega)
    refine to_lsr (R1.at 0x79) (by omega) ?_
    refine hq _ _ _ _ (fun b hb => wr_other hb) (fun _ => wr_self _ _ _) R1 ?_
    rw [bit_nat]
    unfold extra
    by_cases g : k % 2 = 1
    · rw [if_pos (decide_eq_true (by omega)), if_pos ⟨h, g⟩]; rfl
    · rw [if_neg (by rw [decide_eq_true_eq]; omega), if_neg (by omega)]; rfl

/-- What the program adds to VCOUNT and to the frame. -/
theorem periods {fp tv : Nat} (R : Driver driverCode fp mem) (htv : tv = 0 ∨ tv = 1) :
    mem (0x1dc + tv) = (fp / 2 % steps tv : Nat) ∧ mem (0x1de + tv) = (fp / 2 / steps tv : Nat) ∧ mem (0x1d2 + tv) = (steps tv : Nat) := by
  rcases htv with rfl | rfl
  · exact ⟨R.pal.trans (by show _ = ((fp / 2 % 156 : Nat) : Int); omega), R.frames.trans (by show _ = ((fp / 2 / 156 : Nat) : Int); omega), R.at 0xae⟩
  · exact ⟨R.ntsc.trans (by show _ = ((fp / 2 % 131 : Nat) : Int); omega), R.framesNtsc.trans (by show _ = ((fp / 2 / 131 : Nat) : Int); omega), R.at 0xaf⟩

/-- The next VCOUNT. -/
theorem to_vcount {fp tv v e : Nat} {cy : Bool} (R : Driver driverCode fp mem) (htv : tv = 0 ∨ tv = 1) (hm : mem 0x1a2 = v) (hv : v < steps tv) (he : State.bit cy = e)
    (hq : ∀ z cy', State.bit cy' = ((v + fp / 2 % steps tv + e) / steps tv : Nat) →
      To ⟨((v + fp / 2 % steps tv + e) % steps tv : Nat), tv, y, s, 0x1b1, z, cy', wr mem 0x1a2 ((v + fp / 2 % steps tv + e) % steps tv : Nat)⟩ Q) :
    To ⟨a, tv, y, s, 0x19e, z, cy, mem⟩ Q := by
  obtain ⟨p1, _, p3⟩ := periods R htv
  have hst : 131 ≤ steps tv ∧ steps tv ≤ 156 := by unfold steps; split <;> omega
  have hr : fp / 2 % steps tv < steps tv := Nat.mod_lt _ (by omega)
  have he1 : e ≤ 1 := by cases cy <;> simp [State.bit] at he <;> omega
  generalize fp / 2 % steps tv = r at *
  generalize hS : steps tv = S at *
  refine to_lda_absx (p := 0x1dc + tv) (v := r) (R.at 0x7a) (by rw [R.at 0x7b (b := 0xdc), R.at 0x7c (b := 0x01)]; omega) p1 (by omega) ?_
  refine to_adc_imm (v := v) (R.at 0x7d) hm (by omega) ?_
  rw [he]
  have fin : ∀ (A : Int) (z cy' : Bool), A = ((v + r + e) % S : Nat) → State.bit cy' = ((v + r + e) / S : Nat) → To ⟨A, tv, y, s, 0x1ae, z, cy', mem⟩ Q := by
    intro A z cy' hA hc
    subst hA
    refine to_sta_abs (p := 0x1a2) (R.at 0x8a) (by rw [R.at 0x8b (b := 0xa2), R.at 0x8c (b := 0x01)]; omega) (by omega) ?_
    exact hq _ _ hc
  have big : ∀ (A : Int) (z : Bool), S ≤ v + r + e → A = ((v + r + e) % 256 : Nat) → To ⟨A, tv, y, s, 0x1aa, z, true, mem⟩ Q := by
    intro A z hge hA
    refine to_sbc_absx (p := 0x1d2 + tv) (v := S) (R.at 0x86) (by rw [R.at 0x87 (b := 0xd2), R.at 0x88 (b := 0x01)]; omega) p3 (by omega) ?_
    refine to_sec (R.at 0x89) (by omega) ?_
    have e1 : (v + r + e) / S = 1 := by
      rw [Nat.div_eq_of_lt_le (k := 1)] <;> omega
    have e2 : (v + r + e) % S = v + r + e - S := by rw [Nat.mod_eq_sub_mod hge, Nat.mod_eq_of_lt (by omega)]
    refine fin _ _ _ ?_ (by rw [e1]; rfl)
    rw [e2, hA, show State.bit true = 1 from rfl]
    omega
  refine to_bcs (t := 0x1aa) (d := 0x05) (R.at 0x7f) (R.at 0x80) (by omega) (by decide) (by omega) ?_
  by_cases g : 256 ≤ v + r + e
  · have d1 : decide (256 ≤ (r : Int) + v + e) = true := decide_eq_true (by omega)
    rw [d1, if_pos rfl]
    exact big _ _ (by omega) (by omega)
  · have d1 : decide (256 ≤ (r : Int) + v + e) = false := decide_eq_false (by omega)
    rw [d1, if_neg (by decide)]
    refine to_cmp_absx (p := 0x1d2 + tv) (v := S) (R.at 0x81) (by rw [R.at 0x82 (b := 0xd2), R.at 0x83 (b := 0x01)]; omega) p3 (by omega) ?_
    refine to_bcc (t := 0x1ae) (d := 0x04) (R.at 0x84) (R.at 0x85) (by omega) (by decide) (by omega) ?_
    by_cases g2 : S ≤ v + r + e
    · have d2 : decide ((S : Int) ≤ ((r : Int) + v + e) % 256) = true := decide_eq_true (by omega)
      rw [d2, if_pos rfl]
      exact big _ _ g2 (by omega)
    · have d2 : decide ((S : Int) ≤ ((r : Int) + v + e) % 256) = false := decide_eq_false (by omega)
      rw [d2, if_neg (by decide)]
      refine fin _ _ _ ?_ ?_
      · rw [Nat.mod_eq_of_lt (by omega : v + r + e < S)]
        omega
      · rw [Nat.div_eq_of_lt (by omega)]; rfl

/-- The next frame. -/
theorem to_next_frame {fp tv f e : Nat} {cy : Bool} (R : Driver driverCode fp mem) (htv : tv = 0 ∨ tv = 1) (hm : mem 0x1b5 = f) (he : State.bit cy = e)
    (hq : ∀ z cy', To ⟨((f + fp / 2 / steps tv + e) % 256 : Nat), tv, y, s, 0x1b9, z, cy', wr mem 0x1b5 ((f + fp / 2 / steps tv + e) % 256 : Nat)⟩ Q) :
    To ⟨a, tv, y, s, 0x1b1, z, cy, mem⟩ Q := by
  obtain ⟨_, p2, _⟩ := periods R htv
  generalize fp / 2 / steps tv = r at *
  refine to_lda_absx (p := 0x1de + tv) (v := r) (R.at 0x8d) (by rw [R.at 0x8e (b := 0xde), R.at 0x8f (b := 0x01)]; omega) p2 (by omega) ?_
  refine to_adc_imm (v := f) (R.at 0x90) hm (by omega) ?_
  rw [he, show ((r : Int) + f + e) % 256 = ((f + r + e) % 256 : Nat) by omega]
  refine to_sta_abs (p := 0x1b5) (R.at 0x92) (by rw [R.at 0x93 (b := 0xb5), R.at 0x94 (b := 0x01)]; omega) (by omega) ?_
  exact hq _ _

theorem due_vcount (t q e S : Nat) : (t % S + q % S + e) % S = (t + (q + e)) % S := by
  rw [← Nat.add_assoc, Nat.add_mod (t % S + q % S) e, ← Nat.add_mod t q, ← Nat.add_mod]

theorem due_frame (t q e S : Nat) (hS : 0 < S) : (t / S % 256 + q / S + (t % S + q % S + e) / S) % 256 = (t + (q + e)) / S % 256 := by
  have h : (t + (q + e)) / S = t / S + q / S + (t % S + q % S + e) / S := by
    have e1 := Nat.div_add_mod t S
    have e2 := Nat.div_add_mod q S
    have : t + (q + e) = t % S + q % S + e + S * (t / S + q / S) := by rw [Nat.mul_add]; omega
    rw [this, Nat.add_mul_div_left _ _ hS]
    omega
  rw [h]
  omega

/-- From the return of the player to the wait. -/
theorem to_wait {fp k tv : Nat} (R : Driver driverCode fp mem) (htv : tv = 0 ∨ tv = 1) (W : Waits tv fp k mem) :
    To ⟨a, x, y, s, 0x190, z, c, mem⟩ fun g => g.pc = 0x1b9 ∧ g.a = g.mem 0x1b5 ∧ g.s = s ∧ Driver driverCode fp g.mem ∧ Waits tv fp (k + 1) g.mem ∧
      ∀ b, b ≠ 0x199 → b ≠ 0x1a2 → b ≠ 0x1b5 → g.mem b = mem b := by
  have hS : 0 < steps tv := by unfold steps; split <;> omega
  obtain ⟨w1, w2, w3, w4⟩ := W
  refine to_odd R w1 w4 fun a z cy m1 k1 c1 R1 hcy => ?_
  refine to_vcount (v := due fp k % steps tv) R1 htv ((k1 _ (by decide)).trans (w2.trans (by omega))) (Nat.mod_lt _ hS) hcy fun z cy' h' => ?_
  have R2 := R1.put (q := 0x1a2) (v := ((due fp k % steps tv + fp / 2 % steps tv + extra fp k) % steps tv : Nat)) (by unfold Spec.Schedule.Variable; omega)
  refine to_next_frame (f := due fp k / steps tv % 256) R2 htv ((wr_other (by decide)).trans ((k1 _ (by decide)).trans (w3.trans (by omega)))) h' fun z cy'' => To.refl ?_
  refine ⟨rfl, ?_, rfl, R2.put (by unfold Spec.Schedule.Variable; omega), ⟨?_, ?_, ?_, fun h => ?_⟩, fun b b1 b2 b3 => ?_⟩
  · dsimp only
    rw [wr_self]
  · dsimp only
    rw [wr_other (by decide), wr_other (by decide), k1 _ (by decide)]
    exact w1
  · dsimp only
    rw [wr_other (by decide), wr_self, due_vcount, ← due_next]
    omega
  · dsimp only
    rw [wr_self, due_frame _ _ _ _ hS, ← due_next]
    omega
  · dsimp only
    rw [wr_other (by decide), wr_other (by decide)]
    exact (c1 h).trans (by omega)
  · dsimp only
    rw [wr_other b3, wr_other b2, k1 b b1]

/-! ## Waiting -/

/-- In the right frame, VCOUNT is waited for. -/
theorem to_this_frame {fp : Nat} (R : Driver driverCode fp mem) (h : mem 0x1ba = a) (hq : ∀ z c, To ⟨mem 0x1a2, x, y, s, 0x188, z, c, mem⟩ Q) :
    To ⟨a, x, y, s, 0x1b9, z, c, mem⟩ Q := by
  refine to_cmp_imm (v := a) (R.at 0x95) h (by omega) ?_
  refine to_bne (t := 0x1b9) (d := 0xfc) (R.at 0x97) (R.at 0x98) (by omega) (by decide) (by omega) ?_
  rw [decide_eq_true (show (a - a) % 256 = 0 by omega), if_pos rfl]
  refine to_lda_abs (p := 0x1a2) (v := mem 0x1a2) (R.at 0x99) (by rw [R.at 0x9a (b := 0xa2), R.at 0x9b (b := 0x01)]; omega) rfl (by omega) ?_
  refine to_bcs (t := 0x188) (d := 0xc6) (R.at 0x9c) (R.at 0x9d) (by omega) (by decide) (by omega) ?_
  rw [decide_eq_true (show a ≤ a by omega), if_pos rfl]
  exact hq _ _

/-- At the right VCOUNT, the player is called. -/
theorem to_this_line {fp : Nat} (R : Driver driverCode fp mem) (h : mem 0xd40b = a) (hq : ∀ z c, To ⟨a, x, y, s, 0x18d, z, c, mem⟩ Q) :
    To ⟨a, x, y, s, 0x188, z, c, mem⟩ Q := by
  refine to_cmp_abs (p := 0xd40b) (v := a) (R.at 0x64) (by rw [R.at 0x65 (b := 0x0b), R.at 0x66 (b := 0xd4)]; omega) h (by omega) ?_
  refine to_bne (t := 0x188) (d := 0xfb) (R.at 0x67) (R.at 0x68) (by omega) (by decide) (by omega) ?_
  rw [decide_eq_true (show (a - a) % 256 = 0 by omega), if_pos rfl]
  exact hq _ _

/-! ## Nothing else can happen -/

theorem only_cmp_imm : ∀ (mn : Mn), ∀ k ∈ codes mn, k.opcode = 0xc9 → mn = .cmp ∧ k.mode = .imm := by intro mn; cases mn <;> decide

theorem only_cmp_abs : ∀ (mn : Mn), ∀ k ∈ codes mn, k.opcode = 0xcd → mn = .cmp ∧ k.mode = .abs := by intro mn; cases mn <;> decide

theorem only_bne : ∀ (mn : Mn), ∀ k ∈ codes mn, k.opcode = 0xd0 → mn = .bne ∧ k.mode = .rel := by intro mn; cases mn <;> decide

/-- While the frame is another one, the program stays in a loop of two instructions. -/
theorem stays_frame {fp : Nat} {st st' : State} (r : Runs st st') : ∀ (A : Int), Driver driverCode fp st.mem → (A - st.mem 0x1ba) % 256 ≠ 0 → st.a = A →
    (st.pc = 0x1b9 ∨ (st.pc = 0x1bb ∧ st.z = false)) → (st'.pc = 0x1b9 ∨ st'.pc = 0x1bb) ∧ st'.a = A ∧ st'.mem = st.mem := by
  induction r with
  | refl st =>
    intro A _ _ ha h
    exact ⟨h.imp id And.left, ha, rfl⟩
  | @step st st' mn k hk ho _ _ _ ih =>
    intro A R hne ha h
    rcases h with h | ⟨h, hz⟩
    · rw [h, R.at 0x95 (b := 0xc9)] at ho
      obtain ⟨rfl, hm⟩ := only_cmp_imm mn k hk ho.symm
      rw [hm] at ih
      refine ih A R hne ha (.inr ⟨?_, ?_⟩)
      · show st.pc + 2 = _
        rw [h]; rfl
      · show decide ((st.a - st.mem (st.pc + 1)) % 256 = 0) = false
        rw [h, ha]
        exact decide_eq_false hne
    · rw [h, R.at 0x97 (b := 0xd0)] at ho
      obtain ⟨rfl, hm⟩ := only_bne mn k hk ho.symm
      rw [hm] at ih
      refine ih A R hne ha (.inl ?_)
      show (if !st.z then (st.pc + 2 + State.signed (st.mem (st.pc + 1))) % 65536 else st.pc + 2) = _
      rw [hz, h, show st.mem (0x1bb + 1) = ((0xfc : Nat) : Int) from R.at 0x98]
      rfl

/-- While VCOUNT is another one, too. -/
theorem stays_line {fp : Nat} {st st' : State} (r : Runs st st') : ∀ (A : Int), Driver driverCode fp st.mem → (A - st.mem 0xd40b) % 256 ≠ 0 → st.a = A →
    (st.pc = 0x188 ∨ (st.pc = 0x18b ∧ st.z = false)) → (st'.pc = 0x188 ∨ st'.pc = 0x18b) ∧ st'.a = A ∧ st'.mem = st.mem := by
  induction r with
  | refl st =>
    intro A _ _ ha h
    exact ⟨h.imp id And.left, ha, rfl⟩
  | @step st st' mn k hk ho _ _ _ ih =>
    intro A R hne ha h
    rcases h with h | ⟨h, hz⟩
    · rw [h, R.at 0x64 (b := 0xcd)] at ho
      obtain ⟨rfl, hm⟩ := only_cmp_abs mn k hk ho.symm
      rw [hm] at ih
      refine ih A R hne ha (.inr ⟨?_, ?_⟩)
      · show st.pc + 3 = _
        rw [h]; rfl
      · show decide ((st.a - st.mem (st.mem (st.pc + 1) + 256 * st.mem (st.pc + 2))) % 256 = 0) = false
        rw [h, ha, show st.mem (0x188 + 1) = ((0x0b : Nat) : Int) from R.at 0x65, show st.mem (0x188 + 2) = ((0xd4 : Nat) : Int) from R.at 0x66]
        exact decide_eq_false hne
    · rw [h, R.at 0x67 (b := 0xd0)] at ho
      obtain ⟨rfl, hm⟩ := only_bne mn k hk ho.symm
      rw [hm] at ih
      refine ih A R hne ha (.inl ?_)
      show (if !st.z then (st.pc + 2 + State.signed (st.mem (st.pc + 1))) % 65536 else st.pc + 2) = _
      rw [hz, h, show st.mem (0x18b + 1) = ((0xfb : Nat) : Int) from R.at 0x68]
      rfl

end Asap.Flat
