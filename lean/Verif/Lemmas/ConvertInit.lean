import Verif.Lemmas.ConvertCode

/-! # The code that starts songs, as the processor sees it -/

namespace Asap.Spec.Convert
open Asap.Isa

/-- Bytes from an address on. -/
def Holds (mem : Int → Int) (p : Int) (l : List Int) : Prop := ∀ j : Nat, j < l.length → mem (p + j) = l.getD j 0

/-- The bytes are in the area that is kept. -/
def Within (keep : Int → Prop) (p : Int) (l : List Int) : Prop := ∀ j : Nat, j < l.length → keep (p + j)

theorem Holds.at {mem : Int → Int} {p q v : Int} {l : List Int} (h : Holds mem p l) (j : Nat) (hv : l[j]? = some v) (hq : p + j = q) : mem q = v := by
  have hj := (List.getElem?_eq_some_iff.mp hv).1
  rw [← hq, h j hj, List.getD_eq_getElem?_getD, hv]
  rfl

theorem Holds.of {mem mem' : Int → Int} {p : Int} {l : List Int} (h : Holds mem p l) (e : ∀ j : Nat, j < l.length → mem' (p + j) = mem (p + j)) : Holds mem' p l :=
  fun j hj => (e j hj).trans (h j hj)

/-- Stores on the stack do not matter above it. -/
def Above (mem mem' : Int → Int) : Prop := ∀ p, 512 ≤ p → mem' p = mem p

theorem Holds.above {mem mem' : Int → Int} {p : Int} {l : List Int} (h : Holds mem p l) (e : Above mem mem') (hp : 512 ≤ p) : Holds mem' p l :=
  h.of fun j _ => e _ (by omega)

theorem Above.trans {a b c : Int → Int} (h1 : Above a b) (h2 : Above b c) : Above a c := fun p hp => (h2 p hp).trans (h1 p hp)

theorem Above.refl (a : Int → Int) : Above a a := fun _ _ => rfl

theorem above_wr {mem : Int → Int} {p v : Int} (hp : p < 512) : Above mem (wr mem p v) := fun q hq => wr_other (by omega)

theorem above_called {mem : Int → Int} {s pc : Int} (hs : 0 ≤ s ∧ s < 256) : Above mem (called mem s pc) := fun q hq => by
  unfold called
  rw [wr_other (by omega), wr_other (by omega)]

/-- Only the stack and possibly byte 0 differ. -/
def OnlyStackM (zero : Bool) (s : Int) (mem mem' : Int → Int) : Prop :=
  ∀ p, mem' p ≠ mem p → (zero = true ∧ p = 0) ∨ (256 ≤ p ∧ p ≤ 256 + s)

theorem OnlyStackM.refl {zero : Bool} {s : Int} (mem : Int → Int) : OnlyStackM zero s mem mem := fun _ h => absurd rfl h

theorem OnlyStackM.trans {zero : Bool} {s : Int} {a b c : Int → Int} (h1 : OnlyStackM zero s a b) (h2 : OnlyStackM zero s b c) : OnlyStackM zero s a c := by
  intro p hp
  by_cases e : b p = a p
  · exact h2 p (by rw [e]; exact hp)
  · exact h1 p e

theorem onlyStackM_wr {zero : Bool} {s : Int} {mem : Int → Int} {p v : Int} (h : 256 ≤ p ∧ p ≤ 256 + s) : OnlyStackM zero s mem (wr mem p v) := by
  intro q hq
  by_cases e : q = p
  · exact Or.inr (by omega)
  · exact absurd (wr_other e) hq

theorem onlyStackM_zero {s : Int} {mem : Int → Int} {v : Int} : OnlyStackM true s mem (wr mem 0 v) := by
  intro q hq
  by_cases e : q = 0
  · exact Or.inl ⟨rfl, e⟩
  · exact absurd (wr_other e) hq

/-- A subroutine call leaves its return address. -/
theorem makes_jsr {keep : Int → Prop} {zero : Bool} {s0 : Int} {P : State → Prop} {st : State} {c : Call} {cs : List Call} {a x y s pc v : Int} {z cf : Bool} {mem : Int → Int}
    (hg : Goes (cfg st) ⟨a, x, y, s, pc, z, cf, mem⟩) (hpc : 0x200 ≤ pc ∧ pc < 0xcf00) (hs : 2 ≤ s ∧ s < 256) (h0 : s ≤ s0)
    (code : Holds mem pc [0x20, v % 256, v / 256]) (only : OnlyStackM zero s0 st.mem mem)
    (addr : c.addr = v) (ca : ∀ w, c.a = some w → a = w) (cx : ∀ w, c.x = some w → x = w) (cy : ∀ w, c.y = some w → y = w)
    (rest : ∀ back : State, back.pc = pc + 3 → back.s = s → (∀ p, keep p → 512 ≤ p → back.mem p = mem p) → (∀ p, 256 + s < p → p < 512 → back.mem p = mem p) →
      Makes keep zero s0 P back cs) : Makes keep zero s0 P st (c :: cs) := by
  have g := hg.trans (goes_jsr (v := v) (code.at 0 rfl (by omega)) (code.at 1 rfl (by omega)) (code.at 2 rfl (by omega)) hpc ⟨by omega, hs.2⟩)
  obtain ⟨st', r, e⟩ := g st rfl
  injection e with e1 e2 e3 e4 e5 e6 e7 e8
  have em : ∀ p, p < 256 ∨ 256 + s < p → st'.mem p = mem p := by
    intro p hp
    rw [e8]; unfold called
    rw [wr_other (by omega), wr_other (by omega)]
  refine .call r ?_ ⟨by rw [e5, addr], fun w hw => by rw [e1]; exact ca w hw, fun w hw => by rw [e2]; exact cx w hw, fun w hw => by rw [e3]; exact cy w hw⟩ ?_
  · intro p hp
    rw [e8] at hp
    exact (only.trans (OnlyStackM.trans (onlyStackM_wr (by omega)) (onlyStackM_wr (by omega)))) p hp
  · intro back hb
    have t1 : st'.top 1 = (pc + 2) % 256 := by
      unfold State.top
      rw [e8, e4]; unfold called
      rw [show 256 + ((s - 1 - 1) % 256 + 1) % 256 = 256 + (s - 1) % 256 by omega, wr_self]
    have t2 : st'.top 2 = (pc + 2) / 256 := by
      unfold State.top
      rw [e8, e4]; unfold called
      rw [show 256 + ((s - 1 - 1) % 256 + 2) % 256 = 256 + s by omega, wr_other (by omega), wr_self]
    refine rest back ?_ ?_ ?_ ?_
    · rw [hb.pc, t1, t2]; omega
    · rw [hb.s, e4]; omega
    · intro p hp h512
      rw [hb.keep p hp]
      exact em p (by omega)
    · intro p h1 h2
      rw [hb.stack p (by rw [e4]; omega) h2]
      exact em p (by omega)

/-- The last call. -/
theorem makes_last {keep : Int → Prop} {zero : Bool} {s0 : Int} {P : State → Prop} {st : State} {c : Call} {a x y pc : Int} {z cf : Bool} {mem : Int → Int}
    (hg : Goes (cfg st) ⟨a, x, y, s0, pc, z, cf, mem⟩) (only : OnlyStackM zero s0 st.mem mem)
    (addr : c.addr = pc) (ca : ∀ w, c.a = some w → a = w) (cx : ∀ w, c.x = some w → x = w) (cy : ∀ w, c.y = some w → y = w)
    (post : ∀ st' : State, st'.mem = mem → P st') : Makes keep zero s0 P st [c] := by
  obtain ⟨st', r, e⟩ := hg st rfl
  injection e with e1 e2 e3 e4 e5 e6 e7 e8
  refine .last r ?_ ⟨by rw [e5, addr], fun w hw => by rw [e1]; exact ca w hw, fun w hw => by rw [e2]; exact cx w hw, fun w hw => by rw [e3]; exact cy w hw⟩ e4 (post st' e8)
  intro p hp
  rw [e8] at hp
  exact only p hp

/-! ## Pieces -/

section
variable {keep : Int → Prop} {zero : Bool} {P : State → Prop} {st : State} {cs : List Call}

/-- Passing the address of the module, with the song saved. -/
theorem head_many {s0 pc lo hi k v : Int} (hk : ∀ p, keep p → 512 ≤ p) (code : Holds st.mem pc [0x48, 0xa0, lo, 0xa2, hi, 0xa9, k, 0x20, v % 256, v / 256])
    (hpc : st.pc = pc) (hp : 0x200 ≤ pc ∧ pc < 0xce00) (hs : 3 ≤ s0 ∧ s0 < 256) (es : st.s = s0)
    (rest : ∀ back : State, back.pc = pc + 10 → back.s = s0 - 1 → back.mem (256 + s0) = st.a → (∀ p, keep p → back.mem p = st.mem p) → Makes keep zero s0 P back cs) :
    Makes keep zero s0 P st (⟨v, some k, some hi, some lo⟩ :: cs) := by
  have e0 : cfg st = ⟨st.a, st.x, st.y, s0, pc, st.z, st.c, st.mem⟩ := by unfold cfg; rw [hpc, es]
  have code' : Holds (wr st.mem (256 + s0) st.a) pc _ := code.above (above_wr (by omega)) (by omega)
  have g : Goes (cfg st) ⟨k, hi, lo, (s0 - 1) % 256, pc + 7, decide (k = 0), st.c, wr st.mem (256 + s0) st.a⟩ := by
    rw [e0]
    refine (goes_pha (code.at 0 rfl (by omega)) (by omega)).trans ?_
    refine (goes_ldy (v := lo) (code'.at 1 rfl (by omega)) (code'.at 2 rfl (by omega)) (by omega)).trans ?_
    refine (goes_ldx (v := hi) (code'.at 3 rfl (by omega)) (code'.at 4 rfl (by omega)) (by omega)).trans ?_
    have := goes_lda (a := st.a) (x := hi) (y := lo) (s := (s0 - 1) % 256) (pc := pc + 5) (z := decide (hi = 0)) (c := st.c) (mem := wr st.mem (256 + s0) st.a) (v := k)
      (code'.at 5 rfl (by omega)) (code'.at 6 rfl (by omega)) (by omega)
    rw [show pc + 5 + 2 = pc + 7 by omega] at this
    rw [show pc + 1 + 2 + 2 = pc + 5 by omega]
    exact this
  refine makes_jsr g (by omega) (by omega) (by omega) ?_ (onlyStackM_wr (by omega)) rfl (by simp) (by simp) (by simp) ?_
  · intro j hj
    have := code' (j + 7) (by simp at hj ⊢; omega)
    rw [show pc + 7 + (j : Int) = pc + ((j + 7 : Nat) : Int) by omega, this]
    simp at hj
    match j, hj with
    | 0, _ => rfl
    | 1, _ => rfl
    | 2, _ => rfl
  · intro back h1 h2 h3 h4
    refine rest back (by omega) (by omega) ?_ ?_
    · rw [h4 _ (by omega) (by omega), wr_self]
    · intro p hkp
      rw [h3 p hkp (hk p hkp), wr_other (by have := hk p hkp; omega)]

/-- Passing the address of the module. -/
theorem head_one {s0 pc lo hi k v : Int} (hk : ∀ p, keep p → 512 ≤ p) (code : Holds st.mem pc [0xa0, lo, 0xa2, hi, 0xa9, k, 0x20, v % 256, v / 256])
    (hpc : st.pc = pc) (hp : 0x200 ≤ pc ∧ pc < 0xce00) (hs : 3 ≤ s0 ∧ s0 < 256) (es : st.s = s0)
    (rest : ∀ back : State, back.pc = pc + 9 → back.s = s0 → (∀ p, keep p → back.mem p = st.mem p) → Makes keep zero s0 P back cs) :
    Makes keep zero s0 P st (⟨v, some k, some hi, some lo⟩ :: cs) := by
  have e0 : cfg st = ⟨st.a, st.x, st.y, s0, pc, st.z, st.c, st.mem⟩ := by unfold cfg; rw [hpc, es]
  have g : Goes (cfg st) ⟨k, hi, lo, s0, pc + 6, decide (k = 0), st.c, st.mem⟩ := by
    rw [e0]
    refine (goes_ldy (v := lo) (code.at 0 rfl (by omega)) (code.at 1 rfl (by omega)) (by omega)).trans ?_
    refine (goes_ldx (v := hi) (code.at 2 rfl (by omega)) (code.at 3 rfl (by omega)) (by omega)).trans ?_
    have := goes_lda (a := st.a) (x := hi) (y := lo) (s := s0) (pc := pc + 4) (z := decide (hi = 0)) (c := st.c) (mem := st.mem) (v := k)
      (code.at 4 rfl (by omega)) (code.at 5 rfl (by omega)) (by omega)
    rw [show pc + 4 + 2 = pc + 6 by omega] at this
    rw [show pc + 2 + 2 = pc + 4 by omega]
    exact this
  refine makes_jsr g (by omega) (by omega) (by omega) ?_ (OnlyStackM.refl _) rfl (by simp) (by simp) (by simp) ?_
  · intro j hj
    have := code (j + 6) (by simp at hj ⊢; omega)
    rw [show pc + 6 + (j : Int) = pc + ((j + 6 : Nat) : Int) by omega, this]
    simp at hj
    match j, hj with
    | 0, _ => rfl
    | 1, _ => rfl
    | 2, _ => rfl
  · intro back h1 h2 h3 h4
    exact rest back (by omega) (by omega) fun p hkp => h3 p hkp (hk p hkp)

/-- The saved song in X, and zero in A. -/
theorem goes_plaTaxLda0 {s0 pc song : Int} (code : Holds st.mem pc [0x68, 0xaa, 0xa9, 0]) (hpc : st.pc = pc) (hp : 0x200 ≤ pc ∧ pc < 0xce00)
    (hs : 3 ≤ s0 ∧ s0 < 256) (es : st.s = s0 - 1) (top : st.mem (256 + s0) = song) :
    Goes (cfg st) ⟨0, song, st.y, s0, pc + 4, true, st.c, st.mem⟩ := by
  have e0 : cfg st = ⟨st.a, st.x, st.y, s0 - 1, pc, st.z, st.c, st.mem⟩ := by unfold cfg; rw [hpc, es]
  rw [e0]
  have es : (s0 - 1 + 1) % 256 = s0 := by omega
  have g1 := goes_pla (a := st.a) (x := st.x) (y := st.y) (s := s0 - 1) (pc := pc) (z := st.z) (c := st.c) (mem := st.mem) (v := song) (code.at 0 rfl (by omega)) (by omega) (by rw [es]; exact top)
  rw [es] at g1
  refine g1.trans ((goes_tax (code.at 1 rfl (by omega)) (by omega)).trans ?_)
  have g3 := goes_lda (a := song) (x := song) (y := st.y) (s := s0) (pc := pc + 2) (z := decide (song = 0)) (c := st.c) (mem := st.mem) (v := 0) (code.at 2 rfl (by omega)) (code.at 3 rfl (by omega)) (by omega)
  rw [show pc + 2 + 2 = pc + 4 by omega] at g3
  rw [show pc + 1 + 1 = pc + 2 by omega]
  exact g3

end

/-! ## DLT -/

section
variable {keep : Int → Prop} {zero : Bool} {P : State → Prop} {st : State}

theorem dlt_many {s0 song t pos : Int} (code : Holds st.mem 0x3f9 [0xaa, 0xbc, t % 256, t / 256, 0x4c, 0, 5]) (tab : st.mem (t + song) = pos)
    (ht : 0x200 ≤ t) (hsong : 0 ≤ song ∧ t + song < 0x3f9) (hpc : st.pc = 0x3f9) (ha : st.a = song) (es : st.s = s0)
    (post : ∀ st' : State, (∀ p, keep p → st'.mem p = st.mem p) → P st') : Makes keep zero s0 P st [⟨0x500, none, none, some pos⟩] := by
  have e0 : cfg st = ⟨song, st.x, st.y, s0, 0x3f9, st.z, st.c, st.mem⟩ := by unfold cfg; rw [hpc, es, ha]
  have g : Goes (cfg st) ⟨song, song, pos, s0, 0x500, decide (pos = 0), st.c, st.mem⟩ := by
    rw [e0]
    refine (goes_tax (code.at 0 rfl rfl) (by decide)).trans ?_
    refine (goes_ldyX (p := t) (v := pos) (code.at 1 rfl rfl) ?_ (by decide) (by omega) tab).trans ?_
    · rw [code.at 2 (v := t % 256) rfl (by decide), code.at 3 (v := t / 256) rfl (by decide)]; omega
    · exact goes_jmp (code.at 4 rfl (by decide)) (by rw [code.at 5 (v := 0) rfl (by decide), code.at 6 (v := 5) rfl (by decide)]; decide) (by decide)
  exact makes_last g (OnlyStackM.refl _) rfl (by simp) (by simp) (by simp) fun st' e => post st' fun p _ => by rw [e]

theorem dlt_one {s0 : Int} (code : Holds st.mem 0x3fb [0xa0, 0, 0x4c, 0, 5]) (hpc : st.pc = 0x3fb) (es : st.s = s0)
    (post : ∀ st' : State, (∀ p, keep p → st'.mem p = st.mem p) → P st') : Makes keep zero s0 P st [⟨0x500, none, none, some 0⟩] := by
  have e0 : cfg st = ⟨st.a, st.x, st.y, s0, 0x3fb, st.z, st.c, st.mem⟩ := by unfold cfg; rw [hpc, es]
  have g : Goes (cfg st) ⟨st.a, st.x, 0, s0, 0x500, true, st.c, st.mem⟩ := by
    rw [e0]
    refine (goes_ldy (v := 0) (code.at 0 rfl rfl) (code.at 1 rfl rfl) (by decide)).trans ?_
    exact goes_jmp (code.at 2 rfl rfl) (by rw [code.at 3 (v := 0) rfl (by decide), code.at 4 (v := 5) rfl (by decide)]; decide) (by decide)
  exact makes_last g (OnlyStackM.refl _) rfl (by simp) (by simp) (by simp) fun st' e => post st' fun p _ => by rw [e]

/-! ## MPT -/

theorem Holds.sub {mem : Int → Int} {p : Int} {l l' : List Int} (h : Holds mem p l) (i : Nat) (e : (l.drop i).take l'.length = l') : Holds mem (p + i) l' := by
  intro j hj
  have hl : i + j < l.length := by
    have : ((l.drop i).take l'.length).length = l'.length := by rw [e]
    simp at this
    omega
  have := h (i + j) hl
  rw [show p + (i : Int) + (j : Int) = p + ((i + j : Nat) : Int) by omega, this]
  rw [List.getD_eq_getElem?_getD, List.getD_eq_getElem?_getD, ← e, List.getElem?_take_of_lt hj, List.getElem?_drop]

theorem mpt_many {s0 song t pos lo hi : Int} (hk : ∀ p, keep p → 512 ≤ p) (hc : ∀ p, 0x4ef ≤ p → p < 0x500 → keep p) (hkt : keep (t + song))
    (code : Holds st.mem 0x4ef [0x48, 0xa0, lo, 0xa2, hi, 0xa9, 0, 0x20, 0, 5, 0x68, 0xa8, 0xbe, t % 256, t / 256, 0xa9, 2])
    (tab : st.mem (t + song) = pos) (hsong : 0 ≤ t + song ∧ t + song < 0x4ef) (hpc : st.pc = 0x4ef) (ha : st.a = song) (es : st.s = s0) (hs : 3 ≤ s0 ∧ s0 < 256)
    (post : ∀ st' : State, (∀ p, keep p → st'.mem p = st.mem p) → P st') :
    Makes keep zero s0 P st [⟨0x500, some 0, some hi, some lo⟩, ⟨0x500, some 2, some pos, none⟩] := by
  refine head_many hk (v := 0x500) (code.sub 0 rfl) hpc (by decide) hs es ?_
  intro back b1 b2 b3 b4
  have code' : Holds back.mem 0x4f9 [0x68, 0xa8, 0xbe, t % 256, t / 256, 0xa9, 2] := by
    refine (code.sub (l' := [0x68, 0xa8, 0xbe, t % 256, t / 256, 0xa9, 2]) 10 rfl).of fun j hj => b4 _ ?_
    have : j < 7 := hj
    exact hc _ (by show _ ≤ (1263 + (10 : Nat) + j : Int); omega) (by show (1263 + (10 : Nat) + j : Int) < _; omega)
  have e0 : cfg back = ⟨back.a, back.x, back.y, s0 - 1, 0x4f9, back.z, back.c, back.mem⟩ := by unfold cfg; rw [b1, b2]; rfl
  have e1 : (s0 - 1 + 1) % 256 = s0 := by omega
  have g : Goes (cfg back) ⟨2, pos, song, s0, 0x500, false, back.c, back.mem⟩ := by
    rw [e0]
    have g1 := goes_pla (a := back.a) (x := back.x) (y := back.y) (s := s0 - 1) (pc := 0x4f9) (z := back.z) (c := back.c) (mem := back.mem) (v := song) (code'.at 0 rfl (by decide)) (by decide) (by rw [e1, b3, ha])
    rw [e1] at g1
    refine g1.trans ((goes_tay (code'.at 1 rfl rfl) (by decide)).trans ?_)
    refine (goes_ldxY (p := t) (v := pos) (code'.at 2 rfl rfl) ?_ (by decide) (by omega) ((b4 _ hkt).trans tab)).trans ?_
    · rw [code'.at 3 (v := t % 256) rfl (by decide), code'.at 4 (v := t / 256) rfl (by decide)]; omega
    · exact goes_lda (v := 2) (code'.at 5 rfl rfl) (code'.at 6 rfl rfl) (by decide)
  exact makes_last g (OnlyStackM.refl _) rfl (by simp) (by simp) (by simp) fun st' e => post st' fun p hp => by rw [e]; exact b4 p hp

theorem mpt_one {s0 lo hi : Int} (hk : ∀ p, keep p → 512 ≤ p) (hc : ∀ p, 0x4f3 ≤ p → p < 0x500 → keep p)
    (code : Holds st.mem 0x4f3 [0xa0, lo, 0xa2, hi, 0xa9, 0, 0x20, 0, 5, 0xa2, 0, 0xa9, 2])
    (hpc : st.pc = 0x4f3) (es : st.s = s0) (hs : 3 ≤ s0 ∧ s0 < 256)
    (post : ∀ st' : State, (∀ p, keep p → st'.mem p = st.mem p) → P st') :
    Makes keep zero s0 P st [⟨0x500, some 0, some hi, some lo⟩, ⟨0x500, some 2, some 0, none⟩] := by
  refine head_one hk (v := 0x500) (code.sub 0 rfl) hpc (by decide) hs es ?_
  intro back b1 b2 b4
  have code' : Holds back.mem 0x4fc [0xa2, 0, 0xa9, 2] := by
    refine (code.sub (l' := [0xa2, 0, 0xa9, 2]) 9 rfl).of fun j hj => b4 _ ?_
    have : j < 4 := hj
    exact hc _ (by show _ ≤ (1267 + (9 : Nat) + j : Int); omega) (by show (1267 + (9 : Nat) + j : Int) < _; omega)
  have e0 : cfg back = ⟨back.a, back.x, back.y, s0, 0x4fc, back.z, back.c, back.mem⟩ := by unfold cfg; rw [b1, b2]; rfl
  have g : Goes (cfg back) ⟨2, 0, back.y, s0, 0x500, false, back.c, back.mem⟩ := by
    rw [e0]
    refine (goes_ldx (v := 0) (code'.at 0 rfl rfl) (code'.at 1 rfl rfl) (by decide)).trans ?_
    exact goes_lda (v := 2) (code'.at 2 rfl rfl) (code'.at 3 rfl rfl) (by decide)
  exact makes_last g (OnlyStackM.refl _) rfl (by simp) (by simp) (by simp) fun st' e => post st' fun p hp => by rw [e]; exact b4 p hp

/-! ## RMT -/

theorem rmt_many {s0 song pos lo hi : Int} (code : Holds st.mem 0xc80 [0xa8, 0xb9, 0x8b, 0x0c, 0xa2, lo, 0xa0, hi, 0x4c, 0, 6]) (tab : st.mem (0xc8b + song) = pos)
    (hsong : 0 ≤ song ∧ song < 256) (hpc : st.pc = 0xc80) (ha : st.a = song) (es : st.s = s0)
    (post : ∀ st' : State, (∀ p, keep p → st'.mem p = st.mem p) → P st') : Makes keep zero s0 P st [⟨0x600, some pos, some lo, some hi⟩] := by
  have e0 : cfg st = ⟨song, st.x, st.y, s0, 0xc80, st.z, st.c, st.mem⟩ := by unfold cfg; rw [hpc, es, ha]
  have g : Goes (cfg st) ⟨pos, lo, hi, s0, 0x600, decide (hi = 0), st.c, st.mem⟩ := by
    rw [e0]
    refine (goes_tay (code.at 0 rfl rfl) (by decide)).trans ?_
    refine (goes_ldaY (p := 0xc8b) (v := pos) (code.at 1 rfl rfl) ?_ (by decide) (by omega) tab).trans ?_
    · rw [code.at 2 (v := 0x8b) rfl (by decide), code.at 3 (v := 0x0c) rfl (by decide)]; decide
    refine (goes_ldx (v := lo) (code.at 4 rfl rfl) (code.at 5 rfl rfl) (by decide)).trans ?_
    refine (goes_ldy (v := hi) (code.at 6 rfl rfl) (code.at 7 rfl rfl) (by decide)).trans ?_
    exact goes_jmp (code.at 8 rfl (by decide)) (by rw [code.at 9 (v := 0) rfl (by decide), code.at 10 (v := 6) rfl (by decide)]; decide) (by decide)
  exact makes_last g (OnlyStackM.refl _) rfl (by simp) (by simp) (by simp) fun st' e => post st' fun p _ => by rw [e]

theorem rmt_one {s0 lo hi : Int} (code : Holds st.mem 0xc80 [0xa9, 0, 0xa2, lo, 0xa0, hi, 0x4c, 0, 6]) (hpc : st.pc = 0xc80) (es : st.s = s0)
    (post : ∀ st' : State, (∀ p, keep p → st'.mem p = st.mem p) → P st') : Makes keep zero s0 P st [⟨0x600, some 0, some lo, some hi⟩] := by
  have e0 : cfg st = ⟨st.a, st.x, st.y, s0, 0xc80, st.z, st.c, st.mem⟩ := by unfold cfg; rw [hpc, es]
  have g : Goes (cfg st) ⟨0, lo, hi, s0, 0x600, decide (hi = 0), st.c, st.mem⟩ := by
    rw [e0]
    refine (goes_lda (v := 0) (code.at 0 rfl rfl) (code.at 1 rfl rfl) (by decide)).trans ?_
    refine (goes_ldx (v := lo) (code.at 2 rfl rfl) (code.at 3 rfl rfl) (by decide)).trans ?_
    refine (goes_ldy (v := hi) (code.at 4 rfl rfl) (code.at 5 rfl rfl) (by decide)).trans ?_
    exact goes_jmp (code.at 6 rfl (by decide)) (by rw [code.at 7 (v := 0) rfl (by decide), code.at 8 (v := 6) rfl (by decide)]; decide) (by decide)
  exact makes_last g (OnlyStackM.refl _) rfl (by simp) (by simp) (by simp) fun st' e => post st' fun p _ => by rw [e]

/-! ## TM2 -/

theorem tm2_many {s0 song lo hi : Int} (hk : ∀ p, keep p → 512 ≤ p) (hc : ∀ p, 0x1380 ≤ p → p < 0x1391 → keep p)
    (code : Holds st.mem 0x1380 [0x48, 0xa0, lo, 0xa2, hi, 0xa9, 0x70, 0x20, 0, 8, 0x68, 0xaa, 0xa9, 0, 0x4c, 0, 8])
    (hpc : st.pc = 0x1380) (ha : st.a = song) (es : st.s = s0) (hs : 3 ≤ s0 ∧ s0 < 256)
    (post : ∀ st' : State, (∀ p, keep p → st'.mem p = st.mem p) → P st') :
    Makes keep zero s0 P st [⟨0x800, some 0x70, some hi, some lo⟩, ⟨0x800, some 0, some song, none⟩] := by
  refine head_many hk (v := 0x800) (code.sub 0 rfl) hpc (by decide) hs es ?_
  intro back b1 b2 b3 b4
  have code' : Holds back.mem 0x138a [0x68, 0xaa, 0xa9, 0, 0x4c, 0, 8] := by
    refine (code.sub (l' := [0x68, 0xaa, 0xa9, 0, 0x4c, 0, 8]) 10 rfl).of fun j hj => b4 _ ?_
    have : j < 7 := hj
    exact hc _ (by show _ ≤ (0x1380 + (10 : Nat) + j : Int); omega) (by show (0x1380 + (10 : Nat) + j : Int) < _; omega)
  have g : Goes (cfg back) ⟨0, song, back.y, s0, 0x800, true, back.c, back.mem⟩ := by
    refine (goes_plaTaxLda0 (pc := 0x138a) (code'.sub 0 rfl) (by rw [b1]; decide) (by decide) hs b2 (b3.trans ha)).trans ?_
    exact goes_jmp (code'.at 4 rfl rfl) (by rw [code'.at 5 (v := 0) rfl (by decide), code'.at 6 (v := 8) rfl (by decide)]; decide) (by decide)
  exact makes_last g (OnlyStackM.refl _) rfl (by simp) (by simp) (by simp) fun st' e => post st' fun p hp => by rw [e]; exact b4 p hp

theorem tm2_one {s0 lo hi : Int} (hk : ∀ p, keep p → 512 ≤ p) (hc : ∀ p, 0x1380 ≤ p → p < 0x138f → keep p)
    (code : Holds st.mem 0x1380 [0xa0, lo, 0xa2, hi, 0xa9, 0x70, 0x20, 0, 8, 0xa9, 0, 0xaa, 0x4c, 0, 8])
    (hpc : st.pc = 0x1380) (es : st.s = s0) (hs : 3 ≤ s0 ∧ s0 < 256)
    (post : ∀ st' : State, (∀ p, keep p → st'.mem p = st.mem p) → P st') :
    Makes keep zero s0 P st [⟨0x800, some 0x70, some hi, some lo⟩, ⟨0x800, some 0, some 0, none⟩] := by
  refine head_one hk (v := 0x800) (code.sub 0 rfl) hpc (by decide) hs es ?_
  intro back b1 b2 b4
  have code' : Holds back.mem 0x1389 [0xa9, 0, 0xaa, 0x4c, 0, 8] := by
    refine (code.sub (l' := [0xa9, 0, 0xaa, 0x4c, 0, 8]) 9 rfl).of fun j hj => b4 _ ?_
    have : j < 6 := hj
    exact hc _ (by show _ ≤ (0x1380 + (9 : Nat) + j : Int); omega) (by show (0x1380 + (9 : Nat) + j : Int) < _; omega)
  have e0 : cfg back = ⟨back.a, back.x, back.y, s0, 0x1389, back.z, back.c, back.mem⟩ := by unfold cfg; rw [b1, b2]; rfl
  have g : Goes (cfg back) ⟨0, 0, back.y, s0, 0x800, true, back.c, back.mem⟩ := by
    rw [e0]
    refine (goes_lda (v := 0) (code'.at 0 rfl rfl) (code'.at 1 rfl rfl) (by decide)).trans ?_
    refine (goes_tax (code'.at 2 rfl rfl) (by decide)).trans ?_
    exact goes_jmp (code'.at 3 rfl rfl) (by rw [code'.at 4 (v := 0) rfl (by decide), code'.at 5 (v := 8) rfl (by decide)]; decide) (by decide)
  exact makes_last g (OnlyStackM.refl _) rfl (by simp) (by simp) (by simp) fun st' e => post st' fun p hp => by rw [e]; exact b4 p hp

end

end Asap.Spec.Convert
