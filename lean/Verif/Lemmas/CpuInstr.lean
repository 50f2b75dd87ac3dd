import Verif.Lemmas.Cpu

/-! Every instruction keeps the invariant of the machine and takes a bounded time. -/

namespace Asap
open Machine (dFlag iFlag vFlag)

/-! ### Arithmetic -/

structure AluOk (r : Machine.Alu) : Prop where
  a : Byte r.a
  nz : 0 ≤ r.nz ∧ r.nz < 512
  c : r.c = 0 ∨ r.c = 1
  vdi : IsVdi r.vdi

theorem band_0f (v : Int) : band v 0x0f = v % 16 := band_f v

theorem adcLow_range {a d c : Int} (ha : Byte a) (hd : Byte d) (hc : c = 0 ∨ c = 1) : 0 ≤ Machine.adcLow a d c ∧ Machine.adcLow a d c < 518 := by
  unfold Byte at ha hd
  unfold Machine.adcLow
  rw [band_0f, band_0f]
  dsimp only
  repeat' split
  all_goals omega

theorem adcNz_range (a d c : Int) : 0 ≤ Machine.adcNz a d c ∧ Machine.adcNz a d c < 512 := by
  unfold Machine.adcNz
  have h1 := Byte.ff (a + d + c)
  have h2 : band (Machine.adcLow a d c) 0x80 = 0 ∨ band (Machine.adcLow a d c) 0x80 = 0x80 := band_bit 7 _
  unfold Byte at h1
  dsimp only
  split <;> omega

theorem adcAlu_ok {a d c vdi : Int} (ha : Byte a) (hd : Byte d) (hc : c = 0 ∨ c = 1) (hv : IsVdi vdi) :
    AluOk (Machine.adcAlu a d c vdi) := by
  unfold Machine.adcAlu
  split
  · refine ⟨Byte.ff _, (Byte.ff _).nz, ?_, vdi_newV hv _⟩
    unfold Machine.adcBinary
    dsimp only
    rw [shr_8]
    unfold Byte at ha hd
    omega
  · refine ⟨?_, adcNz_range _ _ _, ?_, vdi_newV hv _⟩
    · unfold Machine.adcDecimal
      have := adcLow_range ha hd hc
      dsimp only
      split
      · exact Byte.ff _
      · unfold Byte; omega
    · unfold Machine.adcDecimal
      dsimp only
      split <;> simp

theorem sbcA_range {a d c vdi : Int} (ha : Byte a) (hd : Byte d) (hc : c = 0 ∨ c = 1) : Byte (Machine.sbcA a d c vdi) := by
  unfold Machine.sbcA
  dsimp only
  split
  · split
    · have ht := Byte.ff (a - d + (c - 1))
      rw [band_0f, band_0f]
      rw [band_ff] at *
      unfold Byte at *
      repeat' split
      all_goals omega
    · exact Byte.ff _
  · exact Byte.ff _

theorem sbcAlu_ok {a d c vdi : Int} (ha : Byte a) (hd : Byte d) (hc : c = 0 ∨ c = 1) (hv : IsVdi vdi) :
    AluOk (Machine.sbcAlu a d c vdi) := by
  refine ⟨sbcA_range ha hd hc, (Byte.ff _).nz, ?_, vdi_newV hv _⟩
  unfold Machine.sbcAlu
  dsimp only
  split <;> simp

section
variable {α : Type} {E : Hw → Prop} {m0 : Machine} {β : Int → Int} {b lo hi elo ehi : Int} {Q : α → Machine → Prop}

local notation "OK" => Ok m0 β lo hi elo ehi
local notation "MUM" => Ok m0 (fun _ => b) lo hi elo ehi
local notation "NOW" => Ok m0 id lo hi elo ehi
local notation "LATE" => Ok m0 id lo (hi + (106 - hi) % 114) elo ehi

theorem ok_setAlu {r : Machine.Alu} (h : AluOk r) : Tri E OK (Machine.setAlu r) fun _ => OK :=
  (ok_setA h.a).then <| (ok_setNz h.nz).then <| (ok_setC h.c).then (ok_setVdi h.vdi)

theorem ok_addWithCarry {d : Int} (hd : Byte d) : Tri E OK (Machine.addWithCarry d) fun _ => OK :=
  Tri.bindReg (fun _ h => adcAlu_ok h.cpu.a hd h.cpu.c h.cpu.vdi) fun _ h => ok_setAlu h

theorem ok_subtractWithCarry {d : Int} (hd : Byte d) : Tri E OK (Machine.subtractWithCarry d) fun _ => OK :=
  Tri.bindReg (fun _ h => sbcAlu_ok h.cpu.a hd h.cpu.c h.cpu.vdi) fun _ h => ok_setAlu h

theorem ok_compare {r d : Int} : Tri E OK (Machine.compare r d) fun _ => OK :=
  (ok_setC (by split <;> simp)).then (ok_setNz (Byte.ff _).nz)

theorem ok_executeIrq {b : Int} : Tri E OK (Machine.executeIrq b) fun _ => OK :=
  ok_pushPc.then <| ok_pushFlags.then <| readVdi fun _ hv => (ok_setVdi (vdi_bor hv (by unfold IsVdi; decide))).then <|
    (ok_load (by omega)).bindF fun _ _ => (ok_load (by omega)).bindF fun _ _ => ok_setPc

theorem ok_checkIrq : Tri E MUM Machine.checkIrq fun _ => Ok m0 (fun _ => b) lo (hi + 7) elo ehi :=
  readVdi fun _ _ => Tri.bindGet (φ := fun _ => True) (fun _ _ => trivial) fun _ _ =>
    Tri.when (fun _ => (ok_addCycle 7).then (ok_executeIrq.post fun _ _ h => h.widen (by omega) (by omega)))
      fun _ _ h => h.widen (by omega) (by omega)

/-! ### Addressing -/

theorem word_range {a b : Int} (ha : Byte a) (hb : Byte b) : 0 ≤ a + shl b 8 ∧ a + shl b 8 < 65536 := by
  rw [shl_8]; unfold Byte at *; omega

theorem byte_addr {a : Int} (h : Byte a) : 0 ≤ a ∧ a < 65536 := by unfold Byte at h; omega

theorem ok_zpWord {zp : Int} (h : Byte zp) : Tri E OK (Machine.zpWord zp) fun a m => OK m ∧ 0 ≤ a ∧ a < 65536 :=
  (ok_load (byte_addr h)).bindF fun _ hl => (ok_load (byte_addr (Byte.ff _))).bindF fun _ hh =>
    Tri.pure fun _ hm => ⟨hm, word_range hl hh⟩

theorem band_addr (v : Int) : 0 ≤ band v 0xffff ∧ band v 0xffff < 65536 := by rw [band_ffff]; omega

local notation "SLOW" => Ok m0 (fun _ => b) lo (hi + 1) elo ehi

theorem ok_maybeSlow {c : Prop} [Decidable c] : Tri E MUM (C.when c (Machine.addCycle 1)) fun _ => SLOW :=
  Tri.when (fun _ => (ok_addCycle 1).post fun _ _ h => h.widen (by omega) (by omega)) fun _ _ h => h.widen (by omega) (by omega)

theorem ok_absIndexed {i : Int} {slow : Bool} : Tri CpuBad MUM (Machine.absIndexed i slow) fun a m => SLOW m ∧ 0 ≤ a ∧ a < 65536 :=
  ok_fetch.bindF fun _ _ => ok_maybeSlow.then <| ok_fetch.bindF fun _ _ => Tri.pure fun _ hm => ⟨hm, band_addr _⟩

theorem ok_indIndexed {slow : Bool} : Tri CpuBad MUM (Machine.indIndexed slow) fun a m => SLOW m ∧ 0 ≤ a ∧ a < 65536 :=
  ok_fetch.bindF fun _ hz => (ok_load (byte_addr hz)).bindF fun _ _ => readY fun _ _ => ok_maybeSlow.then <|
    (ok_load (byte_addr (Byte.ff _))).bindF fun _ _ => Tri.pure fun _ hm => ⟨hm, band_addr _⟩

theorem ok_immediate : Tri CpuBad OK (Machine.address .imm) fun a m => OK m ∧ 0 ≤ a ∧ a < 65536 := by
  intro m hm
  show XPost CpuBad _ (C.bind Machine.fetch (fun _ => Pure.pure m.cpu.pc) m)
  have hf := ok_fetch (m0 := m0) (β := β) (lo := lo) (hi := hi) (elo := elo) (ehi := ehi) m hm
  by_cases hp : 0 ≤ m.cpu.pc ∧ m.cpu.pc < 65536
  · unfold C.bind
    cases h : Machine.fetch m with
    | error e => rw [h] at hf; exact hf
    | ok r => rw [h] at hf; exact ⟨hf.1, hp⟩
  · have : Machine.fetch m = .error .pc := by
      show C.bind Machine.here _ m = _
      unfold C.bind Machine.here
      rw [if_neg hp]
    unfold C.bind
    rw [this]
    exact Or.inl rfl

theorem Tri.slow {f : C Int} {φ : Int → Prop} (h : Tri E MUM f fun a m => MUM m ∧ φ a) : Tri E MUM f fun a m => SLOW m ∧ φ a :=
  h.post fun _ _ hm => ⟨hm.1.widen (by omega) (by omega), hm.2⟩

theorem ok_address (mode : Machine.Mode) : Tri CpuBad MUM (Machine.address mode) fun a m => SLOW m ∧ 0 ≤ a ∧ a < 65536 := by
  cases mode with
  | indX => exact Tri.slow (ok_fetch.bindF fun _ _ => readX fun _ _ => ok_zpWord (Byte.ff _))
  | zp => exact Tri.slow (ok_fetch.post fun _ _ h => ⟨h.1, byte_addr h.2⟩)
  | imm => exact Tri.slow ok_immediate
  | abs => exact Tri.slow (ok_fetch.bindF fun _ hl => ok_fetch.bindF fun _ hh => Tri.pure fun _ hm => ⟨hm, word_range hl hh⟩)
  | indYp => exact ok_indIndexed
  | indY => exact ok_indIndexed
  | zpX => exact Tri.slow (ok_fetch.bindF fun _ _ => readX fun _ _ => Tri.pure fun _ hm => ⟨hm, byte_addr (Byte.ff _)⟩)
  | zpY => exact Tri.slow (ok_fetch.bindF fun _ _ => readY fun _ _ => Tri.pure fun _ hm => ⟨hm, byte_addr (Byte.ff _)⟩)
  | absYp => exact readY fun _ _ => ok_absIndexed
  | absY => exact readY fun _ _ => ok_absIndexed
  | absXp => exact readX fun _ _ => ok_absIndexed
  | absX => exact readX fun _ _ => ok_absIndexed

/-! ### Operations -/

theorem Tri.say {f : C Unit} (h : Tri E MUM f fun _ => MUM) {d : Int} (hb : b ≤ lo := by omega) (hd : 0 ≤ d := by omega) :
    Tri E MUM f fun _ => Ok m0 id lo (hi + d) elo ehi :=
  h.post fun _ _ hm => (hm.speak hb).widen (Int.le_refl _) (by omega)

variable (hr : 0 ≤ m0.pk.rate ∧ m0.pk.rate ≤ 48000)

theorem byte_carry {v : Int} (h : Byte v) : shr v 7 = 0 ∨ shr v 7 = 1 := by rw [shr_7]; unfold Byte at h; omega

include hr in
theorem ok_shiftLeft (hlo : 1 ≤ lo) (hhi : hi ≤ Pair.latest) (he : elo + 1 ≤ lo) (hb : b + 1 ≤ lo) {a : Int} (ha : 0 ≤ a ∧ a < 65536) :
    Tri CpuBad MUM (Machine.shiftLeft a) fun v m => LATE m ∧ Byte v :=
  (ok_peekRmw hr hlo hhi he hb ha).bindF fun v hv => (ok_setC (byte_carry hv)).then <|
    (ok_poke hr (by omega) hhi (by omega) ha (Byte.ff _)).then (Tri.pure fun _ hm => ⟨hm, Byte.ff _⟩)

include hr in
theorem ok_rotateLeft (hlo : 1 ≤ lo) (hhi : hi ≤ Pair.latest) (he : elo + 1 ≤ lo) (hb : b + 1 ≤ lo) {a : Int} (ha : 0 ≤ a ∧ a < 65536) :
    Tri CpuBad MUM (Machine.rotateLeft a) fun v m => LATE m ∧ Byte v :=
  (ok_peekRmw hr hlo hhi he hb ha).bindF fun v hv => readC fun c hc =>
    (ok_setC (by rw [shr_8, shl_1]; unfold Byte at hv; omega)).then <|
    (ok_poke hr (by omega) hhi (by omega) ha (Byte.ff _)).then (Tri.pure fun _ hm => ⟨hm, Byte.ff _⟩)

include hr in
theorem ok_shiftRight (hlo : 1 ≤ lo) (hhi : hi ≤ Pair.latest) (he : elo + 1 ≤ lo) (hb : b + 1 ≤ lo) {a : Int} (ha : 0 ≤ a ∧ a < 65536) :
    Tri CpuBad MUM (Machine.shiftRight a) fun v m => LATE m ∧ Byte v :=
  (ok_peekRmw hr hlo hhi he hb ha).bindF fun v hv => (ok_setC (bit0 v)).then <|
    (ok_poke hr (by omega) hhi (by omega) ha hv.shr1).then (Tri.pure fun _ hm => ⟨hm, hv.shr1⟩)

theorem ror_byte {c v : Int} (hc : c = 0 ∨ c = 1) (hv : Byte v) : Byte (shr (shl c 8 + v) 1) := by
  rw [shr_1, shl_8]; unfold Byte at *; omega

include hr in
theorem ok_rotateRight (hlo : 1 ≤ lo) (hhi : hi ≤ Pair.latest) (he : elo + 1 ≤ lo) (hb : b + 1 ≤ lo) {a : Int} (ha : 0 ≤ a ∧ a < 65536) :
    Tri CpuBad MUM (Machine.rotateRight a) fun v m => LATE m ∧ Byte v :=
  (ok_peekRmw hr hlo hhi he hb ha).bindF fun v hv => readC fun c hc => (ok_setC (bit0 _)).then <|
    (ok_poke hr (by omega) hhi (by omega) ha (ror_byte hc hv)).then (Tri.pure fun _ hm => ⟨hm, ror_byte hc hv⟩)

include hr in
theorem ok_decrement (hlo : 1 ≤ lo) (hhi : hi ≤ Pair.latest) (he : elo + 1 ≤ lo) (hb : b + 1 ≤ lo) {a : Int} (ha : 0 ≤ a ∧ a < 65536) :
    Tri CpuBad MUM (Machine.decrement a) fun v m => LATE m ∧ Byte v :=
  (ok_peekRmw hr hlo hhi he hb ha).bindF fun v hv =>
    (ok_poke hr (by omega) hhi (by omega) ha (Byte.ff _)).then (Tri.pure fun _ hm => ⟨hm, Byte.ff _⟩)

include hr in
theorem ok_increment (hlo : 1 ≤ lo) (hhi : hi ≤ Pair.latest) (he : elo + 1 ≤ lo) (hb : b + 1 ≤ lo) {a : Int} (ha : 0 ≤ a ∧ a < 65536) :
    Tri CpuBad MUM (Machine.increment a) fun v m => LATE m ∧ Byte v :=
  (ok_peekRmw hr hlo hhi he hb ha).bindF fun v hv =>
    (ok_poke hr (by omega) hhi (by omega) ha (Byte.ff _)).then (Tri.pure fun _ hm => ⟨hm, Byte.ff _⟩)

theorem ok_jumpIndirect {a : Int} (ha : 0 ≤ a ∧ a < 65536) : Tri E OK (Machine.jumpIndirect a) fun _ => OK :=
  (ok_load ha).bindF fun _ _ => (ok_load (by
    have : band (a + 1) 0xff = (a + 1) % 256 := band_ff _
    rw [this]; split <;> omega)).bindF fun _ _ => ok_setPc

include hr in
theorem ok_operate (hlo : 1 ≤ lo) (hhi : hi ≤ Pair.latest) (he : elo + 1 ≤ lo) (hb : b + 1 ≤ lo) (op : Machine.Op) {a : Int} (ha : 0 ≤ a ∧ a < 65536) :
    Tri CpuBad MUM (Machine.operate op a) fun _ => LATE := by
  have hpeek : Tri CpuBad MUM (Machine.peek a) fun v m => MUM m ∧ Byte v := ok_peek (by omega) ha
  have hpoke : ∀ {v}, Byte v → Tri CpuBad MUM (Machine.poke a v) fun _ => LATE := fun hv =>
    (ok_poke hr (by omega) hhi (by omega) ha hv).pre fun m hm => hm.speak (by omega)
  cases op with
  | ora => exact (hpeek.bindF fun v hv => readA fun r h => ok_setNzA (h.bor hv)).say
  | aso => exact (ok_shiftLeft hr hlo hhi he hb ha).bindF fun v hv => readA fun r h => ok_setNzA (h.bor hv)
  | asl => exact (ok_shiftLeft hr hlo hhi he hb ha).bindF fun v hv => ok_setNz hv.nz
  | and => exact (hpeek.bindF fun v hv => readA fun r h => ok_setNzA (h.band _)).say
  | rla => exact (ok_rotateLeft hr hlo hhi he hb ha).bindF fun v hv => readA fun r h => ok_setNzA (h.band _)
  | bit =>
    refine (hpeek.bindF fun v hv => readVdi fun d hd => (ok_setVdi (vdi_newV hd _)).then <| readA fun r h => ok_setNz ?_).say
    have h1 : band v 0x80 = 0 ∨ band v 0x80 = 0x80 := band_bit 7 v
    have h2 := hv.band r
    rw [shl_1]; unfold Byte at h2; omega
  | rol => exact (ok_rotateLeft hr hlo hhi he hb ha).bindF fun v hv => ok_setNz hv.nz
  | eor => exact (hpeek.bindF fun v hv => readA fun r h => ok_setNzA (h.bxor hv)).say
  | lse => exact (ok_shiftRight hr hlo hhi he hb ha).bindF fun v hv => readA fun r h => ok_setNzA (h.bxor hv)
  | lsr => exact (ok_shiftRight hr hlo hhi he hb ha).bindF fun v hv => ok_setNz hv.nz
  | adc => exact (hpeek.bindF fun v hv => ok_addWithCarry hv).say
  | rra => exact (ok_rotateRight hr hlo hhi he hb ha).bindF fun v hv => ok_addWithCarry hv
  | ror => exact (ok_rotateRight hr hlo hhi he hb ha).bindF fun v hv => ok_setNz hv.nz
  | jmpInd => exact (ok_jumpIndirect ha).say
  | sta => exact readA fun r h => hpoke h
  | sax => exact readAX fun r h => hpoke h
  | sty => exact readY fun r h => hpoke h
  | stx => exact readX fun r h => hpoke h
  | ldy => exact (hpeek.bindF fun v hv => ok_setNzY hv).say
  | lda => exact (hpeek.bindF fun v hv => ok_setNzA hv).say
  | ldx => exact (hpeek.bindF fun v hv => ok_setNzX hv).say
  | lax => exact (hpeek.bindF fun v hv => (ok_setA hv).then (ok_setNzX hv)).say
  | las =>
    exact (hpeek.bindF fun v hv => readS fun s hs => (ok_setS (hs.band v)).then <| (ok_setA (hs.band v)).then (ok_setNzX (hs.band v))).say
  | cpy => exact (hpeek.bindF fun v hv => readY fun r h => ok_compare).say
  | cmp => exact (hpeek.bindF fun v hv => readA fun r h => ok_compare).say
  | dcm => exact (ok_decrement hr hlo hhi he hb ha).bindF fun v hv => readA fun r h => ok_compare
  | dec => exact (ok_decrement hr hlo hhi he hb ha).bindF fun v hv => ok_setNz hv.nz
  | cpx => exact (hpeek.bindF fun v hv => readX fun r h => ok_compare).say
  | sbc => exact (hpeek.bindF fun v hv => ok_subtractWithCarry hv).say
  | ins => exact (ok_increment hr hlo hhi he hb ha).bindF fun v hv => ok_subtractWithCarry hv
  | inc => exact (ok_increment hr hlo hhi he hb ha).bindF fun v hv => ok_setNz hv.nz

/-! ### Instructions -/

theorem ok_branch (cond : Cpu → Prop) [DecidablePred cond] : Tri CpuBad MUM (Machine.branch cond) fun _ => Ok m0 (fun _ => b) lo (hi + 2) elo ehi := by
  refine Tri.bindReg (φ := fun _ => True) (fun _ _ => trivial) fun t _ => Tri.ite (fun _ => ?_) fun _ => ok_addPc.wide
  refine ok_fetch.bindF fun b _ => readPc fun pc => ?_
  refine (ok_addCycle _).then (ok_setPc.post fun _ _ h => h.widen ?_ ?_)
  · split <;> omega
  · split <;> omega

theorem ok_arrDecimal {a d : Int} (ha : Byte a) : Tri E OK (Machine.arrDecimal a d) fun _ => OK := by
  have h : Byte (if band d 0xf ≥ 5 then band a 0xf0 + band (a + 6) 0xf else a) := by
    split
    · have h1 := band_range_right a (show (0 : Int) ≤ 0xf0 by decide)
      have h2 := band_range_right (a + 6) (show (0 : Int) ≤ 0xf by decide)
      unfold Byte; omega
    · exact ha
  refine (ok_setA ?_).then (ok_setC (by split <;> simp))
  split
  · exact Byte.ff _
  · exact h

theorem ok_arr : Tri CpuBad OK Machine.arr fun _ => OK := by
  refine ok_fetch.bindF fun b hb => readA fun a ha => readC fun c hc => readVdi fun v hv => ?_
  have hd := ha.band b
  have hx : Byte (shr (band a b) 1 + shl c 7) := by rw [shr_1, shl_7]; unfold Byte at *; omega
  refine (ok_setNzA hx).then <| (ok_setVdi (vdi_newV hv _)).then <| Tri.ite (fun _ => ok_setC (byte_carry hd)) fun _ => ok_arrDecimal hx

theorem high_addr {a h d : Int} (ha : 0 ≤ a ∧ a ≤ 510) (hh : Byte h) (hd : Byte d) :
    (0 ≤ a + shl (if a ≥ 0x100 then band d (h + 1) - 1 else h) 8 ∧ a + shl (if a ≥ 0x100 then band d (h + 1) - 1 else h) 8 < 65536) ∧
    Byte (band d (h + 1)) := by
  have hb : Byte (band d (h + 1)) := hd.band _
  refine ⟨?_, hb⟩
  unfold Byte at *
  split
  · rw [shl_8]; omega
  · rw [shl_8]; omega

include hr in
theorem ok_storeHigh (hlo : 1 ≤ lo) (hhi : hi ≤ Pair.latest) (he : elo + 1 ≤ lo) (hb : b + 1 ≤ lo) {a h d : Int} (ha : 0 ≤ a ∧ a ≤ 510) (hh : Byte h)
    (hd : Byte d) : Tri CpuBad MUM (Machine.storeHigh a h d) fun _ => LATE :=
  (ok_poke hr (by omega) hhi (by omega) (high_addr ha hh hd).1 (high_addr ha hh hd).2).pre fun m hm => hm.speak (by omega)

include hr in
theorem ok_shx (hlo : 1 ≤ lo) (hhi : hi ≤ Pair.latest) (he : elo + 1 ≤ lo) (hb : b + 1 ≤ lo) {i d : Int} (hi' : Byte i) (hd : Byte d) :
    Tri CpuBad MUM (Machine.shx i d) fun _ => LATE :=
  ok_fetch.bindF fun _ hl => ok_fetch.bindF fun _ hh => ok_storeHigh hr hlo hhi he hb (by unfold Byte at *; omega) hh hd

variable {D : Int}

local notation "DONE" => Ok m0 id lo (hi + D) elo ehi

include hr in
theorem ok_execute (hlo : 1 ≤ lo) (hhi : hi + 1 ≤ Pair.latest) (he : elo + 1 ≤ lo) (hb : b + 1 ≤ lo) (hD : 7 ≤ D ∧ (105 - hi) % 114 + 1 ≤ D) (i : Machine.Instr) (hn : i ≠ .cim) :
    Tri CpuBad MUM (Machine.execute i) fun _ => DONE := by
  have fin : ∀ {d : Int} {f : C Unit}, d ≤ D → Tri CpuBad MUM f (fun _ => Ok m0 (fun _ => b) lo (hi + d) elo ehi) → Tri CpuBad MUM f fun _ => DONE :=
    fun hd h => h.post fun _ _ hm => (hm.speak (by omega)).widen (by omega) (by omega)
  have fin' : ∀ {d : Int} {f : C Unit}, d ≤ D → Tri CpuBad MUM f (fun _ => Ok m0 id lo (hi + d) elo ehi) → Tri CpuBad MUM f fun _ => DONE :=
    fun hd h => h.post fun _ _ hm => hm.widen (by omega) (by omega)
  cases i with
  | op mode op =>
    refine (ok_address mode).bindF fun a ha => (ok_operate hr hlo hhi he hb op ha).post fun _ _ hm => hm.widen (by omega) (by omega)
  | brk => exact (ok_addPc.then ok_executeIrq).say
  | cim => exact absurd rfl hn
  | skip1 => exact ok_addPc.say
  | php => exact ok_pushFlags.say
  | aslA => exact (readA fun a ha => (ok_setC (byte_carry ha)).then (ok_setNzA (Byte.ff _))).say
  | anc => exact (ok_fetch.bindF fun b _ => readA fun a ha => (ok_setNzA (ha.band b)).then (ok_setC (byte_carry (ha.band b)))).say
  | skip2 => exact ok_addPc.say
  | bpl => exact fin (by omega) (ok_branch _)
  | clc => exact (ok_setC (Or.inl rfl)).say
  | skipX => exact fin (d := 1) (by omega) (ok_here.bindF fun b _ => readX fun x _ => ok_maybeSlow.then ok_addPc)
  | jsr => exact (ok_fetch.bindF fun l _ => ok_pushPc.then <| ok_here.bindF fun _ _ => ok_setPc).say
  | plp => exact fin (d := 7) (by omega) (ok_pullFlags.then ok_checkIrq)
  | rolA =>
    exact (readA fun a ha => readC fun c hc => (ok_setC (by rw [shr_8, shl_1]; unfold Byte at ha; omega)).then (ok_setNzA (Byte.ff _))).say
  | bmi => exact fin (by omega) (ok_branch _)
  | sec => exact (ok_setC (Or.inr rfl)).say
  | rti => exact fin (d := 7) (by omega) (ok_pullFlags.then <| ok_pull.bindF fun _ _ => ok_pull.bindF fun _ _ => ok_setPc.then ok_checkIrq)
  | pha => exact (readA fun a _ => ok_push).say
  | lsrA => exact (readA fun a ha => (ok_setC (bit0 a)).then (ok_setNzA ha.shr1)).say
  | alr => exact (ok_fetch.bindF fun b _ => readA fun a ha => (ok_setC (bit0 _)).then (ok_setNzA (ha.band b).shr1)).say
  | jmp => exact (ok_fetch.bindF fun l _ => ok_here.bindF fun _ _ => ok_setPc).say
  | bvc => exact fin (by omega) (ok_branch _)
  | cli => exact fin (d := 7) (by omega) (readVdi fun v hv => (ok_setVdi (vdi_band hv (by unfold IsVdi; decide))).then ok_checkIrq)
  | rts => exact (ok_pull.bindF fun _ _ => ok_pull.bindF fun _ _ => ok_setPc).say
  | pla => exact (ok_pull.bindF fun v hv => ok_setNzA hv).say
  | rorA =>
    exact (readA fun a ha => readC fun c hc => (ok_setC (bit0 a)).then (ok_setNzA (by rw [shr_1, shl_7]; unfold Byte at *; omega))).say
  | arr => exact ok_arr.say
  | bvs => exact fin (by omega) (ok_branch _)
  | sei => exact (readVdi fun v hv => ok_setVdi (vdi_bor hv (by unfold IsVdi; decide))).say
  | dey => exact (readY fun y _ => ok_setNzY (Byte.ff _)).say
  | txa => exact (readX fun x hx => ok_setNzA hx).say
  | ane =>
    exact (ok_fetch.bindF fun b _ => Tri.bindReg (fun _ h => h.cpu.a.band _) fun a (ha : Byte a) =>
      (ok_setA ha).then (ok_setNz (ha.band b).nz)).say
  | bcc => exact fin (by omega) (ok_branch _)
  | shaInd =>
    exact fin' (d := (106 - hi) % 114) (by omega) (ok_fetch.bindF fun z hz => (ok_load (byte_addr (Byte.ff _))).bindF fun h hh =>
      (ok_load (byte_addr hz)).bindF fun l hl => readY fun y hy => readAX fun v hv =>
        ok_storeHigh hr hlo (by omega) he hb (by unfold Byte at *; omega) hh hv)
  | tya => exact (readY fun y hy => ok_setNzA hy).say
  | txs => exact (readX fun x hx => ok_setS hx).say
  | shs => exact fin' (d := (106 - hi) % 114) (by omega) (readAX fun v hv => (ok_setS hv).then <| readY fun y hy => ok_shx hr hlo (by omega) he hb hy hv)
  | shy => exact fin' (d := (106 - hi) % 114) (by omega) (readX fun x hx => readY fun y hy => ok_shx hr hlo (by omega) he hb hx hy)
  | shx => exact fin' (d := (106 - hi) % 114) (by omega) (readX fun x hx => readY fun y hy => ok_shx hr hlo (by omega) he hb hy hx)
  | sha => exact fin' (d := (106 - hi) % 114) (by omega) (readAX fun v hv => readY fun y hy => ok_shx hr hlo (by omega) he hb hy hv)
  | tay => exact (readA fun a ha => ok_setNzY ha).say
  | tax => exact (readA fun a ha => ok_setNzX ha).say
  | anx => exact (ok_fetch.bindF fun b _ => readA fun a ha => (ok_setA (ha.band b)).then (ok_setNzX (ha.band b))).say
  | bcs => exact fin (by omega) (ok_branch _)
  | clv => exact (readVdi fun v hv => ok_setVdi (vdi_band hv (by unfold IsVdi; decide))).say
  | tsx => exact (readS fun s hs => ok_setNzX hs).say
  | iny => exact (readY fun y _ => ok_setNzY (Byte.ff _)).say
  | dex => exact (readX fun x _ => ok_setNzX (Byte.ff _)).say
  | sbx =>
    exact (ok_fetch.bindF fun b _ => Tri.bindReg (φ := fun _ => True) (fun _ _ => trivial) fun v _ =>
      (ok_setC (by split <;> simp)).then (ok_setNzX (Byte.ff _))).say
  | bne => exact fin (by omega) (ok_branch _)
  | cld => exact (readVdi fun v hv => ok_setVdi (vdi_band hv (by unfold IsVdi; decide))).say
  | inx => exact (readX fun x _ => ok_setNzX (Byte.ff _)).say
  | nop => exact Tri.pure fun _ h => (h.speak (by omega)).widen (by omega) (by omega)
  | beq => exact fin (by omega) (ok_branch _)
  | sed => exact (readVdi fun v hv => ok_setVdi (vdi_bor hv (by unfold IsVdi; decide))).say

theorem ok_cim (hb : b ≤ elo) : Tri E MUM (Machine.execute .cim) fun _ => Ok m0 id elo ehi elo ehi :=
  ok_addPc.then <| Tri.bindGet (φ := fun t => elo ≤ t ∧ t ≤ ehi) (fun _ h => h.event) fun t ht =>
    ok_setCpu (fun _ h => ⟨h.mem, h.a, h.x, h.y, h.s, h.nz, h.c, h.vdi⟩) (fun _ _ => ht) fun _ => by
      show b ≤ t; omega

theorem opcodeCycles_range : ∀ n : Fin 256, 2 ≤ Machine.opcodeCycles.getD n.val 0 ∧ Machine.opcodeCycles.getD n.val 0 ≤ 8 := by
  decide +kernel

include hr in
/-- One instruction: the clock advances, by at most 15 cycles, up to the end of a scan line, or up to the next event. -/
theorem ok_instruction (hlo : 0 ≤ lo) (hhi : hi + 9 ≤ Pair.latest) (he : elo ≤ lo + 1) (hb : b ≤ lo) (hb' : b ≤ elo) {B : Int} (h15 : hi + 15 ≤ B)
    (hB : ∀ n : Int, n ≤ hi + 9 → n + (106 - n) % 114 ≤ B) :
    Tri CpuBad MUM Machine.instruction fun _ => Ok m0 id (if elo ≤ lo + 2 then elo else lo + 2) (if ehi ≤ B then B else ehi) elo ehi := by
  refine ok_fetch.bindF fun v hv => ?_
  have hc := opcodeCycles_range ⟨v.toNat, by unfold Byte at hv; omega⟩
  dsimp only at hc
  generalize hn : Machine.opcodeCycles.getD v.toNat 0 = n at *
  refine (ok_addCycle n).then ?_
  by_cases hcim : Machine.decode.getD v.toNat .nop = .cim
  · rw [hcim]
    exact (ok_cim hb').post fun _ _ h => h.widen (by split <;> omega) (by split <;> omega)
  · have := hB (hi + n + 1) (by omega)
    exact (ok_execute (D := B - (hi + n)) hr (by omega) (by omega) (by omega) (by omega) (by omega) _ hcim).post fun _ _ h => h.widen (by split <;> omega) (by split <;> omega)
end

end Asap
