import Verif.Lemmas.Machine
import Verif.Spec.SoundPlay

/-! The invariant of the emulated machine is kept by every instruction. -/

namespace Asap

/-- A value of a `byte` variable. -/
def Byte (v : Int) : Prop := 0 ≤ v ∧ v < 256

/-- A combination of the flags V, D and I. -/
def IsVdi (v : Int) : Prop := v = 0 ∨ v = 4 ∨ v = 8 ∨ v = 12 ∨ v = 64 ∨ v = 68 ∨ v = 72 ∨ v = 76

/-- The registers and the memory are in range. -/
structure CpuOk (r : Cpu) : Prop where
  mem : ∀ a, Byte (r.mem a)
  a : Byte r.a
  x : Byte r.x
  y : Byte r.y
  s : Byte r.s
  nz : 0 ≤ r.nz ∧ r.nz < 512
  c : r.c = 0 ∨ r.c = 1
  vdi : IsVdi r.vdi

/-- What instructions do not change. -/
structure Kept (m0 m : Machine) : Prop where
  info : m.info = m0.info
  nextScan : m.nextScan = m0.nextScan
  nextPlayer : m.nextPlayer = m0.nextPlayer
  song : m.song = m0.song
  duration : m.duration = m0.duration
  played : m.played = m0.played
  silence : m.silence = m0.silence
  silenceLeft : m.silenceLeft = m0.silenceLeft
  rate : m.rate = m0.rate
  frame : m0.pk.Frame m.pk

theorem Kept.refl (m : Machine) : Kept m m := ⟨rfl, rfl, rfl, rfl, rfl, rfl, rfl, rfl, rfl, Pair.Frame.refl _⟩

theorem Kept.trans {a b c : Machine} (h : Kept a b) (k : Kept b c) : Kept a c :=
  ⟨k.info.trans h.info, k.nextScan.trans h.nextScan, k.nextPlayer.trans h.nextPlayer, k.song.trans h.song,
    k.duration.trans h.duration, k.played.trans h.played, k.silence.trans h.silence, k.silenceLeft.trans h.silenceLeft,
    k.rate.trans h.rate, h.frame.trans k.frame⟩

/-- The chips of `m0`'s configuration. -/
abbrev ChipsOk (m0 : Machine) (q : Pair) : Prop :=
  q.Good false m0.pk.rate m0.info.ntsc (decide (m0.info.channels > 1)) 0 0

/-- What of a history of the chips is recorded. -/
def loud : List Spec.PairEvent → List Signal
  | [] => []
  | .write a d c :: es => .write a d c :: loud es
  | .external r c h :: es => .step r c h :: loud es
  | .timers n :: es => .frame n :: loud es
  | _ :: es => loud es

theorem loud_append : ∀ es fs : List Spec.PairEvent, loud (es ++ fs) = loud es ++ loud fs
  | [], _ => rfl
  | e :: es, fs => by cases e <;> simp [loud, loud_append es fs]

/-- What the processor does to the chips. -/
def Driven : Spec.PairEvent → Prop
  | .write a d c => (Spec.PairEvent.write a d c).Within Pair.latest
  | .external r c h => (Spec.PairEvent.external r c h).Within Pair.latest
  | .irq _ _ _ => True
  | _ => False

theorem stamps_append (T : Int) : ∀ es fs : List Spec.PairEvent, Spec.Sound.stamps T (es ++ fs) = Spec.Sound.stamps T es ++ Spec.Sound.stamps T fs
  | [], _ => rfl
  | e :: es, fs => by cases e <;> simp [Spec.Sound.stamps, stamps_append T es fs]

theorem runPair_append : ∀ (es fs : List Spec.PairEvent) {q r : Pair}, Spec.runPair q es = .ok r → Spec.runPair q (es ++ fs) = Spec.runPair r fs
  | [], _, q, r, h => by cases h; rfl
  | e :: es, fs, q, r, h => by
    unfold Spec.runPair at h
    show (Spec.stepPair q e >>= fun q => Spec.runPair q (es ++ fs)) = _
    cases hx : Spec.stepPair q e with
    | error x => rw [hx] at h; nomatch h
    | ok p => rw [hx] at h; exact runPair_append es fs (q := p) h

/-- The chips of `m` come from those of `m0` by what the record says, in the order of time, and not later than `b`. -/
def Trail (m0 : Machine) (b : Int) (m : Machine) : Prop :=
  m0.cpu.cycle ≤ b ∧ ∃ es, Spec.runPair m0.pk es = .ok m.pk ∧ m.told = (loud es).reverse ++ m0.told ∧ (∀ e ∈ es, Driven e) ∧
    (Spec.Sound.stamps 0 es).Pairwise (· ≤ ·) ∧ ∀ x ∈ Spec.Sound.stamps 0 es, m0.cpu.cycle ≤ x ∧ x ≤ b

theorem Trail.refl (m : Machine) : Trail m m.cpu.cycle m :=
  ⟨Int.le_refl _, [], rfl, rfl, nofun, List.Pairwise.nil, nofun⟩

theorem Trail.mono {m0 m : Machine} {b b' : Int} (h : Trail m0 b m) (hb : b ≤ b') : Trail m0 b' m := by
  obtain ⟨h0, es, h1, h2, h3, h4, h5⟩ := h
  exact ⟨by omega, es, h1, h2, h3, h4, fun x hx => by have := h5 x hx; omega⟩

theorem Trail.snoc {m0 m : Machine} {b : Int} (h : Trail m0 b m) (e : Spec.PairEvent) {q : Pair} (hs : Spec.stepPair m.pk e = .ok q)
    (hd : Driven e) (ht : ∀ x ∈ Spec.Sound.stamps 0 [e], x = b) {m' : Machine} (hq : m'.pk = q) (hm : m'.told = (loud [e]).reverse ++ m.told) :
    Trail m0 b m' := by
  obtain ⟨h0, es, h1, h2, h3, h4, h5⟩ := h
  refine ⟨h0, es ++ [e], ?_, ?_, ?_, ?_, ?_⟩
  · rw [runPair_append es [e] h1, hq]
    unfold Spec.runPair
    rw [hs]; rfl
  · rw [hm, h2, loud_append, List.reverse_append, List.append_assoc]
  · intro x hx
    rcases List.mem_append.1 hx with hx | hx
    · exact h3 x hx
    · rw [List.mem_singleton.1 hx]; exact hd
  · rw [stamps_append]
    refine List.pairwise_append.2 ⟨h4, ?_, fun x hx y hy => ?_⟩
    · cases e <;> first | exact List.Pairwise.nil | exact List.pairwise_singleton _ _
    · rw [ht y hy]; exact (h5 x hx).2
  · intro x hx
    rw [stamps_append] at hx
    rcases List.mem_append.1 hx with hx | hx
    · exact h5 x hx
    · rw [ht x hx]; omega

/-- The machine in a time window: the clock between `lo` and `hi`, the next event between `elo` and `ehi`.  The chips have been
told nothing later than `β` of the clock. -/
structure Ok (m0 : Machine) (β : Int → Int) (lo hi elo ehi : Int) (m : Machine) : Prop where
  cpu : CpuOk m.cpu
  time : lo ≤ m.cpu.cycle ∧ m.cpu.cycle ≤ hi
  event : elo ≤ m.nextEvent ∧ m.nextEvent ≤ ehi
  chips : ChipsOk m0 m.pk
  consol : Byte m.consol
  covox : ∀ i, Byte (m.covox i)
  kept : Kept m0 m
  trail : Trail m0 (β m.cpu.cycle) m

/-- Faults an instruction can cause. -/
def CpuBad (e : Hw) : Prop := e = .pc ∨ e = .dac

/-! ### Bytes -/

theorem Byte.ff (v : Int) : Byte (band v 0xff) := by unfold Byte; rw [band_ff]; omega
theorem Byte.mod (v : Int) : Byte (v % 256) := by unfold Byte; omega
theorem Byte.band {a : Int} (h : Byte a) (b : Int) : Byte (band a b) := by
  have := band_range_left b h.1; unfold Byte at *; omega
theorem Byte.band' {b : Int} (h : Byte b) (a : Int) : Byte (Asap.band a b) := by
  have := band_range_right a h.1; unfold Byte at *; omega
theorem Byte.bor {a b : Int} (h : Byte a) (k : Byte b) : Byte (bor a b) := bor_range 8 h.1 h.2 k.1 k.2
theorem Byte.bxor {a b : Int} (h : Byte a) (k : Byte b) : Byte (bxor a b) := bxor_range 8 h.1 h.2 k.1 k.2
theorem Byte.nz {v : Int} (h : Byte v) : 0 ≤ v ∧ v < 512 := by unfold Byte at h; omega

theorem shr_1 (v : Int) : shr v 1 = v / 2 := rfl
theorem shr_7 (v : Int) : shr v 7 = v / 128 := rfl
theorem shr_8 (v : Int) : shr v 8 = v / 256 := rfl
theorem shl_1 (v : Int) : shl v 1 = v * 2 := rfl
theorem shl_7 (v : Int) : shl v 7 = v * 128 := rfl
theorem shl_8 (v : Int) : shl v 8 = v * 256 := rfl

theorem Byte.shr1 {v : Int} (h : Byte v) : Byte (shr v 1) := by rw [shr_1]; unfold Byte at *; omega

/-! ### Flags -/

theorem band_V (v : Int) : band v 0x40 = 0 ∨ band v 0x40 = 0x40 := band_bit 6 v

/-- A combination of the old flags D and I and a new flag V. -/
theorem vdi_newV {vdi : Int} (h : IsVdi vdi) (v : Int) :
    IsVdi (band vdi (bor Machine.dFlag Machine.iFlag) + band v Machine.vFlag) := by
  have hv : band v Machine.vFlag = 0 ∨ band v Machine.vFlag = 0x40 := band_V v
  have hd : ∀ w, IsVdi w → band w (bor Machine.dFlag Machine.iFlag) = 0 ∨ band w (bor Machine.dFlag Machine.iFlag) = 4 ∨
      band w (bor Machine.dFlag Machine.iFlag) = 8 ∨ band w (bor Machine.dFlag Machine.iFlag) = 12 := by
    rintro w (rfl | rfl | rfl | rfl | rfl | rfl | rfl | rfl) <;> decide
  unfold IsVdi
  have := hd _ h
  omega

theorem vdi_band {vdi : Int} (h : IsVdi vdi) {k : Int} (hk : IsVdi k) : IsVdi (band vdi k) := by
  rcases h with rfl | rfl | rfl | rfl | rfl | rfl | rfl | rfl <;>
    rcases hk with rfl | rfl | rfl | rfl | rfl | rfl | rfl | rfl <;> (unfold IsVdi; decide)

theorem vdi_bor {vdi : Int} (h : IsVdi vdi) {k : Int} (hk : IsVdi k) : IsVdi (bor vdi k) := by
  rcases h with rfl | rfl | rfl | rfl | rfl | rfl | rfl | rfl <;>
    rcases hk with rfl | rfl | rfl | rfl | rfl | rfl | rfl | rfl <;> (unfold IsVdi; decide)

/-- The flags pulled from a byte. -/
theorem vdi_pulled {v : Int} (h : Byte v) : IsVdi (band v (bor (bor Machine.vFlag Machine.dFlag) Machine.iFlag)) := by
  have all : ∀ n : Fin 256, IsVdi (band (n.val : Int) (bor (bor Machine.vFlag Machine.dFlag) Machine.iFlag)) := by
    unfold IsVdi; decide +kernel
  have h1 := h.1
  have h2 := h.2
  have := all ⟨v.toNat, by omega⟩
  rwa [show ((v.toNat : Nat) : Int) = v by omega] at this

/-! ### Reading and writing the state -/

section
variable {α : Type} {E : Hw → Prop} {m0 : Machine} {β : Int → Int} {b lo hi elo ehi : Int} {Q : α → Machine → Prop}

theorem Tri.bindF {β : Type} {P P' : Machine → Prop} {φ : α → Prop} {f : C α} {g : α → C β} {R : β → Machine → Prop}
    (h : Tri E P f fun a m => P' m ∧ φ a) (k : ∀ a, φ a → Tri E P' (g a) R) : Tri E P (f >>= g) R :=
  h.bind fun a => Tri.fact' fun ha => k a ha

theorem Tri.then {β : Type} {P P' : Machine → Prop} {f : C Unit} {g : C β} {R : β → Machine → Prop}
    (h : Tri E P f fun _ => P') (k : Tri E P' g R) : Tri E P (f >>= fun _ => g) R := h.bind fun _ => k

theorem Tri.bindReg {β : Type} {P : Machine → Prop} {φ : β → Prop} {f : Cpu → β} {g : β → C α}
    (h : ∀ m, P m → φ (f m.cpu)) (k : ∀ b, φ b → Tri E P (g b) Q) : Tri E P (C.reg f >>= g) Q :=
  Tri.bindF (P' := P) (φ := φ) (Tri.reg fun m hm => ⟨hm, h m hm⟩) k

theorem Tri.bindGet {β : Type} {P : Machine → Prop} {φ : β → Prop} {f : Machine → β} {g : β → C α}
    (h : ∀ m, P m → φ (f m)) (k : ∀ b, φ b → Tri E P (g b) Q) : Tri E P (C.get f >>= g) Q :=
  Tri.bindF (P' := P) (φ := φ) (Tri.get fun m hm => ⟨hm, h m hm⟩) k

local notation "OK" => Ok m0 β lo hi elo ehi
/-- Before anything is told. -/
local notation "MUM" => Ok m0 (fun _ => b) lo hi elo ehi
/-- After something is told. -/
local notation "NOW" => Ok m0 id lo hi elo ehi

theorem readA {g : Int → C α} (k : ∀ v, Byte v → Tri E OK (g v) Q) : Tri E OK (C.reg (·.a) >>= g) Q :=
  Tri.bindReg (fun _ h => h.cpu.a) k
theorem readX {g : Int → C α} (k : ∀ v, Byte v → Tri E OK (g v) Q) : Tri E OK (C.reg (·.x) >>= g) Q :=
  Tri.bindReg (fun _ h => h.cpu.x) k
theorem readY {g : Int → C α} (k : ∀ v, Byte v → Tri E OK (g v) Q) : Tri E OK (C.reg (·.y) >>= g) Q :=
  Tri.bindReg (fun _ h => h.cpu.y) k
theorem readS {g : Int → C α} (k : ∀ v, Byte v → Tri E OK (g v) Q) : Tri E OK (C.reg (·.s) >>= g) Q :=
  Tri.bindReg (fun _ h => h.cpu.s) k
theorem readC {g : Int → C α} (k : ∀ v, (v = 0 ∨ v = 1) → Tri E OK (g v) Q) : Tri E OK (C.reg (·.c) >>= g) Q :=
  Tri.bindReg (fun _ h => h.cpu.c) k
theorem readVdi {g : Int → C α} (k : ∀ v, IsVdi v → Tri E OK (g v) Q) : Tri E OK (C.reg (·.vdi) >>= g) Q :=
  Tri.bindReg (fun _ h => h.cpu.vdi) k
theorem readAX {g : Int → C α} (k : ∀ v, Byte v → Tri E OK (g v) Q) : Tri E OK (C.reg (fun c => band c.a c.x) >>= g) Q :=
  Tri.bindReg (fun _ h => h.cpu.a.band _) k
theorem readPc {g : Int → C α} (k : ∀ v, Tri E OK (g v) Q) : Tri E OK (C.reg (·.pc) >>= g) Q :=
  Tri.bindReg (φ := fun _ => True) (fun _ _ => trivial) fun b _ => k b
theorem readCycle {g : Int → C α} (k : ∀ v, lo ≤ v ∧ v ≤ hi → Tri E OK (g v) Q) : Tri E OK (C.reg (·.cycle) >>= g) Q :=
  Tri.bindReg (fun _ h => h.time) k

theorem Ok.setCpu {m : Machine} (h : OK m) {c : Cpu} (hc : CpuOk c) {lo' hi' : Int} (ht : lo' ≤ c.cycle ∧ c.cycle ≤ hi')
    {β' : Int → Int} (hb : β m.cpu.cycle ≤ β' c.cycle) : Ok m0 β' lo' hi' elo ehi { m with cpu := c } :=
  ⟨hc, ht, h.event, h.chips, h.consol, h.covox,
    ⟨h.kept.info, h.kept.nextScan, h.kept.nextPlayer, h.kept.song, h.kept.duration, h.kept.played, h.kept.silence,
      h.kept.silenceLeft, h.kept.rate, h.kept.frame⟩, h.trail.mono (m := m) hb⟩

/-- Something may have been told. -/
theorem Ok.now {m : Machine} (h : OK m) (hb : β m.cpu.cycle ≤ m.cpu.cycle) : NOW m :=
  ⟨h.cpu, h.time, h.event, h.chips, h.consol, h.covox, h.kept, h.trail.mono hb⟩

/-- At a known time. -/
theorem Ok.at {m : Machine} (h : Ok m0 id b b elo ehi m) : Ok m0 (fun _ => b) b b elo ehi m :=
  ⟨h.cpu, h.time, h.event, h.chips, h.consol, h.covox, h.kept, h.trail.mono (by have := h.time; show m.cpu.cycle ≤ b; omega)⟩

/-- Less is known of the next event. -/
theorem Ok.widenEvent {elo' ehi' : Int} (hl : elo' ≤ elo) (hh : ehi ≤ ehi') {m : Machine} (h : OK m) : Ok m0 β lo hi elo' ehi' m :=
  ⟨h.cpu, h.time, by have := h.event; omega, h.chips, h.consol, h.covox, h.kept, h.trail⟩

theorem Ok.speak {m : Machine} (h : MUM m) (hb : b ≤ lo) : NOW m := h.now (by have := h.time; show b ≤ _; omega)

theorem ok_setCpu {f : Cpu → Cpu} {lo' hi' : Int} {β' : Int → Int} (h : ∀ c, CpuOk c → CpuOk (f c))
    (ht : ∀ c, lo ≤ c.cycle ∧ c.cycle ≤ hi → lo' ≤ (f c).cycle ∧ (f c).cycle ≤ hi')
    (hb : ∀ c, β c.cycle ≤ β' (f c).cycle) :
    Tri E OK (C.setCpu f) fun _ => Ok m0 β' lo' hi' elo ehi :=
  Tri.setCpu fun m hm => hm.setCpu (h _ hm.cpu) (ht _ hm.time) (hb _)

theorem ok_setA {v : Int} (hv : Byte v) : Tri E OK (Machine.setA v) fun _ => OK :=
  ok_setCpu (fun _ h => ⟨h.mem, hv, h.x, h.y, h.s, h.nz, h.c, h.vdi⟩) (fun _ h => h) fun _ => by exact Int.le_refl _
theorem ok_setX {v : Int} (hv : Byte v) : Tri E OK (Machine.setX v) fun _ => OK :=
  ok_setCpu (fun _ h => ⟨h.mem, h.a, hv, h.y, h.s, h.nz, h.c, h.vdi⟩) (fun _ h => h) fun _ => by exact Int.le_refl _
theorem ok_setY {v : Int} (hv : Byte v) : Tri E OK (Machine.setY v) fun _ => OK :=
  ok_setCpu (fun _ h => ⟨h.mem, h.a, h.x, hv, h.s, h.nz, h.c, h.vdi⟩) (fun _ h => h) fun _ => by exact Int.le_refl _
theorem ok_setS {v : Int} (hv : Byte v) : Tri E OK (Machine.setS v) fun _ => OK :=
  ok_setCpu (fun _ h => ⟨h.mem, h.a, h.x, h.y, hv, h.nz, h.c, h.vdi⟩) (fun _ h => h) fun _ => by exact Int.le_refl _
theorem ok_setNz {v : Int} (hv : 0 ≤ v ∧ v < 512) : Tri E OK (Machine.setNz v) fun _ => OK :=
  ok_setCpu (fun _ h => ⟨h.mem, h.a, h.x, h.y, h.s, hv, h.c, h.vdi⟩) (fun _ h => h) fun _ => by exact Int.le_refl _
theorem ok_setC {v : Int} (hv : v = 0 ∨ v = 1) : Tri E OK (Machine.setC v) fun _ => OK :=
  ok_setCpu (fun _ h => ⟨h.mem, h.a, h.x, h.y, h.s, h.nz, hv, h.vdi⟩) (fun _ h => h) fun _ => by exact Int.le_refl _
theorem ok_setVdi {v : Int} (hv : IsVdi v) : Tri E OK (Machine.setVdi v) fun _ => OK :=
  ok_setCpu (fun _ h => ⟨h.mem, h.a, h.x, h.y, h.s, h.nz, h.c, hv⟩) (fun _ h => h) fun _ => by exact Int.le_refl _
theorem ok_setPc {v : Int} : Tri E OK (Machine.setPc v) fun _ => OK :=
  ok_setCpu (fun _ h => ⟨h.mem, h.a, h.x, h.y, h.s, h.nz, h.c, h.vdi⟩) (fun _ h => h) fun _ => by exact Int.le_refl _
theorem ok_addPc {v : Int} : Tri E OK (Machine.addPc v) fun _ => OK :=
  ok_setCpu (fun _ h => ⟨h.mem, h.a, h.x, h.y, h.s, h.nz, h.c, h.vdi⟩) (fun _ h => h) fun _ => by exact Int.le_refl _
theorem ok_addCycle (n : Int) : Tri E MUM (Machine.addCycle n) fun _ => Ok m0 (fun _ => b) (lo + n) (hi + n) elo ehi :=
  ok_setCpu (fun _ h => ⟨h.mem, h.a, h.x, h.y, h.s, h.nz, h.c, h.vdi⟩) (fun c h => by
    show lo + n ≤ c.cycle + n ∧ c.cycle + n ≤ hi + n; omega) fun _ => by exact Int.le_refl _
theorem ok_advance {n : Int} (hn : 0 ≤ n) : Tri E NOW (Machine.addCycle n) fun _ => Ok m0 id (lo + n) (hi + n) elo ehi :=
  ok_setCpu (fun _ h => ⟨h.mem, h.a, h.x, h.y, h.s, h.nz, h.c, h.vdi⟩) (fun c h => by
    show lo + n ≤ c.cycle + n ∧ c.cycle + n ≤ hi + n; omega) fun c => by
    show c.cycle ≤ c.cycle + n; omega
theorem ok_setNzA {v : Int} (hv : Byte v) : Tri E OK (Machine.setNzA v) fun _ => OK := (ok_setA hv).then (ok_setNz hv.nz)
theorem ok_setNzX {v : Int} (hv : Byte v) : Tri E OK (Machine.setNzX v) fun _ => OK := (ok_setX hv).then (ok_setNz hv.nz)
theorem ok_setNzY {v : Int} (hv : Byte v) : Tri E OK (Machine.setNzY v) fun _ => OK := (ok_setY hv).then (ok_setNz hv.nz)

theorem Ok.widen {lo' hi' : Int} (hl : lo' ≤ lo) (hh : hi ≤ hi') {m : Machine} (h : OK m) : Ok m0 β lo' hi' elo ehi m :=
  ⟨h.cpu, by have := h.time; omega, h.event, h.chips, h.consol, h.covox, h.kept, h.trail⟩

/-! ### Memory -/

theorem ok_load {a : Int} (ha : 0 ≤ a ∧ a < 65536) : Tri E OK (Machine.load a) fun v m => OK m ∧ Byte v := by
  intro m hm
  unfold Machine.load
  rw [if_pos ha]
  exact ⟨hm, hm.cpu.mem a⟩

theorem stored_byte {mem : Int → Int} (h : ∀ a, Byte (mem a)) (a v b : Int) : Byte (Machine.stored mem a v b) := by
  unfold Machine.stored
  split
  · exact Byte.mod v
  · exact h b

theorem ok_store {a v : Int} (ha : 0 ≤ a ∧ a < 65536) : Tri E OK (Machine.store a v) fun _ => OK := by
  intro m hm
  unfold Machine.store
  rw [if_pos ha]
  exact hm.setCpu (c := { m.cpu with mem := Machine.stored m.cpu.mem a v })
    ⟨stored_byte hm.cpu.mem a v, hm.cpu.a, hm.cpu.x, hm.cpu.y, hm.cpu.s, hm.cpu.nz, hm.cpu.c, hm.cpu.vdi⟩ hm.time (Int.le_refl _)

theorem ok_here : Tri CpuBad OK Machine.here fun v m => OK m ∧ Byte v := by
  intro m hm
  unfold Machine.here
  split
  · exact ⟨hm, hm.cpu.mem _⟩
  · exact Or.inl rfl

theorem ok_fetch : Tri CpuBad OK Machine.fetch fun v m => OK m ∧ Byte v :=
  ok_here.bindF fun _ hv => ok_addPc.then (Tri.pure fun _ hm => ⟨hm, hv⟩)

theorem ok_push {v : Int} : Tri E OK (Machine.push v) fun _ => OK :=
  readS fun s hs => (ok_store (by unfold Byte at hs; omega)).then (ok_setS (Byte.ff _))

theorem ok_pull : Tri E OK Machine.pull fun v m => OK m ∧ Byte v :=
  readS fun s _ => (ok_setS (Byte.ff _)).then (ok_load (by have := Byte.ff (s + 1); unfold Byte at this; omega))

theorem ok_pushPc : Tri E OK Machine.pushPc fun _ => OK := readPc fun _ => ok_push.then ok_push

theorem ok_pushFlags {b : Int} : Tri E OK (Machine.pushFlags b) fun _ => OK :=
  Tri.bindReg (φ := fun _ => True) (fun _ _ => trivial) fun _ _ => ok_push

theorem bit0 (v : Int) : band v 1 = 0 ∨ band v 1 = 1 := by rw [band_1]; omega

theorem ok_pullFlags : Tri E OK Machine.pullFlags fun _ => OK :=
  ok_pull.bindF fun v hv => (ok_setNz (by
      have h1 : band v 0x80 = 0 ∨ band v 0x80 = 0x80 := band_bit 7 v
      have h2 : band (bnot v) Machine.zFlag = 0 ∨ band (bnot v) Machine.zFlag = 2 := band_bit 1 (bnot v)
      rw [shl_1]; omega)).then <|
    (ok_setC (bit0 v)).then (ok_setVdi (vdi_pulled hv))

/-! ### Hardware -/

theorem frameCycles_le (ntsc : Bool) : Machine.frameCycles ntsc ≤ 312 * 114 := by cases ntsc <;> decide

theorem ok_peekHardware (hlo : 0 ≤ lo) {a : Int} (ha : 0 ≤ a ∧ a < 65536) :
    Tri E OK (Machine.peekHardware a) fun v m => OK m ∧ Byte v := by
  unfold Machine.peekHardware
  dsimp only
  refine Tri.ite (fun _ => ?_) fun _ => Tri.ite (fun _ => ?_) fun _ => Tri.ite (fun _ => ?_) fun _ => Tri.ite (fun _ => ?_) fun _ =>
    Tri.ite (fun _ => ?_) fun _ => Tri.ite (fun _ => ?_) fun _ => ok_load ha
  · exact Tri.get fun m hm => ⟨hm, by unfold Byte; split <;> decide⟩
  · exact Tri.get fun m hm => ⟨hm, by unfold Byte; rw [band_f]; omega⟩
  · intro m hm
    have hp := hm.chips.peekByte a (c := m.cpu.cycle) (by have := hm.time; omega)
    exact XPost.bind (hp.mono (fun _ x => x.elim) fun _ x => x) fun v hv => ⟨hm, hv⟩
  · exact Tri.pure fun m hm => ⟨hm, by unfold Byte; decide⟩
  · refine Tri.get fun m hm => ⟨hm, ?_⟩
    have h1 := hm.time
    have h2 := frameCycles_le m.info.ntsc
    unfold Machine.peekVcount Byte
    split
    · decide
    · rw [Int.tdiv_eq_ediv_of_nonneg (by omega)]; omega
  · refine Tri.get fun m hm => ⟨hm, ?_⟩
    unfold Machine.peekNmist Byte
    repeat' split
    all_goals decide

variable (hr : 0 ≤ m0.pk.rate ∧ m0.pk.rate ≤ 48000)

/-- The chips do `e`, and it is recorded. -/
theorem Ok.tell {m : Machine} (h : OK m) {q : Pair} (hq : ChipsOk m0 q) (hf : m.pk.Frame q) (e : Spec.PairEvent)
    (hs : Spec.stepPair m.pk e = .ok q) (hd : Driven e) (ht : ∀ x ∈ Spec.Sound.stamps 0 [e], x = β m.cpu.cycle) :
    OK { m with pk := q, told := (loud [e]).reverse ++ m.told } :=
  ⟨h.cpu, h.time, h.event, hq, h.consol, h.covox,
    ⟨h.kept.info, h.kept.nextScan, h.kept.nextPlayer, h.kept.song, h.kept.duration, h.kept.played, h.kept.silence,
      h.kept.silenceLeft, h.kept.rate, h.kept.frame.trans hf⟩, h.trail.snoc e hs hd ht rfl rfl⟩

theorem Ok.setEvent {m : Machine} (h : OK m) {t elo' ehi' : Int} (ht : elo' ≤ t ∧ t ≤ ehi') :
    Ok m0 β lo hi elo' ehi' { m with nextEvent := t } :=
  ⟨h.cpu, h.time, ht, h.chips, h.consol, h.covox,
    ⟨h.kept.info, h.kept.nextScan, h.kept.nextPlayer, h.kept.song, h.kept.duration, h.kept.played, h.kept.silence,
      h.kept.silenceLeft, h.kept.rate, h.kept.frame⟩, h.trail⟩

include hr in
theorem ok_pokePokey (hlo : 0 ≤ lo) (hhi : hi ≤ Pair.latest) (he : elo ≤ lo) {a d : Int} (hd : Byte d) :
    Tri CpuBad NOW (Machine.pokePokey a d) fun _ => NOW := by
  refine Tri.bind (Q := fun c m => (NOW m ∧ c = m.cpu.cycle) ∧ lo ≤ c ∧ c ≤ hi) (Tri.reg fun m hm => ⟨⟨hm, rfl⟩, hm.time⟩) fun c =>
    Tri.fact' fun hc => ?_
  refine Tri.bind (Q := fun t m => NOW { m with told := .write a d c :: m.told } ∧ lo ≤ t) (Tri.chips fun m hm => ?_) fun t =>
    Tri.fact' fun ht => Tri.then (P' := NOW) (Tri.modify fun m hm => hm) (Tri.modify fun m hm => ?_)
  · obtain ⟨hm, hcm⟩ := hm
    have hp := hm.chips.poke hr a hd (c := c) (by omega)
    cases hx : m.pk.poke a d c with
    | error e => rw [hx] at hp; exact Or.inr hp
    | ok r =>
      rw [hx] at hp
      refine ⟨hm.tell hp.1.1 hp.1.2 (.write a d c) ?_ ⟨hd, by omega⟩ fun x hx => ?_, by have := hp.2; omega⟩
      · simp only [Spec.stepPair]; rw [hx]; rfl
      · rw [List.mem_singleton.1 hx]; show 0 + c = m.cpu.cycle; omega
  · refine hm.setEvent ?_
    have := hm.event
    split <;> omega

theorem ok_pokeWsync (hlo : 0 ≤ lo) : Tri E NOW Machine.pokeWsync fun _ => Ok m0 id lo (hi + (106 - hi) % 114) elo ehi := by
  intro m hm
  have h := hm.time
  have e : Int.tmod m.cpu.cycle 114 = m.cpu.cycle % 114 := Int.tmod_eq_emod_of_nonneg (by omega)
  refine (ok_advance (m0 := m0) (lo := m.cpu.cycle) (hi := m.cpu.cycle) (elo := elo) (ehi := ehi) (n := (if Int.tmod m.cpu.cycle 114 ≤ 106 then 106 else 106 + 114) - Int.tmod m.cpu.cycle 114)
    (by rw [e]; split <;> omega) m
    ⟨hm.cpu, ⟨Int.le_refl _, Int.le_refl _⟩, hm.event, hm.chips, hm.consol, hm.covox, hm.kept, hm.trail⟩).mono (fun _ x => x) fun r hx => hx.widen ?_ ?_
  · rw [e]; split <;> omega
  · rw [e]; split <;> omega

theorem ok_pokeNmires : Tri E OK Machine.pokeNmires fun _ => OK :=
  Tri.modify fun m h => ⟨h.cpu, h.time, h.event, h.chips, h.consol, h.covox,
    ⟨h.kept.info, h.kept.nextScan, h.kept.nextPlayer, h.kept.song, h.kept.duration, h.kept.played, h.kept.silence,
      h.kept.silenceLeft, h.kept.rate, h.kept.frame⟩, h.trail⟩

include hr in
theorem ok_externalBase (hlo : 0 ≤ lo) (hhi : hi ≤ Pair.latest) (d : Int) :
    Tri CpuBad NOW (Machine.externalBase d) fun _ => NOW := by
  refine Tri.bind (Q := fun c m => (NOW m ∧ c = m.cpu.cycle) ∧ lo ≤ c ∧ c ≤ hi) (Tri.reg fun m hm => ⟨⟨hm, rfl⟩, hm.time⟩) fun c =>
    Tri.fact' fun hc => ?_
  refine Tri.then (P' := fun m => NOW { m with told := .step false c d :: m.told }) (Tri.chips fun m hm => ?_) (Tri.modify fun m hm => hm)
  obtain ⟨hm, hcm⟩ := hm
  have := hm.chips.step hr (.external false c d) (show 0 ≤ c ∧ c ≤ Pair.latest by omega)
  simp only [Spec.stepPair] at this
  cases hx : m.pk.base.addExternalDelta m.pk.cfg c d with
  | error e => rw [hx] at this; exact Or.inr this
  | ok b =>
    rw [hx] at this
    refine hm.tell this (Pair.Frame.chips m.pk b m.pk.extra) (.external false c d) ?_ (show 0 ≤ c ∧ c ≤ Pair.latest by omega) fun x hx => ?_
    · simp only [Spec.stepPair]; rw [hx]; rfl
    · rw [List.mem_singleton.1 hx]; show 0 + c = m.cpu.cycle; omega

include hr in
theorem ok_externalExtra (hlo : 0 ≤ lo) (hhi : hi ≤ Pair.latest) (d : Int) :
    Tri CpuBad NOW (Machine.externalExtra d) fun _ => NOW := by
  refine Tri.bind (Q := fun c m => (NOW m ∧ c = m.cpu.cycle) ∧ lo ≤ c ∧ c ≤ hi) (Tri.reg fun m hm => ⟨⟨hm, rfl⟩, hm.time⟩) fun c =>
    Tri.fact' fun hc => ?_
  refine Tri.then (P' := fun m => NOW { m with told := .step true c d :: m.told }) (Tri.chips fun m hm => ?_) (Tri.modify fun m hm => hm)
  obtain ⟨hm, hcm⟩ := hm
  have := hm.chips.step hr (.external true c d) (show 0 ≤ c ∧ c ≤ Pair.latest by omega)
  simp only [Spec.stepPair] at this
  cases hx : m.pk.extra.addExternalDelta m.pk.cfg c d with
  | error e => rw [hx] at this; exact Or.inr this
  | ok b =>
    rw [hx] at this
    refine hm.tell this (Pair.Frame.chips m.pk m.pk.base b) (.external true c d) ?_ (show 0 ≤ c ∧ c ≤ Pair.latest by omega) fun x hx => ?_
    · simp only [Spec.stepPair]; rw [hx]; rfl
    · rw [List.mem_singleton.1 hx]; show 0 + c = m.cpu.cycle; omega

include hr in
theorem ok_pokeCovox (hlo : 0 ≤ lo) (hhi : hi ≤ Pair.latest) (i : Nat) {d : Int} (hd : Byte d) :
    Tri CpuBad NOW (Machine.pokeCovox i d) fun _ => NOW := by
  refine Tri.bindGet (φ := fun _ => True) (fun _ _ => trivial) fun old _ => Tri.when (fun _ => ?_) fun _ _ h => h
  refine Tri.then (P' := NOW) (Tri.ite (fun _ => ok_externalBase hr hlo hhi _) fun _ => ok_externalExtra hr hlo hhi _) ?_
  refine Tri.modify fun m h => ⟨h.cpu, h.time, h.event, h.chips, h.consol, fun j => ?_,
    ⟨h.kept.info, h.kept.nextScan, h.kept.nextPlayer, h.kept.song, h.kept.duration, h.kept.played, h.kept.silence,
      h.kept.silenceLeft, h.kept.rate, h.kept.frame⟩, h.trail⟩
  show Byte (upd m.covox i d j)
  unfold upd
  split
  · exact hd
  · exact h.covox j

include hr in
theorem ok_pokeConsol (hlo : 0 ≤ lo) (hhi : hi ≤ Pair.latest) {d : Int} (hd : Byte d) :
    Tri CpuBad NOW (Machine.pokeConsol d) fun _ => NOW := by
  refine Tri.bindGet (φ := fun _ => True) (fun _ _ => trivial) fun old _ => Tri.then (P' := NOW) ?_ ?_
  · refine Tri.when (fun _ => ?_) fun _ _ h => h
    refine (ok_externalBase hr hlo hhi _).then ((ok_externalExtra hr hlo hhi _).then (Tri.modify fun m h => ?_))
    exact ⟨h.cpu, h.time, h.event, h.chips, h.consol, h.covox,
      ⟨h.kept.info, h.kept.nextScan, h.kept.nextPlayer, h.kept.song, h.kept.duration, h.kept.played, h.kept.silence,
        h.kept.silenceLeft, h.kept.rate, h.kept.frame⟩, h.trail⟩
  · exact Tri.modify fun m h => ⟨h.cpu, h.time, h.event, h.chips, hd, h.covox,
      ⟨h.kept.info, h.kept.nextScan, h.kept.nextPlayer, h.kept.song, h.kept.duration, h.kept.played, h.kept.silence,
        h.kept.silenceLeft, h.kept.rate, h.kept.frame⟩, h.trail⟩

theorem Tri.wide {f : C Unit} (h : Tri E OK f fun _ => OK) {d : Int} (hd : 0 ≤ d := by omega) :
    Tri E OK f fun _ => Ok m0 β lo (hi + d) elo ehi :=
  h.post fun _ _ hm => hm.widen (Int.le_refl _) (by omega)

include hr in
theorem ok_pokeHardware (hlo : 0 ≤ lo) (hhi : hi ≤ Pair.latest) (he : elo ≤ lo) {a d : Int} (ha : 0 ≤ a ∧ a < 65536) (hd : Byte d) :
    Tri CpuBad NOW (Machine.pokeHardware a d) fun _ => Ok m0 id lo (hi + (106 - hi) % 114) elo ehi := by
  refine Tri.bindGet (φ := fun _ => True) (fun _ _ => trivial) fun cov _ => ?_
  refine Tri.ite (fun _ => (ok_pokePokey hr hlo hhi he hd).wide) fun _ => ?_
  refine Tri.ite (fun _ => ok_pokeWsync hlo) fun _ => ?_
  refine Tri.ite (fun _ => ok_pokeNmires.wide) fun _ => ?_
  refine Tri.ite (fun _ => (ok_pokeCovox hr hlo hhi _ hd).wide) fun _ => ?_
  exact Tri.ite (fun _ => (ok_pokeConsol hr hlo hhi hd).wide) fun _ => (ok_store ha).wide

theorem ok_peek (hlo : 0 ≤ lo) {a : Int} (ha : 0 ≤ a ∧ a < 65536) : Tri E OK (Machine.peek a) fun v m => OK m ∧ Byte v :=
  Tri.ite (fun _ => ok_peekHardware hlo ha) fun _ => ok_load ha

include hr in
theorem ok_poke (hlo : 0 ≤ lo) (hhi : hi ≤ Pair.latest) (he : elo ≤ lo) {a d : Int} (ha : 0 ≤ a ∧ a < 65536) (hd : Byte d) :
    Tri CpuBad NOW (Machine.poke a d) fun _ => Ok m0 id lo (hi + (106 - hi) % 114) elo ehi :=
  Tri.ite (fun _ => ok_pokeHardware hr hlo hhi he ha hd) fun _ => (ok_store ha).wide

include hr in
theorem ok_peekRmw (hlo : 1 ≤ lo) (hhi : hi ≤ Pair.latest) (he : elo + 1 ≤ lo) (hb : b + 1 ≤ lo) {a : Int} (ha : 0 ≤ a ∧ a < 65536) :
    Tri CpuBad MUM (Machine.peekRmw a) fun v m => NOW m ∧ Byte v := by
  refine Tri.ite (fun h2 => ?_) fun _ => (ok_load ha).post fun _ _ h => ⟨h.1.speak (by omega), h.2⟩
  refine (ok_addCycle (-1)).then ?_
  refine (ok_peekHardware (by omega) ha).bindF fun v hv => ?_
  refine Tri.then (P' := Ok m0 id (lo + -1) (hi + -1) elo ehi) ?_ ?_
  · unfold Machine.pokeHardware
    refine Tri.bindGet (φ := fun _ => True) (fun _ _ => trivial) fun cov _ => ?_
    rw [if_pos h2]
    exact (ok_pokePokey hr (by omega) (by omega) (by omega) hv).pre fun m hm => hm.speak (by omega)
  · refine (ok_advance (by omega)).then (Tri.pure fun m hm => ⟨hm.widen (by omega) (by omega), hv⟩)
end

end Asap
