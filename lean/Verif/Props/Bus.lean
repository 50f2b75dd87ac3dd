import Verif.Lemmas.Bus
import Verif.Props.Isa

/-! # C44: programs reach the hardware by loads and stores -/

namespace Asap.Props
open Asap Asap.Spec Asap.Spec.Bus Asap.Machine

theorem memory_modes : ∀ mn : Isa.Mn, (stored ⟨fun _ => 0, 0, 0, 0, 0, 0, 0, 0, 0, 0⟩ mn).isSome ∨ reads mn = true ∨ (changed false 0 mn).isSome →
    ∀ k ∈ Isa.codes mn, (k.mode.memory = true ∨ k.mode = .acc) ∧ 2 ≤ k.cycles := by
  intro mn
  cases mn <;> decide

theorem extra_range (st : Isa.State) (mn : Isa.Mn) (mode : Isa.Mode) : 0 ≤ st.extra mn mode := by
  unfold Isa.State.extra
  split_ifs <;> decide

/-- C44.  `STA`, `STX` and `STY`, in every addressing mode and at every address: a store to POKEY is heard by the sound chips with
its address, its value and the time at which the instruction ends; a store to COVOX or to the speaker makes a step of the sound
on the proper side; a store to WSYNC makes the processor wait, one to NMIRES resets NMIST.  Everything else is memory.  Nothing
else of the player changes. -/
theorem C44_stores (m m' : Machine) (hr : InRange m.cpu) (hc : 0 ≤ m.cpu.cycle) (mn : Isa.Mn) (v : Int) (hv : stored m.cpu mn = some v)
    (k : Isa.Code) (hk : k ∈ Isa.codes mn) (hop : m.cpu.mem m.cpu.pc = k.opcode) (hpc : 0 ≤ m.cpu.pc ∧ m.cpu.pc + k.mode.size ≤ 0x10000)
    (h : instruction m = .ok ((), m')) :
    Stores (finishing m k.mode k.cycles) ((view m.cpu).effective k.mode) v m' := by
  have h3 : mn = .sta ∨ mn = .stx ∨ mn = .sty := by
    cases mn <;> first | simp; done | simp [Spec.Bus.stored] at hv
  have hsome : (stored ⟨fun _ => 0, 0, 0, 0, 0, 0, 0, 0, 0, 0⟩ mn).isSome := by
    rcases h3 with rfl | rfl | rfl <;> rfl
  have hmm := memory_modes mn (Or.inl hsome) k hk
  have hm : k.mode.memory = true := by
    rcases h3 with rfl | rfl | rfl
    all_goals clear hop hpc hmm h; revert hk; revert k; decide
  have hex : (view m.cpu).extra mn k.mode = 0 := by
    have : mn.reads = false := by rcases h3 with rfl | rfl | rfl <;> rfl
    unfold Isa.State.extra
    rw [this]
    split
    · next hrel => rw [hrel] at hm; exact absurd hm (by decide)
    · rfl
  have hea := effective_range m.cpu hr k.mode hm hpc
  obtain ⟨op, ho, hv2, hs⟩ : ∃ op, opOf mn = some op ∧ (0 ≤ v ∧ v < 256) ∧ ∀ ea, operate op ea (finishing m k.mode k.cycles) = poke ea v (finishing m k.mode k.cycles) := by
    rcases h3 with rfl | rfl | rfl
    · exact ⟨.sta, rfl, by have := hr.a; have e : m.cpu.a = v := Option.some.inj hv; omega, fun ea => by rw [← Option.some.inj hv]; rfl⟩
    · exact ⟨.stx, rfl, by have := hr.x; have e : m.cpu.x = v := Option.some.inj hv; omega, fun ea => by rw [← Option.some.inj hv]; rfl⟩
    · exact ⟨.sty, rfl, by have := hr.y; have e : m.cpu.y = v := Option.some.inj hv; omega, fun ea => by rw [← Option.some.inj hv]; rfl⟩
  rw [Asap.Bus.instruction_op m hr mn k hk op ho hm hop hpc, hex, Int.add_zero, hs] at h
  exact Asap.Bus.poke_stores hea hv2 (by show 0 ≤ m.cpu.cycle + k.cycles; omega) h

/-- C44.  Instructions that read a byte, in every addressing mode and at every address: the byte is the one shown by the
register, or memory, at the time the instruction ends.  The registers and flags change as the manual says for this byte.
Nothing else of the player changes. -/
theorem C44_loads (m m' : Machine) (hr : InRange m.cpu) (hs : Sane m) (mn : Isa.Mn) (hrd : reads mn = true)
    (k : Isa.Code) (hk : k ∈ Isa.codes mn) (hop : m.cpu.mem m.cpu.pc = k.opcode) (hpc : 0 ≤ m.cpu.pc ∧ m.cpu.pc + k.mode.size ≤ 0x10000)
    (h : instruction m = .ok ((), m')) :
    ∃ v r, Loads (finishing m k.mode (k.cycles + (view m.cpu).extra mn k.mode)) ((view m.cpu).effective k.mode) v ∧ 0 ≤ v ∧ v < 256 ∧
      m' = { m with cpu := r } ∧
      view r = { view m.cpu with pc := m.cpu.pc + k.mode.size }.exec mn k.mode ((view m.cpu).effective k.mode) v ∧
      r.cycle = m.cpu.cycle + k.cycles + (view m.cpu).extra mn k.mode := by
  have hmm := memory_modes mn (Or.inr (Or.inl hrd)) k hk
  have hacc : k.mode ≠ .acc := by
    cases mn <;> first | exact absurd hrd (by decide) | skip
    all_goals clear hop hpc hmm h; revert hk; revert k; decide
  have hm : k.mode.memory = true := hmm.1.resolve_right hacc
  have hea := effective_range m.cpu hr k.mode hm hpc
  have hx := extra_range (view m.cpu) mn k.mode
  obtain ⟨op, ho⟩ : ∃ op, opOf mn = some op := by
    cases mn <;> first | exact absurd hrd (by decide) | exact ⟨_, rfl⟩
  rw [Asap.Bus.instruction_op m hr mn k hk op ho hm hop hpc] at h
  have hs2 : Sane (finishing m k.mode (k.cycles + (view m.cpu).extra mn k.mode)) := Asap.Bus.finishing_sane hs (by omega)
  obtain ⟨v, r, h1, h2, h3, h4, h5⟩ := Asap.Bus.operate_reads _ (Asap.Bus.finishing_range hr) hs2 mn op ho hrd k.mode hacc _ hea m' h
  have hb := Asap.Bus.loads_byte hs2 (Asap.Bus.finishing_range hr) h1
  refine ⟨v, r, h1, hb.1, hb.2, h2, h3, ?_⟩
  rw [h4]
  show m.cpu.cycle + (k.cycles + _) = _
  omega

/-- C44.  Instructions that change a byte of memory, in every addressing mode and at every address.  At the addresses of POKEY
the sound chips hear two writes: the byte read, one cycle before the end of the instruction, then the result.  At other
addresses the result is stored.  The registers and flags change as the manual says. -/
theorem C44_changes (m m' : Machine) (hr : InRange m.cpu) (hs : Sane m) (mn : Isa.Mn) (hch : ∀ v c, (changed c v mn).isSome)
    (k : Isa.Code) (hk : k ∈ Isa.codes mn) (hacc : k.mode ≠ .acc) (hop : m.cpu.mem m.cpu.pc = k.opcode)
    (hpc : 0 ≤ m.cpu.pc ∧ m.cpu.pc + k.mode.size ≤ 0x10000) (h : instruction m = .ok ((), m')) :
    ∃ v m1 z, LoadsToChange (finishing m k.mode k.cycles) ((view m.cpu).effective k.mode) v m1 ∧
      changed (view m.cpu).c v mn = some z ∧
      Stores m1 ((view m.cpu).effective k.mode) z (outside m' (finishing m k.mode k.cycles).cpu) ∧
      view m'.cpu = { ({ view m.cpu with pc := m.cpu.pc + k.mode.size }.exec mn k.mode ((view m.cpu).effective k.mode) v) with mem := m'.cpu.mem } := by
  have hc0 := hch 0 false
  have hmm := memory_modes mn (Or.inr (Or.inr hc0)) k hk
  have hm : k.mode.memory = true := hmm.1.resolve_right hacc
  have hch2 : Asap.Bus.changes mn = true := by cases mn <;> first | rfl | exact absurd hc0 (by decide)
  have hex : (view m.cpu).extra mn k.mode = 0 := by
    have : mn.reads = false := by cases mn <;> first | rfl | exact absurd hc0 (by decide)
    unfold Isa.State.extra
    rw [this]
    split
    · next hrel => rw [hrel] at hm; exact absurd hm (by decide)
    · rfl
  have hea := effective_range m.cpu hr k.mode hm hpc
  obtain ⟨op, ho⟩ : ∃ op, opOf mn = some op := by
    cases mn <;> first | exact absurd hc0 (by decide) | exact ⟨_, rfl⟩
  rw [Asap.Bus.instruction_op m hr mn k hk op ho hm hop hpc, hex, Int.add_zero] at h
  have hc := hs.clock
  obtain ⟨v, m1, z, h1, h2, h3, h4, _⟩ := Asap.Bus.operate_changes _ (Asap.Bus.finishing_range hr) (Asap.Bus.finishing_sane hs (by omega))
    (by show 1 ≤ m.cpu.cycle + k.cycles; omega) mn op ho hch2 k.mode hacc _ hea m' h
  exact ⟨v, m1, z, h1, h2, h3, h4⟩

/-- Bit 6 of NMIST as a program reads it. -/
def ShowsVBlank (m : Machine) : Prop := peekNmist m = 0x5f

/-- C44.  NMIST tells if a vertical blank began, at cycle 28291 of a frame, since the last write to NMIRES: within the frame of
the write it is shown from that cycle on if the write was not later, and afterwards it is kept until the next write; without one
it is shown in each of the following frames from that cycle on, and before it if it was shown at the end of the frame before. -/
theorem C44_nmist (m : Machine) :
    (∀ d : Int, m.cpu.cycle ≤ d → ∀ m', pokeNmires m = .ok ((), m') →
      (ShowsVBlank { m' with cpu := { m'.cpu with cycle := d } } ↔ m.cpu.cycle ≤ 28291 ∧ 28291 ≤ d)) ∧
    (∀ d : Int, 28291 ≤ m.cpu.cycle → ∀ m', beginFrame m = .ok ((), m') →
      (ShowsVBlank { m' with cpu := { m'.cpu with cycle := d } } ↔ ShowsVBlank m ∨ 28291 ≤ d)) := by
  constructor
  · intro d hd m' h
    have h := congrArg Prod.snd (Except.ok.inj h)
    subst h
    show (match (if m.cpu.cycle < 28292 then Nmi.onVBlank else .reset) with
      | .reset => (0x1f : Int)
      | .wasVBlank => 0x5f
      | .onVBlank => if d < 28291 then 0x1f else 0x5f) = 0x5f ↔ _
    by_cases h1 : m.cpu.cycle < 28292
    · rw [if_pos h1]
      by_cases h2 : d < 28291
      · simp only [if_pos h2]; constructor
        · intro h; exact absurd h (by decide)
        · intro h; omega
      · simp only [if_neg h2]; exact ⟨fun _ => by omega, fun _ => by first | trivial | rfl⟩
    · rw [if_neg h1]
      constructor
      · intro h; exact absurd (show (0x1f : Int) = 0x5f from h) (by decide)
      · intro h; omega
  · intro d hd m' h
    have h := congrArg Prod.snd (Except.ok.inj h)
    subst h
    show (match (if m.nmist = Nmi.reset then Nmi.onVBlank else .wasVBlank) with
      | .reset => (0x1f : Int)
      | .wasVBlank => 0x5f
      | .onVBlank => if d < 28291 then 0x1f else 0x5f) = 0x5f ↔ peekNmist m = 0x5f ∨ _
    unfold peekNmist
    cases m.nmist
    · rw [if_pos rfl]
      by_cases h2 : d < 28291
      · simp only [if_pos h2]; constructor
        · intro h; exact absurd h (by decide)
        · intro h; exact absurd h (by omega)
      · simp only [if_neg h2]; exact ⟨fun _ => Or.inr (by omega), fun _ => by first | trivial | rfl⟩
    · rw [if_neg (by decide)]
      have : ¬ m.cpu.cycle < 28291 := by omega
      simp only [if_neg this]
      exact ⟨fun _ => Or.inl (by first | trivial | rfl), fun _ => by first | trivial | rfl⟩
    · rw [if_neg (by decide)]
      exact ⟨fun _ => Or.inl (by first | trivial | rfl), fun _ => by first | trivial | rfl⟩

/-! ### Concrete cases -/

/-- What is told, and the clock and accumulator, after some instructions. -/
def toldAfter : Nat → Machine → Option (List Signal × Int × Int)
  | 0, m => some (m.told, m.cpu.cycle, m.cpu.a)
  | n + 1, m => match instruction m with
    | .ok (_, m) => toldAfter n m
    | .error _ => none

/-- The machine after some instructions that succeed. -/
theorem told_some {m : Machine} {r : List Signal × Int × Int} (h : toldAfter 1 m = some r) : ∃ m', instruction m = .ok ((), m') ∧ m'.told = r.1 := by
  unfold toldAfter at h
  cases hi : instruction m with
  | error e => rw [hi] at h; exact nomatch h
  | ok p =>
    rw [hi] at h
    exact ⟨p.2, rfl, congrArg Prod.fst (Option.some.inj h)⟩

/-- A player with chips after a reset. -/
def sound2000 (code : List Int) (a : Int) : Machine :=
  let m := at2000 [(0x2000, code)] a 0xff false
  { m with pk := m.pk.initPair false false 44100, consol := 8, covox := fun _ => 0x80, info := { m.info with covoxAddr := 0xd600 } }

/-- `STA D201` at cycle 0: AUDC1 is written at cycle 4. -/
example : toldAfter 1 (sound2000 [0x8d, 0x01, 0xd2] 0xa8) = some ([.write 0xd201 0xa8 4], 4, 0xa8) := by decide +kernel
/-- `STA D602`, `STA D603`: a step on the right, then on the left. -/
example : toldAfter 2 (sound2000 [0x8d, 0x02, 0xd6, 0x8d, 0x03, 0xd6] 0xa8) =
    some ([.step false 8 (0x28 * 131072), .step true 4 (0x28 * 131072)], 8, 0xa8) := by decide +kernel
/-- `STA D01F`: the speaker. -/
example : toldAfter 1 (sound2000 [0x8d, 0x1f, 0xd0] 0) = some ([.step true 4 8388608, .step false 4 8388608], 4, 0) := by decide +kernel
/-- `INC D20E`: the byte read is written, then the one after it. -/
example : toldAfter 1 (sound2000 [0xee, 0x0e, 0xd2] 0) = some ([.write 0xd20e 0 6, .write 0xd20e 0xff 5], 6, 0) := by decide +kernel
/-- `STA D40A`, `LDA D01F`: the processor waits for cycle 106, then reads CONSOL. -/
example : toldAfter 2 (sound2000 [0x8d, 0x0a, 0xd4, 0xad, 0x1f, 0xd0] 0) = some ([], 110, 7) := by decide +kernel

/-- The hypotheses of `C44_stores`, `C44_loads` and `C44_changes` are met by these. -/
example : InRange (sound2000 [0x8d, 0x01, 0xd2] 0xa8).cpu ∧ Sane (sound2000 [0x8d, 0x01, 0xd2] 0xa8) ∧
    stored (sound2000 [0x8d, 0x01, 0xd2] 0xa8).cpu .sta = some 0xa8 ∧ ∃ k ∈ Isa.codes .sta, (sound2000 [0x8d, 0x01, 0xd2] 0xa8).cpu.mem 0x2000 = k.opcode ∧
      (view (sound2000 [0x8d, 0x01, 0xd2] 0xa8).cpu).effective k.mode = 0xd201 ∧ k.cycles = 4 :=
  ⟨at2000_range _ _ _ _ (by decide) (by decide) (by decide),
    ⟨by decide, Or.inl rfl, by decide, by decide⟩, rfl, ⟨0x8d, .abs, 4⟩, by decide, by decide +kernel, by decide +kernel, rfl⟩

end Asap.Props
