import Verif.Spec.Processor

/-!
# The hardware registers seen by programs

What a load reads and what a store does, at every address.
-/

namespace Asap.Spec.Bus

instance (page : Int) : Decidable (hardwarePage page) := inferInstanceAs (Decidable (_ ∨ _ ∨ _ ∨ _))

/-- What stores can reach. -/
inductive Device where
  | pokey | wsync | nmires | covox (channel : Nat) | consol | memory
  deriving DecidableEq, Repr

/-- The device at an address, given the page of COVOX.  POKEY has the page D2.  Registers of ANTIC (page D4) repeat every 16
bytes, those of GTIA (page D0) every 32 bytes. -/
def device (covoxPage : Int) (addr : Int) : Device :=
  if addr / 256 = 0xd2 then .pokey
  else if addr / 256 = 0xd4 ∧ addr % 16 = 0xa then .wsync
  else if addr / 256 = 0xd4 ∧ addr % 16 = 0xf then .nmires
  else if hardwarePage (addr / 256) ∧ addr / 256 * 256 = covoxPage then .covox (addr % 4).toNat
  else if addr / 256 = 0xd0 ∧ addr % 32 = 0x1f then .consol
  else .memory

/-- Bit 3 of CONSOL is the speaker. -/
def speaker (v : Int) : Int := v / 8 % 2

/-- The machine after the byte `v` is stored at `addr` by an instruction that ends at the cycle shown by the clock of `m`. -/
def Stores (m : Machine) (addr v : Int) (m' : Machine) : Prop :=
  match device m.info.covoxAddr addr with
  | .pokey =>
    -- the chips hear of it, and they decide when the next interrupt may come
    m'.told = .write addr v m.cpu.cycle :: m.told ∧ m' = { m with told := m'.told, pk := m'.pk, nextEvent := m'.nextEvent } ∧
      m'.nextEvent ≤ m.nextEvent
  | .wsync =>
    -- the processor waits for the end of the scan line
    ∃ t, m' = { m with cpu := { m.cpu with cycle := t } } ∧
      m.cpu.cycle ≤ t ∧ t % 114 = 106 ∧ ∀ d, m.cpu.cycle ≤ d → d % 114 = 106 → t ≤ d
  | .nmires => m' = { m with nmist := if m.cpu.cycle ≤ 28291 then .onVBlank else .reset }
  | .covox i =>
    -- channels 1 and 2 are on the right
    if v = m.covox i then m' = m
    else m'.told = .step (decide (i = 1 ∨ i = 2)) m.cpu.cycle ((v - m.covox i) * 131072) :: m.told ∧
      m' = { m with told := m'.told, pk := m'.pk, external := true, covox := fun j => if j = i then v else m.covox j }
  | .consol =>
    -- the speaker is on both sides
    if speaker v = speaker m.consol then m' = { m with consol := v }
    else m'.told = .step true m.cpu.cycle ((speaker m.consol - speaker v) * 8388608) ::
        .step false m.cpu.cycle ((speaker m.consol - speaker v) * 8388608) :: m.told ∧
      m' = { m with told := m'.told, pk := m'.pk, external := true, consol := v }
  | .memory => m' = { m with cpu := { m.cpu with mem := fun b => if b = addr then v else m.cpu.mem b } }

/-- The chip at an address of page D2: the second one, of a stereo song, where bit 4 of the address is set. -/
def chip (m : Machine) (addr : Int) : Pokey := if m.pk.extraMask ≠ 0 ∧ addr / 16 % 2 = 1 then m.pk.extra else m.pk.base

/-- The byte `v` is read from `addr` at the cycle shown by the clock.  For RANDOM of POKEY see C24. -/
def Loads (m : Machine) (addr v : Int) : Prop :=
  if addr / 256 = 0xd0 ∧ addr % 32 = 0x14 then v = if m.info.ntsc then 15 else 1
  else if addr / 256 = 0xd0 ∧ addr % 32 = 0x1f then v = 15 - m.consol % 16
  else if addr / 256 = 0xd2 ∧ addr % 16 = 0xa then m.pk.peek addr m.cpu.cycle = .ok v
  else if addr / 256 = 0xd2 ∧ addr % 16 = 0xe then v = (chip m addr).irqst
  else if addr / 256 = 0xd2 ∧ (addr % 16 = 0xc ∨ addr % 16 = 0xf) then v = 255
  else if addr / 256 = 0xd4 ∧ addr % 16 = 0xb then
    v = if m.cpu.cycle > (if m.info.ntsc then 262 else 312) * 114 then 0 else m.cpu.cycle / 228
  else if addr / 256 = 0xd4 ∧ addr % 16 = 0xf then
    v = 31 + (if m.nmist = .wasVBlank ∨ m.nmist = .onVBlank ∧ 28291 ≤ m.cpu.cycle then 64 else 0)
  else v = m.cpu.mem addr

/-- What is known of the clock and of the chips in every player. -/
structure Sane (m : Machine) : Prop where
  clock : 0 ≤ m.cpu.cycle
  stereo : m.pk.extraMask = 0 ∨ m.pk.extraMask = 16
  base : 0 ≤ m.pk.base.irqst ∧ m.pk.base.irqst < 256
  extra : 0 ≤ m.pk.extra.irqst ∧ m.pk.extra.irqst < 256

/-- Instructions that store a register. -/
def stored (r : Cpu) : Isa.Mn → Option Int
  | .sta => some r.a
  | .stx => some r.x
  | .sty => some r.y
  | _ => none

/-- Instructions that read their operand and store nothing. -/
def reads : Isa.Mn → Bool
  | .adc | .and | .bit | .cmp | .cpx | .cpy | .eor | .lda | .ldx | .ldy | .ora | .sbc => true
  | _ => false

/-- Instructions that change a byte: what they make of it, given the carry. -/
def changed (c : Bool) (v : Int) : Isa.Mn → Option Int
  | .asl => some (2 * v % 256)
  | .rol => some ((2 * v + Isa.State.bit c) % 256)
  | .lsr => some (v / 2)
  | .ror => some (v / 2 + 128 * Isa.State.bit c)
  | .inc => some ((v + 1) % 256)
  | .dec => some ((v - 1) % 256)
  | _ => none

/-- The machine at the end of an instruction that takes `cycles`, before its effect. -/
def finishing (m : Machine) (mode : Isa.Mode) (cycles : Int) : Machine :=
  { m with cpu := { m.cpu with pc := m.cpu.pc + mode.size, cycle := m.cpu.cycle + cycles } }

/-- The clock is changed by `n` cycles. -/
def shifted (m : Machine) (n : Int) : Machine := { m with cpu := { m.cpu with cycle := m.cpu.cycle + n } }

/-- The byte read by an instruction that changes a byte, which may also do something.  At POKEY's addresses the byte is written
back one cycle before the end of the instruction; other hardware registers are not read, memory under them is. -/
def LoadsToChange (m : Machine) (addr v : Int) (m' : Machine) : Prop :=
  if addr / 256 = 0xd2 then Loads (shifted m (-1)) addr v ∧ Stores (shifted m (-1)) addr v (shifted m' (-1))
  else v = m.cpu.mem addr ∧ m' = m

/-- The hardware and the memory, without the registers of the processor. -/
def outside (m : Machine) (r : Cpu) : Machine := { m with cpu := { r with mem := m.cpu.mem, cycle := m.cpu.cycle } }

end Asap.Spec.Bus
