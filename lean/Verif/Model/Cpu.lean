import Verif.Model.Pokey

/-!
# The 6502 processor and the Atari hardware around it: cpu6502.fu, asap.fu

The processor and the `ASAP` object refer to each other, so they form one state.  All `int`
variables are mathematical integers, `Memory` is a function; an access outside its 65536 bytes is a
fault: `pc` if an instruction byte is fetched, `mem` otherwise.
-/

namespace Asap

/-- `Cpu6502`, cpu6502.fu:48-58. -/
structure Cpu where
  mem : Int → Int
  cycle : Int
  pc : Int
  a : Int
  x : Int
  y : Int
  s : Int
  nz : Int
  c : Int
  vdi : Int

/-- `NmiStatus`, asap.fu:22-27. -/
inductive Nmi where
  | reset | onVBlank | wasVBlank
  deriving DecidableEq, Repr

/-- What the machine tells the sound chips.  Model only: a record kept for the theorems, see `Machine.told`. -/
inductive Signal where
  /-- a register write: address, byte, cycle of the frame; asap.fu:131 -/
  | write (addr data cycle : Int)
  /-- a step of COVOX or of the speaker on the right or left channel; e.g. asap.fu:152 -/
  | step (right : Bool) (cycle height : Int)
  /-- the end of a frame of the given length; asap.fu:280 -/
  | frame (length : Int)
  deriving DecidableEq, Repr

/-- `ASAP`, asap.fu:36-61, 69.  The last field is not in the code: it records what the chips have been told since `PlaySong`,
the latest first, and nothing depends on it. -/
structure Machine where
  cpu : Cpu
  nextEvent : Int
  nextScan : Int
  nmist : Nmi
  consol : Int
  covox : Nat → Int
  pk : Pair
  info : Info
  nextPlayer : Int
  tmc : Int
  song : Int
  duration : Int
  played : Int
  silence : Int
  silenceLeft : Int
  external : Bool
  rate : Int
  told : List Signal := []

/-- Programs of the machine.  Model only: the code changes the objects in place, e.g. cpu6502.fu:65-71. -/
def C (α : Type) := Machine → X (α × Machine)

namespace C

/-- Sequencing.  Model only: `;`, e.g. cpu6502.fu:125-126. -/
def bind {α β : Type} (f : C α) (g : α → C β) : C β := fun m =>
  match f m with
  | .ok (a, m) => g a m
  | .error e => .error e

instance : Monad C where
  pure a := fun m => .ok (a, m)
  bind := C.bind

/-- A fault.  Model only: an array index outside the array, e.g. cpu6502.fu:283. -/
def fail {α : Type} (e : Hw) : C α := fun _ => .error e

/-- `if (c) f;`, e.g. cpu6502.fu:467-468. -/
def when (c : Prop) [Decidable c] (f : C Unit) : C Unit := if c then f else pure ()

/-- Reads the machine, e.g. cpu6502.fu:140. -/
def get {α : Type} (f : Machine → α) : C α := fun m => .ok (f m, m)

/-- Reads the processor, e.g. cpu6502.fu:140. -/
def reg {α : Type} (f : Cpu → α) : C α := fun m => .ok (f m.cpu, m)

/-- Changes the machine, e.g. asap.fu:133. -/
def modify (f : Machine → Machine) : C Unit := fun m => .ok ((), f m)

/-- Changes the processor, e.g. cpu6502.fu:244. -/
def setCpu (f : Cpu → Cpu) : C Unit := fun m => .ok ((), { m with cpu := f m.cpu })

/-- Calls the sound chips, e.g. asap.fu:131. -/
def chips {α : Type} (f : Pair → X (α × Pair)) : C α := fun m =>
  match f m.pk with
  | .ok (a, q) => .ok (a, { m with pk := q })
  | .error e => .error e

end C

namespace Machine
open C

/-- `Memory[addr]`, cpu6502.fu:48. -/
def load (addr : Int) : C Int := fun m =>
  if 0 ≤ addr ∧ addr < 65536 then .ok (m.cpu.mem addr, m) else .error .mem

/-- `memory` with one byte changed; storing an `int` into a `byte` keeps the low 8 bits,
cpu6502.fu:48, 86. -/
def stored (mem : Int → Int) (addr v : Int) : Int → Int := fun b => if b = addr then v % 256 else mem b

/-- `Memory[addr] = v`, cpu6502.fu:86. -/
def store (addr v : Int) : C Unit := fun m =>
  if 0 ≤ addr ∧ addr < 65536 then .ok ((), { m with cpu := { m.cpu with mem := stored m.cpu.mem addr v } })
  else .error .mem

/-- `A = v`, e.g. cpu6502.fu:148. -/
def setA (v : Int) : C Unit := setCpu fun c => { c with a := v }
/-- `X = v`, e.g. cpu6502.fu:727. -/
def setX (v : Int) : C Unit := setCpu fun c => { c with x := v }
/-- `Y = v`, e.g. cpu6502.fu:724. -/
def setY (v : Int) : C Unit := setCpu fun c => { c with y := v }
/-- `S = v`, e.g. cpu6502.fu:707. -/
def setS (v : Int) : C Unit := setCpu fun c => { c with s := v }
/-- `Nz = v`, e.g. cpu6502.fu:143. -/
def setNz (v : Int) : C Unit := setCpu fun c => { c with nz := v }
/-- `C = v`, e.g. cpu6502.fu:147. -/
def setC (v : Int) : C Unit := setCpu fun c => { c with c := v }
/-- `Vdi = v`, e.g. cpu6502.fu:178. -/
def setVdi (v : Int) : C Unit := setCpu fun c => { c with vdi := v }
/-- `Pc = v`, e.g. cpu6502.fu:245. -/
def setPc (v : Int) : C Unit := setCpu fun c => { c with pc := v }
/-- `Cycle = v`, e.g. cpu6502.fu:347. -/
def setCycle (v : Int) : C Unit := setCpu fun c => { c with cycle := v }
/-- `Cycle += n`, e.g. cpu6502.fu:251. -/
def addCycle (n : Int) : C Unit := setCpu fun c => { c with cycle := c.cycle + n }
/-- `Pc += n`, e.g. cpu6502.fu:423. -/
def addPc (n : Int) : C Unit := setCpu fun c => { c with pc := c.pc + n }
/-- `Nz = A = v`, e.g. cpu6502.fu:672. -/
def setNzA (v : Int) : C Unit := do setA v; setNz v
/-- `Nz = X = v`, e.g. cpu6502.fu:727. -/
def setNzX (v : Int) : C Unit := do setX v; setNz v
/-- `Nz = Y = v`, e.g. cpu6502.fu:724. -/
def setNzY (v : Int) : C Unit := do setY v; setNz v

/-- `Memory[Pc]`, e.g. cpu6502.fu:545. -/
def here : C Int := fun m =>
  if 0 ≤ m.cpu.pc ∧ m.cpu.pc < 65536 then .ok (m.cpu.mem m.cpu.pc, m) else .error .pc

/-- `Memory[Pc++]`, e.g. cpu6502.fu:283. -/
def fetch : C Int := do
  let v ← here
  addPc 1
  pure v

/-! ## Hardware registers -/

/-- `Cycle` at the end of a frame, asap.fu:278. -/
def frameCycles (ntsc : Bool) : Int := if ntsc then 262 * 114 else 312 * 114

/-- `NMIST`, asap.fu:115-122. -/
def peekNmist (m : Machine) : Int :=
  match m.nmist with
  | .reset => 0x1f
  | .wasVBlank => 0x5f
  | .onVBlank => if m.cpu.cycle < 28291 then 0x1f else 0x5f

/-- `VCOUNT`, asap.fu:109-112. -/
def peekVcount (m : Machine) : Int :=
  if m.cpu.cycle > frameCycles m.info.ntsc then 0 else Int.tdiv m.cpu.cycle 228

/-- `PeekHardware`, asap.fu:90-126. -/
def peekHardware (addr : Int) : C Int :=
  let r := band addr 0xff1f
  if r = 0xd014 then get fun m => if m.info.ntsc then 0xf else 1
  else if r = 0xd01f then get fun m => band (bnot m.consol) 0xf
  else if r = 0xd20a ∨ r = 0xd21a ∨ r = 0xd20e ∨ r = 0xd21e then fun m => do
    let v ← m.pk.peek addr m.cpu.cycle
    .ok (v, m)
  else if r = 0xd20c ∨ r = 0xd21c ∨ r = 0xd20f ∨ r = 0xd21f then pure 0xff
  else if r = 0xd40b ∨ r = 0xd41b then get peekVcount
  else if r = 0xd40f ∨ r = 0xd41f then get peekNmist
  else load addr

/-- Records what the chips are told.  Model only: nothing in the code, e.g. asap.fu:131. -/
def tell (s : Signal) : C Unit := modify fun m => { m with told := s :: m.told }

/-- A write to POKEY, asap.fu:131-133. -/
def pokePokey (addr data : Int) : C Unit := do
  let cycle ← reg (·.cycle)
  let t ← chips fun q => q.poke addr data cycle
  tell (.write addr data cycle)
  modify fun m => { m with nextEvent := if m.nextEvent > t then t else m.nextEvent }

/-- A write to `WSYNC`, asap.fu:136-137. -/
def pokeWsync : C Unit := do
  let cycle ← reg (·.cycle)
  let x := Int.tmod cycle 114
  addCycle ((if x ≤ 106 then 106 else 106 + 114) - x)

/-- A write to `NMIRES`, asap.fu:140. -/
def pokeNmires : C Unit :=
  modify fun m => { m with nmist := if m.cpu.cycle < 28292 then .onVBlank else .reset }

/-- `BasePokey.AddExternalDelta`, e.g. asap.fu:163. -/
def externalBase (delta : Int) : C Unit := do
  let cycle ← reg (·.cycle)
  chips fun q => do
    let b ← q.base.addExternalDelta q.cfg cycle delta
    .ok ((), { q with base := b })
  tell (.step false cycle delta)

/-- `ExtraPokey.AddExternalDelta`, e.g. asap.fu:164. -/
def externalExtra (delta : Int) : C Unit := do
  let cycle ← reg (·.cycle)
  chips fun q => do
    let e ← q.extra.addExternalDelta q.cfg cycle delta
    .ok ((), { q with extra := e })
  tell (.step true cycle delta)

/-- The chip a COVOX channel is added to, asap.fu:143-148, 152. -/
def externalCovox (i : Nat) (delta : Int) : C Unit :=
  if i = 0 ∨ i = 3 then externalBase delta else externalExtra delta

/-- A write to COVOX channel `i`, asap.fu:143-155. -/
def pokeCovox (i : Nat) (data : Int) : C Unit := do
  let old ← get fun m => m.covox i
  when (data - old ≠ 0) do
    externalCovox i (shl (data - old) 17)
    modify fun m => { m with covox := upd m.covox i data, external := true }

/-- A write to `CONSOL`, asap.fu:158-167. -/
def pokeConsol (data : Int) : C Unit := do
  let consol ← get (·.consol)
  let delta := shl (band consol 8 - band data 8) 20
  when (delta ≠ 0) do
    externalBase delta
    externalExtra delta
    modify fun m => { m with external := true }
  modify fun m => { m with consol := data }

/-- `PokeHardware`, asap.fu:128-171. -/
def pokeHardware (addr data : Int) : C Unit := do
  let covoxAddr ← get (·.info.covoxAddr)
  if shr addr 8 = 0xd2 then pokePokey addr data
  else if band addr 0xff0f = 0xd40a then pokeWsync
  else if band addr 0xff0f = 0xd40f then pokeNmires
  else if band addr 0xff00 = covoxAddr then pokeCovox (band addr 3).toNat data
  else if band addr 0xff1f = 0xd01f then pokeConsol data
  else store addr data

/-- `IsIrq`, asap.fu:253. -/
def isIrq : C Bool := get fun m => decide (m.pk.base.irqst ≠ 0xff)

/-! ## Instructions -/

/-- `VFlag`, cpu6502.fu:60. -/
def vFlag : Int := 0x40
/-- `DFlag`, cpu6502.fu:61. -/
def dFlag : Int := 0x08
/-- `IFlag`, cpu6502.fu:62. -/
def iFlag : Int := 0x04
/-- `ZFlag`, cpu6502.fu:63. -/
def zFlag : Int := 0x02

/-- `Peek`, cpu6502.fu:73-79. -/
def peek (addr : Int) : C Int :=
  if band addr 0xf900 = 0xd000 then peekHardware addr else load addr

/-- `Poke`, cpu6502.fu:81-87. -/
def poke (addr data : Int) : C Unit :=
  if band addr 0xf900 = 0xd000 then pokeHardware addr data else store addr data

/-- `PeekReadModifyWrite`, cpu6502.fu:89-99. -/
def peekRmw (addr : Int) : C Int :=
  if shr addr 8 = 0xd2 then do
    addCycle (-1)
    let data ← peekHardware addr
    pokeHardware addr data
    addCycle 1
    pure data
  else load addr

/-- `Pull`, cpu6502.fu:101-106. -/
def pull : C Int := do
  let s0 ← reg (·.s)
  setS (band (s0 + 1) 0xff)
  load (0x0100 + band (s0 + 1) 0xff)

/-- `PullFlags`, cpu6502.fu:108-114. -/
def pullFlags : C Unit := do
  let data ← pull
  setNz (shl (band data 0x80) 1 + band (bnot data) zFlag)
  setC (band data 1)
  setVdi (band data (bor (bor vFlag dFlag) iFlag))

/-- `Push`, cpu6502.fu:116-121. -/
def push (data : Int) : C Unit := do
  let s ← reg (·.s)
  store (0x0100 + s) data
  setS (band (s - 1) 0xff)

/-- `PushPc`, cpu6502.fu:123-127. -/
def pushPc : C Unit := do
  let pc ← reg (·.pc)
  push (shr pc 8)
  push (band pc 0xff)

/-- The byte pushed by `PushFlags`, cpu6502.fu:131-134. -/
def flagByte (cpu : Cpu) (b : Int) : Int :=
  b + (band (bor cpu.nz (shr cpu.nz 1)) 0x80 + cpu.vdi + cpu.c) + (if band cpu.nz 0xff = 0 then zFlag else 0)

/-- `PushFlags`, cpu6502.fu:129-136. -/
def pushFlags (b : Int) : C Unit := do
  let v ← reg fun c => flagByte c b
  push v

/-- What `AddWithCarry` and `SubtractWithCarry` change, cpu6502.fu:138-188. -/
structure Alu where
  a : Int
  nz : Int
  c : Int
  vdi : Int
  deriving DecidableEq, Repr

/-- The overflow flag of an addition, cpu6502.fu:146. -/
def addVdi (vdi a data tmp : Int) : Int :=
  band vdi (bor dFlag iFlag) + band (shr (band (bnot (bxor data a)) (bxor a tmp)) 1) vFlag

/-- Binary mode of `AddWithCarry`, cpu6502.fu:140-148. -/
def adcBinary (a data c vdi : Int) : Alu :=
  let tmp := a + data + c
  { a := band tmp 0xff, nz := band tmp 0xff, c := shr tmp 8, vdi := addVdi vdi a data tmp }

/-- `tmp` after the correction of the low digit, cpu6502.fu:152-154. -/
def adcLow (a data c : Int) : Int :=
  let al := band a 0x0f + band data 0x0f + c
  if al ≥ 10 then a + data + c + (if al < 26 then 6 else -10) else a + data + c

/-- `Nz` in decimal mode, cpu6502.fu:143, 152-158. -/
def adcNz (a data c : Int) : Int :=
  let nz := band (a + data + c) 0xff
  if band a 0x0f + band data 0x0f + c ≥ 10 ∧ nz ≠ 0 then band (adcLow a data c) 0x80 + 1 else nz

/-- Decimal mode of `AddWithCarry`, cpu6502.fu:140-143, 152-167. -/
def adcDecimal (a data c vdi : Int) : Alu :=
  let tmp := adcLow a data c
  { a := if tmp ≥ 0xa0 then band (tmp - 0xa0) 0xff else tmp
    nz := adcNz a data c
    c := if tmp ≥ 0xa0 then 1 else 0
    vdi := addVdi vdi a data tmp }

/-- `AddWithCarry`, cpu6502.fu:138-169. -/
def adcAlu (a data c vdi : Int) : Alu :=
  if band vdi dFlag = 0 then adcBinary a data c vdi else adcDecimal a data c vdi

/-- The accumulator after `SubtractWithCarry`, cpu6502.fu:175-177, 180-186. -/
def sbcA (a data c vdi : Int) : Int :=
  let tmp := a - data + (c - 1)
  let al := band a 0x0f - band data 0x0f + (c - 1)
  if band vdi dFlag ≠ 0 then
    let r := if al < 0 then band tmp 0xff + (if al < -10 then 10 else -6) else band tmp 0xff
    if tmp ≥ 0 then r else band (r - 0x60) 0xff
  else band tmp 0xff

/-- `SubtractWithCarry`, cpu6502.fu:171-188. -/
def sbcAlu (a data c vdi : Int) : Alu :=
  let tmp := a - data + (c - 1)
  { a := sbcA a data c vdi
    nz := band tmp 0xff
    c := if tmp ≥ 0 then 1 else 0
    vdi := band vdi (bor dFlag iFlag) + band (shr (band (bxor data a) (bxor a tmp)) 1) vFlag }

/-- Stores the results, cpu6502.fu:138-188. -/
def setAlu (r : Alu) : C Unit := do
  setA r.a
  setNz r.nz
  setC r.c
  setVdi r.vdi

/-- `AddWithCarry`, cpu6502.fu:138-169. -/
def addWithCarry (data : Int) : C Unit := do
  let r ← reg fun c => adcAlu c.a data c.c c.vdi
  setAlu r

/-- `SubtractWithCarry`, cpu6502.fu:171-188. -/
def subtractWithCarry (data : Int) : C Unit := do
  let r ← reg fun c => sbcAlu c.a data c.c c.vdi
  setAlu r

/-- `ArithmeticShiftLeft`, cpu6502.fu:190-197. -/
def shiftLeft (addr : Int) : C Int := do
  let data ← peekRmw addr
  setC (shr data 7)
  poke addr (band (shl data 1) 0xff)
  pure (band (shl data 1) 0xff)

/-- `RotateLeft`, cpu6502.fu:199-206.  The carry cannot change between the read and its use. -/
def rotateLeft (addr : Int) : C Int := do
  let v ← peekRmw addr
  let c ← reg (·.c)
  setC (shr (shl v 1 + c) 8)
  poke addr (band (shl v 1 + c) 0xff)
  pure (band (shl v 1 + c) 0xff)

/-- `LogicalShiftRight`, cpu6502.fu:208-215. -/
def shiftRight (addr : Int) : C Int := do
  let data ← peekRmw addr
  setC (band data 1)
  poke addr (shr data 1)
  pure (shr data 1)

/-- `RotateRight`, cpu6502.fu:217-224.  The carry cannot change between the read and its use. -/
def rotateRight (addr : Int) : C Int := do
  let v ← peekRmw addr
  let c ← reg (·.c)
  setC (band (shl c 8 + v) 1)
  poke addr (shr (shl c 8 + v) 1)
  pure (shr (shl c 8 + v) 1)

/-- `Decrement`, cpu6502.fu:226-231. -/
def decrement (addr : Int) : C Int := do
  let v ← peekRmw addr
  poke addr (band (v - 1) 0xff)
  pure (band (v - 1) 0xff)

/-- `Increment`, cpu6502.fu:233-238. -/
def increment (addr : Int) : C Int := do
  let v ← peekRmw addr
  poke addr (band (v + 1) 0xff)
  pure (band (v + 1) 0xff)

/-- `ExecuteIrq`, cpu6502.fu:240-246. -/
def executeIrq (b : Int) : C Unit := do
  pushPc
  pushFlags b
  let vdi ← reg (·.vdi)
  setVdi (bor vdi iFlag)
  let lo ← load 0xfffe
  let hi ← load 0xffff
  setPc (lo + shl hi 8)

/-- `CheckIrq`, cpu6502.fu:248-254. -/
def checkIrq : C Unit := do
  let vdi ← reg (·.vdi)
  let irq ← isIrq
  when (band vdi iFlag = 0 ∧ irq = true) do
    addCycle 7
    executeIrq 0x20

/-- The store shared by `Shx` and `SHA (ab),y`, cpu6502.fu:260-264, 688-693: `addr` is the sum of the
low byte and the index. -/
def storeHigh (addr hi data : Int) : C Unit :=
  poke (addr + shl (if addr ≥ 0x100 then band data (hi + 1) - 1 else hi) 8) (band data (hi + 1))

/-- `Shx`, cpu6502.fu:256-265. -/
def shx (addr data : Int) : C Unit := do
  let lo ← fetch
  let hi ← fetch
  storeHigh (addr + lo) hi data

/-- Addressing modes: the ways the first `switch` computes `addr`, cpu6502.fu:331-332, 394, 411,
455-456, 471-475, 484-485, 509, 524-527, 536-537, 557-560, 575-576, 701.  The modes with `p` take one
cycle more when a page is crossed. -/
inductive Mode where
  | indX | zp | imm | abs | indYp | indY | zpX | zpY | absYp | absY | absXp | absX
  deriving DecidableEq, Repr

/-- Operations on `addr`: the groups of the second `switch`, cpu6502.fu:789-1048, except the
branches. -/
inductive Op where
  | ora | aso | asl | and | rla | bit | rol | eor | lse | lsr | adc | rra | ror | jmpInd
  | sta | sax | sty | stx | ldy | lda | ldx | lax | las | cpy | cmp | dcm | dec | cpx | sbc | ins | inc
  deriving DecidableEq, Repr

/-- Instructions: the groups of the first `switch` that do not compute an address,
cpu6502.fu:310-784, the branches, and combinations of a mode and an operation. -/
inductive Instr where
  | op (mode : Mode) (op : Op)
  | brk | cim | skip1 | php | aslA | anc | skip2 | bpl | clc | skipX | jsr | plp | rolA | bmi | sec | rti
  | pha | lsrA | alr | jmp | bvc | cli | rts | pla | rorA | arr | bvs | sei | dey | txa | ane | bcc
  | shaInd | tya | txs | shs | shy | shx | sha | tay | tax | anx | bcs | clv | tsx | iny | dex | sbx
  | bne | cld | inx | nop | beq | sed
  deriving DecidableEq, Repr

/-- The two `switch` statements, cpu6502.fu:310-784 and 789-1048, as a table indexed by the opcode. -/
def decode : List Instr := [
    .brk, .op .indX .ora, .cim, .op .indX .aso,
    .skip1, .op .zp .ora, .op .zp .asl, .op .zp .aso,
    .php, .op .imm .ora, .aslA, .anc,
    .skip2, .op .abs .ora, .op .abs .asl, .op .abs .aso,
    .bpl, .op .indYp .ora, .cim, .op .indY .aso,
    .skip1, .op .zpX .ora, .op .zpX .asl, .op .zpX .aso,
    .clc, .op .absYp .ora, .nop, .op .absY .aso,
    .skipX, .op .absXp .ora, .op .absX .asl, .op .absX .aso,
    .jsr, .op .indX .and, .cim, .op .indX .rla,
    .op .zp .bit, .op .zp .and, .op .zp .rol, .op .zp .rla,
    .plp, .op .imm .and, .rolA, .anc,
    .op .abs .bit, .op .abs .and, .op .abs .rol, .op .abs .rla,
    .bmi, .op .indYp .and, .cim, .op .indY .rla,
    .skip1, .op .zpX .and, .op .zpX .rol, .op .zpX .rla,
    .sec, .op .absYp .and, .nop, .op .absY .rla,
    .skipX, .op .absXp .and, .op .absX .rol, .op .absX .rla,
    .rti, .op .indX .eor, .cim, .op .indX .lse,
    .skip1, .op .zp .eor, .op .zp .lsr, .op .zp .lse,
    .pha, .op .imm .eor, .lsrA, .alr,
    .jmp, .op .abs .eor, .op .abs .lsr, .op .abs .lse,
    .bvc, .op .indYp .eor, .cim, .op .indY .lse,
    .skip1, .op .zpX .eor, .op .zpX .lsr, .op .zpX .lse,
    .cli, .op .absYp .eor, .nop, .op .absY .lse,
    .skipX, .op .absXp .eor, .op .absX .lsr, .op .absX .lse,
    .rts, .op .indX .adc, .cim, .op .indX .rra,
    .skip1, .op .zp .adc, .op .zp .ror, .op .zp .rra,
    .pla, .op .imm .adc, .rorA, .arr,
    .op .abs .jmpInd, .op .abs .adc, .op .abs .ror, .op .abs .rra,
    .bvs, .op .indYp .adc, .cim, .op .indY .rra,
    .skip1, .op .zpX .adc, .op .zpX .ror, .op .zpX .rra,
    .sei, .op .absYp .adc, .nop, .op .absY .rra,
    .skipX, .op .absXp .adc, .op .absX .ror, .op .absX .rra,
    .skip1, .op .indX .sta, .skip1, .op .indX .sax,
    .op .zp .sty, .op .zp .sta, .op .zp .stx, .op .zp .sax,
    .dey, .skip1, .txa, .ane,
    .op .abs .sty, .op .abs .sta, .op .abs .stx, .op .abs .sax,
    .bcc, .op .indY .sta, .cim, .shaInd,
    .op .zpX .sty, .op .zpX .sta, .op .zpY .stx, .op .zpY .sax,
    .tya, .op .absY .sta, .txs, .shs,
    .shy, .op .absX .sta, .shx, .sha,
    .op .imm .ldy, .op .indX .lda, .op .imm .ldx, .op .indX .lax,
    .op .zp .ldy, .op .zp .lda, .op .zp .ldx, .op .zp .lax,
    .tay, .op .imm .lda, .tax, .anx,
    .op .abs .ldy, .op .abs .lda, .op .abs .ldx, .op .abs .lax,
    .bcs, .op .indYp .lda, .cim, .op .indYp .lax,
    .op .zpX .ldy, .op .zpX .lda, .op .zpY .ldx, .op .zpY .lax,
    .clv, .op .absYp .lda, .tsx, .op .absYp .las,
    .op .absXp .ldy, .op .absXp .lda, .op .absYp .ldx, .op .absYp .lax,
    .op .imm .cpy, .op .indX .cmp, .skip1, .op .indX .dcm,
    .op .zp .cpy, .op .zp .cmp, .op .zp .dec, .op .zp .dcm,
    .iny, .op .imm .cmp, .dex, .sbx,
    .op .abs .cpy, .op .abs .cmp, .op .abs .dec, .op .abs .dcm,
    .bne, .op .indYp .cmp, .cim, .op .indY .dcm,
    .skip1, .op .zpX .cmp, .op .zpX .dec, .op .zpX .dcm,
    .cld, .op .absYp .cmp, .nop, .op .absY .dcm,
    .skipX, .op .absXp .cmp, .op .absX .dec, .op .absX .dcm,
    .op .imm .cpx, .op .indX .sbc, .skip1, .op .indX .ins,
    .op .zp .cpx, .op .zp .sbc, .op .zp .inc, .op .zp .ins,
    .inx, .op .imm .sbc, .nop, .op .imm .sbc,
    .op .abs .cpx, .op .abs .sbc, .op .abs .inc, .op .abs .ins,
    .beq, .op .indYp .sbc, .cim, .op .indY .ins,
    .skip1, .op .zpX .sbc, .op .zpX .inc, .op .zpX .ins,
    .sed, .op .absYp .sbc, .nop, .op .absY .ins,
    .skipX, .op .absXp .sbc, .op .absX .inc, .op .absX .ins]

/-- `opcodeCycles`, cpu6502.fu:284-302. -/
def opcodeCycles : List Int := [
    7, 6, 2, 8, 3, 3, 5, 5, 3, 2, 2, 2, 4, 4, 6, 6,
    2, 5, 2, 8, 4, 4, 6, 6, 2, 4, 2, 7, 4, 4, 7, 7,
    6, 6, 2, 8, 3, 3, 5, 5, 4, 2, 2, 2, 4, 4, 6, 6,
    2, 5, 2, 8, 4, 4, 6, 6, 2, 4, 2, 7, 4, 4, 7, 7,
    6, 6, 2, 8, 3, 3, 5, 5, 3, 2, 2, 2, 3, 4, 6, 6,
    2, 5, 2, 8, 4, 4, 6, 6, 2, 4, 2, 7, 4, 4, 7, 7,
    6, 6, 2, 8, 3, 3, 5, 5, 4, 2, 2, 2, 5, 4, 6, 6,
    2, 5, 2, 8, 4, 4, 6, 6, 2, 4, 2, 7, 4, 4, 7, 7,
    2, 6, 2, 6, 3, 3, 3, 3, 2, 2, 2, 2, 4, 4, 4, 4,
    2, 6, 2, 6, 4, 4, 4, 4, 2, 5, 2, 5, 5, 5, 5, 5,
    2, 6, 2, 6, 3, 3, 3, 3, 2, 2, 2, 2, 4, 4, 4, 4,
    2, 5, 2, 5, 4, 4, 4, 4, 2, 4, 2, 4, 4, 4, 4, 4,
    2, 6, 2, 8, 3, 3, 5, 5, 2, 2, 2, 2, 4, 4, 6, 6,
    2, 5, 2, 8, 4, 4, 6, 6, 2, 4, 2, 7, 4, 4, 7, 7,
    2, 6, 2, 8, 3, 3, 5, 5, 2, 2, 2, 2, 4, 4, 6, 6,
    2, 5, 2, 8, 4, 4, 6, 6, 2, 4, 2, 7, 4, 4, 7, 7]

/-- Reads a little-endian word whose second byte is in the same page zero, e.g. cpu6502.fu:332. -/
def zpWord (zp : Int) : C Int := do
  let lo ← load zp
  let hi ← load (band (zp + 1) 0xff)
  pure (lo + shl hi 8)

/-- `abcd,x` and `abcd,y`, cpu6502.fu:524-527, 536-537, 557-560, 575-576: `slow` if crossing a page takes a cycle. -/
def absIndexed (index : Int) (slow : Bool) : C Int := do
  let lo ← fetch
  when (slow = true ∧ lo + index ≥ 0x100) (addCycle 1)
  let hi ← fetch
  pure (band (lo + index + shl hi 8) 0xffff)

/-- `(ab),y`, cpu6502.fu:471-475, 484-485. -/
def indIndexed (slow : Bool) : C Int := do
  let zp ← fetch
  let lo ← load zp
  let y ← reg (·.y)
  when (slow = true ∧ lo + y ≥ 0x100) (addCycle 1)
  let hi ← load (band (zp + 1) 0xff)
  pure (band (lo + y + shl hi 8) 0xffff)

/-- The effective address, lines as for `Mode`: cpu6502.fu:331-332, 394, 411, 455-456, 471-475,
484-485, 509, 524-527, 536-537, 557-560, 575-576, 701. -/
def address : Mode → C Int
  | .indX => do
    let b ← fetch
    let x ← reg (·.x)
    zpWord (band (b + x) 0xff)
  | .zp => fetch
  | .imm => do
    let pc ← reg (·.pc)
    let _ ← fetch
    pure pc
  | .abs => do
    let lo ← fetch
    let hi ← fetch
    pure (lo + shl hi 8)
  | .indYp => indIndexed true
  | .indY => indIndexed false
  | .zpX => do
    let b ← fetch
    let x ← reg (·.x)
    pure (band (b + x) 0xff)
  | .zpY => do
    let b ← fetch
    let y ← reg (·.y)
    pure (band (b + y) 0xff)
  | .absYp => do
    let y ← reg (·.y)
    absIndexed y true
  | .absY => do
    let y ← reg (·.y)
    absIndexed y false
  | .absXp => do
    let x ← reg (·.x)
    absIndexed x true
  | .absX => do
    let x ← reg (·.x)
    absIndexed x false

/-- Comparison of a register with a byte, e.g. cpu6502.fu:980-982. -/
def compare (reg data : Int) : C Unit := do
  setC (if reg ≥ data then 1 else 0)
  setNz (band (reg - data) 0xff)

/-- `JMP (abcd)`, cpu6502.fu:911-914. -/
def jumpIndirect (addr : Int) : C Unit := do
  let lo ← load addr
  let hi ← load (if band (addr + 1) 0xff = 0 then addr + 1 - 0xff else addr + 1)
  setPc (lo + shl hi 8)

/-- The second `switch`, cpu6502.fu:789-1048. -/
def operate : Op → Int → C Unit
  | .ora, addr => do
    let v ← peek addr
    let a ← reg (·.a)
    setNzA (bor a v)
  | .aso, addr => do
    let v ← shiftLeft addr
    let a ← reg (·.a)
    setNzA (bor a v)
  | .asl, addr => do
    let v ← shiftLeft addr
    setNz v
  | .and, addr => do
    let v ← peek addr
    let a ← reg (·.a)
    setNzA (band a v)
  | .rla, addr => do
    let v ← rotateLeft addr
    let a ← reg (·.a)
    setNzA (band a v)
  | .bit, addr => do
    let v ← peek addr
    let vdi ← reg (·.vdi)
    setVdi (band vdi (bor dFlag iFlag) + band v vFlag)
    let a ← reg (·.a)
    setNz (shl (band v 0x80) 1 + band v a)
  | .rol, addr => do
    let v ← rotateLeft addr
    setNz v
  | .eor, addr => do
    let v ← peek addr
    let a ← reg (·.a)
    setNzA (bxor a v)
  | .lse, addr => do
    let v ← shiftRight addr
    let a ← reg (·.a)
    setNzA (bxor a v)
  | .lsr, addr => do
    let v ← shiftRight addr
    setNz v
  | .adc, addr => do
    let v ← peek addr
    addWithCarry v
  | .rra, addr => do
    let v ← rotateRight addr
    addWithCarry v
  | .ror, addr => do
    let v ← rotateRight addr
    setNz v
  | .jmpInd, addr => jumpIndirect addr
  | .sta, addr => do
    let a ← reg (·.a)
    poke addr a
  | .sax, addr => do
    let v ← reg fun c => band c.a c.x
    poke addr v
  | .sty, addr => do
    let y ← reg (·.y)
    poke addr y
  | .stx, addr => do
    let x ← reg (·.x)
    poke addr x
  | .ldy, addr => do
    let v ← peek addr
    setNzY v
  | .lda, addr => do
    let v ← peek addr
    setNzA v
  | .ldx, addr => do
    let v ← peek addr
    setNzX v
  | .lax, addr => do
    let v ← peek addr
    setA v
    setNzX v
  | .las, addr => do
    let v ← peek addr
    let s ← reg (·.s)
    setS (band s v)
    setA (band s v)
    setNzX (band s v)
  | .cpy, addr => do
    let v ← peek addr
    let y ← reg (·.y)
    compare y v
  | .cmp, addr => do
    let v ← peek addr
    let a ← reg (·.a)
    compare a v
  | .dcm, addr => do
    let v ← decrement addr
    let a ← reg (·.a)
    compare a v
  | .dec, addr => do
    let v ← decrement addr
    setNz v
  | .cpx, addr => do
    let v ← peek addr
    let x ← reg (·.x)
    compare x v
  | .sbc, addr => do
    let v ← peek addr
    subtractWithCarry v
  | .ins, addr => do
    let v ← increment addr
    subtractWithCarry v
  | .inc, addr => do
    let v ← increment addr
    setNz v

/-- A branch taken if the condition holds: the first `switch` skips the operand if not, e.g.
cpu6502.fu:459-462, the second jumps, cpu6502.fu:823-828. -/
def branch (cond : Cpu → Prop) [DecidablePred cond] : C Unit := do
  let taken ← reg fun c => decide (cond c)
  if taken = true then do
    let b ← fetch
    let pc ← reg (·.pc)
    let addr := bxor b 0x80 - 0x80 + pc
    addCycle (if shr (bxor addr pc) 8 ≠ 0 then 2 else 1)
    setPc addr
  else addPc 1

/-- `ARR #ab` in decimal mode, cpu6502.fu:650-657. -/
def arrDecimal (a data : Int) : C Unit := do
  let a := if band data 0xf ≥ 5 then band a 0xf0 + band (a + 6) 0xf else a
  setA (if data ≥ 0x50 then band (a + 0x60) 0xff else a)
  setC (if data ≥ 0x50 then 1 else 0)

/-- `ARR #ab`, cpu6502.fu:644-658. -/
def arr : C Unit := do
  let b ← fetch
  let a ← reg (·.a)
  let c ← reg (·.c)
  let vdi ← reg (·.vdi)
  let data := band a b
  let r := shr data 1 + shl c 7
  setNzA r
  let vdi := band vdi (bor dFlag iFlag) + band (bxor r data) vFlag
  setVdi vdi
  if band vdi dFlag = 0 then setC (shr data 7) else arrDecimal r data

/-- One instruction after the opcode is fetched: the bodies of the first `switch`,
cpu6502.fu:310-784, and for `op` the second one, cpu6502.fu:789-1048. -/
def execute : Instr → C Unit
  | .op mode op => do
    let addr ← address mode
    operate op addr
  | .brk => do
    addPc 1
    executeIrq 0x30
  | .cim => do
    addPc (-1)
    let t ← get (·.nextEvent)
    setCycle t
  | .skip1 => addPc 1
  | .php => pushFlags 0x30
  | .aslA => do
    let a ← reg (·.a)
    setC (shr a 7)
    setNzA (band (shl a 1) 0xff)
  | .anc => do
    let b ← fetch
    let a ← reg (·.a)
    setNzA (band a b)
    setC (shr (band a b) 7)
  | .skip2 => addPc 2
  | .bpl => branch fun c => c.nz < 0x80
  | .clc => setC 0
  | .skipX => do
    let b ← here
    let x ← reg (·.x)
    when (b + x ≥ 0x100) (addCycle 1)
    addPc 2
  | .jsr => do
    let lo ← fetch
    pushPc
    let hi ← here
    setPc (lo + shl hi 8)
  | .plp => do
    pullFlags
    checkIrq
  | .rolA => do
    let a ← reg (·.a)
    let c ← reg (·.c)
    setC (shr (shl a 1 + c) 8)
    setNzA (band (shl a 1 + c) 0xff)
  | .bmi => branch fun c => c.nz ≥ 0x80
  | .sec => setC 1
  | .rti => do
    pullFlags
    let lo ← pull
    let hi ← pull
    setPc (lo + shl hi 8)
    checkIrq
  | .pha => do
    let a ← reg (·.a)
    push a
  | .lsrA => do
    let a ← reg (·.a)
    setC (band a 1)
    setNzA (shr a 1)
  | .alr => do
    let b ← fetch
    let a ← reg (·.a)
    setC (band (band a b) 1)
    setNzA (shr (band a b) 1)
  | .jmp => do
    let lo ← fetch
    let hi ← here
    setPc (lo + shl hi 8)
  | .bvc => branch fun c => band c.vdi vFlag = 0
  | .cli => do
    let vdi ← reg (·.vdi)
    setVdi (band vdi (bor vFlag dFlag))
    checkIrq
  | .rts => do
    let lo ← pull
    let hi ← pull
    setPc (lo + (shl hi 8 + 1))
  | .pla => do
    let v ← pull
    setNzA v
  | .rorA => do
    let a ← reg (·.a)
    let c ← reg (·.c)
    setC (band a 1)
    setNzA (shl c 7 + shr a 1)
  | .arr => arr
  | .bvs => branch fun c => band c.vdi vFlag ≠ 0
  | .sei => do
    let vdi ← reg (·.vdi)
    setVdi (bor vdi iFlag)
  | .dey => do
    let y ← reg (·.y)
    setNzY (band (y - 1) 0xff)
  | .txa => do
    let x ← reg (·.x)
    setNzA x
  | .ane => do
    let b ← fetch
    let a ← reg fun c => band c.a (band (bor b 0xef) c.x)
    setA a
    setNz (band a b)
  | .bcc => branch fun c => c.c = 0
  | .shaInd => do
    let zp ← fetch
    let hi ← load (band (zp + 1) 0xff)
    let lo ← load zp
    let y ← reg (·.y)
    let v ← reg fun c => band c.a c.x
    storeHigh (lo + y) hi v
  | .tya => do
    let y ← reg (·.y)
    setNzA y
  | .txs => do
    let x ← reg (·.x)
    setS x
  | .shs => do
    let v ← reg fun c => band c.a c.x
    setS v
    let y ← reg (·.y)
    Machine.shx y v
  | .shy => do
    let x ← reg (·.x)
    let y ← reg (·.y)
    Machine.shx x y
  | .shx => do
    let x ← reg (·.x)
    let y ← reg (·.y)
    Machine.shx y x
  | .sha => do
    let v ← reg fun c => band c.a c.x
    let y ← reg (·.y)
    Machine.shx y v
  | .tay => do
    let a ← reg (·.a)
    setNzY a
  | .tax => do
    let a ← reg (·.a)
    setNzX a
  | .anx => do
    let b ← fetch
    let a ← reg (·.a)
    setA (band a b)
    setNzX (band a b)
  | .bcs => branch fun c => c.c ≠ 0
  | .clv => do
    let vdi ← reg (·.vdi)
    setVdi (band vdi (bor dFlag iFlag))
  | .tsx => do
    let s ← reg (·.s)
    setNzX s
  | .iny => do
    let y ← reg (·.y)
    setNzY (band (y + 1) 0xff)
  | .dex => do
    let x ← reg (·.x)
    setNzX (band (x - 1) 0xff)
  | .sbx => do
    let b ← fetch
    let v ← reg fun c => band c.x c.a
    setC (if v ≥ b then 1 else 0)
    setNzX (band (v - b) 0xff)
  | .bne => branch fun c => band c.nz 0xff ≠ 0
  | .cld => do
    let vdi ← reg (·.vdi)
    setVdi (band vdi (bor vFlag iFlag))
  | .inx => do
    let x ← reg (·.x)
    setNzX (band (x + 1) 0xff)
  | .nop => pure ()
  | .beq => branch fun c => band c.nz 0xff = 0
  | .sed => do
    let vdi ← reg (·.vdi)
    setVdi (bor vdi dFlag)

/-- Fetches and executes one instruction, cpu6502.fu:283-1048.  The `switch` statements have a case for
every byte; outside the table the model does nothing, like `default`. -/
def instruction : C Unit := do
  let data ← fetch
  addCycle (opcodeCycles.getD data.toNat 0)
  execute (decode.getD data.toNat .nop)

end Machine

end Asap
