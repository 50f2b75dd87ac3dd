import Verif.Model.Bits

/-!
# The NMOS 6502 as documented

Written from the programming manual, independently of the emulator.  Bytes and addresses are integers.
-/

namespace Asap.Isa

/-- Registers, flags and memory. -/
structure State where
  a : Int
  x : Int
  y : Int
  s : Int
  pc : Int
  n : Bool
  v : Bool
  d : Bool
  i : Bool
  z : Bool
  c : Bool
  mem : Int → Int

/-- Mnemonics. -/
inductive Mn where
  | adc | and | asl | bcc | bcs | beq | bit | bmi | bne | bpl | brk | bvc | bvs | clc | cld | cli | clv | cmp | cpx | cpy
  | dec | dex | dey | eor | inc | inx | iny | jmp | jsr | lda | ldx | ldy | lsr | nop | ora | pha | php | pla | plp | rol
  | ror | rti | rts | sbc | sec | sed | sei | sta | stx | sty | tax | tay | tsx | txa | txs | tya
  deriving DecidableEq, Repr

/-- Addressing modes. -/
inductive Mode where
  | imp | acc | imm | zp | zpx | zpy | abs | absx | absy | ind | indx | indy | rel
  deriving DecidableEq, Repr

/-- An opcode with its addressing mode and its duration. -/
structure Code where
  opcode : Int
  mode : Mode
  cycles : Int
  deriving DecidableEq

/-- The documented opcodes. -/
def codes : Mn → List Code
  | .adc => [⟨0x69, .imm, 2⟩, ⟨0x65, .zp, 3⟩, ⟨0x75, .zpx, 4⟩, ⟨0x6d, .abs, 4⟩, ⟨0x7d, .absx, 4⟩, ⟨0x79, .absy, 4⟩, ⟨0x61, .indx, 6⟩, ⟨0x71, .indy, 5⟩]
  | .and => [⟨0x29, .imm, 2⟩, ⟨0x25, .zp, 3⟩, ⟨0x35, .zpx, 4⟩, ⟨0x2d, .abs, 4⟩, ⟨0x3d, .absx, 4⟩, ⟨0x39, .absy, 4⟩, ⟨0x21, .indx, 6⟩, ⟨0x31, .indy, 5⟩]
  | .asl => [⟨0x0a, .acc, 2⟩, ⟨0x06, .zp, 5⟩, ⟨0x16, .zpx, 6⟩, ⟨0x0e, .abs, 6⟩, ⟨0x1e, .absx, 7⟩]
  | .bcc => [⟨0x90, .rel, 2⟩]
  | .bcs => [⟨0xb0, .rel, 2⟩]
  | .beq => [⟨0xf0, .rel, 2⟩]
  | .bit => [⟨0x24, .zp, 3⟩, ⟨0x2c, .abs, 4⟩]
  | .bmi => [⟨0x30, .rel, 2⟩]
  | .bne => [⟨0xd0, .rel, 2⟩]
  | .bpl => [⟨0x10, .rel, 2⟩]
  | .brk => [⟨0x00, .imp, 7⟩]
  | .bvc => [⟨0x50, .rel, 2⟩]
  | .bvs => [⟨0x70, .rel, 2⟩]
  | .clc => [⟨0x18, .imp, 2⟩]
  | .cld => [⟨0xd8, .imp, 2⟩]
  | .cli => [⟨0x58, .imp, 2⟩]
  | .clv => [⟨0xb8, .imp, 2⟩]
  | .cmp => [⟨0xc9, .imm, 2⟩, ⟨0xc5, .zp, 3⟩, ⟨0xd5, .zpx, 4⟩, ⟨0xcd, .abs, 4⟩, ⟨0xdd, .absx, 4⟩, ⟨0xd9, .absy, 4⟩, ⟨0xc1, .indx, 6⟩, ⟨0xd1, .indy, 5⟩]
  | .cpx => [⟨0xe0, .imm, 2⟩, ⟨0xe4, .zp, 3⟩, ⟨0xec, .abs, 4⟩]
  | .cpy => [⟨0xc0, .imm, 2⟩, ⟨0xc4, .zp, 3⟩, ⟨0xcc, .abs, 4⟩]
  | .dec => [⟨0xc6, .zp, 5⟩, ⟨0xd6, .zpx, 6⟩, ⟨0xce, .abs, 6⟩, ⟨0xde, .absx, 7⟩]
  | .dex => [⟨0xca, .imp, 2⟩]
  | .dey => [⟨0x88, .imp, 2⟩]
  | .eor => [⟨0x49, .imm, 2⟩, ⟨0x45, .zp, 3⟩, ⟨0x55, .zpx, 4⟩, ⟨0x4d, .abs, 4⟩, ⟨0x5d, .absx, 4⟩, ⟨0x59, .absy, 4⟩, ⟨0x41, .indx, 6⟩, ⟨0x51, .indy, 5⟩]
  | .inc => [⟨0xe6, .zp, 5⟩, ⟨0xf6, .zpx, 6⟩, ⟨0xee, .abs, 6⟩, ⟨0xfe, .absx, 7⟩]
  | .inx => [⟨0xe8, .imp, 2⟩]
  | .iny => [⟨0xc8, .imp, 2⟩]
  | .jmp => [⟨0x4c, .abs, 3⟩, ⟨0x6c, .ind, 5⟩]
  | .jsr => [⟨0x20, .abs, 6⟩]
  | .lda => [⟨0xa9, .imm, 2⟩, ⟨0xa5, .zp, 3⟩, ⟨0xb5, .zpx, 4⟩, ⟨0xad, .abs, 4⟩, ⟨0xbd, .absx, 4⟩, ⟨0xb9, .absy, 4⟩, ⟨0xa1, .indx, 6⟩, ⟨0xb1, .indy, 5⟩]
  | .ldx => [⟨0xa2, .imm, 2⟩, ⟨0xa6, .zp, 3⟩, ⟨0xb6, .zpy, 4⟩, ⟨0xae, .abs, 4⟩, ⟨0xbe, .absy, 4⟩]
  | .ldy => [⟨0xa0, .imm, 2⟩, ⟨0xa4, .zp, 3⟩, ⟨0xb4, .zpx, 4⟩, ⟨0xac, .abs, 4⟩, ⟨0xbc, .absx, 4⟩]
  | .lsr => [⟨0x4a, .acc, 2⟩, ⟨0x46, .zp, 5⟩, ⟨0x56, .zpx, 6⟩, ⟨0x4e, .abs, 6⟩, ⟨0x5e, .absx, 7⟩]
  | .nop => [⟨0xea, .imp, 2⟩]
  | .ora => [⟨0x09, .imm, 2⟩, ⟨0x05, .zp, 3⟩, ⟨0x15, .zpx, 4⟩, ⟨0x0d, .abs, 4⟩, ⟨0x1d, .absx, 4⟩, ⟨0x19, .absy, 4⟩, ⟨0x01, .indx, 6⟩, ⟨0x11, .indy, 5⟩]
  | .pha => [⟨0x48, .imp, 3⟩]
  | .php => [⟨0x08, .imp, 3⟩]
  | .pla => [⟨0x68, .imp, 4⟩]
  | .plp => [⟨0x28, .imp, 4⟩]
  | .rol => [⟨0x2a, .acc, 2⟩, ⟨0x26, .zp, 5⟩, ⟨0x36, .zpx, 6⟩, ⟨0x2e, .abs, 6⟩, ⟨0x3e, .absx, 7⟩]
  | .ror => [⟨0x6a, .acc, 2⟩, ⟨0x66, .zp, 5⟩, ⟨0x76, .zpx, 6⟩, ⟨0x6e, .abs, 6⟩, ⟨0x7e, .absx, 7⟩]
  | .rti => [⟨0x40, .imp, 6⟩]
  | .rts => [⟨0x60, .imp, 6⟩]
  | .sbc => [⟨0xe9, .imm, 2⟩, ⟨0xe5, .zp, 3⟩, ⟨0xf5, .zpx, 4⟩, ⟨0xed, .abs, 4⟩, ⟨0xfd, .absx, 4⟩, ⟨0xf9, .absy, 4⟩, ⟨0xe1, .indx, 6⟩, ⟨0xf1, .indy, 5⟩]
  | .sec => [⟨0x38, .imp, 2⟩]
  | .sed => [⟨0xf8, .imp, 2⟩]
  | .sei => [⟨0x78, .imp, 2⟩]
  | .sta => [⟨0x85, .zp, 3⟩, ⟨0x95, .zpx, 4⟩, ⟨0x8d, .abs, 4⟩, ⟨0x9d, .absx, 5⟩, ⟨0x99, .absy, 5⟩, ⟨0x81, .indx, 6⟩, ⟨0x91, .indy, 6⟩]
  | .stx => [⟨0x86, .zp, 3⟩, ⟨0x96, .zpy, 4⟩, ⟨0x8e, .abs, 4⟩]
  | .sty => [⟨0x84, .zp, 3⟩, ⟨0x94, .zpx, 4⟩, ⟨0x8c, .abs, 4⟩]
  | .tax => [⟨0xaa, .imp, 2⟩]
  | .tay => [⟨0xa8, .imp, 2⟩]
  | .tsx => [⟨0xba, .imp, 2⟩]
  | .txa => [⟨0x8a, .imp, 2⟩]
  | .txs => [⟨0x9a, .imp, 2⟩]
  | .tya => [⟨0x98, .imp, 2⟩]

/-- Instructions that only read their operand: one cycle more if indexing crosses a page. -/
def Mn.reads : Mn → Bool
  | .adc | .and | .cmp | .eor | .lda | .ldx | .ldy | .ora | .sbc => true
  | _ => false

/-- Length of an instruction. -/
def Mode.size : Mode → Int
  | .imp | .acc => 1
  | .abs | .absx | .absy | .ind => 3
  | _ => 2

namespace State
variable (st : State)

/-- The byte after the opcode. -/
def b1 : Int := st.mem (st.pc + 1)
/-- The word after the opcode, low byte first. -/
def word : Int := st.mem (st.pc + 1) + 256 * st.mem (st.pc + 2)
/-- A word in page zero. -/
def zpWord (p : Int) : Int := st.mem p + 256 * st.mem ((p + 1) % 256)

/-- Effective addresses.  The pointer of `ind` wraps inside its page. -/
def effective : Mode → Int
  | .imp | .acc | .rel => 0
  | .imm => st.pc + 1
  | .zp => st.b1
  | .zpx => (st.b1 + st.x) % 256
  | .zpy => (st.b1 + st.y) % 256
  | .abs => st.word
  | .absx => (st.word + st.x) % 65536
  | .absy => (st.word + st.y) % 65536
  | .ind => st.mem st.word + 256 * st.mem (st.word - st.word % 256 + (st.word + 1) % 256)
  | .indx => st.zpWord ((st.b1 + st.x) % 256)
  | .indy => (st.zpWord st.b1 + st.y) % 65536

/-- Does indexing leave the page of the base address? -/
def crosses : Mode → Bool
  | .absx => (st.word + st.x) / 256 ≠ st.word / 256
  | .absy => (st.word + st.y) / 256 ≠ st.word / 256
  | .indy => (st.zpWord st.b1 + st.y) / 256 ≠ st.zpWord st.b1 / 256
  | _ => false

/-- A flag as a number. -/
def bit (b : Bool) : Int := if b then 1 else 0

/-- A byte as a signed number. -/
def signed (v : Int) : Int := if v < 128 then v else v - 256

/-- N and Z of a byte. -/
def nz (v : Int) : State := { st with n := decide (128 ≤ v), z := decide (v = 0) }

/-- Stores a byte. -/
def write (addr v : Int) : State := { st with mem := fun b => if b = addr then v else st.mem b }

/-- Pushes a byte. -/
def push (v : Int) : State := { st.write (256 + st.s) v with s := (st.s - 1) % 256 }

/-- The byte `k` places up the stack. -/
def top (k : Int) : Int := st.mem (256 + (st.s + k) % 256)

/-- Removes bytes from the stack. -/
def drop (k : Int) : State := { st with s := (st.s + k) % 256 }

/-- The status register as it is pushed: bit 5 is set, bit 4 tells BRK and PHP from an interrupt. -/
def status (b : Bool) : Int :=
  128 * bit st.n + 64 * bit st.v + 32 + 16 * bit b + 8 * bit st.d + 4 * bit st.i + 2 * bit st.z + bit st.c

/-- The status register as it is pulled. -/
def setStatus (p : Int) : State :=
  { st with
    n := p / 128 % 2 = 1, v := p / 64 % 2 = 1, d := p / 8 % 2 = 1, i := p / 4 % 2 = 1, z := p / 2 % 2 = 1, c := p % 2 = 1 }

/-- Addition in binary mode. -/
def adc (v : Int) : State :=
  let sum := st.a + v + bit st.c
  let r := signed st.a + signed v + bit st.c
  { st.nz (sum % 256) with a := sum % 256, c := decide (256 ≤ sum), v := decide (r < -128 ∨ 127 < r) }

/-- Subtraction in binary mode: the carry is set if there is no borrow. -/
def sbc (v : Int) : State :=
  let diff := st.a - v - (1 - bit st.c)
  let r := signed st.a - signed v - (1 - bit st.c)
  { st.nz (diff % 256) with a := diff % 256, c := decide (0 ≤ diff), v := decide (r < -128 ∨ 127 < r) }

/-- Addition in decimal mode, as documented for the NMOS chip: digit by digit, N and V before the high digit is corrected, Z of
the binary sum. -/
def adcDecimal (v : Int) : State :=
  let low := st.a % 16 + v % 16 + bit st.c
  let low := if low < 10 then low else (low + 6) % 16 + 16
  let sum := st.a / 16 * 16 + v / 16 * 16 + low
  let r := signed (st.a / 16 * 16) + signed (v / 16 * 16) + low
  { st with
    a := (if sum < 0xa0 then sum else sum + 0x60) % 256, c := decide (0xa0 ≤ sum), n := decide (sum / 128 % 2 = 1)
    v := decide (r < -128 ∨ 127 < r), z := decide ((st.a + v + bit st.c) % 256 = 0) }

/-- Subtraction in decimal mode: the flags are those of the binary difference. -/
def sbcDecimal (v : Int) : State :=
  let low := st.a % 16 - v % 16 - (1 - bit st.c)
  let low := if low < 0 then (low - 6) % 16 - 16 else low
  let diff := st.a / 16 * 16 - v / 16 * 16 + low
  { st.sbc v with a := (if diff < 0 then diff - 0x60 else diff) % 256 }

/-- Comparison. -/
def compare (r v : Int) : State := { st.nz ((r - v) % 256) with c := decide (v ≤ r) }

/-- Target of a branch. -/
def target : Int := (st.pc + 2 + signed st.b1) % 65536

/-- Is the branch taken? -/
def taken : Mn → Bool
  | .bcc => !st.c
  | .bcs => st.c
  | .beq => st.z
  | .bmi => st.n
  | .bne => !st.z
  | .bpl => !st.n
  | .bvc => !st.v
  | .bvs => st.v
  | _ => false

/-- An interrupt: the status is pushed with `b`. -/
def interrupt (b : Bool) : State :=
  let s := (st.push (st.pc / 256 % 256)).push (st.pc % 256)
  let s := s.push (st.status b)
  { s with i := true, pc := st.mem 0xfffe + 256 * st.mem 0xffff }

/-- A call pushes the address of its own last byte, and fetches that byte, the high half of the target, after that. -/
def jsr (ea : Int) : State :=
  let s := (st.push ((st.pc - 1) / 256)).push ((st.pc - 1) % 256)
  { s with pc := ea % 256 + 256 * s.mem (st.pc - 1) }

/-- Puts the result of a shift back. -/
def putBack (mode : Mode) (addr v : Int) : State := if mode = .acc then { st with a := v } else st.write addr v

/-- What an instruction does, given its effective address `ea` and its operand `v`; the program counter already points to the
next instruction. -/
def exec (mn : Mn) (mode : Mode) (ea v : Int) : State :=
  match mn with
  | .adc => if st.d then st.adcDecimal v else st.adc v
  | .and => { st.nz (st.a.toNat &&& v.toNat : Nat) with a := (st.a.toNat &&& v.toNat : Nat) }
  | .asl => { (st.putBack mode ea (2 * v % 256)).nz (2 * v % 256) with c := decide (128 ≤ v) }
  | .bit => { st with n := decide (128 ≤ v), v := v / 64 % 2 = 1, z := decide ((st.a.toNat &&& v.toNat) = 0) }
  | .brk => { st with pc := st.pc + 1 }.interrupt true
  | .clc => { st with c := false }
  | .cld => { st with d := false }
  | .cli => { st with i := false }
  | .clv => { st with v := false }
  | .cmp => st.compare st.a v
  | .cpx => st.compare st.x v
  | .cpy => st.compare st.y v
  | .dec => (st.write ea ((v - 1) % 256)).nz ((v - 1) % 256)
  | .dex => { st.nz ((st.x - 1) % 256) with x := (st.x - 1) % 256 }
  | .dey => { st.nz ((st.y - 1) % 256) with y := (st.y - 1) % 256 }
  | .eor => { st.nz (st.a.toNat ^^^ v.toNat : Nat) with a := (st.a.toNat ^^^ v.toNat : Nat) }
  | .inc => (st.write ea ((v + 1) % 256)).nz ((v + 1) % 256)
  | .inx => { st.nz ((st.x + 1) % 256) with x := (st.x + 1) % 256 }
  | .iny => { st.nz ((st.y + 1) % 256) with y := (st.y + 1) % 256 }
  | .jmp => { st with pc := ea }
  | .jsr => st.jsr ea
  | .lda => { st.nz v with a := v }
  | .ldx => { st.nz v with x := v }
  | .ldy => { st.nz v with y := v }
  | .lsr => { (st.putBack mode ea (v / 2)).nz (v / 2) with c := v % 2 = 1 }
  | .nop => st
  | .ora => { st.nz (st.a.toNat ||| v.toNat : Nat) with a := (st.a.toNat ||| v.toNat : Nat) }
  | .pha => st.push st.a
  | .php => st.push (st.status true)
  | .pla => { (st.drop 1).nz (st.top 1) with a := st.top 1 }
  | .plp => (st.drop 1).setStatus (st.top 1)
  | .rol => { (st.putBack mode ea ((2 * v + bit st.c) % 256)).nz ((2 * v + bit st.c) % 256) with c := decide (128 ≤ v) }
  | .ror => { (st.putBack mode ea (v / 2 + 128 * bit st.c)).nz (v / 2 + 128 * bit st.c) with c := v % 2 = 1 }
  | .rti => { (st.drop 3).setStatus (st.top 1) with pc := st.top 2 + 256 * st.top 3 }
  | .rts => { st.drop 2 with pc := (st.top 1 + 256 * st.top 2 + 1) % 65536 }
  | .sbc => if st.d then st.sbcDecimal v else st.sbc v
  | .sec => { st with c := true }
  | .sed => { st with d := true }
  | .sei => { st with i := true }
  | .sta => st.write ea st.a
  | .stx => st.write ea st.x
  | .sty => st.write ea st.y
  | .tax => { st.nz st.a with x := st.a }
  | .tay => { st.nz st.a with y := st.a }
  | .tsx => { st.nz st.s with x := st.s }
  | .txa => { st.nz st.x with a := st.x }
  | .txs => { st with s := st.x }
  | .tya => { st.nz st.y with a := st.y }
  | .bcc | .bcs | .beq | .bmi | .bne | .bpl | .bvc | .bvs => st

/-- One instruction. -/
def after (mn : Mn) (mode : Mode) : State :=
  if mode = .rel then { st with pc := if st.taken mn then st.target else st.pc + 2 }
  else { st with pc := st.pc + mode.size }.exec mn mode (st.effective mode) 
      (if mode = Mode.acc then st.a else st.mem (st.effective mode))

/-- Its duration beyond the one in the table: page crossings and branches. -/
def extra (mn : Mn) (mode : Mode) : Int :=
  if mode = .rel then if st.taken mn then if st.target / 256 = (st.pc + 2) / 256 then 1 else 2 else 0
  else if mn.reads && st.crosses mode then 1 else 0

end State

end Asap.Isa
