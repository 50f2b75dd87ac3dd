import Verif.Spec.Processor

/-!
# The undocumented instructions of the NMOS 6502

Written from descriptions of the chip (such as "64doc" and "6502 undocumented opcodes"), with the names used for the Atari.
Most of them are two documented instructions at once.
-/

namespace Asap.Isa

/-- Mnemonics of the undocumented instructions, without the one that stops the processor. -/
inductive Un where
  | aso | rla | lse | rra | dcm | ins | lax | sax | las | anc | alr | arr | sbx | sbc | ane | anx | sha | shs | shx | shy | nop
  deriving DecidableEq, Repr

/-- Opcodes, addressing modes and durations. -/
def unofficial : Un → List Code
  | .aso => [⟨0x07, .zp, 5⟩, ⟨0x17, .zpx, 6⟩, ⟨0x0f, .abs, 6⟩, ⟨0x1f, .absx, 7⟩, ⟨0x1b, .absy, 7⟩, ⟨0x03, .indx, 8⟩, ⟨0x13, .indy, 8⟩]
  | .rla => [⟨0x27, .zp, 5⟩, ⟨0x37, .zpx, 6⟩, ⟨0x2f, .abs, 6⟩, ⟨0x3f, .absx, 7⟩, ⟨0x3b, .absy, 7⟩, ⟨0x23, .indx, 8⟩, ⟨0x33, .indy, 8⟩]
  | .lse => [⟨0x47, .zp, 5⟩, ⟨0x57, .zpx, 6⟩, ⟨0x4f, .abs, 6⟩, ⟨0x5f, .absx, 7⟩, ⟨0x5b, .absy, 7⟩, ⟨0x43, .indx, 8⟩, ⟨0x53, .indy, 8⟩]
  | .rra => [⟨0x67, .zp, 5⟩, ⟨0x77, .zpx, 6⟩, ⟨0x6f, .abs, 6⟩, ⟨0x7f, .absx, 7⟩, ⟨0x7b, .absy, 7⟩, ⟨0x63, .indx, 8⟩, ⟨0x73, .indy, 8⟩]
  | .dcm => [⟨0xc7, .zp, 5⟩, ⟨0xd7, .zpx, 6⟩, ⟨0xcf, .abs, 6⟩, ⟨0xdf, .absx, 7⟩, ⟨0xdb, .absy, 7⟩, ⟨0xc3, .indx, 8⟩, ⟨0xd3, .indy, 8⟩]
  | .ins => [⟨0xe7, .zp, 5⟩, ⟨0xf7, .zpx, 6⟩, ⟨0xef, .abs, 6⟩, ⟨0xff, .absx, 7⟩, ⟨0xfb, .absy, 7⟩, ⟨0xe3, .indx, 8⟩, ⟨0xf3, .indy, 8⟩]
  | .lax => [⟨0xa7, .zp, 3⟩, ⟨0xb7, .zpy, 4⟩, ⟨0xaf, .abs, 4⟩, ⟨0xbf, .absy, 4⟩, ⟨0xa3, .indx, 6⟩, ⟨0xb3, .indy, 5⟩]
  | .sax => [⟨0x87, .zp, 3⟩, ⟨0x97, .zpy, 4⟩, ⟨0x8f, .abs, 4⟩, ⟨0x83, .indx, 6⟩]
  | .las => [⟨0xbb, .absy, 4⟩]
  | .anc => [⟨0x0b, .imm, 2⟩, ⟨0x2b, .imm, 2⟩]
  | .alr => [⟨0x4b, .imm, 2⟩]
  | .arr => [⟨0x6b, .imm, 2⟩]
  | .sbx => [⟨0xcb, .imm, 2⟩]
  | .sbc => [⟨0xeb, .imm, 2⟩]
  | .ane => [⟨0x8b, .imm, 2⟩]
  | .anx => [⟨0xab, .imm, 2⟩]
  | .sha => [⟨0x9f, .absy, 5⟩, ⟨0x93, .indy, 6⟩]
  | .shs => [⟨0x9b, .absy, 5⟩]
  | .shx => [⟨0x9e, .absy, 5⟩]
  | .shy => [⟨0x9c, .absx, 5⟩]
  | .nop => [⟨0x1a, .imp, 2⟩, ⟨0x3a, .imp, 2⟩, ⟨0x5a, .imp, 2⟩, ⟨0x7a, .imp, 2⟩, ⟨0xda, .imp, 2⟩, ⟨0xfa, .imp, 2⟩,
      ⟨0x80, .imm, 2⟩, ⟨0x82, .imm, 2⟩, ⟨0x89, .imm, 2⟩, ⟨0xc2, .imm, 2⟩, ⟨0xe2, .imm, 2⟩, ⟨0x04, .zp, 3⟩, ⟨0x44, .zp, 3⟩, ⟨0x64, .zp, 3⟩,
      ⟨0x14, .zpx, 4⟩, ⟨0x34, .zpx, 4⟩, ⟨0x54, .zpx, 4⟩, ⟨0x74, .zpx, 4⟩, ⟨0xd4, .zpx, 4⟩, ⟨0xf4, .zpx, 4⟩, ⟨0x0c, .abs, 4⟩,
      ⟨0x1c, .absx, 4⟩, ⟨0x3c, .absx, 4⟩, ⟨0x5c, .absx, 4⟩, ⟨0x7c, .absx, 4⟩, ⟨0xdc, .absx, 4⟩, ⟨0xfc, .absx, 4⟩]

/-- Opcodes that stop the processor until it is reset. -/
def stopping : List Int := [0x02, 0x12, 0x22, 0x32, 0x42, 0x52, 0x62, 0x72, 0x92, 0xb2, 0xd2, 0xf2]

/-- One cycle more if indexing crosses a page. -/
def Un.reads : Un → Bool
  | .lax | .las | .nop => true
  | _ => false

/-- `AND` of bytes. -/
def conj (p q : Int) : Int := (p.toNat &&& q.toNat : Nat)

namespace State
variable (st : State)

/-- Two documented instructions with the same operand. -/
def both (first second : Mn) (mode : Mode) (ea v : Int) : State :=
  let s := st.exec first mode ea v
  s.exec second mode ea (s.mem ea)

/-- `ARR`: `AND` and `ROR`, with the flags and the correction of digits of an addition. -/
def arr (v : Int) : State :=
  let t := conj st.a v
  let r := t / 2 + 128 * bit st.c
  let low := if t % 16 + t % 2 > 5 then r / 16 * 16 + (r + 6) % 16 else r
  let carry := decide (t / 16 + t / 16 % 2 > 5)
  if st.d then
    { st with n := st.c, z := decide (r = 0), v := decide (t / 64 % 2 ≠ r / 64 % 2), c := carry, a := if carry then (low + 0x60) % 256 else low }
  else { st.nz r with a := r, c := decide (r / 64 % 2 = 1), v := decide (r / 64 % 2 ≠ r / 32 % 2) }

/-- The address before indexing. -/
def base (mode : Mode) : Int := if mode = .indy then st.zpWord st.b1 else st.word

/-- What the unstable stores have for `AND` with the high byte of the address plus one. -/
def register : Un → Int
  | .sha | .shs => conj st.a st.x
  | .shx => st.x
  | .shy => st.y
  | _ => 0

/-- The byte stored by them. -/
def high (u : Un) (mode : Mode) : Int := conj (st.register u) ((st.base mode / 256 + 1) % 256)

/-- Where it is stored: if a page is crossed, the byte replaces the high byte of the address. -/
def highAddress (u : Un) (mode : Mode) : Int :=
  if st.crosses mode then 256 * st.high u mode + st.effective mode % 256 else st.effective mode

/-- What an instruction does, given its effective address `ea` and its operand `v`. -/
def execUn (u : Un) (mode : Mode) (ea v : Int) : State :=
  match u with
  | .aso => st.both .asl .ora mode ea v
  | .rla => st.both .rol .and mode ea v
  | .lse => st.both .lsr .eor mode ea v
  | .rra => st.both .ror .adc mode ea v
  | .dcm => st.both .dec .cmp mode ea v
  | .ins => st.both .inc .sbc mode ea v
  | .lax => st.both .lda .ldx mode ea v
  | .sax => st.write ea (conj st.a st.x)
  | .las => { st.nz (conj v st.s) with a := conj v st.s, x := conj v st.s, s := conj v st.s }
  | .anc => { st.exec .and mode ea v with c := (st.exec .and mode ea v).n }
  | .alr => (st.exec .and mode ea v).exec .lsr .acc 0 (conj st.a v)
  | .arr => st.arr v
  | .sbx => { st.compare (conj st.a st.x) v with x := (conj st.a st.x - v) % 256 }
  | .sbc => st.exec .sbc mode ea v
  | .ane => { st.nz (conj (conj st.a st.x) v) with a := conj (conj st.a st.x) (v.toNat ||| 0xef : Nat) }
  | .anx => (st.exec .and mode ea v).exec .tax mode 0 0
  | .nop => st
  | .sha | .shs | .shx | .shy => st

/-- One instruction. -/
def afterUn (u : Un) (mode : Mode) : State :=
  let s := { st with pc := st.pc + mode.size }
  match u with
  | .sha | .shx | .shy => s.write (st.highAddress u mode) (st.high u mode)
  | .shs => { s.write (st.highAddress u mode) (st.high u mode) with s := conj st.a st.x }
  | _ => s.execUn u mode (st.effective mode) (st.mem (st.effective mode))

/-- Its duration beyond the one in the table. -/
def extraUn (u : Un) (mode : Mode) : Int := if u.reads && st.crosses mode then 1 else 0

/-- The memory it uses apart from its own bytes.  (Reads without effect are left out.) -/
def touched (u : Un) (mode : Mode) : Option Int :=
  match u with
  | .nop | .anc | .alr | .arr | .sbx | .ane | .anx => none
  | .sha | .shs | .shx | .shy => some (st.highAddress u mode)
  | _ => some (st.effective mode)

end State

end Asap.Isa

namespace Asap.Spec

/-- The cases in which the emulator has to do what the descriptions say: memory without hardware registers, no wrap of the program
counter around the end of memory. -/
structure OrdinaryUn (st : Isa.State) (u : Isa.Un) (mode : Isa.Mode) : Prop where
  inside : 0 ≤ st.pc ∧ st.pc + mode.size ≤ 0x10000
  ram : ∀ p, st.touched u mode = some p → ¬ hardwarePage (p / 256)

/-- What happens in `n` instructions from `st`, documented or not: the state after them and their duration. -/
inductive Program (pending : Bool) : Isa.State → Nat → Isa.State → Int → Prop
  | none (st : Isa.State) : Program pending st 0 st 0
  | documented {st st' : Isa.State} {n : Nat} {t : Int} (mn : Isa.Mn) (k : Isa.Code) (listed : k ∈ Isa.codes mn)
      (fetched : st.mem st.pc = k.opcode) (ordinary : Ordinary st mn k.mode pending)
      (rest : Program pending (st.after mn k.mode) n st' t) : Program pending st (n + 1) st' (k.cycles + st.extra mn k.mode + t)
  | undocumented {st st' : Isa.State} {n : Nat} {t : Int} (u : Isa.Un) (k : Isa.Code) (listed : k ∈ Isa.unofficial u)
      (fetched : st.mem st.pc = k.opcode) (ordinary : OrdinaryUn st u k.mode)
      (rest : Program pending (st.afterUn u k.mode) n st' t) : Program pending st (n + 1) st' (k.cycles + st.extraUn u k.mode + t)

end Asap.Spec

namespace Asap.Isa

/-- What an opcode can stand for. -/
inductive Meaning where
  | documented (mn : Mn) (mode : Mode) (cycles : Int)
  | undocumented (u : Un) (mode : Mode) (cycles : Int)
  | stop
  deriving DecidableEq

/-- What it stands for according to the tables. -/
inductive Means : Int → Meaning → Prop
  | documented (mn : Mn) (k : Code) (listed : k ∈ codes mn) : Means k.opcode (.documented mn k.mode k.cycles)
  | undocumented (u : Un) (k : Code) (listed : k ∈ unofficial u) : Means k.opcode (.undocumented u k.mode k.cycles)
  | stop (b : Int) (listed : b ∈ stopping) : Means b .stop

end Asap.Isa
