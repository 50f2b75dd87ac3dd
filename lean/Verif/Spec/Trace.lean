import Verif.Spec.Unofficial
import Verif.Model.Base

/-!
# What a disassembler should print

A mnemonic of three letters and the usual notation of the addressing modes, with `$` before hexadecimal numbers.
-/

namespace Asap.Isa

/-- Three letters. -/
def Mn.name : Mn → String
  | .adc => "ADC" | .and => "AND" | .asl => "ASL" | .bcc => "BCC" | .bcs => "BCS" | .beq => "BEQ" | .bit => "BIT" | .bmi => "BMI" | .bne => "BNE" | .bpl => "BPL"
  | .brk => "BRK" | .bvc => "BVC" | .bvs => "BVS" | .clc => "CLC" | .cld => "CLD" | .cli => "CLI" | .clv => "CLV" | .cmp => "CMP" | .cpx => "CPX" | .cpy => "CPY"
  | .dec => "DEC" | .dex => "DEX" | .dey => "DEY" | .eor => "EOR" | .inc => "INC" | .inx => "INX" | .iny => "INY" | .jmp => "JMP" | .jsr => "JSR" | .lda => "LDA"
  | .ldx => "LDX" | .ldy => "LDY" | .lsr => "LSR" | .nop => "NOP" | .ora => "ORA" | .pha => "PHA" | .php => "PHP" | .pla => "PLA" | .plp => "PLP" | .rol => "ROL"
  | .ror => "ROR" | .rti => "RTI" | .rts => "RTS" | .sbc => "SBC" | .sec => "SEC" | .sed => "SED" | .sei => "SEI" | .sta => "STA" | .stx => "STX" | .sty => "STY"
  | .tax => "TAX" | .tay => "TAY" | .tsx => "TSX" | .txa => "TXA" | .txs => "TXS" | .tya => "TYA"

/-- Three letters. -/
def Un.name : Un → String
  | .aso => "ASO" | .rla => "RLA" | .lse => "LSE" | .rra => "RRA" | .dcm => "DCM" | .ins => "INS" | .lax => "LAX" | .sax => "SAX" | .las => "LAS" | .anc => "ANC"
  | .alr => "ALR" | .arr => "ARR" | .sbx => "SBX" | .sbc => "SBC" | .ane => "ANE" | .anx => "ANX" | .sha => "SHA" | .shs => "SHS" | .shx => "SHX" | .shy => "SHY"
  | .nop => "NOP"

/-- What is before the number of the operand. -/
def Mode.before : Mode → String
  | .imp | .acc => ""
  | .imm => " #"
  | .ind | .indx | .indy => " ("
  | _ => " "

/-- What is after it. -/
def Mode.behind : Mode → String
  | .zpx | .absx => ",X"
  | .zpy | .absy => ",Y"
  | .ind => ")"
  | .indx => ",X)"
  | .indy => "),Y"
  | _ => ""

namespace Meaning

def name : Meaning → String
  | .documented mn _ _ => mn.name
  | .undocumented u _ _ => u.name
  | .stop => "CIM"

def mode : Meaning → Mode
  | .documented _ mode _ => mode
  | .undocumented _ mode _ => mode
  | .stop => .imp

/-- A mark for what would otherwise look like a documented instruction. -/
def mark : Meaning → String
  | .undocumented .nop .imp _ | .undocumented .sbc _ _ => " !"
  | _ => ""

/-- An instruction with a given text for its number. -/
def text (x : Meaning) (number : List Nat) : List Nat := ascii x.name ++ ascii x.mode.before ++ number ++ ascii x.mode.behind ++ ascii x.mark

/-- Not a documented instruction, or `BRK`. -/
def unusual : Meaning → Bool
  | .documented mn _ _ => mn = .brk
  | _ => true

end Meaning

end Asap.Isa

namespace Asap.Spec.Trace

/-- A hexadecimal number of `k` digits. -/
def hex : Nat → Nat → List Nat
  | 0, _ => []
  | k + 1, n => hex k (n / 16) ++ [(ascii "0123456789ABCDEF").getD (n % 16) 0]

/-- The bytes of an instruction. -/
def bytes (mem : Int → Int) (pc : Int) (x : Isa.Meaning) : List Nat := (List.range x.mode.size.toNat).map fun (i : Nat) => (mem (pc + i)).toNat

/-- Its number: the byte, the word or the target of the branch. -/
def number (mem : Int → Int) (pc : Int) (x : Isa.Meaning) : List Nat :=
  if x.mode = .rel then ascii "$" ++ hex 4 ((pc + 2 + Isa.State.signed (mem (pc + 1))) % 0x10000).toNat
  else if x.mode.size = 2 then ascii "$" ++ hex 2 (mem (pc + 1)).toNat
  else if x.mode.size = 3 then ascii "$" ++ hex 4 (mem (pc + 1) + 256 * mem (pc + 2)).toNat
  else []

/-- `n` spaces. -/
def spaces (n : Nat) : List Nat := List.replicate n 32

/-- The address, the bytes in a column of ten characters, the instruction. -/
def line (mem : Int → Int) (pc : Int) (x : Isa.Meaning) : List Nat :=
  hex 4 pc.toNat ++ ascii ": " ++ (bytes mem pc x).flatMap (fun b => hex 2 b ++ ascii " ") ++ spaces (10 - 3 * x.mode.size.toNat) ++
    x.text (number mem pc x) ++ ascii "\n"

/-- A letter if a flag is set. -/
def letter (flag : Bool) (c : String) : List Nat := if flag = true then ascii c else ascii "-"

/-- The registers before an instruction: the scanline and the cycle in it in decimal, then the others. -/
def registers (st : Isa.State) (cycle : Int) : List Nat :=
  three (cycle / 114) ++ ascii " " ++ three (cycle % 114) ++ ascii " A=" ++ hex 2 st.a.toNat ++ ascii " X=" ++ hex 2 st.x.toNat ++ ascii " Y=" ++ hex 2 st.y.toNat ++
    ascii " S=" ++ hex 2 st.s.toNat ++ ascii " P=" ++ letter st.n "N" ++ letter st.v "V" ++ ascii "*-" ++ letter st.d "D" ++ letter st.i "I" ++ letter st.z "Z" ++
    letter st.c "C" ++ ascii " PC="
where
  /-- At least three characters. -/
  three (n : Int) : List Nat := spaces (3 - (Nat.toDigits 10 n.toNat).length) ++ (Nat.toDigits 10 n.toNat).map Char.toNat

/-- A line of the list of undocumented instructions. -/
def listed (b : Nat) (x : Isa.Meaning) : List Nat :=
  hex 2 b ++ ascii ": " ++ x.text (if x.mode.size = 2 then ascii "$xx" else if x.mode.size = 3 then ascii "$xxxx" else []) ++ ascii "\n"

end Asap.Spec.Trace
