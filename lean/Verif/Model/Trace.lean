import Verif.Model.Scan
import Verif.Model.Txt

/-!
# Traces of the processor in asapscan

The table of mnemonics, the disassembler, the trace and the list of undocumented instructions.
-/

namespace Asap.Scan
open Asap.Txt (digit hex4)

/-- `cpu_mnemonics`, asapscan.c:92-129. -/
def mnemonics : List String := [
    "BRK", "ORA (1,X)", "CIM", "ASO (1,X)", "NOP 1", "ORA 1", "ASL 1", "ASO 1",
    "PHP", "ORA #1", "ASL", "ANC #1", "NOP 2", "ORA 2", "ASL 2", "ASO 2",
    "BPL 0", "ORA (1),Y", "CIM", "ASO (1),Y", "NOP 1,X", "ORA 1,X", "ASL 1,X", "ASO 1,X",
    "CLC", "ORA 2,Y", "NOP !", "ASO 2,Y", "NOP 2,X", "ORA 2,X", "ASL 2,X", "ASO 2,X",
    "JSR 2", "AND (1,X)", "CIM", "RLA (1,X)", "BIT 1", "AND 1", "ROL 1", "RLA 1",
    "PLP", "AND #1", "ROL", "ANC #1", "BIT 2", "AND 2", "ROL 2", "RLA 2",
    "BMI 0", "AND (1),Y", "CIM", "RLA (1),Y", "NOP 1,X", "AND 1,X", "ROL 1,X", "RLA 1,X",
    "SEC", "AND 2,Y", "NOP !", "RLA 2,Y", "NOP 2,X", "AND 2,X", "ROL 2,X", "RLA 2,X",
    "RTI", "EOR (1,X)", "CIM", "LSE (1,X)", "NOP 1", "EOR 1", "LSR 1", "LSE 1",
    "PHA", "EOR #1", "LSR", "ALR #1", "JMP 2", "EOR 2", "LSR 2", "LSE 2",
    "BVC 0", "EOR (1),Y", "CIM", "LSE (1),Y", "NOP 1,X", "EOR 1,X", "LSR 1,X", "LSE 1,X",
    "CLI", "EOR 2,Y", "NOP !", "LSE 2,Y", "NOP 2,X", "EOR 2,X", "LSR 2,X", "LSE 2,X",
    "RTS", "ADC (1,X)", "CIM", "RRA (1,X)", "NOP 1", "ADC 1", "ROR 1", "RRA 1",
    "PLA", "ADC #1", "ROR", "ARR #1", "JMP (2)", "ADC 2", "ROR 2", "RRA 2",
    "BVS 0", "ADC (1),Y", "CIM", "RRA (1),Y", "NOP 1,X", "ADC 1,X", "ROR 1,X", "RRA 1,X",
    "SEI", "ADC 2,Y", "NOP !", "RRA 2,Y", "NOP 2,X", "ADC 2,X", "ROR 2,X", "RRA 2,X",
    "NOP #1", "STA (1,X)", "NOP #1", "SAX (1,X)", "STY 1", "STA 1", "STX 1", "SAX 1",
    "DEY", "NOP #1", "TXA", "ANE #1", "STY 2", "STA 2", "STX 2", "SAX 2",
    "BCC 0", "STA (1),Y", "CIM", "SHA (1),Y", "STY 1,X", "STA 1,X", "STX 1,Y", "SAX 1,Y",
    "TYA", "STA 2,Y", "TXS", "SHS 2,Y", "SHY 2,X", "STA 2,X", "SHX 2,Y", "SHA 2,Y",
    "LDY #1", "LDA (1,X)", "LDX #1", "LAX (1,X)", "LDY 1", "LDA 1", "LDX 1", "LAX 1",
    "TAY", "LDA #1", "TAX", "ANX #1", "LDY 2", "LDA 2", "LDX 2", "LAX 2",
    "BCS 0", "LDA (1),Y", "CIM", "LAX (1),Y", "LDY 1,X", "LDA 1,X", "LDX 1,Y", "LAX 1,X",
    "CLV", "LDA 2,Y", "TSX", "LAS 2,Y", "LDY 2,X", "LDA 2,X", "LDX 2,Y", "LAX 2,Y",
    "CPY #1", "CMP (1,X)", "NOP #1", "DCM (1,X)", "CPY 1", "CMP 1", "DEC 1", "DCM 1",
    "INY", "CMP #1", "DEX", "SBX #1", "CPY 2", "CMP 2", "DEC 2", "DCM 2",
    "BNE 0", "CMP (1),Y", "CIM", "DCM (1),Y", "NOP 1,X", "CMP 1,X", "DEC 1,X", "DCM 1,X",
    "CLD", "CMP 2,Y", "NOP !", "DCM 2,Y", "NOP 2,X", "CMP 2,X", "DEC 2,X", "DCM 2,X",
    "CPX #1", "SBC (1,X)", "NOP #1", "INS (1,X)", "CPX 1", "SBC 1", "INC 1", "INS 1",
    "INX", "SBC #1", "NOP", "SBC #1 !", "CPX 2", "SBC 2", "INC 2", "INS 2",
    "BEQ 0", "SBC (1),Y", "CIM", "INS (1),Y", "NOP 1,X", "SBC 1,X", "INC 1,X", "INS 1,X",
    "SED", "SBC 2,Y", "NOP !", "INS 2,Y", "NOP 2,X", "SBC 2,X", "INC 2,X", "INS 2,X"]

/-- The initial `cpu_opcodes`, asapscan.c:133-150. -/
def opcodeFlags : List Nat := [
    1, 0, 1, 1, 1, 0, 0, 1, 0, 0, 0, 1, 1, 0, 0, 1,
    0, 0, 1, 1, 1, 0, 0, 1, 0, 0, 1, 1, 1, 0, 0, 1,
    0, 0, 1, 1, 0, 0, 0, 1, 0, 0, 0, 1, 0, 0, 0, 1,
    0, 0, 1, 1, 1, 0, 0, 1, 0, 0, 1, 1, 1, 0, 0, 1,
    0, 0, 1, 1, 1, 0, 0, 1, 0, 0, 0, 1, 0, 0, 0, 1,
    0, 0, 1, 1, 1, 0, 0, 1, 0, 0, 1, 1, 1, 0, 0, 1,
    0, 0, 1, 1, 1, 0, 0, 1, 0, 0, 0, 1, 0, 0, 0, 1,
    0, 0, 1, 1, 1, 0, 0, 1, 0, 0, 1, 1, 1, 0, 0, 1,
    1, 0, 1, 1, 0, 0, 0, 1, 0, 1, 0, 1, 0, 0, 0, 1,
    0, 0, 1, 1, 0, 0, 0, 1, 0, 0, 0, 1, 1, 0, 1, 1,
    0, 0, 0, 1, 0, 0, 0, 1, 0, 0, 0, 1, 0, 0, 0, 1,
    0, 0, 1, 1, 0, 0, 0, 1, 0, 0, 0, 1, 0, 0, 0, 1,
    0, 0, 1, 1, 0, 0, 0, 1, 0, 0, 0, 1, 0, 0, 0, 1,
    0, 0, 1, 1, 1, 0, 0, 1, 0, 0, 1, 1, 1, 0, 0, 1,
    0, 0, 1, 1, 0, 0, 0, 1, 0, 0, 0, 1, 0, 0, 0, 1,
    0, 0, 1, 1, 1, 0, 0, 1, 0, 0, 1, 1, 1, 0, 0, 1]

/-- `asap->cpu.memory[pc]`, asapscan.c:155, 159, 165-166, 172, 197: an array of 65536 bytes. -/
def readMemory (mem : Int → Int) (pc : Int) : M Nat := if 0 ≤ pc ∧ pc < 0x10000 then .ok (mem pc).toNat else .error .ub

/-- `%02X`, asapscan.c:160, 167, 174, 178, for bytes. -/
def hex2 (n : Nat) : List Nat := [digit (n / 16 % 16), digit (n % 16)]

/-- The loop of `show_instruction`, asapscan.c:157-177, and of `print_unofficial_mnemonic`, asapscan.c:203-213: the first of the
characters `1`, `2` and `0`, with its position. -/
def placeholder : List Nat → Nat → Option (Nat × Nat)
  | [], _ => none
  | c :: cs, i => if c = 49 ∨ c = 50 ∨ c = 48 then some (c, i) else placeholder cs (i + 1)

/-- A byte as a `signed char`, asapscan.c:173. -/
def signedChar (n : Nat) : Int := if n < 128 then n else (n : Int) - 256

/-- The line for an instruction with one byte of operand, asapscan.c:158-163. -/
def showByte (mem : Int → Int) (pc : Int) (opcode i : Nat) (text : List Nat) : M (List Nat) := do
  let value ← readMemory mem (pc + 1)
  pure (hex4 pc.toNat ++ ascii ": " ++ hex2 opcode ++ ascii " " ++ hex2 value ++ ascii "     " ++ text.take i ++ ascii "$" ++ hex2 value ++ text.drop (i + 1) ++ [10])

/-- The line for an instruction with two bytes of operand, asapscan.c:164-170. -/
def showWord (mem : Int → Int) (pc : Int) (opcode i : Nat) (text : List Nat) : M (List Nat) := do
  let lo ← readMemory mem (pc + 1)
  let hi ← readMemory mem (pc + 2)
  pure (hex4 pc.toNat ++ ascii ": " ++ hex2 opcode ++ ascii " " ++ hex2 lo ++ ascii " " ++ hex2 hi ++ ascii "  " ++ text.take i ++ ascii "$" ++ hex2 hi ++ hex2 lo ++
    text.drop (i + 1) ++ [10])

/-- The line for a branch, asapscan.c:171-176. -/
def showBranch (mem : Int → Int) (pc : Int) (opcode : Nat) (text : List Nat) : M (List Nat) := do
  let offset ← readMemory mem (pc + 1)
  pure (hex4 pc.toNat ++ ascii ": " ++ hex2 opcode ++ ascii " " ++ hex2 offset ++ ascii "     " ++ text.take 4 ++ ascii "$" ++
    hex4 (band (pc + 2 + signedChar offset) 0xffff).toNat ++ [10])

/-- The choice of the line, asapscan.c:157-178. -/
def showText (mem : Int → Int) (pc : Int) (opcode : Nat) (text : List Nat) : M (List Nat) :=
  match placeholder (text.drop 3) 3 with
  | none => .ok (hex4 pc.toNat ++ ascii ": " ++ hex2 opcode ++ ascii "        " ++ text ++ [10])
  | some (c, i) =>
    if c = 49 then showByte mem pc opcode i text else if c = 50 then showWord mem pc opcode i text else showBranch mem pc opcode text

/-- `show_instruction`, asapscan.c:152-179. -/
def showInstruction (mem : Int → Int) (pc : Int) : M (List Nat) := do
  let opcode ← readMemory mem pc
  showText mem pc opcode (ascii (mnemonics.getD opcode ""))

/-- `%3d`, asapscan.c:187, for numbers that are not negative. -/
def dec3 (n : Nat) : List Nat :=
  List.replicate (3 - (Nat.toDigits 10 n).length) 32 ++ (Nat.toDigits 10 n).map Char.toNat

/-- A flag of `P`, asapscan.c:190-191. -/
def flagText (set : Bool) (letter : String) : List Nat := if set = true then ascii letter else ascii "-"

/-- The registers in `trace_cpu`, asapscan.c:187-191.  (The cycle is never negative.) -/
def registersText (r : Cpu) : List Nat :=
  dec3 (r.cycle.toNat / 114) ++ ascii " " ++ dec3 (r.cycle.toNat % 114) ++ ascii " A=" ++ hex2 r.a.toNat ++ ascii " X=" ++ hex2 r.x.toNat ++
    ascii " Y=" ++ hex2 r.y.toNat ++ ascii " S=" ++ hex2 r.s.toNat ++ ascii " P=" ++ flagText (decide (r.nz ≥ 0x80)) "N" ++
    flagText (decide (band r.vdi 0x40 ≠ 0)) "V" ++ ascii "*-" ++ flagText (decide (band r.vdi 8 ≠ 0)) "D" ++ flagText (decide (band r.vdi 4 ≠ 0)) "I" ++
    flagText (decide (band r.nz 0xff = 0)) "Z" ++ flagText (decide (r.c ≠ 0)) "C" ++ ascii " PC="

/-- The line printed by `-c`, asapscan.c:184-193. -/
def traceLine (r : Cpu) : M (List Nat) := do
  let line ← showInstruction r.mem r.pc
  pure (registersText r ++ line)

/-- The line printed by `-b`, asapscan.c:194-195, 505: `at` is the given address. -/
def timeLine (ntsc : Bool) (frame : Nat) (at_ : Int) (r : Cpu) : List Nat := if r.pc = at_ then timeText ntsc frame true ++ [10] else []

/-- The mark of a used opcode in `trace_cpu`, asapscan.c:196-197. -/
def markUsed (flags : Nat → Nat) (r : Cpu) : M (Nat → Nat) :=
  if r.pc ≠ 0xd200 ∧ r.pc ≠ 0xd203 then do
    let opcode ← readMemory r.mem r.pc
    pure fun b => if b = opcode then flags b ||| 2 else flags b
  else pure flags

/-- All the marks, asapscan.c:196-197. -/
def markAll (flags : Nat → Nat) : List Cpu → M (Nat → Nat)
  | [] => pure flags
  | r :: rs => do
    let flags ← markUsed flags r
    markAll flags rs

/-- `print_unofficial_mnemonic`, asapscan.c:200-215. -/
def unofficialText (opcode : Nat) : List Nat :=
  match placeholder ((ascii (mnemonics.getD opcode "")).drop 3) 3 with
  | none => hex2 opcode ++ ascii ": " ++ ascii (mnemonics.getD opcode "") ++ [10]
  | some (c, i) => hex2 opcode ++ ascii ": " ++ (ascii (mnemonics.getD opcode "")).take i ++ (if c = 49 then ascii "$xx" else ascii "$xxxx") ++
      (ascii (mnemonics.getD opcode "")).drop (i + 1) ++ [10]

/-- The list printed by `-u`, asapscan.c:569-574. -/
def unofficialList (flags : Nat → Nat) : List Nat := ((List.range 256).filter fun b => flags b = 3).flatMap unofficialText

/-- What `-u` prints after the instructions executed with the given registers, asapscan.c:133-150, 196-197, 569-574. -/
def listUsed (trace : List Cpu) : M (List Nat) := do
  let flags ← markAll (fun b => opcodeFlags.getD b 0) trace
  pure (unofficialList flags)

end Asap.Scan

namespace Asap.Machine

/-- One iteration of the loop of `Cpu6502.DoFrame` with the call of `trace_cpu`, cpu6502.fu:273-1048: the registers it sees. -/
def tracedStep : C Cpu := do
  let cycle ← C.reg (·.cycle)
  let nextEvent ← C.get (·.nextEvent)
  C.when (cycle ≥ nextEvent) do
    handleEvent
    checkIrq
  let r ← C.reg id
  instruction
  pure r

/-- The loop of `Cpu6502.DoFrame` with the calls of `trace_cpu`, cpu6502.fu:269-1050: the registers they see. -/
def tracedFrame (limit : Int) : Nat → C (List Cpu)
  | 0 => do
    let cycle ← C.reg (·.cycle)
    C.when (cycle < limit) (C.fail .fuel)
    pure []
  | n + 1 => do
    let cycle ← C.reg (·.cycle)
    if cycle < limit then do
      let r ← tracedStep
      let rs ← tracedFrame limit n
      pure (r :: rs)
    else pure []

end Asap.Machine
