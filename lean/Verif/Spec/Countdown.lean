import Verif.Spec.Flat

/-! The time on the title screen. -/

namespace Asap.Spec.Countdown
open Asap.Isa Asap.Spec.Flat

/-- Where the time is: five characters. -/
def place : Int := 0xfc4b

/-- `Reads mem t`: the time reads `t` seconds, as in 02:59. -/
structure Reads (mem : Int → Int) (t : Nat) : Prop where
  range : t < 6000
  minutes10 : mem place = 48 + t / 60 / 10
  minutes : mem (place + 1) = 48 + t / 60 % 10
  colon : mem (place + 2) = 58
  seconds10 : mem (place + 3) = 48 + t % 60 / 10
  seconds : mem (place + 4) = 48 + t % 60 % 10

/-- No time: five spaces. -/
def Empty (mem : Int → Int) : Prop := ∀ k : Int, 0 ≤ k → k < 5 → mem (place + k) = 32

/-- Frames are counted in parts of a second, of which there are 65536: so many in a frame of PAL (0) and NTSC (1). -/
def parts (tv : Nat) : Nat := if tv = 0 then 1314 else 1093

/-- Sixteen bits that count the parts of a second. -/
def Parts (mem : Int → Int) (p : Nat) : Prop := p < 65536 ∧ mem 0xfc9e = p % 256 ∧ mem 0xfca6 = p / 256

/-- The program, except for its variables, which are operands. -/
def Program (code : List Nat) (mem : Int → Int) : Prop :=
  ∀ (j b : Nat), code[j]? = some b → 0xfc73 + j ≠ 0xfc9e → 0xfc73 + j ≠ 0xfca6 → mem (0xfc73 + j) = b

/-- The bytes that may change. -/
def Variable (b : Int) : Prop := (place ≤ b ∧ b < place + 5) ∨ b = 0xfc9e ∨ b = 0xfca6

/-- The address a subroutine returns to. -/
def back (st : State) : Int := (st.mem (256 + (st.s + 1) % 256) + 256 * st.mem (256 + (st.s + 2) % 256) + 1) % 65536

/-- `Returns st st'`: a subroutine comes back, with Y kept. -/
structure Returns (st st' : State) : Prop where
  runs : Runs st st'
  pc : st'.pc = back st
  sp : st'.s = (st.s + 2) % 256
  y : st'.y = st.y

/-- `Caller tv call`: in frame `n`, with the memory as the previous frame left it, the subroutine at 0xFC98 is called in the state
`call n mem`, with the kind of TV in X.  Whatever else happens in between does not change 0xFC4B to 0xFCDD. -/
structure Caller (tv : Nat) (call : Nat → (Int → Int) → State) : Prop where
  pc : ∀ n mem, (call n mem).pc = 0xfc98
  x : ∀ n mem, (call n mem).x = (tv : Int)
  mem : ∀ n mem b, 0xfc4b ≤ b → b ≤ 0xfcdd → (call n mem).mem b = mem b

/-- `Frames call mems`: the memory after each number of frames. -/
def Frames (call : Nat → (Int → Int) → State) (mems : Nat → Int → Int) : Prop :=
  ∀ n, ∃ st', Returns (call n (mems n)) st' ∧ st'.mem = mems (n + 1)

/-- Cycles of the processor in a frame: 114 in each of the 312 (PAL) or 262 (NTSC) lines. -/
def cycles (tv : Nat) : Nat := if tv = 0 then 312 * 114 else 262 * 114

/-- Cycles in a second. -/
def clock (tv : Nat) : Nat := if tv = 0 then 1773447 else 1789772

/-- The memory `mem` after an executable with this image is loaded. -/
def Loaded (image : Nat → Option Nat) (mem : Int → Int) : Prop := ∀ a b : Nat, image a = some b → mem a = b

end Asap.Spec.Countdown
