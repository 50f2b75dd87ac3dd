import Verif.Spec.Flat

/-!
# When an executable calls the player

Time is measured in steps of VCOUNT, which counts pairs of scan lines in each frame.
-/

namespace Asap.Spec.Schedule
open Asap.Isa Asap.Spec.Flat

/-- Steps of VCOUNT in a frame: 312 lines of PAL (0), 262 lines of NTSC (1). -/
def steps (tv : Nat) : Nat := if tv = 0 then 156 else 131

/-- The time of call `k` of a player that is to be called every `fastplay` scan lines: the first one is at VCOUNT 125 of frame 0. -/
def due (fastplay k : Nat) : Nat := 125 + k * fastplay / 2

/-- The variables, operands of instructions: the kind of TV, the number of calls, VCOUNT and the frame of the next call, frames passed. -/
def Variable (b : Int) : Prop := b = 0x191 ∨ b = 0x199 ∨ b = 0x1a2 ∨ b = 0x1b5 ∨ b = 0x1ba

/-- The program `code` from 0x124 on, of which the title screen replaces what is below 0x13A, except for its variables; and what it is told about the song. -/
structure Driver (code : List Nat) (fastplay : Nat) (mem : Int → Int) : Prop where
  program : ∀ j b : Nat, code[j]? = some b → 22 ≤ j → ¬ Variable (0x124 + j : Int) → mem (0x124 + j) = b
  odd : mem 0x1db = fastplay % 2
  pal : mem 0x1dc = fastplay / 2 % 156
  ntsc : mem 0x1dd = fastplay / 2 % 131
  frames : mem 0x1de = fastplay / 312
  framesNtsc : mem 0x1df = fastplay / 262

/-- `Waits tv fastplay k mem`: the next call is call `k`.  Frames are counted in eight bits; the number of calls is needed for odd periods only. -/
structure Waits (tv fastplay k : Nat) (mem : Int → Int) : Prop where
  kind : mem 0x191 = tv
  vcount : mem 0x1a2 = due fastplay k % steps tv
  frame : mem 0x1b5 = due fastplay k / steps tv % 256
  calls : fastplay % 2 = 1 → mem 0x199 = k % 256

/-- `Between call`: after call `n` of the player and whatever happens in interrupts, the program goes on at 0x190 in the state `call n mem`,
where `mem` is the memory when the player was called.  Neither the player nor interrupts change the program and its variables, except for the number of
frames; decimal mode is off. -/
structure Between (call : Nat → (Int → Int) → State) : Prop where
  pc : ∀ n mem, (call n mem).pc = 0x190
  binary : ∀ n mem, (call n mem).d = false
  mem : ∀ n mem b, 0x124 ≤ b → b ≤ 0x1df → b ≠ 0x1ba → (call n mem).mem b = mem b

/-- `Plans call mems`: `mems n` is the memory when call `n` is waited for. -/
def Plans (call : Nat → (Int → Int) → State) (mems : Nat → Int → Int) : Prop :=
  ∀ n, ∃ st', Runs (call n (mems n)) st' ∧ st'.pc = 0x1b9 ∧ st'.a = st'.mem 0x1b5 ∧ st'.d = false ∧ st'.mem = mems (n + 1)

/-- A non-maskable interrupt: the program counter and the status are pushed, the routine is the one at 0xFFFA. -/
def nmi (st : State) : State := { st.interrupt false with pc := st.mem 0xfffa + 256 * st.mem 0xfffb }

/-- The routine of the interrupt is at `start`. -/
def Vector (start : Int) (mem : Int → Int) : Prop := mem 0xfffa = start % 256 ∧ mem 0xfffb = start / 256

/-- `Unnoticed used st mem`: the interrupt in the state `st` is served and the program goes on where it was, with all registers and flags, and with the memory
`mem`, which differs in the number of frames, `changed`, and up to `used` free bytes of the stack only. -/
structure Unnoticed (used : Int) (changed : Int → Prop) (st : State) (mem : Int → Int) : Prop where
  back : Runs (nmi st) { st with mem := mem }
  frame : mem 0x1ba = (st.mem 0x1ba + 1) % 256
  kept : ∀ b, b ≠ 0x1ba → ¬ changed b → ¬ (256 + st.s - used < b ∧ b ≤ 256 + st.s) → mem b = st.mem b

end Asap.Spec.Schedule
