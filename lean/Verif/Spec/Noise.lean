import Verif.Spec.Pokey

/-!
# The noise generators of POKEY

A linear feedback shift register of `n` bits with a tap at bit 5 outputs the binary sequence with
`b (i + n) = b i xor b (i + 5)`, starting with `n` ones.
-/

namespace Asap.Spec

/-- The output of an `n`-bit shift register with feedback from bits 0 and 5. -/
structure ShiftRegister (n : Nat) (b : Nat → Bool) : Prop where
  start : ∀ k, k < n → b k = true
  next : ∀ k, b (k + n) = (b k ^^ b (k + 5))

/-- `v` is the byte made of bits `i` .. `i + 7` of the sequence, the first one being the least significant. -/
def Window (b : Nat → Bool) (i : Nat) (v : Int) : Prop :=
  0 ≤ v ∧ v < 256 ∧ ∀ k, k < 8 → (bit v k ↔ b (i + k) = true)

/-- `d` is a period of the sequence. -/
def Period (b : Nat → Bool) (d : Nat) : Prop := ∀ i, b (i + d) = b i

/-- Total length of the frames finished in a history. -/
def elapsed : List ChipEvent → Int
  | [] => 0
  | .finish c :: es => c + elapsed es
  | _ :: es => elapsed es

/-- The history does not touch SKCTL and leaves bit 7 of AUDCTL (9-bit noise) as it is; frames have a
non-negative length. -/
def ChipEvent.KeepsNoise (nine : Bool) : ChipEvent → Prop
  | .write addr data _ => addr % 16 ≠ 15 ∧ (addr % 16 = 8 → (bit data 7 ↔ nine = true))
  | .finish c => 0 ≤ c
  | _ => True

end Asap.Spec
