/-!
# Specification of duration texts

Written from the documentation of `ParseDuration` (asapinfo.fu:1186-1190) and the SAP
`TIME` tag format, not from the parser.  Characters are ASCII codes.
-/

namespace Asap.Spec

/-- `c` is the ASCII digit with value `v`. -/
def IsDigit (c v : Nat) : Prop := v ≤ 9 ∧ c = v + 48

/-- Whole seconds: `s`, `ss`, `m:ss`, `mm:ss`. -/
inductive Whole : List Nat → Nat → Prop
  | s {c d} : IsDigit c d → Whole [c] d
  | ss {c₁ d₁ c₂ d₂} : IsDigit c₁ d₁ → IsDigit c₂ d₂ → Whole [c₁, c₂] (10 * d₁ + d₂)
  | m_ss {m vm c₁ d₁ c₂ d₂} : IsDigit m vm → IsDigit c₁ d₁ → d₁ ≤ 5 → IsDigit c₂ d₂ →
      Whole [m, 58, c₁, c₂] (60 * vm + (10 * d₁ + d₂))
  | mm_ss {m₁ v₁ m₂ v₂ c₁ d₁ c₂ d₂} : IsDigit m₁ v₁ → IsDigit m₂ v₂ →
      IsDigit c₁ d₁ → d₁ ≤ 5 → IsDigit c₂ d₂ →
      Whole [m₁, m₂, 58, c₁, c₂] (60 * (10 * v₁ + v₂) + (10 * d₁ + d₂))

/-- Fraction of a second in milliseconds: nothing, `.f`, `.ff`, `.fff`. -/
inductive Frac : List Nat → Nat → Prop
  | none : Frac [] 0
  | f {c d} : IsDigit c d → Frac [46, c] (100 * d)
  | ff {c₁ d₁ c₂ d₂} : IsDigit c₁ d₁ → IsDigit c₂ d₂ → Frac [46, c₁, c₂] (100 * d₁ + 10 * d₂)
  | fff {c₁ d₁ c₂ d₂ c₃ d₃} : IsDigit c₁ d₁ → IsDigit c₂ d₂ → IsDigit c₃ d₃ →
      Frac [46, c₁, c₂, c₃] (100 * d₁ + 10 * d₂ + d₃)

/-- The text denotes the given number of milliseconds. -/
def DurationText (s : List Nat) (ms : Nat) : Prop :=
  ∃ w sec f frac, s = w ++ f ∧ Whole w sec ∧ Frac f frac ∧ ms = 1000 * sec + frac

/-- Duration text with a full three-digit fraction, used to describe trailing text. -/
def DurationText3 (s : List Nat) (ms : Nat) : Prop :=
  ∃ w sec c₁ d₁ c₂ d₂ c₃ d₃, s = w ++ [46, c₁, c₂, c₃] ∧ Whole w sec ∧
    IsDigit c₁ d₁ ∧ IsDigit c₂ d₂ ∧ IsDigit c₃ d₃ ∧
    ms = 1000 * sec + (100 * d₁ + 10 * d₂ + d₃)

end Asap.Spec
