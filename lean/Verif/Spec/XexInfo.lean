import Verif.Model.Base

/-! What the text on the title screen of an executable has to be. -/

namespace Asap.Spec.XexInfo

/-- Text without its spaces. -/
def letters (s : List Nat) : List Nat := s.filter (· ≠ 32)

/-- Lines of 32 columns in a 256-byte buffer that show `letters` in order. -/
structure Screen (shown : List Nat) (text : List Nat) : Prop where
  fits : shown.length ≤ 256
  whole : shown.length % 32 = 0
  same : letters shown = text

/-- `w` is a word of the text `p ++ w ++ q`: not empty, without spaces, between spaces or the ends of the text. -/
structure IsWord (p w q : List Nat) : Prop where
  nonempty : w ≠ []
  noSpace : 32 ∉ w
  before : p = [] ∨ p.getLast? = some 32
  after : q = [] ∨ q.head? = some 32

/-- The word `w` after the text `p` is shown on one line. -/
def OnOneLine (shown p w : List Nat) : Prop :=
  ∃ a b, shown = a ++ w ++ b ∧ letters a = letters p ∧ a.length / 32 = (a.length + w.length - 1) / 32

/-- One of several authors: in the text `p ++ [' '] ++ g ++ q` the part `g` begins with `&`, contains no `" &"`, and is the last part or followed by `" &"`. -/
structure IsCredit (src p g q : List Nat) : Prop where
  split : src = p ++ [32] ++ g ++ q
  begins : g.head? = some 38
  whole : ¬ [32, 38] <:+: g
  after : q = [] ∨ [32, 38] <+: q

end Asap.Spec.XexInfo
