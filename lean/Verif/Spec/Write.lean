import Verif.Model.Base
import Verif.Spec.Ext

/-! What a writer may change in the array it was given, and file names by extension. -/

namespace Asap.Spec

/-- Outside `[start, stop)` the array `out'` is `out`. -/
structure Outside (out out' : List Nat) (start stop : Nat) : Prop where
  length : out'.length = out.length
  before : ∀ i, i < start → out'[i]? = out[i]?
  after : ∀ i, stop ≤ i → out'[i]? = out[i]?

/-- The file name ends with a dot and the extension, in any case of letters. -/
def Named (target : List Nat) (ext : List Nat) : Prop := ∃ x, HasExt target x ∧ x.map lower = ext

end Asap.Spec
