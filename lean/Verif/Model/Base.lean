/-!
# Conventions shared by the whole model

The modelled code is the Fusion source of ASAP (`/repo/*.fu`) and its C
transpilation `/repo/asap.c`.  See `DESIGN.md` for the conventions.
-/

namespace Asap

/-- Outcomes other than a normal return.

* `thrown`: the Fusion `throw` statement, i.e. the C function returning
  `false`/`-1` (e.g. asapinfo.fu:54, asap.c:3844).
* `ub`: an array access outside the array.  The code has no such check; in C
  it is undefined behaviour, in the other transpilation targets an exception.
* `fuel`: a loop that was cut off by the model.  Never produced by code whose
  termination has been proved. -/
inductive Fault where
  | thrown (msg : String)
  | ub
  | fuel
  deriving DecidableEq, Repr

/-- Computations that may fail: methods declared `throws`, e.g. asapinfo.fu:50-59. -/
abbrev M := Except Fault

deriving instance DecidableEq for Except

/-- A `throw` statement, e.g. asapinfo.fu:54. -/
def raise {α : Type} (msg : String) : M α := .error (.thrown msg)

/-- Array read `a[i]` for a non-negative index; reading outside is `Fault.ub`.
Models plain array indexing as in asapinfo.fu:55 (`Source[Position]`). -/
def rd (a : List Nat) (i : Nat) : M Nat :=
  match a[i]? with
  | some b => .ok b
  | none => .error .ub

/-- Array read for an index computed with signed arithmetic, e.g. asapinfo.fu:1358-1365. -/
def rdI (a : List Nat) (i : Int) : M Nat :=
  if 0 ≤ i then rd a i.toNat else .error .ub

/-- `ASAPInfo.GetWord`, asapinfo.fu:178. -/
def getWord (buf : List Nat) (i : Nat) : M Nat := do
  let lo ← rd buf i
  let hi ← rd buf (i + 1)
  .ok (lo + 256 * hi)

/-- Every element is a byte: the type `byte[]`, e.g. asapinfo.fu:1203. -/
def AllBytes (l : List Nat) : Prop := ∀ b ∈ l, b < 256

/-- ASCII text of a Lean string literal, used for the string constants of the code,
e.g. asapinfo.fu:1256. -/
def ascii (s : String) : List Nat := s.toList.map Char.toNat

end Asap
