import Verif.Model.Base

/-! Partial-correctness triples for `M`: the computation neither runs out of fuel nor reads out of
bounds, and a normal result satisfies the postcondition. -/

namespace Asap

/-- `x` returns a value satisfying `P` or throws; no undefined behaviour, no lack of fuel. -/
def Post {α : Type} (P : α → Prop) : M α → Prop
  | .ok a => P a
  | .error (.thrown _) => True
  | .error .ub => False
  | .error .fuel => False

theorem Post.bind {α β : Type} {P : α → Prop} {Q : β → Prop} {x : M α} {f : α → M β}
    (hx : Post P x) (hf : ∀ a, P a → Post Q (f a)) : Post Q (x >>= f) := by
  match x, hx with
  | .ok a, h => exact hf a h
  | .error (.thrown _), _ => trivial

theorem Post.mono {α : Type} {P Q : α → Prop} {x : M α} (h : Post P x) (hpq : ∀ a, P a → Q a) :
    Post Q x := by
  match x, h with
  | .ok a, h => exact hpq a h
  | .error (.thrown _), _ => trivial

theorem Post.ok {α : Type} {P : α → Prop} {a : α} (h : P a) : Post P (.ok a) := h

theorem Post.raise {α : Type} {P : α → Prop} {s : String} : Post P (Asap.raise s : M α) := trivial

theorem Post.ite {α : Type} {P : α → Prop} {c : Prop} [Decidable c] {x y : M α}
    (h1 : c → Post P x) (h2 : ¬ c → Post P y) : Post P (if c then x else y) := by
  split
  · exact h1 ‹_›
  · exact h2 ‹_›

theorem Post.rd {a : List Nat} {i : Nat} (h : i < a.length) : Post (fun b => a[i]? = some b) (rd a i) := by
  unfold Asap.rd
  rw [List.getElem?_eq_getElem h]
  rfl

theorem Post.rdI {a : List Nat} {i : Int} (h0 : 0 ≤ i) (h : i.toNat < a.length) :
    Post (fun b => a[i.toNat]? = some b) (rdI a i) := by
  unfold Asap.rdI
  rw [if_pos h0]
  exact Post.rd h

theorem Post.safe {α : Type} {P : α → Prop} {x : M α} (h : Post P x) :
    x ≠ .error .ub ∧ x ≠ .error .fuel := by
  match x, h with
  | .ok a, h => simp
  | .error (.thrown _), _ => simp

theorem Post.of_eq {α : Type} {P : α → Prop} {x : M α} {a : α} (h : Post P x) (e : x = .ok a) : P a := by
  subst e; exact h

end Asap

namespace Asap

/-- `x` returns a value satisfying `P` or fails in a way satisfying `E`. -/
def PostE {α : Type} (E : Fault → Prop) (P : α → Prop) : M α → Prop
  | .ok a => P a
  | .error e => E e

theorem PostE.bind {α β : Type} {E : Fault → Prop} {P : α → Prop} {Q : β → Prop} {x : M α} {f : α → M β}
    (hx : PostE E P x) (hf : ∀ a, P a → PostE E Q (f a)) : PostE E Q (x >>= f) := by
  match x, hx with
  | .ok a, h => exact hf a h
  | .error e, h => exact h

theorem PostE.mono {α : Type} {E E' : Fault → Prop} {P Q : α → Prop} {x : M α} (h : PostE E P x) (he : ∀ e, E e → E' e)
    (hpq : ∀ a, P a → Q a) : PostE E' Q x := by
  match x, h with
  | .ok a, h => exact hpq a h
  | .error e, h => exact he e h

theorem PostE.ite {α : Type} {E : Fault → Prop} {P : α → Prop} {c : Prop} [Decidable c] {x y : M α}
    (h1 : c → PostE E P x) (h2 : ¬ c → PostE E P y) : PostE E P (if c then x else y) := by
  split
  · exact h1 ‹_›
  · exact h2 ‹_›

/-- A computation without undefined behaviour that ends. -/
theorem Post.toE {α : Type} {E : Fault → Prop} {P : α → Prop} {x : M α} (h : Post P x) (he : ∀ s, E (.thrown s)) : PostE E P x := by
  match x, h with
  | .ok a, h => exact h
  | .error (.thrown s), _ => exact he s

theorem PostE.toPost {α : Type} {E : Fault → Prop} {P : α → Prop} {x : M α} (h : PostE E P x) (h1 : ¬ E .ub) (h2 : ¬ E .fuel) : Post P x := by
  match x, h with
  | .ok a, h => exact h
  | .error (.thrown s), _ => trivial
  | .error .ub, h => exact h1 h
  | .error .fuel, h => exact h2 h

/-- In bounds, but possibly without end. -/
def InBounds (e : Fault) : Prop := e ≠ .ub

/-- Ends, but possibly out of bounds. -/
def Ends (e : Fault) : Prop := e ≠ .fuel

/-- Neither. -/
def Throws (e : Fault) : Prop := ∃ s, e = .thrown s

end Asap
