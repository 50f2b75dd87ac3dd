/-!
# Specification of metadata texts and dates
-/

namespace Asap.Spec

/-- Characters the SAP format allows in texts: the printable ATASCII characters that are also ASCII,
i.e. `' '..'|'` without the backquote and the opening brace. -/
def SapChar (c : Nat) : Prop := (32 ≤ c ∧ c ≤ 95) ∨ (97 ≤ c ∧ c ≤ 122) ∨ c = 124

/-- A text that can be set as author, title or date. -/
def ValidText (s : List Nat) : Prop := s.length ≤ 127 ∧ ∀ c ∈ s, SapChar c

/-- Decimal digit value of an ASCII character. -/
def digitVal (c : Nat) : Option Nat := if 48 ≤ c ∧ c ≤ 57 then some (c - 48) else none

/-- The date formats from which fields can be read: `YYYY`, `MM/YYYY`, `DD/MM/YYYY`. -/
inductive DateText : List Nat → Nat → Option Nat → Option Nat → Prop
  | y {a b c d va vb vc vd} : digitVal a = some va → digitVal b = some vb → digitVal c = some vc →
      digitVal d = some vd →
      DateText [a, b, c, d] (1000 * va + 100 * vb + 10 * vc + vd) none none
  | my {m n a b c d vm vn va vb vc vd} : digitVal m = some vm → digitVal n = some vn →
      digitVal a = some va → digitVal b = some vb → digitVal c = some vc → digitVal d = some vd →
      DateText [m, n, 47, a, b, c, d] (1000 * va + 100 * vb + 10 * vc + vd) (some (10 * vm + vn)) none
  | dmy {p q m n a b c d vp vq vm vn va vb vc vd} : digitVal p = some vp → digitVal q = some vq →
      digitVal m = some vm → digitVal n = some vn → digitVal a = some va → digitVal b = some vb →
      digitVal c = some vc → digitVal d = some vd →
      DateText [p, q, 47, m, n, 47, a, b, c, d] (1000 * va + 100 * vb + 10 * vc + vd)
        (some (10 * vm + vn)) (some (10 * vp + vq))

end Asap.Spec
