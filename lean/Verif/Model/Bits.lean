/-!
# Integer bit operations of the C code

`int` values are modelled by mathematical integers; `&`, `|`, `^`, `~` work on their two's
complement representation with infinite sign extension, which agrees with 32-bit arithmetic for all
values that fit an `int`.
-/

namespace Asap

/-- `a & b`, e.g. pokey.fu:72. -/
def band : Int → Int → Int
  | .ofNat a, .ofNat b => .ofNat (a &&& b)
  | .ofNat a, .negSucc b => .ofNat (a - (a &&& b))
  | .negSucc a, .ofNat b => .ofNat (b - (a &&& b))
  | .negSucc a, .negSucc b => .negSucc (a ||| b)

/-- `a | b`, e.g. pokey.fu:110. -/
def bor : Int → Int → Int
  | .ofNat a, .ofNat b => .ofNat (a ||| b)
  | .ofNat a, .negSucc b => .negSucc (b - (a &&& b))
  | .negSucc a, .ofNat b => .negSucc (a - (a &&& b))
  | .negSucc a, .negSucc b => .negSucc (a &&& b)

/-- `a ^ b`, e.g. pokey.fu:73. -/
def bxor : Int → Int → Int
  | .ofNat a, .ofNat b => .ofNat (a ^^^ b)
  | .ofNat a, .negSucc b => .negSucc (a ^^^ b)
  | .negSucc a, .ofNat b => .negSucc (a ^^^ b)
  | .negSucc a, .negSucc b => .ofNat (a ^^^ b)

/-- `~a`, e.g. pokey.fu:114. -/
def bnot (a : Int) : Int := -a - 1

/-- `a >> n` (arithmetic shift), e.g. pokey.fu:260. -/
def shr (a : Int) (n : Nat) : Int := a / 2 ^ n

/-- `a << n`, e.g. pokey.fu:249. -/
def shl (a : Int) (n : Nat) : Int := a * 2 ^ n

end Asap
