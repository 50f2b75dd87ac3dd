import Verif.Model.Base

/-!
# Durations: asapinfo.fu 44-100, 1190-1198 and asapwriter.fu 199-240
(asap.c 2752-2828, 3830-3834, 4675-4706)
-/

namespace Asap.Duration
open Asap

/-- The message of every failure in `DurationParser`, asapinfo.fu:54. -/
def invalid {α : Type} : M α := raise "Invalid duration"

/-- `DurationParser.ParseDigit(max)`, asapinfo.fu:50-59.  Returns the digit and
the advanced `Position`. -/
def parseDigit (s : List Nat) (pos max : Nat) : M (Nat × Nat) :=
  if pos ≥ s.length then invalid
  else do
    let c ← rd s pos
    let digit : Int := (c : Int) - 48
    if digit < 0 ∨ digit > (max : Int) then invalid
    else .ok (digit.toNat, pos + 1)

/-- asapinfo.fu:94-98: third fraction digit (whatever follows it is ignored). -/
def parseFrac3 (s : List Nat) (pos result : Nat) : M Nat :=
  if pos ≥ s.length then .ok result
  else do
    let (d, _) ← parseDigit s pos 9
    .ok (result + d)

/-- asapinfo.fu:90-93: second fraction digit. -/
def parseFrac2 (s : List Nat) (pos result : Nat) : M Nat :=
  if pos ≥ s.length then .ok result
  else do
    let (d, pos) ← parseDigit s pos 9
    parseFrac3 s pos (result + d * 10)

/-- asapinfo.fu:83-98: seconds to milliseconds, then the optional fraction. -/
def parseFraction (s : List Nat) (pos seconds : Nat) : M Nat :=
  let result := seconds * 1000
  if pos ≥ s.length then .ok result
  else do
    let c ← rd s pos
    if c ≠ 46 then invalid
    else do
      let (d, pos) ← parseDigit s (pos + 1) 9
      parseFrac2 s pos (result + d * 100)

/-- asapinfo.fu:75-81: the optional `:ss` part. -/
def parseColon (s : List Nat) (pos result : Nat) : M Nat :=
  if pos < s.length then do
    let c ← rd s pos
    if c = 58 then do
      let (d1, pos) ← parseDigit s (pos + 1) 5
      let (d2, pos) ← parseDigit s pos 9
      parseFraction s pos (result * 60 + d1 * 10 + d2)
    else parseFraction s pos result
  else parseFraction s pos result

/-- `ASAPInfo.ParseDuration`, i.e. `DurationParser.Parse`, asapinfo.fu:61-99.
Only the control flow is split into the helpers above; `result` and
`Position` are passed as arguments. -/
def parseDuration (s : List Nat) : M Nat := do
  let (result, pos) ← parseDigit s 0 9
  if pos < s.length then do
    let c ← rd s pos
    let digit : Int := (c : Int) - 48
    if 0 ≤ digit ∧ digit ≤ 9 then parseColon s (pos + 1) (result * 10 + digit.toNat)
    else parseColon s pos result
  else parseFraction s pos result

/-- `TwoDigitsToString`, asapwriter.fu:199-203 (asap.c:4675-4679): the two bytes stored. -/
def twoDigits (value : Nat) : List Nat := [48 + value / 10, 48 + value % 10]

/-- `SecondsToString`, asapwriter.fu:205-214 (asap.c:4681-4690): the five bytes
stored, or `none` when it returns false. -/
def secondsToString (value : Int) : Option (List Nat) :=
  if value < 0 ∨ value ≥ 6000000 then none
  else
    let v := value.toNat / 1000
    some (twoDigits (v / 60) ++ [58] ++ twoDigits (v % 60))

/-- `DurationToString`, asapwriter.fu:222-240 (asap.c:4692-4706): the bytes
`result[0..returned length)`. -/
def durationToString (value : Int) : List Nat :=
  match secondsToString value with
  | none => []
  | some secs =>
    let ms := value.toNat % 1000
    if ms = 0 then secs
    else
      let secs := secs ++ [46] ++ twoDigits (ms / 10)
      if ms % 10 = 0 then secs
      else secs ++ [48 + ms % 10]

end Asap.Duration
