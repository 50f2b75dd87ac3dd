import Verif.Model.Info

/-!
# Text of the XEX title screen: asapwriter.fu 625-662, 673-695

The buffers `title`, `author` and `other` are `byte[256]`; here a buffer is the list of the bytes stored so far
(`dest[0..destLen)`), and a store at offset 256 or more is `Fault.ub`.
-/

namespace Asap.XexInfo
open Asap

/-- `XexInfoCharactersPerLine`, asapwriter.fu:625. -/
def lineLen : Nat := 32

/-- `dest[destLen++] = c` for a `byte[256]`, e.g. asapwriter.fu:659. -/
def store (dest : List Nat) (c : Nat) : M (List Nat) := if dest.length < 256 then .ok (dest ++ [c]) else .error .ub

/-- The loop of `PadXexInfo`, asapwriter.fu:629-630.  The first argument is fuel. -/
def padLoop : Nat → List Nat → Nat → M (List Nat)
  | 0, _, _ => .error .fuel
  | fuel + 1, dest, endColumn =>
    if dest.length % lineLen ≠ endColumn then do
      let dest ← store dest 32
      padLoop fuel dest endColumn
    else .ok dest

/-- `PadXexInfo`, asapwriter.fu:627-632: at most 31 spaces if `endColumn` is a column. -/
def pad (dest : List Nat) (endColumn : Nat) : M (List Nat) := padLoop 32 dest endColumn

/-- The loop of asapwriter.fu:642-645, with `src[srcOffset + authorLen..]` as the argument: the number of characters before the next `" &"` or the end. -/
def beforeAnd : List Nat → Nat
  | [] => 0
  | c :: rest => if c = 32 ∧ rest.head? = some 38 then 0 else 1 + beforeAnd rest

/-- `authorLen`, asapwriter.fu:641-645, with `src[srcOffset..]` as the argument. -/
def authorLen (rest : List Nat) : Nat := 1 + beforeAnd rest.tail

/-- `wordLen`, asapwriter.fu:651-653, with `src[srcOffset..]` as the argument. -/
def wordLen (rest : List Nat) : Nat := (rest.takeWhile (· ≠ 32)).length

/-- The loop of `FormatXexInfoText`, asapwriter.fu:637-660; the first list is `src[srcOffset..]`. -/
def formatLoop (author : Bool) : List Nat → List Nat → M (List Nat)
  | [], dest => .ok dest
  | c :: rest, dest =>
    if c = 32 ∧ author = true ∧ rest.head? = some 38 ∧ authorLen rest ≤ lineLen ∧ dest.length % lineLen + 1 + authorLen rest > lineLen then do
      let dest ← pad dest 1
      formatLoop author rest dest
    else if c = 32 ∧ wordLen rest ≤ lineLen ∧ dest.length % lineLen + 1 + wordLen rest > lineLen then do
      let dest ← pad dest 0
      formatLoop author rest dest
    else do
      let dest ← store dest c
      formatLoop author rest dest

/-- `FormatXexInfoText`, asapwriter.fu:634-662. -/
def format (dest : List Nat) (endColumn : Nat) (src : List Nat) (author : Bool) : M (List Nat) := do
  let dest ← formatLoop author src dest
  pad dest endColumn

/-- `title[0..titleLen)`, asapwriter.fu:676-677. -/
def title (info : Info) : M (List Nat) := format [] 0 (if info.title.length = 0 then ascii "(untitled)" else info.title) false

/-- `author[0..authorLen)`, asapwriter.fu:678-687. -/
def author (info : Info) : M (List Nat) :=
  if info.author.length > 0 then format (ascii "by ") 0 info.author true else .ok []

/-- `SecondsToString(other, otherLen, duration + 999)` stores five bytes, asapwriter.fu:205-214, 691-695. -/
def storeTime (other : List Nat) (duration : Int) : M (List Nat) :=
  if duration > 0 then
    match Duration.secondsToString (duration + 999) with
    | some s => if other.length + 5 ≤ 256 then .ok (other ++ s) else .error .ub
    | none => pad other 0
  else pad other 0

/-- `other[0..otherLen)`, asapwriter.fu:688-695.  `duration + 999` is exact: durations are below 2^31 - 999 in the model's valid range. -/
def other (info : Info) : M (List Nat) := do
  let dest ← format [] (lineLen - 13) info.date false
  let dest ← format dest (lineLen - 5) (ascii (if info.channels > 1 then " STEREO" else "   MONO")) false
  storeTime dest (info.durations info.defaultSong)

end Asap.XexInfo
