import Verif.Spec.Player
import Verif.Model.LoadAny

/-! # What a song depends on -/

namespace Asap.Spec.Fresh
open C

/-- What the caller gets from a call: the bytes and the number returned (`Generate`), and, when asked, the position and the volume
of the eight channels. -/
structure Seen where
  bytes : List Int
  length : Int
  position : Int
  volumes : List Int
  deriving DecidableEq

/-- A call and its result. -/
def answer : Call → C (List Int × Int)
  | .generate bufferLen format => Machine.generate bufferLen format
  | c => do
    c.run
    pure ([], 0)

/-- A call and everything that can be seen after it. -/
def watch (c : Call) : C Seen := do
  let r ← answer c
  let position ← get Machine.getPosition
  let volumes ← get fun m => (List.range 8).map fun i : Nat => m.channelVolume (i : Int)
  pure ⟨r.1, r.2, position, volumes⟩

/-- What is seen of calls one after another, up to the first failure. -/
def seen : List Call → Machine → List (X Seen)
  | [], _ => []
  | c :: cs, m => match watch c m with
    | .error e => [.error e]
    | .ok (s, m) => .ok s :: seen cs m

/-- What is seen when a file is loaded, a song started and calls are made. -/
def visit (fuel : Nat) (filename : Option (List Nat)) (file : List Nat) (song duration : Int) (calls : List Call) (m : Machine) :
    M (List (X Seen)) := do
  let m ← Loader.load fuel filename file m
  .ok (seen (.play song duration :: calls) m)

/-- The same settings: sample rate, silence detection and the table of the resampler; and the last output level of both chips,
which no song initialises. -/
structure SameSettings (m n : Machine) : Prop where
  rate : n.rate = m.rate
  silence : n.silence = m.silence
  table : n.pk.sinc = m.pk.sinc
  base : n.pk.base.sumOut = m.pk.base.sumOut
  extra : n.pk.extra.sumOut = m.pk.extra.sumOut

/-- The file is a SAP file: all that is loaded from it is a SAP type. -/
def IsSap (fuel : Nat) (filename : Option (List Nat)) (file : List Nat) : Prop :=
  ∀ info, infoLoad fuel filename file = .ok info → info.type = .sapB ∨ info.type = .sapC ∨ info.type = .sapD ∨ info.type = .sapS

end Asap.Spec.Fresh
