import Verif.Spec.SoundPlay
import Verif.Model.Asap

/-!
# The sound of a song

What the emulated processor tells the sound hardware while a song is started and played is recorded
in `Machine.told`.  The reference chips of `Spec.Sound` hear the record.
-/

namespace Asap.Spec.Sound
open Asap.Spec

/-- The user asks for samples again and again, with buffers of the given sizes; the bytes they get. -/
def takes (format : SampleFormat) : List Int → C (List Int)
  | [] => pure []
  | n :: ns => do
    let r ← Machine.generate n format
    let t ← takes format ns
    pure (r.1 ++ t)

/-- The reference chip hears what the machine tells. -/
def Tape.hear (z : Noise) (factor : Int) (sinc : Int → Int → Int) (mine : PairEvent → Bool) (v : Tape) : Signal → Tape
  | .write addr data cycle => v.event z factor sinc mine (.write addr data cycle)
  | .step toRight cycle height => v.event z factor sinc mine (.external toRight cycle height)
  | .frame length => v.finish z factor sinc length

/-- The reference chip while the song is started, when nothing is heard. -/
def Tape.learn (mine : PairEvent → Bool) (v : Tape) : Signal → Tape
  | .write addr data cycle => v.prepare mine (.write addr data cycle)
  | _ => v

/-- What may be told while a song is started: a volume-only AUDC value has volume 0, and there is no other source of sound. -/
def Quiet : Signal → Prop
  | .write addr data _ => ∀ i, i < 4 → isAudc addr i → bit data 4 → data % 16 = 0
  | .step _ _ _ => False
  | .frame _ => True

/-- What may be told while a song is played. -/
def Usual : Signal → Prop
  | .write addr data _ => Plain addr data
  | _ => True

/-- The reference chip after the song is started. -/
def Tape.ready (mine : PairEvent → Bool) (setup : List Signal) : Tape := setup.foldl (Tape.learn mine) Tape.start

/-- The reference chip after a part of the song. -/
def Tape.after (z : Noise) (factor : Int) (sinc : Int → Int → Int) (mine : PairEvent → Bool) (setup run : List Signal) : Tape :=
  run.foldl (Tape.hear z factor sinc mine) (Tape.ready mine setup)

end Asap.Spec.Sound
