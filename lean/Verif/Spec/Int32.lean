import Verif.Spec.Playback
import Verif.Model.Int32

/-! # Playback with 32-bit integers -/

namespace Asap.Spec.Int32

/-- A call, with the integers of C. -/
def run : Call → Int32.I Unit
  | .play song duration => Int32.within (Machine.playSong song duration)
  | .seek position => Int32.seek position
  | .seekSample block => Int32.seekSample block
  | .generate bufferLen format => do
    let _ ← Int32.generate bufferLen format
    pure ()
  | .mute mask => Int32.within (Machine.mutePokeyChannels mask)
  | .detectSilence seconds => Int32.detectSilence seconds
  | .setSampleRate rate => Int32.within (C.modify fun m => m.setSampleRate rate)

/-- Calls one after another, with the integers of C. -/
def runCalls : List Call → Int32.I Unit
  | [] => pure ()
  | c :: cs => do
    run c
    runCalls cs

/-- 99 minutes, 59 seconds and 999 milliseconds: the longest duration that can be written in a file. -/
def longest : Int := (99 * 60 + 59) * 1000 + 999

/-- Ordinary arguments: songs of up to the longest duration; positions of up to 2 hours; 100 to 48000 Hz; buffers whose
length is an `int`; at most 20 minutes of silence. -/
def Ordinary : Call → Prop
  | .play _ duration => 0 < duration ∧ duration ≤ longest
  | .seek position => 0 ≤ position ∧ position ≤ 2 * 3600 * 1000
  | .seekSample block => 0 ≤ block ∧ block ≤ 2 * 3600 * 48000
  | .generate bufferLen _ => 0 ≤ bufferLen ∧ bufferLen < 2 ^ 31
  | .mute _ => True
  | .detectSilence seconds => 0 ≤ seconds ∧ seconds ≤ 20 * 60
  | .setSampleRate rate => 100 ≤ rate ∧ rate ≤ 48000

/-- Neither overflows nor differs from what is computed with unbounded integers. -/
def Same {α : Type} (x : Int32.I α) (y : C α) (m : Machine) : Prop := x m = some (y m)

end Asap.Spec.Int32
