import Verif.Spec.Player

/-! # Playing a song -/

namespace Asap.Spec
open C

/-- A player in use: after a module was loaded, `PlaySong` and any further calls. -/
def InUse (m : Machine) : Prop :=
  ∃ m0 song duration cs, CanPlay m0 ∧ (∀ c ∈ cs, Call.Valid c) ∧ runCalls (.play song duration :: cs) m0 = .ok ((), m)

/-- Bytes in a sample of one channel. -/
def sampleSize : SampleFormat → Int
  | .u8 => 1
  | .s16le => 2
  | .s16be => 2

/-- Bytes in a sample of all channels. -/
def blockSize (m : Machine) (f : SampleFormat) : Int := m.info.channels * sampleSize f

/-- Successive calls of `Generate`, for the lengths listed: what each delivered and returned. -/
def generateEach (f : SampleFormat) : List Int → C (List (List Int × Int))
  | [] => pure []
  | len :: lens => do
    let r ← Machine.generate len f
    let rs ← generateEach f lens
    pure (r :: rs)

/-- Successive calls of `Generate`, together: all bytes delivered and the sum of the numbers returned. -/
def generateAll (f : SampleFormat) (lens : List Int) : C (List Int × Int) := do
  let rs ← generateEach f lens
  pure ((rs.map (·.1)).flatten, (rs.map (·.2)).sum)

/-- The song is `milliseconds` long: this many samples. -/
def samplesIn (rate milliseconds : Int) : Int := milliseconds * rate / 1000

/-- What calls of `Generate` return while `left` samples of `size` bytes remain: whole samples that fit in the buffer, until none are left. -/
def served (size : Int) : Int → List Int → List Int
  | _, [] => []
  | left, len :: lens => min (len / size) left * size :: served size (left - min (len / size) left) lens

/-- A chip without what was heard of it: the sample buffer and the state of the output filter. -/
def unheard (p : Pokey) : Pokey := { p with buf := fun _ => 0, iirAcc := 0, trailing := 0 }

/-- Equal processors, memories, chips, positions in the song and in the frame, ...: all that determines what is played next.
Only the contents of the sample buffers and the output filters may differ. -/
def SameExceptSound (a b : Machine) : Prop :=
  { a with pk := { a.pk with base := unheard a.pk.base, extra := unheard a.pk.extra } } =
    { b with pk := { b.pk with base := unheard b.pk.base, extra := unheard b.pk.extra } }

/-- Two calls had the same effect on the player: they failed in the same way, or both returned, with `R`. -/
def SameEffect {α β : Type} (R : Machine → Machine → Prop) : X (α × Machine) → X (β × Machine) → Prop
  | .ok a, .ok b => R a.2 b.2
  | .error e, .error e' => e = e'
  | _, _ => False

end Asap.Spec
