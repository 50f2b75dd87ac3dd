import Verif.Spec.Playback

/-! # A reader of RIFF WAVE files -/

namespace Asap.Spec

/-- Unsigned little-endian numbers. -/
def le16 : List Nat → Nat
  | a :: b :: _ => a + 256 * b
  | _ => 0

def le32 : List Nat → Nat
  | a :: b :: c :: d :: _ => a + 256 * (b + 256 * (c + 256 * d))
  | _ => 0

/-- Chunks (identifier and body), at most `fuel` of them, that must fill the list exactly.  A body of odd size is
followed by a padding byte; it may be missing at the end unless `strict`. -/
def chunks (strict : Bool) : Nat → List Nat → Option (List (List Nat × List Nat))
  | _, [] => some []
  | 0, _ => none
  | fuel + 1, b =>
    let size := le32 (b.drop 4)
    let rest := b.drop 8
    if b.length < 8 ∨ rest.length < size then none
    else if size % 2 = 1 ∧ rest.length = size ∧ strict = true then none
    else match chunks strict fuel (rest.drop (size + size % 2)) with
      | some cs => some ((b.take 4, rest.take size) :: cs)
      | none => none

/-- Contents of a file. -/
structure Wav where
  channels : Nat
  rate : Nat
  byteRate : Nat
  blockAlign : Nat
  bits : Nat
  /-- identifiers and texts of the `INFO` list -/
  info : List (List Nat × List Nat)
  data : List Nat
  deriving DecidableEq, Repr

/-- A zero-terminated text. -/
def zText (b : List Nat) : List Nat := b.takeWhile (· ≠ 0)

/-- Texts of a `LIST` chunk of type `INFO`. -/
def infoTexts (b : List Nat) : Option (List (List Nat × List Nat)) :=
  if b.take 4 = ascii "INFO" then
    match chunks true b.length (b.drop 4) with
    | some cs => if cs.all (fun c => decide (0 ∈ c.2)) then some (cs.map fun c => (c.1, zText c.2)) else none
    | none => none
  else none

/-- The `fmt` chunk of PCM data. -/
def pcm (fmt : List Nat) (info : List (List Nat × List Nat)) (data : List Nat) : Option Wav :=
  if fmt.length = 16 ∧ le16 fmt = 1 then
    some ⟨le16 (fmt.drop 2), le32 (fmt.drop 4), le32 (fmt.drop 8), le16 (fmt.drop 12), le16 (fmt.drop 14), info, data⟩
  else none

/-- The chunks `fmt`, optionally `LIST`, and `data`. -/
def wavOf : List (List Nat × List Nat) → Option Wav
  | [(a, fmt), (c, data)] => if a = ascii "fmt " ∧ c = ascii "data" then pcm fmt [] data else none
  | [(a, fmt), (b, list), (c, data)] =>
    if a = ascii "fmt " ∧ b = ascii "LIST" ∧ c = ascii "data" then (infoTexts list).bind fun info => pcm fmt info data else none
  | _ => none

/-- Reads a file: `RIFF`, the size of the rest, `WAVE`, then the chunks. -/
def readWav (strict : Bool) (file : List Nat) : Option Wav :=
  if file.length < 12 ∨ file.take 4 ≠ ascii "RIFF" ∨ le32 (file.drop 4) + 8 ≠ file.length ∨ (file.drop 8).take 4 ≠ ascii "WAVE" then none
  else (chunks strict file.length (file.drop 12)).bind wavOf

/-- The texts a file should have. -/
def expectedInfo (title author : List Nat) (year : Int) : List (List Nat × List Nat) :=
  (if title = [] then [] else [(ascii "INAM", title)]) ++ (if author = [] then [] else [(ascii "IART", author)]) ++
    if year > 0 then [(ascii "ICRD", [48 + year.toNat / 1000, 48 + year.toNat / 100 % 10, 48 + year.toNat / 10 % 10, 48 + year.toNat % 10])]
    else []

/-- What a WAV file with the rest of the song should contain. -/
def expectedWav (m : Machine) (f : SampleFormat) (metadata : Bool) (year : Int) (data : List Nat) : Wav where
  channels := m.info.channels
  rate := m.rate.toNat
  byteRate := (m.rate * Spec.blockSize m f).toNat
  blockAlign := (Spec.blockSize m f).toNat
  bits := (8 * sampleSize f).toNat
  info := if metadata = true then expectedInfo m.info.title m.info.author year else []
  data := data

end Asap.Spec
