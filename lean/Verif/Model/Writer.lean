import Verif.Model.Info

/-!
# `ASAPWriter`: primitive output and the SAP header
asapwriter.fu 242-376 (asap.c 4708-4869)
-/

namespace Asap
open Asap

/-- Writer state: `Output`, `OutputOffset`, `OutputEnd`, asapwriter.fu:242-244. -/
structure Writer where
  output : List Nat
  offset : Nat
  stop : Nat
  deriving DecidableEq, Repr

/-- Writer computations; the state survives a `throw`, because the caller's array does
(asapwriter.fu:247-266). -/
def W (α : Type) := Writer → M α × Writer

/-- Sequencing: a fault skips the rest, as a `throw` in asapwriter.fu:260-266 does. -/
def W.bind {α β : Type} (m : W α) (f : α → W β) : W β := fun w =>
  match (m w).1 with
  | .ok a => f a (m w).2
  | .error e => (.error e, (m w).2)

instance : Monad W where
  pure a := fun w => (.ok a, w)
  bind := W.bind

/-- `throw` (or another fault), e.g. asapwriter.fu:260-266. -/
def W.fail {α : Type} (f : Fault) : W α := fun w => (.error f, w)

/-- `if (c) m;`, e.g. in asapwriter.fu:338-376. -/
def W.when (c : Prop) [Decidable c] (m : W Unit) : W Unit := if c then m else pure ()

/-- `SetOutput`, asapwriter.fu:247-258. -/
def setOutput (output : List Nat) (startIndex endIndex : Nat) : Writer := ⟨output, startIndex, endIndex⟩

/-- Store into a `byte[]`: conversion of an `int` to a byte, asapwriter.fu:260-266. -/
def toByte (v : Int) : Nat := (v % 256).toNat

/-- `WriteByte`, asapwriter.fu:260-266. -/
def writeByte (v : Int) : W Unit := fun w =>
  if w.offset ≥ w.stop then (.error (.thrown "Output full"), w)
  else if w.offset < w.output.length then
    (.ok (), { w with output := w.output.set w.offset (toByte v), offset := w.offset + 1 })
  else (.error .ub, w)

/-- `WriteWord`, asapwriter.fu:268-273. -/
def writeWord (v : Int) : W Unit := do
  writeByte (v % 256)
  writeByte (v / 256)

/-- `WriteBytes`, asapwriter.fu:275-283: copies `array[startIndex..endIndex)`.  A negative length
passes the capacity check and is a `memcpy` of a huge size, an out-of-bounds read is undefined
too. -/
def writeBytes (a : List Nat) (startIndex endIndex : Int) : W Unit := fun w =>
  let length := endIndex - startIndex
  if (w.offset : Int) + length > w.stop then (.error (.thrown "Output full"), w)
  else if 0 ≤ length ∧ 0 ≤ startIndex ∧ endIndex ≤ a.length ∧ (w.offset : Int) + length ≤ w.output.length then
    let chunk := (a.drop startIndex.toNat).take length.toNat
    (.ok (), { w with
      output := w.output.take w.offset ++ chunk ++ w.output.drop (w.offset + length.toNat)
      offset := w.offset + length.toNat })
  else (.error .ub, w)

/-- `WriteString`, asapwriter.fu:285-290. -/
def writeString : List Nat → W Unit
  | [] => pure ()
  | c :: s => do
    writeByte c
    writeString s

/-- `WriteDec`, asapwriter.fu:292-300, for a non-negative value.  The first argument is fuel, one
more than the recursion depth. -/
def writeDecF : Nat → Nat → W Unit
  | 0, _ => W.fail .fuel
  | fuel + 1, v => do
    if v ≥ 10 then
      writeDecF fuel (v / 10)
      writeByte (48 + v % 10)
    else writeByte (48 + v)

/-- `WriteDec`, asapwriter.fu:292-300: a value has fewer digits than `value + 1`. -/
def writeDec (v : Nat) : W Unit := writeDecF (v + 1) v

/-- `\r\n` as written after every tag, e.g. asapwriter.fu:315-322. -/
def writeCrLf : W Unit := do
  writeByte 13
  writeByte 10

/-- `WriteTextSapTag`, asapwriter.fu:302-313. -/
def writeTextSapTag (tag value : List Nat) : W Unit := do
  writeString tag
  writeByte 34
  writeString (if value.length = 0 then ascii "<?>" else value)
  writeByte 34
  writeCrLf

/-- `WriteDecSapTag`, asapwriter.fu:315-322. -/
def writeDecSapTag (tag : List Nat) (value : Nat) : W Unit := do
  writeString tag
  writeDec value
  writeCrLf

/-- One digit of `WriteHexSapTag`, asapwriter.fu:331-332. -/
def writeHexDigit (digit : Int) : W Unit :=
  writeByte (digit + (if digit < 10 then 48 else 65 - 10))

/-- `WriteHexSapTag`, asapwriter.fu:324-336. -/
def writeHexSapTag (tag : List Nat) (value : Int) : W Unit := do
  if value < 0 then pure ()
  else
    writeString tag
    writeHexDigit (value / 4096 % 16)
    writeHexDigit (value / 256 % 16)
    writeHexDigit (value / 16 % 16)
    writeHexDigit (value % 16)
    writeCrLf

/-- The `TIME` loop of `WriteSapHeader`, asapwriter.fu:365-375; `n` songs left. -/
def writeTimes (info : Info) (song : Nat) : Nat → W Unit
  | 0 => pure ()
  | n + 1 => do
    if info.durations song < 0 then pure ()
    else
      writeString (ascii "TIME ")
      let s := Duration.durationToString (info.durations song)
      writeBytes s 0 s.length
      W.when (info.loops song = true) (writeString (ascii " LOOP"))
      writeCrLf
      writeTimes info (song + 1) n

/-- `WriteSapHeader`, asapwriter.fu:338-376 (asap.c:4803-4869). -/
def writeSapHeader (info : Info) (type : Nat) (init player : Int) : W Unit := do
  writeString (ascii "SAP\r\n")
  writeTextSapTag (ascii "AUTHOR ") info.author
  writeTextSapTag (ascii "NAME ") info.title
  writeTextSapTag (ascii "DATE ") info.date
  W.when (info.songs > 1) do
    writeDecSapTag (ascii "SONGS ") info.songs
    W.when (info.defaultSong > 0) (writeDecSapTag (ascii "DEFSONG ") info.defaultSong)
  W.when (info.channels > 1) (writeString (ascii "STEREO\r\n"))
  W.when (info.ntsc = true) (writeString (ascii "NTSC\r\n"))
  writeString (ascii "TYPE ")
  writeByte type
  writeCrLf
  W.when (info.fastplay ≠ (if type = 83 then 78 else 312) ∨ info.ntsc = true)
    (writeDecSapTag (ascii "FASTPLAY ") info.fastplay.toNat)
  W.when (type = 67) (writeHexSapTag (ascii "MUSIC ") info.music)
  writeHexSapTag (ascii "INIT ") init
  writeHexSapTag (ascii "PLAYER ") player
  writeHexSapTag (ascii "COVOX ") info.covoxAddr
  writeTimes info 0 info.songs

end Asap
