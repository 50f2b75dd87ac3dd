import Verif.Spec.Playback

/-! # When the player routine is called

The programs of `Model/Asap` once more, returning what happened: an entry for every scan line that began, which is the processor
clock at the call of the player routine if it was called in this scan line, and `none` if it was not.  `C40_observed` proves that
they are otherwise the same programs. -/

namespace Asap.Spec
open C Machine

/-- Calls of the player routine, one entry for every scan line. -/
abbrev Log := List (Option Int)

/-- `handleScanline` with the entry of this scan line. -/
def logScanline : C (Option Int) := do
  let cycle ← reg (·.cycle)
  let nextScan ← get (·.nextScan)
  when (cycle - nextScan < 50) (addCycle 9)
  setNextScan (nextScan + 114)
  let cycle ← reg (·.cycle)
  let nextPlayer ← get (·.nextPlayer)
  if cycle ≥ nextPlayer then do
    callPlayer
    let nextPlayer ← get (·.nextPlayer)
    let fastplay ← get (·.info.fastplay)
    setNextPlayer (nextPlayer + 114 * fastplay)
    pure (some cycle)
  else pure none

/-- A program whose value is added to the log, if it runs. -/
def logIf (c : Prop) [Decidable c] (f : C (Option Int)) : C Log :=
  if c then do
    let x ← f
    pure [x]
  else pure []

/-- `handleEvent` -/
def logEvent : C Log := do
  let cycle ← reg (·.cycle)
  let nextScan ← get (·.nextScan)
  let log ← logIf (cycle ≥ nextScan) logScanline
  let cycle ← reg (·.cycle)
  let nextScan ← get (·.nextScan)
  let next ← checkTimers cycle nextScan
  setNextEvent next
  pure log

/-- Events before an instruction. -/
def logEvents : C Log := do
  let cycle ← reg (·.cycle)
  let nextEvent ← get (·.nextEvent)
  if cycle ≥ nextEvent then do
    let log ← logEvent
    checkIrq
    pure log
  else pure []

/-- `cpuStep` -/
def logStep : C Log := do
  let log ← logEvents
  instruction
  pure log

/-- `cpuFrame` -/
def logLoop (limit : Int) : Nat → C Log
  | 0 => do
    let cycle ← reg (·.cycle)
    if cycle < limit then fail .fuel else pure []
  | fuel + 1 => do
    let cycle ← reg (·.cycle)
    if cycle < limit then do
      let a ← logStep
      let b ← logLoop limit fuel
      pure (a ++ b)
    else pure []

/-- `do6502Frame` -/
def log6502Frame : C (Int × Log) := do
  beginFrame
  let ntsc ← get (·.info.ntsc)
  let log ← logLoop (frameCycles ntsc) (frameFuel (frameCycles ntsc))
  finishFrame (frameCycles ntsc)
  pure (frameCycles ntsc, log)

/-- `doFrame` -/
def logFrame : C (Int × Log) := do
  modify fun m => { m with external := false }
  startChips
  let r ← log6502Frame
  endChips r.1
  pure r

/-- `generateLoop` -/
def logGenerateLoop (format : SampleFormat) : Nat → Int → C ((List Int × Int) × Log)
  | 0, _ => fail .fuel
  | fuel + 1, left => do
    let r ← generateBlocks left format
    if r.2 ≥ left then pure (r, [])
    else do
      let f ← logFrame
      let goOn ← listen f.1
      if goOn = true then do
        let t ← logGenerateLoop format fuel (left - r.2)
        pure ((r.1 ++ t.1.1, r.2 + t.1.2), f.2 ++ t.2)
      else pure (r, f.2)

/-- `generate` -/
def logGenerate (bufferLen : Int) (format : SampleFormat) : C ((List Int × Int) × Log) := do
  let stop ← get fun m => decide (m.silence > 0 ∧ m.silenceLeft ≤ 0)
  if stop = true then pure (([], 0), [])
  else do
    let shift ← get fun m => blockShift m.info.channels format
    let blocks ← get fun m => wantedBlocks m bufferLen format
    let r ← logGenerateLoop format (blocks.toNat + 3) blocks
    pure ((r.1.1, shl r.1.2 shift), r.2)

/-- Successive calls of `Generate`, as `generateEach`. -/
def logEach (format : SampleFormat) : List Int → C (List (List Int × Int) × Log)
  | [] => pure ([], [])
  | len :: lens => do
    let r ← logGenerate len format
    let rs ← logEach format lens
    pure (r.1 :: rs.1, r.2 ++ rs.2)

/-- `initFrames` -/
def logInitFrames : Nat → C Log
  | 0 => fail .thrown
  | n + 1 => do
    let r ← log6502Frame
    let pc ← reg (·.pc)
    if pc = 0xd200 then pure r.2
    else do
      let t ← logInitFrames n
      pure (r.2 ++ t)

/-- `do6502Init` -/
def logInit (pc a x y : Int) : C Log := do
  setPc pc
  setA (band a 0xff)
  setX (band x 0xff)
  setY (band y 0xff)
  store 0xd200 0xd2
  store 0x1fe (band (0xd200 - 1) 0xff)
  store 0x1ff (shr (0xd200 - 1) 8)
  setS 0xfd
  logInitFrames 50

/-- `initSong` -/
def logInitSong (song : Int) : C Log := do
  let player ← get (·.info.player)
  let music ← get (·.info.music)
  let init ← get (·.info.init)
  let pos ← get fun m => (m.info.songPos song.toNat : Int)
  let type ← get (·.info.type)
  match type with
  | .sapB => logInit init song 0 0
  | .sapC | .cmc | .cm3 | .cmr | .cms => do
    let a ← logInit (player + 3) 0x70 music (shr music 8)
    let b ← logInit (player + 3) 0 song 0
    pure (a ++ b)
  | .sapD | .sapS => do
    startProgram init song
    pure []
  | .dlt => logInit (player + 0x100) 0 0 pos
  | .mpt => do
    let a ← logInit player 0 (shr music 8) music
    let b ← logInit player 2 pos 0
    pure (a ++ b)
  | .rmt => logInit player pos music (shr music 8)
  | .tmc | .tm2 => do
    let a ← logInit player 0x70 (shr music 8) music
    let b ← logInit player 0 song 0
    setTmc 1
    pure (a ++ b)
  | .fc => logInit player song 0 0

/-- `playSong` -/
def logPlaySong (song duration : Int) : C Log := do
  let songs ← get fun m => (m.info.songs : Int)
  if song < 0 ∨ song ≥ songs then fail .thrown
  else do
    resetSong song duration
    mutePokeyChannels 0xff
    let log ← logInitSong song
    mutePokeyChannels 0
    setNextPlayer 0
    pure log

/-- Scan lines in a frame. -/
def scanLines (ntsc : Bool) : Nat := if ntsc then 262 else 312

/-- The player is called in every `fastplay`-th scan line, beginning with scan line 0, before the end of the scan line.
`i` counts scan lines since the beginning of the song.  The clock counts 114 cycles in each scan line of a frame of `lines`. -/
def EveryFastplay (fastplay : Int) (lines : Nat) (log : Log) : Prop :=
  ∀ (i : Nat) (x : Option Int), log[i]? = some x →
    if fastplay ∣ i then ∃ c, x = some c ∧ 114 * (i % lines : Nat) ≤ c ∧ c < 114 * (i % lines : Nat) + 114 else x = none

end Asap.Spec
