import Verif.Model.Cpu

/-!
# Playback: asap.fu

The state after an exception is not modelled.
-/

namespace Asap.Machine
open C

/-- `NextPlayerCycle = v`, e.g. asap.fu:464. -/
def setNextPlayer (v : Int) : C Unit := modify fun m => { m with nextPlayer := v }
/-- `NextScanlineCycle = v`, e.g. asap.fu:276. -/
def setNextScan (v : Int) : C Unit := modify fun m => { m with nextScan := v }
/-- `NextEventCycle = v`, e.g. asap.fu:275. -/
def setNextEvent (v : Int) : C Unit := modify fun m => { m with nextEvent := v }
/-- `TmcPerFrameCounter = v`, e.g. asap.fu:239. -/
def setTmc (v : Int) : C Unit := modify fun m => { m with tmc := v }
/-- `BlocksPlayed = v`, e.g. asap.fu:492. -/
def setPlayed (v : Int) : C Unit := modify fun m => { m with played := v }
/-- `SilenceCyclesCounter = v`, e.g. asap.fu:397. -/
def setSilenceLeft (v : Int) : C Unit := modify fun m => { m with silenceLeft := v }

/-- `SetSampleRate`, asap.fu:75-78. -/
def setSampleRate (m : Machine) (rate : Int) : Machine := { m with rate := rate }

/-- `DetectSilence`, asap.fu:82-88. -/
def detectSilence (m : Machine) (seconds : Int) : Machine :=
  { m with silence := seconds * 1773447, silenceLeft := seconds * 1773447 }

/-- Stores consecutive bytes, e.g. asap.fu:203-217. -/
def storeCode (addr : Int) : List Int → C Unit
  | [] => pure ()
  | b :: bs => do
    store addr b
    storeCode (addr + 1) bs

/-- `Call6502`, asap.fu:173-181. -/
def call6502 (addr : Int) : C Unit := do
  storeCode 0xd200 [0x20, band addr 0xff, shr addr 8, 0xd2]
  setPc 0xd200

/-- The code that calls the player and returns from the interrupt, asap.fu:203-217. -/
def sapDCode (player : Int) : List Int :=
  [0x08, 0x48, 0x8a, 0x48, 0x98, 0x48, 0x20, band player 0xff, shr player 8, 0x68, 0xa8, 0x68, 0xaa, 0x68, 0x40]

/-- The player of `SapD`, asap.fu:200-219. -/
def callSapD (player : Int) : C Unit :=
  when (player ≥ 0) do
    pushPc
    storeCode 0xd200 (sapDCode player)
    setPc 0xd200

/-- The player of `SapS`, asap.fu:222-225. -/
def callSapS : C Unit := do
  let v ← load 0x45
  store 0x45 (band (v - 1) 0xff)
  when (v - 1 = 0) do
    let w ← load 0xb07b
    store 0xb07b (band (w + 1) 0xff)

/-- The player of `Tmc`, asap.fu:238-243. -/
def callTmc (player : Int) : C Unit := do
  let tmc ← get (·.tmc)
  setTmc (tmc - 1)
  if tmc - 1 ≤ 0 then do
    let music ← get (·.info.music)
    let v ← load (music + 0x1f)
    setTmc v
    call6502 (player + 3)
  else call6502 (player + 6)

/-- `Call6502Player`, asap.fu:183-251. -/
def callPlayer : C Unit := do
  let player ← get (·.info.player)
  let type ← get (·.info.type)
  match type with
  | .sapB => call6502 player
  | .sapC | .cmc | .cm3 | .cmr | .cms => call6502 (player + 6)
  | .sapD => callSapD player
  | .sapS => callSapS
  | .dlt => call6502 (player + 0x103)
  | .mpt | .rmt | .tm2 | .fc => call6502 (player + 3)
  | .tmc => callTmc player

/-- The beginning of a scan line, asap.fu:258-266. -/
def handleScanline : C Unit := do
  let cycle ← reg (·.cycle)
  let nextScan ← get (·.nextScan)
  when (cycle - nextScan < 50) (addCycle 9)
  setNextScan (nextScan + 114)
  let cycle ← reg (·.cycle)
  let nextPlayer ← get (·.nextPlayer)
  when (cycle ≥ nextPlayer) do
    callPlayer
    let nextPlayer ← get (·.nextPlayer)
    let fastplay ← get (·.info.fastplay)
    setNextPlayer (nextPlayer + 114 * fastplay)

/-- The timer interrupts of both chips, asap.fu:267-269. -/
def checkTimers (cycle next : Int) : C Int := chips fun q =>
  let r := q.base.checkIrq cycle next
  let r' := q.extra.checkIrq cycle r.1
  .ok (r'.1, { q with base := r.2, extra := r'.2 })

/-- `HandleEvent`, asap.fu:255-271. -/
def handleEvent : C Unit := do
  let cycle ← reg (·.cycle)
  let nextScan ← get (·.nextScan)
  when (cycle ≥ nextScan) handleScanline
  let cycle ← reg (·.cycle)
  let nextScan ← get (·.nextScan)
  let next ← checkTimers cycle nextScan
  setNextEvent next

/-- One iteration of the loop of `Cpu6502.DoFrame`, cpu6502.fu:273-1048. -/
def cpuStep : C Unit := do
  let cycle ← reg (·.cycle)
  let nextEvent ← get (·.nextEvent)
  when (cycle ≥ nextEvent) do
    handleEvent
    checkIrq
  instruction

/-- The loop of `Cpu6502.DoFrame`, cpu6502.fu:269-1050. -/
def cpuFrame (limit : Int) : Nat → C Unit
  | 0 => do
    let cycle ← reg (·.cycle)
    when (cycle < limit) (fail .fuel)
  | fuel + 1 => do
    let cycle ← reg (·.cycle)
    when (cycle < limit) do
      cpuStep
      cpuFrame limit fuel

/-- Iterations allowed to the loop.  Model only: cpu6502.fu:271 has no bound. -/
def frameFuel (limit : Int) : Nat := ((limit / 114 + 3) * (limit + 1)).toNat

/-- The start of a frame, asap.fu:275-277. -/
def beginFrame : C Unit := modify fun m =>
  { m with nextEvent := 0, nextScan := 0, nmist := if m.nmist = .reset then .onVBlank else .wasVBlank }

/-- Moves times to the next frame, asap.fu:280-288. -/
def finishFrame (cycles : Int) : C Unit := modify fun m =>
  { m with
    cpu := { m.cpu with cycle := m.cpu.cycle - cycles }
    nextPlayer := if m.nextPlayer ≠ never then m.nextPlayer - cycles else m.nextPlayer
    pk := { m.pk with base := m.pk.base.endTimers cycles, extra := m.pk.extra.endTimers cycles }
    told := .frame cycles :: m.told }

/-- `Do6502Frame`, asap.fu:273-290. -/
def do6502Frame : C Int := do
  beginFrame
  let ntsc ← get (·.info.ntsc)
  cpuFrame (frameCycles ntsc) (frameFuel (frameCycles ntsc))
  finishFrame (frameCycles ntsc)
  pure (frameCycles ntsc)

/-- `Pokeys.StartFrame`, asap.fu:295. -/
def startChips : C Unit := chips fun q => do
  let q ← q.startFrame
  .ok ((), q)

/-- `Pokeys.EndFrame`, asap.fu:297. -/
def endChips (cycles : Int) : C Unit := chips fun q => do
  let q ← q.endFrame cycles
  .ok ((), q)

/-- `DoFrame`, asap.fu:292-299. -/
def doFrame : C Int := do
  modify fun m => { m with external := false }
  startChips
  let cycles ← do6502Frame
  endChips cycles
  pure cycles

/-- The frames of `Do6502Init`, asap.fu:366-371. -/
def initFrames : Nat → C Unit
  | 0 => fail .thrown
  | n + 1 => do
    let _ ← do6502Frame
    let pc ← reg (·.pc)
    if pc = 0xd200 then pure () else initFrames n

/-- `Do6502Init`, asap.fu:352-372. -/
def do6502Init (pc a x y : Int) : C Unit := do
  setPc pc
  setA (band a 0xff)
  setX (band x 0xff)
  setY (band y 0xff)
  store 0xd200 0xd2
  store 0x1fe (band (0xd200 - 1) 0xff)
  store 0x1ff (shr (0xd200 - 1) 8)
  setS 0xfd
  initFrames 50

/-- `MutePokeyChannels`, asap.fu:375-381. -/
def mutePokeyChannels (mask : Int) : C Unit := modify fun m =>
  { m with pk := { m.pk with base := m.pk.base.muteAll mask, extra := m.pk.extra.muteAll (shr mask 4) } }

/-- `Cpu.Reset`, cpu6502.fu:65-71. -/
def resetCpu (c : Cpu) : Cpu := { c with cycle := 0, nz := 0, c := 0, vdi := 0 }

/-- The beginning of `PlaySong`, asap.fu:393-406. -/
def resetSong (song duration : Int) : C Unit := modify fun m =>
  { m with
    song := song, duration := duration, nextPlayer := never, played := 0, silenceLeft := m.silence
    cpu := resetCpu m.cpu, nmist := .onVBlank, consol := 8, covox := fun _ => 0x80
    pk := m.pk.initPair m.info.ntsc (decide (m.info.channels > 1)) m.rate
    told := [] }

/-- Starts a program that runs between players, asap.fu:426-430. -/
def startProgram (pc song : Int) : C Unit := do
  setPc pc
  setA song
  setX 0
  setY 0
  setS 0xff

/-- The initialisation of a song, asap.fu:408-462. -/
def initSong (song : Int) : C Unit := do
  let player ← get (·.info.player)
  let music ← get (·.info.music)
  let init ← get (·.info.init)
  let pos ← get fun m => (m.info.songPos song.toNat : Int)
  let type ← get (·.info.type)
  match type with
  | .sapB => do6502Init init song 0 0
  | .sapC | .cmc | .cm3 | .cmr | .cms => do
    do6502Init (player + 3) 0x70 music (shr music 8)
    do6502Init (player + 3) 0 song 0
  | .sapD | .sapS => startProgram init song
  | .dlt => do6502Init (player + 0x100) 0 0 pos
  | .mpt => do
    do6502Init player 0 (shr music 8) music
    do6502Init player 2 pos 0
  | .rmt => do6502Init player pos music (shr music 8)
  | .tmc | .tm2 => do
    do6502Init player 0x70 (shr music 8) music
    do6502Init player 0 song 0
    setTmc 1
  | .fc => do6502Init player song 0 0

/-- `PlaySong`, asap.fu:384-465. -/
def playSong (song duration : Int) : C Unit := do
  let songs ← get fun m => (m.info.songs : Int)
  if song < 0 ∨ song ≥ songs then fail .thrown
  else do
    resetSong song duration
    mutePokeyChannels 0xff
    initSong song
    mutePokeyChannels 0
    setNextPlayer 0

/-- `GetPosition`, asap.fu:472. -/
def getPosition (m : Machine) : Int := Int.tdiv (m.played * 10) (Int.tdiv m.rate 100)

/-- `MillisecondsToBlocks`, asap.fu:474-477. -/
def millisecondsToBlocks (rate milliseconds : Int) : Int := Int.tdiv (milliseconds * rate) 1000

/-- The loop of `SeekSample`, asap.fu:487-490. -/
def seekFrames (block : Int) : Nat → C Unit
  | 0 => do
    let here ← get fun m => m.played + m.pk.readyEnd
    when (here < block) (fail .fuel)
  | fuel + 1 => do
    let here ← get fun m => m.played + m.pk.readyEnd
    when (here < block) do
      setPlayed here
      let _ ← doFrame
      seekFrames block fuel

/-- `PlaySong` at the beginning of `SeekSample`, asap.fu:485-486. -/
def rewind (block : Int) : C Unit := do
  let played ← get (·.played)
  let song ← get (·.song)
  let duration ← get (·.duration)
  when (block < played) (playSong song duration)

/-- The end of `SeekSample`, asap.fu:491-492. -/
def seekTo (block : Int) : C Unit := modify fun m =>
  { m with pk := { m.pk with readyStart := block - m.played }, played := block }

/-- `SeekSample`, asap.fu:480-493. -/
def seekSample (block : Int) : C Unit := do
  rewind block
  let played ← get (·.played)
  seekFrames block ((block - played).toNat + 1)
  seekTo block

/-- `Seek`, asap.fu:496-502. -/
def seek (position : Int) : C Unit := do
  let rate ← get (·.rate)
  seekSample (millisecondsToBlocks rate position)

/-- `blockShift`, asap.fu:596. -/
def blockShift (channels : Nat) (format : SampleFormat) : Nat := channels - (if format = .u8 then 1 else 0)

/-- Silence detection after a frame: does playback go on?  asap.fu:611-619. -/
def listen (cycles : Int) : C Bool := do
  let silence ← get (·.silence)
  if silence > 0 then do
    let quiet ← get fun m => m.pk.isSilent && !m.external
    if quiet = true then do
      let left ← get (·.silenceLeft)
      setSilenceLeft (left - cycles)
      pure (decide (left - cycles > 0))
    else do
      setSilenceLeft silence
      pure true
  else pure true

/-- `Pokeys.Generate` and the update of the position, asap.fu:605-606: the bytes and the number of
blocks. -/
def generateBlocks (blocks : Int) (format : SampleFormat) : C (List Int × Int) := do
  let r ← chips fun q => do
    let r ← q.generate blocks format
    .ok ((r.1, r.2.1), r.2.2)
  let played ← get (·.played)
  setPlayed (played + r.2)
  pure r

/-- The loop of `GenerateAt`, asap.fu:604-620, for `left` blocks: the bytes and the number of blocks. -/
def generateLoop (format : SampleFormat) : Nat → Int → C (List Int × Int)
  | 0, _ => fail .fuel
  | fuel + 1, left => do
    let r ← generateBlocks left format
    if r.2 ≥ left then pure r
    else do
      let cycles ← doFrame
      let goOn ← listen cycles
      if goOn = true then do
        let t ← generateLoop format fuel (left - r.2)
        pure (r.1 ++ t.1, r.2 + t.2)
      else pure r

/-- The number of blocks to generate, asap.fu:597-602. -/
def wantedBlocks (m : Machine) (bufferLen : Int) (format : SampleFormat) : Int :=
  let blocks := shr bufferLen (blockShift m.info.channels format)
  if m.duration > 0 then
    let rest := millisecondsToBlocks m.rate m.duration - m.played
    if blocks > rest then rest else blocks
  else blocks

/-- `Generate` and `GenerateAt`, asap.fu:592-632: the bytes stored from the beginning of the buffer and
the number returned.  The loop is allowed one frame for every requested block and two more. -/
def generate (bufferLen : Int) (format : SampleFormat) : C (List Int × Int) := do
  let stop ← get fun m => decide (m.silence > 0 ∧ m.silenceLeft ≤ 0)
  if stop = true then pure ([], 0)
  else do
    let shift ← get fun m => blockShift m.info.channels format
    let blocks ← get fun m => wantedBlocks m bufferLen format
    let r ← generateLoop format (blocks.toNat + 3) blocks
    pure (r.1, shl r.2 shift)

/-- `GetPokeyChannelVolume`, asap.fu:635-641. -/
def channelVolume (m : Machine) (channel : Int) : Int :=
  let pokey := if band channel 4 = 0 then m.pk.base else m.pk.extra
  band (pokey.ch (band channel 3).toNat).audc 0xf

end Asap.Machine
