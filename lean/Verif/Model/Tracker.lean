import Verif.Model.Module

/-!
# Parsers of the native formats with pattern streams: MPT, RMT, TMC and TM2
asapinfo.fu 403-997

Offsets into the module are computed with signed arithmetic from addresses in the file; reading outside the module is `Fault.ub`.
The loops that move through a pattern take fuel; every iteration reads at least one byte at an increasing offset, except for the
jump command of RMT.
-/

namespace Asap.Module
open Asap

/-- The fuel for a loop that reads at increasing offsets, e.g. asapinfo.fu:447-464. -/
def streamFuel (m : List Nat) : Nat := m.length + 1

/-- An address from two tables of low and high bytes, minus `addrToOffset`, e.g. asapinfo.fu:427. -/
def splitAddr (m : List Nat) (lo hi : Int) (addrToOffset : Int) : M Int := do
  let l ← rdI m lo
  let h ← rdI m hi
  .ok ((l : Int) + 256 * (h : Int) - addrToOffset)

/-- The search for the next unvisited position and its song, asapinfo.fu:494-499 and 708-713; `song` is the parser of one song, with
the table of visited positions.  The first argument is the number of positions left. -/
def eachSong (song : Info → (Nat → Bool) → Nat → M (Info × (Nat → Bool))) : Nat → Nat → Info → (Nat → Bool) → M Info
  | 0, _, i, _ => .ok i
  | k + 1, pos, i, seen =>
    if i.songs < maxSongs then
      if seen pos then eachSong song k (pos + 1) i seen
      else do
        let (i, seen) ← song (setSongPos i pos) seen pos
        eachSong song k (pos + 1) i seen
    else .ok i

/-! ## Music ProTracker -/

/-- `patternOffset[ch]`, `blankRows[ch]` and `blankRowsCounter[ch]`, asapinfo.fu:409-411.  Offset and counter are uninitialised
before the first line, but always set before they are used. -/
structure MptCh where
  offset : Int := 0
  blank : Nat := 0
  counter : Int := 0

/-- The commands before a note, asapinfo.fu:447-464: the channel, the tempo and whether `patternRows` has been cleared. -/
def mptCommands (m : List Nat) : Nat → MptCh → Nat → Bool → M (MptCh × Nat × Bool)
  | 0, _, _, _ => .error .fuel
  | fuel + 1, c, tempo, stop => do
    let i ← rdI m c.offset
    let c := { c with offset := c.offset + 1 }
    if i < 0x40 ∨ i = 0xfe then .ok (c, tempo, stop)
    else if i < 0x80 then mptCommands m fuel c tempo stop
    else if i < 0xc0 then mptCommands m fuel { c with blank := i - 0x80 } tempo stop
    else if i < 0xd0 then mptCommands m fuel c tempo stop
    else if i < 0xe0 then mptCommands m fuel c (i - 0xcf) stop
    else mptCommands m fuel c tempo true

/-- One channel in one row, asapinfo.fu:443-465. -/
def mptChannel (m : List Nat) (c : MptCh) (tempo : Nat) (stop : Bool) : M (MptCh × Nat × Bool) :=
  if c.offset = 0 then .ok (c, tempo, stop)
  else if c.counter - 1 ≥ 0 then .ok ({ c with counter := c.counter - 1 }, tempo, stop)
  else do
    let (c, tempo, stop) ← mptCommands m (streamFuel m) { c with counter := c.counter - 1 } tempo stop
    .ok ({ c with counter := c.blank }, tempo, stop)

/-- The channels of a row, asapinfo.fu:442-466; the first argument is the number of channels left. -/
def mptRow (m : List Nat) : Nat → (Nat → MptCh) → Nat → Bool → M ((Nat → MptCh) × Nat × Bool)
  | 0, chs, tempo, stop => .ok (chs, tempo, stop)
  | k + 1, chs, tempo, stop => do
    let (c, tempo, stop) ← mptChannel m (chs k) tempo stop
    mptRow m k (upd chs k c) tempo stop

/-- The rows of a line, asapinfo.fu:441-468; the first argument is the number of rows left. -/
def mptRows (m : List Nat) : Nat → (Nat → MptCh) → Nat → Nat → M ((Nat → MptCh) × Nat × Nat)
  | 0, chs, tempo, calls => .ok (chs, tempo, calls)
  | k + 1, chs, tempo, calls => do
    let (chs, tempo, stop) ← mptRow m 4 chs tempo false
    if stop then .ok (chs, tempo, calls + tempo) else mptRows m k chs tempo (calls + tempo)

/-- The patterns of a line, asapinfo.fu:425-437, or `none` if one of them is no pattern; the first argument is the number of channels
left. -/
def mptLine (m : List Nat) (addrToOffset : Int) (pos : Nat) : Nat → (Nat → MptCh) → M (Option (Nat → MptCh))
  | 0, chs => .ok (some chs)
  | k + 1, chs => do
    let track ← splitAddr m (0x1c6 + k) (0x1ca + k) addrToOffset
    let p ← rdI m (track + pos * 2)
    if p ≥ 0x40 then .ok none
    else do
      let a ← getWord m (0x46 + p * 2)
      mptLine m addrToOffset pos k
        (upd chs k { chs k with offset := if a = 0 then 0 else (a : Int) - addrToOffset, counter := 0 })

/-- The local variables of `ParseMptSong` and `ParseRmtSong` that tell visited lines, asapinfo.fu:408, 573; `global` is the table of the
caller, `loop` whether `Loops[Songs]` has been set.  `seen` holds 0, `SeenThisCall` = 1 or `SeenBefore` = 2, asapinfo.fu:211-213. -/
structure Visits where
  seen : Nat → Nat := fun _ => 0
  glob : Nat → Bool
  loop : Bool := false

/-- A visit, asapinfo.fu:418-419, 587-588.  A line can be visited as its number is less than 256. -/
def Visits.visit (v : Visits) (pos : Nat) : Visits :=
  { v with seen := upd v.seen pos 1, glob := upd v.glob pos true }

/-- A line is played, asapinfo.fu:438-440, 605-607. -/
def Visits.played (v : Visits) (songLen : Int) : Visits :=
  { v with seen := fun k => if (k : Int) < songLen ∧ v.seen k = 1 then 2 else v.seen k }

/-- A line visited before, asapinfo.fu:413-417, 582-586. -/
def Visits.again (v : Visits) (pos : Nat) : Visits := { v with loop := v.loop || decide (v.seen pos ≠ 1) }

/-- The loop of `ParseMptSong`, asapinfo.fu:412-470: the visited lines and the number of calls.  The first argument is fuel; `seen` has 256
entries. -/
def mptLoop (m : List Nat) (addrToOffset songLen : Int) : Nat → Nat → (Nat → MptCh) → Nat → Nat → Visits → M (Visits × Nat)
  | 0, _, _, _, _, _ => .error .fuel
  | fuel + 1, pos, chs, tempo, calls, v =>
    if (pos : Int) < songLen then
      if pos ≥ 256 then .error .ub
      else if v.seen pos ≠ 0 then .ok (v.again pos, calls)
      else do
        let i ← rd m (0x1d0 + pos * 2)
        if i = 0xff then do
          let p ← rd m (0x1d1 + pos * 2)
          mptLoop m addrToOffset songLen fuel p chs tempo calls (v.visit pos)
        else do
          let line ← mptLine m addrToOffset pos 4 chs
          match line with
          | none => .ok (v.visit pos, calls)
          | some chs => do
            let rows ← rd m 0x1ce
            let (chs, tempo, calls) ← mptRows m rows chs tempo calls
            mptLoop m addrToOffset songLen fuel (pos + 1) chs tempo calls ((v.visit pos).played songLen)
    else .ok (v, calls)

/-- `Loops[Songs] = true` if a loop was found, and `AddSong` if something is played, e.g. asapinfo.fu:415, 471-472. -/
def addFound (i : Info) (loop : Bool) (calls : Nat) : M Info :=
  if calls > 0 then addSong (if loop then setLoops i true else i) calls
  else .ok (if loop then setLoops i true else i)

/-- `ParseMptSong`, asapinfo.fu:403-473. -/
def parseMptSong (m : List Nat) (songLen : Int) (i : Info) (glob : Nat → Bool) (pos : Nat) : M (Info × (Nat → Bool)) := do
  let a ← getWord m 2
  let tempo ← rd m 0x1cf
  let (v, calls) ← mptLoop m ((a : Int) - 6) songLen 257 pos (fun _ => {}) tempo 0 { glob := glob }
  let i ← addFound i v.loop calls
  .ok (i, v.glob)

/-- `ParseMpt`, asapinfo.fu:475-502. -/
def parseMpt (i : Info) (m : List Nat) : M Info :=
  if m.length < 0x1d0 then raise "Module too short"
  else do
    let music ← parseModule false m
    let a ← getWord m 2
    let track0 ← splitAddr m 0x1c6 0x1ca 0
    if track0 ≠ (a : Int) + 0x1ca then raise "Invalid address of the first track"
    else do
      let track1 ← splitAddr m 0x1c7 0x1cb 0
      let songLen := (track1 - track0) / 2
      if songLen > 0xfe then raise "Song too long"
      else do
        let i ← eachSong (parseMptSong m songLen) songLen.toNat 0 { i with type := .mpt, music := music, songs := 0 } (fun _ => false)
        if i.songs = 0 then raise "No songs found" else .ok i

/-! ## Raster Music Tracker -/

/-- `rmtVolumeSilent`, asapinfo.fu:521. -/
def rmtVolumeSilent : List Nat := [16, 8, 4, 3, 2, 2, 2, 2, 1, 1, 1, 1, 1, 1, 1, 1]

/-- The test of one volume of an instrument, asapinfo.fu:526-529, 546-549. -/
def rmtLoud (m : List Nat) (instrument : Int) (index : Int) (volume : Int) (extra : Bool) : M Bool := do
  let vol ← rdI m (instrument + index)
  let limit ← rdI rmtVolumeSilent volume
  .ok (decide ((if extra then vol / 16 else vol) % 16 ≥ limit))

/-- The first loop of `GetRmtInstrumentFrames`, asapinfo.fu:525-533: `playerCall`, `playerCalls` and `index`. -/
def rmtAttack (m : List Nat) (instrument indexEnd volume : Int) (extra : Bool) : Nat → Int → Int → Int → M (Int × Int × Int)
  | 0, _, _, _ => .error .fuel
  | fuel + 1, call, calls, index => do
    let loud ← rmtLoud m instrument index volume extra
    if index + 3 < indexEnd then rmtAttack m instrument indexEnd volume extra fuel (call + 1) (if loud then call + 1 else calls) (index + 3)
    else .ok (call + 1, (if loud then call + 1 else calls), index + 3)

/-- The second loop, asapinfo.fu:539-561: `playerCalls`. -/
def rmtDecay (m : List Nat) (instrument indexEnd indexLoop depth volumeMin : Int) (extra : Bool) :
    Nat → Int → Int → Int → Int → Int → Bool → M Int
  | 0, _, _, _, _, _, _ => .error .fuel
  | fuel + 1, call, calls, index, volume, slide, silent =>
    if index ≥ indexEnd ∧ silent = true then .ok calls
    else
      let index' := if index ≥ indexEnd then indexLoop else index
      let silent' := silent || decide (index ≥ indexEnd)
      do
        let loud ← rmtLoud m instrument index' volume extra
        let calls := if loud then call + 1 else calls
        let slide := slide - depth
        if slide < 0 then
          if volume - 1 ≤ volumeMin then .ok calls
          else rmtDecay m instrument indexEnd indexLoop depth volumeMin extra fuel (call + 1) calls (index' + 3) (volume - 1) (slide + 256) (silent' && !loud)
        else rmtDecay m instrument indexEnd indexLoop depth volumeMin extra fuel (call + 1) calls (index' + 3) volume slide (silent' && !loud)

/-- The volumes from the current frame to the end of the instrument, asapinfo.fu:522-534: `playerCall`, `playerCalls` and `index`. -/
def rmtFirst (m : List Nat) (instrument indexEnd indexLoop volume : Int) (extra : Bool) (call index : Int) : M (Int × Int × Int) :=
  if index ≥ indexEnd then .ok (call, call, Int.tmod (index - indexEnd) (indexEnd - indexLoop) + indexLoop)
  else rmtAttack m instrument indexEnd volume extra 100 call call index

/-- `GetRmtInstrumentFrames`, asapinfo.fu:504-563. -/
def getRmtInstrumentFrames (m : List Nat) (instrument : Nat) (volume volumeFrame : Int) (extra : Bool) : M Int := do
  let a ← getWord m 2
  let addrToOffset := (a : Int) - 6
  let table ← getWord m 0xe
  let entry := (table : Int) - addrToOffset + (instrument : Int) * 2
  let hi ← rdI m (entry + 1)
  if hi = 0 then .ok 0
  else do
    let addr ← getWordI m entry
    let instrument := (addr : Int) - addrToOffset
    let perFrame ← rd m 0xc
    let first ← rdI m instrument
    let last ← rdI m (instrument + 2)
    let indexLoop ← rdI m (instrument + 3)
    if (indexLoop : Int) ≥ last + 3 then .ok 0
    else do
      let depth ← rdI m (instrument + 6)
      let volumeMin ← rdI m (instrument + 7)
      let call := volumeFrame * perFrame
      let (call, calls, index) ← rmtFirst m instrument (last + 3) indexLoop volume extra call (first + 1 + call * 3)
      if depth = 0 then .ok (Int.tdiv calls perFrame)
      else do
        let calls ← rmtDecay m instrument (last + 3) indexLoop depth volumeMin extra 5000 call calls index volume 128 false
        .ok (Int.tdiv calls perFrame)

/-- The variables of one channel in `ParseRmtSong`, asapinfo.fu:574-580.  `patternBegin` and `patternOffset` are uninitialised before the first
pattern; here they are −1, so that their use would be a fault. -/
structure RmtCh where
  start : Int := -1
  offset : Int := -1
  blank : Int := 0
  instrument : Nat := 0
  instrumentFrame : Nat := 0
  volume : Nat := 0
  volumeFrame : Nat := 0

/-- The commands up to a note, asapinfo.fu:612-643: the channel, the tempo and whether the pattern ends here.  The first argument is
fuel: because of the jump command, 0xbf, the loop may run forever. -/
def rmtCommands (m : List Nat) (frames : Nat) : Nat → RmtCh → Nat → M (RmtCh × Nat × Bool)
  | 0, _, _ => .error .fuel
  | fuel + 1, c, tempo => do
    let i ← rdI m c.offset
    if i % 64 < 62 then do
      let j ← rdI m (c.offset + 1)
      let w := i + 256 * j
      let c := { c with offset := c.offset + 2, volume := w / 64 % 16, volumeFrame := frames }
      .ok (if i % 64 ≠ 61 then { c with instrument := w / 1024, instrumentFrame := frames } else c, tempo, false)
    else if i = 62 then do
      let j ← rdI m (c.offset + 1)
      .ok ({ c with offset := c.offset + 2, blank := j }, tempo, false)
    else if i % 64 = 62 then .ok ({ c with offset := c.offset + 1, blank := i / 64 }, tempo, false)
    else if i = 63 ∨ i = 127 then do
      let j ← rdI m (c.offset + 1)
      rmtCommands m frames fuel { c with offset := c.offset + 2 } j
    else if i = 0xbf then do
      let j ← rdI m (c.offset + 1)
      rmtCommands m frames fuel { c with offset := c.start + j } tempo
    else .ok ({ c with offset := c.offset + 1 }, tempo, true)

/-- The channels of a row, asapinfo.fu:609-646; the first argument is fuel, the second one the number of channels left. -/
def rmtRow (m : List Nat) (fuel frames : Nat) : Nat → Nat → (Nat → RmtCh) → Nat → M ((Nat → RmtCh) × Nat × Bool)
  | 0, _, chs, tempo => .ok (chs, tempo, false)
  | k + 1, ch, chs, tempo =>
    let c := { chs ch with blank := (chs ch).blank - 1 }
    if c.blank > 0 then rmtRow m fuel frames k (ch + 1) (upd chs ch c) tempo
    else do
      let (c, tempo, stop) ← rmtCommands m frames fuel c tempo
      if stop then .ok (upd chs ch c, tempo, true)
      else rmtRow m fuel frames k (ch + 1) (upd chs ch c) tempo

/-- The rows of a line, asapinfo.fu:608-649. -/
def rmtRows (m : List Nat) (fuel channels : Nat) : Nat → (Nat → RmtCh) → Nat → Nat → M ((Nat → RmtCh) × Nat × Nat)
  | 0, chs, tempo, frames => .ok (chs, tempo, frames)
  | k + 1, chs, tempo, frames => do
    let (chs, tempo, stop) ← rmtRow m fuel frames channels 0 chs tempo
    if stop then .ok (chs, tempo, frames) else rmtRows m fuel channels k chs tempo (frames + tempo)

/-- The patterns of a line, asapinfo.fu:593-604, or `none` if one of them lies before the module. -/
def rmtLine (m : List Nat) (addrToOffset line lo hi : Int) : Nat → Nat → (Nat → RmtCh) → M (Option (Nat → RmtCh))
  | 0, _, chs => .ok (some chs)
  | k + 1, ch, chs => do
    let p ← rdI m (line + ch)
    if p = 0xff then rmtLine m addrToOffset line lo hi k (ch + 1) (upd chs ch { chs ch with blank := 256 })
    else do
      let off ← splitAddr m (lo + p) (hi + p) addrToOffset
      if off < 0 then .ok none
      else rmtLine m addrToOffset line lo hi k (ch + 1) (upd chs ch { chs ch with start := off, offset := off, blank := 0 })

/-- The variables of `ParseRmtSong` that do not change, asapinfo.fu:567-572, and its parameters. -/
structure RmtSong where
  addrToOffset : Int
  song : Int
  lo : Int
  hi : Int
  channels : Nat
  songLen : Int

/-- The loop of `ParseRmtSong`, asapinfo.fu:581-651: the channels, the number of frames and the visited lines; `none` for the
channels after the `return` at asapinfo.fu:601.  The first argument is fuel for the lines, the second one for commands. -/
def rmtLoop (m : List Nat) (r : RmtSong) : Nat → Nat → Nat → (Nat → RmtCh) → Nat → Nat → Visits →
    M (Option (Nat → RmtCh) × Nat × Visits)
  | 0, _, _, _, _, _, _ => .error .fuel
  | lines + 1, fuel, pos, chs, tempo, frames, v =>
    if (pos : Int) < r.songLen then
      if pos ≥ 256 then .error .ub
      else if v.seen pos ≠ 0 then .ok (some chs, frames, v.again pos)
      else do
        let i ← rdI m (r.song + pos * r.channels)
        if i = 0xfe then do
          let p ← rdI m (r.song + pos * r.channels + 1)
          rmtLoop m r lines fuel p chs tempo frames (v.visit pos)
        else do
          let line ← rmtLine m r.addrToOffset (r.song + pos * r.channels) r.lo r.hi r.channels 0 chs
          match line with
          | none => .ok (none, frames, v.visit pos)
          | some chs => do
            let rows ← rd m 0xa
            let (chs, tempo, frames) ← rmtRows m fuel r.channels rows chs tempo frames
            rmtLoop m r lines fuel (pos + 1) chs tempo frames ((v.visit pos).played r.songLen)
    else .ok (some chs, frames, v)

/-- The frame of the last sound, asapinfo.fu:652-658. -/
def rmtLastFrame (m : List Nat) (chs : Nat → RmtCh) : Nat → Nat → Int → M Int
  | 0, _, last => .ok last
  | k + 1, ch, last => do
    let c := chs ch
    let n ← getRmtInstrumentFrames m c.instrument c.volume ((c.volumeFrame : Int) - c.instrumentFrame) (decide (ch ≥ 4))
    rmtLastFrame m chs k (ch + 1) (if last < c.instrumentFrame + n then c.instrumentFrame + n else last)

/-- The end of `ParseRmtSong`, asapinfo.fu:659-665. -/
def rmtFinish (i : Info) (loop : Bool) (frames last : Int) : M Info :=
  if frames > last then
    let i := if loop && decide (¬ frames - last > 100) then setLoops i true
      else if frames - last > 100 then setLoops i false else i
    if last > 0 then addSong i last else .ok i
  else
    let i := if loop then setLoops i true else i
    if frames > 0 then addSong i frames else .ok i

/-- `ParseRmtSong`, asapinfo.fu:565-666. -/
def parseRmtSong (fuel : Nat) (m : List Nat) (songLen : Int) (channels : Nat) (i : Info) (glob : Nat → Bool) (pos : Nat) :
    M (Info × (Nat → Bool)) := do
  let a ← getWord m 2
  let tempo ← rd m 0xb
  let song ← getWord m 0x14
  let lo ← getWord m 0x10
  let hi ← getWord m 0x12
  let off := (a : Int) - 6
  let r : RmtSong := { addrToOffset := off, song := song - off, lo := lo - off, hi := hi - off, channels := channels, songLen := songLen }
  let (chs, frames, v) ← rmtLoop m r 257 fuel pos (fun _ => {}) tempo 0 { glob := glob }
  match chs with
  | none => .ok (if v.loop then setLoops i true else i, v.glob)
  | some chs => do
    let last ← rmtLastFrame m chs channels 0 0
    let i ← rmtFinish i v.loop frames last
    .ok (i, v.glob)

/-- `ValidateRmt`, asapinfo.fu:668-675. -/
def validateRmt (m : List Nat) : M Bool :=
  if m.length < 0x30 then .ok false
  else do
    let a ← rd m 6
    let b ← rd m 7
    let c ← rd m 8
    let d ← rd m 0xd
    .ok (decide (a = 82 ∧ b = 77 ∧ c = 84 ∧ d = 1))

/-- `Title` of an RMT module, asapinfo.fu:720-728; the first argument is the number of characters left. -/
def rmtTitle (m : List Nat) (blockLen : Int) : Nat → Nat → M (List Nat)
  | 0, _ => .ok []
  | k + 1, n =>
    if 10 + blockLen + n < m.length then do
      let c ← rdI m (10 + blockLen + n)
      if c = 0 then .ok []
      else do
        let rest ← rmtTitle m blockLen k (n + 1)
        .ok ((if isValidChar c then c else 32) :: rest)
    else .ok []

/-- The number of lines, asapinfo.fu:699-703. -/
def rmtSongLen (m : List Nat) (channels : Nat) (blockLen : Int) : M Int := do
  let last ← getWord m 4
  let song ← getWord m 0x14
  let len := (last : Int) + 1 - song
  if channels = 8 ∧ len / 4 % 2 = 1 then do
    let x ← rdI m (6 + blockLen - 4)
    .ok ((if x = 0xfe then len + 4 else len) / channels)
  else .ok (len / channels)

/-- The rest of `ParseRmt`, asapinfo.fu:694-730. -/
def parseRmtBlock (fuel : Nat) (i : Info) (m : List Nat) (channels : Nat) : M Info := do
  let perFrame ← rd m 0xc
  if perFrame < 1 ∨ perFrame > 4 then raise "Unsupported player call rate"
  else do
    let music ← parseModule true m
    let last ← getWord m 4
    let blockLen := (last : Int) + 1 - music
    let songLen ← rmtSongLen m channels blockLen
    if songLen ≥ 0x100 then raise "Song too long"
    else do
      let i ← eachSong (parseRmtSong fuel m songLen channels) songLen.toNat 0
        { i with type := .rmt, channels := if channels = 8 then 2 else i.channels, music := music, songs := 0 } (fun _ => false)
      if i.songs = 0 then raise "No songs found"
      else do
        let title ← rmtTitle m blockLen maxTextLength 0
        .ok { i with fastplay := (312 : Int) / perFrame, player := 0x600, title := title }

/-- `ParseRmt`, asapinfo.fu:677-731.  The first argument is fuel. -/
def parseRmt (fuel : Nat) (i : Info) (m : List Nat) : M Info := do
  let ok ← validateRmt m
  if ok = false then raise "Invalid RMT file"
  else do
    let x ← rd m 9
    if x = 52 then parseRmtBlock fuel i m 4
    else if x = 56 then parseRmtBlock fuel i m 8
    else raise "Unsupported number of channels"

/-! ## Theta Music Composer -/

/-- `patternOffset[ch]` and `blankRows[ch]`, asapinfo.fu:738-739, 880-881.  They are set before they are used. -/
structure TmcCh where
  offset : Int := -1
  blank : Int := 0

/-- A change of the tempo, or the end of the pattern, asapinfo.fu:758-761, 768-771. -/
def tmcTempo (x tempo : Nat) (stop : Bool) : Nat × Bool := if x % 128 = 0 then (tempo, true) else (x % 128 + 1, stop)

/-- The commands up to a note, asapinfo.fu:750-779: the channel, the tempo and whether `patternRows` has been cleared. -/
def tmcCommands (m : List Nat) : Nat → TmcCh → Nat → Bool → M (TmcCh × Nat × Bool)
  | 0, _, _, _ => .error .fuel
  | fuel + 1, c, tempo, stop => do
    let i ← rdI m c.offset
    if i < 0x40 then .ok ({ c with offset := c.offset + 2 }, tempo, stop)
    else if i = 0x40 then do
      let j ← rdI m (c.offset + 1)
      let t := tmcTempo j tempo stop
      .ok ({ c with offset := if j ≥ 0x80 then c.offset + 3 else c.offset + 2 }, t.1, t.2)
    else if i < 0x80 then do
      let j ← rdI m (c.offset + 1)
      let t := tmcTempo j tempo stop
      .ok ({ c with offset := c.offset + 3 }, t.1, t.2)
    else if i < 0xc0 then tmcCommands m fuel { c with offset := c.offset + 1 } tempo stop
    else .ok ({ c with offset := c.offset + 1, blank := (i : Int) - 0xbf }, tempo, stop)

/-- The channels of a row, asapinfo.fu:747-780, 896-939; `commands` reads a channel. -/
def tmcRow (commands : TmcCh → Nat → Bool → M (TmcCh × Nat × Bool)) : Nat → (Nat → TmcCh) → Nat → Bool → M ((Nat → TmcCh) × Nat × Bool)
  | 0, chs, tempo, stop => .ok (chs, tempo, stop)
  | k + 1, chs, tempo, stop =>
    let c := { chs k with blank := (chs k).blank - 1 }
    if c.blank ≥ 0 then tmcRow commands k (upd chs k c) tempo stop
    else do
      let (c, tempo, stop) ← commands c tempo stop
      tmcRow commands k (upd chs k c) tempo stop

/-- The rows of a line, asapinfo.fu:746-782, 895-941. -/
def tmcRows (commands : TmcCh → Nat → Bool → M (TmcCh × Nat × Bool)) : Nat → (Nat → TmcCh) → Nat → Nat → M (Nat × Nat)
  | 0, _, tempo, frames => .ok (tempo, frames)
  | k + 1, chs, tempo, frames => do
    let (chs, tempo, stop) ← tmcRow commands 8 chs tempo false
    if stop then .ok (tempo, frames + tempo) else tmcRows commands k chs tempo (frames + tempo)

/-- The patterns of a line, asapinfo.fu:741-745, 890-894; the tables are at `line`, `lo` and `hi`. -/
def tmcLine (m : List Nat) (addrToOffset : Int) (line lo hi : Nat) : Nat → (Nat → TmcCh) → M (Nat → TmcCh)
  | 0, chs => .ok chs
  | k + 1, chs => do
    let pat ← rdI m ((line : Int) - 2 * k)
    let off ← splitAddr m (lo + pat) (hi + pat) addrToOffset
    tmcLine m addrToOffset line lo hi k (upd chs k { offset := off, blank := 0 })

/-- The loop of `ParseTmcSong`, asapinfo.fu:740-784: the position after the song and the number of frames. -/
def tmcLoop (m : List Nat) (addrToOffset : Int) : Nat → Nat → Nat → Nat → M (Nat × Nat)
  | 0, _, _, _ => .error .fuel
  | fuel + 1, pos, tempo, frames => do
    let x ← rd m (0x1a6 + 15 + pos)
    if x < 0x80 then do
      let chs ← tmcLine m addrToOffset (0x1a6 + 15 + pos) 0xa6 0x126 8 (fun _ => {})
      let (tempo, frames) ← tmcRows (tmcCommands m (streamFuel m)) 64 chs tempo frames
      tmcLoop m addrToOffset fuel (pos + 16) tempo frames
    else .ok (pos, frames)

/-- `ParseTmcSong`, asapinfo.fu:733-788. -/
def parseTmcSong (m : List Nat) (i : Info) (pos : Nat) : M Info := do
  let a ← getWord m 2
  let tempo ← rd m 0x24
  let (pos, frames) ← tmcLoop m ((a : Int) - 6) (streamFuel m) pos (tempo + 1) 0
  let x ← rd m (0x1a6 + 14 + pos)
  addSong (if x < 0x80 then setLoops i true else i) frames

/-- The last character that is not a space, asapinfo.fu:793-797: the number of characters up to it; the last argument is the number of
characters left. -/
def tmcTitleLength (m : List Nat) (off : Nat) : Nat → M Nat
  | 0 => .ok 0
  | k + 1 => do
    let c ← rd m (off + k)
    if c = 32 then tmcTitleLength m off k else .ok (k + 1)

/-- The conversion of a character, asapinfo.fu:804-828. -/
def tmcChar (x : Nat) : Nat :=
  let c := x % 128
  if c = 20 then 42
  else if c = 1 ∨ c = 3 ∨ c = 5 ∨ c = 12 ∨ c = 14 ∨ c = 15 ∨ c = 19 then c + 96
  else if c = 24 ∨ c = 26 then 122
  else if isValidChar c then c else 32

/-- The characters, asapinfo.fu:803-830. -/
def tmcChars (m : List Nat) : Nat → Nat → M (List Nat)
  | 0, _ => .ok []
  | k + 1, off => do
    let c ← rd m off
    let rest ← tmcChars m k (off + 1)
    .ok (tmcChar c :: rest)

/-- `ParseTmcTitle`, asapinfo.fu:791-832: the title so far, extended.  `title` is an array of 127 bytes. -/
def parseTmcTitle (title m : List Nat) (off : Nat) : M (List Nat) := do
  let n ← tmcTitleLength m off 30
  if n = 0 then .ok title
  else do
    let text ← tmcChars m n off
    let title := (if title.length > 0 then title ++ [32, 124, 32] else title) ++ text
    if title.length > maxTextLength then .error .ub else .ok title

/-- The first instrument, asapinfo.fu:843-848; the first argument is the number of instruments left. -/
def tmcInstrument (m : List Nat) : Nat → Nat → M Nat
  | 0, _ => raise "No instruments"
  | k + 1, i => do
    let x ← rd m (0x66 + i)
    if x = 0 then tmcInstrument m k (i + 1) else .ok i

/-- The loop that skips trailing jumps, asapinfo.fu:853-857, 977-982; `jump` tells if the line at a position is none to play, `step` is
the length of a line. -/
def skipJumps (jump : Int → M Bool) (step : Int) : Nat → Int → M Int
  | 0, _ => .error .fuel
  | fuel + 1, last =>
    if last ≤ 0 then raise "No songs found"
    else do
      let j ← jump (last - step)
      if j then skipJumps jump step fuel (last - step) else .ok (last - step)

/-- The loop over the songs, asapinfo.fu:860-862, 985-989; the first argument is fuel. -/
def afterJumps (jump : Int → M Bool) (step : Nat) (song : Info → Nat → M Info) (last : Int) : Nat → Nat → Info → M Info
  | 0, _, _ => .error .fuel
  | fuel + 1, pos, i =>
    if (pos : Int) < last ∧ i.songs < maxSongs then do
      let j ← jump pos
      if j then do
        let i ← song i (pos + step)
        afterJumps jump step song last fuel (pos + step) i
      else afterJumps jump step song last fuel (pos + step) i
    else .ok i

/-- A line of TMC that is no line to play, asapinfo.fu:857, 861. -/
def tmcJump (m : List Nat) (pos : Int) : M Bool := do
  let x ← rdI m (0x1b5 + pos)
  .ok (decide (x ≥ 0x80))

/-- `ParseTmc`, asapinfo.fu:835-873. -/
def parseTmc (i : Info) (m : List Nat) : M Info :=
  if m.length < 0x1d0 then raise "Module too short"
  else do
    let music ← parseModule false m
    let n ← tmcInstrument m 64 0
    let hi ← rd m (0x66 + n)
    let lo ← rd m (0x26 + n)
    let a ← getWord m 2
    let last := (hi : Int) * 256 + lo - a - 0x1b0
    if 0x1b5 + last ≥ m.length then raise "Module too short"
    else do
      let last ← skipJumps (tmcJump m) 16 (streamFuel m) last
      let i ← parseTmcSong m { i with type := .tmc, music := music, channels := 2, songs := 0 } 0
      let i ← afterJumps (tmcJump m) 16 (parseTmcSong m) last (streamFuel m) 0 i
      let r ← rd m 0x25
      if r < 1 ∨ r > 4 then raise "Unsupported player call rate"
      else do
        let title ← parseTmcTitle [] m 6
        .ok { i with fastplay := (312 : Int) / r, title := title }

/-- The commands up to a note, asapinfo.fu:899-938. -/
def tm2Commands (m : List Nat) : Nat → TmcCh → Nat → Bool → M (TmcCh × Nat × Bool)
  | 0, _, _, _ => .error .fuel
  | fuel + 1, c, tempo, stop => do
    let i ← rdI m c.offset
    if i = 0 then .ok ({ c with offset := c.offset + 2 }, tempo, stop)
    else if i < 0x40 then do
      let j ← rdI m (c.offset + 1)
      .ok ({ c with offset := if j ≥ 0x80 then c.offset + 3 else c.offset + 2 }, tempo, stop)
    else if i < 0x80 then .ok ({ c with offset := c.offset + 2 }, tempo, stop)
    else if i = 0x80 then do
      let j ← rdI m (c.offset + 1)
      .ok ({ c with offset := c.offset + 2, blank := j }, tempo, stop)
    else if i < 0xc0 then .ok ({ c with offset := c.offset + 1 }, tempo, stop)
    else if i < 0xd0 then tm2Commands m fuel { c with offset := c.offset + 1 } (i - 0xbf) stop
    else if i < 0xe0 then .ok ({ c with offset := c.offset + 2 }, tempo, stop)
    else if i < 0xf0 then .ok ({ c with offset := c.offset + 3 }, tempo, stop)
    else if i < 0xff then .ok ({ c with offset := c.offset + 1, blank := (i : Int) - 0xf0 }, tempo, stop)
    else .ok ({ c with offset := c.offset + 1, blank := 64 }, tempo, stop)

/-- The loop of `ParseTm2Song`, asapinfo.fu:882-943: whether the song loops and the number of calls. -/
def tm2Loop (m : List Nat) (addrToOffset : Int) : Nat → Nat → Nat → Nat → M (Bool × Nat)
  | 0, _, _, _ => .error .fuel
  | fuel + 1, pos, tempo, calls => do
    let rows ← rd m (0x386 + 16 + pos)
    if rows = 0 then .ok (false, calls)
    else if rows ≥ 0x80 then .ok (true, calls)
    else do
      let chs ← tmcLine m addrToOffset (0x386 + 15 + pos) 0x106 0x206 8 (fun _ => {})
      let (tempo, calls) ← tmcRows (tm2Commands m (streamFuel m)) rows chs tempo calls
      tm2Loop m addrToOffset fuel (pos + 17) tempo calls

/-- `ParseTm2Song`, asapinfo.fu:875-945. -/
def parseTm2Song (m : List Nat) (i : Info) (pos : Nat) : M Info := do
  let a ← getWord m 2
  let tempo ← rd m 0x24
  let (loop, calls) ← tm2Loop m ((a : Int) - 6) (streamFuel m) pos (tempo + 1) 0
  addSong (if loop then setLoops i true else i) calls

/-- The least nonzero address in a table, asapinfo.fu:962-971; the first argument is the number of entries left. -/
def tm2Least (m : List Nat) (lo hi : Nat) : Nat → Nat → Nat → M Nat
  | 0, _, least => .ok least
  | k + 1, i, least => do
    let l ← rd m (lo + i)
    let h ← rd m (hi + i)
    let a := l + 256 * h
    tm2Least m lo hi k (i + 1) (if a ≠ 0 ∧ a < least then a else least)

/-- A line of TM2 that is no line to play, asapinfo.fu:981-982, 986-987. -/
def tm2Jump (m : List Nat) (pos : Int) : M Bool := do
  let x ← rdI m (0x386 + 16 + pos)
  .ok (decide (x = 0 ∨ x ≥ 0x80))

/-- The title of a TM2 module, asapinfo.fu:991-995. -/
def tm2Title (m : List Nat) : M (List Nat) := do
  let title ← parseTmcTitle [] m 0x27
  let title ← parseTmcTitle title m 0x47
  parseTmcTitle title m 0x67

/-- `ParseTm2`, asapinfo.fu:947-997. -/
def parseTm2 (i : Info) (m : List Nat) : M Info :=
  if m.length < 0x3a4 then raise "Module too short"
  else do
    let music ← parseModule false m
    let r ← rd m 0x25
    if r < 1 ∨ r > 4 then raise "Unsupported player call rate"
    else do
      let stereo ← rd m 0x1f
      let least ← tm2Least m 0x86 0x306 0x80 0 0xffff
      let least ← tm2Least m 0x106 0x206 0x100 0 least
      let a ← getWord m 2
      let last := (least : Int) - (a + 0x380)
      if 0x386 + last ≥ m.length then raise "Module too short"
      else do
        let last ← skipJumps (tm2Jump m) 17 (streamFuel m) last
        let i ← parseTm2Song m
          { i with type := .tm2, music := music, fastplay := (312 : Int) / r, player := 0x800,
                   channels := if stereo ≠ 0 then 2 else i.channels, songs := 0 } 0
        let i ← afterJumps (tm2Jump m) 17 (parseTm2Song m) last (streamFuel m) 0 i
        let title ← tm2Title m
        .ok { i with title := title }

end Asap.Module
