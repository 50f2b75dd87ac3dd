import Verif.Model.Info

/-!
# Parsers of the native formats without pattern streams: CMC, DLT and FC
asapinfo.fu 178-401, 999-1126

The module is a list of bytes whose length is `moduleLen`; reading at or beyond it is `Fault.ub`.  Integers are unbounded: that
the C `int` products do not overflow is a separate question (see `DESIGN.md`).
-/

namespace Asap.Module
open Asap

/-- `GetWord` at a signed index, asapinfo.fu:178. -/
def getWordI (m : List Nat) (i : Int) : M Nat := do
  let lo ← rdI m i
  let hi ← rdI m (i + 1)
  .ok (lo + 256 * hi)

/-- Short-circuit conjunction of conditions that read the module, e.g. asapinfo.fu:332-335. -/
def andM (x y : M Bool) : M Bool := do
  let b ← x
  if b then y else .ok false

/-- Short-circuit disjunction, e.g. asapinfo.fu:312-314. -/
def orM (x y : M Bool) : M Bool := do
  let b ← x
  if b then .ok true else y

/-- The two leading bytes, asapinfo.fu:183-184. -/
def goodStart (m : List Nat) : M Bool := do
  let a ← rd m 0
  let b ← rd m 1
  .ok (decide (a = 0xff ∧ b = 0xff) || decide (a = 0 ∧ b = 0))

/-- The optional information block of a Raster Music Tracker module, asapinfo.fu:194-200. -/
def checkRmtInfo (m : List Nat) (music blockLen : Int) : M Unit := do
  let infoAddr ← getWordI m (6 + blockLen)
  if (infoAddr : Int) ≠ music + blockLen then raise "Invalid address of RMT info"
  else do
    let infoLast ← getWordI m (8 + blockLen)
    if 10 + blockLen + ((infoLast : Int) + 1 - infoAddr) ≠ m.length then raise "Invalid RMT info block"
    else .ok ()

/-- The length check, asapinfo.fu:190-201. -/
def checkLength (isRmt : Bool) (m : List Nat) (music blockLen : Int) : M Unit :=
  if 6 + blockLen ≠ m.length then
    if isRmt = false ∨ 11 + blockLen > m.length then raise "Module length doesn't match headers"
    else checkRmtInfo m music blockLen
  else .ok ()

/-- `ParseModule`, asapinfo.fu:180-202: the value of `Music`.  `isRmt` is `Type == Rmt`. -/
def parseModule (isRmt : Bool) (m : List Nat) : M Int := do
  let ok ← goodStart m
  if ok = false then raise "Invalid two leading bytes of the module"
  else do
    let music ← getWord m 2
    let last ← getWord m 4
    if music ≤ 0xd7ff ∧ last ≥ 0xd000 then raise "Module address conflicts with hardware registers"
    else do
      checkLength isRmt m music ((last : Int) + 1 - music)
      .ok (music : Int)

/-- `AddSong`, asapinfo.fu:204-208.  The stores into `Durations[Songs]` and (in the callers) `Loops[Songs]` are inside the
arrays of 32 entries only if there are fewer than 32 songs. -/
def addSong (i : Info) (playerCalls : Int) : M Info :=
  if i.songs < maxSongs then
    .ok { i with
      durations := upd i.durations i.songs (playerCalls * i.fastplay * (114000 / 3) / (1773447 / 3))
      songs := i.songs + 1 }
  else .error .ub

/-- `Loops[Songs] = value`, e.g. asapinfo.fu:233. -/
def setLoops (i : Info) (value : Bool) : Info := { i with loops := upd i.loops i.songs value }

/-- `SongPos[Songs] = pos`, e.g. asapinfo.fu:355. -/
def setSongPos (i : Info) (pos : Nat) : Info := { i with songPos := upd i.songPos i.songs pos }

/-! ## Chaos Music Composer -/

/-- Local variables of `ParseCmcSong`, asapinfo.fu:217-222; `loops` is set when the code does `Loops[Songs] = true`. -/
structure CmcSt where
  pos : Int
  tempo : Nat
  playerCalls : Nat := 0
  repStart : Int := 0
  repEnd : Int := 0
  repTimes : Int := 0
  seen : Nat → Nat := fun _ => 0
  loops : Bool := false

/-- The start of the next repetition, asapinfo.fu:224-230. -/
def cmcRepeat (s : CmcSt) : CmcSt :=
  if s.pos = s.repEnd ∧ s.repTimes > 0 then
    { s with
      seen := fun k => if s.seen k = 1 ∨ s.seen k = 3 then 0 else s.seen k
      repTimes := s.repTimes - 1, pos := s.repStart }
  else s

/-- A line of the song that is played, asapinfo.fu:288-295. -/
def cmcPattern (type : ModType) (s : CmcSt) : CmcSt :=
  { s with
    seen := fun k => if s.seen k = 1 then (if s.repTimes > 0 then 3 else 2) else s.seen k
    playerCalls := s.playerCalls + s.tempo * (if type = .cm3 then 48 else 64)
    pos := s.pos + 1 }

/-- The length of a pause, asapinfo.fu:253-258. -/
def cmcPause (p2 p3 : Nat) : Nat :=
  if p2 < 128 then p2 + (if p3 < 128 then p3 * 50 else 0) else 0

/-- `p1 | mask` for a mask of low bits, asapinfo.fu:244. -/
def cmcCode (type : ModType) (p1 : Nat) : Nat :=
  if type = .cms then p1 / 8 * 8 + 7 else p1 / 16 * 16 + 15

/-- The `switch`, asapinfo.fu:245-296. -/
def cmcCommand (type : ModType) (s : CmcSt) (p1 p2 p3 : Nat) : CmcSt :=
  let c := cmcCode type p1
  if c = 0x87 ∨ c = 0xa7 then { s with pos := s.pos + 1 }
  else if c = 0x8f then { s with pos := -1 }
  else if c = 0x97 then { s with playerCalls := s.playerCalls + cmcPause p2 p3, pos := s.pos + 1 }
  else if c = 0x9f then { s with pos := p2 }
  else if c = 0xaf then { s with pos := s.pos - p2 }
  else if c = 0xbf then { s with pos := s.pos + p2 }
  else if c = 0xcf then
    if p2 < 128 then { s with tempo := p2, pos := s.pos + 1 } else { s with pos := -1 }
  else if c = 0xdf then
    { s with pos := s.pos + 1, repStart := s.pos + 1, repEnd := s.pos + 1 + p2, repTimes := (p3 : Int) - 1 }
  else if c = 0xef then { s with loops := true, pos := -1 }
  else cmcPattern type s

/-- The rest of the loop body, asapinfo.fu:237-296, for a position that has not been seen. -/
def cmcLine (type : ModType) (m : List Nat) (s : CmcSt) : M CmcSt := do
  let p1 ← rdI m (0x206 + s.pos)
  let p2 ← rdI m (0x25b + s.pos)
  let p3 ← rdI m (0x2b0 + s.pos)
  if p1 = 0xfe ∨ p2 = 0xfe ∨ p3 = 0xfe then .ok { s with pos := s.pos + 1 }
  else .ok (cmcCommand type s p1 p2 p3)

/-- `seen[pos]`, asapinfo.fu:231, an array of 0x55 entries. -/
def cmcSeen (s : CmcSt) : M Nat :=
  if 0 ≤ s.pos ∧ s.pos < 0x55 then .ok (s.seen s.pos.toNat) else .error .ub

/-- The loop of `ParseCmcSong`, asapinfo.fu:223-297.  The first argument is fuel: the loop may run forever. -/
def cmcLoop (type : ModType) (m : List Nat) : Nat → CmcSt → M CmcSt
  | 0, _ => .error .fuel
  | fuel + 1, s =>
    if 0 ≤ s.pos ∧ s.pos < 0x55 then
      let s := cmcRepeat s
      do
        let v ← cmcSeen s
        if v ≠ 0 then .ok { s with loops := s.loops || decide (v ≠ 1) }
        else do
          let s ← cmcLine type m { s with seen := upd s.seen s.pos.toNat 1 }
          cmcLoop type m fuel s
    else .ok s

/-- `ParseCmcSong`, asapinfo.fu:215-299.  The assignment to `Loops[Songs]` is delayed to the end of the method. -/
def parseCmcSong (fuel : Nat) (m : List Nat) (i : Info) (pos : Nat) : M Info := do
  let tempo ← rd m 0x19
  let s ← cmcLoop i.type m fuel { pos := pos, tempo := tempo }
  addSong (if s.loops then setLoops i true else i) s.playerCalls

/-- One of the tests of asapinfo.fu:312-320: the line of three bytes from `a`, `b` and `c` on is used. -/
def cmcUsed (m : List Nat) (a b c pos : Nat) : M Bool :=
  orM (do let x ← rd m (a + pos); .ok (decide (x < 0xb0)))
    (orM (do let x ← rd m (b + pos); .ok (decide (x < 0x40))) (do let x ← rd m (c + pos); .ok (decide (x < 0x40))))

/-- The loop looking for the last position, asapinfo.fu:310-322; the argument is `lastPos` before it is decremented. -/
def cmcLastPos (channels : Nat) (m : List Nat) : Nat → M Int
  | 0 => .ok (-1)
  | k + 1 => do
    let left ← cmcUsed m 0x206 0x25b 0x2b0 k
    if left then .ok (k : Int)
    else do
      let right ← if channels = 2 then cmcUsed m 0x306 0x35b 0x3b0 k else .ok false
      if right then .ok (k : Int) else cmcLastPos channels m k

/-- The loop over the further songs, asapinfo.fu:325-327; the last argument is the number of positions left. -/
def cmcSongs (fuel : Nat) (m : List Nat) : Nat → Nat → Info → M Info
  | 0, _, i => .ok i
  | k + 1, pos, i =>
    if i.songs < maxSongs then do
      let x ← rd m (0x206 + pos)
      if x = 0x8f ∨ x = 0xef then do
        let i ← parseCmcSong fuel m i (pos + 1)
        cmcSongs fuel m k (pos + 1) i
      else cmcSongs fuel m k (pos + 1) i
    else .ok i

/-- `ParseCmc`, asapinfo.fu:303-328.  The first argument is the fuel for every song. -/
def parseCmc (fuel : Nat) (i : Info) (m : List Nat) (type : ModType) : M Info :=
  if m.length < 0x306 then raise "Module too short"
  else do
    let music ← parseModule false m
    let i := { i with type := type, music := music, songs := 0 }
    let last ← cmcLastPos i.channels m 0x54
    let i ← parseCmcSong fuel m i 0
    cmcSongs fuel m last.toNat 0 i

/-- The formats that `ParseCmc` reads, asapinfo.fu:1488-1504. -/
inductive CmcKind where
  | cmc | cm3 | cmr | cms | dmc
  deriving DecidableEq

/-- The module type of a format, asapinfo.fu:1488-1504. -/
def CmcKind.type : CmcKind → ModType
  | .cmc => .cmc | .cm3 => .cm3 | .cmr => .cmr | .cms => .cms | .dmc => .cmc

/-- `Load` for these formats, asapinfo.fu:1488-1504: stereo for CMS, two calls per frame for DMC. -/
def loadCmc (fuel : Nat) (kind : CmcKind) (name m : List Nat) : M Info :=
  parseCmc fuel
    { Info.blank name with channels := if kind = .cms then 2 else 1, fastplay := if kind = .dmc then 156 else 312 } m kind.type

/-! ## Delta Music Composer -/

/-- `IsDltTrackEmpty`, asapinfo.fu:330-336. -/
def isDltTrackEmpty (m : List Nat) (pos : Nat) : M Bool :=
  andM (do let x ← rd m (0x2006 + pos); .ok (decide (x ≥ 0x43)))
    (andM (do let x ← rd m (0x2106 + pos); .ok (decide (x ≥ 0x40)))
      (andM (do let x ← rd m (0x2206 + pos); .ok (decide (x ≥ 0x40)))
        (do let x ← rd m (0x2306 + pos); .ok (decide (x ≥ 0x40)))))

/-- The test of one channel, asapinfo.fu:341-346. -/
def dltChannelEnd (m : List Nat) (pos i ch : Nat) : M Bool := do
  let pattern ← rd m (0x2006 + ch * 256 + pos)
  if pattern < 64 then
    andM (do let x ← rd m (6 + pattern * 128 + i * 2); .ok (decide (x < 0x80)))
      (do let x ← rd m (6 + pattern * 128 + i * 2 + 1); .ok (decide (x ≥ 0x80)))
  else .ok false

/-- `IsDltPatternEnd`, asapinfo.fu:338-349: the four channels in turn. -/
def isDltPatternEnd (m : List Nat) (pos i : Nat) : M Bool :=
  orM (dltChannelEnd m pos i 0)
    (orM (dltChannelEnd m pos i 1) (orM (dltChannelEnd m pos i 2) (dltChannelEnd m pos i 3)))

/-- The rows of a line, asapinfo.fu:373-374; the last argument is the number of rows left. -/
def dltRows (m : List Nat) (pos tempo : Nat) : Nat → Nat → Nat → M Nat
  | 0, _, calls => .ok calls
  | k + 1, i, calls => do
    let e ← isDltPatternEnd m pos i
    if e then .ok calls else dltRows m pos tempo k (i + 1) (calls + tempo)

/-- The loop that skips empty lines, asapinfo.fu:353-354; the first argument is the number of positions left. -/
def dltSkip (m : List Nat) : Nat → Nat → (Nat → Bool) → M (Nat × (Nat → Bool))
  | 0, pos, seen => .ok (pos, seen)
  | k + 1, pos, seen =>
    if seen pos then .ok (pos, seen)
    else do
      let e ← isDltTrackEmpty m pos
      if e then dltSkip m k (pos + 1) (upd seen pos true) else .ok (pos, seen)

/-- The variables of `ParseDltSong`, asapinfo.fu:351-358. -/
structure DltSt where
  seen : Nat → Bool
  pos : Nat
  tempo : Nat := 6
  playerCalls : Nat := 0
  loop : Bool := false

/-- A line of the song, asapinfo.fu:368-376. -/
def dltLine (m : List Nat) (s : DltSt) (p1 : Nat) : M DltSt :=
  if p1 = 0x41 then do
    let x ← rd m (0x2086 + s.pos)
    .ok { s with pos := x }
  else if p1 = 0x42 then do
    let x ← rd m (0x2086 + s.pos)
    .ok { s with tempo := x, pos := s.pos + 1 }
  else do
    let calls ← dltRows m s.pos s.tempo 64 0 s.playerCalls
    .ok { s with playerCalls := calls, pos := s.pos + 1 }

/-- The main loop of `ParseDltSong`, asapinfo.fu:359-377.  The first argument is fuel. -/
def dltLoop (m : List Nat) : Nat → DltSt → M DltSt
  | 0, _ => .error .fuel
  | fuel + 1, s =>
    if s.pos < 128 then
      if s.seen s.pos then .ok { s with loop := true }
      else
        let s := { s with seen := upd s.seen s.pos true }
        do
          let p1 ← rd m (0x2006 + s.pos)
          if p1 = 0x40 then .ok s
          else do
            let e ← isDltTrackEmpty m s.pos
            if e then .ok s
            else do
              let s ← dltLine m s p1
              dltLoop m fuel s
    else .ok s

/-- `ParseDltSong`, asapinfo.fu:351-382. -/
def parseDltSong (m : List Nat) (seen : Nat → Bool) (pos : Nat) (i : Info) : M ((Nat → Bool) × Info) := do
  let (pos, seen) ← dltSkip m (128 - pos) pos seen
  let i := setSongPos i pos
  let s ← dltLoop m 130 { seen := seen, pos := pos }
  if s.playerCalls > 0 then do
    let i ← addSong (setLoops i s.loop) s.playerCalls
    .ok (s.seen, i)
  else .ok (s.seen, i)

/-- The loop over the songs, asapinfo.fu:395-398; the first argument is the number of positions left. -/
def dltSongs (m : List Nat) : Nat → Nat → (Nat → Bool) → Info → M Info
  | 0, _, _, i => .ok i
  | k + 1, pos, seen, i =>
    if i.songs < maxSongs then
      if seen pos then dltSongs m k (pos + 1) seen i
      else do
        let (seen, i) ← parseDltSong m seen pos i
        dltSongs m k (pos + 1) seen i
    else .ok i

/-- `ParseDlt`, asapinfo.fu:384-401. -/
def parseDlt (i : Info) (m : List Nat) : M Info :=
  if m.length ≠ 0x2c06 ∧ m.length ≠ 0x2c07 then raise "Invalid module length"
  else do
    let music ← parseModule false m
    if music ≠ 0x2000 then raise "Unsupported module address"
    else do
      let i ← dltSongs m 128 0 (fun _ => false) { i with type := .dlt, music := music, songs := 0 }
      if i.songs = 0 then raise "No songs found" else .ok i

/-! ## Future Composer -/

/-- The loop of `AfterFF`, asapinfo.fu:1002-1005; the first argument is the number of bytes left. -/
def afterFFLoop (m : List Nat) : Nat → Nat → M Nat
  | 0, _ => raise "Module too short"
  | k + 1, off => do
    let x ← rd m off
    if x = 0xff then .ok (off + 1) else afterFFLoop m k (off + 1)

/-- `AfterFF`, asapinfo.fu:999-1007. -/
def afterFF (m : List Nat) (off : Nat) : M Nat := afterFFLoop m (m.length - off) off

/-- The loop over the patterns, asapinfo.fu:1056-1059: the offsets of `k` patterns and the offset after them. -/
def fcPatterns (m : List Nat) : Nat → Nat → M (List Nat × Nat)
  | 0, off => .ok ([], off)
  | k + 1, off => do
    let next ← afterFF m off
    let (l, e) ← fcPatterns m k next
    .ok (off :: l, e)

/-- One channel: the elements of `trackPos`, `patternDelay`, `noteDuration` and `patternPos`, asapinfo.fu:1065-1070.  The
arrays of three are an array of three records. -/
structure FcChan where
  trackPos : Nat
  delay : Int := 0
  duration : Nat := 0
  patternPos : Nat := 0

/-- `GetFcTrackCommand`, asapinfo.fu:1009-1010. -/
def fcCommand (m : List Nat) (n : Nat) (c : FcChan) : M Nat := rd m (3 + n * 256 + c.trackPos)

/-- The loop of `IsFcSongEnd`, asapinfo.fu:1016-1028; the first argument is the number of channels left. -/
def fcSongEndLoop (m : List Nat) (ch : Nat → FcChan) : Nat → Nat → Bool → M Bool
  | 0, _, allLoop => .ok allLoop
  | k + 1, n, allLoop =>
    if (ch n).trackPos ≥ 0x100 then .ok true
    else do
      let c ← fcCommand m n (ch n)
      if c = 0xfe then .ok true else fcSongEndLoop m ch k (n + 1) (allLoop && decide (c = 0xff))

/-- `IsFcSongEnd`, asapinfo.fu:1012-1030. -/
def isFcSongEnd (m : List Nat) (ch : Nat → FcChan) : M Bool := fcSongEndLoop m ch 3 0 true

/-- A pattern command, asapinfo.fu:1083-1095; the boolean tells to leave the loop. -/
def fcPatternCommand (c : FcChan) (x : Nat) : FcChan × Bool :=
  let c := { c with patternPos := c.patternPos + 1 }
  if x < 0x40 then ({ c with delay := c.duration }, true)
  else if x < 0x60 then ({ c with duration := x - 0x40 }, false)
  else if x = 0xff then ({ c with delay := 0, duration := 0, patternPos := 0, trackPos := c.trackPos + 1 }, false)
  else (c, false)

/-- The inner loop, asapinfo.fu:1080-1107: the channel afterwards and whether the song stops here.  The first argument is
fuel. -/
def fcAdvance (m : List Nat) (patterns : List Nat) (n : Nat) : Nat → FcChan → M (FcChan × Bool)
  | 0, _ => .error .fuel
  | fuel + 1, c =>
    if c.trackPos < 0x100 then do
      let t ← fcCommand m n c
      if t < 0x40 then do
        let off ← rd patterns t
        let x ← rd m (off + c.patternPos)
        let (c, done) := fcPatternCommand c x
        if done then .ok (c, false) else fcAdvance m patterns n fuel c
      else if t = 0x40 then fcAdvance m patterns n fuel { c with trackPos := c.trackPos + 2 }
      else if t = 0xfe then .ok (c, true)
      else if t = 0xff then .ok (c, false)
      else fcAdvance m patterns n fuel { c with trackPos := c.trackPos + 1 }
    else .ok (c, false)

/-- Upper bound for the number of steps of the loops asapinfo.fu:1074-1112 and 1080-1107: every step moves one of the three
channels. -/
def fcFuel (m : List Nat) : Nat := 3 * 258 * (m.length + 2) * 40

/-- One channel in one call of the player, asapinfo.fu:1076-1107. -/
def fcChannel (m : List Nat) (patterns : List Nat) (n : Nat) (c : FcChan) : M (FcChan × Bool) := do
  let t ← fcCommand m n c
  if t = 0xff then .ok (c, false)
  else if c.delay > 0 then .ok ({ c with delay := c.delay - 1 }, false)
  else fcAdvance m patterns n (fcFuel m) { c with delay := c.delay - 1 }

/-- The loop over the channels, asapinfo.fu:1075-1108; the first argument is the number of channels left, the boolean is whether
`Loops[Songs]` has been cleared. -/
def fcChannels (m : List Nat) (patterns : List Nat) : Nat → Nat → (Nat → FcChan) → Bool → M ((Nat → FcChan) × Bool)
  | 0, _, ch, stop => .ok (ch, stop)
  | k + 1, n, ch, stop => do
    let (c, b) ← fcChannel m patterns n (ch n)
    fcChannels m patterns k (n + 1) (upd ch n c) (stop || b)

/-- The loop over the calls of the player, asapinfo.fu:1074-1112: the channels, the number of calls and whether `Loops[Songs]` has
been cleared.  The first argument is fuel. -/
def fcPlay (m : List Nat) (patterns : List Nat) : Nat → (Nat → FcChan) → Nat → Bool → M ((Nat → FcChan) × Nat × Bool)
  | 0, _, _, _ => .error .fuel
  | fuel + 1, ch, calls, stop => do
    let e ← isFcSongEnd m ch
    if e then .ok (ch, calls, stop)
    else do
      let (ch, stop) ← fcChannels m patterns 3 0 ch stop
      let e ← isFcSongEnd m ch
      if e then .ok (ch, calls, stop)
      else do
        let x ← rd m 2
        fcPlay m patterns fuel ch (calls + x) stop

/-- The position after a channel, asapinfo.fu:1116-1118. -/
def fcNext (c : FcChan) : Nat := if c.patternPos > 0 then c.trackPos + 1 else c.trackPos

/-- The start of the next song, asapinfo.fu:1114-1122. -/
def fcNextSong (ch : Nat → FcChan) : Nat := max (fcNext (ch 0)) (max (fcNext (ch 1)) (fcNext (ch 2))) + 1

/-- The loop over the songs, asapinfo.fu:1064-1125.  The first argument is fuel. -/
def fcSongs (m : List Nat) (patterns : List Nat) : Nat → Nat → Info → M Info
  | 0, _, _ => .error .fuel
  | fuel + 1, pos, i =>
    if pos < 0x100 ∧ i.songs < maxSongs then do
      let (ch, calls, stop) ← fcPlay m patterns (fcFuel m) (fun _ => { trackPos := pos }) 0 false
      let i := setLoops i (!stop)
      let next := fcNextSong ch
      if next ≤ 0x100 then do
        let i ← addSong i calls
        fcSongs m patterns fuel next i
      else fcSongs m patterns fuel next i
    else .ok i

/-- `ValidateFc`, asapinfo.fu:1032-1039. -/
def validateFc (m : List Nat) : M Bool :=
  if m.length < 0x383 then .ok false
  else do
    let a ← rd m 0
    if a ≠ 0x26 then .ok false
    else do
      let b ← rd m 1
      .ok (decide (b = 0x23))

/-- `ParseFc`, asapinfo.fu:1041-1126. -/
def parseFc (i : Info) (m : List Nat) : M Info := do
  let ok ← validateFc m
  if ok = false then raise "Invalid FC file"
  else do
    let (patterns, off) ← fcPatterns m 0x40 0x383
    let _ ← fcPatterns m 0x20 off
    fcSongs m patterns 300 0 { i with type := .fc, player := 0x400, music := 0xa00, songs := 0, headerLen := -1 }

end Asap.Module
