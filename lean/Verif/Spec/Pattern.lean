/-!
# Modules with streams of events: Music ProTracker, Theta Music Composer 1.x and 2.x

As the player routines play them: 6502/mpt.asx, 6502/tmc.asx and 6502/tm2.asx.  A song is a sequence of lines.  A line has a pattern
for each channel and lasts a number of rows.  A pattern is a stream of events; an event tells how many rows later the next one of the
channel is, it may change the tempo and it may end the line after the current row.  A row lasts as many calls of the player as the
tempo is after its events, which are read from the last channel to the first.

A pattern longer than 256 bytes is read as it is, although the index of the players has 8 bits.  A tempo of zero counts as no time; the
players take 256 calls.
-/

namespace Asap.Spec.Pattern

variable (m : List Nat)

/-- Byte of the module. -/
def byte (i : Nat) : Nat := m.getD i 0

/-- The module has a byte. -/
def Has (o : Int) (b : Nat) : Prop := 0 ≤ o ∧ m[o.toNat]? = some b

/-- Where in the file is what the player finds at an address: the module begins with six bytes of which the second two are its
address. -/
def offset (address : Nat) : Int := (address : Int) - (byte m 2 + 256 * byte m 3 : Nat) + 6

/-- What is read from a pattern for one row. -/
structure Event where
  /-- where the next event is -/
  next : Int
  /-- how many rows later it is read -/
  wait : Nat
  /-- the distance of events that has been set for the channel -/
  gap : Nat
  /-- a change of the tempo -/
  tempo : Option Nat
  /-- the line ends -/
  stop : Bool

/-- How to read an event, from the distance set and the offset. -/
abbrev Reader := Nat → Int → Event → Prop

/-- A channel: the row of the next event (`none` if the pattern is empty), where it is, and the distance. -/
structure Voice where
  due : Option Nat
  off : Int
  gap : Nat

/-- Changes one voice. -/
def set (vs : Nat → Voice) (k : Nat) (v : Voice) : Nat → Voice := fun ch => if ch = k then v else vs ch

/-- `Row reads row k vs tempo stop vs' tempo' stop'`: the events of channels `k - 1` to `0` in a row. -/
inductive Row (reads : Reader) (row : Nat) : Nat → (Nat → Voice) → Nat → Bool → (Nat → Voice) → Nat → Bool → Prop
  | done {vs t s} : Row reads row 0 vs t s vs t s
  | idle {k vs t s vs' t' s'} : (vs k).due ≠ some row → Row reads row k vs t s vs' t' s' → Row reads row (k + 1) vs t s vs' t' s'
  | event {k vs t s e vs' t' s'} : (vs k).due = some row → reads (vs k).gap (vs k).off e →
      Row reads row k (set vs k ⟨some (row + e.wait), e.next, e.gap⟩) (e.tempo.getD t) (s || e.stop) vs' t' s' → Row reads row (k + 1) vs t s vs' t' s'

/-- `Rows reads k n row vs tempo vs' tempo' calls`: at most `n` rows of `k` channels, from number `row` on, take `calls` calls. -/
inductive Rows (reads : Reader) (k : Nat) : Nat → Nat → (Nat → Voice) → Nat → (Nat → Voice) → Nat → Nat → Prop
  | all {row vs t} : Rows reads k 0 row vs t vs t 0
  | stop {n row vs t vs' t'} : Row reads row k vs t false vs' t' true → Rows reads k (n + 1) row vs t vs' t' t'
  | next {n row vs t vs' t' vs'' t'' calls} : Row reads row k vs t false vs' t' false → Rows reads k n (row + 1) vs' t' vs'' t'' calls →
      Rows reads k (n + 1) row vs t vs'' t'' (t' + calls)

/-- The address from tables of low and high bytes. -/
def address (lo hi : Nat) : Nat := byte m lo + 256 * byte m hi

/-- Milliseconds of calls of a player every so many scan lines of 114 cycles, at 1773447 Hz. -/
def millis (lines : Int) (calls : Nat) : Int := calls * lines * 114000 / 1773447

/-- The first lines of the songs: line 0 and the lines after the jumps and ends that are before the last line played.  Lines are numbered
in `Starts`, positions are in bytes. -/
def Starts (step : Nat) (Jump : Int → Prop) (last : Int) (starts : List Nat) : Prop :=
  starts.Pairwise (· < ·) ∧ ∀ l, l ∈ starts ↔ l = 0 ∨ ∃ k : Nat, l = k + 1 ∧ (step * k : Int) < last ∧ Jump (step * k)

/-! ## Theta Music Composer 1.x -/

/-- The effect of a byte on the tempo; zero ends the line. -/
def tmcTempo (j : Nat) : Option Nat := if j % 128 = 0 then none else some (j % 128 + 1)

/-- Events of tmc.asx:258-313.  `rest` tells how many rows a rest lasts; without it there are no rests. -/
inductive TmcReads (rest : Option (Nat → Nat)) (gap : Nat) : Int → Event → Prop
  | note {o b} : Has m o b → b < 0x40 → TmcReads rest gap o ⟨o + 2, 1, gap, none, false⟩
  | command {o j} : Has m o 0x40 → Has m (o + 1) j → TmcReads rest gap o ⟨if j < 0x80 then o + 2 else o + 3, 1, gap, tmcTempo j, decide (j % 128 = 0)⟩
  | both {o b j} : Has m o b → 0x40 < b → b < 0x80 → Has m (o + 1) j → TmcReads rest gap o ⟨o + 3, 1, gap, tmcTempo j, decide (j % 128 = 0)⟩
  | instrument {o b e} : Has m o b → 0x80 ≤ b → b < 0xc0 → TmcReads rest gap (o + 1) e → TmcReads rest gap o e
  | rest {o b f} : Has m o b → 0xc0 ≤ b → rest = some f → TmcReads rest gap o ⟨o + 1, f b, gap, none, false⟩

/-- The player stores the low six bits and counts down to -1, tmc.asx:249-251, 312-313. -/
def tmcRest (b : Nat) : Nat := b - 0xc0 + 1

/-- The patterns of a line, tmc.asx:207-233, 252-256. -/
def tmcVoices (l : Nat) : Nat → Voice := fun ch =>
  ⟨some 0, offset m (address m (0xa6 + byte m (0x1b5 + 16 * l - 2 * ch)) (0x126 + byte m (0x1b5 + 16 * l - 2 * ch))), 0⟩

/-- No line to play but a jump or the end, tmc.asx:208-211. -/
def TmcJump (l : Int) : Prop := ∃ b, Has m (0x1b5 + l) b ∧ 0x80 ≤ b

/-- `TmcPlays m rest l tempo frames loop`: from line `l` on, the song takes `frames` calls of the player until it ends (`loop = false`)
or jumps (`loop = true`), tmc.asx:190-247. -/
inductive TmcPlays (rest : Option (Nat → Nat)) : Nat → Nat → Nat → Bool → Prop
  | over {l t} : 0x80 ≤ byte m (0x1b5 + 16 * l) → TmcPlays rest l t 0 (decide (byte m (0x1b4 + 16 * l) < 0x80))
  | line {l t vs t' n n' loop} : byte m (0x1b5 + 16 * l) < 0x80 → Rows (TmcReads m rest) 8 64 0 (tmcVoices m l) t vs t' n →
      TmcPlays rest (l + 1) t' n' loop → TmcPlays rest l t (n + n') loop

/-- The position of the last line that is played: going back by lines from the last one before the first instrument. -/
def TmcLast (last : Int) : Prop :=
  ∃ n < 64, byte m (0x66 + n) ≠ 0 ∧ (∀ k < n, byte m (0x66 + k) = 0) ∧
    ∃ k : Nat, last = offset m (address m (0x26 + n) (0x66 + n)) - 0x1b6 - 16 * (k + 1) ∧ (∃ b, Has m (0x1b5 + last) b ∧ b < 0x80) ∧
      ∀ j : Nat, j < k → TmcJump m (offset m (address m (0x26 + n) (0x66 + n)) - 0x1b6 - 16 * (j + 1))

/-! ## Theta Music Composer 2.x -/

/-- Events of tm2.asx:389-573.  `skip` tells if the byte FF is left behind; the player stays at it. -/
inductive Tm2Reads (skip : Int) (gap : Nat) : Int → Event → Prop
  | volume {o} : Has m o 0 → Tm2Reads skip gap o ⟨o + 2, 1, gap, none, false⟩
  | note {o b j} : Has m o b → 0 < b → b < 0x40 → Has m (o + 1) j → Tm2Reads skip gap o ⟨if j < 0x80 then o + 2 else o + 3, 1, gap, none, false⟩
  | noteVolume {o b} : Has m o b → 0x40 ≤ b → b < 0x80 → Tm2Reads skip gap o ⟨o + 2, 1, gap, none, false⟩
  | spaces {o j} : Has m o 0x80 → Has m (o + 1) j → Tm2Reads skip gap o ⟨o + 2, j + 1, gap, none, false⟩
  | pitch {o b} : Has m o b → 0x80 < b → b < 0xc0 → Tm2Reads skip gap o ⟨o + 1, 1, gap, none, false⟩
  | tempo {o b e} : Has m o b → 0xc0 ≤ b → b < 0xd0 → Tm2Reads skip gap (o + 1) e →
      Tm2Reads skip gap o ⟨e.next, e.wait, e.gap, some (e.tempo.getD (b - 0xc0 + 1)), e.stop⟩
  | special {o b} : Has m o b → 0xd0 ≤ b → b < 0xe0 → Tm2Reads skip gap o ⟨o + 2, 1, gap, none, false⟩
  | specialVolume {o b} : Has m o b → 0xe0 ≤ b → b < 0xf0 → Tm2Reads skip gap o ⟨o + 3, 1, gap, none, false⟩
  | few {o b} : Has m o b → 0xf0 ≤ b → b < 0xff → Tm2Reads skip gap o ⟨o + 1, b - 0xf0 + 1, gap, none, false⟩
  | rest {o} : Has m o 0xff → Tm2Reads skip gap o ⟨o + skip, 65, gap, none, false⟩

/-- The patterns of a line, tm2.asx:350-363. -/
def tm2Voices (l : Nat) : Nat → Voice := fun ch =>
  ⟨some 0, offset m (address m (0x106 + byte m (0x395 + 17 * l - 2 * ch)) (0x206 + byte m (0x395 + 17 * l - 2 * ch))), 0⟩

/-- The number of rows of a line; zero ends the song, numbers from 80 are jumps, tm2.asx:343-346. -/
def tm2Rows (l : Nat) : Nat := byte m (0x396 + 17 * l)

/-- No line to play. -/
def Tm2Jump (l : Int) : Prop := ∃ b, Has m (0x396 + l) b ∧ (b = 0 ∨ 0x80 ≤ b)

/-- `Tm2Plays m skip l tempo calls loop`: from line `l` on, the song takes `calls` calls of the player until it ends or jumps,
tm2.asx:328-372. -/
inductive Tm2Plays (skip : Int) : Nat → Nat → Nat → Bool → Prop
  | over {l t} : tm2Rows m l = 0 → Tm2Plays skip l t 0 false
  | jump {l t} : 0x80 ≤ tm2Rows m l → Tm2Plays skip l t 0 true
  | line {l t vs t' n n' loop} : 0 < tm2Rows m l → tm2Rows m l < 0x80 → Rows (Tm2Reads m skip) 8 (tm2Rows m l) 0 (tm2Voices m l) t vs t' n →
      Tm2Plays skip (l + 1) t' n' loop → Tm2Plays skip l t (n + n') loop

/-- An address of an instrument or of a pattern. -/
def Tm2Data (a : Nat) : Prop := a ≠ 0 ∧ ((∃ i < 0x80, a = address m (0x86 + i) (0x306 + i)) ∨ ∃ i < 0x100, a = address m (0x106 + i) (0x206 + i))

/-- The position of the last line that is played: going back by lines from the last one before the data. -/
def Tm2Last (last : Int) : Prop :=
  ∃ least ≤ 0xffff, (least = 0xffff ∨ Tm2Data m least) ∧ (∀ a, Tm2Data m a → least ≤ a) ∧
    ∃ k : Nat, last = offset m least - 0x386 - 17 * (k + 1) ∧ (∃ b, Has m (0x396 + last) b ∧ b ≠ 0 ∧ b < 0x80) ∧
      ∀ j : Nat, j < k → Tm2Jump m (offset m least - 0x386 - 17 * (j + 1))

/-! ## Music ProTracker -/

/-- Events of mpt.asx:275-322. -/
inductive MptReads : Reader
  | note {gap o b} : Has m o b → (b < 0x40 ∨ b = 0xfe) → MptReads gap o ⟨o + 1, gap + 1, gap, none, false⟩
  | instrument {gap o b e} : Has m o b → 0x40 ≤ b → b < 0x80 → MptReads gap (o + 1) e → MptReads gap o e
  | gap {gap o b e} : Has m o b → 0x80 ≤ b → b < 0xc0 → MptReads (b - 0x80) (o + 1) e → MptReads gap o e
  | volume {gap o b e} : Has m o b → 0xc0 ≤ b → b < 0xd0 → MptReads gap (o + 1) e → MptReads gap o e
  | tempo {gap o b e} : Has m o b → 0xd0 ≤ b → b < 0xe0 → MptReads gap (o + 1) e →
      MptReads gap o ⟨e.next, e.wait, e.gap, some (e.tempo.getD (b - 0xd0 + 1)), e.stop⟩
  | stop {gap o b e} : Has m o b → 0xe0 ≤ b → b ≠ 0xfe → MptReads gap (o + 1) e → MptReads gap o ⟨e.next, e.wait, e.gap, e.tempo, true⟩

/-- The entry of a track in a line. -/
def MptEntry (l ch p : Nat) : Prop := Has m (offset m (address m (0x1c6 + ch) (0x1ca + ch)) + 2 * l) p

/-- A voice at the beginning of a pattern, mpt.asx:38-40, 73-85.  A pattern at the beginning of the file counts as empty as well. -/
def mptVoice (p gap : Nat) : Voice :=
  if address m (0x46 + 2 * p) (0x47 + 2 * p) = 0 ∨ offset m (address m (0x46 + 2 * p) (0x47 + 2 * p)) = 0 then ⟨none, 0, gap⟩
  else ⟨some 0, offset m (address m (0x46 + 2 * p) (0x47 + 2 * p)), gap⟩

/-- One more line. -/
def visit (seen : Nat → Bool) (l : Nat) : Nat → Bool := fun k => if k = l then true else seen k

/-- `MptPlays m len seen fresh l vs tempo calls loop seen'`: from line `l` on, the song takes `calls` calls of the player until it stops
(`loop = false`) or comes to a line visited before (`loop = true`, unless nothing has been played since).  `seen` are the lines visited
by the song, `fresh` those visited since the last pattern. -/
inductive MptPlays (len : Int) : (Nat → Bool) → (Nat → Bool) → Nat → (Nat → Voice) → Nat → Nat → Bool → (Nat → Bool) → Prop
  | over {seen fresh} {l : Nat} {vs t} : len ≤ l → MptPlays len seen fresh l vs t 0 false seen
  | again {seen fresh} {l : Nat} {vs t} : (l : Int) < len → seen l = true → MptPlays len seen fresh l vs t 0 (!fresh l) seen
  | jump {seen fresh} {l : Nat} {vs t target calls loop seen'} : (l : Int) < len → seen l = false → Has m (0x1d0 + 2 * l) 0xff → Has m (0x1d1 + 2 * l) target →
      MptPlays len (visit seen l) (visit fresh l) target vs t calls loop seen' → MptPlays len seen fresh l vs t calls loop seen'
  | stop {seen fresh} {l : Nat} {vs t ch p} : (l : Int) < len → seen l = false → ¬ Has m (0x1d0 + 2 * l) 0xff → ch < 4 → MptEntry m l ch p → 0x40 ≤ p →
      MptPlays len seen fresh l vs t 0 false (visit seen l)
  | line {seen fresh} {l : Nat} {vs t vs0 vs' t' n calls loop seen'} : (l : Int) < len → seen l = false → ¬ Has m (0x1d0 + 2 * l) 0xff →
      (∀ ch < 4, ∃ p < 0x40, MptEntry m l ch p ∧ vs0 ch = mptVoice m p (vs ch).gap) →
      Rows (MptReads m) 4 (byte m 0x1ce) 0 vs0 t vs' t' n → MptPlays len (visit seen l) (fun _ => false) (l + 1) vs' t' calls loop seen' →
      MptPlays len seen fresh l vs t (n + calls) loop seen'

/-- A song: where it starts, how many calls of the player it takes and whether it loops. -/
structure Song where
  start : Nat
  calls : Nat
  loop : Bool

/-- The first `n` songs that start at line `l` or later, given the lines visited by the songs before.  A song begins at every line that
no song before it visits; silent ones do not count.  All channels have distance zero at first. -/
inductive MptSongs (len : Int) : Nat → (Nat → Bool) → Nat → List Song → Prop
  | full {glob} {l : Nat} : MptSongs len 0 glob l []
  | done {n glob} {l : Nat} : len ≤ l → MptSongs len n glob l []
  | visited {n glob} {l : Nat} {songs} : (l : Int) < len → glob l = true → MptSongs len n glob (l + 1) songs → MptSongs len n glob l songs
  | silent {n glob} {l : Nat} {vs loop seen songs} : (l : Int) < len → glob l = false → (∀ ch, (vs ch).gap = 0) →
      MptPlays m len (fun _ => false) (fun _ => false) l vs (byte m 0x1cf) 0 loop seen → MptSongs len (n + 1) (fun k => glob k || seen k) (l + 1) songs →
      MptSongs len (n + 1) glob l songs
  | song {n glob} {l : Nat} {vs calls loop seen songs} : (l : Int) < len → glob l = false → (∀ ch, (vs ch).gap = 0) →
      MptPlays m len (fun _ => false) (fun _ => false) l vs (byte m 0x1cf) calls loop seen → 0 < calls →
      MptSongs len n (fun k => glob k || seen k) (l + 1) songs → MptSongs len (n + 1) glob l (⟨l, calls, loop⟩ :: songs)

/-- The number of lines: the distance of the first two tracks. -/
def mptLength : Int := ((address m 0x1c7 0x1cb : Int) - address m 0x1c6 0x1ca) / 2

end Asap.Spec.Pattern
