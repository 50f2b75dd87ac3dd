import Verif.Spec.Pattern

/-!
# Songs of Raster Music Tracker

As the player routine plays them: 6502/rmt.asx:351-493, 591-616.  A song is a sequence of lines with a pattern for each track.  The
events of a row are read from the first track to the last.  A row takes as many frames as the tempo is after its events.

A pattern longer than 256 bytes is read as it is, although the index of the player has 8 bits.  Lines of no rows and a first tempo of
zero count as no time; the player takes 256 rows or frames.
-/

namespace Asap.Spec.Rmt
open Asap.Spec.Pattern (Has offset address byte visit)

variable (m : List Nat)

/-- Who reads the module: ASAP, the player, or both of them in the same way. -/
inductive Reading
  | asap
  | player
  | common
  deriving DecidableEq

/-- The number of rows of a pause of zero; the player counts down to zero before it looks. -/
def zeroPause : Reading → Option Nat
  | .asap => some 1
  | .player => some 256
  | .common => none

/-- A tempo of zero. -/
def zeroTempo : Reading → Option Nat
  | .asap => some 0
  | .player => some 256
  | .common => none

/-- The event read in a row: where the next one is, how many rows later, the instrument of a note, and the volume. -/
structure Event where
  next : Int
  wait : Nat
  note : Option Nat
  volume : Option Nat

/-- `Reads m rd start o t e t'`: the event at offset `o` of the pattern at `start` (`none` ends the line), and the tempo before and after,
rmt.asx:412-493. -/
inductive Reads (rd : Reading) (start : Int) : Int → Nat → Option Event → Nat → Prop
  | note {o b j t} : Has m o b → b % 64 < 61 → Has m (o + 1) j → Reads rd start o t (some ⟨o + 2, 1, some (j / 4), some (b / 64 + 4 * (j % 4))⟩) t
  | volume {o b j t} : Has m o b → b % 64 = 61 → Has m (o + 1) j → Reads rd start o t (some ⟨o + 2, 1, none, some (b / 64 + 4 * (j % 4))⟩) t
  | long {o j t} : Has m o 62 → Has m (o + 1) j → 0 < j → Reads rd start o t (some ⟨o + 2, j, none, none⟩) t
  | zero {o w t} : Has m o 62 → Has m (o + 1) 0 → zeroPause rd = some w → Reads rd start o t (some ⟨o + 2, w, none, none⟩) t
  | pause {o b t} : Has m o b → b % 64 = 62 → 64 ≤ b → Reads rd start o t (some ⟨o + 1, b / 64, none, none⟩) t
  | tempo {o b j t e t'} : Has m o b → b = 63 ∨ b = 127 → Has m (o + 1) j → 0 < j → Reads rd start (o + 2) j e t' → Reads rd start o t e t'
  | fast {o b j t e t'} : Has m o b → b = 63 ∨ b = 127 → Has m (o + 1) 0 → zeroTempo rd = some j → Reads rd start (o + 2) j e t' → Reads rd start o t e t'
  | jump {o} {j : Nat} {t e t'} : Has m o 0xbf → Has m (o + 1) j → Reads rd start (start + j) t e t' → Reads rd start o t e t'
  | stop {o t} : Has m o 0xff → Reads rd start o t none t

/-- What can be heard of a track: the instrument and the frame of the last note, the last volume and its frame. -/
structure Voice where
  instrument : Nat
  since : Nat
  volume : Nat
  changed : Nat

/-- The voice after an event in a row that begins at a frame. -/
def Voice.after (v : Voice) (frame : Nat) (e : Event) : Voice :=
  ⟨e.note.getD v.instrument, if e.note.isSome then frame else v.since, e.volume.getD v.volume, if e.volume.isSome then frame else v.changed⟩

/-- A track: the row of the next event, the pattern, the place in it, the frame of the last note, and the voice as ASAP sees it.  The note
is none of a row that ends the line at once, the voice may be. -/
structure Track where
  due : Nat
  start : Int
  off : Int
  note : Nat
  voice : Voice

/-- Changes one track. -/
def set (vs : Nat → Track) (k : Nat) (v : Track) : Nat → Track := fun ch => if ch = k then v else vs ch

/-- `Row m rd frame row k ch vs t vs' t' stop`: the events of `k` tracks from `ch` on in a row that begins at a frame. -/
inductive Row (rd : Reading) (frame row : Nat) : Nat → Nat → (Nat → Track) → Nat → (Nat → Track) → Nat → Bool → Prop
  | done {ch vs t} : Row rd frame row 0 ch vs t vs t false
  | idle {k ch vs t vs' t' stop} : (vs ch).due ≠ row → Row rd frame row k (ch + 1) vs t vs' t' stop → Row rd frame row (k + 1) ch vs t vs' t' stop
  | event {k ch vs t e t1 vs' t' stop} : (vs ch).due = row → Reads m rd (vs ch).start (vs ch).off t (some e) t1 →
      Row rd frame row k (ch + 1) (set vs ch ⟨row + e.wait, (vs ch).start, e.next, if e.note.isSome then frame else (vs ch).note, (vs ch).voice.after frame e⟩) t1 vs' t' stop →
      Row rd frame row (k + 1) ch vs t vs' t' stop
  | stop {k ch vs t t1} : (vs ch).due = row → Reads m rd (vs ch).start (vs ch).off t none t1 → Row rd frame row (k + 1) ch vs t vs t1 true

/-- The tempo after a row that ends the line at once: the player has not stored a change in the row. -/
def Kept (rd : Reading) (before row after : Nat) : Prop := (rd ≠ .player → after = row) ∧ (rd ≠ .asap → after = before)

/-- `Rows m rd n k row vs t f vs' t' f'`: at most `k` rows of `n` tracks, from number `row` on, with the tempo and the frame before and after. -/
inductive Rows (rd : Reading) (n : Nat) : Nat → Nat → (Nat → Track) → Nat → Nat → (Nat → Track) → Nat → Nat → Prop
  | all {row vs t f} : Rows rd n 0 row vs t f vs t f
  | stop {k row vs t f vs' t1 t'} : Row m rd f row n 0 vs t vs' t1 true → Kept rd t t1 t' →
      Rows rd n (k + 1) row vs t f (fun ch => { vs ch with voice := (vs' ch).voice }) t' f
  | next {k row vs t f vs1 t1 vs' t' f'} : Row m rd f row n 0 vs t vs1 t1 false → Rows rd n k (row + 1) vs1 t1 (f + t1) vs' t' f' →
      Rows rd n (k + 1) row vs t f vs' t' f'

/-- Where the song is in the file. -/
def song : Int := offset m (address m 0x14 0x15)

/-- Where a pattern is in the file. -/
def Begins (p : Nat) (o : Int) : Prop :=
  ∃ lo hi, Has m (offset m (address m 0x10 0x11) + p) lo ∧ Has m (offset m (address m 0x12 0x13) + p) hi ∧ o = offset m (lo + 256 * hi)

/-- A line with a jump has FE, the number of the line and its address.  The player uses the address, ASAP the number. -/
def Jumps (rd : Reading) (n l target : Nat) : Prop :=
  (rd ≠ .player → Has m (song m + l * n + 1) target) ∧
    (rd ≠ .asap → ∃ lo hi, Has m (song m + l * n + 2) lo ∧ Has m (song m + l * n + 3) hi ∧ offset m (lo + 256 * hi) = song m + target * n)

/-- A track at the beginning of a line: FF is no pattern, that is nothing is read in the first 255 rows; for the player FE is a jump in every track. -/
def Enters (rd : Reading) (n l ch : Nat) (v v' : Track) : Prop :=
  (Has m (song m + l * n + ch) 0xff ∧ v' = ⟨255, -1, -1, v.note, v.voice⟩) ∨
    ∃ p o, Has m (song m + l * n + ch) p ∧ p ≠ 0xff ∧ (rd ≠ .asap → p ≠ 0xfe) ∧ Begins m p o ∧ 0 ≤ o ∧ v' = ⟨0, o, o, v.note, v.voice⟩

/-- `Plays m rd n len seen fresh l vs t f ok f' loop seen' vs'`: from line `l` and frame `f` on, the song plays until frame `f'`, when it is over (`loop = false`)
or comes to a line visited before (`loop = true`, unless nothing has been played since).  `ok = false` if there is a pattern before the
module.  `seen` are the lines visited, `fresh` those visited since the last patterns. -/
inductive Plays (rd : Reading) (n : Nat) (len : Int) : (Nat → Bool) → (Nat → Bool) → Nat → (Nat → Track) → Nat → Nat → Bool → Nat → Bool → (Nat → Bool) → (Nat → Track) → Prop
  | over {seen fresh} {l : Nat} {vs t f} : len ≤ l → Plays rd n len seen fresh l vs t f true f false seen vs
  | again {seen fresh} {l : Nat} {vs t f} : (l : Int) < len → seen l = true → Plays rd n len seen fresh l vs t f true f (!fresh l) seen vs
  | jump {seen fresh} {l : Nat} {vs t f target ok f' loop seen' vs'} : (l : Int) < len → seen l = false → Has m (song m + l * n) 0xfe → Jumps m rd n l target →
      Plays rd n len (visit seen l) (visit fresh l) target vs t f ok f' loop seen' vs' → Plays rd n len seen fresh l vs t f ok f' loop seen' vs'
  | broken {seen fresh} {l : Nat} {vs t f ch p o} : (l : Int) < len → seen l = false → ¬ Has m (song m + l * n) 0xfe → ch < n → Has m (song m + l * n + ch) p → p ≠ 0xff →
      Begins m p o → o < 0 → Plays rd n len seen fresh l vs t f false f false (visit seen l) vs
  | line {seen fresh} {l : Nat} {vs t f vs0 vs1 t1 f1 ok f' loop seen' vs'} : (l : Int) < len → seen l = false → ¬ Has m (song m + l * n) 0xfe →
      (∀ ch < n, Enters m rd n l ch (vs ch) (vs0 ch)) → (∀ ch, n ≤ ch → vs0 ch = vs ch) → Rows m rd n (byte m 0xa) 0 vs0 t f vs1 t1 f1 →
      Plays rd n len (visit seen l) (fun _ => false) (l + 1) vs1 t1 f1 ok f' loop seen' vs' → Plays rd n len seen fresh l vs t f ok f' loop seen' vs'

/-- No patterns and no notes yet. -/
def noTracks : Nat → Track := fun _ => ⟨0, -1, -1, 0, ⟨0, 0, 0, 0⟩⟩

/-- A song from its first line, with the tempo in the header. -/
def PlaysFrom (rd : Reading) (n : Nat) (len : Int) (l : Nat) (ok : Bool) (frames : Nat) (loop : Bool) (seen : Nat → Bool) (vs : Nat → Track) : Prop :=
  Plays m rd n len (fun _ => false) (fun _ => false) l noTracks (byte m 0xb) 0 ok frames loop seen vs

/-! The last sound.  It is ASAP's: an instrument without a volume slide is heard for one pass of its envelope, one with a slide until its
volume is at the minimum.  An instrument has the offset of the entry before its envelope, of the last entry and of the entry to loop to at 0, 2 and 3, the
slide and the minimum of the volume at 6 and 7; an entry has three bytes. -/

/-- The envelope of an instrument from the frame of the last volume on: where it is, the first entry read, the entry to loop to, the end, the
slide and the minimum. -/
structure Envelope where
  place : Int
  first : Nat
  loop : Nat
  last : Nat
  slide : Nat
  least : Nat

/-- The number of the entries from the first one to the end. -/
def Envelope.pass (x : Envelope) : Nat := (x.last + 2 - x.first) / 3

/-- The entry of call `k`.  Behind the end, the first one is counted on from the loop. -/
def Envelope.entry (x : Envelope) : Nat → Nat
  | 0 => if x.first < x.last then x.first else x.loop + (x.first - x.last) % (x.last - x.loop)
  | k + 1 => if x.entry k + 3 < x.last then x.entry k + 3 else x.loop

/-- By how much the volume is less in call `k`: by one when 128 and then every time 256 is passed by the sum of the slides since the end
of the envelope. -/
def Envelope.drop (x : Envelope) (k : Nat) : Nat := ((k - x.pass) * x.slide + 127) / 256

/-- Whether call `k` counts: in the first pass, or until the volume has come down to the minimum. -/
def Envelope.counts (x : Envelope) (volume k : Nat) : Prop := k < x.pass ∨ (x.slide ≠ 0 ∧ (x.drop k = 0 ∨ x.least + x.drop k < volume))

/-- Whether call `k` is heard: the volume times the level in the envelope (its high half for the tracks of the second POKEY), divided by 15 and rounded, is not
zero. -/
def Envelope.Loud (x : Envelope) (extra : Bool) (volume k : Nat) : Prop :=
  ∃ b, Has m (x.place + x.entry k) b ∧ 15 ≤ 2 * ((volume - x.drop k) * if extra then b / 16 else b % 16)

/-- The entry of an instrument in the table. -/
def entry (i : Nat) : Int := offset m (address m 0xe 0xf) + 2 * i

/-- The envelope of a voice; `calls` calls were made from the note to the volume. -/
def EnvelopeOf (i calls : Nat) (x : Envelope) : Prop :=
  ∃ lo hi first last, Has m (entry m i) lo ∧ Has m (entry m i + 1) hi ∧ hi ≠ 0 ∧ x.place = offset m (lo + 256 * hi) ∧ Has m x.place first ∧ Has m (x.place + 2) last ∧
    Has m (x.place + 3) x.loop ∧ Has m (x.place + 6) x.slide ∧ Has m (x.place + 7) x.least ∧ x.first = first + 1 + 3 * calls ∧ x.last = last + 3 ∧ x.loop < x.last

/-- No instrument, or an envelope whose loop is behind its end. -/
def Mute (i : Nat) : Prop :=
  Has m (entry m i + 1) 0 ∨ ∃ lo hi last loop, Has m (entry m i) lo ∧ Has m (entry m i + 1) hi ∧ hi ≠ 0 ∧ Has m (offset m (lo + 256 * hi) + 2) last ∧
    Has m (offset m (lo + 256 * hi) + 3) loop ∧ last + 3 ≤ loop

/-- `Fades m rate extra v s`: the frame after the last sound of a voice.  The player is called `rate` times in a frame. -/
inductive Fades (rate : Nat) (extra : Bool) (v : Voice) : Nat → Prop
  | mute : Mute m v.instrument → Fades rate extra v v.since
  | silent {x} : EnvelopeOf m v.instrument ((v.changed - v.since) * rate) x → (∀ k, x.counts v.volume k → ¬ x.Loud m extra v.volume k) →
      Fades rate extra v v.changed
  | heard {x} {k : Nat} : EnvelopeOf m v.instrument ((v.changed - v.since) * rate) x → x.counts v.volume k → x.Loud m extra v.volume k →
      (∀ j, k < j → x.counts v.volume j → ¬ x.Loud m extra v.volume j) → Fades rate extra v (v.since + ((v.changed - v.since) * rate + k + 1) / rate)

/-- The last sound of `n` tracks. -/
def LastSound (n : Nat) (vs : Nat → Track) (sound : Nat) : Prop :=
  (∀ ch < n, ∃ s, s ≤ sound ∧ Fades m (byte m 0xc) (decide (4 ≤ ch)) (vs ch).voice s) ∧
    (sound = 0 ∨ ∃ ch < n, Fades m (byte m 0xc) (decide (4 ≤ ch)) (vs ch).voice sound)

/-- A song: the first line, the frames of its patterns, the frame after the last sound, whether it loops. -/
structure Tune where
  start : Nat
  frames : Nat
  sound : Nat
  loop : Bool

/-- A song with something to hear. -/
def Tune.heard (x : Tune) : Bool := decide (0 < min x.frames x.sound)

/-- Whether ASAP says that it loops: not if the patterns end with more than 100 frames of silence. -/
def Tune.loops (x : Tune) : Bool := x.loop && decide (x.frames ≤ x.sound + 100)

/-- `Tunes m n len k glob l tunes`: the songs that start at line `l` or later, given the lines visited by the songs before, until `k` of them are heard.  A
song begins at every line that no song before it visits.  The last sound is no earlier than the last note of any track. -/
inductive Tunes (n : Nat) (len : Int) : Nat → (Nat → Bool) → Nat → List Tune → Prop
  | full {glob} {l : Nat} : Tunes n len 0 glob l []
  | done {k glob} {l : Nat} : len ≤ l → Tunes n len k glob l []
  | visited {k glob} {l : Nat} {tunes} : (l : Int) < len → glob l = true → Tunes n len k glob (l + 1) tunes → Tunes n len k glob l tunes
  | broken {k glob} {l : Nat} {frames loop seen vs tunes} : (l : Int) < len → glob l = false → PlaysFrom m .asap n len l false frames loop seen vs →
      Tunes n len (k + 1) (fun x => glob x || seen x) (l + 1) tunes → Tunes n len (k + 1) glob l tunes
  | tune {k glob} {l : Nat} {x seen vs tunes} : (l : Int) < len → glob l = false → x.start = l → PlaysFrom m .asap n len l true x.frames x.loop seen vs →
      (∀ ch < n, (vs ch).note ≤ x.sound) → LastSound m n vs x.sound → Tunes n len (if x.heard then k else k + 1) (fun x => glob x || seen x) (l + 1) tunes →
      Tunes n len (k + 1) glob l (x :: tunes)

/-- The number of lines of `n` bytes.  The last line of eight tracks may be a jump of four bytes. -/
def lines (n : Nat) : Int :=
  let bytes : Int := (address m 4 5 : Int) + 1 - address m 0x14 0x15
  (if n = 8 ∧ bytes / 4 % 2 = 1 ∧ byte m (offset m (address m 4 5) - 3).toNat = 0xfe then bytes + 4 else bytes) / n

end Asap.Spec.Rmt
