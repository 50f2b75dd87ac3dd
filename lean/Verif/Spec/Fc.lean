/-!
# Future Composer modules, as the player routine plays them

Each of the three channels has a track of 256 lines.  A line is the number of a pattern, or a command.  A pattern is a sequence of
bytes: notes, durations of notes and other commands.
-/

namespace Asap.Spec.Fc

/-- Byte of the module. -/
def byte (m : List Nat) (i : Nat) : Nat := m.getD i 0

/-- A line of a track. -/
def track (m : List Nat) (ch line : Nat) : Nat := byte m (3 + 256 * ch + line)

/-- Where the patterns are: one after the other from 0x383 on, each ends with the byte 0xff. -/
inductive PatternAt (m : List Nat) : Nat → Nat → Prop
  | first : PatternAt m 0 0x383
  | next {p o k} : PatternAt m p o → (∀ j < k, byte m (o + j) ≠ 0xff) → byte m (o + k) = 0xff → PatternAt m (p + 1) (o + k + 1)

/-- `Notes m off duration l`: the notes from the byte `off` of a pattern on last for the numbers of calls of the player in `l`, if the
current duration is `duration`. -/
inductive Notes (m : List Nat) : Nat → Nat → List Nat → Prop
  | done {off duration} : byte m off = 0xff → Notes m off duration []
  | note {off duration l} : byte m off < 0x40 → Notes m (off + 1) duration l → Notes m off duration ((duration + 1) :: l)
  | duration {off duration l} : 0x40 ≤ byte m off → byte m off < 0x60 → Notes m (off + 1) (byte m off - 0x40) l → Notes m off duration l
  | other {off duration l} : 0x60 ≤ byte m off → byte m off ≠ 0xff → Notes m (off + 1) duration l → Notes m off duration l

/-- How a track ends. -/
inductive Ending where
  | stop | loop | off
  deriving DecidableEq

/-- What a channel plays: notes, each with the line it is on and the number of calls it lasts, and the line where the track ends. -/
structure Part where
  notes : List (Nat × Nat)
  ending : Ending
  line : Nat

/-- `Plays m pat ch line part`: what the channel plays from the line on; the patterns are at `pat`. -/
inductive Plays (m : List Nat) (pat : Nat → Nat) (ch : Nat) : Nat → Part → Prop
  | off {line} : 256 ≤ line → Plays m pat ch line ⟨[], .off, line⟩
  | stop {line} : line < 256 → track m ch line = 0xfe → Plays m pat ch line ⟨[], .stop, line⟩
  | loop {line} : line < 256 → track m ch line = 0xff → Plays m pat ch line ⟨[], .loop, line⟩
  | pattern {line l part} : line < 256 → track m ch line < 64 → Notes m (pat (track m ch line)) 0 l → Plays m pat ch (line + 1) part →
      Plays m pat ch line ⟨l.map (fun n => (line, n)) ++ part.notes, part.ending, part.line⟩
  | skip {line part} : line < 256 → track m ch line = 0x40 → Plays m pat ch (line + 2) part → Plays m pat ch line part
  | other {line part} : line < 256 → 0x40 < track m ch line → track m ch line < 0xfe → Plays m pat ch (line + 1) part → Plays m pat ch line part

/-- The number of calls that the notes take. -/
def total : List (Nat × Nat) → Nat
  | [] => 0
  | (_, n) :: l => n + total l

/-- The line after the one played at a time; the line where the track ends if nothing is played any more. -/
def lineAfter : List (Nat × Nat) → Nat → Nat → Nat
  | [], last, _ => last
  | (line, n) :: l, last, t => if t < n then line + 1 else lineAfter l last (t - n)

/-- The song is over at time `t`: a channel has come to a STOP command or to the end of the track, or all channels have ended. -/
def Over (part : Nat → Part) (t : Nat) : Prop :=
  (∃ ch < 3, (part ch).ending ≠ .loop ∧ total (part ch).notes ≤ t) ∨ ∀ ch < 3, total (part ch).notes ≤ t

/-- A song starts with its end. -/
def Empty (m : List Nat) (line : Nat) : Prop := (∃ ch < 3, track m ch line = 0xfe) ∨ ∀ ch < 3, track m ch line = 0xff

/-- `Song m pat line calls loop next`: the song from the line on takes `calls` calls of the player (byte 2 of the module is their number per step
of the song), loops or stops, and the next song starts on line `next`, after all lines played by this one and one with the STOP or LOOP command. -/
inductive Song (m : List Nat) (pat : Nat → Nat) : Nat → Nat → Bool → Nat → Prop
  | empty {line} : Empty m line → Song m pat line 0 true (line + 1)
  | song {line part time loop} : ¬ Empty m line → (∀ ch < 3, Plays m pat ch line (part ch)) →
      Over part time → (∀ t < time, ¬ Over part t) →
      (loop = true ↔ ¬ ∃ ch < 3, (part ch).ending = .stop ∧ total (part ch).notes ≤ time) →
      Song m pat line (time * byte m 2) loop
        (max (lineAfter (part 0).notes (part 0).line time)
          (max (lineAfter (part 1).notes (part 1).line time) (lineAfter (part 2).notes (part 2).line time)) + 1)

/-- `Songs m pat limit line l`: the songs from the line on, with their numbers of calls and whether they loop, but at most `limit`.
A song that runs into the end of the track is not listed. -/
inductive Songs (m : List Nat) (pat : Nat → Nat) : Nat → Nat → List (Nat × Bool) → Prop
  | enough {line} : Songs m pat 0 line []
  | done {limit line} : 256 ≤ line → Songs m pat limit line []
  | last {limit line calls loop next} : line < 256 → Song m pat line calls loop next → 256 < next → Songs m pat limit line []
  | more {limit line calls loop next l} : line < 256 → Song m pat line calls loop next → next ≤ 256 →
      Songs m pat limit next l → Songs m pat (limit + 1) line ((calls, loop) :: l)

end Asap.Spec.Fc
