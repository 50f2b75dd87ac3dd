/-!
# Chaos Music Composer modules (CMC, CM3, CMR, CMS), as the player routine plays them

A song is a sequence of lines, numbered 0 to 84.  A line is three pattern numbers or a command.
-/

namespace Asap.Spec.Cmc

/-- Byte of the module. -/
def byte (m : List Nat) (i : Nat) : Nat := m.getD i 0

/-- The meaning of a line. -/
inductive Cmd where
  | skip
  | stop
  | loop
  | pause (calls : Nat)
  | goto (line : Int)
  | tempo (t : Nat)
  | replay (lines times : Nat)
  | play
  deriving DecidableEq

/-- The command given by the three bytes of a line.  The low bits of the first one are ignored: three of them for a stereo
module, four otherwise. -/
def decode (stereo : Bool) (line : Int) (a b c : Nat) : Cmd :=
  if a = 0xfe ∨ b = 0xfe ∨ c = 0xfe then .skip
  else if stereo then
    if a / 8 = 0x10 then .skip
    else if a / 8 = 0x14 then .skip
    else if a / 8 = 0x12 then .pause (if b < 128 then if c < 128 then b + 50 * c else b else 0)
    else if a / 8 = 0x11 then .stop
    else if a / 8 = 0x13 then .goto b
    else if a / 8 = 0x15 then .goto (line - b)
    else if a / 8 = 0x17 then .goto (line + b)
    else if a / 8 = 0x19 then if b < 128 then .tempo b else .stop
    else if a / 8 = 0x1b then .replay b c
    else if a / 8 = 0x1d then .loop
    else .play
  else
    if a / 16 = 8 then .stop
    else if a / 16 = 9 then .goto b
    else if a / 16 = 10 then .goto (line - b)
    else if a / 16 = 11 then .goto (line + b)
    else if a / 16 = 12 then if b < 128 then .tempo b else .stop
    else if a / 16 = 13 then .replay b c
    else if a / 16 = 14 then .loop
    else .play

/-- The command on a line. -/
def command (stereo : Bool) (m : List Nat) (line : Nat) : Cmd :=
  decode stereo line (byte m (0x206 + line)) (byte m (0x25b + line)) (byte m (0x2b0 + line))

/-- `Plays stereo rows m past now line tempo calls loop`: the song from `line` on takes `calls` calls of the player until it stops
(`loop = false`) or repeats itself (`loop = true`).  `past` are the lines visited before the last line that was played, `now` those visited since: coming back to the former repeats music,
coming back to the latter means that the player is stuck in commands.  Songs with REPLAY commands are not covered. -/
inductive Plays (stereo : Bool) (rows : Nat) (m : List Nat) : (Nat → Bool) → (Nat → Bool) → Int → Nat → Nat → Bool → Prop
  | off {past now line tempo} : (line < 0 ∨ 85 ≤ line) → Plays stereo rows m past now line tempo 0 false
  | again {past now tempo} {line : Nat} : line < 85 → past line = true → Plays stereo rows m past now line tempo 0 true
  | stuck {past now tempo} {line : Nat} : line < 85 → now line = true → Plays stereo rows m past now line tempo 0 false
  | skip {past now tempo calls loop} {line : Nat} : line < 85 → past line = false → now line = false →
      command stereo m line = .skip →
      Plays stereo rows m past (fun l => l = line || now l) (line + 1) tempo calls loop → Plays stereo rows m past now line tempo calls loop
  | stop {past now tempo} {line : Nat} : line < 85 → past line = false → now line = false →
      command stereo m line = .stop → Plays stereo rows m past now line tempo 0 false
  | loop {past now tempo} {line : Nat} : line < 85 → past line = false → now line = false →
      command stereo m line = .loop → Plays stereo rows m past now line tempo 0 true
  | pause {past now tempo n calls loop} {line : Nat} : line < 85 → past line = false → now line = false →
      command stereo m line = .pause n →
      Plays stereo rows m past (fun l => l = line || now l) (line + 1) tempo calls loop → Plays stereo rows m past now line tempo (n + calls) loop
  | goto {past now tempo to calls loop} {line : Nat} : line < 85 → past line = false → now line = false →
      command stereo m line = .goto to →
      Plays stereo rows m past (fun l => l = line || now l) to tempo calls loop → Plays stereo rows m past now line tempo calls loop
  | tempo {past now tempo t calls loop} {line : Nat} : line < 85 → past line = false → now line = false →
      command stereo m line = .tempo t →
      Plays stereo rows m past (fun l => l = line || now l) (line + 1) t calls loop → Plays stereo rows m past now line tempo calls loop
  | play {past now tempo calls loop} {line : Nat} : line < 85 → past line = false → now line = false →
      command stereo m line = .play →
      Plays stereo rows m (fun l => l = line || now l || past l) (fun _ => false) (line + 1) tempo calls loop →
      Plays stereo rows m past now line tempo (tempo * rows + calls) loop

/-- A song from its first line on: nothing has been visited, the tempo is that of the module. -/
def Song (stereo : Bool) (rows : Nat) (m : List Nat) (line calls : Nat) (loop : Bool) : Prop :=
  Plays stereo rows m (fun _ => false) (fun _ => false) line (byte m 0x19) calls loop

/-- Something is played on a line. -/
def Used (stereo : Bool) (m : List Nat) (line : Nat) : Prop :=
  byte m (0x206 + line) < 0xb0 ∨ byte m (0x25b + line) < 0x40 ∨ byte m (0x2b0 + line) < 0x40 ∨
    (stereo = true ∧ (byte m (0x306 + line) < 0xb0 ∨ byte m (0x35b + line) < 0x40 ∨ byte m (0x3b0 + line) < 0x40))

/-- The lines where songs start: the first one, and those after a STOP or LOOP command that is followed by a used line (among the
first 84 lines). -/
def Start (stereo : Bool) (m : List Nat) (line : Nat) : Prop :=
  line = 0 ∨ ∃ p, line = p + 1 ∧ (byte m (0x206 + p) = 0x8f ∨ byte m (0x206 + p) = 0xef) ∧
    ∃ q, p < q ∧ q < 84 ∧ Used stereo m q

/-- The module has no REPLAY command. -/
def NoReplay (stereo : Bool) (m : List Nat) : Prop := ∀ line < 85, ∀ b c, command stereo m line ≠ .replay b c

/-- The song never goes back by a command (but possibly by the repetitions of a REPLAY command). -/
def Forward (stereo : Bool) (m : List Nat) : Prop := ∀ line < 85, ∀ to, command stereo m line = .goto to → (line : Int) ≤ to

end Asap.Spec.Cmc
