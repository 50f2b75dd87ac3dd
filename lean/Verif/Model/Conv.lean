import Verif.Model.LoadAny
import Verif.Model.Wav

/-!
# The command-line converter: asapconv.c

Without MP3 output.  Output to files and to the standard output always succeeds; a file can be opened for reading if it exists
and for writing always.  Messages are not modelled.
-/

namespace Asap.Conv

/-- Ways to stop other than returning from `main`: asapconv.c:115-124 (`fatal_error`), undefined behaviour, a loop that does not end. -/
inductive Stop where
  | fatal
  | crash
  | hang
  deriving DecidableEq, Repr

/-- The parsed command line, asapconv.c:49-60. -/
structure Opts where
  output : Option (List Nat) := none
  song : Int := -1
  rate : Int := 44100
  format : SampleFormat := .s16le
  duration : Int := -1
  mute : Int := 0
  author : Option (List Nat) := none
  name : Option (List Nat) := none
  date : Option (List Nat) := none
  tag : Bool := false
  ntsc : Int := -1
  address : Int := -1

/-- The variables of the program, asapconv.c:49-63, with the files by their names and what was sent to the standard output.
`song` is `current_song`. -/
structure Env where
  opts : Opts
  files : List Nat → Option (List Nat)
  stdout : List Nat
  song : Int

/-- Parts of the program, e.g. asapconv.c:560-589.  Files written before the program stops stay written. -/
def P (α : Type) := Env → Except Stop α × Env

/-- Sequencing, e.g. asapconv.c:560-589. -/
def P.bind {α β : Type} (p : P α) (f : α → P β) : P β := fun e =>
  match (p e).1 with
  | .ok a => f a (p e).2
  | .error s => (.error s, (p e).2)

instance : Monad P where
  pure a := fun e => (.ok a, e)
  bind := P.bind

/-- `fatal_error` and others, asapconv.c:115-124. -/
def stop {α : Type} (s : Stop) : P α := fun e => (.error s, e)

/-- Read the variables, e.g. asapconv.c:561. -/
def get {α : Type} (f : Env → α) : P α := fun e => (.ok (f e), e)

/-- Assign to the variables, e.g. asapconv.c:575. -/
def modify (f : Env → Env) : P Unit := fun e => (.ok (), f e)

/-- The outcome of a library function that the program checks: an exception is a fatal error, e.g. asapconv.c:194. -/
def lift {α : Type} (r : M α) : P α := fun e =>
  match r with
  | .ok a => (.ok a, e)
  | .error (.thrown _) => (.error .fatal, e)
  | .error .ub => (.error .crash, e)
  | .error .fuel => (.error .hang, e)

/-- The same for functions of the player, e.g. asapconv.c:334. -/
def liftX {α : Type} (r : X α) : P α := fun e =>
  match r with
  | .ok a => (.ok a, e)
  | .error .thrown => (.error .fatal, e)
  | .error .fuel => (.error .hang, e)
  | .error _ => (.error .crash, e)

/-- `isspace` as used by `strtol`, asapconv.c:131. -/
def isSpace (c : Nat) : Bool := decide (c = 32) || (decide (9 ≤ c) && decide (c ≤ 13))

/-- The value of a digit for `strtol`, asapconv.c:131. -/
def digitValue (c : Nat) : Nat :=
  if 48 ≤ c ∧ c ≤ 57 then c - 48
  else if 65 ≤ c ∧ c ≤ 90 then c - 55
  else if 97 ≤ c ∧ c ≤ 122 then c - 87
  else 99

/-- The digits read by `strtol`, asapconv.c:131: their value and the rest. -/
def strtolDigits (base : Nat) : List Nat → Nat → Nat × List Nat
  | [], v => (v, [])
  | c :: rest, v => if digitValue c < base then strtolDigits base rest (v * base + digitValue c) else (v, c :: rest)

/-- The sign read by `strtol`, asapconv.c:131. -/
def strtolSign : List Nat → Bool × List Nat
  | [] => (false, [])
  | c :: rest => if c = 45 then (true, rest) else if c = 43 then (false, rest) else (false, c :: rest)

/-- `0x` skipped by `strtol` in base 16 if a digit follows, asapconv.c:131. -/
def strtolPrefix (base : Nat) : List Nat → List Nat
  | a :: b :: c :: rest =>
    if base = 16 ∧ a = 48 ∧ (b = 120 ∨ b = 88) ∧ digitValue c < 16 then c :: rest else a :: b :: c :: rest
  | s => s

/-- `strtol`, asapconv.c:131: the number and the rest of the text, which is all of it if there is no number.
Unbounded: all uses of larger numbers are fatal errors (asapconv.c:132). -/
def strtol (s : List Nat) (base : Nat) : Int × List Nat :=
  let signed := strtolSign (s.dropWhile isSpace)
  let digits := strtolPrefix base signed.2
  let r := strtolDigits base digits 0
  if r.2 = digits then (0, s) else (if signed.1 then -(r.1 : Int) else r.1, r.2)

/-- `parse_int`, asapconv.c:126-135.  `NULL` is the argument behind the last one. -/
def parseInt (s : Option (List Nat)) (base : Nat) (max : Int) : P Int :=
  match s with
  | none => stop .crash
  | some s =>
    if s = [] then stop .fatal
    else if (strtol s base).2 ≠ [] ∨ (strtol s base).1 < 0 ∨ (strtol s base).1 > max then stop .fatal
    else pure (strtol s base).1

/-- Change the options, asapconv.c:598-652. -/
def setOpts (f : Opts → Opts) : P Unit := modify fun e => { e with opts := f e.opts }

/-- `set_song`, asapconv.c:137-140. -/
def setSong (s : Option (List Nat)) : P Unit := do
  let v ← parseInt s 10 31
  setOpts fun o => { o with song := v }

/-- `set_sample_rate`, asapconv.c:142-145. -/
def setRate (s : Option (List Nat)) : P Unit := do
  let v ← parseInt s 10 256000
  setOpts fun o => { o with rate := v }

/-- `ASAPInfo_ParseDuration` as seen from C, asapconv.c:149: -1 if it throws. -/
def durationOr (s : List Nat) : Int :=
  match Duration.parseDuration s with
  | .ok v => v
  | .error _ => -1

/-- `set_time`, asapconv.c:147-152. -/
def setTime (s : Option (List Nat)) : P Unit :=
  match s with
  | none => stop .crash
  | some s =>
    if durationOr s ≤ 0 then stop .fatal
    else setOpts fun o => { o with duration := durationOr s }

/-- `set_mute_mask`, asapconv.c:154-161: the loop.  `mask | 1 << n` for each channel. -/
def muteMask : List Nat → Nat → Nat
  | [], mask => mask
  | c :: rest, mask => muteMask rest (if 49 ≤ c ∧ c ≤ 56 then mask ||| 1 <<< (c - 49) else mask)

/-- `set_mute_mask`, asapconv.c:154-161. -/
def setMute (s : Option (List Nat)) : P Unit :=
  match s with
  | none => stop .crash
  | some s => setOpts fun o => { o with mute := muteMask s o.mute.toNat }

/-- `set_music_address`, asapconv.c:163-168. -/
def setAddress (s : List Nat) : P Unit := do
  let v ← parseInt (some (if s.head? = some 36 then s.tail else s)) 16 0xffff
  setOpts fun o => { o with address := v }

/-- A tag given on the command line, asapconv.c:172-185. -/
def applyTag (text : Option (List Nat)) (set : Info → List Nat → M Unit × Info) (info : Info) : P Info :=
  match text with
  | none => pure info
  | some s => do
    lift (set info s).1
    pure (set info s).2

/-- `apply_tags`, asapconv.c:170-185.  The name is used for one file only. -/
def applyTags (info : Info) : P Info := do
  let o ← get (·.opts)
  let info ← applyTag o.author Info.setAuthor info
  let info ← applyTag o.name Info.setTitle info
  setOpts fun o => { o with name := none }
  applyTag o.date Info.setDate info

/-- `load_module`, asapconv.c:187-198.  `blank` is the new player, `fuel` is for `ASAPInfo_Load`. -/
def loadModule (fuel : Nat) (blank : Machine) (input m : List Nat) : P Machine := do
  let o ← get (·.opts)
  let machine ← lift (Loader.load fuel (some input) m (blank.setSampleRate o.rate))
  let info ← applyTags machine.info
  pure { machine with info := info }

/-- `strrchr(s, '.')`: the index, asapconv.c:202 and 230. -/
def lastDot (s : List Nat) : Option Nat :=
  if 46 ∈ s then some (s.length - 1 - s.reverse.idxOf 46) else none

/-- `input_file` behind the last slash or backslash, asapconv.c:209-211. -/
def baseName : List Nat → List Nat → List Nat
  | [], name => name
  | c :: rest, name => if c = 47 ∨ c = 92 then baseName rest rest else baseName rest name

/-- `FILENAME_MAX`, asapconv.c:63, on Linux. -/
def filenameMax : Nat := 4096

/-- Characters of tags that are replaced, asapconv.c:280-292. -/
def cleanChar (c : Nat) : Nat := if (ascii "<>:/\\|?*").contains c then 95 else c

/-- Insertion of a tag, asapconv.c:276-295. -/
def putTag (out : List Nat) : List Nat → P (List Nat)
  | [] => pure out
  | c :: rest => if out.length ≥ filenameMax - 1 then stop .fatal else putTag (out ++ [cleanChar c]) rest

/-- Insertion of the name of the input without the extension, asapconv.c:228-235. -/
def putStem (input out : List Nat) : P (List Nat) :=
  match lastDot input with
  | none => stop .crash
  | some n => if out.length + n ≥ filenameMax then stop .fatal else pure (out ++ input.take n)

/-- `GetTitleOrFilename`, asapinfo.fu:1588. -/
def titleOrFilename (info : Info) : List Nat := if info.title.length > 0 then info.title else info.filename

/-- The number printed by `%d`, asapconv.c:264. -/
def songText (n : Int) : List Nat := (Nat.toDigits 10 n.toNat).map Char.toNat

/-- `%s`, asapconv.c:254-265: the text, or none if there are no more songs. -/
def songTag (info : Info) (allow perSong : Bool) : P (Option (List Nat)) := do
  let e ← get id
  if perSong = true then pure (some (songText (e.song + 1)))
  else if allow = false then stop .fatal
  else if e.opts.song ≥ 0 then stop .fatal
  else do
    modify fun e => { e with song := e.song + 1 }
    if e.song + 1 ≥ info.songs then pure none
    else pure (some (songText (e.song + 1 + 1)))

/-- `%e`, asapconv.c:249-253. -/
def extTag (info : Info) (m : List Nat) : P (List Nat) := do
  let ext ← lift (originalExt info m)
  pure (ext.getD (ascii "unknown"))

/-- The text of a placeholder, asapconv.c:239-275; none if there are no more songs. -/
def tagText (info : Info) (m : List Nat) (allow perSong : Bool) (c : Nat) : P (Option (List Nat)) :=
  if c = 97 then pure (some info.author)
  else if c = 110 then pure (some (titleOrFilename info))
  else if c = 100 then pure (some info.date)
  else if c = 101 then do
    let t ← extTag info m
    pure (some t)
  else if c = 115 then songTag info allow perSong
  else if c = 37 then pure (some [37])
  else stop .fatal

/-- Insertion at the dot of the pattern, asapconv.c:228-235. -/
def putStemAt (here : Bool) (input out : List Nat) : P (List Nat) := if here = true then putStem input out else pure out

/-- The loop over the pattern, asapconv.c:227-302: the name of the output and `file_per_song`, or none if there are no more songs.
`stem` tells that `input` is to be inserted at the last dot. -/
def fillPattern (info : Info) (m input : List Nat) (allow stem : Bool) : List Nat → Bool → List Nat → P (Option (List Nat × Bool))
  | [], perSong, out => pure (some (out, perSong))
  | c :: rest, perSong, out => do
    let out ← putStemAt (stem && decide (c = 46 ∧ 46 ∉ rest)) input out
    if c = 37 then
      match rest with
      | [] => stop .fatal
      | d :: rest => do
        let tag ← tagText info m allow perSong d
        match tag with
        | none => pure none
        | some t => do
          let out ← putTag out t
          fillPattern info m input allow stem rest (perSong || decide (d = 115)) out
    else if out.length ≥ filenameMax - 1 then stop .fatal
    else fillPattern info m input allow stem rest perSong (out ++ [c])

/-- Which song to convert if there is one file, asapconv.c:305-317; false if this was done. -/
def chooseSong (info : Info) : P Bool := do
  let e ← get id
  if e.song ≥ 0 then pure false
  else if e.opts.song < 0 then do
    modify fun e => { e with song := info.defaultSong }
    pure true
  else if e.opts.song ≥ info.songs then stop .fatal
  else do
    modify fun e => { e with song := e.opts.song }
    pure true

/-- Where to write: a file of this name, or the standard output.  asapconv.c:203 and 319-323. -/
structure Target where
  name : List Nat
  stdout : Bool

/-- `fopen(output_file, "wb")`, asapconv.c:319-323. -/
def openTarget (t : Target) : P (Option Target) := do
  modify fun e => if t.stdout = true then e else { e with files := fun n => if n = t.name then some [] else e.files n }
  pure (some t)

/-- The end of `open_output_file`, asapconv.c:305-324. -/
def finishOpen (info : Info) (stdout : Bool) (r : Option (List Nat × Bool)) : P (Option Target) :=
  match r with
  | none => pure none
  | some (name, true) => openTarget ⟨name, stdout⟩
  | some (name, false) => do
    let go ← chooseSong info
    if go = true then openTarget ⟨name, stdout⟩ else pure none

/-- `output_ext[-1]` is a slash or a backslash, asapconv.c:207. -/
def inDirectory (output : List Nat) (dot : Nat) : Bool := output[dot - 1]? = some 47 || output[dot - 1]? = some 92

/-- `open_output_file`, asapconv.c:200-325.  `output` is the pattern, which has a dot. -/
def openOutput (input m : List Nat) (info : Info) (allow : Bool) : P (Option Target) := do
  let o ← get (·.opts)
  match o.output with
  | none => stop .crash
  | some output =>
    match lastDot output with
    | none => stop .crash
    | some dot =>
      if dot = 0 then do
        let r ← fillPattern info m input allow true output false []
        finishOpen info false r
      else if inDirectory output dot = true then do
        let r ← fillPattern info m (baseName input input) allow true output false []
        finishOpen info false r
      else do
        let r ← fillPattern info m input allow false output false []
        finishOpen info (decide (dot = 1 ∧ output.head? = some 45)) r

/-- `fwrite`, asapconv.c:341-348: append. -/
def writeBytes (t : Target) (bytes : List Nat) : P Unit := modify fun e =>
  if t.stdout = true then { e with stdout := e.stdout ++ bytes }
  else { e with files := fun n => if n = t.name then some ((e.files n).getD [] ++ bytes) else e.files n }

/-- The duration to play, asapconv.c:327-336. -/
def songDuration (o : Opts) (info : Info) (song : Int) : Int :=
  if o.duration < 0 then
    if info.durations song.toNat < 0 then 180 * 1000 else info.durations song.toNat
  else o.duration

/-- `play_song`, asapconv.c:327-339. -/
def playSong (machine : Machine) : P Machine := do
  let e ← get id
  let r ← liftX (Machine.playSong e.song (songDuration e.opts machine.info e.song) machine)
  let r ← liftX (Machine.mutePokeyChannels e.opts.mute r.2)
  pure r.2

/-- The size of the buffer, asapconv.c:365. -/
def bufferSize : Int := 8192

/-- The header, asapconv.c:367-370. -/
def writeHeader (t : Target) (header : Bool) (machine : Machine) : P Unit := do
  let o ← get (·.opts)
  if header = true then do
    let r ← lift (Wav.getWavHeader machine o.format o.tag (List.replicate 8192 0))
    writeBytes t (r.2.take r.1)
  else pure ()

/-- The loop that writes the samples, asapconv.c:371-374.  The number of calls of `ASAP_Generate` is limited by the first argument. -/
def writeSamples (t : Target) : Nat → Machine → P Machine
  | 0, _ => stop .hang
  | calls + 1, machine => do
    let o ← get (·.opts)
    let r ← liftX (Machine.generate bufferSize o.format machine)
    writeBytes t (r.1.1.map Int.toNat)
    if r.1.2 = bufferSize then writeSamples t calls r.2 else pure r.2

/-- One file with sound, asapconv.c:364-375. -/
def writeSong (calls : Nat) (header : Bool) (t : Target) (machine : Machine) : P Machine := do
  let machine ← playSong machine
  writeHeader t header machine
  writeSamples t calls machine

/-- The loop of `convert_to_wav`, asapconv.c:363-376. -/
def wavLoop (calls : Nat) (input m : List Nat) (header : Bool) : Nat → Machine → P Unit
  | 0, _ => stop .hang
  | fuel + 1, machine => do
    let t ← openOutput input m machine.info true
    match t with
    | none => pure ()
    | some t => do
      let machine ← writeSong calls header t machine
      wavLoop calls input m header fuel machine

/-- `convert_to_wav`, asapconv.c:358-379.  There are at most 32 songs. -/
def convertToWav (fuel calls : Nat) (blank : Machine) (input m : List Nat) (header : Bool) : P Unit := do
  let machine ← loadModule fuel blank input m
  wavLoop calls input m header 40 machine

/-- `--ntsc` and `--pal`, asapconv.c:533-537. -/
def applyNtsc (info : Info) : P Info := do
  let o ← get (·.opts)
  if o.ntsc ≥ 0 then
    if info.canSetNtsc = true then pure (info.setNtsc (decide (o.ntsc ≠ 0))) else stop .fatal
  else pure info

/-- The options of one song, asapconv.c:543-546.  What the setters return is ignored. -/
def applySong (xex : Bool) (e : Env) (info : Info) : Info :=
  let info := if xex = true then (info.setDefaultSong e.song).2 else info
  if e.opts.duration ≥ 0 then (info.setDuration e.song e.opts.duration).2 else info

/-- `ASAPWriter_Write`, asapconv.c:547-552: the bytes written. -/
def writerOutput (fuel : Nat) (name : List Nat) (info : Info) (m : List Nat) (tag : Bool) : M (List Nat) :=
  let r := write fuel name info m tag (setOutput (List.replicate 65000 0) 0 65000)
  match r.1 with
  | .ok n => .ok (r.2.output.take n)
  | .error f => .error f

/-- The loop of `convert_to_module`, asapconv.c:542-554. -/
def moduleLoop (fuel : Nat) (input m : List Nat) (xex : Bool) : Nat → Info → P Unit
  | 0, _ => stop .hang
  | n + 1, info => do
    let t ← openOutput input m info xex
    match t with
    | none => pure ()
    | some t => do
      let e ← get id
      let bytes ← lift (writerOutput fuel t.name (applySong xex e info) m e.opts.tag)
      writeBytes t bytes
      moduleLoop fuel input m xex n (applySong xex e info)

/-- `convert_to_module`, asapconv.c:517-558. -/
def convertToModule (fuel : Nat) (input m : List Nat) (xex : Bool) : P Unit :=
  if 46 ∉ input then stop .fatal
  else do
    let info ← lift (infoLoad fuel (some input) m)
    let info ← applyTags info
    let info ← applyNtsc info
    let o ← get (·.opts)
    moduleLoop fuel input m xex 40 (if o.address ≥ 0 then (info.setMusicAddress o.address).2 else info)

/-- `tolower` as in `strcasecmp`, asapconv.c:577. -/
def lower (c : Nat) : Nat := if 65 ≤ c ∧ c ≤ 90 then c + 32 else c

/-- The text behind the last dot, asapconv.c:571-574. -/
def extension (output : List Nat) : Option (List Nat) := (lastDot output).map fun n => output.drop (n + 1)

/-- The choice of the format, asapconv.c:576-588.  There is no MP3. -/
def convert (fuel calls : Nat) (blank : Machine) (input m ext : List Nat) : P Unit :=
  if ext.map lower = ascii "wav" then convertToWav fuel calls blank input m true
  else if ext.map lower = ascii "raw" then convertToWav fuel calls blank input m false
  else if ext.map lower = ascii "mp3" then stop .fatal
  else convertToModule fuel input m (decide (ext.map lower = ascii "xex"))

/-- `process_file`, asapconv.c:560-589. -/
def processFile (fuel calls : Nat) (blank : Machine) (input : List Nat) : P Unit := do
  let e ← get id
  match e.opts.output with
  | none => stop .fatal
  | some output =>
    match e.files input with
    | none => stop .fatal
    | some contents =>
      match extension output with
      | none => stop .fatal
      | some ext => do
        modify fun e => { e with song := -1 }
        convert fuel calls blank input (contents.take 65000) ext

/-- `strncmp(arg, name, strlen(name)) == 0`, then the rest, e.g. asapconv.c:605. -/
def after (name : String) (arg : List Nat) : Option (List Nat) :=
  if (ascii name).isPrefixOf arg then some (arg.drop (ascii name).length) else none

/-- Options with the value in the next argument, asapconv.c:603-638. -/
def shortOption (c : Nat) : Option (Option (List Nat) → P Unit) :=
  if c = 111 then some fun v => setOpts fun o => { o with output := v }
  else if c = 115 then some setSong
  else if c = 116 then some setTime
  else if c = 82 then some setRate
  else if c = 109 then some setMute
  else if c = 97 then some fun v => setOpts fun o => { o with author := v }
  else if c = 110 then some fun v => setOpts fun o => { o with name := v }
  else if c = 100 then some fun v => setOpts fun o => { o with date := v }
  else none

/-- Options with the value behind the name, asapconv.c:605-646. -/
def longValue (arg : List Nat) : Option (P Unit) :=
  match after "--output=" arg with
  | some v => some (setOpts fun o => { o with output := some v })
  | none => match after "--song=" arg with
  | some v => some (setSong (some v))
  | none => match after "--time=" arg with
  | some v => some (setTime (some v))
  | none => match after "--sample-rate" arg with
  | some v => some (setRate (some v))
  | none => match after "--mute=" arg with
  | some v => some (setMute (some v))
  | none => match after "--author=" arg with
  | some v => some (setOpts fun o => { o with author := some v })
  | none => match after "--name=" arg with
  | some v => some (setOpts fun o => { o with name := some v })
  | none => match after "--date=" arg with
  | some v => some (setOpts fun o => { o with date := some v })
  | none => match after "--address=" arg with
  | some v => some (setAddress v)
  | none => none

/-- Options without a value that change something, asapconv.c:615-644. -/
def flag (arg : List Nat) : Option (P Unit) :=
  if arg = ascii "-b" ∨ arg = ascii "--byte-samples" then some (setOpts fun o => { o with format := .u8 })
  else if arg = ascii "-w" ∨ arg = ascii "--word-samples" then some (setOpts fun o => { o with format := .s16le })
  else if arg = ascii "--tag" then some (setOpts fun o => { o with tag := true })
  else if arg = ascii "--ntsc" then some (setOpts fun o => { o with ntsc := 1 })
  else if arg = ascii "--pal" then some (setOpts fun o => { o with ntsc := 0 })
  else none

/-- Options that print something, asapconv.c:647-654. -/
def isInfoOption (arg : List Nat) : Bool :=
  decide (arg = ascii "-h" ∨ arg = ascii "--help" ∨ arg = ascii "-v" ∨ arg = ascii "--version")

/-- The value for an option like `-o`, asapconv.c:603: `is_opt`. -/
def shortOf : List Nat → Option (Option (List Nat) → P Unit)
  | [45, c] => shortOption c
  | _ => none

/-- The loop of `main`, asapconv.c:594-657.  The result is true if `options_error` is not `NULL` at the end.  `--help` and `--version`
print something that is not modelled. -/
def mainLoop (fuel calls : Nat) (blank : Machine) : List (List Nat) → Bool → P Bool
  | [], error => pure error
  | arg :: rest, _ =>
    if arg.head? ≠ some 45 then do
      processFile fuel calls blank arg
      mainLoop fuel calls blank rest false
    else match shortOf arg with
    | some set =>
      match rest with
      | [] => do
        set none
        pure true
      | value :: rest => do
        set (some value)
        mainLoop fuel calls blank rest true
    | none => match longValue arg with
    | some p => do
      p
      mainLoop fuel calls blank rest true
    | none => match flag arg with
    | some p => do
      p
      mainLoop fuel calls blank rest true
    | none => if isInfoOption arg = true then mainLoop fuel calls blank rest false else stop .fatal

/-- `main`, asapconv.c:591-664, without the name of the program: the exit code if it returns. -/
def main (fuel calls : Nat) (blank : Machine) (args : List (List Nat)) : P Nat := do
  let error ← mainLoop fuel calls blank args true
  pure (if error = true then 1 else 0)

end Asap.Conv
