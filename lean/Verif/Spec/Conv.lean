import Verif.Model.Conv
import Verif.Spec.Wav
import Verif.Spec.Duration

/-!
# Converting files from the command line
-/

namespace Asap.Spec.Conv
open Asap.Conv (Opts Env)

/-- Slash and backslash. -/
def IsSep (c : Nat) : Prop := c = 47 ∨ c = 92

/-- A folder: nothing, or ending with a separator. -/
def Folder (d : List Nat) : Prop := d = [] ∨ ∃ d' c, d = d' ++ [c] ∧ IsSep c

/-- A file name without a folder. -/
def Plain (f : List Nat) : Prop := ∀ c ∈ f, ¬ IsSep c

/-- Texts of tags are used with these characters replaced by underscores: `< > : / \ | ? *` -/
def cleaned (s : List Nat) : List Nat := s.map fun c => if c ∈ [60, 62, 58, 47, 92, 124, 63, 42] then 95 else c

/-- The pattern with `%x` replaced by the text `tag x`, if there is one for all. -/
def expand (tag : Nat → Option (List Nat)) : List Nat → Option (List Nat)
  | [] => some []
  | [c] => if c = 37 then none else some [c]
  | c :: d :: rest =>
    if c = 37 then (tag d).bind fun t => (expand tag rest).map (cleaned t ++ ·)
    else (expand tag (d :: rest)).map (c :: ·)

/-- The pattern contains `%s`. -/
def perSong : List Nat → Bool
  | [] => false
  | [_] => false
  | c :: d :: rest => if c = 37 then decide (d = 115) || perSong rest else perSong (d :: rest)

/-- The texts of the placeholders: author, name, date, original extension, number of the song (from 1), percent sign. -/
def tags (info : Info) (m : List Nat) (song : Int) (c : Nat) : Option (List Nat) :=
  if c = 97 then some info.author
  else if c = 110 then some (if info.title = [] then info.filename else info.title)
  else if c = 100 then some info.date
  else if c = 101 then
    match originalExt info m with
    | .ok (some ext) => some ext
    | .ok none => some (ascii "unknown")
    | .error _ => none
  else if c = 115 then some (ascii (toString (song + 1).toNat))
  else if c = 37 then some (ascii "%")
  else none

/-- The name of the output for the pattern `pre` with the extension `.ext`, and an input in the folder `dir` with the name `stem` and some extension:
`.EXT` is next to the input, `DIR/.EXT` has the name of the input, `FILE.EXT` is this file. -/
def outputName (tag : Nat → Option (List Nat)) (pre ext dir stem : List Nat) : Option (List Nat) :=
  (expand tag pre).bind fun p => (expand tag (46 :: ext)).map fun x =>
    if pre = [] then dir ++ stem ++ x
    else if pre.getLast? = some 47 ∨ pre.getLast? = some 92 then p ++ stem ++ x
    else p ++ x

/-- `files` with the file `name` changed to `bytes`. -/
def put (files : List Nat → Option (List Nat)) (name bytes : List Nat) : List Nat → Option (List Nat) :=
  fun n => if n = name then some bytes else files n

/-- All that the program changes outside: the files, and what was sent to the standard output. -/
structure Disk where
  files : List Nat → Option (List Nat)
  stdout : List Nat

/-- The disk in an environment. -/
def disk (e : Env) : Disk := ⟨e.files, e.stdout⟩

/-- `bytes` are the contents of the file `name`, or sent to the standard output. -/
def save (std : Bool) (name bytes : List Nat) (d : Disk) : Disk :=
  if std = true then { d with stdout := d.stdout ++ bytes } else { d with files := put d.files name bytes }

/-- The outputs for the songs listed, one after another.  `make song s s' name bytes` tells that the output for `song` has the name `name` and the
contents `bytes`, and that the state `s` is changed to `s'`. -/
def Outputs {σ : Type} (std : Bool) (make : Int → σ → σ → List Nat → List Nat → Prop) : List Int → σ → Disk → Disk → Prop
  | [], _, d, d' => d' = d
  | song :: rest, s, d, d' => ∃ s' name bytes, make song s s' name bytes ∧ Outputs std make rest s' (save std name bytes d) d'

/-- The information with the tags given on the command line. -/
def tagged (o : Opts) (i : Info) : Info :=
  { i with author := o.author.getD i.author, title := o.name.getD i.title, date := o.date.getD i.date }

/-- The songs to convert: all if the name of the output has the number of the song, otherwise the one selected or the default one. -/
def selected (o : Opts) (info : Info) (pattern : List Nat) : List Int :=
  if perSong pattern = true then (List.range info.songs).map Int.ofNat
  else [if o.song < 0 then info.defaultSong else o.song]

/-- The milliseconds to convert: as selected, as known, or three minutes. -/
def milliseconds (o : Opts) (info : Info) (song : Int) : Int :=
  if 0 ≤ o.duration then o.duration
  else if info.durations song.toNat < 0 then 180000
  else info.durations song.toNat

/-- Texts that fit in a header. -/
def Fits (s : List Nat) : Prop := AllBytes s ∧ 0 ∉ s ∧ s.length ≤ 127

/-- `bytes` is a recording of the whole song `song`, started in the player `m`, that leaves the player `m'`: all samples of its duration, as
one call of `Generate` with a buffer that is large enough delivers them.  A WAV file is read as these samples with the right properties and tags.
There are no recordings of endless songs. -/
def Recording (o : Opts) (wav : Bool) (song : Int) (m m' : Machine) (bytes : List Nat) : Prop :=
  0 < milliseconds o m.info song ∧ m'.info = m.info ∧
  ∃ m1 large data count header, runCalls [.play song (milliseconds o m.info song), .mute o.mute] m = .ok ((), m1) ∧
    Machine.generate large o.format m1 = .ok ((data, count), m') ∧
    (data.length : Int) = samplesIn o.rate (milliseconds o m.info song) * blockSize m o.format ∧ (data.length : Int) ≤ large ∧
    bytes = header ++ data.map Int.toNat ∧
    if wav = true then
      ∀ year, getYear m.info.date = .ok year → Fits m.info.title → Fits m.info.author → data.length < 0x7ffffe00 →
        readWav false bytes = some (expectedWav m1 o.format o.tag year (data.map Int.toNat))
    else header = []

/-- The name of an output: `pre.ext` is the pattern, the input is in the folder `dir` and has the name `stem`. -/
def Named (info : Info) (contents pre ext dir stem : List Nat) (song : Int) (name : List Nat) : Prop :=
  outputName (tags info contents song) pre ext dir stem = some name ∧ name.length < 4096

/-- The sound of a song: the name and the contents of the output. -/
def MakesSound (o : Opts) (wav : Bool) (contents pre ext dir stem : List Nat) (song : Int) (m m' : Machine) (name bytes : List Nat) : Prop :=
  Named m.info contents pre ext dir stem song name ∧ Recording o wav song m m' bytes

/-- The options for one song of a module: the song to play, for executables, and the duration. -/
def forSong (o : Opts) (xex : Bool) (song : Int) (i : Info) : Info :=
  if 0 ≤ song ∧ song < i.songs then
    { i with
      defaultSong := if xex = true then song.toNat else i.defaultSong
      durations := fun k => if 0 ≤ o.duration ∧ (k : Int) = song then o.duration else i.durations k }
  else i

/-- The options for a whole module. -/
def forModule (o : Opts) (i : Info) : Info :=
  let i := tagged o i
  let i := if 0 ≤ o.ntsc then i.setNtsc (decide (o.ntsc ≠ 0)) else i
  if 0 ≤ o.address ∧ o.address < 0xffff then { i with music := o.address } else i

/-- A module for a song: the name and the contents of the output, which are what `ASAPWriter.Write` gives. -/
def MakesModule (fuel : Nat) (o : Opts) (xex : Bool) (contents pre ext dir stem : List Nat) (song : Int) (i i' : Info) (name bytes : List Nat) : Prop :=
  Named i contents pre ext dir stem song name ∧ i' = forSong o xex song i ∧
    ∃ n w, write fuel name i' contents o.tag (setOutput (List.replicate 65000 0) 0 65000) = (.ok n, w) ∧ bytes = w.output.take n

/-- The program is told to convert a file: the pattern is `pre.ext`, the file is in the folder `dir`, its name is `stem` with some extension and its
contents are `file`. -/
structure Told (e : Env) (input file pre ext dir stem : List Nat) : Prop where
  pattern : e.opts.output = some (pre ++ 46 :: ext)
  oneDot : 46 ∉ ext
  inputName : ∃ x, input = dir ++ (stem ++ 46 :: x) ∧ 46 ∉ x ∧ Plain (stem ++ 46 :: x)
  folder : Folder dir
  contents : e.files input = some file
  bytes : AllBytes file

/-- A new player for a sample rate that is supported. -/
structure New (blank : Machine) (o : Opts) : Prop where
  cpu : InRange blank.cpu
  silence : blank.silence ≤ 0
  rate : 100 ≤ o.rate ∧ o.rate ≤ 48000

/-- Texts of `info` are those of the file or those given on the command line. -/
def SameTexts (o : Opts) (i info : Info) : Prop :=
  info.author = o.author.getD i.author ∧ info.title = o.name.getD i.title ∧ info.date = o.date.getD i.date ∧ info.filename = i.filename

/-- The channels listed, such as `1,3`: a bit for each. -/
def channels (s : List Nat) : Nat := ((List.range 8).map fun i => if 49 + i ∈ s then 2 ^ i else 0).sum

/-- The options of the command line as described by `asapconv --help`, with their values: the short form, the long form, the value and what it sets. -/
inductive Means : String → String → List Nat → (Opts → Opts) → Prop
  | output (v : List Nat) : Means "-o" "--output=" v fun o => { o with output := some v }
  | author (v : List Nat) : Means "-a" "--author=" v fun o => { o with author := some v }
  | name (v : List Nat) : Means "-n" "--name=" v fun o => { o with name := some v }
  | date (v : List Nat) : Means "-d" "--date=" v fun o => { o with date := some v }
  | song (n : Nat) : n < 32 → Means "-s" "--song=" (ascii (toString n)) fun o => { o with song := n }
  | time (v : List Nat) (ms : Nat) : DurationText v ms → 0 < ms → Means "-t" "--time=" v fun o => { o with duration := ms }
  | rate (n : Nat) : n ≤ 256000 → Means "-R" "--sample-rate=" (ascii (toString n)) fun o => { o with rate := n }
  | mute (v : List Nat) : Means "-m" "--mute=" v fun o => { o with mute := ((o.mute.toNat ||| channels v : Nat) : Int) }

/-- A number in hexadecimal. -/
def hex (n : Nat) : List Nat := (Nat.toDigits 16 n).map Char.toNat

end Asap.Spec.Conv
