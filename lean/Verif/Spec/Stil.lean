import Verif.Model.Stil

/-!
# STIL.txt

What is in the file, in terms of its lines.  Only the records for the results come from the model.
-/

namespace Asap.Spec.Stil
open Asap

/-- A line as it is used: without carriage returns, up to 100 characters, without spaces and tabs at the end. -/
def clean (l : List Nat) : List Nat := (((l.filter (· ≠ 13)).take 100).reverse.dropWhile fun c => c = 32 ∨ c = 9).reverse

/-- The lines of a file, `acc` being the beginning of the first one.  What follows the last end of line is not a line. -/
def linesFrom (acc : List Nat) : List Nat → List (List Nat)
  | [] => []
  | c :: file => if c = 10 then clean acc :: linesFrom [] file else linesFrom (acc ++ [c]) file

/-- The lines of a file. -/
def lines (file : List Nat) : List (List Nat) := linesFrom [] file

/-- A zero ends a text. -/
def text (s : List Nat) : List Nat := s.takeWhile (· ≠ 0)

/-- Whether the line begins with a label of nine characters. -/
def starts (label : String) (l : List Nat) : Bool := l.take 9 = ascii label

/-- What follows the label. -/
def value (l : List Nat) : List Nat := text (l.drop 9)

/-- Lines of a comment are joined, until there are 900 characters. -/
def join (first : List Nat) : List (List Nat) → List Nat
  | [] => first
  | l :: rest => if first.length < 900 then join (first ++ 10 :: l.drop 9) rest else first

/-- The comment at the beginning of these lines, if there is one, and the lines after it. -/
def comment (old : List Nat) : List (List Nat) → List Nat × List (List Nat)
  | [] => (old, [])
  | l :: rest =>
    if starts "COMMENT: " l then (text (join (l.drop 9) (rest.takeWhile (starts "         "))), rest.dropWhile (starts "         "))
    else (old, l :: rest)

/-- The number denoted by decimal digits. -/
def val (s : List Nat) : Nat := s.foldl (fun n c => 10 * n + (c - 48)) 0

/-- A number up to 99. -/
def IsNumber (s : List Nat) : Prop := s ≠ [] ∧ (∀ c ∈ s, 48 ≤ c ∧ c ≤ 57) ∧ val s ≤ 99

/-- Minutes and seconds. -/
def IsTime (s : List Nat) (seconds : Nat) : Prop := ∃ m n, s = m ++ 58 :: n ∧ IsNumber m ∧ IsNumber n ∧ seconds = 60 * val m + val n

/-- An unknown text is empty. -/
def known (s : List Nat) : List Nat := if s = ascii "<?>" then [] else s

/-- A space before the time is not part of the title. -/
def unspaced (s : List Nat) : List Nat := if s.getLast? = some 32 then s.dropLast else s

/-- `Titled t title start end`: the title of a cover, possibly followed with the start, or the start and the end, in parentheses. -/
inductive Titled : List Nat → List Nat → Int → Int → Prop
  | none {t : List Nat} : 40 ∉ t → Titled t (known t) (-1) (-1)
  | other {a b : List Nat} : 40 ∉ b → b ≠ [41] → (∀ c ∈ b.head?, ¬ (48 ≤ c ∧ c ≤ 57)) → Titled (a ++ 40 :: b) (known (a ++ 40 :: b)) (-1) (-1)
  | start {a w : List Nat} {n : Nat} : a ≠ [] → IsTime w n → Titled (a ++ 40 :: (w ++ [41])) (known (unspaced a)) n (-1)
  | range {a w v : List Nat} {n m : Nat} : a ≠ [] → IsTime w n → IsTime v m → Titled (a ++ 40 :: (w ++ 45 :: (v ++ [41]))) (known (unspaced a)) n m

/-- The title and the times of the cover are those of the text, if it is of one of these forms. -/
def TitleOf (t : List Nat) (c : Stil.Cover) : Prop := ∀ title start stop, Titled t title start stop → c.titleAndSource = title ∧ c.startSeconds = start ∧ c.endSeconds = stop

/-- `OneCover ls c rest`: the cover described by these lines and the lines after it. -/
inductive OneCover : List (List Nat) → Stil.Cover → List (List Nat) → Prop
  | unknown {l : List Nat} {rest : List (List Nat)} {c : Stil.Cover} : starts "  TITLE: " l → TitleOf (value l) c → (∀ a ∈ rest.head?, starts " ARTIST: " a = false) →
      c.artist = [] → c.comment = [] → OneCover (l :: rest) c rest
  | artist {l a : List Nat} {rest : List (List Nat)} {c : Stil.Cover} : starts "  TITLE: " l → TitleOf (value l) c → starts " ARTIST: " a →
      c.artist = known (value a) → c.comment = (comment [] rest).1 → OneCover (l :: a :: rest) c (comment [] rest).2

/-- `Covers n ls cs`: up to `n` covers described by these lines. -/
inductive Covers : Nat → List (List Nat) → List Stil.Cover → Prop
  | full {ls : List (List Nat)} : Covers 0 ls []
  | stop {n : Nat} {ls : List (List Nat)} : (∀ l ∈ ls.head?, starts "  TITLE: " l = false) → Covers n ls []
  | more {n : Nat} {ls rest : List (List Nat)} {c : Stil.Cover} {cs : List Stil.Cover} : OneCover ls c rest → Covers n rest cs → Covers (n + 1) ls (c :: cs)

/-- Whether the line gives the name or the author. -/
def isName (l : List Nat) : Bool := starts "   NAME: " l || starts " AUTHOR: " l

/-- The value of the last of these lines with the label. -/
def lastOf (label : String) (ls : List (List Nat)) : List Nat := ((ls.filter (starts label)).getLast?.map value).getD []

/-- `Block ls info`: the names and covers described by these lines. -/
def Block (ls : List (List Nat)) (info : Stil.Info) : Prop :=
  info.title = lastOf "   NAME: " (ls.takeWhile isName) ∧ info.author = lastOf " AUTHOR: " (ls.takeWhile isName) ∧ Covers 10 (ls.dropWhile isName) info.covers

/-- Nothing is described. -/
def NoBlock (info : Stil.Info) : Prop := info.title = [] ∧ info.author = [] ∧ info.covers = []

/-- Whether the line begins with "(#". -/
def songLine (l : List Nat) : Bool := l.take 2 = [40, 35]

/-- The line is the number of the song, counted from 0 here and from 1 in the file. -/
def IsSong (song : Nat) (l : List Nat) : Prop := ∃ n, text l = 40 :: 35 :: (n ++ [41]) ∧ IsNumber n ∧ val n = song + 1

/-- The lines from the next song of the same file on: an empty line ends the file. -/
def nextSong (ls : List (List Nat)) : List (List Nat) := ls.dropWhile fun l => l ≠ [] ∧ ¬ songLine l

/-- `Song song ls info`: what is told about the song in these lines, of which the first one is the number of a song. -/
inductive Song (song : Nat) : List (List Nat) → Stil.Info → Prop
  | this {l : List Nat} {rest : List (List Nat)} {info : Stil.Info} : IsSong song l → info.songComment = (comment [] rest).1 → Block (comment [] rest).2 info →
      Song song (l :: rest) info
  | later {l : List Nat} {rest : List (List Nat)} {info : Stil.Info} : ¬ IsSong song l → (∀ l ∈ (nextSong rest).head?, l ≠ []) → nextSong rest ≠ [] → Song song (nextSong rest) info →
      Song song (l :: rest) info
  | absent {l : List Nat} {rest : List (List Nat)} {info : Stil.Info} : ¬ IsSong song l → (nextSong rest = [] ∨ (nextSong rest).head? = some []) → info.songComment = [] → NoBlock info →
      Song song (l :: rest) info

/-- `Entry song ls info`: what is told about the file in these lines. -/
def Entry (song : Nat) (ls : List (List Nat)) (info : Stil.Info) : Prop :=
  info.fileComment = (comment [] ls).1 ∧
  if (∃ l ∈ (comment [] ls).2.head?, songLine l) then Song song (comment [] ls).2 info
  else info.songComment = [] ∧ Block (comment [] ls).2 info

/-- Two paths are the same, a slash in the first one being possibly a backslash in the other one. -/
def Same (s path : List Nat) : Prop := s.length = path.length ∧ ∀ p ∈ s.zip path, p.1 = p.2 ∨ (p.1 = 47 ∧ p.2 = 92)

/-- The line is the path. -/
def same (path l : List Nat) : Prop := Same (text l) path

/-- `Contents path dir song ls d info`: what these lines tell about the file at this path, in this directory, when `d` is the comment of the directory so far. -/
inductive Contents (path dir : List Nat) (song : Nat) : List (List Nat) → List Nat → Stil.Info → Prop
  | absent {d : List Nat} {info : Stil.Info} : info.directoryComment = d → info.fileComment = [] → info.songComment = [] → NoBlock info → Contents path dir song [] d info
  | here {l d : List Nat} {rest : List (List Nat)} {info : Stil.Info} : same path l → info.directoryComment = d → Entry song rest info → Contents path dir song (l :: rest) d info
  | directory {l d : List Nat} {rest : List (List Nat)} {info : Stil.Info} : ¬ same path l → same dir l → Contents path dir song (comment d rest).2.tail (comment d rest).1 info →
      Contents path dir song (l :: rest) d info
  | other {l d : List Nat} {rest : List (List Nat)} {info : Stil.Info} : ¬ same path l → ¬ same dir l → Contents path dir song rest d info → Contents path dir song (l :: rest) d info

/-- The contents of the file without the mark of UTF-8, and whether there is one. -/
def unmarked (file : List Nat) : List Nat × Bool := if file.take 3 = [0xef, 0xbb, 0xbf] then (file.drop 3, true) else (file, false)

/-- Where STIL.txt may be, for a slash in the name of the file and what precedes it. -/
def places (before : List Nat) (slash : Nat) : List (List Nat) :=
  [before ++ slash :: (ascii "Docs" ++ slash :: ascii "STIL.txt"), before ++ slash :: ascii "STIL.txt"]

/-- A slash or a backslash. -/
def IsSlash (c : Nat) : Prop := c = 47 ∨ c = 92

/-- There is no STIL.txt for the slashes in the name of the file with more before them than this. -/
def NoneAfter (fs : List Nat → Option (List Nat)) (filename : List Nat) (n : Nat) : Prop :=
  ∀ before slash rest, filename = before ++ slash :: rest → IsSlash slash → n < before.length → ∀ p ∈ places before slash, fs p = none

/-- STIL.txt of this name is the one nearest to the file. -/
def Nearest (fs : List Nat → Option (List Nat)) (filename before : List Nat) (slash : Nat) (rest name : List Nat) : Prop :=
  filename = before ++ slash :: rest ∧ IsSlash slash ∧ NoneAfter fs filename before.length ∧ (places before slash).find? (fun p => (fs p).isSome) = some name

/-- The path of the directory, with the slash. -/
def directory (path : List Nat) : List Nat := (path.reverse.dropWhile fun c => c ≠ 47 ∧ c ≠ 92).reverse

end Asap.Spec.Stil
