import Verif.Model.Base

/-!
# Reading of STIL.txt

`astil.c`.  Arrays are lists, an access outside of the array is `ub`.  The array for lines, astil.c:268, is a parameter: its
length is 101 in the program, its contents before the first line are arbitrary, and it is not cleared between lines.
-/

namespace Asap.Stil
open Asap

/-- `ASTILCover`, astil.c:33-40, with the texts as strings: the characters before the terminating zero. -/
structure Cover where
  startSeconds : Int
  endSeconds : Int
  titleAndSource : List Nat
  artist : List Nat
  comment : List Nat
  deriving DecidableEq

/-- `ASTIL`, astil.c:42-53, with the texts as strings and `nCovers` covers. -/
structure Info where
  isUtf8 : Bool
  stilFilename : List Nat
  title : List Nat
  author : List Nat
  directoryComment : List Nat
  fileComment : List Nat
  songComment : List Nat
  covers : List Cover
  deriving DecidableEq

/-- What is left of the file, and the array with the current line, astil.c:251 and astil.c:268 (`fp` and `line`). -/
structure St where
  file : List Nat
  line : List Nat

/-- Storing in an array, such as in astil.c:91. -/
def put (a : List Nat) (i v : Nat) : M (List Nat) := if i < a.length then .ok (a.set i v) else .error .ub

/-- The string in an array: everything up to the terminating zero, as `strcpy` and `strrchr` see it in astil.c:185 and astil.c:192. -/
def cstr : List Nat → M (List Nat)
  | [] => .error .ub
  | c :: l => if c = 0 then .ok [] else do
    let r ← cstr l
    .ok (c :: r)

/-- `strcpy` from the array, beginning at index `i`, to an array of the given length, as in astil.c:223-225. -/
def strcpy (capacity : Nat) (a : List Nat) (i : Nat) : M (List Nat) := do
  let s ← cstr (a.drop i)
  if s.length < capacity then .ok s else .error .ub

/-- `memcmp` for equality with a prefix, as in astil.c:126. -/
def hasPrefix (a p : List Nat) : M Bool := if p.length ≤ a.length then .ok (a.take p.length == p) else .error .ub

/-- `ASTIL_ReadUTF8BOM`, astil.c:76-82: whether there is the mark and what is left of the file. -/
def readBom (file : List Nat) : Bool × List Nat :=
  if file.take 3 = [0xef, 0xbb, 0xbf] then (true, file.drop 3) else (false, file)

/-- Spaces at the end of the line, astil.c:94-95. -/
def trim (line : List Nat) : Nat → M Nat
  | 0 => .ok 0
  | n + 1 => do
    let c ← rd line n
    if c = 32 ∨ c = 9 then trim line n else .ok (n + 1)

/-- `ASTIL_ReadLine`, astil.c:84-106, after `len` characters. -/
def readLineLoop (line : List Nat) (len : Nat) : List Nat → M (Int × St)
  | [] => do
    let line' ← put line 0 0
    .ok (-1, ⟨[], line'⟩)
  | c :: file =>
    if c = 10 then do
      let n ← trim line len
      let line' ← put line n 0
      .ok ((n : Int), ⟨file, line'⟩)
    else if c = 13 then readLineLoop line len file
    else if len < 100 then do
      let line' ← put line len c
      readLineLoop line' (len + 1) file
    else readLineLoop line len file

/-- `ASTIL_ReadLine`, astil.c:84-106. -/
def readLine (st : St) : M (Int × St) := readLineLoop st.line 0 st.file

/-- `ASTIL_MatchFilename`, astil.c:108-121, after `len` characters: -1 is `none`.  The file name is a string, its terminating zero
is added here. -/
def matchName (line filename : List Nat) (len : Nat) : M (Option Nat) :=
  match line with
  | [] => .error .ub
  | c :: line =>
    match filename with
    | [] => if c = 0 then .ok none else .ok (some len)
    | f :: filename =>
      if c = f then (if c = 0 then .ok none else matchName line filename (len + 1))
      else if c = 47 ∧ f = 92 then matchName line filename (len + 1)
      else .ok (some len)

/-- Adding a line to a comment, astil.c:132-137, in an array of 1001 characters. -/
def addLine (comment line : List Nat) (len2 : Nat) : M (List Nat) :=
  if comment.length < 900 then
    if comment.length + 1 + (len2 - 9) + 1 ≤ 1001 ∧ len2 + 1 ≤ line.length then .ok (comment ++ 10 :: (line.drop 9).take (len2 - 9))
    else .error .ub
  else .ok comment

/-- The test of the prefix, astil.c:126 and astil.c:131. -/
def lineBegins (len : Int) (line p : List Nat) : M Bool := if len ≥ 9 then hasPrefix line p else .ok false

/-- The loop, astil.c:129-141. -/
def commentLoop : Nat → St → List Nat → M (List Nat × St)
  | 0, _, _ => .error .fuel
  | fuel + 1, st, comment => do
    let r ← readLine st
    let b ← lineBegins r.1 r.2.line (ascii "         ")
    if b then do
      let comment' ← addLine comment r.2.line r.1.toNat
      commentLoop fuel r.2 comment'
    else .ok (comment, r.2)

/-- The first line of a comment, astil.c:127-128. -/
def firstLine (line : List Nat) (len : Nat) : M (List Nat) :=
  if (len - 9) + 1 ≤ 1001 ∧ len + 1 ≤ line.length then .ok ((line.drop 9).take (len - 9)) else .error .ub

/-- `ASTIL_ReadComment`, astil.c:123-143; `old` is the string that is in the array and stays there if there is no comment. -/
def readComment (st : St) (old : List Nat) : M (List Nat × St) := do
  let r ← readLine st
  let b ← lineBegins r.1 r.2.line (ascii "COMMENT: ")
  if b then do
    let first ← firstLine r.2.line r.1.toNat
    let c ← commentLoop (r.2.file.length + 1) r.2 first
    .ok (c.1.takeWhile (· ≠ 0), c.2)
  else .ok (old, r.2)

/-- The loop of `ASTIL_ParseInt`, astil.c:149-153: the number and how many digits there were. -/
def digits (result count : Nat) : List Nat → M (Option (Nat × Nat))
  | [] => .error .ub
  | c :: s =>
    if 48 ≤ c ∧ c ≤ 57 then (if result ≥ 10 then .ok none else digits (10 * result + (c - 48)) (count + 1) s)
    else .ok (some (result, count))

/-- `ASTIL_ParseInt`, astil.c:145-158: the number, `none` for -1, and the new position. -/
def parseInt (s : List Nat) (pos : Nat) : M (Option Nat × Nat) := do
  let r ← digits 0 0 (s.drop pos)
  match r with
  | none => .ok (none, pos)
  | some (n, count) => if count = 0 then .ok (none, pos) else .ok (some n, pos + count)

/-- Whether the line begins with the number of a song, astil.c:163 and astil.c:273. -/
def beginsSong (line : List Nat) : M Bool := do
  let c0 ← rd line 0
  if c0 = 40 then do
    let c1 ← rd line 1
    .ok (c1 == 35)
  else .ok false

/-- `ASTIL_ReadUntilSongNo`, astil.c:160-167. -/
def untilSongNo : Nat → St → M (Bool × St)
  | 0, _ => .error .fuel
  | fuel + 1, st => do
    let r ← readLine st
    if r.1 > 0 then do
      let b ← beginsSong r.2.line
      if b then .ok (true, r.2) else untilSongNo fuel r.2
    else .ok (false, r.2)

/-- `ASTILCover_ParseTimestamp`, astil.c:169-178: the seconds, `none` for -1, and the new position. -/
def parseTimestamp (s : List Nat) (pos : Nat) : M (Option Nat × Nat) := do
  let m ← parseInt s pos
  match m.1 with
  | none => .ok (none, m.2)
  | some minutes => do
    let c ← rd s m.2
    if c = 58 then do
      let n ← parseInt s (m.2 + 1)
      .ok (n.1.map (60 * minutes + ·), n.2)
    else .ok (none, m.2 + 1)

/-- `ASTILCover_SetText`, astil.c:180-186, from index 9 of the line to an array of 101 characters. -/
def setText (line : List Nat) : M (List Nat) := do
  let s ← cstr (line.drop 9)
  if s = ascii "<?>" then .ok [] else strcpy 101 line 9

/-- `strrchr(line, '(')`, astil.c:192: the index, `none` for `NULL`. -/
def lastParen (s : List Nat) : Option Nat :=
  match s with
  | [] => none
  | c :: s => match lastParen s with
    | some i => some (i + 1)
    | none => if c = 40 then some 0 else none

/-- -1 or the number: the results of `ASTILCover_ParseTimestamp`, astil.c:169-178. -/
def orMinus (n : Option Nat) : Int := match n with | none => -1 | some n => n

/-- The end of the time, astil.c:196-200: the end and the new position. -/
def parseEnd (line : List Nat) (start : Option Nat) (i : Nat) : M (Option Nat × Nat) :=
  match start with
  | none => .ok (none, i)
  | some _ => do
    let c ← rd line i
    if c = 45 then parseTimestamp line (i + 1) else .ok (none, i)

/-- Whether the line ends with the parenthesis, astil.c:201. -/
def closes (line : List Nat) (i : Nat) : M Bool := do
  let c ← rd line i
  if c = 41 then do
    let z ← rd line (i + 1)
    .ok (z == 0)
  else .ok false

/-- Removing the time from the line, astil.c:202-205. -/
def cutLine (line : List Nat) (len : Nat) : M (List Nat) := do
  let c ← rdI line ((len : Int) - 1)
  if c = 32 then put line (len - 1) 0 else put line len 0

/-- The times, astil.c:190-209: the line, the start and the end. -/
def times (line : List Nat) : M (List Nat × Int × Int) := do
  let s ← cstr line
  match lastParen s with
  | none => .ok (line, -1, -1)
  | some ts => do
    let start ← parseTimestamp line (ts + 1)
    let stop ← parseEnd line start.1 start.2
    let c ← closes line stop.2
    if c then do
      let line' ← cutLine line ts
      .ok (line', orMinus start.1, orMinus stop.1)
    else .ok (line, -1, -1)

/-- `ASTILCover_Load`, astil.c:188-217. -/
def coverLoad (st : St) : M (Cover × St) := do
  let t ← times st.line
  let title ← setText t.1
  let r ← readLine ⟨st.file, t.1⟩
  let b ← lineBegins r.1 r.2.line (ascii " ARTIST: ")
  if b then do
    let artist ← setText r.2.line
    let c ← readComment r.2 []
    .ok (⟨t.2.1, t.2.2, title, artist, c.1⟩, c.2)
  else .ok (⟨t.2.1, t.2.2, title, [], []⟩, r.2)

/-- The loop over covers, astil.c:231-234, for an array of ten. -/
def coversLoop : Nat → St → List Cover → M (List Cover × St)
  | 0, st, covers => .ok (covers, st)
  | n + 1, st, covers => do
    let b ← hasPrefix st.line (ascii "  TITLE: ")
    if b then do
      let c ← coverLoad st
      coversLoop n c.2 (covers ++ [c.1])
    else .ok (covers, st)

/-- The loop, astil.c:221-230: `true` if the function goes on after it. -/
def namesLoop : Nat → St → Info → M (Bool × St × Info)
  | 0, _, _ => .error .fuel
  | fuel + 1, st, info => do
    let isName ← hasPrefix st.line (ascii "   NAME: ")
    let isAuthor ← hasPrefix st.line (ascii " AUTHOR: ")
    if isName then do
      let title ← strcpy 101 st.line 9
      let r ← readLine st
      if r.1 < 9 then .ok (false, r.2, { info with title := title }) else namesLoop fuel r.2 { info with title := title }
    else if isAuthor then do
      let author ← strcpy 101 st.line 9
      let r ← readLine st
      if r.1 < 9 then .ok (false, r.2, { info with author := author }) else namesLoop fuel r.2 { info with author := author }
    else .ok (true, st, info)

/-- `ASTIL_ReadStilBlock`, astil.c:219-235. -/
def readBlock (st : St) (info : Info) : M Info := do
  let r ← namesLoop (st.file.length + 2) st info
  if r.1 then do
    let c ← coversLoop (10 - r.2.2.covers.length) r.2.1 r.2.2.covers
    .ok { r.2.2 with covers := c.1 }
  else .ok r.2.2

/-- Whether the line is the number of the song, astil.c:275-276; the song is not negative. -/
def isSong (line : List Nat) (song : Nat) : M Bool := do
  let n ← parseInt line 2
  if n.1 = some (song + 1) then closes line n.2 else .ok false

/-- The loop over songs, astil.c:274-281. -/
def songLoop (song : Nat) : Nat → St → Info → M Info
  | 0, _, _ => .error .fuel
  | fuel + 1, st, info => do
    let b ← isSong st.line song
    if b then do
      let c ← readComment st info.songComment
      readBlock c.2 { info with songComment := c.1 }
    else do
      let r ← untilSongNo (st.file.length + 1) st
      if r.1 then songLoop song fuel r.2 info else .ok info

/-- What follows the line with the name of the file, astil.c:272-284. -/
def found (song : Nat) (st : St) (info : Info) : M Info := do
  let c ← readComment st info.fileComment
  let info := { info with fileComment := c.1 }
  let b ← beginsSong c.2.line
  if b then songLoop song (c.2.file.length + 1) c.2 info else readBlock c.2 info

/-- Whether the line is the name of the directory, astil.c:287. -/
def isDirectory (line : List Nat) (len dirLength : Nat) : M Bool :=
  if len = dirLength then do
    let c ← rd line len
    .ok (c == 0)
  else .ok false

/-- The loop over lines, astil.c:269-289; `dirLength` is `lastSlash - rootSlash + 1`. -/
def searchLoop (filename : List Nat) (dirLength song : Nat) : Nat → St → Info → M Info
  | 0, _, _ => .error .fuel
  | fuel + 1, st, info => do
    let r ← readLine st
    if r.1 ≥ 0 then do
      let m ← matchName r.2.line filename 0
      match m with
      | none => found song r.2 info
      | some len => do
        let d ← isDirectory r.2.line len dirLength
        if d then do
          let c ← readComment r.2 info.directoryComment
          searchLoop filename dirLength song fuel c.2 { info with directoryComment := c.1 }
        else searchLoop filename dirLength song fuel r.2 info
    else .ok info

/-- `ASTIL_FindPreviousSlash`, astil.c:66-74. -/
def previousSlash (filename : List Nat) : Nat → M (Option Nat)
  | 0 => .ok none
  | pos + 1 => do
    let c ← rd filename pos
    if c = 47 ∨ c = 92 then .ok (some pos) else previousSlash filename pos

/-- `strcpy` to `stilFilename` after the slash, astil.c:257 and astil.c:262, with `FILENAME_MAX` as a parameter. -/
def stilName (filenameMax : Nat) (filename : List Nat) (rootSlash : Nat) (rest : List Nat) : M (List Nat) :=
  if rootSlash + 1 + rest.length + 1 ≤ filenameMax then .ok (filename.take (rootSlash + 1) ++ rest) else .error .ub

/-- The loop, astil.c:252-266: the name, the contents and `rootSlash`.  The file system is a function. -/
def findStil (filenameMax : Nat) (fs : List Nat → Option (List Nat)) (filename : List Nat) : Nat → Option Nat → M (Option (List Nat × List Nat × Nat))
  | 0, _ => .error .fuel
  | fuel + 1, rootSlash =>
    match rootSlash with
    | none => .ok none
    | some rootSlash => do
      let separator ← rd filename rootSlash
      let name ← stilName filenameMax filename rootSlash (ascii "Docs" ++ separator :: ascii "STIL.txt")
      match fs name with
      | some contents => .ok (some (name, contents, rootSlash))
      | none => do
        let name ← stilName filenameMax filename rootSlash (ascii "STIL.txt")
        match fs name with
        | some contents => .ok (some (name, contents, rootSlash))
        | none => do
          let next ← previousSlash filename rootSlash
          findStil filenameMax fs filename fuel next

/-- The beginning of `ASTIL_Load`, astil.c:240-246.  `isUTF8` is not set there. -/
def blank (isUtf8 : Bool) : Info := ⟨isUtf8, [], [], [], [], [], [], []⟩

/-- The rest of `ASTIL_Load` once the file is open, astil.c:267-289. -/
def loadFrom (line filename : List Nat) (dirLength song : Nat) (contents : List Nat) (info : Info) : M Info :=
  searchLoop filename dirLength song ((readBom contents).2.length + 1) ⟨(readBom contents).2, line⟩ { info with isUtf8 := (readBom contents).1 }

/-- `ASTIL_Load`, astil.c:237-292: the result and what was loaded.  `line` is the array at line 268. -/
def load (filenameMax : Nat) (fs : List Nat → Option (List Nat)) (line : List Nat) (old : Bool) (filename : List Nat) (song : Nat) : M (Bool × Info) := do
  let lastSlash ← previousSlash filename filename.length
  match lastSlash with
  | none => .ok (false, blank old)
  | some lastSlash =>
    if lastSlash + 14 ≥ filenameMax then .ok (false, blank old)
    else do
      let r ← findStil filenameMax fs filename (filename.length + 1) (some lastSlash)
      match r with
      | none => .ok (false, blank old)
      | some (name, contents, rootSlash) => do
        let info ← loadFrom line (filename.drop rootSlash) (lastSlash - rootSlash + 1) song contents { blank old with stilFilename := name }
        .ok (true, info)

end Asap.Stil
