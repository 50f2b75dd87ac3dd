import Verif.Model.Base

/-!
# The dump of SAP files: sap2txt.c

Files are lists of bytes.  `crc` stands for `crc32` of zlib.
-/

namespace Asap.Txt

/-- `get_word`, sap2txt.c:43-52: the result and what is left of the file. -/
def getWord : List Nat → Int × List Nat
  | [] => (-1, [])
  | [_] => (-2, [])
  | lo :: hi :: rest => (lo + 256 * hi, rest)

/-- A digit of `%X`, sap2txt.c:114. -/
def digit (n : Nat) : Nat := if n < 10 then 48 + n else 55 + n

/-- `%04X`, sap2txt.c:114, for numbers less than 0x10000. -/
def hex4 (n : Nat) : List Nat := [digit (n / 4096 % 16), digit (n / 256 % 16), digit (n / 16 % 16), digit (n % 16)]

/-- `%08lX`, sap2txt.c:114, for numbers less than 0x100000000. -/
def hex8 (n : Nat) : List Nat := hex4 (n / 65536 % 65536) ++ hex4 (n % 65536)

/-- What is printed for a block, sap2txt.c:112-114. -/
def blockLine (crc : List Nat → Nat) (ffff : Bool) (first last : Nat) (bytes : List Nat) : List Nat :=
  (if ffff = true then ascii "FFFF " else []) ++ ascii "LOAD " ++ hex4 first ++ [45] ++ hex4 last ++ ascii " CRC32=" ++ hex8 (crc bytes) ++ [13, 10]

/-- sap2txt.c:86 and 97. -/
def badHeader : List Nat := ascii "Unexpected end of file in a binary header\n"

/-- sap2txt.c:101. -/
def invalid : List Nat := ascii "Invalid binary header\n"

/-- sap2txt.c:107. -/
def badBlock : List Nat := ascii "Unexpected end of file in a binary block\n"

/-- The part of the loop of `sap2txt` after the start address is known, sap2txt.c:95-114: what is printed, and what is left of the file
if the loop goes on. -/
def dumpBody (crc : List Nat → Nat) (ffff : Bool) (start : Int) (s : List Nat) : List Nat × Option (List Nat) :=
  let e := getWord s
  if e.1 < 0 then (badHeader, none)
  else if e.1 < start then (invalid, none)
  else
    let len := (e.1 - start + 1).toNat
    if e.2.length < len then (badBlock, none)
    else (blockLine crc ffff start.toNat e.1.toNat (e.2.take len), some (e.2.drop len))

/-- One step of the loop of `sap2txt`, sap2txt.c:77-115. -/
def dumpBlock (crc : List Nat → Nat) (s : List Nat) : List Nat × Option (List Nat) :=
  let w := getWord s
  if w.1 = -1 then ([], none)
  else if w.1 = -2 then (badHeader, none)
  else if w.1 = 0xffff then dumpBody crc true (getWord w.2).1 (getWord w.2).2
  else dumpBody crc false w.1 w.2

/-- The loop of `sap2txt`, sap2txt.c:77-115.  The first argument limits the number of steps. -/
def dumpBlocks (crc : List Nat → Nat) : Nat → List Nat → M (List Nat)
  | 0, _ => .error .fuel
  | fuel + 1, s =>
    match dumpBlock crc s with
    | (out, none) => .ok out
    | (out, some rest) => do
      let more ← dumpBlocks crc fuel rest
      .ok (out ++ more)

/-- `sap2txt`, sap2txt.c:54-116: the standard output for the contents of a file. -/
def dump (crc : List Nat → Nat) (file : List Nat) : M (List Nat) :=
  match file.dropWhile (fun c => decide (c ≠ 0xff)) with
  | 0xff :: 0xff :: rest => do
    let out ← dumpBlocks crc (rest.length + 1) rest
    .ok (file.takeWhile (fun c => decide (c ≠ 0xff)) ++ out)
  | _ => .ok (file.takeWhile (fun c => decide (c ≠ 0xff)))

/-- An element of `txt_buf`, sap2txt.c:136: what was read, then what was there before. -/
def cell (junk : Nat → Nat) (txt : List Nat) (i : Nat) : Nat := if i < txt.length then txt.getD i 0 else junk i

/-- The rest of a line, sap2txt.c:157, where `n` is `txt_len - i`. -/
def lineEnd (txt : List Nat) : Nat → Nat → Nat
  | 0, i => i
  | n + 1, i => if txt.getD i 0 ≠ 0x0a then lineEnd txt n (i + 1) else i + 1

/-- The loop of `txt2sap`, sap2txt.c:151-158.  `memcmp` has to stay in the array of 65536. -/
def headerEnd (junk : Nat → Nat) (txt : List Nat) : Nat → Nat → M Nat
  | 0, _ => .error .fuel
  | fuel + 1, i =>
    if i < txt.length then
      if i + 5 ≤ 65536 then
        if (List.range 5).map (fun k => cell junk txt (i + k)) = ascii "LOAD " then .ok i
        else if cell junk txt i = 0xff ∧ cell junk txt (i + 1) = 0xff then .ok i
        else headerEnd junk txt fuel (lineEnd txt (txt.length - i) i)
      else .error .ub
    else .ok i

/-- The results of `txt2sap`, sap2txt.c:134-172: failure, no change, the new contents of the file. -/
inductive Result where
  | failed
  | same
  | written (bytes : List Nat)
  deriving DecidableEq, Repr

/-- The end of `txt2sap`, sap2txt.c:160-171, with `bin_ptr` as the number of bytes before it. -/
def rewrite (txt sap : List Nat) (bin i : Nat) : Result :=
  if i = bin ∧ txt.take i = sap.take i then .same else .written (txt.take i ++ sap.drop bin)

/-- `txt2sap`, sap2txt.c:134-172, with the contents of both files, if they can be opened.  `slurp` (sap2txt.c:118-132) rejects files
that are empty or fill its buffer. -/
def replace (junk : Nat → Nat) (txt sap : List Nat) : M Result :=
  if txt.length = 0 ∨ 65536 ≤ txt.length ∨ sap.length = 0 ∨ 65536 ≤ sap.length then .ok .failed
  else if 0xff ∈ sap then do
    let i ← headerEnd junk txt (txt.length + 1) 0
    .ok (rewrite txt sap (sap.takeWhile (fun c => decide (c ≠ 0xff))).length i)
  else .ok .failed

end Asap.Txt
