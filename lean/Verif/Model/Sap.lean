import Verif.Model.Info
import Verif.Model.Duration

/-!
# `ASAPInfo.ParseSap`: asapinfo.fu 1126-1348 (asap.c 3772-3981)

The module is a list of bytes whose length is `moduleLen`; reading at or beyond it is `Fault.ub`.
-/

namespace Asap.Sap
open Asap

/-- `Encoding.UTF8.GetString(module, start, len)`, asapinfo.fu:1129-1137: the bytes themselves.  (All bytes that reach the
texts are ASCII or control characters; a NUL inside a text would cut it in C, which is not
modelled.) -/
def slice (m : List Nat) (start len : Nat) : M (List Nat) :=
  if start + len ≤ m.length then .ok ((m.drop start).take len) else .error .ub

/-- `HasStringAt`, asapinfo.fu:1140-1146 (asap.c:3782-3788). -/
def hasStringAt (m : List Nat) (i : Nat) : List Nat → M Bool
  | [] => .ok true
  | c :: s => do
    let b ← rd m i
    if c ≠ b then .ok false else hasStringAt m (i + 1) s

/-- The test for the text `<?>`, asapinfo.fu:1134. -/
def isUnknown (m : List Nat) (i : Nat) (len : Int) : M Bool :=
  if len = 3 then do
    let a ← rd m (i + 1)
    if a ≠ 60 then .ok false
    else do
      let b ← rd m (i + 2)
      if b ≠ 63 then .ok false
      else do
        let c ← rd m (i + 3)
        .ok (decide (c = 62))
  else .ok false

/-- `ParseText`, asapinfo.fu:1129-1137 (asap.c:3772-3780).  `i = none` is a negative `argStart`. -/
def parseText (m : List Nat) (i : Option Nat) (argEnd : Nat) : M (List Nat) :=
  match i with
  | none => .ok []
  | some i =>
    let len : Int := (argEnd : Int) - i - 2
    if len < 0 then .ok []
    else do
      let q ← rd m i
      if q ≠ 34 then .ok []
      else do
        let r ← rdI m ((argEnd : Int) - 1)
        if r ≠ 34 then .ok []
        else do
          let unknown ← isUnknown m i len
          if unknown then .ok [] else slice m (i + 1) len.toNat

/-- Loop of `ParseDec`, asapinfo.fu:1154-1161.  The last argument is the number of characters
left, `argEnd - i`. -/
def parseDecLoop (m : List Nat) (maxVal i r : Nat) : Nat → M Nat
  | 0 => .ok r
  | n + 1 => do
    let c ← rd m i
    if c < 48 ∨ c > 57 then raise "Invalid number"
    else
      let r := r * 10 + (c - 48)
      if r > maxVal then raise "Number too big"
      else parseDecLoop m maxVal (i + 1) r n

/-- `ParseDec`, asapinfo.fu:1148-1165 (asap.c:3790-3806). -/
def parseDec (m : List Nat) (i : Option Nat) (argEnd minVal maxVal : Nat) : M Nat :=
  match i with
  | none => raise "Missing number"
  | some i => do
    let r ← parseDecLoop m maxVal i 0 (argEnd - i)
    if r < minVal then raise "Number too small" else .ok r

/-- Value of a hexadecimal digit, asapinfo.fu:1178-1185; `none` for other characters. -/
def hexDigit (c : Nat) : Option Nat :=
  if 48 ≤ c ∧ c ≤ 57 then some (c - 48)
  else if 65 ≤ c ∧ c ≤ 70 then some (c - 65 + 10)
  else if 97 ≤ c ∧ c ≤ 102 then some (c - 97 + 10)
  else none

/-- Loop of `ParseHex`, asapinfo.fu:1173-1186. -/
def parseHexLoop (m : List Nat) (i r : Nat) : Nat → M Nat
  | 0 => .ok r
  | n + 1 => do
    let c ← rd m i
    if r > 0xfff then raise "Number too big"
    else
      match hexDigit c with
      | none => raise "Invalid number"
      | some d => parseHexLoop m (i + 1) (r * 16 + d) n

/-- `ParseHex`, asapinfo.fu:1167-1188 (asap.c:3808-3828). -/
def parseHex (m : List Nat) (i : Option Nat) (argEnd : Nat) : M Nat :=
  match i with
  | none => raise "Missing number"
  | some i => parseHexLoop m i 0 (argEnd - i)

/-- `ValidateSap`, asapinfo.fu:1200-1201. -/
def validateSap (m : List Nat) : M Bool :=
  if m.length ≥ 30 then hasStringAt m 0 (ascii "SAP\r\n") else .ok false

/-- The tag loop, asapinfo.fu:1215-1218: index of the first byte after the tag.  The first argument
is fuel (the number of iterations is below `moduleLen`). -/
def scanTag (m : List Nat) : Nat → Nat → M Nat
  | 0, _ => .error .fuel
  | fuel + 1, i => do
    let c ← rd m i
    if c > 32 then
      if i + 1 ≥ m.length then raise "Invalid SAP file"
      else scanTag m fuel (i + 1)
    else .ok i

/-- The argument loop, asapinfo.fu:1224-1240: `argStart`, `argEnd` and the index of the `\n`.
`none` stands for -1.  The first argument is fuel. -/
def scanArg (m : List Nat) : Nat → Nat → Option Nat → Option Nat → M (Option Nat × Nat × Nat)
  | 0, _, _, _ => .error .fuel
  | fuel + 1, i, argStart, argEnd => do
    let c ← rd m i
    if c > 32 then
      if isValidChar c = false then raise "Invalid character"
      else if i + 1 ≥ m.length then raise "Invalid SAP file"
      else scanArg m fuel (i + 1) (argStart.or (some i)) none
    else
      let argEnd := argEnd.getD i
      if c = 10 then .ok (argStart, argEnd, i)
      else if i + 1 ≥ m.length then raise "Invalid SAP file"
      else scanArg m fuel (i + 1) argStart (some argEnd)

/-- Local variables of `ParseSap` that survive a line: the object, `type` and `durationIndex`,
asapinfo.fu:1203-1211. -/
structure St where
  info : Info
  type : Nat
  durationIndex : Nat

/-- The test for ` LOOP`, asapinfo.fu:1261. -/
def hasLoop (m : List Nat) (a argEnd : Nat) : M Bool :=
  if (argEnd : Int) - a > 5 then hasStringAt m (argEnd - 5) (ascii " LOOP") else .ok false

/-- Case `TIME`, asapinfo.fu:1256-1269. -/
def tagTime (m : List Nat) (s : St) (argStart : Option Nat) (argEnd : Nat) : M St :=
  if s.durationIndex ≥ maxSongs then raise "Too many TIME tags"
  else
    match argStart with
    | none => raise "Missing TIME argument"
    | some a => do
      let loop ← hasLoop m a argEnd
      let info := if loop then { s.info with loops := upd s.info.loops s.durationIndex true } else s.info
      let argEnd := if loop then argEnd - 5 else argEnd
      let arg ← slice m a (argEnd - a)
      let d ← Duration.parseDuration arg
      .ok { s with info := { info with durations := upd info.durations s.durationIndex d }
                   durationIndex := s.durationIndex + 1 }

/-- The tag switch, asapinfo.fu:1245-1308 (asap.c:3878-3941). -/
def handleTag (m : List Nat) (s : St) (tag : List Nat) (argStart : Option Nat) (argEnd : Nat) : M St :=
  if tag = ascii "AUTHOR" then do
    let t ← parseText m argStart argEnd
    .ok { s with info := { s.info with author := t } }
  else if tag = ascii "NAME" then do
    let t ← parseText m argStart argEnd
    .ok { s with info := { s.info with title := t } }
  else if tag = ascii "DATE" then do
    let t ← parseText m argStart argEnd
    .ok { s with info := { s.info with date := t } }
  else if tag = ascii "TIME" then tagTime m s argStart argEnd
  else if tag = ascii "SONGS" then do
    let v ← parseDec m argStart argEnd 1 maxSongs
    .ok { s with info := { s.info with songs := v } }
  else if tag = ascii "DEFSONG" then do
    let v ← parseDec m argStart argEnd 0 (maxSongs - 1)
    .ok { s with info := { s.info with defaultSong := v } }
  else if tag = ascii "TYPE" then
    match argStart with
    | none => raise "Missing TYPE argument"
    | some a => do
      let t ← rd m a
      .ok { s with type := t }
  else if tag = ascii "FASTPLAY" then do
    let v ← parseDec m argStart argEnd 1 32767
    .ok { s with info := { s.info with fastplay := v } }
  else if tag = ascii "MUSIC" then do
    let v ← parseHex m argStart argEnd
    .ok { s with info := { s.info with music := v } }
  else if tag = ascii "INIT" then do
    let v ← parseHex m argStart argEnd
    .ok { s with info := { s.info with init := v } }
  else if tag = ascii "PLAYER" then do
    let v ← parseHex m argStart argEnd
    .ok { s with info := { s.info with player := v } }
  else if tag = ascii "COVOX" then do
    let v ← parseHex m argStart argEnd
    if v ≠ 0xd600 then raise "COVOX should be D600"
    else .ok { s with info := { s.info with covoxAddr := v, channels := 2 } }
  else if tag = ascii "STEREO" then .ok { s with info := { s.info with channels := 2 } }
  else if tag = ascii "NTSC" then .ok { s with info := { s.info with ntsc := true } }
  else .ok s

/-- The line loop, asapinfo.fu:1212-1309: returns the state and `moduleIndex` of the `0xff`.  The
fuel bounds the number of lines. -/
def parseLines (m : List Nat) : Nat → St → Nat → M (St × Nat)
  | 0, _, _ => .error .fuel
  | fuel + 1, s, i => do
    let c ← rd m i
    if c = 0xff then .ok (s, i)
    else do
      let tagEnd ← scanTag m m.length i
      let (argStart, argEnd, nl) ← scanArg m m.length tagEnd none none
      if nl + 1 + 6 ≥ m.length then raise "Invalid SAP file"
      else do
        let tag ← slice m i (tagEnd - i)
        let s ← handleTag m s tag argStart argEnd
        parseLines m fuel s (nl + 1)

/-- The `switch (type)`, asapinfo.fu:1313-1342. -/
def finishType (s : St) : M Info :=
  let i := s.info
  if s.type = 66 then
    if i.player < 0 then raise "Missing PLAYER tag"
    else if i.init < 0 then raise "Missing INIT tag"
    else .ok { i with type := .sapB }
  else if s.type = 67 then
    if i.player < 0 then raise "Missing PLAYER tag"
    else if i.music < 0 then raise "Missing MUSIC tag"
    else .ok { i with type := .sapC }
  else if s.type = 68 then
    if i.init < 0 then raise "Missing INIT tag"
    else .ok { i with type := .sapD }
  else if s.type = 83 then
    if i.init < 0 then raise "Missing INIT tag"
    else .ok { i with type := .sapS, fastplay := if i.fastplay < 0 then 78 else i.fastplay }
  else raise "Unsupported TYPE"

/-- The default of `FASTPLAY`, asapinfo.fu:1343-1344. -/
def defaultFastplay (i : Info) : Info :=
  if i.fastplay < 0 then { i with fastplay := if i.ntsc then 262 else 312 } else i

/-- `ParseSap`, asapinfo.fu:1203-1348 (asap.c:3841-3981). -/
def parseSap (info : Info) (m : List Nat) : M Info := do
  let ok ← validateSap m
  if ok = false then raise "Invalid SAP file"
  else do
    let (s, idx) ← parseLines m m.length { info := { info with fastplay := -1 }, type := 0, durationIndex := 0 } 5
    if s.info.defaultSong ≥ s.info.songs then raise "DEFSONG too big"
    else do
      let i ← finishType s
      let b ← rd m (idx + 1)
      if b ≠ 0xff then raise "Invalid binary header"
      else .ok { defaultFastplay i with headerLen := idx }

end Asap.Sap
