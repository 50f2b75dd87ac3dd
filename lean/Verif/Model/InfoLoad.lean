import Verif.Model.Ext
import Verif.Model.Sap
import Verif.Model.Tracker

/-!
# `ASAPInfo.Load` for all formats: asapinfo.fu 1411-1539
-/

namespace Asap
open Asap.Module Asap.Sap

/-- The `switch` of `Load`, asapinfo.fu:1464-1538, with the fields set before.  The first argument is fuel for the loops of CMC and RMT. -/
def parseAs (fuel : Nat) (f : Format) (name m : List Nat) : M Info :=
  match f with
  | .sap => parseSap (Info.blank name) m
  | .cmc => loadCmc fuel .cmc name m
  | .cm3 => loadCmc fuel .cm3 name m
  | .cmr => loadCmc fuel .cmr name m
  | .cms => loadCmc fuel .cms name m
  | .dmc => loadCmc fuel .dmc name m
  | .dlt => parseDlt (Info.blank name) m
  | .mpt => parseMpt (Info.blank name) m
  | .mpd => parseMpt { Info.blank name with fastplay := 156 } m
  | .rmt => parseRmt fuel (Info.blank name) m
  | .tmc => parseTmc (Info.blank name) m
  | .tm8 => parseTmc (Info.blank name) m
  | .tm2 => parseTm2 (Info.blank name) m
  | .fc => parseFc (Info.blank name) m

/-- `GuessPackedExt`, asapinfo.fu:1411-1421. -/
def guessExt (m : List Nat) : M Nat := do
  let sap ← validateSap m
  if sap then .ok (packExt (ascii "SAP"))
  else do
    let fc ← validateFc m
    if fc then .ok (packExt (ascii "FC"))
    else do
      let rmt ← validateRmt m
      if rmt then .ok (packExt (ascii "RMT")) else raise "Unknown format"

/-- The stored `Filename` and the extension, asapinfo.fu:1433-1462. -/
def loadExt (filename : Option (List Nat)) (m : List Nat) : M (List Nat × Nat) :=
  match filename with
  | some n => loadName n
  | none => do
    let ext ← guessExt m
    .ok ([], ext)

/-- `ASAPInfo.Load`, asapinfo.fu:1424-1539.  `EXPERIMENTAL_XEX` is not defined. -/
def infoLoad (fuel : Nat) (filename : Option (List Nat)) (m : List Nat) : M Info := do
  let (name, ext) ← loadExt filename m
  match formatOf ext with
  | some f => parseAs fuel f name m
  | none => raise "Unknown filename extension"

end Asap
