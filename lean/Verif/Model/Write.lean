import Verif.Model.Writer
import Verif.Model.Ext
import Verif.Model.FlashPack
import Verif.Model.XexInfo
import Verif.Model.Obx

/-!
# `ASAPWriter.Write` for all formats: asapwriter.fu 22-197, 378-623, 664-882, asapinfo.fu 1863-1945, asap6502.fu 24-39

The array `module` has `moduleLen` bytes.
-/

namespace Asap

/-- `ASAP6502.GetPlayerRoutine`, asap6502.fu:24-39. -/
def playerRoutine (info : Info) : Option (List Nat) :=
  match info.type with
  | .cmc => some Obx.cmc
  | .cm3 => some Obx.cm3
  | .cmr => some Obx.cmr
  | .cms => some Obx.cms
  | .dlt => some Obx.dlt
  | .mpt => some Obx.mpt
  | .rmt => some (if info.channels = 1 then Obx.rmt4 else Obx.rmt8)
  | .tmc => some Obx.tmc
  | .tm2 => some Obx.tm2
  | .fc => some Obx.fc
  | _ => none

/-! ## Original formats -/

/-- `ASAPInfo.GetWord` with a signed index, asapinfo.fu:178. -/
def getWordI (buf : List Nat) (i : Int) : M Nat := do
  let lo ← rdI buf i
  let hi ← rdI buf (i + 1)
  .ok (lo + 256 * hi)

/-- `RmtInit`, asapinfo.fu:1863. -/
def rmtInit : Int := 0xc80

/-- `GetRmtSapOffset`, asapinfo.fu:1865-1873. -/
def rmtSapOffset (info : Info) (m : List Nat) : M Int :=
  if info.player ≠ 0x3403 then .ok (-1)
  else do
    let last ← getWordI m (info.headerLen + 4)
    let first ← getWordI m (info.headerLen + 2)
    let offset := info.headerLen + last - first + 7
    if offset + 6 ≥ m.length then .ok (-1)
    else do
      let a ← rdI m (offset + 4)
      if a ≠ 82 then .ok (-1)
      else do
        let b ← rdI m (offset + 5)
        if b ≠ 77 then .ok (-1)
        else do
          let c ← rdI m (offset + 6)
          if c ≠ 84 then .ok (-1) else .ok offset

/-- The tests of `GetOriginalModuleType` for TMC, TM2 and FC in a type B file, asapinfo.fu:1887-1895. -/
def originalTypeB (info : Info) : ModType :=
  if (info.init = 0x4f5 ∨ info.init = 0xf4f5 ∨ info.init = 0x4f2) ∨
      ((info.init = 0x4e7 ∨ info.init = 0xf4e7 ∨ info.init = 0x4e4) ∧ info.fastplay = 156) ∨
      ((info.init = 0x4e5 ∨ info.init = 0xf4e5 ∨ info.init = 0x4e2) ∧ (info.fastplay = 104 ∨ info.fastplay = 78)) then .tmc
  else if (info.init = 0x1080 ∧ info.player = 0x503) ∨ (info.init = 0x1380 ∧ info.player = 0x803) then .tm2
  else if info.init = 0x400 ∧ info.player = 0x403 then .fc
  else info.type

/-- `GetOriginalModuleType`, asapinfo.fu:1875-1910. -/
def originalType (info : Info) (m : List Nat) : M ModType :=
  match info.type with
  | .sapB =>
    if (info.init = 0x3fb ∨ info.init = 0x3f9) ∧ info.player = 0x503 then .ok .dlt
    else if ((info.init = 0x4f3 ∨ info.init = 0x4ef) ∧ info.player = 0x503) ∨ (info.init = 0xf4f3 ∧ info.player = 0xf503) then .ok .mpt
    else if info.init = rmtInit then .ok .rmt
    else do
      let offset ← rmtSapOffset info m
      if offset > 0 then .ok .rmt else .ok (originalTypeB info)
  | .sapC =>
    if (info.player = 0x500 ∨ info.player = 0xf500) ∧ m.length ≥ 1024 then
      if info.channels > 1 then .ok .cms
      else do
        let a ← rd m (m.length - 170)
        if a = 0x1e then .ok .cmr
        else do
          let b ← rd m (m.length - 909)
          if b = 0x30 then .ok .cm3 else .ok .cmc
    else .ok info.type
  | _ => .ok info.type

/-- The `switch` of `GetOriginalModuleExt`, asapinfo.fu:1921-1944. -/
def extOf (info : Info) (t : ModType) : Option (List Nat) :=
  match t with
  | .cmc => some (ascii (if info.fastplay = 156 then "dmc" else "cmc"))
  | .cm3 => some (ascii "cm3")
  | .cmr => some (ascii "cmr")
  | .cms => some (ascii "cms")
  | .dlt => some (ascii "dlt")
  | .mpt => some (ascii (if info.fastplay = 156 then "mpd" else "mpt"))
  | .rmt => some (ascii "rmt")
  | .tmc => some (ascii "tmc")
  | .tm2 => some (ascii "tm2")
  | .fc => some (ascii "fc")
  | _ => none

/-- `GetOriginalModuleExt`, asapinfo.fu:1915-1945. -/
def originalExt (info : Info) (m : List Nat) : M (Option (List Nat)) := do
  let t ← originalType info m
  .ok (extOf info t)

/-- `GetSaveExts`, asapwriter.fu:161-197: the extensions stored in `exts`.  A `null` extension of a native module
(asapwriter.fu:191) cannot be stored and is `ub` here. -/
def saveExts (info : Info) (m : List Nat) : M (List (List Nat)) :=
  match info.type with
  | .sapB | .sapC => do
    let ext ← originalExt info m
    .ok ([ascii "sap"] ++ ext.toList ++ [ascii "xex"])
  | .sapD => .ok (if info.fastplay = 312 then [ascii "sap", ascii "xex"] else [ascii "sap"])
  | .sapS => .ok [ascii "sap"]
  | _ => do
    let ext ← originalExt info m
    match ext with
    | some e => .ok [e, ascii "sap", ascii "xex"]
    | none => .error .ub

/-! ## Executables -/

/-- A computation that writes nothing, e.g. the reads in asapwriter.fu:444-445. -/
def W.lift {α : Type} (m : M α) : W α := fun w => (m, w)

/-- Several `WriteByte` in turn, e.g. asapwriter.fu:392-395. -/
def writeSeq : List Int → W Unit
  | [] => pure ()
  | v :: vs => do
    writeByte v
    writeSeq vs

/-- `WriteExecutableHeader`, asapwriter.fu:378-387.  `xex` says that `initAndPlayer` is not null; its contents are the result. -/
def writeExecutableHeader (xex : Bool) (info : Info) (type : Nat) (init player : Int) : W (Int × Int) :=
  if xex then pure (init, player)
  else do
    writeSapHeader info type init player
    pure (init, player)

/-- `WritePlaTaxLda0`, asapwriter.fu:389-396. -/
def writePlaTaxLda0 : W Unit := writeSeq [0x68, 0xaa, 0xa9, 0]

/-- `WriteCmcInit`, asapwriter.fu:398-416. -/
def writeCmcInit (xex : Bool) (info : Info) (ip : Int × Int) : W (Int × Int) :=
  if xex then do
    writeWord 0xfe0
    writeWord (0xfe0 + 16)
    writeSeq [0x48, 0xa2, info.music % 256, 0xa0, info.music / 256, 0xa9, 0x70, 0x20]
    writeWord (ip.2 + 3)
    writePlaTaxLda0
    writeByte 0x4c
    writeWord (ip.2 + 3)
    pure (0xfe0, ip.2 + 6)
  else pure ip

/-- `WriteExecutableFromSap`, asapwriter.fu:418-423. -/
def writeExecutableFromSap (xex : Bool) (info : Info) (type : Nat) (m : List Nat) : W (Int × Int) := do
  let ip ← writeExecutableHeader xex info type info.init info.player
  writeBytes m info.headerLen m.length
  pure ip

/-- `WriteExecutableHeaderForSongPos`, asapwriter.fu:425-434; also returns `initAndPlayer`. -/
def writeExecutableHeaderForSongPos (xex : Bool) (info : Info) (player codeForOneSong codeForManySongs playerOffset : Int) :
    W (Int × (Int × Int)) :=
  if info.songs ≠ 1 then do
    let ip ← writeExecutableHeader xex info 66 (player - codeForManySongs) (player + playerOffset)
    pure (player - codeForManySongs - info.songs, ip)
  else do
    let ip ← writeExecutableHeader xex info 66 (player - codeForOneSong) (player + playerOffset)
    pure (player - codeForOneSong, ip)

/-- The array `SongPos`, asapinfo.fu:165. -/
def songPosArray (info : Info) : List Nat := (List.range 32).map info.songPos

/-- CMC, CM3, CMR and CMS, asapwriter.fu:468-473. -/
def writeCmc (xex : Bool) (info : Info) (m r : List Nat) (player last : Int) : W (Int × Int) := do
  let ip ← writeExecutableHeader xex info 67 (-1) player
  writeWord 0xffff
  writeBytes m 2 m.length
  writeBytes r 2 (last - player + 7)
  writeCmcInit xex info ip

/-- The module in `Dlt`, asapwriter.fu:476-484. -/
def writeDltModule (m : List Nat) : W Unit :=
  if m.length = 0x2c06 then do
    writeBytes m 0 4
    writeWord 0x4c00
    writeBytes m 6 m.length
    writeByte 0
  else writeBytes m 0 m.length

/-- The init code in `Dlt`, asapwriter.fu:485-495. -/
def writeDltInit (info : Info) (startAddr player last : Int) : W Unit := do
  writeWord startAddr
  writeWord last
  if info.songs ≠ 1 then do
    writeBytes (songPosArray info) 0 info.songs
    writeSeq [0xaa, 0xbc]
    writeWord startAddr
    writeByte 0x4c
    writeWord (player + 0x100)
  else do
    writeSeq [0xa0, 0, 0x4c]
    writeWord (player + 0x100)

/-- DLT, asapwriter.fu:475-497. -/
def writeDlt (xex : Bool) (info : Info) (m r : List Nat) (player last : Int) : W (Int × Int) := do
  let s ← writeExecutableHeaderForSongPos xex info player 5 7 0x103
  writeDltModule m
  writeDltInit info s.1 player last
  writeBytes r 6 (last - player + 7)
  pure s.2

/-- The init code in `Mpt`, asapwriter.fu:501-518. -/
def writeMptInit (info : Info) (startAddr player last : Int) : W Unit := do
  writeWord startAddr
  writeWord last
  W.when (info.songs ≠ 1) do
    writeBytes (songPosArray info) 0 info.songs
    writeByte 0x48
  writeSeq [0xa0, info.music % 256, 0xa2, info.music / 256, 0xa9, 0, 0x20]
  writeWord player
  if info.songs ≠ 1 then do
    writeSeq [0x68, 0xa8, 0xbe]
    writeWord startAddr
    writeSeq [0xa9, 2]
  else writeSeq [0xa2, 0, 0xa9, 2]

/-- MPT, asapwriter.fu:499-520. -/
def writeMpt (xex : Bool) (info : Info) (m r : List Nat) (player last : Int) : W (Int × Int) := do
  let s ← writeExecutableHeaderForSongPos xex info player 13 17 3
  writeBytes m 0 m.length
  writeMptInit info s.1 player last
  writeBytes r 6 (last - player + 7)
  pure s.2

/-- The init code in `Rmt`, asapwriter.fu:524-538. -/
def writeRmtInit (info : Info) : W Unit := do
  writeWord rmtInit
  if info.songs ≠ 1 then do
    writeWord (rmtInit + 10 + info.songs)
    writeSeq [0xa8, 0xb9]
    writeWord (rmtInit + 11)
    writeSeq [0xa2, info.music % 256, 0xa0, info.music / 256, 0x4c]
    writeWord 0x600
    writeBytes (songPosArray info) 0 info.songs
  else do
    writeWord (rmtInit + 8)
    writeSeq [0xa9, 0, 0xa2, info.music % 256, 0xa0, info.music / 256, 0x4c]
    writeWord 0x600

/-- RMT, asapwriter.fu:522-540. -/
def writeRmt (xex : Bool) (info : Info) (m r : List Nat) (player last : Int) : W (Int × Int) := do
  let ip ← writeExecutableHeader xex info 66 rmtInit 0x603
  let stop ← W.lift (getWord m 4)
  writeBytes m 0 (stop - info.music + 7)
  writeRmtInit info
  writeBytes r 2 (last - player + 7)
  pure ip

/-- `tmcPlayerOffset` and `tmcInitOffset`, asapwriter.fu:543-545: an index outside the arrays is undefined behaviour. -/
def tmcOffsets (perFrame : Nat) : M (Int × Int) :=
  if perFrame = 1 then .ok (3, -14)
  else if perFrame = 2 then .ok (-9, -16)
  else if perFrame = 3 ∨ perFrame = 4 then .ok (-10, -17)
  else .error .ub

/-- The code for several calls per frame in `Tmc`, asapwriter.fu:564-587. -/
def writeTmcPerFrame (perFrame : Nat) (player : Int) : W Unit :=
  if perFrame = 2 then do
    writeSeq [0x06, 0, 0x4c]
    writeWord player
    writeSeq [0xa5, 0, 0xe6, 0, 0x4a, 0x90, 5, 0xb0, 6]
  else if perFrame = 3 ∨ perFrame = 4 then
    writeSeq [0xa0, 1, 0x84, 0, 0xd0, 10, 0xc6, 0, 0xd0, 12, 0xa0, perFrame, 0x84, 0, 0xd0, 3]
  else pure ()

/-- The init code in `Tmc`, asapwriter.fu:551-587. -/
def writeTmcInit (info : Info) (perFrame : Nat) (startAddr player last : Int) : W Unit := do
  writeWord startAddr
  writeWord last
  W.when (info.songs ≠ 1) (writeByte 0x48)
  writeSeq [0xa0, info.music % 256, 0xa2, info.music / 256, 0xa9, 0x70, 0x20]
  writeWord player
  if info.songs ≠ 1 then do
    writePlaTaxLda0
    writeTmcPerFrame perFrame player
  else do
    writeSeq [0xa9, 0x60]
    writeTmcPerFrame perFrame player

/-- TMC, asapwriter.fu:542-589. -/
def writeTmc (xex : Bool) (info : Info) (m r : List Nat) (player last : Int) : W (Int × Int) := do
  let perFrame ← W.lift (rd m 0x25)
  let o ← W.lift (tmcOffsets perFrame)
  let player2 := player + o.1
  let startAddr := player2 + o.2 - (if info.songs ≠ 1 then 3 else 0)
  let ip ← writeExecutableHeader xex info 66 startAddr player2
  writeBytes m 0 m.length
  writeTmcInit info perFrame startAddr player last
  writeBytes r 6 (last - player + 7)
  pure ip

/-- The init code in `Tm2`, asapwriter.fu:594-611. -/
def writeTm2Init (info : Info) : W Unit := do
  writeWord 0x1380
  if info.songs ≠ 1 then do
    writeWord (0x1380 + 16)
    writeSeq [0x48, 0xa0, info.music % 256, 0xa2, info.music / 256, 0xa9, 0x70, 0x20]
    writeWord 0x800
    writePlaTaxLda0
    writeByte 0x4c
    writeWord 0x800
  else do
    writeWord (0x1380 + 14)
    writeSeq [0xa0, info.music % 256, 0xa2, info.music / 256, 0xa9, 0x70, 0x20]
    writeWord 0x800
    writeSeq [0xa9, 0, 0xaa, 0x4c]
    writeWord 0x800

/-- TM2, asapwriter.fu:591-613. -/
def writeTm2 (xex : Bool) (info : Info) (m r : List Nat) (player last : Int) : W (Int × Int) := do
  let ip ← writeExecutableHeader xex info 66 0x1380 0x803
  writeBytes m 0 m.length
  writeTm2Init info
  writeBytes r 2 (last - player + 7)
  pure ip

/-- FC, asapwriter.fu:615-621. -/
def writeFc (xex : Bool) (info : Info) (m r : List Nat) (player last : Int) : W (Int × Int) := do
  let ip ← writeExecutableHeader xex info 66 player (player + 3)
  writeWord 0xffff
  writeWord info.music
  writeWord (info.music + m.length - 1)
  writeBytes m 0 m.length
  writeBytes r 2 (last - player + 7)
  pure ip

/-- The native modules in `WriteExecutable`, asapwriter.fu:464-621, with the player routine `r` from `player` to `last`. -/
def writeModule (xex : Bool) (info : Info) (m r : List Nat) (player last : Int) : W (Int × Int) :=
  match info.type with
  | .dlt => writeDlt xex info m r player last
  | .mpt => writeMpt xex info m r player last
  | .rmt => writeRmt xex info m r player last
  | .tmc => writeTmc xex info m r player last
  | .tm2 => writeTm2 xex info m r player last
  | .fc => writeFc xex info m r player last
  | _ => writeCmc xex info m r player last

/-- The SAP files in `WriteExecutable`, asapwriter.fu:451-463. -/
def writeSapFile (xex : Bool) (info : Info) (m : List Nat) : W (Int × Int) :=
  match info.type with
  | .sapC => do
    let ip ← writeExecutableFromSap xex info 67 m
    writeCmcInit xex info ip
  | .sapD => writeExecutableFromSap xex info 68 m
  | .sapS => writeExecutableFromSap xex info 83 m
  | _ => writeExecutableFromSap xex info 66 m

/-- `WriteExecutable`, asapwriter.fu:436-623.  Exactly the native types have a player routine, so the `switch` is split. -/
def writeExecutable (xex : Bool) (info : Info) (m : List Nat) : W (Int × Int) :=
  match playerRoutine info with
  | none => writeSapFile xex info m
  | some r => do
    let player ← W.lift (getWord r 2)
    let last ← W.lift (getWord r 4)
    if info.music ≤ last then W.fail (.thrown "Module address conflicts with the player routine")
    else writeModule xex info m r player last

/-! ## Title screen -/

/-- The loop of `WriteXexInfoTextDl`, asapwriter.fu:669-670.  The first argument is fuel. -/
def writeDlLoop : Nat → Nat → Nat → Int → W Unit
  | 0, _, _, _ => W.fail .fuel
  | fuel + 1, i, len, at_ =>
    if i < len then do
      writeByte (if (i : Int) = at_ then 0x22 else 2)
      writeDlLoop fuel (i + XexInfo.lineLen) len at_
    else pure ()

/-- `WriteXexInfoTextDl`, asapwriter.fu:664-671. -/
def writeXexInfoTextDl (address : Int) (len : Nat) (verticalScrollAt : Int) : W Unit := do
  writeByte (if verticalScrollAt = 0 then 0x62 else 0x42)
  writeWord address
  writeDlLoop (len + 1) XexInfo.lineLen len verticalScrollAt

/-- The loops of asapwriter.fu:752-753 and 755-756: a byte for each line or part of a line. -/
def writeLines (len : Nat) : W Unit := writeSeq (List.replicate ((len + XexInfo.lineLen - 1) / XexInfo.lineLen) 2)

/-- The three texts as `WriteXexInfo` stores them, asapwriter.fu:708-758. -/
def writeXexTexts (title author other : List Nat) : W Unit := do
  let totalLines := (title.length + author.length + other.length) / XexInfo.lineLen
  let titleAddress : Int := 0xfc50 - other.length - author.length - 8 - title.length
  writeWord titleAddress
  writeBytes Obx.xexinfo 4 6
  writeBytes title 0 title.length
  writeSeq (List.replicate 8 0x55)
  writeBytes author 0 author.length
  writeBytes other 0 other.length
  writeSeq (List.replicate (26 - totalLines) 0x70)
  writeByte 0x30
  writeXexInfoTextDl titleAddress title.length ((title.length : Int) - XexInfo.lineLen)
  writeSeq [8, 0]
  writeLines author.length
  writeByte 0x10
  writeLines other.length
  writeBytes Obx.xexinfo 6 Obx.xexinfo.length

/-- `WriteXexInfo`, asapwriter.fu:673-759, without `HIDE_AUTHOR`. -/
def writeXexInfo (info : Info) : W Unit := do
  let title ← W.lift (XexInfo.title info)
  let author ← W.lift (XexInfo.author info)
  let other ← W.lift (XexInfo.other info)
  writeXexTexts title author other

/-! ## Native modules -/

namespace Native

/-- `Writer.OutputOffset`, e.g. asapwriter.fu:57. -/
def offset : W Int := fun w => (.ok w.offset, w)

/-- `Copy`, asapwriter.fu:35-39; `src` is `SourceModule`, `so` is `SourceOffset`. -/
def copy (src : List Nat) (so endOffset : Int) : W Unit := do
  let o ← offset
  writeBytes src (so + o) (so + endOffset)

/-- `if (address != 0 && address != 0xffff) address += AddressDiff;`, asapwriter.fu:48-49. -/
def relocate (diff address : Int) : Int := if address ≠ 0 ∧ address ≠ 0xffff then address + diff else address

/-- `RelocateBytes`, asapwriter.fu:41-52, from index `i` on with `n` bytes left; `shift` is 2 to the power of the code's. -/
def relocateBytesFrom (src : List Nat) (diff low high shift : Int) : Nat → Nat → W Unit
  | _, 0 => pure ()
  | i, n + 1 => do
    let lo ← W.lift (rdI src (low + i))
    let hi ← W.lift (rdI src (high + i))
    writeByte (relocate diff (lo + 256 * hi) / shift % 256)
    relocateBytesFrom src diff low high shift (i + 1) n

/-- `RelocateBytes`, asapwriter.fu:41-52. -/
def relocateBytes (src : List Nat) (so diff low high : Int) (count : Nat) (shift : Int) : W Unit :=
  relocateBytesFrom src diff (low + so) (high + so) shift 0 count

/-- `RelocateLowHigh`, asapwriter.fu:54-60. -/
def relocateLowHigh (src : List Nat) (so diff : Int) (count : Nat) : W Unit := do
  let low ← offset
  relocateBytes src so diff low (low + count) count 1
  relocateBytes src so diff low (low + count) count 256

/-- `RelocateWords`, asapwriter.fu:62-71. -/
def relocateWords (src : List Nat) (so diff : Int) : Nat → W Unit
  | 0 => pure ()
  | n + 1 => do
    let o ← offset
    let a ← W.lift (getWordI src (so + o))
    writeWord (relocate diff a)
    relocateWords src so diff n

/-- The song jump, asapwriter.fu:113-117. -/
def rmtJump (src : List Nat) (so diff songOffset : Int) : W Unit := do
  let b ← W.lift (rdI src (so + songOffset))
  W.when (b = 0xfe) do
    copy src so (songOffset + 2)
    relocateWords src so diff 1

/-- The loop of asapwriter.fu:111-122.  The first argument is fuel. -/
def rmtSong (src : List Nat) (so diff songEnd : Int) : Nat → Int → W Unit
  | 0, _ => W.fail .fuel
  | fuel + 1, songOffset =>
    if songOffset + 3 < songEnd then do
      let channels ← W.lift (rdI src (so + 9))
      rmtJump src so diff songOffset
      let next := min (songOffset + channels - 48) songEnd
      copy src so next
      rmtSong src so diff songEnd fuel next
    else pure ()

/-- RMT, asapwriter.fu:102-125. -/
def writeRmt (fuel : Nat) (src : List Nat) (so diff startAddr moduleLen : Int) : W Unit := do
  writeWord 0xffff
  relocateWords src so diff 2
  copy src so (6 + 8)
  let patternLow ← W.lift (getWordI src (so + 0x10))
  relocateWords src so diff ((patternLow - startAddr - 8) / 2).toNat
  let patternHigh ← W.lift (getWordI src (so + 0x12))
  relocateLowHigh src so diff ((patternHigh : Int) - patternLow).toNat
  let song ← W.lift (getWordI src (so + 0x14))
  let songOffset := 6 + song - startAddr
  copy src so songOffset
  let last ← W.lift (getWordI src (so + 4))
  let songEnd := 7 + last - startAddr
  rmtSong src so diff songEnd fuel songOffset
  copy src so songEnd
  W.when (moduleLen ≥ songEnd + 5) (relocateWords src so diff 2)

/-- The `switch` of `Write`, asapwriter.fu:80-144. -/
def writeTables (fuel : Nat) (src : List Nat) (so diff startAddr moduleLen : Int) (type : ModType) : W Unit :=
  match type with
  | .cmc | .cm3 | .cmr | .cms => do
    relocateWords src so diff 3
    copy src so (6 + 0x14)
    relocateLowHigh src so diff 64
  | .dlt => relocateWords src so diff 3
  | .mpt => do
    relocateWords src so diff (3 + 32 + 64)
    copy src so (6 + 64 + 128 + 256)
    relocateLowHigh src so diff 4
  | .rmt => writeRmt fuel src so diff startAddr moduleLen
  | .tmc => do
    relocateWords src so diff 3
    copy src so (6 + 32)
    relocateLowHigh src so diff 64
    relocateLowHigh src so diff 128
  | .tm2 => do
    relocateWords src so diff 3
    copy src so (6 + 128)
    relocateBytes src so diff (6 + 128) (6 + 128 + 128 + 512) 128 1
    relocateLowHigh src so diff 256
    relocateBytes src so diff (6 + 128) (6 + 128 + 128 + 512) 128 256
  | _ => W.fail (.thrown "Impossible conversion")

/-- `ASAPNativeModuleWriter.Write`, asapwriter.fu:73-146. -/
def write (fuel : Nat) (src : List Nat) (so : Int) (info : Info) (type : ModType) (moduleLen : Int) : W Unit := do
  let startAddr ← W.lift (getWordI src (so + 2))
  let diff : Int := if info.music < 0 then 0 else info.music - startAddr
  let last ← W.lift (getWordI src (so + 4))
  if last + diff > 0xffff then W.fail (.thrown "Address set too high")
  else do
    writeTables fuel src so diff startAddr moduleLen type
    copy src so moduleLen

end Native

/-- `WriteNative` for SAP files, asapwriter.fu:772-789. -/
def writeNativeSap (fuel : Nat) (info : Info) (m : List Nat) : W Unit := do
  let offset ← W.lift (rmtSapOffset info m)
  if offset > 0 then Native.write fuel m (offset - 2) info .rmt (m.length - offset + 2)
  else do
    let last ← W.lift (getWordI m (info.headerLen + 4))
    let first ← W.lift (getWordI m (info.headerLen + 2))
    let blockLen : Int := (last : Int) - first + 7
    if blockLen < 7 ∨ info.headerLen + blockLen ≥ m.length then W.fail (.thrown "Cannot extract module from SAP")
    else do
      let type ← W.lift (originalType info m)
      if type = .fc then writeBytes m (info.headerLen + 6) (info.headerLen + blockLen)
      else Native.write fuel m info.headerLen info type blockLen

/-- `WriteNative`, asapwriter.fu:761-800. -/
def writeNative (fuel : Nat) (info : Info) (m : List Nat) : W Unit :=
  match info.type with
  | .sapB | .sapC => writeNativeSap fuel info m
  | .fc => writeBytes m 0 m.length
  | t => Native.write fuel m 0 info t m.length

/-! ## `Write` -/

/-- The driver for types other than D and S, asapwriter.fu:847-857. -/
def writeXexB (info : Info) (ip : Int × Int) : W Unit := do
  writeBytes Obx.xexb 2 Obx.xexb.length
  writeWord ip.1
  writeByte 0x4c
  writeWord ip.2
  writeSeq [info.defaultSong, info.fastplay % 2, info.fastplay / 2 % 156, info.fastplay / 2 % 131, info.fastplay / 312, info.fastplay / 262]

/-- The driver for type D, asapwriter.fu:829-842. -/
def writeXexD (info : Info) (ip : Int × Int) : W Unit :=
  if info.fastplay ≠ 312 then W.fail (.thrown "Impossible conversion")
  else do
    writeBytes Obx.xexd 2 Obx.xexd.length
    writeWord ip.1
    if ip.2 < 0 then writeSeq [0x60, 0x60, 0x60, info.defaultSong]
    else do
      writeByte 0x4c
      writeWord ip.2
      writeByte info.defaultSong

/-- `FlashPack.Compress(this)`, flashpack.fu:255-361: reads `Output[0..OutputOffset)`, moves `OutputOffset` to 0 and writes
the header (11 bytes), the stream (one `WriteBytes`) and the depacker with the start address (94 bytes). -/
def writeCompressed : W Unit := fun w =>
  match FlashPack.compress (w.output.take w.offset) with
  | .error e => (.error e, w)
  | .ok out =>
    (do writeSeq ((out.take 11).map (Nat.cast (R := Int)))
        writeBytes out 11 (out.length - 94)
        writeSeq ((out.drop (out.length - 94)).map (Nat.cast (R := Int))) : W Unit) { w with offset := 0 }

/-- The driver, asapwriter.fu:827-859. -/
def writeXexDriver (info : Info) (ip : Int × Int) : W Unit :=
  match info.type with
  | .sapD => writeXexD info ip
  | .sapS => W.fail (.thrown "Impossible conversion")
  | _ => writeXexB info ip

/-- The executable before compression, asapwriter.fu:825-864. -/
def writeXexFile (info : Info) (m : List Nat) (tag : Bool) : W Unit := do
  let ip ← writeExecutable true info m
  writeXexDriver info ip
  W.when (tag = true) (writeXexInfo info)
  writeWord 0x2e0
  writeWord 0x2e1
  writeWord (if tag then 0x100 else 0x124)

/-- `OutputOffset` as the result, e.g. asapwriter.fu:821. -/
def outputOffset : W Nat := fun w => (.ok w.offset, w)

/-- Native targets, asapwriter.fu:870-880. -/
def writeOther (fuel : Nat) (ext : Nat) (info : Info) (m : List Nat) : W Unit := do
  let possible ← W.lift (originalExt info m)
  match possible with
  | none => W.fail (.thrown "Impossible conversion")
  | some e =>
    if ext = packExt e ∨ (ext = packExt (ascii "TM8") ∧ packExt e = packExt (ascii "TMC")) then writeNative fuel info m
    else W.fail (.thrown "Impossible conversion")

/-- `Write`, asapwriter.fu:803-882. -/
def write (fuel : Nat) (target : List Nat) (info : Info) (m : List Nat) (tag : Bool) : W Nat :=
  if getPackedExt target = packExt (ascii "SAP") then do
    let _ ← writeExecutable false info m
    outputOffset
  else if getPackedExt target = packExt (ascii "XEX") then do
    writeXexFile info m tag
    writeCompressed
    outputOffset
  else do
    writeOther fuel (getPackedExt target) info m
    outputOffset

end Asap
