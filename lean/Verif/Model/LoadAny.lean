import Verif.Model.Load
import Verif.Model.InfoLoad
import Verif.Model.Write

/-!
# `ASAP.Load` for all formats: asap.fu 301-347

The array `module` has `moduleLen` bytes.
-/

namespace Asap.Loader

/-- The module in the memory, asap.fu:321-324. -/
def copyModule (info : Info) (m : List Nat) (mem : Int → Int) : M (Int → Int) :=
  if info.type = .fc then copyTo m 0 mem info.music.toNat m.length
  else copyTo m 6 mem info.music.toNat (m.length - 6)

/-- A native module with the player routine `r`, asap.fu:314-328. -/
def loadNative (info : Info) (r m : List Nat) (machine : Machine) : M Machine := do
  let player ← getWord r 2
  let last ← getWord r 4
  if info.music ≤ last then raise "Module address conflicts with the player routine"
  else do
    let mem ← copyModule info m fun a => if a = 0x4c00 then 0 else machine.cpu.mem a
    let mem ← copyTo r 6 mem player (last + 1 - player)
    .ok { machine with
      info := { info with player := if info.player < 0 then player else info.player }
      cpu := { machine.cpu with mem := mem } }

/-- The blocks of a SAP file, asap.fu:331-346. -/
def loadSapBlocks (info : Info) (m : List Nat) (machine : Machine) : M Machine := do
  let mem ← loadBlocks m m.length m.length (info.headerLen + 2).toNat fun _ => 0
  .ok { machine with info := info, cpu := { machine.cpu with mem := mem } }

/-- The rest of `Load` after `ASAPInfo.Load`, asap.fu:312-346. -/
def loadMemory (info : Info) (m : List Nat) (machine : Machine) : M Machine :=
  match playerRoutine info with
  | some r => loadNative info r m machine
  | none => loadSapBlocks info m machine

/-- `Load`, asap.fu:301-347.  The state after an exception is not modelled.  The first argument is fuel for `ASAPInfo.Load`. -/
def load (fuel : Nat) (filename : Option (List Nat)) (m : List Nat) (machine : Machine) : M Machine := do
  let info ← infoLoad fuel filename m
  loadMemory info m machine

end Asap.Loader
