import Verif.Model.Asap
import Verif.Model.Sap
import Verif.Model.Ext

/-!
# Loading a SAP file into the emulated memory: asap.fu

`buf` is the array passed as `module`, `len` is `moduleLen`.
-/

namespace Asap.Loader

/-- `CopyTo`, asap.fu:339: `n` bytes of the array from `i` on go to the memory from `addr` on.  Reading outside the
array and writing outside the 65536 bytes of the memory are faults. -/
def copyTo (buf : List Nat) (i : Nat) (mem : Int → Int) (addr n : Nat) : M (Int → Int) :=
  if i + n ≤ buf.length ∧ addr + n ≤ 65536 then
    .ok fun a => if (addr : Int) ≤ a ∧ a < (addr + n : Nat) then (buf.getD (i + (a.toNat - addr)) 0 : Nat) else mem a
  else .error .ub

/-- Skips an optional `0xff 0xff`, asap.fu:343-344. -/
def skipMarker (buf : List Nat) (len i : Nat) : M Nat :=
  if i + 7 ≤ len then do
    let a ← rd buf i
    let b ← rd buf (i + 1)
    .ok (if a = 0xff ∧ b = 0xff then i + 2 else i)
  else .ok i

/-- The blocks of a SAP file, asap.fu:333-346: the memory after loading.  Every block takes at least five bytes of the file, the
fuel bounds their number. -/
def loadBlocks (buf : List Nat) (len : Nat) : Nat → Nat → (Int → Int) → M (Int → Int)
  | 0, _, _ => .error .fuel
  | fuel + 1, i, mem =>
    if i + 5 ≤ len then do
      let start ← getWord buf i
      let last ← getWord buf (i + 2)
      if last + 1 ≤ start ∨ i + (last + 1 - start) > len then raise "Invalid binary block"
      else do
        let mem ← copyTo buf (i + 4) mem start (last + 1 - start)
        if i + 4 + (last + 1 - start) = len then .ok mem
        else do
          let i ← skipMarker buf len (i + 4 + (last + 1 - start))
          loadBlocks buf len fuel i mem
    else raise "Invalid binary block"

/-- `ASAPInfo.Load` followed by the second half of `ASAP.Load` for SAP files, asap.fu:302-347 (asapinfo.fu:1433-1488).  Other
formats are not modelled here; the state after an exception is not modelled. -/
def loadSap (filename buf : List Nat) (len : Nat) (m : Machine) : M Machine := do
  let (name, ext) ← loadName filename
  if ext = packExt (ascii "SAP") then do
    let info ← Sap.parseSap (Info.blank name) (buf.take len)
    let mem ← loadBlocks buf len len (info.headerLen + 2).toNat fun _ => 0
    .ok { m with info := info, cpu := { m.cpu with mem := mem } }
  else raise "Unknown filename extension"

end Asap.Loader
