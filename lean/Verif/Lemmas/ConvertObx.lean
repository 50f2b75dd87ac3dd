import Verif.Model.Write
import Verif.Spec.Load

/-! # The player routines in the program -/

namespace Asap.Convert
open Asap Asap.Spec

/-- A routine for the addresses from `player` to `last`, with a header. -/
structure Routine (r : List Nat) (player last : Nat) : Prop where
  head : r.take 6 = 0xff :: 0xff :: (word player ++ word last)
  length : r.length = last - player + 7
  bytes : AllBytes r

/-- Decidable. -/
def isRoutine (r : List Nat) (player last : Nat) : Bool :=
  r.take 6 == 0xff :: 0xff :: (word player ++ word last) && r.length == last - player + 7 && r.all (· < 256)

theorem routine_of {r : List Nat} {player last : Nat} (h : isRoutine r player last = true) : Routine r player last := by
  unfold isRoutine at h
  simp only [Bool.and_eq_true, beq_iff_eq, List.all_eq_true, decide_eq_true_eq] at h
  exact ⟨h.1.1, h.1.2, h.2⟩

theorem routine_cm3 : Routine Obx.cm3 0x500 0xcdf := routine_of (by decide +kernel)
theorem routine_cmc : Routine Obx.cmc 0x500 0xcdc := routine_of (by decide +kernel)
theorem routine_cmr : Routine Obx.cmr 0x500 0xcdc := routine_of (by decide +kernel)
theorem routine_cms : Routine Obx.cms 0x500 0xfbe := routine_of (by decide +kernel)
theorem routine_dlt : Routine Obx.dlt 0x400 0xc46 := routine_of (by decide +kernel)
theorem routine_fc : Routine Obx.fc 0x400 0x8bd := routine_of (by decide +kernel)
theorem routine_mpt : Routine Obx.mpt 0x500 0xdb2 := routine_of (by decide +kernel)
theorem routine_rmt4 : Routine Obx.rmt4 0x390 0xb60 := routine_of (by decide +kernel)
theorem routine_rmt8 : Routine Obx.rmt8 0x390 0xc6c := routine_of (by decide +kernel)
theorem routine_tm2 : Routine Obx.tm2 0x500 0x136b := routine_of (by decide +kernel)
theorem routine_tmc : Routine Obx.tmc 0x500 0xf68 := routine_of (by decide +kernel)

end Asap.Convert
