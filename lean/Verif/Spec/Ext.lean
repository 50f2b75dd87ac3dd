/-!
# Specification of supported file names
-/

namespace Asap.Spec

/-- ASCII lower case of a character code. -/
def lower (c : Nat) : Nat := if 65 ≤ c ∧ c ≤ 90 then c + 32 else c

/-- The supported extensions (README, asap.h), in lower case. -/
def supportedExts : List String :=
  ["sap", "cmc", "cm3", "cmr", "cms", "dmc", "dlt", "mpt", "mpd", "rmt", "tmc", "tm8", "tm2", "fc"]

/-- `ext` is a supported extension, ignoring ASCII case. -/
def SupportedExt (ext : List Nat) : Prop :=
  ∃ e ∈ supportedExts, ext.map lower = e.toList.map Char.toNat

/-- The text after the last dot of `name`, which must not be the first character. -/
def HasExt (name ext : List Nat) : Prop :=
  ∃ base, base ≠ [] ∧ 46 ∉ ext ∧ name = base ++ 46 :: ext

end Asap.Spec
