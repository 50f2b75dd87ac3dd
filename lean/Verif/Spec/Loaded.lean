import Verif.Spec.Sap

/-! What a user may assume about the information on a file that `Load` accepted, whatever its format. -/

namespace Asap.Spec
open Asap

/-- `SapKind type`: the types of modules that are SAP files. -/
def SapKind (type : ModType) : Prop := type = .sapB ∨ type = .sapC ∨ type = .sapD ∨ type = .sapS

/-- What a user may assume about the information on any file that `Load` accepted. -/
structure Loaded (i : Info) : Prop where
  songs : i.songs ≤ 32
  defaultSong : i.type ≠ .fc → i.defaultSong < i.songs
  noSong : i.type = .fc → i.defaultSong = 0
  channels : i.channels = 1 ∨ i.channels = 2
  fastplay : 1 ≤ i.fastplay ∧ i.fastplay ≤ 32767
  durations : ∀ k, -1 ≤ i.durations k
  beyond : ∀ k, 32 ≤ k → i.durations k = -1
  known : ¬ SapKind i.type → ∀ k < i.songs, 0 ≤ i.durations k
  music : -1 ≤ i.music ∧ i.music ≤ 0xffff
  init : -1 ≤ i.init ∧ i.init ≤ 0xffff
  texts : ∀ c, c ∈ i.author ∨ c ∈ i.title ∨ c ∈ i.date → TextChar c
  native : ¬ SapKind i.type → i.author = [] ∧ i.date = [] ∧ i.ntsc = false ∧ i.covoxAddr = -1 ∧ i.title.length ≤ 127

end Asap.Spec
