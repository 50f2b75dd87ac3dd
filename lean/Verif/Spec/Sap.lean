import Verif.Model.Info
import Verif.Spec.Info

/-! What a user may assume about module information loaded from a SAP file. -/

namespace Asap.Spec
open Asap

/-- Characters a text read from a SAP file can contain: the valid ones, and control characters other
than the line feed. -/
def TextChar (c : Nat) : Prop := c ≠ 10 ∧ (c ≤ 32 ∨ SapChar c)

/-- Texts that can be read from a SAP file; `<?>` there denotes the empty text. -/
def SapText (t : List Nat) : Prop := (∀ c ∈ t, TextChar c) ∧ t ≠ ascii "<?>"

/-- What holds of the object after a successful load of a SAP file. -/
structure Sane (i : Info) : Prop where
  author : SapText i.author
  title : SapText i.title
  date : SapText i.date
  songs : 1 ≤ i.songs ∧ i.songs ≤ 32
  defaultSong : i.defaultSong < i.songs
  channels : i.channels = 1 ∨ i.channels = 2
  fastplay : 1 ≤ i.fastplay ∧ i.fastplay ≤ 32767
  music : -1 ≤ i.music ∧ i.music ≤ 0xffff
  init : -1 ≤ i.init ∧ i.init ≤ 0xffff
  player : -1 ≤ i.player ∧ i.player ≤ 0xffff
  covox : i.covoxAddr = -1 ∨ (i.covoxAddr = 0xd600 ∧ i.channels = 2)
  type : (i.type = .sapB ∧ 0 ≤ i.player ∧ 0 ≤ i.init) ∨ (i.type = .sapC ∧ 0 ≤ i.player ∧ 0 ≤ i.music) ∨
    (i.type = .sapD ∧ 0 ≤ i.init) ∨ (i.type = .sapS ∧ 0 ≤ i.init)
  times : ∃ n, n ≤ 32 ∧ (∀ k, k < n → 0 ≤ i.durations k ∧ i.durations k < 6000000) ∧
    ∀ k, n ≤ k → i.durations k = -1 ∧ i.loops k = false

/-- Module types by the letter of the `TYPE` tag. -/
def typeOfLetter (letter : Nat) : ModType :=
  if letter = 66 then .sapB else if letter = 67 then .sapC else if letter = 68 then .sapD else .sapS

/-- Information that a SAP header can express: `letter`, `init` and `player` are what the writer
passes for the type letter and the addresses.  Durations are known for the first `n` songs only. -/
structure Expressible (i : Info) (letter : Nat) (init player : Int) : Prop where
  author : SapText i.author
  title : SapText i.title
  date : SapText i.date
  songs : 1 ≤ i.songs ∧ i.songs ≤ 32
  defaultSong : i.defaultSong < i.songs
  channels : i.channels = 1 ∨ i.channels = 2
  fastplay : 1 ≤ i.fastplay ∧ i.fastplay ≤ 32767
  initRange : -1 ≤ init ∧ init ≤ 0xffff
  playerRange : -1 ≤ player ∧ player ≤ 0xffff
  covox : i.covoxAddr = -1 ∨ (i.covoxAddr = 0xd600 ∧ i.channels = 2)
  kind : (letter = 66 ∧ 0 ≤ player ∧ 0 ≤ init) ∨
    (letter = 67 ∧ 0 ≤ player ∧ 0 ≤ i.music ∧ i.music ≤ 0xffff) ∨
    (letter = 68 ∧ 0 ≤ init) ∨ (letter = 83 ∧ 0 ≤ init)
  times : ∃ n, n ≤ i.songs ∧ (∀ k, k < n → 0 ≤ i.durations k ∧ i.durations k < 6000000) ∧
    ∀ k, n ≤ k → i.durations k = -1 ∧ i.loops k = false

/-- What loading a file named `name` with such a header of length `n` gives. -/
def reloaded (i : Info) (letter : Nat) (init player : Int) (name : List Nat) (n : Nat) : Info :=
  { i with
    filename := name, type := typeOfLetter letter, music := if letter = 67 then i.music else -1
    init := init, player := player, headerLen := n, songPos := fun _ => 0 }

end Asap.Spec
