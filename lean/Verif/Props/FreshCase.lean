import Verif.Props.Fresh
import Verif.Props.PatternCases
import Verif.Props.ScanCase

/-! C61: a song that depends on what was played before.  The last two imports are for the order of the build only: each of these
modules needs about 4 GB of memory. -/

namespace Asap.Props
open Asap.Spec Asap.Spec.Fresh Asap.Machine

/-- AUDF1 is set to 255, AUDCTL to the slow clock, AUDC1 to volume only, and the program stops. -/
def knock : List Nat := ascii "SAP\r\nTYPE D\r\nINIT 1000\r\n" ++ encodeBlocks [⟨true, 0x1000,
  [0xa9, 0xff, 0x8d, 0x00, 0xd2, 0xa9, 0x01, 0x8d, 0x08, 0xd2, 0xa9, 0x1f, 0x8d, 0x01, 0xd2, 0x12]⟩]

/-- A name. -/
def knockName : Option (List Nat) := some (ascii "knock.sap")

/-- A new player set to 100 Hz. -/
def slowPlayer : Machine := { newPlayer with rate := 100 }

/-- The bytes when a file is loaded and played, and when it is loaded and played again, with two settings. -/
def twice (name : Option (List Nat)) (file : List Nat) (bufferLen : Int) (m0 : Machine) : Option (List Int × List Int × Int × Int) :=
  match Loader.load 100 name file m0 with
  | .ok m => match playSong 0 0 m with
    | .ok (_, m) => match generate bufferLen .s16le m with
      | .ok (r, n) => match Loader.load 100 name file n with
        | .ok m => match playSong 0 0 m with
          | .ok (_, m) => match generate bufferLen .s16le m with
            | .ok (r', _) => some (r.1, r'.1, n.rate, n.silence)
            | .error _ => none
          | .error _ => none
        | .error _ => none
      | .error _ => none
    | .error _ => none
  | .error _ => none

theorem seen_two {m m1 m2 : Machine} {bufferLen : Int} {format : SampleFormat} {r : List Int × Int} (h1 : playSong 0 0 m = .ok ((), m1))
    (h2 : generate bufferLen format m1 = .ok (r, m2)) : ∃ a b, seen [.play 0 0, .generate bufferLen format] m = [a, .ok b] ∧ b.bytes = r.1 ∧
      runCalls [.play 0 0, .generate bufferLen format] m = .ok ((), m2) := by
  have e1 : watch (.play 0 0) m = .ok (⟨[], 0, m1.getPosition, (List.range 8).map fun i : Nat => m1.channelVolume (i : Int)⟩, m1) := by
    show C.bind (C.bind (playSong 0 0) _) _ m = _
    unfold C.bind
    rw [h1]
    rfl
  have e2 : watch (.generate bufferLen format) m1 = .ok (⟨r.1, r.2, m2.getPosition, (List.range 8).map fun i : Nat => m2.channelVolume (i : Int)⟩, m2) := by
    show C.bind (generate bufferLen format) _ m1 = _
    unfold C.bind
    rw [h2]
    rfl
  refine ⟨.ok ⟨[], 0, m1.getPosition, (List.range 8).map fun i : Nat => m1.channelVolume (i : Int)⟩,
    ⟨r.1, r.2, m2.getPosition, (List.range 8).map fun i : Nat => m2.channelVolume (i : Int)⟩, ?_, rfl, ?_⟩
  · unfold seen
    rw [e1]
    dsimp only
    unfold seen
    rw [e2]
    rfl
  · show C.bind (playSong 0 0) _ m = _
    unfold C.bind
    rw [h1]
    show C.bind (C.bind (generate bufferLen format) _) _ m1 = _
    unfold C.bind
    rw [h2]
    rfl

theorem visit_ok {fuel : Nat} {name : Option (List Nat)} {file : List Nat} {m0 m : Machine} (h : Loader.load fuel name file m0 = .ok m)
    (calls : List Call) : visit fuel name file 0 0 calls m0 = .ok (seen (.play 0 0 :: calls) m) := by
  unfold visit
  rw [h]
  rfl

theorem twice_some {name : Option (List Nat)} {file : List Nat} {bufferLen : Int} {m0 : Machine} {a b : List Int}
    {rate silence : Int} (h : twice name file bufferLen m0 = some (a, b, rate, silence)) (hab : a ≠ b) :
    ∃ m n, Loader.load 100 name file m0 = .ok m ∧ runCalls [.play 0 0, .generate bufferLen .s16le] m = .ok ((), n) ∧ n.rate = rate ∧
      n.silence = silence ∧ visit 100 name file 0 0 [.generate bufferLen .s16le] n ≠ visit 100 name file 0 0 [.generate bufferLen .s16le] m0 := by
  unfold twice at h
  cases h1 : Loader.load 100 name file m0 with
  | error _ => rw [h1] at h; cases h
  | ok m =>
    rw [h1] at h
    dsimp only at h
    cases h2 : playSong 0 0 m with
    | error _ => rw [h2] at h; cases h
    | ok p =>
      rw [h2] at h
      obtain ⟨_, m1⟩ := p
      dsimp only at h
      cases h3 : generate bufferLen .s16le m1 with
      | error _ => rw [h3] at h; cases h
      | ok p =>
        rw [h3] at h
        obtain ⟨r, n⟩ := p
        dsimp only at h
        cases h4 : Loader.load 100 name file n with
        | error _ => rw [h4] at h; cases h
        | ok m' =>
          rw [h4] at h
          dsimp only at h
          cases h5 : playSong 0 0 m' with
          | error _ => rw [h5] at h; cases h
          | ok p =>
            rw [h5] at h
            obtain ⟨_, m2⟩ := p
            dsimp only at h
            cases h6 : generate bufferLen .s16le m2 with
            | error _ => rw [h6] at h; cases h
            | ok p =>
              rw [h6] at h
              obtain ⟨r', n'⟩ := p
              dsimp only at h
              injection h with h
              injection h with h7 h
              injection h with h8 h
              injection h with h9 h10
              obtain ⟨x, y, k1, k2, k3⟩ := seen_two h2 h3
              obtain ⟨x', y', k4, k5, _⟩ := seen_two h5 h6
              refine ⟨m, n, rfl, k3, h9, h10, ?_⟩
              rw [visit_ok h4, visit_ok h1, k1, k4]
              intro e
              injection e with e
              injection e with _ e
              injection e with e _
              injection e with e
              exact hab (by rw [← h7, ← h8, ← k2, ← k5, e])

theorem knock_twice : twice knockName knock 4 slowPlayer = some ([1, 0, 0, 0], [0, 0, 0, 0], 100, 0) := by decide +kernel

/-- The hypothesis of `C61_sap_partial` on the output levels is needed, and not met by using a player: there is a file that sounds
different when the player played it before, with `Load` and `PlaySong` between, with the same settings. -/
theorem C61_played_before : ∃ (file : List Nat) (bufferLen : Int) (m n : Machine), Loader.load 100 knockName file slowPlayer = .ok m ∧
    runCalls [.play 0 0, .generate bufferLen .s16le] m = .ok ((), n) ∧ n.rate = slowPlayer.rate ∧ n.silence = slowPlayer.silence ∧
    visit 100 knockName file 0 0 [.generate bufferLen .s16le] n ≠ visit 100 knockName file 0 0 [.generate bufferLen .s16le] slowPlayer :=
  ⟨knock, 4, twice_some knock_twice (by decide)⟩

/-- This is a SAP file. -/
theorem knock_isSap : IsSap 100 knockName knock := by
  have aux {x : M Info} (h : (match x with | .ok i => decide (i.type = .sapD) | .error _ => false) = true) {i : Info} (hi : x = .ok i) :
      i.type = .sapD := by
    subst hi
    exact of_decide_eq_true h
  intro info hi
  exact .inr (.inr (.inl (aux (x := infoLoad 100 knockName knock) (by decide +kernel) hi)))

/-- A player with another memory, other registers and another position. -/
def usedPlayer : Machine :=
  { slowPlayer with
    cpu := { slowPlayer.cpu with mem := fun a => a % 256, a := 7, pc := 0x2000 }, played := 12345, external := true, nextScan := 99 }

/-- It plays the file the same. -/
example (calls : List Call) : visit 100 knockName knock 0 0 calls usedPlayer = visit 100 knockName knock 0 0 calls slowPlayer := by
  have h : SameSettings slowPlayer usedPlayer := ⟨rfl, rfl, rfl, rfl, rfl⟩
  exact C61_sap_partial 100 knockName knock knock_isSap slowPlayer usedPlayer h 0 0 calls

end Asap.Props
