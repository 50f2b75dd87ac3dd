import Verif.Lemmas.ConvertLoaded
import Verif.Props.Convert
import Verif.Props.InfoLoad
import Verif.Lemmas.Bits
import Verif.Lemmas.Cpu
import Mathlib.Tactic.SplitIfs

/-! # C48: loading and playing in terms of the specification -/

namespace Asap.Props
open Asap Asap.Spec Asap.Spec.Convert Asap.Convert Asap.Loader Asap.Machine
open Asap.Spec.Relocate (byteAt)

/-- C48.  What `ASAPInfo.Load` accepts as a native module meets the conditions of the other theorems. -/
theorem C48_loaded (fuel : Nat) (filename : Option (List Nat)) (m : List Nat) (hb : AllBytes m) (i : Info) (h : infoLoad fuel filename m = .ok i)
    (hn : (playerRoutine i).isSome) : IsModule i m := by
  have key : Gives (fun r => (playerRoutine r).isSome → IsModule r m) (infoLoad fuel filename m) := by
    unfold infoLoad
    refine PostE.bind (Module.Tracker.always _) fun x _ => ?_
    obtain ⟨name, ext⟩ := x
    show Gives _ (match formatOf ext with
      | some f => parseAs fuel f name m
      | none => raise "Unknown filename extension")
    rcases formatOf ext with _ | f
    · trivial
    · by_cases hf : f = .sap
      · subst hf
        have hs : Gives (fun r => Sane r) (Sap.parseSap (Info.blank name) m) := by
          rcases e : Sap.parseSap (Info.blank name) m with _ | r
          · trivial
          · exact (C08_loaded_sane _ _ _ e).1
        refine PostE.mono (Q := fun r => (playerRoutine r).isSome → IsModule r m) hs (fun _ h => h) fun r hr hn => ?_
        unfold playerRoutine at hn
        rcases hr.type with e | e | e | e <;> rw [e.1] at hn <;> cases hn
      · exact PostE.mono (Q := fun r => (playerRoutine r).isSome → IsModule r m) (parseAs_module fuel hf name hb) (fun _ h => h) fun _ h _ => h
  rw [h] at key
  exact key hn

/-- The program calls a routine when a song is started. -/
def callRoutine (c : Spec.Convert.Call) : C Unit := do6502Init c.addr (c.a.getD 0) (c.x.getD 0) (c.y.getD 0)

/-- One call after the other. -/
def callRoutines : List Spec.Convert.Call → C Unit
  | [] => pure ()
  | [c] => callRoutine c
  | c :: cs => do
    callRoutine c
    callRoutines cs

theorem do6502Init_mod (pc a x y : Int) : do6502Init pc a x y = do6502Init pc (a % 256) (x % 256) (y % 256) := by
  unfold do6502Init
  simp only [Asap.band_ff, Int.emod_emod]

theorem do6502Init_congr (pc : Int) {a x y a' x' y' : Int} (ha : a % 256 = a' % 256) (hx : x % 256 = x' % 256) (hy : y % 256 = y' % 256) :
    do6502Init pc a x y = do6502Init pc a' x' y' := by
  rw [do6502Init_mod pc a x y, do6502Init_mod pc a' x' y', ha, hx, hy]

/-- The types for which the program calls routines to start a song. -/
def Started (type : ModType) : Prop := type ≠ .sapB ∧ type ≠ .sapD ∧ type ≠ .sapS

/-- The initialisation for one type. -/
def startAs (type : ModType) (player music init pos song : Int) : C Unit :=
  match type with
  | .sapB => do6502Init init song 0 0
  | .sapC | .cmc | .cm3 | .cmr | .cms => do
    do6502Init (player + 3) 0x70 music (shr music 8)
    do6502Init (player + 3) 0 song 0
  | .sapD | .sapS => startProgram init song
  | .dlt => do6502Init (player + 0x100) 0 0 pos
  | .mpt => do
    do6502Init player 0 (shr music 8) music
    do6502Init player 2 pos 0
  | .rmt => do6502Init player pos music (shr music 8)
  | .tmc | .tm2 => do
    do6502Init player 0x70 (shr music 8) music
    do6502Init player 0 song 0
    setTmc 1
  | .fc => do6502Init player song 0 0

theorem initSong_eq (m : Machine) (song : Int) :
    initSong song m = startAs m.info.type m.info.player m.info.music m.info.init (m.info.songPos song.toNat : Int) song m := rfl

theorem then_nothing (f : C Unit) : (do f; C.when False (pure ())) = f := by
  funext m
  show C.bind f _ m = _
  unfold C.bind
  rcases f m with _ | ⟨_, _⟩ <;> rfl

theorem one_after (f g h : C Unit) : (do f; g; h) = (do (do f; g); h) := by
  funext m
  show C.bind f (fun _ => C.bind g fun _ => h) m = C.bind (C.bind f fun _ => g) (fun _ => h) m
  unfold C.bind
  rcases f m with _ | ⟨_, _⟩ <;> rfl

/-- C48.  `PlaySong` starts a song of a native module, or of a SAP file of type C, with the calls that the player routine expects. -/
theorem C48_start (m : Machine) (song : Nat) (h : Started m.info.type) :
    initSong song m = (do
      callRoutines (starts m.info.type m.info.player m.info.music song (m.info.songPos song))
      C.when (m.info.type = ModType.tmc ∨ m.info.type = ModType.tm2) (setTmc 1)) m := by
  rw [initSong_eq]
  have hs : ((song : Int)).toNat = song := rfl
  rw [hs]
  generalize m.info.type = type at h ⊢
  generalize m.info.player = player
  generalize m.info.music = music
  generalize m.info.init = init
  generalize m.info.songPos song = pos
  have low : ∀ pc a y, do6502Init pc a music y = do6502Init pc a (music % 256) y := fun pc a y => do6502Init_congr pc rfl (by omega) rfl
  have high : ∀ pc a x, do6502Init pc a x music = do6502Init pc a x (music % 256) := fun pc a x => do6502Init_congr pc rfl rfl (by omega)
  obtain ⟨h1, h2, h3⟩ := h
  have none : ∀ (t : ModType) (f : C Unit), t ≠ .tmc → t ≠ .tm2 → (do f; C.when (t = ModType.tmc ∨ t = ModType.tm2) (setTmc 1)) = f := by
    intro t f a b
    have : C.when (t = ModType.tmc ∨ t = ModType.tm2) (setTmc 1) = C.when False (pure ()) := by
      unfold C.when
      rw [if_neg (by rintro (e | e) <;> contradiction), if_neg id]
    rw [this, then_nothing]
  have cmc : (do do6502Init (player + 3) 0x70 music (shr music 8); do6502Init (player + 3) 0 song 0 : C Unit) =
      callRoutines [⟨player + 3, some 0x70, some (music % 256), some (music / 256)⟩, ⟨player + 3, some 0, some song, Option.none⟩] := by
    rw [low]; rfl
  have tmc : (do do6502Init player 0x70 (shr music 8) music; do6502Init player 0 song 0; setTmc 1 : C Unit) =
      (do callRoutines [⟨player, some 0x70, some (music / 256), some (music % 256)⟩, ⟨player, some 0, some song, Option.none⟩]; setTmc 1) := by
    rw [high, one_after]; rfl
  suffices H : (startAs type player music init pos song : C Unit) = (do
      callRoutines (starts type player music song pos)
      C.when (type = ModType.tmc ∨ type = ModType.tm2) (setTmc 1)) from congrFun H m
  cases type
  · exact absurd rfl h1
  · rw [none .sapC _ (by decide) (by decide)]; exact cmc
  · exact absurd rfl h2
  · exact absurd rfl h3
  · rw [none .cmc _ (by decide) (by decide)]; exact cmc
  · rw [none .cm3 _ (by decide) (by decide)]; exact cmc
  · rw [none .cmr _ (by decide) (by decide)]; exact cmc
  · rw [none .cms _ (by decide) (by decide)]; exact cmc
  · rw [none .dlt _ (by decide) (by decide)]; rfl
  · rw [none .mpt _ (by decide) (by decide)]
    show (do do6502Init player 0 (shr music 8) music; do6502Init player 2 pos 0 : C Unit) = _
    rw [high]; rfl
  · rw [none .rmt _ (by decide) (by decide)]
    show do6502Init player pos music (shr music 8) = _
    rw [low]; rfl
  · exact tmc
  · exact tmc
  · rw [none .fc _ (by decide) (by decide)]; rfl

/-- The counter of the program for TMC modules before the `k`-th call of the player. -/
def tmcPhase (rate k : Nat) : Int := if k % rate = 0 then 1 else rate + 1 - (k % rate : Nat)

theorem tmcPhase_next (rate k : Nat) (hr : 1 ≤ rate) : tmcPhase rate (k + 1) = if k % rate = 0 then (rate : Int) else tmcPhase rate k - 1 := by
  have hlt := Nat.mod_lt k hr
  have hn : (k + 1) % rate = if k % rate = rate - 1 then 0 else k % rate + 1 := by
    rw [Nat.add_mod]
    by_cases h1 : rate = 1
    · subst h1; simp [Nat.mod_one]
    · rw [Nat.mod_eq_of_lt (show 1 < rate by omega)]
      split
      · have : k % rate + 1 = rate := by omega
        rw [this, Nat.mod_self]
      · exact Nat.mod_eq_of_lt (by omega)
  unfold tmcPhase
  rw [hn]
  by_cases h1 : k % rate = rate - 1
  · rw [if_pos h1, if_pos rfl]
    split_ifs <;> omega
  · rw [if_neg h1, if_neg (Nat.succ_ne_zero _)]
    split_ifs <;> omega

/-- C48.  The program calls the player routine at its entry.  For TMC modules it counts the calls: the counter is 1 at the beginning and then as it should be, as long as
the rate is in the module. -/
theorem C48_call (m : Machine) (rate k : Nat) (h : Started m.info.type) (hr : 1 ≤ rate)
    (hm : m.info.type = .tmc → m.cpu.mem (m.info.music + 0x1f) = rate ∧ m.tmc = tmcPhase rate k) (hmus : 0 ≤ m.info.music + 0x1f ∧ m.info.music + 0x1f < 65536) :
    callPlayer m = call6502 (entry m.info.type m.info.player rate k) (if m.info.type = .tmc then { m with tmc := tmcPhase rate (k + 1) } else m) := by
  have key : callPlayer m = (match m.info.type with
    | .sapB => call6502 m.info.player
    | .sapC | .cmc | .cm3 | .cmr | .cms => call6502 (m.info.player + 6)
    | .sapD => callSapD m.info.player
    | .sapS => callSapS
    | .dlt => call6502 (m.info.player + 0x103)
    | .mpt | .rmt | .tm2 | .fc => call6502 (m.info.player + 3)
    | .tmc => callTmc m.info.player) m := rfl
  rw [key]
  by_cases ht : m.info.type = .tmc
  · rw [ht]
    obtain ⟨h1, h2⟩ := hm ht
    show callTmc m.info.player m = call6502 (if k % rate = 0 then m.info.player + 3 else m.info.player + 6) (if ModType.tmc = ModType.tmc then _ else m)
    rw [if_pos rfl]
    have hl : (Machine.load (m.info.music + 0x1f)) { m with tmc := m.tmc - 1 } = .ok ((rate : Int), { m with tmc := m.tmc - 1 }) := by
      unfold Machine.load
      rw [if_pos hmus]
      show Except.ok (m.cpu.mem _, _) = _
      rw [h1]
    have e : callTmc m.info.player m = (if m.tmc - 1 ≤ 0 then do
        let v ← Machine.load (m.info.music + 0x1f)
        setTmc v
        call6502 (m.info.player + 3)
      else call6502 (m.info.player + 6)) { m with tmc := m.tmc - 1 } := by
      unfold callTmc
      simp only [bind, C.bind, C.get, setTmc, C.modify]
      split <;> rfl
    rw [e]
    by_cases hk : k % rate = 0
    · rw [if_pos (by rw [h2]; unfold tmcPhase; rw [if_pos hk]; decide), if_pos hk]
      have hp : tmcPhase rate (k + 1) = rate := by
        rw [tmcPhase_next rate k hr, if_pos hk]
      rw [hp]
      simp only [bind, C.bind, hl, setTmc, C.modify]
    · have hlt := Nat.mod_lt k hr
      rw [if_neg (by rw [h2]; unfold tmcPhase; rw [if_neg hk]; omega), if_neg hk]
      have hp : tmcPhase rate (k + 1) = m.tmc - 1 := by
        rw [tmcPhase_next rate k hr, if_neg hk, h2]
      rw [hp]
  · rw [if_neg ht]
    obtain ⟨h1, h2, h3⟩ := h
    cases e : m.info.type
    all_goals first | rfl | exact absurd e (by assumption)

end Asap.Props
