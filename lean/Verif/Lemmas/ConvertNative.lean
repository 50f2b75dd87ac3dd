import Verif.Lemmas.ConvertPlays
import Verif.Model.LoadAny

/-! # The memory after loading native modules -/

namespace Asap.Convert
open Asap Asap.Spec Asap.Spec.Convert Asap.Props Asap.Loader
open Asap.Spec.Relocate (byteAt)

/-- The routine for a module. -/
structure HasRoutine (info : Info) (r : List Nat) (player last : Nat) : Prop where
  routine : Routine r player last
  some : playerRoutine info = some r
  area : routineArea info = ((player : Int), (last : Int))
  order : 0x200 ≤ player ∧ player < last ∧ last < 0x1380
  rmt : info.type = .rmt → player = 0x390 ∧ last < 0xc80

theorem has_routine {info : Info} (h : (playerRoutine info).isSome) : ∃ r player last, HasRoutine info r player last := by
  have hp : ∀ t, info.type = t → playerRoutine info = playerRoutine { Info.blank [] with type := t, channels := info.channels } := by
    intro t ht
    unfold playerRoutine
    rw [ht]
  have ha : ∀ t, info.type = t → routineArea info = routineArea { Info.blank [] with type := t, channels := info.channels } := by
    intro t ht
    unfold routineArea
    rw [ht]
  have key : ∀ t r player last, info.type = t → playerRoutine { Info.blank [] with type := t, channels := info.channels } = some r →
      routineArea { Info.blank [] with type := t, channels := info.channels } = (((player : Nat) : Int), ((last : Nat) : Int)) → Routine r player last →
      (0x200 ≤ player ∧ player < last ∧ last < 0x1380) → (t = .rmt → player = 0x390 ∧ last < 0xc80) → ∃ r player last, HasRoutine info r player last :=
    fun t r player last ht h1 h2 h3 h4 h5 => ⟨r, player, last, h3, (hp t ht).trans h1, (ha t ht).trans h2, h4, fun e => h5 (ht ▸ e)⟩
  cases ht : info.type
  case cmc => exact key _ _ _ _ ht rfl rfl routine_cmc (by decide) (fun e => nomatch e)
  case cm3 => exact key _ _ _ _ ht rfl rfl routine_cm3 (by decide) (fun e => nomatch e)
  case cmr => exact key _ _ _ _ ht rfl rfl routine_cmr (by decide) (fun e => nomatch e)
  case cms => exact key _ _ _ _ ht rfl rfl routine_cms (by decide) (fun e => nomatch e)
  case dlt => exact key _ _ _ _ ht rfl rfl routine_dlt (by decide) (fun e => nomatch e)
  case mpt => exact key _ _ _ _ ht rfl rfl routine_mpt (by decide) (fun e => nomatch e)
  case tmc => exact key _ _ _ _ ht rfl rfl routine_tmc (by decide) (fun e => nomatch e)
  case tm2 => exact key _ _ _ _ ht rfl rfl routine_tm2 (by decide) (fun e => nomatch e)
  case fc => exact key _ _ _ _ ht rfl rfl routine_fc (by decide) (fun e => nomatch e)
  case rmt =>
    by_cases hc : info.channels = 1
    · exact key _ _ _ _ ht (congrArg some (if_pos hc)) (if_pos hc) routine_rmt4 (by decide) (fun _ => by decide)
    · exact key _ _ _ _ ht (congrArg some (if_neg hc)) (if_neg hc) routine_rmt8 (by decide) (fun _ => by decide)
  all_goals
    unfold playerRoutine at h
    rw [ht] at h
    exact nomatch h

theorem music_above {info : Info} {m r : List Nat} {player last : Nat} (hc : Convertible info m) (h : HasRoutine info r player last) : (last : Int) < info.music := by
  have := hc.low
  unfold lowest at this
  have ho := h.order
  split_ifs at this with h1 h2
  · have := (h.rmt h1).2
    omega
  · omega
  · rw [h.area] at this
    show (last : Int) < _
    have h3 : ((last : Int)) + 1 ≤ info.music := this
    omega

/-- Native modules are loaded. -/
theorem native_loaded {info : Info} {m r : List Nat} {player last : Nat} (hm : IsModule info m) (hc : Convertible info m) (h : HasRoutine info r player last) (a : Machine) :
    ∃ mem, loadMemory info m a = .ok { a with info := { info with player := nativePlayer info }, cpu := { a.cpu with mem := mem } } ∧
      ModuleBytes info m mem ∧ RoutineBytes info r mem := by
  have hab := music_above hc h
  have ho := h.order
  obtain ⟨g2, g4⟩ := getWord_routine h.routine (by omega) (by omega)
  have hr7 := h.routine.length
  have hfit := hc.fits
  have hnp : nativePlayer info = if info.player < 0 then (player : Int) else info.player := by unfold nativePlayer; rw [h.area]
  -- the module
  have hmod : ∀ mem0 : Int → Int, mem0 0x4c00 = 0 → ∃ mem, copyModule info m mem0 = .ok mem ∧ ModuleBytes info m mem := by
    intro mem0 hz
    unfold copyModule copyTo
    by_cases hfc : info.type = .fc
    · have := hm.fc hfc
      unfold moduleEnd at hfit
      rw [if_pos hfc] at hfit ⊢
      rw [if_pos ⟨by omega, by omega⟩]
      refine ⟨_, rfl, ?_⟩
      intro p hp
      unfold InModule moduleEnd at hp
      rw [if_pos hfc] at hp ⊢
      show (if _ then _ else _) = _
      rw [if_pos ⟨by omega, by omega⟩]
      congr 3
      omega
    · have hmus := hm.music hfc
      have hlen := hm.length hfc
      rw [if_neg hfc]
      by_cases hdlt : info.type = .dlt
      · have hd := hm.dlt hdlt
        rw [if_pos ⟨by omega, by omega⟩]
        refine ⟨_, rfl, ?_⟩
        intro p hp
        unfold InModule moduleEnd at hp
        rw [if_neg hfc, if_pos hdlt] at hp
        rw [if_neg hfc]
        show (if _ then _ else _) = _
        by_cases hp2 : p < 0x2000 + (m.length - 6 : Nat)
        · rw [if_pos ⟨by omega, by omega⟩]
          congr 3
          omega
        · rw [if_neg (by omega), show p = 0x4c00 by omega, hz, List.getD_eq_getElem?_getD, List.getElem?_eq_none (by omega)]
          rfl
      · have hend : moduleEnd info m = Relocate.word m 4 := by unfold moduleEnd; rw [if_neg hfc, if_neg hdlt]
        rw [hend] at hfit
        have hroom : (Relocate.word m 2 : Int) + m.length ≤ 0x10006 ∧ Relocate.word m 4 + 7 ≤ m.length + Relocate.word m 2 := by
          by_cases hrmt : info.type = .rmt
          · have := hc.room hrmt
            have := hm.rmtBlock hrmt
            omega
          · have := hm.block hfc hrmt
            omega
        rw [if_pos ⟨by omega, by omega⟩]
        refine ⟨_, rfl, ?_⟩
        intro p hp
        unfold InModule at hp
        rw [hend] at hp
        rw [if_neg hfc]
        show (if _ then _ else _) = _
        rw [if_pos ⟨by omega, by omega⟩]
        congr 3
        omega
  obtain ⟨mem1, e1, hm1⟩ := hmod (fun b => if b = 0x4c00 then 0 else a.cpu.mem b) (if_pos rfl)
  have e2 : copyTo r 6 mem1 player (last + 1 - player) =
      .ok fun b => if (player : Int) ≤ b ∧ b < (player + (last + 1 - player) : Nat) then (r.getD (6 + (b.toNat - player)) 0 : Nat) else mem1 b :=
    if_pos ⟨by omega, by omega⟩
  refine ⟨fun b => if (player : Int) ≤ b ∧ b < (player + (last + 1 - player) : Nat) then (r.getD (6 + (b.toNat - player)) 0 : Nat) else mem1 b, ?_, ?_, ?_⟩
  rotate_left
  · intro p hp
    refine Eq.trans (if_neg ?_) (hm1 p hp)
    unfold InModule at hp
    omega
  · intro p hp
    unfold InRoutine at hp
    rw [h.area] at hp ⊢
    have h1 : (player : Int) ≤ p := hp.1
    have h2 : p ≤ (last : Int) := hp.2
    refine Eq.trans (if_pos ⟨by omega, by omega⟩) ?_
    show ((r.getD (6 + (p.toNat - player)) 0 : Nat) : Int) = (r.getD (6 + (p - player).toNat) 0 : Nat)
    congr 3
    omega
  · unfold loadMemory
    rw [h.some]
    show loadNative info r m a = _
    unfold loadNative
    rw [g2, g4]
    simp only [bind, Except.bind]
    rw [if_neg (by omega), e1, hnp]
    simp only []
    rw [e2]

end Asap.Convert
