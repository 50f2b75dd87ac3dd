import Verif.Lemmas.ConvertNative

/-! # All types of modules -/

namespace Asap.Convert
open Asap Asap.Spec Asap.Spec.Convert Asap.Props Asap.Loader
open Asap.Spec.Relocate (byteAt)

/-- The calls made by the SAP file. -/
def made (info : Info) (song : Nat) : List Spec.Convert.Call :=
  if info.type = .tmc then tmcCalls info song else starts info.type (nativePlayer info) info.music song (info.songPos song)

theorem length_two {music start : Nat} {mb rest : List Nat} : (encodeBlocks [⟨true, music, mb⟩, ⟨false, start, rest⟩]).length = mb.length + rest.length + 10 := by
  rw [encodeBlocks_two]
  simp [Block.encode, Block.body, word]
  omega

theorem length_three {music cs start : Nat} {mb code rest : List Nat} :
    (encodeBlocks [⟨true, music, mb⟩, ⟨false, cs, code⟩, ⟨false, start, rest⟩]).length = mb.length + code.length + rest.length + 14 := by
  rw [encodeBlocks_three]
  simp [Block.encode, Block.body, word]
  omega

theorem fits_two {a n r : Nat} (hn : n ≤ 0x200) (hr : r ≤ 3400) : a - 6 + (n + r) + 10 ≤ a + 4000 := by omega
theorem fits_two' {a b n r : Nat} (hb : b ≤ 1) (hn : n ≤ 0x200) (hr : r ≤ 3400) : a - 6 + b + (n + r) + 10 ≤ a + 4000 := by omega

/-- What the SAP file for a module is. -/
def SapFor (info : Info) (m r : List Nat) (letter : Nat) (init player : Int) (b : Block) (bs : List Block) : Prop :=
  Plan info m r letter init player b bs ∧ (encodeBlocks (b :: bs)).length ≤ m.length + 4000 ∧
    ((letter = 67 ∧ (∀ song pos, starts .sapC player info.music song pos = made info song) ∧ ∀ rate k, entry .sapC player rate k = entry info.type (nativePlayer info) rate k) ∨
    (letter = 66 ∧ ∃ lo hi : Int, 0x200 ≤ lo ∧ hi ≤ 0xd000 ∧ (∀ p, lo ≤ p → p < hi → ¬ InModule info m p ∧ ¬ InRoutine info p) ∧
      Plays info (byteAt m 0x25) (made info) (fun p => lo ≤ p ∧ p < hi) init player (image (b :: bs))))

theorem sap_cmc {info : Info} {m r : List Nat} {player last : Nat} (hm : IsModule info m) (hc : Convertible info m) (h : HasRoutine info r player last)
    (ht : info.type = .cmc ∨ info.type = .cm3 ∨ info.type = .cmr ∨ info.type = .cms) :
    ∃ letter init pl b bs, SapFor info m r letter init pl b bs := by
  have hfc : info.type ≠ .fc := by rcases ht with h | h | h | h <;> rw [h] <;> decide
  have htmc : info.type ≠ .tmc := by rcases ht with h | h | h | h <;> rw [h] <;> decide
  have hpl : player = 0x500 := by
    have := h.area
    unfold routineArea at this
    rcases ht with h | h | h | h <;> (rw [h] at this; have := congrArg Prod.fst this; simp at this; omega)
  subst hpl
  have ho := h.order
  have hlen := hm.length hfc
  have hnp : nativePlayer info = 0x500 := by
    unfold nativePlayer
    rw [hm.player, h.area]
    rcases ht with h | h | h | h <;> rw [h] <;> rfl
  refine ⟨67, -1, 0x500, _, _, plan_cmc hm hc ht h.some h.routine (by omega) h.area, ?_, Or.inl ⟨rfl, ?_, ?_⟩⟩
  · rw [length_two, List.length_drop, List.length_drop, h.routine.length]
    omega
  · intro song pos
    unfold made
    rw [if_neg htmc, hnp]
    rcases ht with h | h | h | h <;> rw [h] <;> rfl
  · intro rate k
    rw [hnp]
    rcases ht with h | h | h | h <;> rw [h] <;> rfl

theorem sap_for {info : Info} {m r : List Nat} {player last : Nat} (hm : IsModule info m) (hc : Convertible info m) (h : HasRoutine info r player last) :
    ∃ letter init pl b bs, SapFor info m r letter init pl b bs := by
  have hmade : info.type ≠ .tmc → made info = fun song => starts info.type (nativePlayer info) info.music song (info.songPos song) := fun ht => funext fun song => if_neg ht
  have hab := music_above hc h
  have ho := h.order
  have hr6 : (r.drop 6).length = last - player + 1 := by rw [List.length_drop, h.routine.length]; omega
  have hs := hc.described.songs
  have hir : ∀ p, InRoutine info p → (player : Int) ≤ p ∧ p ≤ last := by
    intro p hp
    unfold InRoutine at hp
    rw [h.area] at hp
    exact hp
  have him : ∀ p, InModule info m p → info.music ≤ p := fun p hp => hp.1
  have hpl : ∀ p l : Nat, routineArea info = ((p : Int), (l : Int)) → player = p ∧ last = l := by
    intro p l he
    have := h.area.symm.trans he
    have h1 := congrArg Prod.fst this
    have h2 := congrArg Prod.snd this
    simp at h1 h2
    exact ⟨by omega, by omega⟩
  cases ht : info.type
  case cmc => exact sap_cmc hm hc h (Or.inl ht)
  case cm3 => exact sap_cmc hm hc h (Or.inr (Or.inl ht))
  case cmr => exact sap_cmc hm hc h (Or.inr (Or.inr (Or.inl ht)))
  case cms => exact sap_cmc hm hc h (Or.inr (Or.inr (Or.inr ht)))
  case dlt =>
    have ha : routineArea info = (((0x400 : Nat) : Int), ((0xc46 : Nat) : Int)) := by unfold routineArea; rw [ht]; rfl
    obtain ⟨rfl, rfl⟩ := hpl _ _ ha
    have hd := hm.dlt ht
    have hcl := dltCode_length (info := info) (by omega)
    have hst : 0x200 ≤ dltStart info := by unfold dltStart; split_ifs <;> omega
    refine ⟨66, dltInit info, 0x503, _, _, plan_dlt hm hc ht h.some h.routine, ?_, Or.inr ⟨rfl, dltStart info, 0x400, by omega, by omega, ?_, ?_⟩⟩
    · rw [length_two, List.length_append, hr6]
      unfold dltBytes
      rw [List.length_append, List.length_drop]
      have : (if m.length = 0x2c06 then [0] else []).length ≤ 1 := by split <;> simp
      have hcl2 : (dltCode info (dltStart info)).length ≤ 0x200 := by clear hr6; omega
      exact fits_two' this hcl2 (by decide)
    · intro p h1 h2
      exact ⟨fun hp => by have := him p hp; omega, fun hp => by have := hir p hp; omega⟩
    · rw [hmade (by rw [ht]; decide)]
      exact plays_dlt hm hc ht
  case mpt =>
    have ha : routineArea info = (((0x500 : Nat) : Int), ((0xdb2 : Nat) : Int)) := by unfold routineArea; rw [ht]; rfl
    obtain ⟨rfl, rfl⟩ := hpl _ _ ha
    have hlen := hm.length (by rw [ht]; decide)
    have hcl := mptCode_length (info := info) (music := Relocate.word m 2) (by omega)
    have hst : 0x400 ≤ mptStart info := by unfold mptStart; split_ifs <;> omega
    refine ⟨66, mptInit info, 0x503, _, _, plan_mpt hm hc ht h.some h.routine, ?_, Or.inr ⟨rfl, mptStart info, 0x500, by omega, by omega, ?_, ?_⟩⟩
    · rw [length_two, List.length_append, hr6, List.length_drop]
      have hcl2 : (mptCode info (Relocate.word m 2) (mptStart info)).length ≤ 0x200 := by clear hr6; omega
      exact fits_two hcl2 (by decide)
    · intro p h1 h2
      exact ⟨fun hp => by have := him p hp; omega, fun hp => by have := hir p hp; omega⟩
    · rw [hmade (by rw [ht]; decide)]
      exact plays_mpt hm hc ht
  case tmc =>
    have ha : routineArea info = (((0x500 : Nat) : Int), ((0xf68 : Nat) : Int)) := by unfold routineArea; rw [ht]; rfl
    obtain ⟨rfl, rfl⟩ := hpl _ _ ha
    have hlen := hm.length (by rw [ht]; decide)
    have hcl := tmcCode_length (info := info) (music := Relocate.word m 2) (hm.rate ht)
    have h2 : 0x4f0 ≤ tmcRate (byteAt m 0x25) := by unfold tmcRate; split_ifs <;> omega
    have hst : 0x400 ≤ tmcStart info (byteAt m 0x25) := by unfold tmcStart; split <;> omega
    refine ⟨66, tmcStart info (byteAt m 0x25), tmcFrame (byteAt m 0x25), _, _, plan_tmc hm hc ht h.some h.routine, ?_, Or.inr ⟨rfl, tmcStart info (byteAt m 0x25), 0x500, by omega, by omega, ?_, ?_⟩⟩
    · rw [length_two, List.length_append, hr6, List.length_drop]
      have hcl2 : (tmcCode info (Relocate.word m 2) (byteAt m 0x25)).length ≤ 0x200 := by clear hr6; omega
      exact fits_two hcl2 (by decide)
    · intro p h1 h2
      exact ⟨fun hp => by have := him p hp; omega, fun hp => by have := hir p hp; omega⟩
    · rw [show made info = tmcCalls info from funext fun song => if_pos ht]
      exact plays_tmc hm ht
  case tm2 =>
    have ha : routineArea info = (((0x500 : Nat) : Int), ((0x136b : Nat) : Int)) := by unfold routineArea; rw [ht]; rfl
    obtain ⟨rfl, rfl⟩ := hpl _ _ ha
    have hlen := hm.length (by rw [ht]; decide)
    have hcl := tm2Code_length (info := info) (music := Relocate.word m 2)
    have hlow : (0x1391 : Int) ≤ info.music := by
      have := hc.low
      unfold lowest at this
      rw [if_neg (by rw [ht]; decide), if_pos ht] at this
      exact this
    refine ⟨66, 0x1380, 0x803, _, _, plan_tm2 hm hc ht h.some h.routine, ?_, Or.inr ⟨rfl, 0x1380, 0x1391, by omega, by omega, ?_, ?_⟩⟩
    · rw [length_three, hr6, List.length_drop]
      omega
    · intro p h1 h2
      exact ⟨fun hp => by have := him p hp; omega, fun hp => by have := hir p hp; omega⟩
    · rw [hmade (by rw [ht]; decide)]
      exact plays_tm2 hm ht (by omega)
  case rmt =>
    obtain ⟨rfl, hl⟩ := h.rmt ht
    have hlen := hm.length (by rw [ht]; decide)
    have hcl := rmtCode_length (info := info) (music := Relocate.word m 2) hs
    have hlow : (0xc80 + 11 + info.songs : Int) ≤ info.music := by
      have := hc.low
      unfold lowest at this
      rw [if_pos ht] at this
      exact this
    refine ⟨66, 0xc80, 0x603, _, _, plan_rmt hm hc ht h.some h.routine (by omega) h.area, ?_, Or.inr ⟨rfl, 0xc80, 0xc80 + 11 + info.songs, by omega, by omega, ?_, ?_⟩⟩
    · rw [length_three, hr6, List.length_drop, List.length_take]
      omega
    · intro p h1 h2
      exact ⟨fun hp => by have := him p hp; omega, fun hp => by have := hir p hp; omega⟩
    · rw [hmade (by rw [ht]; decide)]
      exact plays_rmt hm hc ht (by omega)
  case fc =>
    have ha : routineArea info = (((0x400 : Nat) : Int), ((0x8bd : Nat) : Int)) := by unfold routineArea; rw [ht]; rfl
    obtain ⟨rfl, rfl⟩ := hpl _ _ ha
    refine ⟨66, 0x400, 0x403, _, _, plan_fc hm hc ht h.some h.routine, ?_, Or.inr ⟨rfl, 0x200, 0x200, by omega, by omega, fun p h1 h2 => by omega, ?_⟩⟩
    · rw [length_two, List.length_append, hr6]
      show m.length + (0 + _) + 10 ≤ _
      omega
    · rw [hmade (by rw [ht]; decide)]
      have := plays_fc (rate := byteAt m 0x25) (mem := image [⟨true, 0xa00, m⟩, ⟨false, 0x400, [] ++ r.drop 6⟩]) hm ht
      intro song hsong st hsame hpc ha hs1 hs2
      rw [show (fun p : Int => (0x200 : Int) ≤ p ∧ p < 0x200) = fun _ => False from funext fun p => propext ⟨fun h => by omega, fun h => h.elim⟩] at hsame ⊢
      exact this song hsong st hsame hpc ha hs1 hs2
  all_goals
    have := h.some
    unfold playerRoutine at this
    rw [ht] at this
    exact nomatch this

end Asap.Convert
