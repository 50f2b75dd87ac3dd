import Verif.Lemmas.ConvertPlans

/-! # The memory after loading the SAP files: RMT, TMC, TM2 and FC -/

namespace Asap.Convert
open Asap Asap.Spec Asap.Spec.Convert Asap.Props
open Asap.Spec.Relocate (byteAt)

theorem Sends.lift_bind {α β : Type} {x : M α} {u : α} {n : α → W β} {v : β} {b : List Nat} (h : x = .ok u) (hn : Sends (n u) v b) : Sends (W.lift x >>= n) v b :=
  (Sends.lift h).bind hn (List.nil_append _)

/-! ## RMT -/

theorem rmtCode_length {info : Info} {music : Nat} (h : 1 ≤ info.songs ∧ info.songs ≤ 32) : 0 < (rmtCode info music).length ∧ (rmtCode info music).length ≤ 11 + info.songs := by
  unfold rmtCode
  by_cases h1 : info.songs ≠ 1
  · rw [if_pos h1, List.length_append, table_length h.2]
    show 0 < 11 + info.songs ∧ 11 + info.songs ≤ 11 + info.songs
    omega
  · rw [if_neg h1]
    show 0 < 9 ∧ 9 ≤ 11 + info.songs
    omega

theorem rmtCode_bytes {info : Info} {music : Nat} (hp : ∀ k, info.songPos k < 256) (hm : music < 65536) : AllBytes (rmtCode info music) := by
  unfold rmtCode
  split_ifs
  · refine allBytes_append ?_ (table_bytes hp)
    intro b hb
    simp only [List.mem_cons, List.not_mem_nil, or_false] at hb
    omega
  · intro b hb
    simp only [List.mem_cons, List.not_mem_nil, or_false] at hb
    omega

theorem getWord_module {m : List Nat} (h : 6 ≤ m.length) : getWord m 4 = .ok (Relocate.word m 4) := by
  unfold getWord rd
  rw [List.getElem?_eq_getElem (by omega), List.getElem?_eq_getElem (by omega)]
  unfold Relocate.word
  rw [byteAt_get (by omega), byteAt_get (by omega)]
  rfl

theorem plan_rmt {info : Info} {m r : List Nat} {last : Nat} (hm : IsModule info m) (hc : Convertible info m) (ht : info.type = .rmt)
    (hr : playerRoutine info = some r) (h : Routine r 0x390 last) (hl : 0x390 < last ∧ last < 0xc80) (ha : routineArea info = (0x390, (last : Int))) :
    Plan info m r 66 0xc80 0x603 ⟨true, Relocate.word m 2, (m.take (Relocate.word m 4 + 7 - Relocate.word m 2)).drop 6⟩
      [⟨false, 0xc80, rmtCode info (Relocate.word m 2)⟩, ⟨false, 0x390, r.drop 6⟩] := by
  have hfc : info.type ≠ .fc := by rw [ht]; decide
  have hs := hc.described.songs
  have hblk := hm.rmtBlock ht
  have hmus := hm.music hfc
  have hlen := hm.length hfc
  have hend : moduleEnd info m = Relocate.word m 4 := by unfold moduleEnd; rw [if_neg hfc, if_neg (by rw [ht]; decide)]
  have hlow : (0xc80 + 11 + info.songs : Int) ≤ info.music := by
    have := hc.low
    unfold lowest at this
    rw [if_pos ht] at this
    exact this
  have hfit := hc.fits
  have hne := hc.nonempty
  rw [hend] at hfit hne
  have hcl := rmtCode_length (info := info) (music := Relocate.word m 2) hs
  have hr7 : (r.drop 6).length = last - 0x390 + 1 := by rw [List.length_drop, h.length]; omega
  have hm6 : ((m.take (Relocate.word m 4 + 7 - Relocate.word m 2)).drop 6).length = Relocate.word m 4 + 7 - Relocate.word m 2 - 6 := by rw [List.length_drop, List.length_take]; omega
  have hmark := hc.marked (Or.inr (Or.inr (Or.inl ht)))
  refine ⟨?_, rfl, ?_, described_b hc.described (by omega) (by omega), ?_, ?_⟩
  · refine sends_executable hr h (by decide) (by omega) (by omega) ?_
    unfold writeModule
    rw [ht]
    unfold writeRmt rmtInit
    refine (sends_header (described_b hc.described (by omega) (by omega))).bind ((Sends.lift (getWord_module (by omega))).bind
      ((Sends.of (emits_bytesI (a := m) (i := 0) (i' := 0) (j' := Relocate.word m 4 + 7 - Relocate.word m 2) rfl (by omega) (by omega) (by omega))).bind
      ((Sends.of (emits_rmtInit (info := info) (by omega) hmus (by omega))).bind
      ((Sends.of (emits_rest (a := r) (i := 2) (i' := 2) rfl (by rw [h.length]; omega) (by rw [h.length]; omega))).bind (Sends.pure _) rfl) rfl) rfl) rfl) ?_
    rw [encodeBlocks_three, module_part hm.bytes (by omega) (by omega) hmark (by omega), routine_rest h (by omega)]
    simp only [List.append_nil, List.drop_zero, Nat.sub_zero]
    rfl
  · exact formed_three (by omega) (allBytes_drop (allBytes_take hm.bytes)) (by omega) hcl.1 (rmtCode_bytes hm.positions (by omega)) (by omega) (by decide) (by omega)
      (allBytes_drop h.bytes) (by omega) (by decide)
  · refine module_three (last := last) hmus (by omega) (by omega) (by rw [hend]; omega) ?_
    intro i hi
    rw [if_neg hfc, getD_drop, getD_take (by omega)]
  · exact routine_three h hl.1 ha

/-! ## TM2 -/

theorem tm2Code_length {info : Info} {music : Nat} : 0 < (tm2Code info music).length ∧ (tm2Code info music).length ≤ 17 := by
  unfold tm2Code
  split_ifs
  · exact ⟨by simp, by simp⟩
  · exact ⟨by simp, by simp⟩

theorem tm2Code_bytes {info : Info} {music : Nat} (hm : music < 65536) : AllBytes (tm2Code info music) := by
  unfold tm2Code
  split_ifs
  · intro b hb
    simp only [List.mem_cons, List.not_mem_nil, or_false] at hb
    omega
  · intro b hb
    simp only [List.mem_cons, List.not_mem_nil, or_false] at hb
    omega

theorem plan_tm2 {info : Info} {m r : List Nat} (hm : IsModule info m) (hc : Convertible info m) (ht : info.type = .tm2)
    (hr : playerRoutine info = some r) (h : Routine r 0x500 0x136b) :
    Plan info m r 66 0x1380 0x803 ⟨true, Relocate.word m 2, m.drop 6⟩ [⟨false, 0x1380, tm2Code info (Relocate.word m 2)⟩, ⟨false, 0x500, r.drop 6⟩] := by
  have hfc : info.type ≠ .fc := by rw [ht]; decide
  have hs := hc.described.songs
  have hblk := hm.block hfc (by rw [ht]; decide)
  have hmus := hm.music hfc
  have hlen := hm.length hfc
  have ha : routineArea info = (0x500, 0x136b) := by unfold routineArea; rw [ht]
  have hend : moduleEnd info m = Relocate.word m 4 := by unfold moduleEnd; rw [if_neg hfc, if_neg (by rw [ht]; decide)]
  have hlow : (0x1391 : Int) ≤ info.music := by
    have := hc.low
    unfold lowest at this
    rw [if_neg (by rw [ht]; decide), if_pos ht] at this
    exact this
  have hfit := hc.fits
  have hne := hc.nonempty
  rw [hend] at hfit hne
  have hcl := tm2Code_length (info := info) (music := Relocate.word m 2)
  have hr7 : (r.drop 6).length = 0x136b - 0x500 + 1 := by rw [List.length_drop, h.length]
  have hm6 : (m.drop 6).length = m.length - 6 := List.length_drop
  have hmark := hc.marked (Or.inr (Or.inr (Or.inr (Or.inr ht))))
  refine ⟨?_, rfl, ?_, described_b hc.described (by omega) (by omega), ?_, ?_⟩
  · refine sends_executable hr h (by decide) (by omega) (by omega) ?_
    unfold writeModule
    rw [ht]
    unfold writeTm2
    refine (sends_header (described_b hc.described (by omega) (by omega))).bind 
      ((Sends.of (emits_rest (a := m) (i := 0) (i' := 0) rfl rfl (by omega))).bind
      ((Sends.of (emits_tm2Init (info := info) hmus (by omega))).bind
      ((Sends.of (emits_rest (a := r) (i := 2) (i' := 2) rfl (by rw [h.length]; omega) (by rw [h.length]; omega))).bind (Sends.pure _) rfl) rfl) rfl) ?_
    rw [encodeBlocks_three, module_block hm.bytes (by omega) hmark hblk, routine_rest h (by omega)]
    simp only [List.append_nil, List.drop_zero]
  · exact formed_three (by omega) (allBytes_drop hm.bytes) (by omega) hcl.1 (tm2Code_bytes (by omega)) (by omega) (by decide) (by omega)
      (allBytes_drop h.bytes) (by omega) (by decide)
  · refine module_three (last := 0x136b) hmus (by omega) (by omega) (by rw [hend]; omega) ?_
    intro i hi
    rw [if_neg hfc, getD_drop]
  · exact routine_three h (by decide) ha

/-! ## FC -/

theorem plan_fc {info : Info} {m r : List Nat} (hm : IsModule info m) (hc : Convertible info m) (ht : info.type = .fc)
    (hr : playerRoutine info = some r) (h : Routine r 0x400 0x8bd) :
    Plan info m r 66 0x400 0x403 ⟨true, 0xa00, m⟩ [⟨false, 0x400, [] ++ r.drop 6⟩] := by
  have hs := hc.described.songs
  have hmus := hm.fc ht
  have ha : routineArea info = (0x400, 0x8bd) := by unfold routineArea; rw [ht]
  have hend : moduleEnd info m = 0xa00 + m.length - 1 := by unfold moduleEnd; rw [if_pos ht]
  have hfit := hc.fits
  rw [hend] at hfit
  have hr7 : (r.drop 6).length = 0x8bd - 0x400 + 1 := by rw [List.length_drop, h.length]
  refine ⟨?_, rfl, ?_, described_b hc.described (by omega) (by omega), ?_, ?_⟩
  · refine sends_executable hr h (by decide) (by omega) (by omega) ?_
    unfold writeModule
    rw [ht]
    unfold writeFc
    rw [hmus.1]
    refine (sends_header (described_b hc.described (by omega) (by omega))).bind 
      ((Sends.of (emits_word' (v := 0xffff) (by decide))).bind ((Sends.of (emits_word' (v := 0xa00) (by decide))).bind ((Sends.of (emits_wordI (v := 0xa00 + m.length - 1) (by omega))).bind
      ((Sends.of (emits_rest (a := m) (i := 0) (i' := 0) rfl rfl (by omega))).bind
      ((Sends.of (emits_rest (a := r) (i := 2) (i' := 2) rfl (by rw [h.length]; omega) (by rw [h.length]; omega))).bind (Sends.pure _) rfl) rfl) rfl) rfl) rfl) ?_
    rw [encodeBlocks_two, List.nil_append, routine_rest h (by omega)]
    rw [show (0xa00 + (m.length : Int) - 1).toNat = 0xa00 + m.length - 1 by omega]
    simp only [List.append_nil, List.drop_zero]
    conv => rhs; unfold Block.encode
    unfold Block.body
    simp [word, Block.encode, Block.body]
  · exact formed_two (by omega) hm.bytes (by omega) (by rw [List.nil_append]; omega) (by rw [List.nil_append]; exact allBytes_drop h.bytes) (by rw [List.nil_append]; omega) (by decide)
  · refine module_two (last := 0x8bd) hmus.1 (by rw [List.nil_append]; omega) (by omega) (by rw [hend]; omega) ?_
    intro i hi
    rw [if_pos ht, Nat.zero_add]
  · exact routine_two h (by decide) ha rfl

/-! ## TMC -/

def tmcRate (rate : Nat) : Nat := if rate = 2 then 0x4f2 else if rate = 1 then 0x500 else 0x4f0
def tmcFrame (rate : Nat) : Nat := if rate = 2 then 0x4f7 else if rate = 1 then 0x503 else 0x4f6
def tmcStart (info : Info) (rate : Nat) : Nat := if info.songs ≠ 1 then tmcRate rate - 14 else tmcRate rate - 11

theorem tmcRate_eq (rate : Nat) : rateAddr rate = tmcRate rate := by unfold rateAddr tmcRate; split_ifs <;> rfl
theorem tmcFrame_eq (rate : Nat) : frameAddr rate = tmcFrame rate := by unfold frameAddr tmcFrame; split_ifs <;> rfl

theorem perFrame_length {rate : Nat} (hr : 1 ≤ rate ∧ rate ≤ 4) : tmcRate rate + (perFrameCode rate).length = 0x500 := by
  obtain rfl | rfl | rfl | rfl : rate = 1 ∨ rate = 2 ∨ rate = 3 ∨ rate = 4 := by omega
  all_goals rfl

theorem perFrame_bytes {rate : Nat} (hr : 1 ≤ rate ∧ rate ≤ 4) : AllBytes (perFrameCode rate) := by
  obtain rfl | rfl | rfl | rfl : rate = 1 ∨ rate = 2 ∨ rate = 3 ∨ rate = 4 := by omega
  all_goals exact fun b hb => by revert b; decide

theorem tmcCode_length {info : Info} {music rate : Nat} (hr : 1 ≤ rate ∧ rate ≤ 4) : tmcStart info rate + (tmcCode info music rate).length = 0x500 := by
  have h := perFrame_length hr
  have h2 : 0x4f0 ≤ tmcRate rate := by unfold tmcRate; split_ifs <;> omega
  unfold tmcStart tmcCode
  split_ifs
  · rw [List.length_append]
    show tmcRate rate - 14 + (14 + (perFrameCode rate).length) = _
    omega
  · rw [List.length_append]
    show tmcRate rate - 11 + (11 + (perFrameCode rate).length) = _
    omega

theorem tmcCode_bytes {info : Info} {music rate : Nat} (hr : 1 ≤ rate ∧ rate ≤ 4) (hm : music < 65536) : AllBytes (tmcCode info music rate) := by
  unfold tmcCode
  split_ifs
  · refine allBytes_append ?_ (perFrame_bytes hr)
    intro b hb
    simp only [List.mem_cons, List.not_mem_nil, or_false] at hb
    omega
  · refine allBytes_append ?_ (perFrame_bytes hr)
    intro b hb
    simp only [List.mem_cons, List.not_mem_nil, or_false] at hb
    omega

theorem tmc_offsets {rate : Nat} (hr : 1 ≤ rate ∧ rate ≤ 4) : ∃ a b : Int, tmcOffsets rate = .ok (a, b) ∧ 0x500 + a = tmcFrame rate ∧ 0x500 + a + b = tmcRate rate - 11 := by
  obtain rfl | rfl | rfl | rfl : rate = 1 ∨ rate = 2 ∨ rate = 3 ∨ rate = 4 := by omega
  all_goals exact ⟨_, _, rfl, by decide, by decide⟩

theorem plan_tmc {info : Info} {m r : List Nat} (hm : IsModule info m) (hc : Convertible info m) (ht : info.type = .tmc)
    (hr : playerRoutine info = some r) (h : Routine r 0x500 0xf68) :
    Plan info m r 66 (tmcStart info (byteAt m 0x25)) (tmcFrame (byteAt m 0x25)) ⟨true, Relocate.word m 2, m.drop 6⟩
      [⟨false, tmcStart info (byteAt m 0x25), tmcCode info (Relocate.word m 2) (byteAt m 0x25) ++ r.drop 6⟩] := by
  have hfc : info.type ≠ .fc := by rw [ht]; decide
  have hs := hc.described.songs
  have hblk := hm.block hfc (by rw [ht]; decide)
  have hmus := hm.music hfc
  have hlen := hm.length hfc
  have hrate := hm.rate ht
  have hrd : rd m 0x25 = .ok (byteAt m 0x25) := by
    unfold rd
    rw [List.getElem?_eq_getElem (by omega), byteAt_get (by omega)]
  generalize byteAt m 0x25 = rate at *
  have ha : routineArea info = (0x500, 0xf68) := by unfold routineArea; rw [ht]
  have hend : moduleEnd info m = Relocate.word m 4 := by unfold moduleEnd; rw [if_neg hfc, if_neg (by rw [ht]; decide)]
  have hlow : (0xf68 : Int) + 1 ≤ info.music := by
    have := hc.low
    unfold lowest at this
    rw [if_neg (by rw [ht]; decide), if_neg (by rw [ht]; decide), ha] at this
    exact this
  have hfit := hc.fits
  have hne := hc.nonempty
  rw [hend] at hfit hne
  have h2 : 0x4f0 ≤ tmcRate rate ∧ tmcRate rate ≤ 0x500 := by unfold tmcRate; split_ifs <;> omega
  have h3 : tmcFrame rate ≤ 0x503 := by unfold tmcFrame; split_ifs <;> omega
  have hst : tmcStart info rate < 0x500 := by unfold tmcStart; split <;> omega
  have hcl := tmcCode_length (info := info) (music := Relocate.word m 2) hrate
  have hr7 : (r.drop 6).length = 0xf68 - 0x500 + 1 := by rw [List.length_drop, h.length]
  have hm6 : (m.drop 6).length = m.length - 6 := List.length_drop
  have hmark := hc.marked (Or.inr (Or.inr (Or.inr (Or.inl ht))))
  refine ⟨?_, rfl, ?_, described_b hc.described (by omega) (by omega), ?_, ?_⟩
  · refine sends_executable hr h (by decide) (by decide) (by omega) ?_
    unfold writeModule
    rw [ht]
    unfold writeTmc
    obtain ⟨a, b, ho, e1, e2⟩ := tmc_offsets hrate
    have e3 : ((0x500 : Nat) : Int) + a + b - (if info.songs ≠ 1 then 3 else 0) = tmcStart info rate := by
      unfold tmcStart
      split_ifs <;> omega
    refine Sends.lift_bind hrd (Sends.lift_bind ho ?_)
    show Sends (do
      let ip ← writeExecutableHeader false info 66 (((0x500 : Nat) : Int) + a + b - (if info.songs ≠ 1 then 3 else 0)) (((0x500 : Nat) : Int) + a)
      writeBytes m 0 m.length
      writeTmcInit info rate (((0x500 : Nat) : Int) + a + b - (if info.songs ≠ 1 then 3 else 0)) (0x500 : Nat) (0xf68 : Nat)
      writeBytes r 6 (((0xf68 : Nat) : Int) - (0x500 : Nat) + 7)
      pure ip) _ _
    rw [e3, show ((0x500 : Nat) : Int) + a = tmcFrame rate from e1]
    refine (sends_header (described_b hc.described (by omega) (by omega))).bind ((Sends.of (emits_rest (a := m) (i := 0) (i' := 0) rfl rfl (by omega))).bind
      ((Sends.of (emits_tmcInit (info := info) hrate (start := tmcStart info rate) (by omega) hmus (by omega))).bind
      ((Sends.of (emits_rest (a := r) (i := 6) (i' := 6) rfl (by rw [h.length]; omega) (by rw [h.length]; omega))).bind (Sends.pure _) rfl) rfl) rfl) ?_
    rw [encodeBlocks_two, code_block h (by omega) hcl, module_block hm.bytes (by omega) hmark hblk]
    simp only [List.append_assoc, List.append_nil, List.drop_zero]
  · exact formed_two (by omega) (allBytes_drop hm.bytes) (by omega) (by rw [List.length_append]; omega)
      (allBytes_append (tmcCode_bytes hrate (by omega)) (allBytes_drop h.bytes)) (by rw [List.length_append]; omega) (by omega)
  · refine module_two (last := 0xf68) hmus (by rw [List.length_append]; omega) (by omega) (by rw [hend]; omega) ?_
    intro i _
    rw [if_neg hfc, getD_drop]
  · exact routine_two h (by decide) ha hcl

end Asap.Convert
