import Verif.Lemmas.ConvertPlan

/-! # The memory after loading the SAP files: the other types -/

namespace Asap.Convert
open Asap Asap.Spec Asap.Spec.Convert Asap.Props
open Asap.Spec.Relocate (byteAt)

/-- The module and then code with the routine. -/
theorem module_two {info : Info} {m mb rest : List Nat} {music start last : Nat} (hmus : info.music = music) (hs : start + rest.length = last + 1) (hl : last < music)
    (hlen : (mb.length : Int) = moduleEnd info m - music + 1) (hb : ∀ i, i < mb.length → mb.getD i 0 = m.getD ((if info.type = .fc then 0 else 6) + i) 0) :
    ModuleBytes info m (image [⟨true, music, mb⟩, ⟨false, start, rest⟩]) := by
  intro p hp
  unfold InModule at hp
  show Block.put _ (Block.put _ _) p = _
  rw [put_out (Or.inr (by show (start : Int) + rest.length ≤ p; omega)), put_in ⟨by show (music : Int) ≤ p; omega, by show p < (music : Int) + mb.length; omega⟩]
  show ((mb.getD (p - music).toNat 0 : Nat) : Int) = _
  rw [hb _ (by omega), hmus]

theorem routine_two {info : Info} {r mb code : List Nat} {music player start last : Nat} (h : Routine r player last) (hpl : player < last) (ha : routineArea info = ((player : Int), (last : Int))) (hs : start + code.length = player) :
    RoutineBytes info r (image [⟨true, music, mb⟩, ⟨false, start, code ++ r.drop 6⟩]) := by
  intro p hp
  unfold InRoutine at hp
  rw [ha] at hp ⊢
  have h1 : (player : Int) ≤ p := hp.1
  have h2 : p ≤ (last : Int) := hp.2
  have hr : (r.drop 6).length = last - player + 1 := by rw [List.length_drop, h.length]; omega
  show Block.put _ _ p = _
  rw [put_in ⟨by show (start : Int) ≤ p; omega, by show p < (start : Int) + (code ++ r.drop 6).length; rw [List.length_append]; omega⟩]
  show (((code ++ r.drop 6).getD (p - start).toNat 0 : Nat) : Int) = (r.getD (6 + (p - player).toNat) 0 : Nat)
  rw [getD_append_right (by omega), getD_drop]
  congr 3
  omega

/-- The module, code and the routine. -/
theorem module_three {info : Info} {m mb code rest : List Nat} {music start cs last : Nat} (hmus : info.music = music) (hs : start + rest.length ≤ music) (hc : cs + code.length ≤ music)
    (hlen : (mb.length : Int) = moduleEnd info m - music + 1) (hb : ∀ i, i < mb.length → mb.getD i 0 = m.getD ((if info.type = .fc then 0 else 6) + i) 0) :
    ModuleBytes info m (image [⟨true, music, mb⟩, ⟨false, cs, code⟩, ⟨false, start, rest⟩]) := by
  intro p hp
  unfold InModule at hp
  show Block.put _ (Block.put _ (Block.put _ _)) p = _
  rw [put_out (Or.inr (by show (start : Int) + rest.length ≤ p; omega)), put_out (Or.inr (by show (cs : Int) + code.length ≤ p; omega)),
    put_in ⟨by show (music : Int) ≤ p; omega, by show p < (music : Int) + mb.length; omega⟩]
  show ((mb.getD (p - music).toNat 0 : Nat) : Int) = _
  rw [hb _ (by omega), hmus]

theorem routine_three {info : Info} {r mb code : List Nat} {music player last cs : Nat} (h : Routine r player last) (hpl : player < last) (ha : routineArea info = ((player : Int), (last : Int))) :
    RoutineBytes info r (image [⟨true, music, mb⟩, ⟨false, cs, code⟩, ⟨false, player, r.drop 6⟩]) := by
  intro p hp
  unfold InRoutine at hp
  rw [ha] at hp ⊢
  have h1 : (player : Int) ≤ p := hp.1
  have h2 : p ≤ (last : Int) := hp.2
  have hr : (r.drop 6).length = last - player + 1 := by rw [List.length_drop, h.length]; omega
  show Block.put _ _ p = _
  rw [put_in ⟨h1, by show p < (player : Int) + (r.drop 6).length; omega⟩]
  show (((r.drop 6).getD (p - player).toNat 0 : Nat) : Int) = (r.getD (6 + (p - player).toNat) 0 : Nat)
  rw [getD_drop]

theorem formed_two {mb rest : List Nat} {music start : Nat} (h1 : 0 < mb.length) (h2 : AllBytes mb) (h3 : music + mb.length ≤ 65536) (h4 : 0 < rest.length) (h5 : AllBytes rest)
    (h6 : start + rest.length ≤ 65536) (h7 : start ≠ 0xffff) : ∀ x ∈ [(⟨true, music, mb⟩ : Block), ⟨false, start, rest⟩], x.WellFormed := by
  intro x hx
  simp only [List.mem_cons, List.not_mem_nil, or_false] at hx
  rcases hx with rfl | rfl
  · exact formed h1 h2 h3 (Or.inl rfl)
  · exact formed h4 h5 h6 (Or.inr h7)

theorem formed_three {mb code rest : List Nat} {music cs start : Nat} (h1 : 0 < mb.length) (h2 : AllBytes mb) (h3 : music + mb.length ≤ 65536) (h8 : 0 < code.length) (h9 : AllBytes code)
    (h10 : cs + code.length ≤ 65536) (h11 : cs ≠ 0xffff) (h4 : 0 < rest.length) (h5 : AllBytes rest)
    (h6 : start + rest.length ≤ 65536) (h7 : start ≠ 0xffff) : ∀ x ∈ [(⟨true, music, mb⟩ : Block), ⟨false, cs, code⟩, ⟨false, start, rest⟩], x.WellFormed := by
  intro x hx
  simp only [List.mem_cons, List.not_mem_nil, or_false] at hx
  rcases hx with rfl | rfl | rfl
  · exact formed h1 h2 h3 (Or.inl rfl)
  · exact formed h8 h9 h10 (Or.inr h11)
  · exact formed h4 h5 h6 (Or.inr h7)

theorem encodeBlocks_two (a b : Block) : encodeBlocks [a, b] = a.encode ++ b.encode := by
  show a.encode ++ (b.encode ++ []) = _
  rw [List.append_nil]

theorem encodeBlocks_three (a b c : Block) : encodeBlocks [a, b, c] = a.encode ++ (b.encode ++ c.encode) := by
  show a.encode ++ (b.encode ++ (c.encode ++ [])) = _
  rw [List.append_nil]

theorem table_bytes {info : Info} (hp : ∀ k, info.songPos k < 256) : AllBytes (table info) := by
  intro b hb
  unfold table songPosArray at hb
  obtain ⟨k, _, rfl⟩ := List.mem_map.mp (List.mem_of_mem_take hb)
  exact hp k

/-- Where the songs begin. -/
theorem sends_songPos {info : Info} (hd : Expressible info 66 0 0) {player one many offset : Nat} (h1 : one ≤ player) (h2 : many ≤ player) (h3 : player + offset < 65536) :
    Sends (writeExecutableHeaderForSongPos false info player one many offset)
      ((if info.songs ≠ 1 then (player : Int) - many - info.songs else player - one), (((if info.songs ≠ 1 then (player : Int) - many else player - one), (player : Int) + offset)))
      (Sap.headerBytes info 66 (if info.songs ≠ 1 then (player : Int) - many else player - one) (player + offset)) := by
  unfold writeExecutableHeaderForSongPos
  by_cases h : info.songs ≠ 1
  · rw [if_pos h, if_pos h, if_pos h]
    exact (sends_header (described_b hd (by omega) (by omega))).bind (Sends.pure _) (List.append_nil _)
  · rw [if_neg h, if_neg h, if_neg h]
    exact (sends_header (described_b hd (by omega) (by omega))).bind (Sends.pure _) (List.append_nil _)

/-! ## DLT -/

/-- The bytes of a DLT module. -/
def dltBytes (m : List Nat) : List Nat := m.drop 6 ++ (if m.length = 0x2c06 then [0] else [])

def dltStart (info : Info) : Nat := if info.songs ≠ 1 then 0x3f9 - info.songs else 0x3fb
def dltInit (info : Info) : Nat := if info.songs ≠ 1 then 0x3f9 else 0x3fb

theorem dltCode_length {info : Info} (h : info.songs ≤ 32) : dltStart info + (dltCode info (dltStart info)).length = 0x400 := by
  unfold dltCode dltStart
  by_cases h1 : info.songs ≠ 1
  · rw [if_pos h1, if_pos h1, List.length_append, table_length h]
    show 0x3f9 - info.songs + (info.songs + 7) = _
    omega
  · rw [if_neg h1, if_neg h1]; rfl

theorem dltCode_bytes {info : Info} {start : Nat} (hp : ∀ k, info.songPos k < 256) (hs : start < 65536) : AllBytes (dltCode info start) := by
  unfold dltCode
  split_ifs
  · refine allBytes_append (table_bytes hp) ?_
    intro b hb
    simp only [List.mem_cons, List.not_mem_nil, or_false] at hb
    omega
  · intro b hb
    simp only [List.mem_cons, List.not_mem_nil, or_false] at hb
    omega

theorem dlt_module {info : Info} {m : List Nat} (hm : IsModule info m) (ht : info.type = .dlt) (hmark : m.take 2 = [0xff, 0xff]) :
    Emits (writeDltModule m) (Block.mk true 0x2000 (dltBytes m)).encode := by
  have hfc : info.type ≠ .fc := by rw [ht]; decide
  have h := hm.dlt ht
  have hmus := hm.music hfc
  have hw : Relocate.word m 2 = 0x2000 := by omega
  have hblk := hm.block hfc (by rw [ht]; decide)
  rw [hw] at hblk
  unfold writeDltModule dltBytes
  by_cases h1 : m.length = 0x2c06
  · rw [if_pos h1, if_pos h1]
    have e4 : m.take 4 = [0xff, 0xff] ++ word 0x2000 := by
      conv => lhs; rw [module_head hm.bytes (by omega), hmark, hw]
      rfl
    refine ((emits_bytesI (a := m) (i := 0) (j := 4) (i' := 0) (j' := 4) rfl rfl (by omega) (by omega)).bind ((emits_word' (v := 0x4c00) (by decide)).bind
      ((emits_rest (a := m) (i := 6) (i' := 6) rfl rfl (by omega)).bind (emits_byte 0)))).cast ?_
    rw [List.drop_zero, e4]
    unfold Block.encode Block.body
    simp only [if_true]
    have el : (0x2000 : Nat) + (List.drop 6 m ++ [0]).length - 1 = 0x4c00 := by rw [List.length_append, List.length_drop]; simp; omega
    rw [el]
    rfl
  · rw [if_neg h1, if_neg h1, List.append_nil]
    have := module_block hm.bytes (by omega) hmark (by rw [hw]; exact hblk)
    rw [hw] at this
    rw [this]
    exact (emits_rest (a := m) (i := 0) (i' := 0) rfl rfl (by omega))

theorem plan_dlt {info : Info} {m r : List Nat} (hm : IsModule info m) (hc : Convertible info m) (ht : info.type = .dlt)
    (hr : playerRoutine info = some r) (h : Routine r 0x400 0xc46) :
    Plan info m r 66 (dltInit info) 0x503 ⟨true, 0x2000, dltBytes m⟩ [⟨false, dltStart info, dltCode info (dltStart info) ++ r.drop 6⟩] := by
  have hfc : info.type ≠ .fc := by rw [ht]; decide
  have hs := hc.described.songs
  have hd := hm.dlt ht
  have hblk := hm.block hfc (by rw [ht]; decide)
  have hmus := hm.music hfc
  have ha : routineArea info = (0x400, 0xc46) := by unfold routineArea; rw [ht]
  have hend : moduleEnd info m = 0x4c00 := by unfold moduleEnd; rw [if_neg hfc, if_pos ht]
  have hst : dltStart info < 0x400 := by unfold dltStart; split <;> omega
  have hin : dltInit info < 0x400 := by unfold dltInit; split <;> omega
  have hcl := dltCode_length (info := info) (by omega)
  have hr7 : (r.drop 6).length = 0xc46 - 0x400 + 1 := by rw [List.length_drop, h.length]
  have hbl : (dltBytes m).length = 0x2c01 := by
    unfold dltBytes
    rw [List.length_append, List.length_drop]
    split_ifs
    · simp; omega
    · simp; omega
  refine ⟨?_, rfl, ?_, described_b hc.described (by omega) (by omega), ?_, ?_⟩
  · refine sends_executable hr h (by decide) (by decide) (by omega) ?_
    unfold writeModule
    rw [ht]
    unfold writeDlt
    have hsp := sends_songPos hc.described (player := 0x400) (one := 5) (many := 7) (offset := 0x103) (by decide) (by decide) (by decide)
    rw [show (if info.songs ≠ 1 then ((0x400 : Nat) : Int) - (7 : Nat) else (0x400 : Nat) - (5 : Nat)) = dltInit info by unfold dltInit; split <;> rfl,
      show (if info.songs ≠ 1 then ((0x400 : Nat) : Int) - (7 : Nat) - info.songs else (0x400 : Nat) - (5 : Nat)) = dltStart info by unfold dltStart; split <;> omega] at hsp
    refine hsp.bind ((Sends.of (dlt_module hm ht (hc.marked (Or.inl ht)))).bind ((Sends.of (emits_dltInit (info := info) (by omega) (start := dltStart info) (by omega))).bind
      ((Sends.of (emits_rest (a := r) (i := 6) (i' := 6) rfl (by rw [h.length]; omega) (by rw [h.length]; omega))).bind (Sends.pure _) rfl) rfl) rfl) ?_
    rw [encodeBlocks_two, code_block h (by omega) hcl]
    simp only [List.append_assoc, List.append_nil]
    rfl
  · refine formed_two (by omega) ?_ (by omega) (by rw [List.length_append]; omega) (allBytes_append (dltCode_bytes hm.positions (by omega)) (allBytes_drop h.bytes))
      (by rw [List.length_append]; omega) (by omega)
    unfold dltBytes
    refine allBytes_append (allBytes_drop hm.bytes) ?_
    intro b hb
    split_ifs at hb
    · simp at hb; omega
    · simp at hb
  · refine module_two (last := 0xc46) (by omega) (by rw [List.length_append]; omega) (by omega) (by rw [hend]; omega) ?_
    intro i hi
    rw [if_neg hfc]
    unfold dltBytes
    by_cases hi2 : i < (m.drop 6).length
    · rw [getD_append_left hi2, getD_drop]
    · rw [getD_append_right (by omega)]
      have : m.length ≤ 6 + i := by rw [List.length_drop] at hi2; omega
      rw [List.getD_eq_getElem?_getD (l := m), List.getElem?_eq_none this]
      split_ifs
      · have : i - (m.drop 6).length = 0 := by rw [List.length_drop] at *; omega
        rw [this]; rfl
      · rfl
  · exact routine_two h (by decide) ha hcl

/-! ## MPT -/

def mptStart (info : Info) : Nat := if info.songs ≠ 1 then 0x4ef - info.songs else 0x4f3
def mptInit (info : Info) : Nat := if info.songs ≠ 1 then 0x4ef else 0x4f3

theorem mptCode_length {info : Info} {music : Nat} (h : info.songs ≤ 32) : mptStart info + (mptCode info music (mptStart info)).length = 0x500 := by
  unfold mptCode mptStart
  by_cases h1 : info.songs ≠ 1
  · rw [if_pos h1, if_pos h1, List.length_append, table_length h]
    show 0x4ef - info.songs + (info.songs + 17) = _
    omega
  · rw [if_neg h1, if_neg h1]; rfl

theorem mptCode_bytes {info : Info} {music start : Nat} (hp : ∀ k, info.songPos k < 256) (hs : start < 65536) (hm : music < 65536) : AllBytes (mptCode info music start) := by
  unfold mptCode
  split_ifs
  · refine allBytes_append (table_bytes hp) ?_
    intro b hb
    simp only [List.mem_cons, List.not_mem_nil, or_false] at hb
    omega
  · intro b hb
    simp only [List.mem_cons, List.not_mem_nil, or_false] at hb
    omega

theorem plan_mpt {info : Info} {m r : List Nat} (hm : IsModule info m) (hc : Convertible info m) (ht : info.type = .mpt)
    (hr : playerRoutine info = some r) (h : Routine r 0x500 0xdb2) :
    Plan info m r 66 (mptInit info) 0x503 ⟨true, Relocate.word m 2, m.drop 6⟩ [⟨false, mptStart info, mptCode info (Relocate.word m 2) (mptStart info) ++ r.drop 6⟩] := by
  have hfc : info.type ≠ .fc := by rw [ht]; decide
  have hs := hc.described.songs
  have hblk := hm.block hfc (by rw [ht]; decide)
  have hmus := hm.music hfc
  have hlen := hm.length hfc
  have ha : routineArea info = (0x500, 0xdb2) := by unfold routineArea; rw [ht]
  have hend : moduleEnd info m = Relocate.word m 4 := by unfold moduleEnd; rw [if_neg hfc, if_neg (by rw [ht]; decide)]
  have hlow : (0xdb2 : Int) + 1 ≤ info.music := by
    have := hc.low
    unfold lowest at this
    rw [if_neg (by rw [ht]; decide), if_neg (by rw [ht]; decide), ha] at this
    exact this
  have hfit := hc.fits
  have hne := hc.nonempty
  rw [hend] at hfit hne
  have hst : mptStart info < 0x500 := by unfold mptStart; split <;> omega
  have hin : mptInit info < 0x500 := by unfold mptInit; split <;> omega
  have hcl := mptCode_length (info := info) (music := Relocate.word m 2) (by omega)
  have hr7 : (r.drop 6).length = 0xdb2 - 0x500 + 1 := by rw [List.length_drop, h.length]
  have hm6 : (m.drop 6).length = m.length - 6 := List.length_drop
  have hmark := hc.marked (Or.inr (Or.inl ht))
  refine ⟨?_, rfl, ?_, described_b hc.described (by omega) (by omega), ?_, ?_⟩
  · refine sends_executable hr h (by decide) (by decide) (by omega) ?_
    unfold writeModule
    rw [ht]
    unfold writeMpt
    have hsp := sends_songPos hc.described (player := 0x500) (one := 13) (many := 17) (offset := 3) (by decide) (by decide) (by decide)
    rw [show (if info.songs ≠ 1 then ((0x500 : Nat) : Int) - (17 : Nat) else (0x500 : Nat) - (13 : Nat)) = mptInit info by unfold mptInit; split <;> rfl,
      show (if info.songs ≠ 1 then ((0x500 : Nat) : Int) - (17 : Nat) - info.songs else (0x500 : Nat) - (13 : Nat)) = mptStart info by unfold mptStart; split <;> omega] at hsp
    refine hsp.bind ((Sends.of (emits_rest (a := m) (i := 0) (i' := 0) rfl rfl (by omega))).bind ((Sends.of (emits_mptInit (info := info) (by omega) (start := mptStart info) (by omega) hmus (by omega))).bind
      ((Sends.of (emits_rest (a := r) (i := 6) (i' := 6) rfl (by rw [h.length]; omega) (by rw [h.length]; omega))).bind (Sends.pure _) rfl) rfl) rfl) ?_
    rw [encodeBlocks_two, code_block h (by omega) hcl, module_block hm.bytes (by omega) hmark hblk]
    simp only [List.append_assoc, List.append_nil, List.drop_zero]
    rfl
  · exact formed_two (by omega) (allBytes_drop hm.bytes) (by omega) (by rw [List.length_append]; omega)
      (allBytes_append (mptCode_bytes hm.positions (by omega) (by omega)) (allBytes_drop h.bytes)) (by rw [List.length_append]; omega) (by omega)
  · refine module_two (last := 0xdb2) hmus (by rw [List.length_append]; omega) (by omega) (by rw [hend]; omega) ?_
    intro i _
    rw [if_neg hfc, getD_drop]
  · exact routine_two h (by decide) ha hcl

end Asap.Convert
