import Verif.Lemmas.ConvertPlans2

/-! # The code in the SAP files -/

namespace Asap.Convert
open Asap Asap.Spec Asap.Spec.Convert Asap.Props
open Asap.Spec.Relocate (byteAt)

/-- `Load` sets the address of the player. -/
def nativePlayer (info : Info) : Int := if info.player < 0 then (routineArea info).1 else info.player

theorem enters_same {keep : Int → Prop} {player : Int} : ∀ (l : List Int) (st : Isa.State), (∀ e ∈ l, e = player) → Enters keep player l st
  | [], _, _ => trivial
  | e :: l, st, h => ⟨{ st with pc := player }, Runs.refl _, (h e (List.mem_cons_self ..)).symm, fun _ hp => absurd rfl hp, rfl,
      fun back _ => enters_same l back fun x hx => h x (List.mem_cons_of_mem _ hx)⟩

theorem enters_entry {keep : Int → Prop} {player : Int} {f : Nat → Int} (h : ∀ k, f k = player) (n : Nat) (st : Isa.State) : Enters keep player ((List.range n).map f) st := by
  refine enters_same _ _ ?_
  intro e he
  obtain ⟨k, _, rfl⟩ := List.mem_map.mp he
  exact h k

/-- Code in the last block. -/
theorem holds_last {st : Isa.State} {mem : Int → Int} {code : Int → Prop} {start : Nat} {l rest c : List Nat} {i : Nat} {lo : Int} {ci : List Int}
    (hsame : ∀ p, code p → st.mem p = (Block.mk false start (l ++ rest)).put mem p) (hin : ∀ p, (start : Int) ≤ p → p < start + l.length → code p)
    (hsub : (l.drop i).take c.length = c) (hlo : lo = start + i) (hci : ci = c.map (Nat.cast (R := Int))) : Holds st.mem lo ci := by
  subst hlo hci
  have hil : i + c.length ≤ l.length ∨ c.length = 0 := by
    have : ((l.drop i).take c.length).length = c.length := by rw [hsub]
    simp at this
    omega
  have hh : Holds ((Block.mk false start (l ++ rest)).put mem) (start + i) (c.map (Nat.cast (R := Int))) := by
    refine holds_put (b := Block.mk false start (l ++ rest)) ?_
    show ((l ++ rest).drop i).take c.length = c
    rcases hil with h | h
    · rw [List.drop_append_of_le_length (by omega), List.take_append_of_le_length (by rw [List.length_drop]; omega), hsub]
    · rw [List.length_eq_zero_iff.mp h]; rfl
  refine hh.of fun j hj => hsame _ (hin _ (by omega) ?_)
  rw [List.length_map] at hj
  omega

theorem cast_low (n : Nat) : ((n % 256 : Nat) : Int) = (n : Int) % 256 := by omega
theorem cast_high (n : Nat) : ((n / 256 : Nat) : Int) = (n : Int) / 256 := by omega

/-- A song position in the table. -/
theorem table_at {info : Info} {st : Isa.State} {mem : Int → Int} {code : Int → Prop} {start : Nat} {l rest : List Nat} {i song : Nat} {p : Int}
    (hsame : ∀ p, code p → st.mem p = (Block.mk false start (l ++ rest)).put mem p) (hin : ∀ p, (start : Int) ≤ p → p < start + l.length → code p)
    (hs : info.songs ≤ 32) (hsub : (l.drop i).take info.songs = table info) (hp : p = start + i + song) (hsong : song < info.songs) : st.mem p = info.songPos song := by
  have h := holds_last (c := table info) hsame hin (by rw [table_length hs]; exact hsub) rfl rfl
  subst hp
  rw [h song (by rw [List.length_map, table_length hs]; exact hsong), List.getD_eq_getElem?_getD, List.getElem?_map, table_get hs hsong]
  rfl

/-! ## DLT -/

theorem plays_dlt {info : Info} {m rest : List Nat} {b : Block} {rate : Nat} (hm : IsModule info m) (hc : Convertible info m) (ht : info.type = .dlt) :
    Plays info rate (fun song => starts info.type (nativePlayer info) info.music song (info.songPos song)) (fun p => (dltStart info : Int) ≤ p ∧ p < 0x400) (dltInit info) 0x503
      (image [b, ⟨false, dltStart info, dltCode info (dltStart info) ++ rest⟩]) := by
  intro song hsong st hsame hpc ha hs1 hs2
  have hs := hc.described.songs
  have hcl := dltCode_length (info := info) (by omega)
  have hnp : nativePlayer info = 0x400 := by unfold nativePlayer routineArea; rw [hm.player, ht]; rfl
  have hin : ∀ p, (dltStart info : Int) ≤ p → p < dltStart info + (dltCode info (dltStart info)).length → (dltStart info : Int) ≤ p ∧ p < 0x400 := fun p _ _ => by omega
  have hpost : ∀ (st' back : Isa.State) (n : Nat), Enters (fun p => (dltStart info : Int) ≤ p ∧ p < 0x400) 0x503
      ((List.range n).map (entry info.type (if info.player < 0 then (routineArea info).1 else info.player) rate)) back := by
    intro st' back n
    refine enters_entry ?_ n back
    intro k
    rw [show (if info.player < 0 then (routineArea info).1 else info.player) = 0x400 from hnp, ht]
    rfl
  show Makes _ _ _ _ _ (starts info.type (nativePlayer info) info.music song (info.songPos song))
  rw [show starts info.type (nativePlayer info) info.music song (info.songPos song) = starts .dlt 0x400 info.music song (info.songPos song) by rw [hnp, ht]]
  by_cases h1 : info.songs ≠ 1
  · have hst : dltStart info = 0x3f9 - info.songs := if_pos h1
    have hcode : dltCode info (dltStart info) = table info ++ [0xaa, 0xbc, dltStart info % 256, dltStart info / 256, 0x4c, 0, 5] := if_pos h1
    have hini : dltInit info = 0x3f9 := if_pos h1
    refine dlt_many (t := dltStart info) (song := song) ?_ ?_ (by omega) (by omega) (by rw [hpc, hini]; rfl) ha rfl fun st' _ back _ n => hpost st' back n
    · refine holds_last (c := [0xaa, 0xbc, dltStart info % 256, dltStart info / 256, 0x4c, 0, 5]) (i := info.songs) hsame hin ?_ (by omega) ?_
      · rw [hcode, List.drop_left' (table_length hs.2)]
        rfl
      · simp only [List.map, cast_low, cast_high]
        rfl
    · refine table_at (i := 0) hsame hin hs.2 ?_ (by omega) hsong
      rw [hcode, List.drop_zero, List.take_left' (table_length hs.2)]
  · have hst : dltStart info = 0x3fb := if_neg h1
    have hcode : dltCode info (dltStart info) = [0xa0, 0, 0x4c, 0, 5] := if_neg h1
    have hini : dltInit info = 0x3fb := if_neg h1
    have h0 : song = 0 := by omega
    have hpos := hc.single (Or.inl ht) (by omega)
    subst h0
    show Makes _ _ _ _ _ [⟨0x500, none, none, some ((info.songPos 0 : Nat) : Int)⟩]
    rw [hpos]
    refine dlt_one ?_ (by rw [hpc, hini]; rfl) rfl fun st' _ back _ n => hpost st' back n
    refine holds_last (c := [0xa0, 0, 0x4c, 0, 5]) (i := 0) hsame hin ?_ (by omega) rfl
    rw [hcode]; rfl

/-! ## MPT -/

theorem plays_mpt {info : Info} {m rest : List Nat} {b : Block} {rate : Nat} (hm : IsModule info m) (hc : Convertible info m) (ht : info.type = .mpt) :
    Plays info rate (fun song => starts info.type (nativePlayer info) info.music song (info.songPos song)) (fun p => (mptStart info : Int) ≤ p ∧ p < 0x500) (mptInit info) 0x503
      (image [b, ⟨false, mptStart info, mptCode info (Relocate.word m 2) (mptStart info) ++ rest⟩]) := by
  intro song hsong st hsame hpc ha hs1 hs2
  have hs := hc.described.songs
  have hmus := hm.music (by rw [ht]; decide)
  have hcl := mptCode_length (info := info) (music := Relocate.word m 2) (by omega)
  generalize Relocate.word m 2 = music at *
  have hnp : nativePlayer info = 0x500 := by unfold nativePlayer routineArea; rw [hm.player, ht]; rfl
  have hin : ∀ p, (mptStart info : Int) ≤ p → p < mptStart info + (mptCode info music (mptStart info)).length → (mptStart info : Int) ≤ p ∧ p < 0x500 := fun p _ _ => by omega
  have hk : ∀ p, ((mptStart info : Int) ≤ p ∧ p < 0x500) → 512 ≤ p := by
    intro p hp
    have : 0x200 ≤ mptStart info := by unfold mptStart; split_ifs <;> omega
    omega
  have hpost : ∀ (st' back : Isa.State) (n : Nat), Enters (fun p => (mptStart info : Int) ≤ p ∧ p < 0x500) 0x503
      ((List.range n).map (entry info.type (if info.player < 0 then (routineArea info).1 else info.player) rate)) back := by
    intro st' back n
    refine enters_entry ?_ n back
    intro k
    rw [show (if info.player < 0 then (routineArea info).1 else info.player) = 0x500 from hnp, ht]
    rfl
  show Makes _ _ _ _ _ (starts info.type (nativePlayer info) info.music song (info.songPos song))
  rw [show starts info.type (nativePlayer info) info.music song (info.songPos song) = starts .mpt 0x500 music song (info.songPos song) by rw [hnp, ht, hmus]]
  by_cases h1 : info.songs ≠ 1
  · have hst : mptStart info = 0x4ef - info.songs := if_pos h1
    have hcode : mptCode info music (mptStart info) = table info ++ [0x48, 0xa0, music % 256, 0xa2, music / 256, 0xa9, 0, 0x20, 0, 5, 0x68, 0xa8, 0xbe, mptStart info % 256, mptStart info / 256, 0xa9, 2] := if_pos h1
    have hini : mptInit info = 0x4ef := if_pos h1
    refine mpt_many (t := mptStart info) (song := song) hk (fun p _ _ => ⟨by omega, by omega⟩) (by omega) ?_ ?_ (by omega) (by rw [hpc, hini]; rfl) ha rfl (by omega) fun st' _ back _ n => hpost st' back n
    · refine holds_last (c := [0x48, 0xa0, music % 256, 0xa2, music / 256, 0xa9, 0, 0x20, 0, 5, 0x68, 0xa8, 0xbe, mptStart info % 256, mptStart info / 256, 0xa9, 2]) (i := info.songs) hsame hin ?_ (by omega) ?_
      · rw [hcode, List.drop_left' (table_length hs.2)]
        rfl
      · simp only [List.map, cast_low, cast_high]
        rfl
    · refine table_at (i := 0) hsame hin hs.2 ?_ (by omega) hsong
      rw [hcode, List.drop_zero, List.take_left' (table_length hs.2)]
  · have hst : mptStart info = 0x4f3 := if_neg h1
    have hcode : mptCode info music (mptStart info) = [0xa0, music % 256, 0xa2, music / 256, 0xa9, 0, 0x20, 0, 5, 0xa2, 0, 0xa9, 2] := if_neg h1
    have hini : mptInit info = 0x4f3 := if_neg h1
    have h0 : song = 0 := by omega
    have hpos := hc.single (Or.inr (Or.inl ht)) (by omega)
    subst h0
    show Makes _ _ _ _ _ [⟨0x500, some 0, some ((music : Int) / 256), some ((music : Int) % 256)⟩, ⟨0x500, some 2, some ((info.songPos 0 : Nat) : Int), none⟩]
    rw [hpos]
    refine mpt_one hk (fun p _ _ => ⟨by omega, by omega⟩) ?_ (by rw [hpc, hini]; rfl) rfl (by omega) fun st' _ back _ n => hpost st' back n
    refine holds_last (c := [0xa0, music % 256, 0xa2, music / 256, 0xa9, 0, 0x20, 0, 5, 0xa2, 0, 0xa9, 2]) (i := 0) hsame hin ?_ (by omega) ?_
    · rw [hcode]; rfl
    · simp only [List.map, cast_low, cast_high]
      rfl

/-! ## RMT -/

/-- Code in the last block but one. -/
theorem image_three {a : Block} {start cs : Nat} {code rest : List Nat} {st : Isa.State} {area : Int → Prop}
    (h : ∀ p, area p → st.mem p = image [a, ⟨false, cs, code⟩, ⟨false, start, rest⟩] p) (hout : ∀ p, area p → (start : Int) + rest.length ≤ p) :
    ∀ p, area p → st.mem p = (Block.mk false cs (code ++ [])).put (a.put fun _ => 0) p := by
  intro p hp
  rw [h p hp, List.append_nil]
  show Block.put _ (Block.put _ _) p = _
  rw [put_out (Or.inr (hout p hp))]

theorem plays_rmt {info : Info} {m rest : List Nat} {b : Block} {rate : Nat} (hm : IsModule info m) (hc : Convertible info m) (ht : info.type = .rmt) (hrest : 0x390 + rest.length ≤ 0xc80) :
    Plays info rate (fun song => starts info.type (nativePlayer info) info.music song (info.songPos song)) (fun p => (0xc80 : Int) ≤ p ∧ p < 0xc80 + 11 + info.songs) 0xc80 0x603
      (image [b, ⟨false, 0xc80, rmtCode info (Relocate.word m 2)⟩, ⟨false, 0x390, rest⟩]) := by
  intro song hsong st hsame hpc ha hs1 hs2
  have hs := hc.described.songs
  have hmus := hm.music (by rw [ht]; decide)
  have hcl := rmtCode_length (info := info) (music := Relocate.word m 2) hs
  generalize Relocate.word m 2 = music at *
  have hsame := image_three hsame fun p hp => by show ((0x390 : Nat) : Int) + rest.length ≤ p; omega
  have hnp : nativePlayer info = 0x600 := by unfold nativePlayer; rw [hm.player, ht]; rfl
  have hin : ∀ p, ((0xc80 : Nat) : Int) ≤ p → p < (0xc80 : Nat) + (rmtCode info music).length → (0xc80 : Int) ≤ p ∧ p < 0xc80 + 11 + info.songs := fun p _ _ => by omega
  have hpost : ∀ (st' back : Isa.State) (n : Nat), Enters (fun p => (0xc80 : Int) ≤ p ∧ p < 0xc80 + 11 + info.songs) 0x603
      ((List.range n).map (entry info.type (if info.player < 0 then (routineArea info).1 else info.player) rate)) back := by
    intro st' back n
    refine enters_entry ?_ n back
    intro k
    rw [show (if info.player < 0 then (routineArea info).1 else info.player) = 0x600 from hnp, ht]
    rfl
  show Makes _ _ _ _ _ (starts info.type (nativePlayer info) info.music song (info.songPos song))
  rw [show starts info.type (nativePlayer info) info.music song (info.songPos song) = starts .rmt 0x600 music song (info.songPos song) by rw [hnp, ht, hmus]]
  by_cases h1 : info.songs ≠ 1
  · have hcode : rmtCode info music = [0xa8, 0xb9, 0x8b, 0x0c, 0xa2, music % 256, 0xa0, music / 256, 0x4c, 0, 6] ++ table info := if_pos h1
    refine rmt_many (song := song) ?_ ?_ (by omega) hpc ha rfl fun st' _ back _ n => hpost st' back n
    · refine holds_last (c := [0xa8, 0xb9, 0x8b, 0x0c, 0xa2, music % 256, 0xa0, music / 256, 0x4c, 0, 6]) (i := 0) hsame hin ?_ rfl ?_
      · rw [hcode]; rfl
      · simp only [List.map, cast_low, cast_high]
        rfl
    · refine table_at (i := 11) hsame hin hs.2 ?_ (by omega) hsong
      rw [hcode, show ([0xa8, 0xb9, 0x8b, 0x0c, 0xa2, music % 256, 0xa0, music / 256, 0x4c, 0, 6] ++ table info).drop 11 = table info from rfl, List.take_of_length_le (by rw [table_length hs.2]; omega)]
  · have hcode : rmtCode info music = [0xa9, 0, 0xa2, music % 256, 0xa0, music / 256, 0x4c, 0, 6] := if_neg h1
    have h0 : song = 0 := by omega
    have hpos := hc.single (Or.inr (Or.inr ht)) (by omega)
    subst h0
    show Makes _ _ _ _ _ [⟨0x600, some ((info.songPos 0 : Nat) : Int), some ((music : Int) % 256), some ((music : Int) / 256)⟩]
    rw [hpos]
    refine rmt_one ?_ hpc rfl fun st' _ back _ n => hpost st' back n
    refine holds_last (c := [0xa9, 0, 0xa2, music % 256, 0xa0, music / 256, 0x4c, 0, 6]) (i := 0) hsame hin ?_ rfl ?_
    · rw [hcode]; rfl
    · simp only [List.map, cast_low, cast_high]
      rfl

/-! ## TM2 -/

theorem plays_tm2 {info : Info} {m rest : List Nat} {b : Block} {rate : Nat} (hm : IsModule info m) (ht : info.type = .tm2) (hrest : 0x500 + rest.length ≤ 0x1380) :
    Plays info rate (fun song => starts info.type (nativePlayer info) info.music song (info.songPos song)) (fun p => (0x1380 : Int) ≤ p ∧ p < 0x1391) 0x1380 0x803
      (image [b, ⟨false, 0x1380, tm2Code info (Relocate.word m 2)⟩, ⟨false, 0x500, rest⟩]) := by
  intro song hsong st hsame hpc ha hs1 hs2
  have hmus := hm.music (by rw [ht]; decide)
  have hcl := tm2Code_length (info := info) (music := Relocate.word m 2)
  generalize Relocate.word m 2 = music at *
  have hsame := image_three hsame fun p hp => by show ((0x500 : Nat) : Int) + rest.length ≤ p; omega
  have hnp : nativePlayer info = 0x800 := by unfold nativePlayer; rw [hm.player, ht]; rfl
  have hin : ∀ p, ((0x1380 : Nat) : Int) ≤ p → p < (0x1380 : Nat) + (tm2Code info music).length → (0x1380 : Int) ≤ p ∧ p < 0x1391 := fun p _ _ => by omega
  have hk : ∀ p : Int, (0x1380 ≤ p ∧ p < 0x1391) → 512 ≤ p := fun p _ => by omega
  have hpost : ∀ (st' back : Isa.State) (n : Nat), Enters (fun p => (0x1380 : Int) ≤ p ∧ p < 0x1391) 0x803
      ((List.range n).map (entry info.type (if info.player < 0 then (routineArea info).1 else info.player) rate)) back := by
    intro st' back n
    refine enters_entry ?_ n back
    intro k
    rw [show (if info.player < 0 then (routineArea info).1 else info.player) = 0x800 from hnp, ht]
    rfl
  show Makes _ _ _ _ _ (starts info.type (nativePlayer info) info.music song (info.songPos song))
  rw [show starts info.type (nativePlayer info) info.music song (info.songPos song) = starts .tm2 0x800 music song (info.songPos song) by rw [hnp, ht, hmus]]
  by_cases h1 : info.songs ≠ 1
  · have hcode : tm2Code info music = [0x48, 0xa0, music % 256, 0xa2, music / 256, 0xa9, 0x70, 0x20, 0, 8, 0x68, 0xaa, 0xa9, 0, 0x4c, 0, 8] := if_pos h1
    refine tm2_many (song := song) hk (fun p _ _ => ⟨by omega, by omega⟩) ?_ hpc ha rfl (by omega) fun st' _ back _ n => hpost st' back n
    refine holds_last (c := [0x48, 0xa0, music % 256, 0xa2, music / 256, 0xa9, 0x70, 0x20, 0, 8, 0x68, 0xaa, 0xa9, 0, 0x4c, 0, 8]) (i := 0) hsame hin ?_ rfl ?_
    · rw [hcode]; rfl
    · simp only [List.map, cast_low, cast_high]
      rfl
  · have hcode : tm2Code info music = [0xa0, music % 256, 0xa2, music / 256, 0xa9, 0x70, 0x20, 0, 8, 0xa9, 0, 0xaa, 0x4c, 0, 8] := if_neg h1
    have h0 : song = 0 := by omega
    subst h0
    refine tm2_one hk (fun p _ _ => ⟨by omega, by omega⟩) ?_ hpc rfl (by omega) fun st' _ back _ n => hpost st' back n
    refine holds_last (c := [0xa0, music % 256, 0xa2, music / 256, 0xa9, 0x70, 0x20, 0, 8, 0xa9, 0, 0xaa, 0x4c, 0, 8]) (i := 0) hsame hin ?_ rfl ?_
    · rw [hcode]; rfl
    · simp only [List.map, cast_low, cast_high]
      rfl

/-! ## FC -/

theorem plays_fc {info : Info} {m : List Nat} {mem : Int → Int} {rate : Nat} (hm : IsModule info m) (ht : info.type = .fc) :
    Plays info rate (fun song => starts info.type (nativePlayer info) info.music song (info.songPos song)) (fun _ => False) 0x400 0x403 mem := by
  intro song hsong st hsame hpc ha hs1 hs2
  have hnp : nativePlayer info = 0x400 := by unfold nativePlayer; rw [hm.player, ht]; rfl
  show Makes _ _ _ _ _ (starts info.type (nativePlayer info) info.music song (info.songPos song))
  rw [show starts info.type (nativePlayer info) info.music song (info.songPos song) = [⟨0x400, some (song : Int), none, none⟩] by rw [hnp, ht]; rfl]
  refine Makes.last (Runs.refl st) (fun _ hp => absurd rfl hp) ⟨hpc, ?_, by simp, by simp⟩ rfl ?_
  · intro v hv
    rw [ha]
    exact Option.some.inj hv
  · intro back _ n
    refine enters_entry ?_ n back
    intro k
    rw [show (if info.player < 0 then (routineArea info).1 else info.player) = 0x400 from hnp, ht]
    rfl

/-! ## TMC -/

/-- What is called for TMC modules with one song. -/
def tmcCalls (info : Info) (song : Nat) : List Spec.Convert.Call :=
  if info.songs ≠ 1 then starts .tmc 0x500 info.music song (info.songPos song)
  else [⟨0x500, some 0x70, some (info.music / 256), some (info.music % 256)⟩, ⟨0x500, some 0x60, none, none⟩]

theorem plays_tmc {info : Info} {m rest : List Nat} {b : Block} (hm : IsModule info m) (ht : info.type = .tmc) :
    Plays info (byteAt m 0x25) (tmcCalls info) (fun p => (tmcStart info (byteAt m 0x25) : Int) ≤ p ∧ p < 0x500) (tmcStart info (byteAt m 0x25)) (tmcFrame (byteAt m 0x25))
      (image [b, ⟨false, tmcStart info (byteAt m 0x25), tmcCode info (Relocate.word m 2) (byteAt m 0x25) ++ rest⟩]) := by
  intro song hsong st hsame hpc ha hs1 hs2
  have hmus := hm.music (by rw [ht]; decide)
  have hrate := hm.rate ht
  have hcl := tmcCode_length (info := info) (music := Relocate.word m 2) hrate
  generalize Relocate.word m 2 = music at *
  generalize byteAt m 0x25 = rate at *
  have h2 : 0x4f0 ≤ tmcRate rate ∧ tmcRate rate ≤ 0x500 := by unfold tmcRate; split_ifs <;> omega
  have hst : 0x400 ≤ tmcStart info rate := by unfold tmcStart; split <;> omega
  have hnp : nativePlayer info = 0x500 := by unfold nativePlayer routineArea; rw [hm.player, ht]; rfl
  have hin : ∀ p, (tmcStart info rate : Int) ≤ p → p < tmcStart info rate + (tmcCode info music rate).length → (tmcStart info rate : Int) ≤ p ∧ p < 0x500 := fun p _ _ => by omega
  have hk : ∀ p, ((tmcStart info rate : Int) ≤ p ∧ p < 0x500) → 512 ≤ p := fun p hp => by omega
  have hpl := perFrame_length hrate
  have hcode : ∃ hd, tmcCode info music rate = hd ++ perFrameCode rate ∧ tmcStart info rate + hd.length = tmcRate rate := by
    unfold tmcCode tmcStart
    split_ifs
    · exact ⟨_, rfl, by show tmcRate rate - 14 + 14 = _; omega⟩
    · exact ⟨_, rfl, by show tmcRate rate - 11 + 11 = _; omega⟩
  obtain ⟨hd, hcode, hhd⟩ := hcode
  have hframe : Holds st.mem (frameAddr rate) (frameCode rate) := by
    rw [tmcFrame_eq]
    obtain rfl | rfl | rfl | rfl : rate = 1 ∨ rate = 2 ∨ rate = 3 ∨ rate = 4 := by omega
    · exact fun j hj => absurd hj (Nat.not_lt_zero j)
    · refine holds_last (c := [0xa5, 0, 0xe6, 0, 0x4a, 0x90, 5, 0xb0, 6]) (i := hd.length + 5) hsame hin ?_ ?_ rfl
      · rw [hcode, ← List.drop_drop, List.drop_left' rfl]; rfl
      · show ((0x4f7 : Nat) : Int) = _
        have : tmcRate 2 = 0x4f2 := rfl
        omega
    · refine holds_last (c := [0xc6, 0, 0xd0, 12, 0xa0, 3, 0x84, 0, 0xd0, 3]) (i := hd.length + 6) hsame hin ?_ ?_ rfl
      · rw [hcode, ← List.drop_drop, List.drop_left' rfl]; rfl
      · show ((0x4f6 : Nat) : Int) = _
        have : tmcRate 3 = 0x4f0 := rfl
        omega
    · refine holds_last (c := [0xc6, 0, 0xd0, 12, 0xa0, 4, 0x84, 0, 0xd0, 3]) (i := hd.length + 6) hsame hin ?_ ?_ rfl
      · rw [hcode, ← List.drop_drop, List.drop_left' rfl]; rfl
      · show ((0x4f6 : Nat) : Int) = _
        have : tmcRate 4 = 0x4f0 := rfl
        omega
  have hrc : Holds st.mem (rateAddr rate) (rateCode rate) := by
    rw [tmcRate_eq]
    obtain rfl | rfl | rfl | rfl : rate = 1 ∨ rate = 2 ∨ rate = 3 ∨ rate = 4 := by omega
    · exact fun j hj => absurd hj (Nat.not_lt_zero j)
    · refine holds_last (c := [0x06, 0, 0x4c, 0, 5]) (i := hd.length) hsame hin ?_ (by omega) rfl
      rw [hcode, List.drop_left' rfl]; rfl
    · refine holds_last (c := [0xa0, 1, 0x84, 0, 0xd0, 10]) (i := hd.length) hsame hin ?_ (by omega) rfl
      rw [hcode, List.drop_left' rfl]; rfl
    · refine holds_last (c := [0xa0, 1, 0x84, 0, 0xd0, 10]) (i := hd.length) hsame hin ?_ (by omega) rfl
      rw [hcode, List.drop_left' rfl]; rfl
  have hfk : ∀ j : Nat, j < (frameCode rate).length → (tmcStart info rate : Int) ≤ frameAddr rate + j ∧ frameAddr rate + j < 0x500 := by
    have h3 : tmcRate rate ≤ frameAddr rate ∧ ((frameCode rate).length = 0 ∨ frameAddr rate + (frameCode rate).length ≤ 0x500) := by
      obtain rfl | rfl | rfl | rfl : rate = 1 ∨ rate = 2 ∨ rate = 3 ∨ rate = 4 := by omega
      all_goals decide
    intro j hj
    omega
  have hpost : ∀ (st' back : Isa.State) (n : Nat), (∀ p, ((tmcStart info rate : Int) ≤ p ∧ p < 0x500) → st'.mem p = st.mem p) → Phase rate 0 (st'.mem 0) →
      (∀ p, ((tmcStart info rate : Int) ≤ p ∧ p < 0x500) ∨ p = 0 → back.mem p = st'.mem p) →
      Enters (fun p => (tmcStart info rate : Int) ≤ p ∧ p < 0x500) (tmcFrame rate)
      ((List.range n).map (entry info.type (if info.player < 0 then (routineArea info).1 else info.player) rate)) back := by
    intro st' back n h1 hph h2
    rw [show (if info.player < 0 then (routineArea info).1 else info.player) = 0x500 from hnp, ht, ← tmcFrame_eq, List.range_eq_range']
    refine tmc_enters (keep := fun p => (tmcStart info rate : Int) ≤ p ∧ p < 0x500) hrate hfk n 0 back ?_ (by rw [h2 0 (Or.inr rfl)]; exact hph)
    exact hframe.of fun j hj => (h2 _ (Or.inl (hfk j hj))).trans (h1 _ (hfk j hj))
  rw [show decide (info.type = .tmc) = true from decide_eq_true ht]
  by_cases h1 : info.songs ≠ 1
  · have hs0 : tmcStart info rate = tmcRate rate - 14 := if_pos h1
    have hc1 : tmcCode info music rate = [0x48, 0xa0, music % 256, 0xa2, music / 256, 0xa9, 0x70, 0x20, 0, 5, 0x68, 0xaa, 0xa9, 0] ++ perFrameCode rate := if_pos h1
    rw [show tmcCalls info song = starts .tmc 0x500 music song (info.songPos song) by rw [← hmus]; exact if_pos h1]
    refine tmc_many (song := song) hrate hk (fun p hp1 hp2 => ⟨by rw [tmcRate_eq] at hp1; omega, hp2⟩) ?_ hrc (by rw [hpc, tmcRate_eq]; omega) ha rfl (by omega)
      fun st' h1 h2 back h3 n => hpost st' back n h1 h2 h3
    refine holds_last (c := [0x48, 0xa0, music % 256, 0xa2, music / 256, 0xa9, 0x70, 0x20, 0, 5, 0x68, 0xaa, 0xa9, 0]) (i := 0) hsame hin ?_ (by rw [tmcRate_eq]; omega) ?_
    · rw [hc1]; rfl
    · simp only [List.map, cast_low, cast_high]
      rfl
  · have hs0 : tmcStart info rate = tmcRate rate - 11 := if_neg h1
    have hc1 : tmcCode info music rate = [0xa0, music % 256, 0xa2, music / 256, 0xa9, 0x70, 0x20, 0, 5, 0xa9, 0x60] ++ perFrameCode rate := if_neg h1
    rw [show tmcCalls info song = [⟨0x500, some 0x70, some ((music : Int) / 256), some ((music : Int) % 256)⟩, ⟨0x500, some 0x60, none, none⟩] by rw [← hmus]; exact if_neg h1]
    refine tmc_one hrate hk (fun p hp1 hp2 => ⟨by rw [tmcRate_eq] at hp1; omega, hp2⟩) ?_ hrc (by rw [hpc, tmcRate_eq]; omega) rfl (by omega)
      fun st' h1 h2 back h3 n => hpost st' back n h1 h2 h3
    refine holds_last (c := [0xa0, music % 256, 0xa2, music / 256, 0xa9, 0x70, 0x20, 0, 5, 0xa9, 0x60]) (i := 0) hsame hin ?_ (by rw [tmcRate_eq]; omega) ?_
    · rw [hc1]; rfl
    · simp only [List.map, cast_low, cast_high]
      rfl

end Asap.Convert
