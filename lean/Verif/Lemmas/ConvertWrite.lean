import Verif.Lemmas.ConvertFile

/-! # What is written for each type of modules -/

namespace Asap.Convert
open Asap Asap.Spec Asap.Spec.Convert Asap.Props
open Asap.Spec.Relocate (byteAt)

theorem _root_.Asap.Emits.cast {m : W Unit} {a b : List Nat} (h : Emits m a) (e : a = b) : Emits m b := e ▸ h

/-- The positions of the songs. -/
def table (info : Info) : List Nat := (songPosArray info).take info.songs

theorem emits_table {info : Info} (h : info.songs ≤ 32) : Emits (writeBytes (songPosArray info) 0 info.songs) (table info) := by
  have := emits_bytesI (a := songPosArray info) (i := 0) (j := info.songs) (i' := 0) (j' := info.songs) rfl rfl (Nat.zero_le _) (by simp [songPosArray]; exact h)
  unfold table
  simpa using this

theorem table_length {info : Info} (h : info.songs ≤ 32) : (table info).length = info.songs := by
  unfold table songPosArray; simp; omega

theorem table_get {info : Info} (h : info.songs ≤ 32) {k : Nat} (hk : k < info.songs) : (table info)[k]? = some (info.songPos k) := by
  unfold table songPosArray
  rw [List.getElem?_take_of_lt hk, List.getElem?_map, List.getElem?_range (by omega)]
  rfl

theorem toByte_low (n : Nat) : toByte ((n : Int) % 256) = n % 256 := by unfold toByte; omega
theorem toByte_high {n : Nat} (h : n < 65536) : toByte ((n : Int) / 256) = n / 256 := by unfold toByte; omega
theorem toByte_nat {n : Nat} (h : n < 256) : toByte (n : Int) = n := by unfold toByte; omega

/-- The code that starts songs of DLT modules. -/
def dltCode (info : Info) (start : Nat) : List Nat :=
  if info.songs ≠ 1 then table info ++ [0xaa, 0xbc, start % 256, start / 256, 0x4c, 0, 5] else [0xa0, 0, 0x4c, 0, 5]

theorem emits_word' {v : Nat} (h : v < 65536) : Emits (writeWord (v : Int)) (word v) := by
  have := emits_wordI (v := v) (by omega)
  simpa using this

theorem emits_dltInit {info : Info} (h : info.songs ≤ 32) {start : Nat} (hs : start < 65536) :
    Emits (writeDltInit info start 0x400 0xc46) (word start ++ (word 0xc46 ++ dltCode info start)) := by
  unfold writeDltInit dltCode
  refine (emits_word' hs).bind ((emits_word' (v := 0xc46) (by decide)).bind ?_)
  refine emits_ite (fun _ => ?_) fun _ => ?_
  · refine (emits_table h).bind ?_
    refine Emits.seq (emits_seq _) ((emits_word' hs).bind ((emits_byte 0x4c).bind (emits_word' (v := 0x500) (by decide)))) rfl
  · exact Emits.seq (emits_seq _) (emits_word' (v := 0x500) (by decide)) rfl

/-- The code that starts songs of MPT modules. -/
def mptCode (info : Info) (music start : Nat) : List Nat :=
  if info.songs ≠ 1 then table info ++ [0x48, 0xa0, music % 256, 0xa2, music / 256, 0xa9, 0, 0x20, 0, 5, 0x68, 0xa8, 0xbe, start % 256, start / 256, 0xa9, 2]
  else [0xa0, music % 256, 0xa2, music / 256, 0xa9, 0, 0x20, 0, 5, 0xa2, 0, 0xa9, 2]

theorem emits_mptInit {info : Info} (h : info.songs ≤ 32) {start music : Nat} (hs : start < 65536) (hm : info.music = music) (h16 : music < 65536) :
    Emits (writeMptInit info start 0x500 0xdb2) (word start ++ (word 0xdb2 ++ mptCode info music start)) := by
  unfold writeMptInit mptCode
  refine (emits_word' hs).bind ((emits_word' (v := 0xdb2) (by decide)).bind ?_)
  have key := Emits.bind (emits_when (c := info.songs ≠ 1) (m := do writeBytes (songPosArray info) 0 info.songs; writeByte 0x48) fun _ => (emits_table h).bind (emits_byte 0x48))
    ((emits_seq [0xa0, info.music % 256, 0xa2, info.music / 256, 0xa9, 0, 0x20]).bind ((emits_word' (v := 0x500) (by decide)).bind
      (emits_ite (c := info.songs ≠ 1) (fun _ => (emits_seq [0x68, 0xa8, 0xbe]).bind ((emits_word' hs).bind (emits_seq [0xa9, 2]))) fun _ => emits_seq [0xa2, 0, 0xa9, 2])))
  have e : ([0xa0, info.music % 256, 0xa2, info.music / 256, 0xa9, 0, 0x20] : List Int).map toByte = [0xa0, music % 256, 0xa2, music / 256, 0xa9, 0, 0x20] := by
    simp only [List.map, hm, toByte_low, toByte_high h16]; rfl
  rw [e] at key
  refine key.cast ?_
  by_cases h1 : info.songs ≠ 1
  · rw [if_pos h1, if_pos h1, if_pos h1, List.append_assoc]
    rfl
  · rw [if_neg h1, if_neg h1, if_neg h1]
    rfl

/-- The code that starts songs of RMT modules. -/
def rmtCode (info : Info) (music : Nat) : List Nat :=
  if info.songs ≠ 1 then [0xa8, 0xb9, 0x8b, 0x0c, 0xa2, music % 256, 0xa0, music / 256, 0x4c, 0, 6] ++ table info
  else [0xa9, 0, 0xa2, music % 256, 0xa0, music / 256, 0x4c, 0, 6]

theorem emits_rmtInit {info : Info} (h : info.songs ≤ 32) {music : Nat} (hm : info.music = music) (h16 : music < 65536) :
    Emits (writeRmtInit info) (Block.mk false 0xc80 (rmtCode info music)).encode := by
  have e1 : ([0xa2, info.music % 256, 0xa0, info.music / 256, 0x4c] : List Int).map toByte = [0xa2, music % 256, 0xa0, music / 256, 0x4c] := by
    simp only [List.map, hm, toByte_low, toByte_high h16]; rfl
  have e2 : ([0xa9, 0, 0xa2, info.music % 256, 0xa0, info.music / 256, 0x4c] : List Int).map toByte = [0xa9, 0, 0xa2, music % 256, 0xa0, music / 256, 0x4c] := by
    simp only [List.map, hm, toByte_low, toByte_high h16]; rfl
  unfold writeRmtInit rmtCode rmtInit
  by_cases h1 : info.songs ≠ 1
  · rw [if_pos h1, if_pos h1]
    have k := (emits_seq [0xa2, info.music % 256, 0xa0, info.music / 256, 0x4c]).bind ((emits_word' (v := 0x600) (by decide)).bind (emits_table h))
    rw [e1] at k
    refine Emits.seq (b := word (0xc80 + 10 + info.songs) ++ ([0xa8, 0xb9] ++ (word 0xc8b ++ ([0xa2, music % 256, 0xa0, music / 256, 0x4c] ++ (word 0x600 ++ table info)))))
      (emits_word' (v := 0xc80) (by decide)) ?_ ?_
    · have k2 := emits_word' (v := 0xc80 + 10 + info.songs) (by omega)
      rw [show ((0xc80 + 10 + info.songs : Nat) : Int) = 0xc80 + 10 + (info.songs : Int) by omega] at k2
      exact k2.bind (Emits.seq (emits_seq [0xa8, 0xb9]) ((emits_word' (v := 0xc8b) (by decide)).bind k) rfl)
    · unfold Block.encode Block.body
      simp only [List.length_append, table_length h]
      rw [show 0xc80 + ([168, 185, 139, 12, 162, music % 256, 160, music / 256, 76, 0, 6].length + info.songs) - 1 = 0xc80 + 10 + info.songs by simp; omega]
      simp [word]
  · rw [if_neg h1, if_neg h1]
    have k := (emits_seq [0xa9, 0, 0xa2, info.music % 256, 0xa0, info.music / 256, 0x4c]).bind (emits_word' (v := 0x600) (by decide))
    rw [e2] at k
    exact Emits.seq (emits_word' (v := 0xc80) (by decide)) ((emits_word' (v := 0xc88) (by decide)).bind k) rfl

/-- The code that starts songs of TM2 modules. -/
def tm2Code (info : Info) (music : Nat) : List Nat :=
  if info.songs ≠ 1 then [0x48, 0xa0, music % 256, 0xa2, music / 256, 0xa9, 0x70, 0x20, 0, 8, 0x68, 0xaa, 0xa9, 0, 0x4c, 0, 8]
  else [0xa0, music % 256, 0xa2, music / 256, 0xa9, 0x70, 0x20, 0, 8, 0xa9, 0, 0xaa, 0x4c, 0, 8]

theorem emits_tm2Init {info : Info} {music : Nat} (hm : info.music = music) (h16 : music < 65536) :
    Emits (writeTm2Init info) (Block.mk false 0x1380 (tm2Code info music)).encode := by
  have e1 : ([0x48, 0xa0, info.music % 256, 0xa2, info.music / 256, 0xa9, 0x70, 0x20] : List Int).map toByte = [0x48, 0xa0, music % 256, 0xa2, music / 256, 0xa9, 0x70, 0x20] := by
    simp only [List.map, hm, toByte_low, toByte_high h16]; rfl
  have e2 : ([0xa0, info.music % 256, 0xa2, info.music / 256, 0xa9, 0x70, 0x20] : List Int).map toByte = [0xa0, music % 256, 0xa2, music / 256, 0xa9, 0x70, 0x20] := by
    simp only [List.map, hm, toByte_low, toByte_high h16]; rfl
  unfold writeTm2Init tm2Code
  by_cases h1 : info.songs ≠ 1
  · rw [if_pos h1, if_pos h1]
    have k := (emits_seq [0x48, 0xa0, info.music % 256, 0xa2, info.music / 256, 0xa9, 0x70, 0x20]).bind ((emits_word' (v := 0x800) (by decide)).bind
      ((emits_seq [0x68, 0xaa, 0xa9, 0]).bind ((emits_byte 0x4c).bind (emits_word' (v := 0x800) (by decide)))))
    rw [e1] at k
    exact Emits.seq (emits_word' (v := 0x1380) (by decide)) ((emits_word' (v := 0x1390) (by decide)).bind k) rfl
  · rw [if_neg h1, if_neg h1]
    have k := (emits_seq [0xa0, info.music % 256, 0xa2, info.music / 256, 0xa9, 0x70, 0x20]).bind ((emits_word' (v := 0x800) (by decide)).bind
      ((emits_seq [0xa9, 0, 0xaa, 0x4c]).bind (emits_word' (v := 0x800) (by decide))))
    rw [e2] at k
    exact Emits.seq (emits_word' (v := 0x1380) (by decide)) ((emits_word' (v := 0x138e) (by decide)).bind k) rfl

/-- The code for several calls per frame. -/
def perFrameCode (rate : Nat) : List Nat := (rateCode rate).map toByte ++ (if rate = 1 then [] else (frameCode rate).map toByte)

/-- The code that starts songs of TMC modules. -/
def tmcCode (info : Info) (music rate : Nat) : List Nat :=
  if info.songs ≠ 1 then [0x48, 0xa0, music % 256, 0xa2, music / 256, 0xa9, 0x70, 0x20, 0, 5, 0x68, 0xaa, 0xa9, 0] ++ perFrameCode rate
  else [0xa0, music % 256, 0xa2, music / 256, 0xa9, 0x70, 0x20, 0, 5, 0xa9, 0x60] ++ perFrameCode rate

theorem emits_perFrame {rate : Nat} (hr : 1 ≤ rate ∧ rate ≤ 4) : Emits (writeTmcPerFrame rate 0x500) (perFrameCode rate) := by
  obtain rfl | rfl | rfl | rfl : rate = 1 ∨ rate = 2 ∨ rate = 3 ∨ rate = 4 := by omega
  · exact emits_pure
  · exact Emits.seq (emits_seq [0x06, 0, 0x4c]) ((emits_word' (v := 0x500) (by decide)).bind (emits_seq _)) rfl
  · exact emits_seq [0xa0, 1, 0x84, 0, 0xd0, 10, 0xc6, 0, 0xd0, 12, 0xa0, 3, 0x84, 0, 0xd0, 3]
  · exact emits_seq [0xa0, 1, 0x84, 0, 0xd0, 10, 0xc6, 0, 0xd0, 12, 0xa0, 4, 0x84, 0, 0xd0, 3]

theorem emits_tmcInit {info : Info} {start music rate : Nat} (hr : 1 ≤ rate ∧ rate ≤ 4) (hs : start < 65536) (hm : info.music = music) (h16 : music < 65536) :
    Emits (writeTmcInit info rate start 0x500 0xf68) (word start ++ (word 0xf68 ++ tmcCode info music rate)) := by
  have e1 : ([0xa0, info.music % 256, 0xa2, info.music / 256, 0xa9, 0x70, 0x20] : List Int).map toByte = [0xa0, music % 256, 0xa2, music / 256, 0xa9, 0x70, 0x20] := by
    simp only [List.map, hm, toByte_low, toByte_high h16]; rfl
  have key := Emits.bind (emits_when (c := info.songs ≠ 1) (m := writeByte 0x48) fun _ => emits_byte 0x48)
    ((emits_seq [0xa0, info.music % 256, 0xa2, info.music / 256, 0xa9, 0x70, 0x20]).bind ((emits_word' (v := 0x500) (by decide)).bind
      (emits_ite (c := info.songs ≠ 1) (fun _ => (emits_seq [0x68, 0xaa, 0xa9, 0]).bind (emits_perFrame hr)) fun _ => (emits_seq [0xa9, 0x60]).bind (emits_perFrame hr))))
  rw [e1] at key
  unfold writeTmcInit tmcCode
  refine (emits_word' hs).bind ((emits_word' (v := 0xf68) (by decide)).bind ?_)
  refine key.cast ?_
  by_cases h1 : info.songs ≠ 1
  · rw [if_pos h1, if_pos h1, if_pos h1]
    rfl
  · rw [if_neg h1, if_neg h1, if_neg h1]
    rfl

end Asap.Convert
