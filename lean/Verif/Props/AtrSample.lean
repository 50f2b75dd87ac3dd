import Verif.Props.AtrDir

/-! C35, C36, C37: a path leads to the contents of the file; a disk image that meets the hypotheses of the theorems. -/

namespace Asap.Props
open Asap Asap.Atr Asap.Spec.Atr

theorem find_mem {i : Image} {first : Nat} {name e : List Nat} (h : find i first name = some e) : e ∈ entries i first 0 ∧ listed i.sectorSize e = some name := by
  unfold find at h
  have h2 := List.find?_some h
  exact ⟨List.mem_of_find?_eq_some h, of_decide_eq_true h2⟩

theorem resolve_mem {i : Image} {path : List (List Nat)} : ∀ {first : Nat} {e : List Nat}, resolve i first path = some e → ∃ first name, e ∈ entries i first 0 ∧ listed i.sectorSize e = some name := by
  induction path with
  | nil => intro first e h; simp [resolve] at h
  | cons name path ih =>
    intro first e h
    cases path with
    | nil => exact ⟨first, name, find_mem h⟩
    | cons next path =>
      have hres : resolve i first (name :: next :: path) =
          (find i first name).bind fun e => if entryType e = 0x10 then resolve i (entryStart e) (next :: path) else none := rfl
      rw [hres] at h
      cases hf : find i first name with
      | none => rw [hf] at h; simp at h
      | some e' =>
        rw [hf, Option.bind_some] at h
        split at h
        · exact ih h
        · simp at h

theorem entry_bytes {i : Image} (hb : AllBytes i.bytes) {first k : Nat} {e : List Nat} (h : e ∈ entries i first k) : AllBytes e := by
  unfold entries at h
  obtain ⟨e', h1, h2⟩ := List.mem_filterMap.mp h
  simp only [id] at h2
  subst h2
  have h3 := (List.takeWhile_sublist _).subset h1
  obtain ⟨j, _, h4⟩ := List.mem_map.mp h3
  unfold entry at h4
  rw [Option.map_eq_some_iff] at h4
  obtain ⟨s, h5, h6⟩ := h4
  unfold dirSector at h5
  split at h5
  · simp at h5
  · split at h5
    · simp only [Option.some.injEq] at h5
      subst h5 h6
      intro c hc
      exact hb c (List.mem_of_mem_drop (List.mem_of_mem_take (List.mem_of_mem_drop (List.mem_of_mem_take hc))))
    · simp at h5

theorem start_lt {e : List Nat} (h : AllBytes e) : entryStart e < 65536 := by
  have key : ∀ j : Nat, e[j]?.getD 0 < 256 := by
    intro j
    cases hj : e[j]? with
    | none => decide
    | some b => exact h b (List.mem_of_getElem? hj)
  have := key 3
  have := key 4
  unfold entryStart
  omega

theorem kind_of_type {size t : Nat} (h : isKnown size t = true) (hd : t ≠ 0x10) : kindOf (fileBits t) = fileKind t ∧ (fileBits t = 0 ↔ t = 0x40) := by
  unfold isKnown at h
  rw [decide_eq_true_iff] at h
  rcases h with ⟨rfl, _⟩ | rfl | rfl | rfl | rfl
  · decide
  · decide
  · decide
  · decide
  · exact absurd rfl hd

/-- C35: from the path of a file to its contents.  If something other than a directory is at the path, its sectors have the contents, and (except in DOS 1) the byte left in the buffer of
the stream is not greater than the size of sectors, then the file is found, and reading it with any lengths gives the contents. -/
theorem C35_file_partial (image : List Nat) (disk : Disk) (hb : AllBytes image) (hopen : openDisk image = .ok (some disk)) (path : List (List Nat)) (hpath : path ≠ []) (hslash : ∀ name ∈ path, 47 ∉ name)
    (e : List Nat) (he : resolve disk.image' 361 path = some e) (hfile : entryType e ≠ 0x10) (k : Nat) (contents : List Nat)
    (hch : Chain disk.image' (fileKind (entryType e)) (entryStart e) k contents)
    (d : Dir) (hd : d.sector.length = 128) (hdb : AllBytes d.sector) (s : Stream) (hs : s.sector.length = 256) (hsb : AllBytes s.sector)
    (hstale : entryType e = 0x40 ∨ s.sector[disk.bytesPerSector - 1]?.getD 0 ≤ disk.bytesPerSector) (fuel : Nat) (hf : 2 * k + 3 ≤ fuel) (lengths : List Nat) :
    ∃ d' s' parts s'', (d.openRoot disk).findPath [] (List.intercalate [47] path) = .ok (true, d') ∧ s.openFile d' = .ok s' ∧
      readMany fuel s' lengths = .ok (parts, s'') ∧ parts.flatten = contents.take lengths.sum ∧ parts.length = lengths.length := by
  have hok := opened_ok hb hopen
  obtain ⟨r, d', h1, h2, h3⟩ := C37_find_path path _ (sync_root disk hok hd hdb) hpath hslash
  have hr : resolve (d.openRoot disk).disk.image' (d.openRoot disk).firstSector path = some e := he
  rw [hr] at h3
  obtain ⟨rfl, ht, hst⟩ := h3
  obtain ⟨first, name, hmem, hlisted⟩ := resolve_mem he
  have hknown : isKnown disk.bytesPerSector (entryType e) = true := by
    unfold listed at hlisted
    split at hlisted
    · assumption
    · simp at hlisted
  obtain ⟨hk1, hk2⟩ := kind_of_type hknown hfile
  have hdisk : d'.disk = disk := h2
  obtain ⟨s', g1, g2⟩ := C35_open_partial s d' (entryStart e) (entryType e) k contents (by rw [hdisk]; exact hok) hs hsb hst (start_lt (entry_bytes hok.bytes hmem)) ht
    (by rw [hdisk, hk2]; exact hstale) (by rw [hdisk, hk1]; exact hch)
  obtain ⟨parts, s'', g3, g4, g5, _⟩ := C35_reads fuel k contents hf lengths s' 0 g2
  exact ⟨d', s', parts, s'', h1, g1, g3, g4, g5⟩

/-! ## A disk image -/

/-- The name in an entry. -/
def sampleEntry (type start : Nat) (base ext : String) : List Nat := [type, 0, 0, start % 256, start / 256] ++ ascii base ++ ascii ext

/-- The directory, with a file, itself and a file that never ends. -/
def sampleDir : List Nat :=
  sampleEntry 0x42 362 "TUNE    " "SAP" ++ sampleEntry 0x10 361 "SUB     " "   " ++ sampleEntry 0x03 364 "LOOP    " "   " ++ List.replicate 80 0

/-- Two sectors of the file and the one that leads to itself. -/
def sampleData : List Nat :=
  List.replicate 125 7 ++ [1, 107, 125] ++ (List.replicate 125 9 ++ [0, 0, 3]) ++ (List.replicate 125 0 ++ [1, 108, 0])

/-- The header and the first 360 sectors. -/
def sampleFront : List Nat := [0x96, 2, 0, 0, 128, 0] ++ List.replicate 46090 0

def sampleAtr : List Nat := sampleFront ++ (sampleDir ++ sampleData)

def sampleDisk : Disk := ⟨sampleAtr, 128, 400⟩

theorem sampleFront_length : sampleFront.length = 46096 := by
  unfold sampleFront; rw [List.length_append, List.length_replicate]; rfl

theorem sampleBack_length : (sampleDir ++ sampleData).length = 512 := by decide +kernel

theorem sampleDisk_length : sampleDisk.image'.bytes.length = 46096 + 512 := by
  show (sampleFront ++ (sampleDir ++ sampleData)).length = _
  rw [List.length_append, sampleFront_length, sampleBack_length]

theorem sample_sector (m : Nat) (hm : m < 4) : sector sampleDisk.image' (361 + m) = some (((sampleDir ++ sampleData).drop (m * 128)).take 128) := by
  have hp : place sampleDisk.image' (361 + m) = 46096 + m * 128 := by
    unfold place; rw [if_neg (by omega)]; show 400 + (361 + m - 4) * 128 = _; omega
  have hlen := sampleDisk_length
  have hdrop : sampleDisk.image'.bytes.drop (46096 + m * 128) = (sampleDir ++ sampleData).drop (m * 128) := by
    show (sampleFront ++ (sampleDir ++ sampleData)).drop _ = _
    rw [← sampleFront_length, List.drop_append, List.drop_eq_nil_of_le (by omega), List.nil_append, Nat.add_sub_cancel_left]
  unfold sector
  rw [if_neg (by omega), hp, hlen, show sampleDisk.image'.sectorSize = 128 from rfl, if_pos (by omega), hdrop]

theorem sample_dir (m : Nat) (hm : m < 4) : dirSector sampleDisk.image' (361 + m) = some (((sampleDir ++ sampleData).drop (m * 128)).take 128) := by
  have := sample_sector m hm
  unfold sector at this
  unfold dirSector
  rw [if_neg (by omega)] at this ⊢
  exact this

theorem sample_opens : openDisk sampleAtr = .ok (some sampleDisk) := by
  rw [C35_open_disk]
  refine ⟨rfl, ?_⟩
  have hlen := sampleDisk_length
  refine ⟨by omega, rfl, rfl, ⟨128, 0, rfl, rfl, rfl⟩, Or.inl ⟨rfl, rfl⟩⟩

theorem sample_bytes : AllBytes sampleAtr := by
  intro c hc
  unfold sampleAtr sampleFront at hc
  rcases List.mem_append.mp hc with hc | hc
  · rcases List.mem_append.mp hc with hc | hc
    · have : ∀ c ∈ [0x96, 2, 0, 0, 128, 0], c < 256 := by decide
      exact this c hc
    · rw [List.eq_of_mem_replicate hc]; omega
  · have : ∀ c ∈ sampleDir ++ sampleData, c < 256 := by decide +kernel
    exact this c hc

theorem sample_entry (k : Nat) (hk : k < 8) : entry sampleDisk.image' 361 k = some ((sampleDir.drop (k * 16)).take 16) := by
  unfold entry
  rw [show 361 + k / 8 = 361 + 0 by omega, sample_dir 0 (by omega), Nat.mod_eq_of_lt hk, Option.map_some]
  have : ∀ k : Fin 8, ((((sampleDir ++ sampleData).drop (0 * 128)).take 128).drop (k * 16)).take 16 = (sampleDir.drop (k * 16)).take 16 := by decide +kernel
  exact congrArg some (this ⟨k, hk⟩)

theorem sample_entries : entries sampleDisk.image' 361 0 = [sampleEntry 0x42 362 "TUNE    " "SAP", sampleEntry 0x10 361 "SUB     " "   ", sampleEntry 0x03 364 "LOOP    " "   "] := by
  unfold entries
  have h : (List.range' 0 (64 - 0)).map (entry sampleDisk.image' 361) =
      entry sampleDisk.image' 361 0 :: entry sampleDisk.image' 361 1 :: entry sampleDisk.image' 361 2 :: entry sampleDisk.image' 361 3 :: (List.range' 4 60).map (entry sampleDisk.image' 361) := rfl
  rw [h, sample_entry 0 (by omega), sample_entry 1 (by omega), sample_entry 2 (by omega), sample_entry 3 (by omega)]
  have g0 : goesOn (some ((sampleDir.drop (0 * 16)).take 16)) = true := by decide +kernel
  have g1 : goesOn (some ((sampleDir.drop (1 * 16)).take 16)) = true := by decide +kernel
  have g2 : goesOn (some ((sampleDir.drop (2 * 16)).take 16)) = true := by decide +kernel
  have g3 : goesOn (some ((sampleDir.drop (3 * 16)).take 16)) = false := by decide +kernel
  rw [List.takeWhile_cons_of_pos g0, List.takeWhile_cons_of_pos g1, List.takeWhile_cons_of_pos g2, List.takeWhile_cons_of_neg (by rw [g3]; simp)]
  decide +kernel

/-- The names listed. -/
theorem C37_sample : names sampleDisk.image' 361 = [ascii "TUNE.SAP", ascii "SUB", ascii "LOOP"] := by
  unfold names
  rw [sample_entries]
  decide +kernel

theorem sample_find (name : List Nat) : find sampleDisk.image' 361 name =
    [sampleEntry 0x42 362 "TUNE    " "SAP", sampleEntry 0x10 361 "SUB     " "   ", sampleEntry 0x03 364 "LOOP    " "   "].find? fun e => listed 128 e = some name := by
  unfold find
  rw [sample_entries]
  rfl

/-- A path through a directory. -/
theorem C37_sample_path : resolve sampleDisk.image' 361 [ascii "SUB", ascii "SUB", ascii "TUNE.SAP"] = some (sampleEntry 0x42 362 "TUNE    " "SAP") := by
  have h1 : find sampleDisk.image' 361 (ascii "SUB") = some (sampleEntry 0x10 361 "SUB     " "   ") := by rw [sample_find]; decide +kernel
  have h2 : find sampleDisk.image' 361 (ascii "TUNE.SAP") = some (sampleEntry 0x42 362 "TUNE    " "SAP") := by rw [sample_find]; decide +kernel
  have e1 : entryType (sampleEntry 0x10 361 "SUB     " "   ") = 0x10 := by decide +kernel
  have e2 : entryStart (sampleEntry 0x10 361 "SUB     " "   ") = 361 := by decide +kernel
  simp only [resolve, h1, h2, bind, Option.bind, e1, e2, if_true]

/-- The contents of the file. -/
theorem C35_sample : Chain sampleDisk.image' .dos2 362 2 (List.replicate 125 7 ++ List.replicate 3 9) := by
  have h1 := sample_sector 1 (by omega)
  have h2 := sample_sector 2 (by omega)
  have h0 : sector sampleDisk.image' 0 = none := rfl
  have n1 : next .dos2 (((sampleDir ++ sampleData).drop (1 * 128)).take 128) = 363 := by decide +kernel
  have n2 : next .dos2 (((sampleDir ++ sampleData).drop (2 * 128)).take 128) = 0 := by decide +kernel
  have u1 : used .dos2 (((sampleDir ++ sampleData).drop (1 * 128)).take 128) = some 125 := by decide +kernel
  have u2 : used .dos2 (((sampleDir ++ sampleData).drop (2 * 128)).take 128) = some 3 := by decide +kernel
  have e : List.replicate 125 7 ++ List.replicate 3 9 =
      (((sampleDir ++ sampleData).drop (1 * 128)).take 128).take 125 ++ ((((sampleDir ++ sampleData).drop (2 * 128)).take 128).take 3 ++ []) := by decide +kernel
  rw [e]
  exact .link h1 u1 (by rw [n1]; exact .link h2 u2 (by rw [n2]; exact .stop h0))

/-- The file that never ends. -/
theorem C36_sample : Linked sampleDisk.image' .dos2 364 364 := ⟨_, sample_sector 3 (by omega), by decide +kernel, by decide +kernel⟩

/-- An image with four sectors and no cycles of empty sectors. -/
def acyclicDisk : Disk := ⟨[0x96, 2, 0, 0, 128, 0, 0, 0, 0, 0, 0, 0, 0, 0, 0, 0] ++ List.replicate 512 1, 128, 400⟩

theorem acyclic_length : acyclicDisk.image'.bytes.length = 528 := by decide +kernel

theorem C36_acyclic_sample (kind : Kind) (h : kind ≠ .dos1) (n k : Nat) : ¬ Path acyclicDisk.image' kind n n k := by
  have key : ∀ n m, ¬ Linked acyclicDisk.image' kind n m := by
    rintro n m ⟨data, h1, h2, _⟩
    have hd : data = List.replicate 128 1 := by
      unfold sector at h1
      split at h1
      · simp at h1
      · split at h1
        · rename_i g1 g2
          have hp : ∃ j, place acyclicDisk.image' n = 16 + j := by
            unfold place
            split
            · exact ⟨_, rfl⟩
            · exact ⟨384 + (n - 4) * 128, by show 400 + (n - 4) * 128 = _; omega⟩
          obtain ⟨j, hj⟩ := hp
          have hlen := acyclic_length
          have hdrop : acyclicDisk.image'.bytes.drop (16 + j) = List.replicate (512 - j) 1 := by
            unfold acyclicDisk Disk.image'
            simp only
            rw [List.drop_append, List.drop_eq_nil_of_le (by simp), List.nil_append, List.drop_replicate]
            simp
          rw [hj, hlen, show acyclicDisk.image'.sectorSize = 128 from rfl] at g2
          rw [hj, hdrop, show acyclicDisk.image'.sectorSize = 128 from rfl, List.take_replicate, show min 128 (512 - j) = 128 by omega] at h1
          simpa using h1.symm
        · simp at h1
    subst hd
    cases kind with
    | dos1 => exact h rfl
    | dos2 => revert h2; decide +kernel
    | mydos => revert h2; decide +kernel
  intro hp
  cases hp with
  | one h => exact key _ _ h
  | more h _ => exact key _ _ h

end Asap.Props
