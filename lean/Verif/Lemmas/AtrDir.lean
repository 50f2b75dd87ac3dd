import Verif.Lemmas.Atr

/-! Directories of disk images. -/

namespace Asap.Atr
open Asap Asap.Spec.Atr

theorem rd_drop {sec : List Nat} {i : Nat} (h : i < sec.length) : ∃ c, rd sec i = .ok c ∧ c ∈ sec ∧ ∀ n, (sec.drop i).take (n + 1) = c :: (sec.drop (i + 1)).take n := by
  refine ⟨sec[i], ?_, List.getElem_mem h, fun n => ?_⟩
  · unfold rd; rw [List.getElem?_eq_getElem h]
  · rw [List.drop_eq_getElem_cons h]; rfl

theorem padded_eq {sec : List Nat} (n : Nat) : ∀ i, i + n ≤ sec.length → padded sec i n = .ok (decide (∀ c ∈ (sec.drop i).take n, c = 32)) := by
  induction n with
  | zero => intro i _; simp [padded]
  | succ n ih =>
    intro i hi
    obtain ⟨c, h1, _, h2⟩ := rd_drop (sec := sec) (i := i) (by omega)
    unfold padded
    rw [h1, h2]
    simp only [bind, Except.bind]
    by_cases hc : c = 32
    · rw [if_neg (by omega), ih (i + 1) (by omega)]
      simp [hc]
    · rw [if_pos hc]
      simp [hc]

theorem isNameChar_iff (c : Nat) : isNameChar c = true ↔ NameChar c := by
  unfold isNameChar NameChar
  simp only [Bool.or_eq_true, Bool.and_eq_true, decide_eq_true_eq, beq_iff_eq]
  omega

theorem part_space (cs : List Nat) : part (32 :: cs) = if ∀ c ∈ cs, c = 32 then some [] else none := by
  unfold part
  simp

theorem part_char {c : Nat} (hc : c ≠ 32) (cs : List Nat) : part (c :: cs) = if NameChar c then (part cs).map (c :: ·) else none := by
  unfold part
  have e : (c :: cs).takeWhile (· ≠ 32) = c :: cs.takeWhile (· ≠ 32) := by
    rw [List.takeWhile_cons]; simp [hc]
  simp only [e, List.mem_cons, forall_eq_or_imp, List.length_cons, List.drop_succ_cons]
  by_cases hn : NameChar c
  · simp only [hn, true_and, if_true]
    split <;> simp_all
  · simp only [hn, false_and, if_false]

theorem namePart_eq {sec : List Nat} (start : Nat) (n : Nat) : ∀ length, start + length + n ≤ sec.length →
    namePart sec start length n = .ok ((part ((sec.drop (start + length)).take n)).map fun name => length + name.length) := by
  induction n with
  | zero => intro length _; simp [namePart, part]
  | succ n ih =>
    intro length hl
    obtain ⟨c, h1, _, h2⟩ := rd_drop (sec := sec) (i := start + length) (by omega)
    unfold namePart
    rw [h1, h2]
    simp only [bind, Except.bind]
    by_cases hc : c = 32
    · subst hc
      rw [if_pos rfl, padded_eq n _ (by omega), part_space]
      simp only [decide_eq_true_eq]
      split <;> simp
    · rw [if_neg hc, part_char hc]
      by_cases hn : NameChar c
      · rw [if_pos ((isNameChar_iff c).mpr hn), if_pos hn, ih (length + 1) (by omega), Option.map_map]
        congr 1
        rw [show start + length + 1 = start + (length + 1) by omega]
        congr 1
        funext name
        simp
        omega
      · rw [if_neg (fun h => hn ((isNameChar_iff c).mp h)), if_neg hn]
        rfl

theorem part_some {field name : List Nat} (h : part field = some name) : name = field.take name.length ∧ name.length ≤ field.length ∧ ∀ c ∈ name, NameChar c := by
  unfold part at h
  simp only at h
  split at h
  · rename_i hc
    injection h with h
    rw [← h]
    refine ⟨?_, (List.takeWhile_prefix _).length_le, hc.1⟩
    exact List.prefix_iff_eq_take.mp (List.takeWhile_prefix _)
  · simp at h

/-- The 16 bytes of an entry. -/
def entryBytes (sec : List Nat) (offset : Nat) : List Nat := (sec.drop offset).take 16

theorem entryName_eq {sec : List Nat} {offset : Nat} (h : offset + 16 ≤ sec.length) :
    (∃ name sec', Atr.entryName sec offset = .ok (some (name, sec')) ∧ Spec.Atr.entryName (entryBytes sec offset) = some name ∧ sec'.length = sec.length ∧
      (AllBytes sec → AllBytes sec') ∧ ∀ k, k < offset + 5 ∨ offset + 16 ≤ k → sec'[k]? = sec[k]?) ∨
    (Atr.entryName sec offset = .ok none ∧ Spec.Atr.entryName (entryBytes sec offset) = none) := by
  have e1 : ((entryBytes sec offset).drop 5).take 8 = (sec.drop (offset + 5)).take 8 := by
    unfold entryBytes; rw [List.drop_take, List.take_take, List.drop_drop]; rfl
  have e2 : ((entryBytes sec offset).drop 13).take 3 = (sec.drop (offset + 13)).take 3 := by
    unfold entryBytes; rw [List.drop_take, List.take_take, List.drop_drop]; rfl
  unfold Atr.entryName Spec.Atr.entryName
  rw [e1, e2, namePart_eq (offset + 5) 8 0 (by omega)]
  simp only [bind, Except.bind, Nat.add_zero, Nat.zero_add]
  cases hb : part ((sec.drop (offset + 5)).take 8) with
  | none => right; exact ⟨rfl, rfl⟩
  | some base =>
    simp only [Option.map_some]
    rw [namePart_eq (offset + 13) 3 0 (by omega)]
    simp only [Nat.add_zero, Nat.zero_add]
    cases he : part ((sec.drop (offset + 13)).take 3) with
    | none => right; exact ⟨rfl, rfl⟩
    | some ext =>
      obtain ⟨b1, b2, _⟩ := part_some hb
      obtain ⟨x1, x2, _⟩ := part_some he
      simp only [List.length_take, List.length_drop] at b2 x2
      rw [List.take_take, Nat.min_eq_left (by omega)] at b1 x1
      simp only [Option.map_some]
      by_cases h0 : base.length = 0 ∧ ext.length = 0
      · right
        have hb0 := List.length_eq_zero_iff.mp h0.1
        have he0 := List.length_eq_zero_iff.mp h0.2
        rw [if_pos h0, hb0, he0]
        exact ⟨rfl, rfl⟩
      · left
        rw [if_neg h0]
        unfold fullName getString
        rw [if_pos (by omega)]
        simp only [bind, Except.bind]
        by_cases hx : ext.length > 0
        · have hext : ext ≠ [] := by intro hc; rw [hc] at hx; simp at hx
          rw [if_pos hx, if_pos (by simp; omega), if_neg hext]
          have e3 : ((sec.set (offset + 12) 46).drop (offset + 12)).take (1 + ext.length) = 46 :: ext := by
            obtain ⟨c, h1, _, h2⟩ := rd_drop (sec := sec.set (offset + 12) 46) (i := offset + 12) (by simp; omega)
            rw [Nat.add_comm 1, h2]
            have : c = 46 := by
              unfold rd at h1
              rw [List.getElem?_set_self (by omega)] at h1
              injection h1 with h1; exact h1.symm
            rw [this, List.drop_set_of_lt (by omega)]
            rw [← x1]
          refine ⟨_, _, rfl, ?_, by simp, ?_, ?_⟩
          · rw [e3, ← b1]
          · intro hall b hm
            rcases List.mem_or_eq_of_mem_set hm with hm | hm
            · exact hall b hm
            · omega
          · intro k hk
            rw [List.getElem?_set_ne (by omega)]
        · have hext : ext = [] := List.length_eq_zero_iff.mp (by omega)
          have hbase : base ≠ [] := by intro hc; apply h0; rw [hc, hext]; simp
          rw [if_neg hx, if_pos hext, if_neg hbase]
          exact ⟨_, _, rfl, by rw [← b1], rfl, id, fun _ _ => rfl⟩

theorem entryName_name {e name : List Nat} (h : Spec.Atr.entryName e = some name) : FileName name := by
  unfold Spec.Atr.entryName at h
  cases hb : part ((e.drop 5).take 8) with
  | none => rw [hb] at h; simp at h
  | some base =>
    cases he : part ((e.drop 13).take 3) with
    | none => rw [hb, he] at h; simp at h
    | some ext =>
      rw [hb, he] at h
      obtain ⟨_, b2, b3⟩ := part_some hb
      obtain ⟨_, x2, x3⟩ := part_some he
      simp only [List.length_take, List.length_drop] at b2 x2
      simp only at h
      split at h
      · split at h
        · simp at h
        · rename_i hn
          injection h with h
          left
          exact ⟨base, h.symm, List.length_pos_iff.mpr hn, by omega, b3⟩
      · rename_i hn
        injection h with h
        right
        exact ⟨base, ext, h.symm, by omega, List.length_pos_iff.mpr hn, by omega, b3, x3⟩

theorem maskType_table : ∀ b : Fin 256, maskType b = b.val &&& 0xd7 := by decide +kernel

theorem maskType_eq {b : Nat} (h : b < 256) : maskType b = b &&& 0xd7 := maskType_table ⟨b, h⟩

theorem isListed_eq (size type : Nat) : isListed size type = isKnown size type := by
  unfold isListed isKnown
  rw [Bool.eq_iff_iff]
  by_cases h : type = 0x40
  · rw [if_pos h]; simp [h]
  · rw [if_neg h]
    simp only [Bool.or_eq_true, beq_iff_eq, decide_eq_true_eq]
    omega

theorem dirRead_some {d : Disk} (hd : d.Ok) {n : Nat} {buffer data : List Nat} (hl : buffer.length = 128) (h : dirSector d.image' n = some data) :
    d.readSector n buffer 128 = .ok (true, data) := by
  unfold dirSector place Disk.image' at h
  simp only at h
  unfold Disk.readSector
  have hdrop : buffer.drop 128 = [] := List.drop_eq_nil_of_le (by omega)
  by_cases hn : n < 4
  · simp only [if_pos hn] at h
    rw [if_pos hn]
    split at h
    · simp at h
    · rw [if_neg (by omega)]
      split at h
      · injection h with h
        have e : n * 128 - 0x70 = 16 + (n - 1) * 128 := by omega
        rw [e, readAt_ok (by omega) (by omega), h, hdrop, List.append_nil]
      · simp at h
  · simp only [if_neg hn] at h
    rw [if_neg hn]
    split at h
    · simp at h
    · split at h
      · injection h with h
        rw [readAt_ok (by omega) (by omega), h, hdrop, List.append_nil]
      · simp at h

theorem dirRead_none {d : Disk} (hd : d.Ok) {n : Nat} {buffer : List Nat} (hl : buffer.length = 128) (hbuf : AllBytes buffer) (h : dirSector d.image' n = none) :
    ∃ b, d.readSector n buffer 128 = .ok (false, b) ∧ b.length = 128 ∧ AllBytes b := by
  unfold dirSector place Disk.image' at h
  simp only at h
  unfold Disk.readSector
  by_cases hn : n < 4
  · simp only [if_pos hn] at h
    rw [if_pos hn]
    by_cases hc : n < 1 ∨ 128 > 128
    · rw [if_pos hc]
      exact ⟨buffer, rfl, hl, hbuf⟩
    · rw [if_neg hc]
      rw [if_neg (by omega)] at h
      split at h
      · simp at h
      · rename_i hlong
        have e : n * 128 - 0x70 = 16 + (n - 1) * 128 := by omega
        rw [e]
        obtain ⟨b, h1, h2, h3, _⟩ := readAt_fail (buffer := buffer) (length := 128) (by omega) (by omega) hlong hd.bytes hbuf
        exact ⟨b, h1, by omega, h3⟩
  · simp only [if_neg hn] at h
    rw [if_neg hn]
    rw [if_neg (by omega)] at h
    split at h
    · simp at h
    · rename_i hlong
      obtain ⟨b, h1, h2, h3, _⟩ := readAt_fail (buffer := buffer) (length := 128) (by omega) (by omega) hlong hd.bytes hbuf
      exact ⟨b, h1, by omega, h3⟩

theorem dirSector_ok {i : Image} {n : Nat} {data : List Nat} (hb : AllBytes i.bytes) (h : dirSector i n = some data) : data.length = 128 ∧ AllBytes data := by
  unfold dirSector at h
  split at h
  · simp at h
  · split at h
    · injection h with h
      rw [← h]
      refine ⟨by simp; omega, fun b hm => hb b (List.mem_of_mem_drop (List.mem_of_mem_take hm))⟩
    · simp at h

/-- Any directory that was opened, whatever happened to it later. -/
structure Dir.Valid (d : Dir) : Prop where
  disk : d.disk.Ok
  length : d.sector.length = 128
  bytes : AllBytes d.sector
  low : -1 ≤ d.fileNo
  high : d.fileNo ≤ 63

/-- The `k`th entry is the next one, and the buffer has the sector of it, unless it is the first one in its sector. -/
structure Dir.Sync (d : Dir) (k : Nat) : Prop where
  valid : d.Valid
  next : d.fileNo + 1 = k
  same : k % 8 ≠ 0 → ∃ sec, dirSector d.disk.image' (d.firstSector + k / 8) = some sec ∧ ∀ j, k % 8 * 16 ≤ j → d.sector[j]? = sec[j]?

/-- The type of the entry in the buffer. -/
def typeAt (sec : List Nat) (offset : Nat) : Nat := sec[offset]?.getD 0 &&& 0xd7

theorem typeAt_entry {sec : List Nat} {offset : Nat} : entryType (entryBytes sec offset) = typeAt sec offset := by
  unfold entryType entryBytes typeAt
  rw [List.getElem?_take_of_lt (by omega), List.getElem?_drop]
  rfl

theorem rd_type {sec : List Nat} {offset : Nat} (hb : AllBytes sec) (h : offset < sec.length) : ∃ b, rd sec offset = .ok b ∧ maskType b = typeAt sec offset := by
  unfold rd typeAt
  rw [List.getElem?_eq_getElem h]
  exact ⟨_, rfl, maskType_eq (hb _ (List.getElem_mem h))⟩

/-- The buffer after the directory went to the entry, or whether there is none. -/
def Dir.goto (d : Dir) (sec : List Nat) : Dir := { d with fileNo := d.fileNo + 1, sector := sec }

/-- One step of `NextEntry` with the sector of the next entry. -/
theorem nextEntry_step {fuel : Nat} {d : Dir} (hf : d.fileNo < 63) {sec : List Nat} (hl : sec.length = 128) (hb : AllBytes sec) (offset : Nat)
    (ho : offset = ((d.fileNo + 1) % 8).toNat * 16) (hfetch : ({ d with fileNo := d.fileNo + 1 } : Dir).fetch offset = .ok (true, sec)) :
    (typeAt sec offset = 0 ∧ Dir.nextEntry (fuel + 1) d = .ok (none, d.goto sec)) ∨
    (typeAt sec offset ≠ 0 ∧ listed d.disk.bytesPerSector (entryBytes sec offset) = none ∧ Dir.nextEntry (fuel + 1) d = Dir.nextEntry fuel (d.goto sec)) ∨
    (typeAt sec offset ≠ 0 ∧ ∃ name sec', listed d.disk.bytesPerSector (entryBytes sec offset) = some name ∧ Dir.nextEntry (fuel + 1) d = .ok (some name, d.goto sec') ∧
      sec'.length = 128 ∧ AllBytes sec' ∧ ∀ k, k < offset + 5 ∨ offset + 16 ≤ k → sec'[k]? = sec[k]?) := by
  have hoff : offset ≤ 112 := by omega
  obtain ⟨b, h1, h2⟩ := rd_type (offset := offset) hb (by omega)
  have step : Dir.nextEntry (fuel + 1) d =
      if typeAt sec offset = 0 then .ok (none, d.goto sec)
      else if isKnown d.disk.bytesPerSector (typeAt sec offset) = false then Dir.nextEntry fuel (d.goto sec)
      else Atr.entryName sec offset >>= fun n => match n with
        | none => Dir.nextEntry fuel (d.goto sec)
        | some (name, sec) => .ok (some name, d.goto sec) := by
    conv => lhs; unfold Dir.nextEntry
    rw [if_neg (by omega)]
    simp only [← ho, hfetch, bind, Except.bind]
    rw [if_neg (by simp), h1]
    simp only [h2, isListed_eq]
    rfl
  have hlist : listed d.disk.bytesPerSector (entryBytes sec offset) = if isKnown d.disk.bytesPerSector (typeAt sec offset) then Spec.Atr.entryName (entryBytes sec offset) else none := by
    unfold listed
    rw [typeAt_entry]
  rw [step]
  by_cases ht : typeAt sec offset = 0
  · left; rw [if_pos ht]; exact ⟨ht, rfl⟩
  · right
    rw [if_neg ht]
    cases hk : isKnown d.disk.bytesPerSector (typeAt sec offset) with
    | false =>
      rw [hk, if_neg (by simp)] at hlist
      left; exact ⟨ht, hlist, by simp⟩
    | true =>
      rw [hk, if_pos rfl] at hlist
      rcases entryName_eq (sec := sec) (offset := offset) (by omega) with ⟨name, sec', e1, e2, e3, e4, e5⟩ | ⟨e1, e2⟩
      · right
        rw [if_neg (by simp), e1]
        exact ⟨ht, name, sec', by rw [hlist, e2], rfl, by omega, e4 hb, e5⟩
      · left
        rw [if_neg (by simp), e1]
        exact ⟨ht, by rw [hlist, e2], rfl⟩

theorem nextEntry_last {fuel : Nat} {d : Dir} (h : 63 ≤ d.fileNo) : Dir.nextEntry (fuel + 1) d = .ok (none, d) := by
  unfold Dir.nextEntry
  rw [if_pos h]

theorem nextEntry_fail {fuel : Nat} {d : Dir} (hf : d.fileNo < 63) {sec : List Nat} (hfetch : ({ d with fileNo := d.fileNo + 1 } : Dir).fetch (((d.fileNo + 1) % 8).toNat * 16) = .ok (false, sec)) :
    Dir.nextEntry (fuel + 1) d = .ok (none, d.goto sec) := by
  unfold Dir.nextEntry
  rw [if_neg (by omega)]
  simp only [hfetch, bind, Except.bind]
  rfl

theorem Dir.Valid.goto {d : Dir} (h : d.Valid) (hf : d.fileNo < 63) {sec : List Nat} (hl : sec.length = 128) (hb : AllBytes sec) : (d.goto sec).Valid :=
  ⟨h.disk, hl, hb, by have := h.low; show -1 ≤ d.fileNo + 1; omega, by show d.fileNo + 1 ≤ 63; omega⟩

theorem Dir.Valid.fetch {d : Dir} (h : d.Valid) (offset : Nat) : ∃ r sec, ({ d with fileNo := d.fileNo + 1 } : Dir).fetch offset = .ok (r, sec) ∧ sec.length = 128 ∧ AllBytes sec := by
  unfold Dir.fetch
  by_cases h0 : offset = 0
  · rw [if_pos h0]
    simp only
    cases hs : dirSector d.disk.image' (d.firstSector + ((d.fileNo + 1) / 8).toNat) with
    | none =>
      obtain ⟨b, h1, h2, h3⟩ := dirRead_none h.disk h.length h.bytes hs
      exact ⟨false, b, h1, h2, h3⟩
    | some data =>
      have := dirSector_ok h.disk.bytes hs
      exact ⟨true, data, dirRead_some h.disk h.length hs, this.1, this.2⟩
  · rw [if_neg h0]
    exact ⟨true, d.sector, rfl, h.length, h.bytes⟩

/-- `NextEntry` ends, stays in the buffer, and gives correct names only. -/
theorem nextEntry_valid (fuel : Nat) : ∀ d : Dir, d.Valid → 64 - d.fileNo ≤ fuel → ∃ r d', Dir.nextEntry fuel d = .ok (r, d') ∧ d'.Valid ∧ d'.disk = d.disk ∧
    ∀ name ∈ r, FileName name ∧ d.fileNo < d'.fileNo := by
  induction fuel with
  | zero => intro d h hf; have := h.high; omega
  | succ fuel ih =>
    intro d h hf
    by_cases hlast : 63 ≤ d.fileNo
    · exact ⟨none, d, nextEntry_last hlast, h, rfl, by simp⟩
    · obtain ⟨r, sec, hfetch, hl, hb⟩ := h.fetch (((d.fileNo + 1) % 8).toNat * 16)
      have hg := h.goto (by omega) hl hb
      cases r with
      | false => exact ⟨none, _, nextEntry_fail (by omega) hfetch, hg, rfl, by simp⟩
      | true =>
        rcases nextEntry_step (fuel := fuel) (by omega) hl hb _ rfl hfetch with ⟨_, e⟩ | ⟨_, _, e⟩ | ⟨_, name, sec', e1, e, e2, e3, _⟩
        · exact ⟨none, _, e, hg, rfl, by simp⟩
        · rw [e]
          obtain ⟨r, d', h1, h2, h3, h4⟩ := ih (d.goto sec) hg (by show 64 - (d.fileNo + 1) ≤ _; omega)
          exact ⟨r, d', h1, h2, h3, fun name hn => ⟨(h4 name hn).1, by have : d.fileNo + 1 < _ := (h4 name hn).2; omega⟩⟩
        · refine ⟨some name, _, e, h.goto (by omega) e2 e3, rfl, fun n hn => ?_⟩
          injection hn with hn
          subst hn
          refine ⟨?_, by show d.fileNo < d.fileNo + 1; omega⟩
          unfold listed at e1
          split at e1
          · exact entryName_name e1
          · simp at e1

theorem entries_end (i : Image) (first : Nat) {k : Nat} (h : 64 ≤ k) : entries i first k = [] := by
  unfold entries
  rw [show 64 - k = 0 by omega]
  rfl

theorem entries_stop {i : Image} {first k : Nat} (h : goesOn (entry i first k) = false) : entries i first k = [] := by
  by_cases hk : 64 ≤ k
  · exact entries_end i first hk
  · unfold entries
    rw [show 64 - k = (63 - k) + 1 by omega, List.range'_succ, List.map_cons, List.takeWhile_cons, h]
    rfl

theorem entries_cons {i : Image} {first k : Nat} (hk : k < 64) {e : List Nat} (he : entry i first k = some e) (h : entryType e ≠ 0) :
    entries i first k = e :: entries i first (k + 1) := by
  unfold entries
  rw [show 64 - k = (63 - k) + 1 by omega, List.range'_succ, List.map_cons, List.takeWhile_cons]
  have : goesOn (entry i first k) = true := by rw [he]; simpa [goesOn] using h
  rw [this, he, show 64 - (k + 1) = 63 - k by omega]
  rfl

theorem entryBytes_congr {a b : List Nat} {offset : Nat} (h : ∀ j, offset ≤ j → a[j]? = b[j]?) : entryBytes a offset = entryBytes b offset := by
  unfold entryBytes
  apply List.ext_getElem?
  intro j
  by_cases hj : j < 16
  · rw [List.getElem?_take_of_lt hj, List.getElem?_take_of_lt hj, List.getElem?_drop, List.getElem?_drop, h _ (by omega)]
  · rw [List.getElem?_eq_none (by simp; omega), List.getElem?_eq_none (by simp; omega)]

/-- Reading of the sector of the next entry. -/
theorem Dir.Sync.fetch {d : Dir} {k : Nat} (h : d.Sync k) (hk : k < 64) :
    (entry d.disk.image' d.firstSector k = none ∧ ∃ sec, ({ d with fileNo := d.fileNo + 1 } : Dir).fetch (((d.fileNo + 1) % 8).toNat * 16) = .ok (false, sec) ∧ sec.length = 128 ∧ AllBytes sec) ∨
    ∃ sec, entry d.disk.image' d.firstSector k = some (entryBytes sec (k % 8 * 16)) ∧ ({ d with fileNo := d.fileNo + 1 } : Dir).fetch (((d.fileNo + 1) % 8).toNat * 16) = .ok (true, sec) ∧
      sec.length = 128 ∧ AllBytes sec ∧ ∃ sec0, dirSector d.disk.image' (d.firstSector + k / 8) = some sec0 ∧ ∀ j, k % 8 * 16 ≤ j → sec[j]? = sec0[j]? := by
  have hn := h.next
  have eo : ((d.fileNo + 1) % 8).toNat * 16 = k % 8 * 16 := by omega
  have ed : ((d.fileNo + 1) / 8).toNat = k / 8 := by omega
  unfold entry
  rw [eo]
  by_cases h0 : k % 8 = 0
  · cases hs : dirSector d.disk.image' (d.firstSector + k / 8) with
    | none =>
      left
      refine ⟨rfl, ?_⟩
      obtain ⟨b, h1, h2, h3⟩ := dirRead_none h.valid.disk h.valid.length h.valid.bytes hs
      refine ⟨b, ?_, h2, h3⟩
      unfold Dir.fetch
      rw [if_pos (by omega)]
      simp only [ed]
      exact h1
    | some data =>
      right
      have hd := dirSector_ok h.valid.disk.bytes hs
      refine ⟨data, rfl, ?_, hd.1, hd.2, data, rfl, fun _ _ => rfl⟩
      unfold Dir.fetch
      rw [if_pos (by omega)]
      simp only [ed]
      exact dirRead_some h.valid.disk h.valid.length hs
  · right
    obtain ⟨sec, h1, h2⟩ := h.same h0
    refine ⟨d.sector, ?_, ?_, h.valid.length, h.valid.bytes, sec, h1, h2⟩
    · rw [h1]
      show some (entryBytes sec (k % 8 * 16)) = _
      rw [entryBytes_congr h2]
    · unfold Dir.fetch
      rw [if_neg (by omega)]

theorem entryStart_lt {sec : List Nat} {offset : Nat} (h : AllBytes sec) : entryStart (entryBytes sec offset) < 65536 := by
  have key : ∀ j : Nat, (entryBytes sec offset)[j]?.getD 0 < 256 := by
    intro j
    cases hj : (entryBytes sec offset)[j]? with
    | none => decide
    | some b => exact h b (List.mem_of_mem_drop (List.mem_of_mem_take (List.mem_of_getElem? hj)))
  have h3 := key 3
  have h4 := key 4
  unfold entryStart
  omega

/-- What the directory knows of the entry it points at. -/
theorem current_entry {d : Dir} {k : Nat} (hn : d.fileNo = k) {sec : List Nat} (hl : sec.length = 128) (hb : AllBytes sec) (hs : d.sector.length = 128) (hdb : AllBytes d.sector)
    (hsame : ∀ j, j < k % 8 * 16 + 5 → d.sector[j]? = sec[j]?) :
    d.entryType = .ok (entryType (entryBytes sec (k % 8 * 16))) ∧ d.entryFirstSector = .ok (entryStart (entryBytes sec (k % 8 * 16))) := by
  have eo : (d.fileNo % 8).toNat * 16 = k % 8 * 16 := by omega
  have get : ∀ j, j < 5 → d.sector[k % 8 * 16 + j]? = (entryBytes sec (k % 8 * 16))[j]? := by
    intro j hj
    rw [hsame _ (by omega)]
    unfold entryBytes
    rw [List.getElem?_take_of_lt (by omega), List.getElem?_drop]
  have rdj : ∀ j, j < 5 → rd d.sector (k % 8 * 16 + j) = .ok ((entryBytes sec (k % 8 * 16))[j]?.getD 0) := by
    intro j hj
    rw [← get j hj]
    unfold rd
    rw [List.getElem?_eq_getElem (by omega)]
    rfl
  unfold Dir.entryType Dir.entryFirstSector
  rw [eo]
  constructor
  · have r0 := rdj 0 (by omega)
    rw [Nat.add_zero] at r0
    rw [r0]
    simp only [bind, Except.bind]
    rw [maskType_eq]
    · rfl
    · rw [← get 0 (by omega), List.getElem?_eq_getElem (by omega)]
      exact hdb _ (List.getElem_mem _)
  · rw [rdj 3 (by omega), rdj 4 (by omega)]
    rfl

/-- `NextEntry` gives the next listed entry. -/
theorem nextEntry_sync (fuel : Nat) : ∀ (d : Dir) (k : Nat), d.Sync k → 65 - k ≤ fuel → ∃ r d', Dir.nextEntry fuel d = .ok (r, d') ∧ d'.Valid ∧ d'.disk = d.disk ∧ d'.firstSector = d.firstSector ∧
    (r = none → ∀ e ∈ entries d.disk.image' d.firstSector k, listed d.disk.bytesPerSector e = none) ∧
    ∀ name, r = some name → ∃ j e skipped, d'.Sync (j + 1) ∧ k ≤ j ∧ j < 64 ∧
      entries d.disk.image' d.firstSector k = skipped ++ e :: entries d.disk.image' d.firstSector (j + 1) ∧ (∀ e ∈ skipped, listed d.disk.bytesPerSector e = none) ∧
      listed d.disk.bytesPerSector e = some name ∧ d'.entryType = .ok (entryType e) ∧ d'.entryFirstSector = .ok (entryStart e) ∧ entryStart e < 65536 := by
  induction fuel with
  | zero => intro d k h hf; have := h.valid.high; have := h.next; omega
  | succ fuel ih =>
    intro d k h hf
    have hn := h.next
    have hv := h.valid
    by_cases hk : 64 ≤ k
    · refine ⟨none, d, nextEntry_last (by omega), hv, rfl, rfl, fun _ => ?_, by simp⟩
      rw [entries_end _ _ hk]; simp
    · rcases h.fetch (by omega) with ⟨hnone, sec, hfetch, hl, hb⟩ | ⟨sec, he, hfetch, hl, hb, sec0, h0, hsame⟩
      · refine ⟨none, _, nextEntry_fail (by omega) hfetch, hv.goto (by omega) hl hb, rfl, rfl, fun _ => ?_, by simp⟩
        rw [entries_stop (by rw [hnone]; rfl)]; simp
      · have hg := hv.goto (by omega) hl hb
        have sync : ∀ sec', sec'.length = 128 → AllBytes sec' → (∀ j, k % 8 * 16 + 16 ≤ j → sec'[j]? = sec[j]?) → (d.goto sec').Sync (k + 1) := by
          intro sec' hl' hb' hs'
          refine ⟨hv.goto (by omega) hl' hb', by show d.fileNo + 1 + 1 = ((k + 1 : Nat) : Int); omega, fun hne => ⟨sec0, ?_, fun j hj => ?_⟩⟩
          · show dirSector d.disk.image' (d.firstSector + (k + 1) / 8) = _
            rw [show (k + 1) / 8 = k / 8 by omega]; exact h0
          · show sec'[j]? = _
            rw [hs' j (by omega), hsame j (by omega)]
        have eo : k % 8 * 16 = ((d.fileNo + 1) % 8).toNat * 16 := by omega
        rcases nextEntry_step (fuel := fuel) (d := d) (by omega) hl hb (k % 8 * 16) eo (by rw [eo]; exact hfetch) with ⟨ht, e⟩ | ⟨ht, hlist, e⟩ | ⟨ht, name, sec', hlist, e, e2, e3, e4⟩
        · refine ⟨none, _, e, hg, rfl, rfl, fun _ => ?_, by simp⟩
          rw [entries_stop (by rw [he]; simp [goesOn, typeAt_entry, ht])]; simp
        · rw [e]
          have hcons := entries_cons (by omega) he (by rw [typeAt_entry]; exact ht)
          obtain ⟨r, d', h1, h2, h3, h4, h5, h6⟩ := ih (d.goto sec) (k + 1) (sync sec hl hb (fun _ _ => rfl)) (by omega)
          refine ⟨r, d', h1, h2, h3, h4, fun hr => ?_, fun name hr => ?_⟩
          · rw [hcons]
            intro x hx
            rcases List.mem_cons.mp hx with rfl | hx
            · exact hlist
            · exact h5 hr x hx
          · obtain ⟨j, x, skipped, g1, g2, g3, g4, g5, g6⟩ := h6 name hr
            have g4 : entries d.disk.image' d.firstSector (k + 1) = _ := g4
            refine ⟨j, x, entryBytes sec (k % 8 * 16) :: skipped, g1, by omega, g3, ?_, ?_, g6⟩
            · rw [hcons, g4]; rfl
            · intro y hy
              rcases List.mem_cons.mp hy with rfl | hy
              · exact hlist
              · exact g5 y hy
        · refine ⟨some name, _, e, hv.goto (by omega) e2 e3, rfl, rfl, by simp, fun n hname => ?_⟩
          injection hname with hname
          subst hname
          have hcons := entries_cons (by omega) he (by rw [typeAt_entry]; exact ht)
          have hcur := current_entry (d := d.goto sec') (k := k) (by show d.fileNo + 1 = _; omega) hl hb e2 e3 (fun j hj => e4 j (Or.inl hj))
          exact ⟨k, entryBytes sec (k % 8 * 16), [], sync sec' e2 e3 (fun j hj => e4 j (Or.inr hj)), Nat.le_refl _, by omega, hcons, by simp, hlist, hcur.1, hcur.2, entryStart_lt hb⟩

end Asap.Atr
