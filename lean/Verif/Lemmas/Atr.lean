import Verif.Lemmas.Hoare
import Verif.Model.Atr
import Verif.Spec.Atr
import Mathlib.Tactic.SplitIfs

/-! Reading sectors and files of disk images. -/

namespace Asap.Atr
open Asap Asap.Spec.Atr

/-- The disk is this image. -/
def Disk.image' (d : Disk) : Image := ⟨d.image, d.bytesPerSector, d.sector4Offset⟩

/-- What `Open` gives. -/
structure Disk.Ok (d : Disk) : Prop where
  bytes : AllBytes d.image
  size : d.bytesPerSector = 128 ∨ d.bytesPerSector = 256
  start : 16 + 3 * 128 ≤ d.sector4Offset

theorem readAt_ok {image buffer : List Nat} {offset length : Nat} (h : length ≤ buffer.length) (hi : offset + length ≤ image.length) :
    readAt image offset buffer length = .ok (true, (image.drop offset).take length ++ buffer.drop length) := by
  unfold readAt
  rw [if_neg (by omega)]
  have : ((image.drop offset).take length).length = length := by simp; omega
  simp only [this]
  simp

theorem readAt_fail {image buffer : List Nat} {offset length : Nat} (h : length ≤ buffer.length) (h0 : 0 < length) (hi : ¬ offset + length ≤ image.length) (hb : AllBytes image)
    (hbuf : AllBytes buffer) : ∃ b, readAt image offset buffer length = .ok (false, b) ∧ b.length = buffer.length ∧ AllBytes b ∧ ∀ k, length ≤ k + 1 → b[k]? = buffer[k]? := by
  unfold readAt
  rw [if_neg (by omega)]
  have hlt : ((image.drop offset).take length).length < length := by simp; omega
  refine ⟨((image.drop offset).take length) ++ buffer.drop ((image.drop offset).take length).length, ?_, ?_, ?_, ?_⟩
  · simp only [Nat.ne_of_lt hlt, decide_false]
  · simp only [List.length_append, List.length_drop]; simp at hlt ⊢; omega
  · intro b hm
    rcases List.mem_append.mp hm with hm | hm
    · exact hb b (List.mem_of_mem_drop (List.mem_of_mem_take hm))
    · exact hbuf b (List.mem_of_mem_drop hm)
  · intro k hk
    rw [List.getElem?_append_right (by omega), List.getElem?_drop]
    congr 1
    omega

theorem sector_length {i : Image} {n : Nat} {data : List Nat} (h : sector i n = some data) : data.length = i.sectorSize := by
  unfold sector at h
  split at h
  · simp at h
  · split at h
    · injection h with h
      rw [← h]; simp; omega
    · simp at h

theorem sector_bytes {i : Image} {n : Nat} {data : List Nat} (hb : AllBytes i.bytes) (h : sector i n = some data) : AllBytes data := by
  unfold sector at h
  split at h
  · simp at h
  · split at h
    · injection h with h
      rw [← h]
      intro b hm
      exact hb b (List.mem_of_mem_drop (List.mem_of_mem_take hm))
    · simp at h

theorem readSector_some {d : Disk} (hd : d.Ok) {n : Nat} {buffer data : List Nat} (hl : buffer.length = 256) (h : sector d.image' n = some data) :
    d.readSector n buffer d.bytesPerSector = .ok (true, data ++ buffer.drop d.bytesPerSector) := by
  have hs := hd.size
  unfold sector place Disk.image' at h
  simp only at h
  unfold Disk.readSector
  by_cases hn : n < 4
  · simp only [if_pos hn] at h
    rw [if_pos hn]
    split at h
    · simp at h
    · rw [if_neg (by omega)]
      split at h
      · injection h with h
        have e : n * 128 - 0x70 = 16 + (n - 1) * 128 := by omega
        rw [e, readAt_ok (by omega) (by omega), h]
      · simp at h
  · simp only [if_neg hn] at h
    rw [if_neg hn]
    split at h
    · simp at h
    · split at h
      · injection h with h
        rw [readAt_ok (by omega) (by omega), h]
      · simp at h

theorem readSector_none {d : Disk} (hd : d.Ok) {n : Nat} {buffer : List Nat} (hl : buffer.length = 256) (hbuf : AllBytes buffer) (h : sector d.image' n = none) :
    ∃ b, d.readSector n buffer d.bytesPerSector = .ok (false, b) ∧ b.length = 256 ∧ AllBytes b ∧ b[d.bytesPerSector - 1]? = buffer[d.bytesPerSector - 1]? := by
  have hs := hd.size
  unfold sector place Disk.image' at h
  simp only at h
  unfold Disk.readSector
  by_cases hn : n < 4
  · simp only [if_pos hn] at h
    rw [if_pos hn]
    by_cases hc : n < 1 ∨ d.bytesPerSector > 128
    · rw [if_pos hc]
      exact ⟨buffer, rfl, hl, hbuf, rfl⟩
    · rw [if_neg hc]
      rw [if_neg (by omega)] at h
      split at h
      · simp at h
      · rename_i hlong
        have e : n * 128 - 0x70 = 16 + (n - 1) * 128 := by omega
        rw [e]
        obtain ⟨b, h1, h2, h3, h4⟩ := readAt_fail (buffer := buffer) (length := d.bytesPerSector) (by omega) (by omega) hlong hd.bytes hbuf
        exact ⟨b, h1, by omega, h3, h4 _ (by omega)⟩
  · simp only [if_neg hn] at h
    rw [if_neg hn]
    rw [if_neg (by omega)] at h
    split at h
    · simp at h
    · rename_i hlong
      obtain ⟨b, h1, h2, h3, h4⟩ := readAt_fail (buffer := buffer) (length := d.bytesPerSector) (by omega) (by omega) hlong hd.bytes hbuf
      exact ⟨b, h1, by omega, h3, h4 _ (by omega)⟩

/-! ## Streams -/

/-- The kind of a file, as the stream remembers it. -/
def kindOf (fileType : Nat) : Kind := if fileType = 0 then .dos1 else if fileType = 6 then .mydos else .dos2

theorem sectorCount_eq (fileType : Nat) {size : Nat} {data : List Nat} (h : data.length = size) (hs : 0 < size) :
    sectorCount fileType size (fromEnd data 1) = used (kindOf fileType) data := by
  unfold sectorCount used kindOf
  split
  · rfl
  · split_ifs <;> first | rfl | omega

theorem fromEnd_get {data rest : List Nat} {size k : Nat} (h : data.length = size) (h1 : 0 < k) (h2 : k ≤ size) : (data ++ rest)[size - k]? = some (fromEnd data k) := by
  rw [List.getElem?_append_left (by omega)]
  unfold fromEnd
  rw [h, List.getElem?_eq_getElem (by omega)]
  rfl

theorem nextOf_eq (fileType : Nat) {size : Nat} {data rest : List Nat} (h : data.length = size) (hs : 3 ≤ size) :
    nextOf fileType size (data ++ rest) = .ok (next (kindOf fileType) data) := by
  unfold nextOf rd
  rw [fromEnd_get h (by omega) (by omega), fromEnd_get h (by omega) (by omega)]
  show Except.ok _ = _
  refine congrArg Except.ok ?_
  unfold next kindOf
  by_cases h0 : fileType = 0
  · simp only [h0, if_true]; rfl
  · by_cases h6 : fileType = 6
    · simp only [h6, if_true]; rfl
    · simp only [if_neg h0, if_neg h6]

/-- What every operation keeps: any stream that was opened. -/
structure Stream.Valid (s : Stream) : Prop where
  disk : s.disk.Ok
  length : s.sector.length = 256
  bytes : AllBytes s.sector
  offset : s.sectorOffset ≤ 255
  first : s.firstSector < 65536
  next : s.nextSector < 65536

/-- Bytes of the current sector, if the last byte of it makes sense. -/
def Stream.count (s : Stream) : Option Nat := sectorCount s.fileType s.disk.bytesPerSector (s.sector[s.disk.bytesPerSector - 1]?.getD 0)

/-- What is left of the current sector. -/
def Stream.current (s : Stream) (c : Nat) : List Nat := (s.sector.take c).drop s.sectorOffset

theorem sectorCount_le {fileType size last c : Nat} (hs : size ≤ 256) (hl : last < 256) (h : sectorCount fileType size last = some c) : c ≤ 255 := by
  unfold sectorCount at h
  split_ifs at h <;> injection h with h <;> omega

/-- The last byte of the sector in the buffer. -/
theorem Stream.Valid.last {s : Stream} (h : s.Valid) : rd s.sector (s.disk.bytesPerSector - 1) = .ok (s.sector[s.disk.bytesPerSector - 1]?.getD 0) ∧
    s.sector[s.disk.bytesPerSector - 1]?.getD 0 < 256 := by
  have hs := h.disk.size
  have hl := h.length
  have hlt : s.disk.bytesPerSector - 1 < s.sector.length := by omega
  unfold rd
  rw [List.getElem?_eq_getElem hlt]
  exact ⟨rfl, h.bytes _ (List.getElem_mem hlt)⟩

theorem Stream.Valid.count_le {s : Stream} (h : s.Valid) {c : Nat} (hc : s.count = some c) : c ≤ 255 := by
  have hs := h.disk.size
  exact sectorCount_le (by omega) h.last.2 hc

theorem fromEnd_lt {data : List Nat} (h : AllBytes data) (k : Nat) : fromEnd data k < 256 := by
  unfold fromEnd
  rcases Nat.lt_or_ge (data.length - k) data.length with hlt | hge
  · rw [List.getElem?_eq_getElem hlt]; exact h _ (List.getElem_mem hlt)
  · rw [List.getElem?_eq_none hge]; decide

theorem next_lt {kind : Kind} {data : List Nat} (h : AllBytes data) : Spec.Atr.next kind data < 65536 := by
  have h2 := fromEnd_lt h 2
  have h3 := fromEnd_lt h 3
  unfold Spec.Atr.next
  split <;> omega

/-- The stream after a sector was read. -/
def Stream.loaded (s : Stream) (data : List Nat) : Stream :=
  { s with sector := data ++ s.sector.drop s.disk.bytesPerSector, sectorOffset := 0, nextSector := next (kindOf s.fileType) data }

theorem Stream.Valid.loaded {s : Stream} (h : s.Valid) {data : List Nat} (hd : Spec.Atr.sector s.disk.image' s.nextSector = some data) : (s.loaded data).Valid := by
  have hs := h.disk.size
  have hl := h.length
  have hdl := sector_length hd
  have hdb := sector_bytes h.disk.bytes hd
  refine ⟨h.disk, ?_, ?_, by show 0 ≤ 255; omega, h.first, next_lt hdb⟩
  · show (data ++ s.sector.drop s.disk.bytesPerSector).length = 256
    simp only [List.length_append, List.length_drop, hdl]
    show s.disk.bytesPerSector + _ = _
    omega
  · intro b hm
    rcases List.mem_append.mp hm with hm | hm
    · exact hdb b hm
    · exact h.bytes b (List.mem_of_mem_drop hm)

theorem Stream.Valid.loaded_count {s : Stream} (h : s.Valid) {data : List Nat} (hd : Spec.Atr.sector s.disk.image' s.nextSector = some data) :
    (s.loaded data).count = used (kindOf s.fileType) data := by
  have hs := h.disk.size
  have hdl : data.length = s.disk.bytesPerSector := sector_length hd
  unfold Stream.count Stream.loaded
  simp only
  rw [fromEnd_get hdl (by omega) (by omega)]
  exact sectorCount_eq _ hdl (by omega)

theorem loaded_current {s : Stream} {data : List Nat} {c : Nat} (hc : c ≤ data.length) : (s.loaded data).current c = data.take c := by
  unfold Stream.current Stream.loaded
  simp only [List.drop_zero]
  rw [List.take_append_of_le_length hc]

/-- A step that reads a sector. -/
theorem readLoop_load {fuel : Nat} {s : Stream} (h : s.Valid) {buffer : Option (List Nat)} {offset total length c : Nat} {data : List Nat} (hlen : 0 < length)
    (hc : s.count = some c) (hcur : c ≤ s.sectorOffset) (hd : Spec.Atr.sector s.disk.image' s.nextSector = some data) :
    s.readLoop (fuel + 1) buffer offset total length = (s.loaded data).readLoop fuel buffer offset total length := by
  have hs := h.disk.size
  have hdl : data.length = s.disk.bytesPerSector := sector_length hd
  conv => lhs; unfold Stream.readLoop
  rw [if_neg (by omega), h.last.1]
  show (match s.count with | none => _ | some got => _) = _
  rw [hc]
  show (if c ≤ s.sectorOffset then _ else _) = _
  rw [if_pos hcur, readSector_some h.disk h.length hd]
  show (nextOf s.fileType s.disk.bytesPerSector (data ++ s.sector.drop s.disk.bytesPerSector) >>= _) = _
  rw [nextOf_eq _ hdl (by omega)]
  rfl

/-- A step that finds no sector. -/
theorem readLoop_stop {fuel : Nat} {s : Stream} (h : s.Valid) {buffer : Option (List Nat)} {offset total length c : Nat} (hlen : 0 < length)
    (hc : s.count = some c) (hcur : c ≤ s.sectorOffset) (hd : Spec.Atr.sector s.disk.image' s.nextSector = none) :
    ∃ sec, s.readLoop (fuel + 1) buffer offset total length = .ok ((total : Int), buffer, { s with sector := sec }) ∧
      sec.length = 256 ∧ AllBytes sec ∧ sec[s.disk.bytesPerSector - 1]? = s.sector[s.disk.bytesPerSector - 1]? := by
  obtain ⟨b, h1, h2, h3, h4⟩ := readSector_none h.disk h.length h.bytes hd
  refine ⟨b, ?_, h2, h3, h4⟩
  unfold Stream.readLoop
  rw [if_neg (by omega), h.last.1]
  show (match s.count with | none => _ | some got => _) = _
  rw [hc]
  show (if c ≤ s.sectorOffset then _ else _) = _
  rw [if_pos hcur, h1]
  rfl

/-- A buffer with some bytes replaced. -/
def putAt (buffer : Option (List Nat)) (offset : Nat) (data : List Nat) : Option (List Nat) :=
  buffer.map fun b => b.take offset ++ data ++ b.drop (offset + data.length)

theorem putAt_nil (buffer : Option (List Nat)) (offset : Nat) : putAt buffer offset [] = buffer := by
  cases buffer <;> simp [putAt]

theorem putAt_putAt {buffer : Option (List Nat)} {offset : Nat} {d1 d2 : List Nat} (h : ∀ b ∈ buffer, offset + d1.length ≤ b.length) :
    putAt (putAt buffer offset d1) (offset + d1.length) d2 = putAt buffer offset (d1 ++ d2) := by
  cases buffer with
  | none => rfl
  | some b =>
    have hb := h b rfl
    simp only [putAt, Option.map_some, Option.some.injEq]
    have e1 : (b.take offset ++ d1).length = offset + d1.length := by simp; omega
    have t1 : (b.take offset ++ d1 ++ b.drop (offset + d1.length)).take (offset + d1.length) = b.take offset ++ d1 := by
      rw [← e1, List.take_left]
    have t2 : (b.take offset ++ d1 ++ b.drop (offset + d1.length)).drop (offset + d1.length + d2.length) = b.drop (offset + (d1 ++ d2).length) := by
      rw [← List.drop_drop]
      conv => lhs; arg 2; rw [← e1, List.drop_left]
      have e2 : (b.take offset).length = offset := by simp; omega
      rw [List.drop_drop]
      simp only [List.length_append, e2]
      rw [Nat.add_assoc]
    rw [t1, t2]
    simp

theorem putAt_length {buffer : Option (List Nat)} {offset : Nat} {data : List Nat} {n : Nat} (h : ∀ b ∈ buffer, n ≤ b.length) (hd : ∀ b ∈ buffer, offset + data.length ≤ b.length) :
    ∀ b ∈ putAt buffer offset data, n ≤ b.length := by
  cases buffer with
  | none => simp [putAt]
  | some b =>
    intro b' hb'
    simp only [putAt, Option.map_some, Option.mem_def, Option.some.injEq] at hb'
    have h1 := h b rfl
    have h2 := hd b rfl
    rw [← hb']
    simp only [List.length_append, List.length_take, List.length_drop]
    omega

theorem copyOut_eq {sec : List Nat} {offset at' n : Nat} {buffer : Option (List Nat)} (h : offset + n ≤ sec.length) (hb : ∀ b ∈ buffer, at' + n ≤ b.length) :
    copyOut sec offset buffer at' n = .ok (putAt buffer at' ((sec.drop offset).take n)) := by
  cases buffer with
  | none => rfl
  | some b =>
    have hb := hb b rfl
    unfold copyOut putAt
    simp only
    rw [if_pos ⟨h, hb⟩]
    have : ((sec.drop offset).take n).length = n := by simp; omega
    simp [this]

/-- The stream after some bytes were given. -/
def Stream.advanced (s : Stream) (n : Nat) : Stream := { s with position := s.position + n, sectorOffset := s.sectorOffset + n }

/-- A step that gives bytes. -/
theorem readLoop_give {fuel : Nat} {s : Stream} (h : s.Valid) {buffer : Option (List Nat)} {offset total length c n : Nat} (hlen : 0 < length)
    (hc : s.count = some c) (hcur : ¬ c ≤ s.sectorOffset) (hn : n = min (c - s.sectorOffset) length) (hb : ∀ b ∈ buffer, offset + total + length ≤ b.length) :
    s.readLoop (fuel + 1) buffer offset total length =
      (s.advanced n).readLoop fuel (putAt buffer (offset + total) ((s.sector.drop s.sectorOffset).take n)) offset (total + n) (length - n) := by
  have hcl := h.count_le hc
  have hl := h.length
  conv => lhs; unfold Stream.readLoop
  rw [if_neg (by omega), h.last.1]
  show (match s.count with | none => _ | some got => _) = _
  rw [hc]
  show (if c ≤ s.sectorOffset then _ else _) = _
  rw [if_neg hcur]
  simp only [← hn]
  rw [copyOut_eq (by omega) (fun b hm => by have := hb b hm; omega)]
  rfl

theorem Stream.Valid.advanced {s : Stream} (h : s.Valid) {n c : Nat} (hc : s.count = some c) (hn : s.sectorOffset + n ≤ c) : (s.advanced n).Valid :=
  ⟨h.disk, h.length, h.bytes, by have := h.count_le hc; show s.sectorOffset + n ≤ 255; omega, h.first, h.next⟩

/-- What is left of the file: at most `k` sectors after the current one. -/
structure Stream.Left (s : Stream) (k : Nat) (left : List Nat) : Prop where
  valid : s.Valid
  parts : ∃ c tail j, j ≤ k ∧ s.count = some c ∧ Chain s.disk.image' (kindOf s.fileType) s.nextSector j tail ∧ left = s.current c ++ tail

/-- The same file. -/
structure Stream.Same (s t : Stream) : Prop where
  disk : t.disk = s.disk
  first : t.firstSector = s.firstSector
  type : t.fileType = s.fileType

theorem Stream.Same.refl (s : Stream) : s.Same s := ⟨rfl, rfl, rfl⟩

theorem Stream.Same.trans {s t u : Stream} (h1 : s.Same t) (h2 : t.Same u) : s.Same u :=
  ⟨h2.disk.trans h1.disk, h2.first.trans h1.first, h2.type.trans h1.type⟩

/-- What reading gives. -/
def Stream.Reads (s : Stream) (r : M (Int × Option (List Nat) × Stream)) (k : Nat) (left : List Nat) (buffer : Option (List Nat)) (offset total length : Nat) : Prop :=
  ∃ s', r = .ok (((total + (left.take length).length : Nat) : Int), putAt buffer (offset + total) (left.take length), s') ∧ s.Same s' ∧
    s'.position = s.position + (left.take length).length ∧ s'.Left k (left.drop length)

theorem current_nil {s : Stream} {c : Nat} (h : c ≤ s.sectorOffset) : s.current c = [] := by
  unfold Stream.current
  rw [List.drop_eq_nil_iff]
  simp
  omega

theorem current_length {s : Stream} (h : s.Valid) {c : Nat} (hc : s.count = some c) : (s.current c).length = c - s.sectorOffset := by
  have := h.count_le hc
  have := h.length
  unfold Stream.current
  simp
  omega

theorem used_le {i : Image} {kind : Kind} {n c : Nat} {data : List Nat} (hs : i.sectorSize = 128 ∨ i.sectorSize = 256) (hb : AllBytes i.bytes)
    (h : Spec.Atr.sector i n = some data) (hu : used kind data = some c) : c ≤ data.length := by
  have hl := sector_length h
  have hlt : fromEnd data 1 < 256 := by
    unfold fromEnd
    rw [List.getElem?_eq_getElem (by omega)]
    exact sector_bytes hb h _ (List.getElem_mem _)
  unfold used at hu
  cases kind <;> simp only at hu <;> split_ifs at hu <;> injection hu with hu <;> omega

theorem reads (k : Nat) : ∀ (s : Stream) (left : List Nat) (buffer : Option (List Nat)) (offset total length fuel : Nat), s.Left k left →
    (∀ b ∈ buffer, offset + total + length ≤ b.length) → 2 * k + 3 ≤ fuel → s.Reads (s.readLoop fuel buffer offset total length) k left buffer offset total length := by
  induction k with
  | zero => exact aux 0 (fun _ h => absurd h (by omega))
  | succ k ih => exact aux (k + 1) (fun j hj => by
      have : j = k := by omega
      subst this; exact ih)
where
  aux (k : Nat) (ih : ∀ j, k = j + 1 → ∀ (s : Stream) (left : List Nat) (buffer : Option (List Nat)) (offset total length fuel : Nat), s.Left j left →
    (∀ b ∈ buffer, offset + total + length ≤ b.length) → 2 * j + 3 ≤ fuel → s.Reads (s.readLoop fuel buffer offset total length) j left buffer offset total length) :
    ∀ (s : Stream) (left : List Nat) (buffer : Option (List Nat)) (offset total length fuel : Nat), s.Left k left →
    (∀ b ∈ buffer, offset + total + length ≤ b.length) → 2 * k + 3 ≤ fuel → s.Reads (s.readLoop fuel buffer offset total length) k left buffer offset total length := by
    have done : ∀ (s : Stream) (left : List Nat) (buffer : Option (List Nat)) (offset total fuel : Nat), s.Left k left →
        s.Reads (s.readLoop (fuel + 1) buffer offset total 0) k left buffer offset total 0 := by
      intro s left buffer offset total fuel h
      refine ⟨s, ?_, Stream.Same.refl s, rfl, h⟩
      unfold Stream.readLoop
      rw [if_pos rfl]
      simp [putAt_nil]
    have exhausted : ∀ (s : Stream) (c j : Nat) (tail : List Nat) (buffer : Option (List Nat)) (offset total length fuel : Nat), s.Valid → s.count = some c → c ≤ s.sectorOffset → j ≤ k →
        Chain s.disk.image' (kindOf s.fileType) s.nextSector j tail → 0 < length →
        (∀ b ∈ buffer, offset + total + length ≤ b.length) → 2 * k + 2 ≤ fuel → s.Reads (s.readLoop fuel buffer offset total length) k tail buffer offset total length := by
      intro s c j tail buffer offset total length fuel hv hc hcur hj hch hlen hb hf
      obtain ⟨fuel, rfl⟩ : ∃ f, fuel = f + 1 := ⟨fuel - 1, by omega⟩
      cases hch with
      | stop hnone =>
        obtain ⟨sec, h1, h2, h3, h4⟩ := readLoop_stop (fuel := fuel) (buffer := buffer) (offset := offset) (total := total) hv hlen hc hcur hnone
        refine ⟨{ s with sector := sec }, by rw [h1]; simp [putAt_nil], ⟨rfl, rfl, rfl⟩, by simp, ⟨hv.disk, h2, h3, hv.offset, hv.first, hv.next⟩, c, [], 0, by omega, ?_, .stop hnone, ?_⟩
        · unfold Stream.count
          simp only [h4]
          exact hc
        · rw [current_nil (s := { s with sector := sec }) hcur]; simp
      | @link _ j' c' data rest hsome hu hrest =>
        rw [readLoop_load hv hlen hc hcur hsome]
        have hl : (s.loaded data).Left (k - 1) (data.take c' ++ rest) := by
          refine ⟨hv.loaded hsome, c', rest, j', by omega, (hv.loaded_count hsome).trans hu, hrest, ?_⟩
          rw [loaded_current (used_le hv.disk.size hv.disk.bytes hsome hu)]
        obtain ⟨s', h1, h2, h3, h4, c2, t2, j2, hj2, hx⟩ := ih (k - 1) (by omega) (s.loaded data) _ buffer offset total length fuel hl hb (by omega)
        exact ⟨s', h1, Stream.Same.trans (t := s.loaded data) ⟨rfl, rfl, rfl⟩ h2, h3, h4, c2, t2, j2, by omega, hx⟩
    intro s left buffer offset total length fuel h hb hf
    obtain ⟨hv, c, tail, j, hj, hc, hch, hleft⟩ := h
    by_cases h0 : length = 0
    · subst h0
      obtain ⟨fuel, rfl⟩ : ∃ f, fuel = f + 1 := ⟨fuel - 1, by omega⟩
      exact done s left buffer offset total fuel ⟨hv, c, tail, j, hj, hc, hch, hleft⟩
    · by_cases hcur : c ≤ s.sectorOffset
      · have e : left = tail := by rw [hleft, current_nil hcur]; rfl
        rw [e]
        exact exhausted s c j tail buffer offset total length fuel hv hc hcur hj hch (by omega) hb (by omega)
      · obtain ⟨fuel, rfl⟩ : ∃ f, fuel = f + 1 := ⟨fuel - 1, by omega⟩
        have hcl := current_length hv hc
        rw [readLoop_give hv (by omega) hc hcur rfl hb]
        generalize hn : min (c - s.sectorOffset) length = n
        have hnl : n ≤ length := by omega
        have hnc : s.sectorOffset + n ≤ c := by omega
        have hva := hv.advanced hc hnc
        have hcount : (s.advanced n).count = some c := hc
        have hc255 := hv.count_le hc
        have hl256 := hv.length
        have etake : (s.sector.drop s.sectorOffset).take n = left.take n := by
          rw [hleft, List.take_append_of_le_length (by omega)]
          unfold Stream.current
          rw [List.drop_take, List.take_take]
          congr 1
          omega
        have ecur : (s.advanced n).current c = (s.current c).drop n := by
          unfold Stream.current Stream.advanced
          rw [List.drop_drop]
        have eleft : left.drop n = (s.advanced n).current c ++ tail := by
          rw [hleft, List.drop_append_of_le_length (by omega), ecur]
        have elen : (left.take n).length = n := by rw [hleft]; simp only [List.length_take, List.length_append]; omega
        rw [etake]
        have hb' : ∀ b ∈ putAt buffer (offset + total) (left.take n), offset + (total + n) + (length - n) ≤ b.length := by
          apply putAt_length
          · intro b hm; have := hb b hm; omega
          · intro b hm; have := hb b hm; omega
        have glue : ∀ r, (s.advanced n).Reads r k (left.drop n) (putAt buffer (offset + total) (left.take n)) offset (total + n) (length - n) →
            s.Reads r k left buffer offset total length := by
          rintro r ⟨s', h1, h2, h3, h4⟩
          have e1 : left.take length = left.take n ++ (left.drop n).take (length - n) := by
            rw [List.take_drop, show length = n + (length - n) by omega]
            rw [show n + (n + (length - n) - n) = n + (length - n) by omega]
            conv => lhs; rw [← List.take_append_drop n (left.take (n + (length - n)))]
            rw [List.take_take, Nat.min_eq_left (by omega)]
          refine ⟨s', ?_, Stream.Same.trans (t := s.advanced n) ⟨rfl, rfl, rfl⟩ h2, ?_, ?_⟩
          · rw [h1]
            have e2 : putAt (putAt buffer (offset + total) (left.take n)) (offset + (total + n)) ((left.drop n).take (length - n)) =
                putAt buffer (offset + total) (left.take length) := by
              have := putAt_putAt (buffer := buffer) (offset := offset + total) (d1 := left.take n) (d2 := (left.drop n).take (length - n)) (by
                intro b hm; have := hb b hm; omega)
              rw [elen] at this
              rw [← Nat.add_assoc, this, ← e1]
            rw [e2, e1, List.length_append, elen]
            simp only [Nat.add_assoc]
          · rw [h3, e1, List.length_append, elen]
            show s.position + n + _ = _
            omega
          · rw [List.drop_drop, show n + (length - n) = length by omega] at h4
            exact h4
        apply glue
        by_cases hall : length = n
        · rw [show length - n = 0 by omega]
          obtain ⟨fuel, rfl⟩ : ∃ f, fuel = f + 1 := ⟨fuel - 1, by omega⟩
          exact done _ _ _ _ _ _ ⟨hva, c, tail, j, hj, hcount, hch, eleft⟩
        · have hex : c ≤ (s.advanced n).sectorOffset := by show c ≤ s.sectorOffset + n; omega
          have e : left.drop n = tail := by rw [eleft, current_nil hex]; rfl
          rw [e]
          exact exhausted _ c j tail _ _ _ _ _ hva hcount hex hj hch (by omega) hb' (by omega)

end Asap.Atr
