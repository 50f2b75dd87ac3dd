import Verif.Lemmas.Atr
import Mathlib.Data.Fintype.Card
import Mathlib.Data.Fintype.EquivFin
import Mathlib.Order.WellFounded
import Mathlib.Order.RelClasses
import Mathlib.Data.Set.Finite.Basic
import Mathlib.Order.WellFoundedSet

/-! C35 and C36: reading files from disk images. -/

namespace Asap.Props
open Asap Asap.Atr Asap.Spec.Atr

/-! ## Images -/

/-- Images are opened exactly if they have a correct header. -/
theorem C35_open_disk (image : List Nat) (d : Disk) : openDisk image = .ok (some d) ↔ d.image = image ∧ IsImage d.image' := by
  match image with
  | a0 :: a1 :: a2 :: a3 :: a4 :: a5 :: rest =>
    have e : openDisk (a0 :: a1 :: a2 :: a3 :: a4 :: a5 :: rest) =
        (if (true = false) ∨ a0 ≠ 0x96 ∨ a1 ≠ 2 then .ok none
        else if a4 + 256 * a5 = 0x80 then .ok (some ⟨a0 :: a1 :: a2 :: a3 :: a4 :: a5 :: rest, a4 + 256 * a5, 0x190⟩)
        else if a4 + 256 * a5 = 0x100 then .ok (some ⟨a0 :: a1 :: a2 :: a3 :: a4 :: a5 :: rest, a4 + 256 * a5, if a2 % 16 = 0 then 0x310 else 0x190⟩)
        else .ok none) := rfl
    rw [e]
    obtain ⟨im, size, start⟩ := d
    unfold IsImage Disk.image'
    simp only
    constructor
    · intro h
      split at h
      · simp at h
      · split at h
        · injection h with h
          injection h with h
          injection h with h1 h2 h3
          subst h1 h2 h3
          refine ⟨rfl, by simp, ?_, ?_, ⟨a4, a5, rfl, rfl, rfl⟩, Or.inl ⟨by omega, by omega⟩⟩ <;> simp <;> omega
        · split at h
          · injection h with h
            injection h with h
            injection h with h1 h2 h3
            subst h1 h2 h3
            refine ⟨rfl, by simp, ?_, ?_, ⟨a4, a5, rfl, rfl, rfl⟩, Or.inr ⟨by omega, a2, rfl, by split <;> omega⟩⟩ <;> simp <;> omega
          · simp at h
    · rintro ⟨rfl, _, h0, h1, ⟨lo, hi, h4, h5, hs⟩, h⟩
      injection h0 with h0
      injection h1 with h1
      injection h4 with h4
      injection h5 with h5
      subst h4 h5 hs
      rw [if_neg (by simp; omega)]
      rcases h with ⟨h, hst⟩ | ⟨h, b, hb, hst⟩
      · rw [if_pos h, hst]
      · injection hb with hb
        subst hb
        rw [if_neg (by omega), if_pos h, hst]
        congr 3
        split <;> omega
  | [] | [_] | [_, _] | [_, _, _] | [_, _, _, _] | [_, _, _, _, _] =>
    constructor
    · intro h
      exact absurd (show Except.ok none = Except.ok (some d) from h) (by simp)
    · rintro ⟨e, h, _⟩
      have h : 6 ≤ d.image.length := h
      rw [e] at h
      simp at h

/-! ## Chains -/

theorem Chain.unique {i : Image} {kind : Kind} {n k k' : Nat} {c c' : List Nat} (h : Chain i kind n k c) (h' : Chain i kind n k' c') : k = k' ∧ c = c' := by
  induction h generalizing k' c' with
  | stop h =>
    cases h' with
    | stop _ => exact ⟨rfl, rfl⟩
    | link h1 _ _ => rw [h] at h1; simp at h1
  | link h1 h2 _ ih =>
    cases h' with
    | stop h => rw [h] at h1; simp at h1
    | link h1' h2' h3' =>
      rw [h1] at h1'
      injection h1' with e
      subst e
      rw [h2] at h2'
      injection h2' with e
      subst e
      obtain ⟨e1, e2⟩ := ih h3'
      exact ⟨by omega, by rw [e2]⟩

theorem Chain.inner {i : Image} {kind : Kind} {n k : Nat} {c : List Nat} (hb : AllBytes i.bytes) (h : Chain i kind n k c) (hn : n < 65536) : ∀ j, j ≤ k → ∃ m c', m < 65536 ∧ Chain i kind m j c' := by
  induction h with
  | @stop n h => intro j hj; exact ⟨n, [], hn, by rw [show j = 0 by omega]; exact .stop h⟩
  | @link n k c data rest h1 h2 h3 ih =>
    intro j hj
    rcases Nat.lt_or_ge k j with hk | hk
    · exact ⟨n, _, hn, by rw [show j = k + 1 by omega]; exact .link h1 h2 h3⟩
    · exact ih (next_lt (sector_bytes hb h1)) j hk

/-- No file has more than 65536 sectors, as no sector can occur in it again. -/
theorem Chain.short {i : Image} {kind : Kind} {n k : Nat} {c : List Nat} (hb : AllBytes i.bytes) (h : Chain i kind n k c) (hn : n < 65536) : k ≤ 65536 := by
  have hf : ∀ j : Fin k, ∃ m : Fin 65536, ∃ c', Chain i kind m j c' := by
    intro j
    obtain ⟨m, c', h1, h2⟩ := Chain.inner hb h hn j (by omega)
    exact ⟨⟨m, h1⟩, c', h2⟩
  choose f hf using hf
  have hinj : Function.Injective f := by
    intro a b hab
    obtain ⟨c1, h1⟩ := hf a
    obtain ⟨c2, h2⟩ := hf b
    rw [hab] at h1
    exact Fin.ext (Chain.unique h1 h2).1
  have := Fintype.card_le_of_injective f hinj
  simpa using this

theorem Chain.small {i : Image} {kind : Kind} {n k : Nat} {c : List Nat} (hs : i.sectorSize = 128 ∨ i.sectorSize = 256) (h : Chain i kind n k c) : c.length ≤ 256 * k := by
  induction h with
  | stop _ => simp
  | link h1 _ _ ih =>
    have := sector_length h1
    simp only [List.length_append, List.length_take]
    omega

/-! ## Reading -/

/-- What `Open` gives, for later use. -/
theorem opened_ok {image : List Nat} {d : Disk} (hb : AllBytes image) (h : openDisk image = .ok (some d)) : d.Ok := by
  obtain ⟨e, _, _, _, _, hs⟩ := (C35_open_disk image d).mp h
  refine ⟨by rw [e]; exact hb, ?_, ?_⟩
  · rcases hs with ⟨h, _⟩ | ⟨h, _⟩
    · exact Or.inl h
    · exact Or.inr h
  · rcases hs with ⟨_, h⟩ | ⟨_, b, _, h⟩
    · exact Nat.le_of_eq h.symm
    · have h : d.sector4Offset = _ := h
      rw [h]; split <;> omega

/-- `At s k contents p`: the stream is open on a file with these contents, in `k` sectors, and its position is `p`. -/
structure At (s : Stream) (k : Nat) (contents : List Nat) (p : Nat) : Prop where
  position : s.position = p
  inside : p ≤ contents.length
  file : Chain s.disk.image' (kindOf s.fileType) s.firstSector k contents
  left : s.Left k (contents.drop p)

theorem At.rewind {s : Stream} {k p : Nat} {contents : List Nat} (h : At s k contents p) : At s.rewind k contents 0 := by
  obtain ⟨c, tail, j, hj, hc, hch, hl⟩ := h.left.parts
  have hv := h.left.valid
  refine ⟨rfl, Nat.zero_le _, h.file, ⟨hv.disk, hv.length, hv.bytes, by show 255 ≤ 255; omega, hv.first, hv.first⟩, c, contents, k, Nat.le_refl _, hc, h.file, ?_⟩
  rw [current_nil (s := s.rewind) (hv.count_le hc)]
  rfl

theorem At.read {s : Stream} {k p : Nat} {contents : List Nat} (h : At s k contents p) (fuel : Nat) (hf : 2 * k + 3 ≤ fuel) (buffer : Option (List Nat)) (offset : Nat) (length : Int)
    (hb : ∀ b ∈ buffer, offset + length.toNat ≤ b.length) :
    ∃ s', s.read fuel buffer offset length = .ok ((((contents.drop p).take length.toNat).length : Nat), putAt buffer offset ((contents.drop p).take length.toNat), s') ∧
      At s' k contents (min (p + length.toNat) contents.length) := by
  obtain ⟨s', h1, h2, h3, h4⟩ := reads k s (contents.drop p) buffer offset 0 length.toNat fuel h.left hb hf
  refine ⟨s', ?_, ?_, Nat.min_le_right _ _, ?_, ?_⟩
  · unfold Stream.read
    rw [h1]
    simp
  · rw [h3, h.position]
    have := h.inside
    simp
    omega
  · rw [h2.disk, h2.first, h2.type]; exact h.file
  · rw [List.drop_drop] at h4
    have e : contents.drop (min (p + length.toNat) contents.length) = contents.drop (p + length.toNat) := by
      rcases Nat.le_total (p + length.toNat) contents.length with hle | hle
      · rw [Nat.min_eq_left hle]
      · rw [Nat.min_eq_right hle, List.drop_length, List.drop_eq_nil_of_le hle]
    rw [e]; exact h4

/-- C35: after opening a file, the position is at the beginning of the contents.  The byte left in the stream's buffer by what it read earlier, if it did, must not be greater than the
size of a sector, unless it is a DOS 1 file. -/
theorem C35_open_partial (s : Stream) (d : Dir) (first type k : Nat) (contents : List Nat) (hd : d.disk.Ok) (hl : s.sector.length = 256) (hb : AllBytes s.sector)
    (hfirst : d.entryFirstSector = .ok first) (hfirst' : first < 65536) (htype : d.entryType = .ok type)
    (hstale : fileBits type = 0 ∨ s.sector[d.disk.bytesPerSector - 1]?.getD 0 ≤ d.disk.bytesPerSector)
    (hch : Chain d.disk.image' (kindOf (fileBits type)) first k contents) :
    ∃ s', s.openFile d = .ok s' ∧ At s' k contents 0 := by
  unfold Stream.openFile
  rw [hfirst]
  simp only [bind, Except.bind]
  rw [htype]
  refine ⟨_, rfl, rfl, Nat.zero_le _, hch, ?_⟩
  have hv : (Stream.rewind { s with disk := d.disk, firstSector := first, fileType := fileBits type }).Valid := ⟨hd, hl, hb, by show 255 ≤ 255; omega, hfirst', hfirst'⟩
  have hcount : ∃ c, (Stream.rewind { s with disk := d.disk, firstSector := first, fileType := fileBits type }).count = some c := by
    unfold Stream.count Stream.rewind sectorCount
    simp only
    by_cases h0 : fileBits type = 0
    · rw [if_pos h0]; exact ⟨_, rfl⟩
    · rw [if_neg h0]
      have : s.sector[d.disk.bytesPerSector - 1]?.getD 0 ≤ d.disk.bytesPerSector := by rcases hstale with h | h; exact absurd h h0; exact h
      rw [if_neg (by omega)]; exact ⟨_, rfl⟩
  obtain ⟨c, hc⟩ := hcount
  refine ⟨hv, c, contents, k, Nat.le_refl _, hc, hch, ?_⟩
  rw [current_nil (hv.count_le hc)]
  rfl

/-- C35 is false of the code without that condition on the stream's buffer: the first read fails. -/
theorem C35_stale (fuel : Nat) (s : Stream) (d : Dir) (first type : Nat) (hd : d.disk.bytesPerSector = 128) (b : Nat) (hb : s.sector[127]? = some b) (hstale : 128 < b)
    (hfirst : d.entryFirstSector = .ok first) (htype : d.entryType = .ok type) (h0 : fileBits type ≠ 0) (buffer : Option (List Nat)) (offset : Nat) (length : Int) (hlen : 0 < length) :
    ∃ s', s.openFile d = .ok s' ∧ s'.read (fuel + 1) buffer offset length = .ok (-1, buffer, s') := by
  unfold Stream.openFile
  rw [hfirst]
  simp only [bind, Except.bind]
  rw [htype]
  refine ⟨_, rfl, ?_⟩
  unfold Stream.read Stream.readLoop
  rw [if_neg (by omega)]
  unfold Stream.rewind rd
  simp only [hd, hb, bind, Except.bind]
  unfold sectorCount
  rw [if_neg h0, if_pos (by omega)]

/-- C35: reading gives the contents of the file from the position on, as many bytes as there are and as were asked for, at the given place of the array, and the position advances by as many. -/
theorem C35_read (s : Stream) (k p : Nat) (contents : List Nat) (h : At s k contents p) (fuel : Nat) (hf : 2 * k + 3 ≤ fuel) (buffer : List Nat) (offset length : Nat)
    (hb : offset + length ≤ buffer.length) :
    ∃ s', s.read fuel (some buffer) offset length = .ok ((min length (contents.length - p) : Nat),
        some (buffer.take offset ++ (contents.drop p).take length ++ buffer.drop (offset + min length (contents.length - p))), s') ∧
      At s' k contents (min (p + length) contents.length) := by
  obtain ⟨s', h1, h2⟩ := h.read fuel hf (some buffer) offset length (by simpa using hb)
  refine ⟨s', ?_, h2⟩
  rw [h1]
  simp [putAt]

/-- Consecutive reads, each with an array of its own. -/
def readMany (fuel : Nat) (s : Stream) : List Nat → M (List (List Nat) × Stream)
  | [] => .ok ([], s)
  | n :: lengths => do
    let r ← s.read fuel (some (List.replicate n 0)) 0 n
    let rest ← readMany fuel r.2.2 lengths
    .ok ((r.2.1.getD []).take r.1.toNat :: rest.1, rest.2)

/-- C35: however the reading is divided into calls, together they give the same. -/
theorem C35_reads (fuel k : Nat) (contents : List Nat) (hf : 2 * k + 3 ≤ fuel) (lengths : List Nat) : ∀ (s : Stream) (p : Nat), At s k contents p →
    ∃ parts s', readMany fuel s lengths = .ok (parts, s') ∧ parts.flatten = (contents.drop p).take lengths.sum ∧ parts.length = lengths.length ∧
      At s' k contents (min (p + lengths.sum) contents.length) := by
  induction lengths with
  | nil =>
    intro s p h
    refine ⟨[], s, rfl, by simp, rfl, ?_⟩
    rw [List.sum_nil, Nat.add_zero, Nat.min_eq_left h.inside]
    exact h
  | cons n lengths ih =>
    intro s p h
    obtain ⟨s1, h1, h2⟩ := C35_read s k p contents h fuel hf (List.replicate n 0) 0 n (by simp)
    obtain ⟨parts, s', h3, h4, h5, h6⟩ := ih s1 _ h2
    refine ⟨(contents.drop p).take n :: parts, s', ?_, ?_, by simp [h5], ?_⟩
    · unfold readMany
      rw [h1]
      simp only [bind, Except.bind]
      rw [h3]
      simp only [Option.getD_some, List.take_zero, List.nil_append, Except.ok.injEq, Prod.mk.injEq, List.cons.injEq, and_true]
      rw [List.take_append_of_le_length (by simp), List.take_take]
      simp
    · rw [List.flatten_cons, h4, List.sum_cons]
      rcases Nat.le_total (p + n) contents.length with hle | hle
      · rw [Nat.min_eq_left hle, ← List.drop_drop, List.take_add]
      · rw [Nat.min_eq_right hle, List.drop_length, List.take_nil, List.append_nil]
        rw [List.take_of_length_le (by simp; omega), List.take_of_length_le (by simp; omega)]
    · rw [List.sum_cons]
      have e : min (min (p + n) contents.length + lengths.sum) contents.length = min (p + (n + lengths.sum)) contents.length := by omega
      rw [e] at h6; exact h6

/-- C35: setting the position, and whether it is in the file or at its end is the result; a position after the end moves to the end. -/
theorem C35_set_position (s : Stream) (k p : Nat) (contents : List Nat) (h : At s k contents p) (fuel : Nat) (hf : 2 * k + 3 ≤ fuel) (n : Nat) :
    ∃ s', s.setPosition fuel n = .ok (decide (n ≤ contents.length), s') ∧ At s' k contents (min n contents.length) := by
  have hp := h.position
  have hin := h.inside
  unfold Stream.setPosition
  by_cases hc : p ≤ n
  · obtain ⟨s', h1, h2⟩ := h.read fuel hf none 0 ((n : Int) - s.position) (by simp)
    have e : ((n : Int) - s.position).toNat = n - p := by omega
    refine ⟨s', ?_, ?_⟩
    · simp only
      rw [if_pos (by omega), h1]
      simp only [bind, Except.bind, e, List.length_take, List.length_drop, Except.ok.injEq, Prod.mk.injEq, and_true, decide_eq_decide]
      omega
    · rw [e, show p + (n - p) = n by omega] at h2; exact h2
  · obtain ⟨s', h1, h2⟩ := h.rewind.read fuel hf none 0 n (by simp)
    refine ⟨s', ?_, ?_⟩
    · simp only
      rw [if_neg (by omega), h1]
      simp only [bind, Except.bind, List.length_take, List.length_drop, Except.ok.injEq, Prod.mk.injEq, and_true, decide_eq_decide]
      omega
    · simpa using h2

/-- C35: the length is that of the contents, and the position stays. -/
theorem C35_length (s : Stream) (k p : Nat) (contents : List Nat) (h : At s k contents p) (fuel : Nat) (hf : 2 * k + 3 ≤ fuel) :
    ∃ s', s.getLength fuel = .ok ((contents.length : Int), s') ∧ At s' k contents p := by
  have hp := h.position
  have hin := h.inside
  have hv := h.left.valid
  have hk := Chain.short hv.disk.bytes h.file hv.first
  have hlen := Chain.small hv.disk.size h.file
  obtain ⟨s1, h1, h2⟩ := h.read fuel hf none 0 (0x7fffffff - (s.position : Int)) (by simp)
  have e : (0x7fffffff - (s.position : Int)).toNat = 0x7fffffff - p := by omega
  rw [e] at h1 h2
  obtain ⟨s', h3, h4⟩ := C35_set_position s1 k _ contents h2 fuel hf p
  refine ⟨s', ?_, by rwa [Nat.min_eq_left hin] at h4⟩
  unfold Stream.getLength
  simp only [h1, bind, Except.bind]
  rw [hp, h3]
  simp only [List.length_take, List.length_drop, Except.ok.injEq, Prod.mk.injEq, and_true]
  omega

/-! ## Ends -/

/-- C36 is false of the code: an empty sector linked to itself is read forever. -/
theorem C36_hangs (fuel : Nat) (s : Stream) (hv : s.Valid) (c : Nat) (hc : s.count = some c) (hcur : c ≤ s.sectorOffset)
    (hself : Linked s.disk.image' (kindOf s.fileType) s.nextSector s.nextSector) (buffer : Option (List Nat)) (offset : Nat) (length : Int) (hlen : 0 < length) :
    s.read fuel buffer offset length = .error .fuel := by
  unfold Stream.read
  generalize hl : length.toNat = n
  have hn : 0 < n := by omega
  clear hl hlen
  generalize 0 = total
  induction fuel generalizing s c with
  | zero => rfl
  | succ fuel ih =>
    obtain ⟨data, h1, h2, h3⟩ := hself
    rw [readLoop_load hv hn hc hcur h1]
    refine ih (s.loaded data) (hv.loaded h1) 0 ((hv.loaded_count h1).trans h2) (Nat.zero_le _) ?_
    have e : (s.loaded data).nextSector = s.nextSector := h3.symm
    rw [e]
    exact ⟨data, h1, h2, h3⟩

/-- Links through empty sectors lead somewhere in a finite number of steps, unless there is a cycle. -/
theorem linked_acc {i : Image} {kind : Kind} (hb : AllBytes i.bytes) (hacyclic : ∀ n k, ¬ Path i kind n n k) {n : Nat} (hn : n < 65536) : Acc (fun m n => Linked i kind n m) n := by
  have tr : ∀ {a b c : Nat} {j k : Nat}, Path i kind a b j → Path i kind b c k → ∃ l, Path i kind a c l := by
    intro a b c j k h1 h2
    induction h1 with
    | one h => exact ⟨_, .more h h2⟩
    | more h _ ih => obtain ⟨l, hl⟩ := ih h2; exact ⟨_, .more h hl⟩
  let r : Fin 65536 → Fin 65536 → Prop := fun m n => ∃ k, Path i kind n m k
  have : IsTrans (Fin 65536) r := ⟨fun a b c ⟨j, h1⟩ ⟨k, h2⟩ => tr h2 h1⟩
  have : Std.Irrefl r := ⟨fun a ⟨k, h⟩ => hacyclic a k h⟩
  have hw : WellFounded r := Finite.wellFounded_of_trans_of_irrefl r
  have key : ∀ x : Fin 65536, Acc (fun m n => Linked i kind n m) x.val := by
    intro x
    induction x using hw.induction with
    | _ x ih =>
      refine ⟨_, fun m hm => ?_⟩
      have hm' : m < 65536 := by
        obtain ⟨data, h1, _, h3⟩ := hm
        rw [h3]; exact next_lt (sector_bytes hb h1)
      exact ih ⟨m, hm'⟩ ⟨1, .one hm⟩
  exact key ⟨n, hn⟩

theorem ends_loop (image : Image) (kind : Kind) (hacyclic : ∀ n k, ¬ Path image kind n n k) (length : Nat) :
    ∀ (s : Stream) (buffer : Option (List Nat)) (offset total : Nat), s.Valid → s.disk.image' = image → kindOf s.fileType = kind → (∀ b ∈ buffer, offset + total + length ≤ b.length) →
    ∃ n, ∀ fuel, n ≤ fuel → ∃ r, s.readLoop fuel buffer offset total length = .ok r := by
  induction length using Nat.strong_induction_on with
  | _ length ih =>
    intro s buffer offset total hv hi hk hb
    by_cases h0 : length = 0
    · refine ⟨1, fun fuel hf => ?_⟩
      obtain ⟨fuel, rfl⟩ : ∃ f, fuel = f + 1 := ⟨fuel - 1, by omega⟩
      unfold Stream.readLoop
      rw [if_pos h0]
      exact ⟨_, rfl⟩
    · have fails : ∀ s : Stream, s.Valid → s.count = none → ∀ fuel, 1 ≤ fuel → ∃ r, s.readLoop fuel buffer offset total length = .ok r := by
        intro s hv hc fuel hf
        obtain ⟨fuel, rfl⟩ : ∃ f, fuel = f + 1 := ⟨fuel - 1, by omega⟩
        refine ⟨(-1, buffer, s), ?_⟩
        unfold Stream.readLoop
        rw [if_neg h0, hv.last.1]
        show (match s.count with | none => _ | some got => _) = _
        rw [hc]
      have gives : ∀ s : Stream, s.Valid → s.disk.image' = image → kindOf s.fileType = kind → ∀ c, s.count = some c → ¬ c ≤ s.sectorOffset →
          ∃ n, ∀ fuel, n ≤ fuel → ∃ r, s.readLoop fuel buffer offset total length = .ok r := by
        intro s hv hi hk c hc hcur
        have hc255 := hv.count_le hc
        have hl := hv.length
        obtain ⟨n, hn⟩ := ih (length - min (c - s.sectorOffset) length) (by omega) (s.advanced (min (c - s.sectorOffset) length))
          (putAt buffer (offset + total) ((s.sector.drop s.sectorOffset).take (min (c - s.sectorOffset) length))) offset (total + min (c - s.sectorOffset) length)
          (hv.advanced hc (by omega)) hi hk (by
            apply putAt_length
            · intro b hm; have := hb b hm; omega
            · intro b hm; have := hb b hm; simp only [List.length_take, List.length_drop]; omega)
        refine ⟨n + 1, fun fuel hf => ?_⟩
        obtain ⟨fuel, rfl⟩ : ∃ f, fuel = f + 1 := ⟨fuel - 1, by omega⟩
        rw [readLoop_give hv (by omega) hc hcur rfl hb]
        exact hn fuel (by omega)
      have hacc := linked_acc (i := image) (kind := kind) (by rw [← hi]; exact hv.disk.bytes) hacyclic hv.next
      have exhausted : ∀ m, Acc (fun m n => Linked image kind n m) m → ∀ s : Stream, s.nextSector = m → s.Valid → s.disk.image' = image → kindOf s.fileType = kind → ∀ c, s.count = some c →
          c ≤ s.sectorOffset → ∃ n, ∀ fuel, n ≤ fuel → ∃ r, s.readLoop fuel buffer offset total length = .ok r := by
        intro m hm
        induction hm with
        | intro m _ ih2 =>
          intro s hm hv hi hk c hc hcur
          cases hsec : Spec.Atr.sector s.disk.image' s.nextSector with
          | none =>
            refine ⟨1, fun fuel hf => ?_⟩
            obtain ⟨fuel, rfl⟩ : ∃ f, fuel = f + 1 := ⟨fuel - 1, by omega⟩
            obtain ⟨sec, h1, _⟩ := readLoop_stop (fuel := fuel) (buffer := buffer) (offset := offset) (total := total) (length := length) hv (by omega) hc hcur hsec
            exact ⟨_, h1⟩
          | some data =>
            have hvl := hv.loaded hsec
            have hcl := hv.loaded_count hsec
            have next : ∃ n, ∀ fuel, n ≤ fuel → ∃ r, (s.loaded data).readLoop fuel buffer offset total length = .ok r := by
              cases hu : used (kindOf s.fileType) data with
              | none => exact ⟨1, fails _ hvl (hcl.trans hu)⟩
              | some c' =>
                by_cases hz : c' = 0
                · subst hz
                  refine ih2 _ ?_ (s.loaded data) rfl hvl hi hk 0 (hcl.trans hu) (Nat.zero_le _)
                  rw [← hi, ← hk, ← hm]
                  exact ⟨data, hsec, hu, rfl⟩
                · exact gives _ hvl hi hk c' (hcl.trans hu) (by show ¬ c' ≤ 0; omega)
            obtain ⟨n, hn⟩ := next
            refine ⟨n + 1, fun fuel hf => ?_⟩
            obtain ⟨fuel, rfl⟩ : ∃ f, fuel = f + 1 := ⟨fuel - 1, by omega⟩
            rw [readLoop_load hv (by omega) hc hcur hsec]
            exact hn fuel (by omega)
      cases hc : s.count with
      | none => exact ⟨1, fails s hv hc⟩
      | some c =>
        by_cases hcur : c ≤ s.sectorOffset
        · exact exhausted _ hacc s rfl hv hi hk c hc hcur
        · exact gives s hv hi hk c hc hcur

/-- C36: reading ends, with no access outside of the buffers, unless there is a cycle of empty sectors in the image.  The sectors may be linked in any other way: to themselves, to sectors of other files
or to sectors that do not exist, and may claim to have any number of bytes. -/
theorem C36_ends_partial (s : Stream) (hv : s.Valid) (hacyclic : ∀ n k, ¬ Path s.disk.image' (kindOf s.fileType) n n k) (buffer : Option (List Nat)) (offset : Nat) (length : Int)
    (hb : ∀ b ∈ buffer, offset + length.toNat ≤ b.length) : ∃ n, ∀ fuel, n ≤ fuel → ∃ r, s.read fuel buffer offset length = .ok r :=
  ends_loop _ _ hacyclic _ s buffer offset 0 hv rfl rfl hb

end Asap.Props
