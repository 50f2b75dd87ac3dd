import Verif.Spec.Txt
import Verif.Props.Load

/-! # C55: headers of SAP files as text -/

namespace Asap.Props
open Asap Asap.Spec

namespace Text
open Asap.Txt Asap.Spec.Txt

/-! ### The dump -/

theorem takeWhile_header {h rest : List Nat} (hh : 0xff ∉ h) :
    (h ++ 0xff :: rest).takeWhile (fun c => decide (c ≠ 0xff)) = h ∧ (h ++ 0xff :: rest).dropWhile (fun c => decide (c ≠ 0xff)) = 0xff :: rest := by
  induction h with
  | nil => exact ⟨rfl, rfl⟩
  | cons c h ih =>
    have hc : c ≠ 0xff := fun e => hh (by rw [e]; simp)
    obtain ⟨i1, i2⟩ := ih fun e => hh (by simp [e])
    rw [List.cons_append, List.takeWhile_cons_of_pos (by simpa using hc), List.dropWhile_cons_of_pos (by simpa using hc), i1, i2]
    exact ⟨rfl, rfl⟩

theorem getWord_word {n : Nat} (h : n < 65536) (rest : List Nat) : Txt.getWord (word n ++ rest) = ((n : Int), rest) := by
  show ((((n % 256 : Nat) : Int) + 256 * ((n / 256 : Nat) : Int)), rest) = _
  congr 1
  omega

theorem dumpBody_block {crc : List Nat → Nat} {b : Block} (hb : b.WellFormed) (ffff : Bool) (rest : List Nat) :
    dumpBody crc ffff b.start (word (b.start + b.bytes.length - 1) ++ (b.bytes ++ rest)) = (line crc ffff b, some rest) := by
  have h1 := hb.room
  have h2 : 0 < b.bytes.length := List.length_pos_iff.mpr hb.nonempty
  unfold dumpBody
  rw [getWord_word (by omega)]
  dsimp only
  have e : (((b.start + b.bytes.length - 1 : Nat) : Int) - (b.start : Int) + 1).toNat = b.bytes.length := by omega
  rw [if_neg (by omega), if_neg (by omega), e, if_neg (by rw [List.length_append]; omega), List.take_left, List.drop_left, Int.toNat_natCast, Int.toNat_natCast]
  rfl

theorem dumpBlock_block {crc : List Nat → Nat} {b : Block} (hb : b.WellFormed) (rest : List Nat) :
    dumpBlock crc (b.encode ++ rest) = (line crc b.marked b, some rest) := by
  have h1 := hb.room
  have h2 : 0 < b.bytes.length := List.length_pos_iff.mpr hb.nonempty
  unfold dumpBlock Block.encode Block.body
  cases hm : b.marked with
  | true =>
    rw [if_pos rfl]
    show (if (65535 : Int) = -1 then _ else if (65535 : Int) = -2 then _ else if (65535 : Int) = 0xffff then
      dumpBody crc true (Txt.getWord (word b.start ++ word (b.start + b.bytes.length - 1) ++ b.bytes ++ rest)).1 (Txt.getWord (word b.start ++ word (b.start + b.bytes.length - 1) ++ b.bytes ++ rest)).2 else _) = _
    rw [if_neg (by decide), if_neg (by decide), if_pos rfl, List.append_assoc, List.append_assoc, getWord_word (by omega)]
    exact dumpBody_block hb true rest
  | false =>
    have hs := hb.marker hm
    have e : (if false = true then [0xff, 0xff] else ([] : List Nat)) ++ (word b.start ++ word (b.start + b.bytes.length - 1) ++ b.bytes) ++ rest =
        word b.start ++ (word (b.start + b.bytes.length - 1) ++ (b.bytes ++ rest)) := by simp
    rw [e, getWord_word (by omega)]
    dsimp only
    rw [if_neg (by omega), if_neg (by omega), if_neg (by omega)]
    exact dumpBody_block hb false rest

theorem encode_pos {b : Block} : 4 ≤ b.encode.length := by
  unfold Block.encode Block.body word
  simp only [List.length_append, List.length_cons, List.length_nil]
  omega

theorem dumpBlocks_blocks {crc : List Nat → Nat} : ∀ {bs : List Block} {fuel : Nat}, (∀ x ∈ bs, x.WellFormed) → (encodeBlocks bs).length < fuel →
    dumpBlocks crc fuel (encodeBlocks bs) = .ok (bs.flatMap fun x => line crc x.marked x)
  | [], fuel + 1, _, _ => rfl
  | b :: bs, fuel + 1, hb, hf => by
    have e : encodeBlocks (b :: bs) = b.encode ++ encodeBlocks bs := rfl
    have h4 := encode_pos (b := b)
    rw [e, List.length_append] at hf
    have ih := dumpBlocks_blocks (crc := crc) (fuel := fuel) (fun x hx => hb x (List.mem_cons_of_mem _ hx)) (by omega : (encodeBlocks bs).length < fuel)
    rw [e]
    simp only [dumpBlocks]
    rw [dumpBlock_block (hb b (by simp))]
    dsimp only
    rw [ih]
    rfl

theorem dump_file {crc : List Nat → Nat} {h : List Nat} (hh : 0xff ∉ h) {b : Block} {bs : List Block} (hb : Blocks b bs) :
    dump crc (sap h b bs) = .ok (h ++ lines crc b bs) := by
  have hw := hb.all b (by simp)
  have e : sap h b bs = h ++ 0xff :: 0xff :: (b.body ++ encodeBlocks bs) := by
    unfold sap encodeBlocks
    rw [List.flatMap_cons]
    unfold Block.encode
    rw [if_pos hb.marked]
    rfl
  obtain ⟨t1, t2⟩ := takeWhile_header (h := h) (rest := 0xff :: (b.body ++ encodeBlocks bs)) hh
  unfold dump
  rw [e, t2, t1]
  have hu : (⟨false, b.start, b.bytes⟩ : Block).WellFormed := ⟨hw.nonempty, hw.bytes, hw.room, fun _ => hb.start⟩
  have hbody : b.body ++ encodeBlocks bs = encodeBlocks (⟨false, b.start, b.bytes⟩ :: bs) := rfl
  rw [hbody]
  show (dumpBlocks crc (_ + 1) _ >>= fun out => Except.ok (h ++ out)) = _
  rw [dumpBlocks_blocks (bs := ⟨false, b.start, b.bytes⟩ :: bs) (fun x hx => by
    rcases List.mem_cons.mp hx with rfl | hx
    · exact hu
    · exact hb.all x (List.mem_cons_of_mem _ hx)) (Nat.lt_succ_self _)]
  rfl

/-! ### The replacement -/

theorem getD_right {pre rest : List Nat} {k : Nat} : (pre ++ rest).getD (pre.length + k) 0 = rest.getD k 0 := by
  rw [List.getD_eq_getElem?_getD, List.getElem?_append_right (by omega), Nat.add_sub_cancel_left, List.getD_eq_getElem?_getD]

theorem lineEnd_spec {pre l rest : List Nat} (hl : 10 ∉ l) : ∀ {n : Nat}, l.length < n → lineEnd (pre ++ (l ++ 10 :: rest)) n pre.length = pre.length + l.length + 1 := by
  induction l generalizing pre with
  | nil =>
    intro n hn
    cases n with
    | zero => simp at hn
    | succ n =>
      simp only [lineEnd]
      rw [if_neg]
      · rfl
      · rw [show pre.length = pre.length + 0 from rfl, getD_right]
        simp
  | cons c l ih =>
    intro n hn
    cases n with
    | zero => simp at hn
    | succ n =>
      have hc : c ≠ 10 := fun e => hl (by rw [e]; simp)
      simp only [lineEnd]
      rw [if_pos]
      · have := ih (pre := pre ++ [c]) (fun e => hl (by simp [e])) (n := n) (by simp at hn; omega)
        rw [List.length_append, List.length_singleton] at this
        rw [show pre ++ (c :: l ++ 10 :: rest) = pre ++ [c] ++ (l ++ 10 :: rest) by simp, this, List.length_cons]
        omega
      · rw [show pre.length = pre.length + 0 from rfl, getD_right]
        simpa using hc

theorem cell_at {junk : Nat → Nat} {pre rest : List Nat} {k : Nat} (hk : k < rest.length) : cell junk (pre ++ rest) (pre.length + k) = rest.getD k 0 := by
  unfold cell
  rw [if_pos (by rw [List.length_append]; omega), getD_right]

/-- A line that is passed. -/
theorem not_load {junk : Nat → Nat} {pre l rest : List Nat} (hl : ¬ ascii "LOAD " <+: l) :
    (List.range 5).map (fun k => cell junk (pre ++ (l ++ 10 :: rest)) (pre.length + k)) ≠ ascii "LOAD " := by
  intro h
  have hr : List.range 5 = [0, 1, 2, 3, 4] := by decide
  rw [hr] at h
  have ha : ascii "LOAD " = [76, 79, 65, 68, 32] := by decide
  rw [ha] at h hl
  simp only [List.map_cons, List.map_nil, List.cons.injEq, and_true] at h
  obtain ⟨h0, h1, h2, h3, h4⟩ := h
  match l, hl with
  | [], _ =>
    rw [cell_at (by simp)] at h0; simp at h0
  | [a], _ =>
    rw [cell_at (by simp)] at h1; simp at h1
  | [a, b], _ =>
    rw [cell_at (by simp)] at h2; simp at h2
  | [a, b, c], _ =>
    rw [cell_at (by simp)] at h3; simp at h3
  | [a, b, c, d], _ =>
    rw [cell_at (by simp)] at h4; simp at h4
  | a :: b :: c :: d :: e :: l, hl =>
    rw [cell_at (by simp)] at h0 h1 h2 h3 h4
    simp at h0 h1 h2 h3 h4
    apply hl
    rw [h0, h1, h2, h3, h4]
    exact ⟨l, rfl⟩

theorem not_binary {junk : Nat → Nat} {pre l rest : List Nat} (hl : 0xff ∉ l) : cell junk (pre ++ (l ++ 10 :: rest)) pre.length ≠ 0xff := by
  have := cell_at (junk := junk) (pre := pre) (rest := l ++ 10 :: rest) (k := 0) (by simp only [List.length_append, List.length_cons]; omega)
  rw [Nat.add_zero] at this
  rw [this]
  cases l with
  | nil => simp
  | cons c l =>
    intro e
    have : c = 0xff := by simpa using e
    exact hl (by rw [this]; simp)

theorem headerEnd_stop {junk : Nat → Nat} {pre tail : List Nat} {fuel : Nat} (ht : Tail tail) (hlen : (pre ++ tail).length ≤ 65531) :
    headerEnd junk (pre ++ tail) (fuel + 1) pre.length = .ok pre.length := by
  simp only [headerEnd]
  rcases ht with rfl | ⟨more, rfl⟩ | ⟨more, rfl⟩
  · rw [if_neg (by simp)]
  · have hload : (ascii "LOAD ").length = 5 := by decide
    simp only [List.length_append, hload] at hlen
    rw [if_pos (by simp only [List.length_append, hload]; omega), if_pos (by omega), if_pos]
    have hr : List.range 5 = [0, 1, 2, 3, 4] := by decide
    have ha : ascii "LOAD " = [76, 79, 65, 68, 32] := by decide
    rw [hr, ha]
    simp only [List.map_cons, List.map_nil]
    rw [cell_at (by simp), cell_at (by simp), cell_at (by simp), cell_at (by simp), cell_at (by simp)]
    rfl
  · simp only [List.length_append, List.length_cons, List.length_nil] at hlen
    rw [if_pos (by simp only [List.length_append, List.length_cons, List.length_nil]; omega), if_pos (by omega)]
    by_cases h : (List.range 5).map (fun k => cell junk (pre ++ ([0xff, 0xff] ++ more)) (pre.length + k)) = ascii "LOAD "
    · rw [if_pos h]
    · rw [if_neg h, if_pos]
      refine ⟨?_, ?_⟩
      · have := cell_at (junk := junk) (pre := pre) (rest := [0xff, 0xff] ++ more) (k := 0) (by simp)
        rw [Nat.add_zero] at this
        rw [this]; rfl
      · rw [cell_at (by simp)]; rfl

theorem headerEnd_spec {junk : Nat → Nat} {h : List Nat} (hh : Header h) {tail : List Nat} (ht : Tail tail) : ∀ {pre : List Nat} {fuel : Nat},
    (pre ++ (h ++ tail)).length ≤ 65531 → h.length < fuel →
    headerEnd junk (pre ++ (h ++ tail)) fuel pre.length = .ok (pre.length + h.length) := by
  induction hh with
  | nil =>
    intro pre fuel hlen hf
    cases fuel with
    | zero => simp at hf
    | succ fuel => exact headerEnd_stop ht hlen
  | line l rest h1 h2 h3 h4 ih =>
    intro pre fuel hlen hf
    cases fuel with
    | zero => simp at hf
    | succ fuel =>
      have e : pre ++ (l ++ 10 :: rest ++ tail) = pre ++ (l ++ 10 :: (rest ++ tail)) := by simp
      rw [e] at hlen ⊢
      have hlen' := hlen
      simp only [List.length_append, List.length_cons] at hlen' hf
      simp only [headerEnd]
      rw [if_pos (by simp only [List.length_append, List.length_cons]; omega), if_pos (by omega), if_neg (not_load h3), if_neg (fun x => not_binary h2 x.1),
        lineEnd_spec h1 (by simp only [List.length_append, List.length_cons]; omega)]
      have e2 : pre ++ (l ++ 10 :: (rest ++ tail)) = (pre ++ (l ++ [10])) ++ (rest ++ tail) := by simp
      have := ih (pre := pre ++ (l ++ [10])) (fuel := fuel) (by rw [← e2]; exact hlen) (by omega)
      rw [e2]
      simp only [List.length_append, List.length_cons, List.length_nil] at this ⊢
      rw [show pre.length + l.length + 1 = pre.length + (l.length + (0 + 1)) by omega, this]
      congr 1
      omega

theorem header_text {h : List Nat} (hh : Header h) : 0xff ∉ h := by
  induction hh with
  | nil => simp
  | line l rest _ h2 _ _ ih => simp [h2, ih]

theorem replace_header {junk : Nat → Nat} {h tail pre bin : List Nat} (hh : Header h) (ht : Tail tail) (hp : 0xff ∉ pre) (h0 : h ++ tail ≠ [])
    (h1 : (h ++ tail).length ≤ 65531) (h2 : (pre ++ 0xff :: bin).length < 65536) :
    replace junk (h ++ tail) (pre ++ 0xff :: bin) = .ok (if h = pre then .same else .written (h ++ 0xff :: bin)) := by
  have h0' := List.length_pos_iff.mpr h0
  unfold replace
  rw [if_neg (by simp only [List.length_append, List.length_cons] at *; omega), if_pos (by simp)]
  have he := headerEnd_spec (junk := junk) hh ht (pre := []) (fuel := (h ++ tail).length + 1) h1 (by simp only [List.length_append]; omega)
  rw [List.nil_append, List.length_nil, Nat.zero_add] at he
  rw [he, (takeWhile_header hp).1]
  show Except.ok (rewrite _ _ _ _) = _
  unfold rewrite
  rw [List.take_left]
  by_cases heq : h = pre
  · rw [heq, if_pos ⟨rfl, by rw [List.take_left]⟩, if_pos rfl]
  · rw [if_neg heq, if_neg, List.drop_left]
    rintro ⟨e1, e2⟩
    rw [e1, List.take_left] at e2
    exact heq e2

theorem split_binary : ∀ {s : List Nat}, 0xff ∈ s → ∃ pre bin, s = pre ++ 0xff :: bin ∧ 0xff ∉ pre
  | c :: s, h => by
    by_cases hc : c = 0xff
    · exact ⟨[], s, by rw [hc]; rfl, by simp⟩
    · obtain ⟨pre, bin, e, hp⟩ := split_binary (s := s) (by
        rcases List.mem_cons.mp h with h | h
        · exact absurd h.symm hc
        · exact h)
      refine ⟨c :: pre, bin, by rw [e]; rfl, ?_⟩
      intro hm
      rcases List.mem_cons.mp hm with h | h
      · exact hc h.symm
      · exact hp h

theorem tail_lines (crc : List Nat → Nat) (b : Block) (bs : List Block) : Tail (lines crc b bs) := by
  refine .inr (.inl ?_)
  unfold lines line
  rw [if_neg (by decide), List.nil_append]
  simp only [List.append_assoc]
  exact List.prefix_append _ _

theorem sap_binary {h : List Nat} {b : Block} {bs : List Block} (hb : Blocks b bs) : ∃ bin, ∀ h, sap h b bs = h ++ 0xff :: bin := by
  refine ⟨0xff :: (b.body ++ encodeBlocks bs), fun h => ?_⟩
  unfold sap encodeBlocks
  rw [List.flatMap_cons]
  unfold Block.encode
  rw [if_pos hb.marked]
  rfl

theorem digit_value {v k : Nat} (hk : k < 16) : (if 48 ≤ digit k ∧ digit k ≤ 57 then some (16 * v + (digit k - 48)) else
    if 65 ≤ digit k ∧ digit k ≤ 70 then some (16 * v + (digit k - 55)) else none) = some (16 * v + k) := by
  unfold digit
  by_cases h : k < 10
  · rw [if_pos h, if_pos (by omega)]; congr 1; omega
  · rw [if_neg h, if_neg (by omega), if_pos (by omega)]; congr 1; omega

end Text

open Asap.Txt Asap.Spec.Txt Text

/-- C55.  The dump of a SAP file is its header and a line for each block. -/
theorem C55_dump (crc : List Nat → Nat) (h : List Nat) (hh : 0xff ∉ h) (b : Block) (bs : List Block) (hb : Blocks b bs) :
    dump crc (sap h b bs) = .ok (h ++ lines crc b bs) := dump_file hh hb

/-- C55.  The numbers in the lines have the right value. -/
theorem C55_hex (n : Nat) : (n < 65536 → value (hex4 n) = some n) ∧ (n < 4294967296 → value (hex8 n) = some n) := by
  constructor
  · intro h
    unfold hex4 value
    simp only [List.foldl_cons, List.foldl_nil, Option.bind_some]
    rw [digit_value (by omega), Option.bind_some, digit_value (by omega), Option.bind_some, digit_value (by omega), Option.bind_some, digit_value (by omega)]
    congr 1
    omega
  · intro h
    unfold hex8 hex4 value
    simp only [List.cons_append, List.nil_append, List.foldl_cons, List.foldl_nil, Option.bind_some]
    rw [digit_value (by omega), Option.bind_some, digit_value (by omega), Option.bind_some, digit_value (by omega), Option.bind_some, digit_value (by omega), Option.bind_some,
      digit_value (by omega), Option.bind_some, digit_value (by omega), Option.bind_some, digit_value (by omega), Option.bind_some, digit_value (by omega)]
    congr 1
    omega

/-- C55.  The dump always ends: for every file there is some output, which begins with what precedes the first `FF`. -/
theorem C55_dump_any (crc : List Nat → Nat) (file : List Nat) : ∃ out, dump crc file = .ok (file.takeWhile (fun c => decide (c ≠ 0xff)) ++ out) := by
  have step : ∀ s out rest, dumpBlock crc s = (out, some rest) → rest.length < s.length := by
    have hw : ∀ s, (Txt.getWord s).2.length ≤ s.length ∧ (0 ≤ (Txt.getWord s).1 → (Txt.getWord s).2.length < s.length) := by
      intro s
      match s with
      | [] => exact ⟨Nat.le_refl _, fun h => absurd h (by decide)⟩
      | [a] => exact ⟨by simp [Txt.getWord], fun h => absurd h (by simp [Txt.getWord])⟩
      | a :: b :: s => simp only [Txt.getWord, List.length_cons]; omega
    have hb : ∀ f st s out rest, dumpBody crc f st s = (out, some rest) → rest.length < s.length := by
      intro f st s out rest h
      unfold dumpBody at h
      dsimp only at h
      split at h
      · simp at h
      · split at h
        · simp at h
        · split at h
          · simp at h
          · rename_i h1 _ _
            have := (hw s).2 (by omega)
            injection h with _ h
            injection h with h
            rw [← h, List.length_drop]
            omega
    intro s out rest h
    unfold dumpBlock at h
    dsimp only at h
    have := (hw s).1
    have := (hw (Txt.getWord s).2).1
    split at h
    · simp at h
    · split at h
      · simp at h
      · split at h
        · have := hb _ _ _ _ _ h; omega
        · have := hb _ _ _ _ _ h; omega
  have run : ∀ fuel s, s.length < fuel → ∃ out, dumpBlocks crc fuel s = .ok out := by
    intro fuel
    induction fuel with
    | zero => intro s h; omega
    | succ fuel ih =>
      intro s h
      simp only [dumpBlocks]
      cases hd : dumpBlock crc s with
      | mk out r =>
        cases r with
        | none => exact ⟨out, rfl⟩
        | some rest =>
          have := step _ _ _ hd
          obtain ⟨more, hm⟩ := ih rest (by omega)
          refine ⟨out ++ more, ?_⟩
          dsimp only
          rw [hm]
          rfl
  unfold dump
  split
  · rename_i rest _
    obtain ⟨out, ho⟩ := run (rest.length + 1) rest (Nat.lt_succ_self _)
    exact ⟨out, by rw [ho]; rfl⟩
  · exact ⟨[], by rw [List.append_nil]⟩

/-- C55.  Replacing the header never touches what follows it: the new file is a beginning of the text and then the old file from its
first `FF`, and if the file is left alone this is because it already is that. -/
theorem C55_keeps_binary (junk : Nat → Nat) (txt file : List Nat) :
    (∀ s, replace junk txt file = .ok (.written s) → ∃ h pre bin, h <+: txt ∧ file = pre ++ 0xff :: bin ∧ 0xff ∉ pre ∧ s = h ++ 0xff :: bin) ∧
    (replace junk txt file = .ok .same → ∃ h bin, h <+: txt ∧ file = h ++ 0xff :: bin ∧ 0xff ∉ h) := by
  have main : ∀ r, replace junk txt file = .ok r → r = .failed ∨ ∃ i pre bin, file = pre ++ 0xff :: bin ∧ 0xff ∉ pre ∧ r = rewrite txt file pre.length i := by
    intro r h
    unfold replace at h
    split at h
    · injection h with h; exact .inl h.symm
    · split at h
      · rename_i hm
        obtain ⟨pre, bin, e, hp⟩ := split_binary hm
        cases he : headerEnd junk txt (txt.length + 1) 0 with
        | error x => rw [he] at h; cases h
        | ok i =>
          rw [he, e, (takeWhile_header hp).1] at h
          refine .inr ⟨i, pre, bin, e, hp, ?_⟩
          rw [e]
          injection h with h
          exact h.symm
      · injection h with h; exact .inl h.symm
  constructor
  · intro s h
    rcases main _ h with h | ⟨i, pre, bin, e, hp, h⟩
    · cases h
    · unfold rewrite at h
      split at h
      · cases h
      · injection h with h
        refine ⟨txt.take i, pre, bin, List.take_prefix _ _, e, hp, ?_⟩
        rw [h, e, List.drop_left]
  · intro h
    rcases main _ h with h | ⟨i, pre, bin, e, hp, h⟩
    · cases h
    · unfold rewrite at h
      split at h
      · rename_i hc
        obtain ⟨h1, h2⟩ := hc
        rw [h1, e, List.take_left] at h2
        exact ⟨pre, bin, h2 ▸ List.take_prefix _ _, e, hp⟩
      · cases h

/-- C55.  Replacing a header by an edited one: if the text is a header, possibly followed by the lines about the blocks or by the
binary part, then the new file is this header with the old blocks.  What happened to be in memory does not matter. -/
theorem C55_edit (junk : Nat → Nat) (h old tail : List Nat) (hh : Header h) (ht : Tail tail) (ho : 0xff ∉ old) (h0 : h ++ tail ≠ []) (h1 : (h ++ tail).length ≤ 65531)
    (b : Block) (bs : List Block) (hb : Blocks b bs) (h2 : (sap old b bs).length < 65536) :
    replace junk (h ++ tail) (sap old b bs) = .ok (if h = old then .same else .written (sap h b bs)) := by
  obtain ⟨bin, e⟩ := sap_binary (h := h) hb
  rw [e old] at h2 ⊢
  rw [e h]
  exact replace_header hh ht ho h0 h1 h2

/-- C55.  The cycle of dumping, editing the header and replacing it: nothing is written if the dump was not edited, and the dump of the
result is the edited dump. -/
theorem C55_roundtrip (crc : List Nat → Nat) (junk : Nat → Nat) (h old : List Nat) (hh : Header h) (ho : Header old) (b : Block) (bs : List Block) (hb : Blocks b bs)
    (h1 : (h ++ lines crc b bs).length ≤ 65531) (h2 : (sap old b bs).length < 65536) :
    dump crc (sap old b bs) = .ok (old ++ lines crc b bs) ∧
    (h = old → replace junk (h ++ lines crc b bs) (sap old b bs) = .ok .same) ∧
    (h ≠ old → ∃ s, replace junk (h ++ lines crc b bs) (sap old b bs) = .ok (.written s) ∧ dump crc s = .ok (h ++ lines crc b bs)) := by
  have h0 : h ++ lines crc b bs ≠ [] := by
    unfold lines line
    intro e
    have := congrArg List.length e
    simp only [List.length_append, show (ascii "LOAD ").length = 5 by decide, List.length_nil] at this
    omega
  have e := C55_edit junk h old (lines crc b bs) hh (tail_lines crc b bs) (header_text ho) h0 h1 b bs hb h2
  refine ⟨dump_file (header_text ho) hb, fun hq => ?_, fun hq => ⟨sap h b bs, ?_, dump_file (header_text hh) hb⟩⟩
  · rw [e, if_pos hq]
  · rw [e, if_neg hq]

/-! ### What goes wrong -/

/-- C55.  If the marker of the first block is doubled, the first line about blocks begins with `FFFF`, it is taken for a part of the
header, and writing an unedited dump back puts it into the file. -/
theorem C55_doubled_marker :
    let file := ascii "SAP\r\n" ++ [0xff, 0xff, 0xff, 0xff, 0, 0x20, 0, 0x20, 0x60]
    let txt := ascii "SAP\r\nFFFF LOAD 2000-2000 CRC32=00000000\r\n"
    dump (fun _ => 0) file = .ok txt ∧ replace (fun _ => 0) txt file = .ok (.written (txt ++ [0xff, 0xff, 0xff, 0xff, 0, 0x20, 0, 0x20, 0x60])) := by
  decide +kernel

/-- C55.  A text that ends in a part of `LOAD ` gives a file that depends on what was in memory. -/
theorem C55_uninitialised :
    replace (fun _ => 0) (ascii "SAP\r\nLOAD") (ascii "S\n" ++ [0xff, 0xff]) = .ok (.written (ascii "SAP\r\nLOAD" ++ [0xff, 0xff])) ∧
    replace (fun _ => 32) (ascii "SAP\r\nLOAD") (ascii "S\n" ++ [0xff, 0xff]) = .ok (.written (ascii "SAP\r\n" ++ [0xff, 0xff])) := by
  decide +kernel

namespace Text

theorem newlines_ub {junk : Nat → Nat} {n : Nat} (h1 : 65532 ≤ n) : ∀ {k pre fuel : Nat}, pre + k = 65532 → k < fuel → n ≠ 65532 →
    headerEnd junk (List.replicate n 10) fuel pre = .error .ub
  | 0, pre, fuel + 1, hp, _, hn => by
    simp only [headerEnd]
    rw [if_pos (by rw [List.length_replicate]; omega), if_neg (by omega)]
  | k + 1, pre, fuel + 1, hp, hf, hn => by
    have hc : ∀ i, i < n → cell junk (List.replicate n 10) i = 10 := by
      intro i hi
      unfold cell
      rw [if_pos (by rw [List.length_replicate]; exact hi), List.getD_eq_getElem?_getD, List.getElem?_replicate, if_pos hi]
      rfl
    simp only [headerEnd]
    rw [if_pos (by rw [List.length_replicate]; omega), if_pos (by omega), if_neg, if_neg]
    · have : lineEnd (List.replicate n 10) ((List.replicate n 10).length - pre) pre = pre + 1 := by
        rw [List.length_replicate, show n - pre = (n - pre - 1) + 1 by omega]
        simp only [lineEnd]
        rw [if_neg]
        rw [List.getD_eq_getElem?_getD, List.getElem?_replicate, if_pos (by omega)]
        simp
      rw [this]
      exact newlines_ub h1 (k := k) (by omega) (by omega) hn
    · rw [hc pre (by omega)]
      exact fun h => absurd h.1 (by decide)
    · intro h
      have := congrArg (fun l => l.getD 0 0) h
      rw [show List.range 5 = [0, 1, 2, 3, 4] by decide] at this
      have h' : cell junk (List.replicate n 10) (pre + 0) = 76 := this
      rw [Nat.add_zero, hc pre (by omega)] at h'
      exact absurd h' (by decide)

end Text

/-- C55.  Texts that nearly fill the buffer are accepted, but comparing their last lines with `LOAD ` reads past the buffer. -/
theorem C55_long_text_ub (junk : Nat → Nat) (n : Nat) (h1 : 65532 < n) (h2 : n < 65536) :
    replace junk (List.replicate n 10) [0xff, 0xff] = .error .ub := by
  unfold replace
  rw [if_neg (by rw [List.length_replicate]; simp; omega), if_pos (by simp), List.length_replicate,
    newlines_ub (by omega) (k := 65532) (pre := 0) (by omega) (by omega) (by omega)]
  rfl

/-! ### A case -/

namespace Text

/-- Two blocks. -/
def b1 : Block := ⟨true, 0x2000, [0xa9, 0x60]⟩
/-- The second one. -/
def b2 : Block := ⟨false, 0x3000, [1]⟩

theorem sample_blocks : Blocks b1 [b2] where
  marked := rfl
  start := by decide
  all := by
    intro x hx
    rcases List.mem_cons.mp hx with rfl | hx
    · exact ⟨by decide, by unfold AllBytes; decide, by decide, by decide⟩
    · rw [List.mem_singleton.mp hx]
      exact ⟨by decide, by unfold AllBytes; decide, by decide, by decide⟩

theorem sample_header (c : Nat) (h1 : c ≠ 10) (h2 : c ≠ 0xff) : Header (ascii "SAP\r\n" ++ (c :: ascii "\r\n")) :=
  .line (ascii "SAP\r") _ (by decide) (by decide) (by decide)
    (.line [c, 13] [] (by simpa using h1.symm) (by simpa using h2.symm) (by
      rintro ⟨t, ht⟩
      have := congrArg (fun l => l.getD 1 0) ht
      exact absurd (show 79 = 13 from this) (by decide)) .nil)

end Text

/-- C55.  A case of the cycle: a line of the header is changed from `B` to `C`. -/
theorem C55_case (junk : Nat → Nat) :
    let crc := fun l : List Nat => l.sum
    ∃ s, s = ascii "SAP\r\nC\r\n" ++ [0xff, 0xff, 0, 0x20, 1, 0x20, 0xa9, 0x60, 0, 0x30, 0, 0x30, 1] ∧
      dump crc (sap (ascii "SAP\r\nB\r\n") b1 [b2]) = .ok (ascii "SAP\r\nB\r\nLOAD 2000-2001 CRC32=00000109\r\nLOAD 3000-3000 CRC32=00000001\r\n") ∧
      replace junk (ascii "SAP\r\nC\r\nLOAD 2000-2001 CRC32=00000109\r\nLOAD 3000-3000 CRC32=00000001\r\n") (sap (ascii "SAP\r\nB\r\n") b1 [b2]) = .ok (.written s) := by
  intro crc
  have e := C55_edit junk _ _ (lines crc b1 [b2]) (sample_header 67 (by decide) (by decide)) (tail_lines crc b1 [b2]) (header_text (sample_header 66 (by decide) (by decide)))
    (by decide +kernel) (by decide +kernel) b1 [b2] sample_blocks (by decide +kernel)
  rw [if_neg (by decide +kernel)] at e
  have h1 : ascii "SAP\r\nC\r\nLOAD 2000-2001 CRC32=00000109\r\nLOAD 3000-3000 CRC32=00000001\r\n" = ascii "SAP\r\n" ++ (67 :: ascii "\r\n") ++ lines crc b1 [b2] := by decide +kernel
  have h2 : ascii "SAP\r\nB\r\n" = ascii "SAP\r\n" ++ (66 :: ascii "\r\n") := by decide +kernel
  refine ⟨_, rfl, by decide +kernel, ?_⟩
  rw [h1, h2]
  refine e.trans (congrArg (fun x => Except.ok (Result.written x)) ?_)
  decide +kernel

end Asap.Props
