import Verif.Model.Load
import Verif.Spec.Load
import Verif.Lemmas.Sap

namespace Asap.Loader
open Asap.Spec

theorem rd_append (pre : List Nat) (b : Nat) (post : List Nat) : rd (pre ++ b :: post) pre.length = .ok b := by
  unfold rd; simp

theorem rd_at {buf : List Nat} {i : Nat} {b : Nat} (h : buf[i]? = some b) : rd buf i = .ok b := by
  unfold rd; rw [h]

theorem getElem_pre (pre rest : List Nat) (k : Nat) : (pre ++ rest)[pre.length + k]? = rest[k]? := by
  rw [List.getElem?_append_right (by omega)]
  congr 1; omega

theorem word_value {n : Nat} : n % 256 + 256 * (n / 256) = n := by omega

theorem copyTo_body (pre bytes post : List Nat) (mem : Int → Int) (start : Nat) (hr : start + bytes.length ≤ 65536) :
    copyTo (pre ++ (bytes ++ post)) pre.length mem start bytes.length =
      .ok (Block.put ⟨true, start, bytes⟩ mem) := by
  unfold copyTo
  rw [if_pos (by simp; omega)]
  congr 1
  funext a
  unfold Block.put
  dsimp only
  have hc : ((start : Int) ≤ a ∧ a < (start + bytes.length : Nat)) ↔ ((start : Int) ≤ a ∧ a < start + bytes.length) := by
    rw [Int.natCast_add]
  by_cases h : (start : Int) ≤ a ∧ a < start + bytes.length
  · rw [if_pos h, if_pos (hc.mpr h)]
    have h2 : (a.toNat - start) < bytes.length := by omega
    have h3 : (a - start).toNat = a.toNat - start := by omega
    rw [h3]
    congr 1
    rw [List.getD_eq_getElem?_getD, List.getD_eq_getElem?_getD, getElem_pre, List.getElem?_append_left h2]
  · rw [if_neg h, if_neg (fun x => h (hc.mp x))]

theorem put_marked (b : Block) (m : Bool) : Block.put ⟨m, b.start, b.bytes⟩ = b.put := rfl

theorem encode_length (b : Block) (h : b.WellFormed) : 5 ≤ b.encode.length ∧ (b.marked = true → 7 ≤ b.encode.length) := by
  have : 0 < b.bytes.length := List.length_pos_iff.mpr h.nonempty
  unfold Block.encode Block.body word
  split <;> simp_all <;> omega

/-- After a block: the marker of the next one is skipped. -/
theorem skipMarker_next (pre : List Nat) (b : Block) (hb : b.WellFormed) (post : List Nat) :
    skipMarker (pre ++ (b.encode ++ post)) (pre ++ (b.encode ++ post)).length pre.length =
      .ok (pre.length + if b.marked then 2 else 0) := by
  have hlen := encode_length b hb
  unfold skipMarker
  have e : (pre ++ (b.encode ++ post)).length = pre.length + (b.encode.length + post.length) := by simp
  rw [e]
  by_cases hm : b.marked = true
  · rw [if_pos (by have := hlen.2 hm; omega)]
    have e1 : b.encode = 0xff :: 0xff :: b.body := by unfold Block.encode; rw [hm]; rfl
    have r0 : rd (pre ++ (b.encode ++ post)) pre.length = .ok 0xff := by
      rw [e1]; exact rd_at (by rw [show pre.length = pre.length + 0 from rfl, getElem_pre]; rfl)
    have r1 : rd (pre ++ (b.encode ++ post)) (pre.length + 1) = .ok 0xff := by
      rw [e1]; exact rd_at (by rw [getElem_pre]; rfl)
    rw [r0, r1]
    show Except.ok _ = _
    rw [hm]; rfl
  · have hm' : b.marked = false := by simpa using hm
    have e1 : b.encode = b.body := by unfold Block.encode; rw [hm']; rfl
    have r0 : rd (pre ++ (b.encode ++ post)) pre.length = .ok (b.start % 256) := by
      rw [e1]; exact rd_at (by rw [show pre.length = pre.length + 0 from rfl, getElem_pre]; rfl)
    have r1 : rd (pre ++ (b.encode ++ post)) (pre.length + 1) = .ok (b.start / 256) := by
      rw [e1]; exact rd_at (by rw [getElem_pre]; rfl)
    rw [hm']
    by_cases h7 : pre.length + 7 ≤ pre.length + (b.encode.length + post.length)
    · rw [if_pos h7, r0, r1]
      show Except.ok (if b.start % 256 = 0xff ∧ b.start / 256 = 0xff then _ else _) = _
      rw [if_neg (by have := hb.marker hm'; omega)]
      rfl
    · rw [if_neg h7]; rfl

/-- Loading encoded blocks. -/
theorem loadBlocks_encoded : ∀ (bs : List Block) (b : Block) (pre : List Nat) (mem : Int → Int) (fuel : Nat),
    b.WellFormed → (∀ x ∈ bs, x.WellFormed) → bs.length < fuel →
    loadBlocks (pre ++ (b.body ++ encodeBlocks bs)) (pre ++ (b.body ++ encodeBlocks bs)).length fuel pre.length mem =
      .ok (bs.foldl (fun mem b => b.put mem) (b.put mem))
  | bs, b, pre, mem, 0, _, _, hf => by omega
  | bs, b, pre, mem, fuel + 1, hb, hbs, hf => by
    have hpos : 0 < b.bytes.length := List.length_pos_iff.mpr hb.nonempty
    have hroom := hb.room
    generalize hpost : encodeBlocks bs = post
    have e : (pre ++ (b.body ++ post)).length = pre.length + (4 + b.bytes.length + post.length) := by
      unfold Block.body word; simp; omega
    have rk : ∀ k, k < 4 → rd (pre ++ (b.body ++ post)) (pre.length + k) =
        .ok ([b.start % 256, b.start / 256, (b.start + b.bytes.length - 1) % 256, (b.start + b.bytes.length - 1) / 256].getD k 0) := by
      intro k hk
      refine rd_at ?_
      rw [getElem_pre]
      match k, hk with
      | 0, _ => rfl
      | 1, _ => rfl
      | 2, _ => rfl
      | 3, _ => rfl
    have w0 : getWord (pre ++ (b.body ++ post)) pre.length = .ok b.start := by
      unfold getWord
      rw [show rd (pre ++ (b.body ++ post)) pre.length = _ from rk 0 (by omega), rk 1 (by omega)]
      show Except.ok _ = _
      congr 1
      exact word_value
    have w2 : getWord (pre ++ (b.body ++ post)) (pre.length + 2) = .ok (b.start + b.bytes.length - 1) := by
      unfold getWord
      rw [rk 2 (by omega), rk 3 (by omega)]
      show Except.ok _ = _
      congr 1
      exact word_value
    unfold loadBlocks
    rw [if_pos (by rw [e]; omega), w0]
    show (do
      let last ← getWord (pre ++ (b.body ++ post)) (pre.length + 2)
      _ : M (Int → Int)) = _
    rw [w2]
    have hn : b.start + b.bytes.length - 1 + 1 - b.start = b.bytes.length := by omega
    show (if b.start + b.bytes.length - 1 + 1 ≤ b.start ∨ _ then _ else _ : M (Int → Int)) = _
    rw [hn, if_neg (by rw [e]; omega)]
    have hcopy : copyTo (pre ++ (b.body ++ post)) (pre.length + 4) mem b.start b.bytes.length = .ok (b.put mem) := by
      have := copyTo_body (pre ++ (word b.start ++ word (b.start + b.bytes.length - 1))) b.bytes post mem b.start hroom
      have e2 : (pre ++ (word b.start ++ word (b.start + b.bytes.length - 1))).length = pre.length + 4 := by simp [word]
      rw [e2] at this
      unfold Block.body
      rw [show b.put mem = Block.put ⟨true, b.start, b.bytes⟩ mem from rfl, ← this]
      simp [List.append_assoc]
    rw [hcopy]
    show (if pre.length + 4 + b.bytes.length = (pre ++ (b.body ++ post)).length then _ else _ : M (Int → Int)) = _
    rw [e]
    cases bs with
    | nil =>
      have : post = [] := by rw [← hpost]; rfl
      rw [this, if_pos (by simp; omega)]
      rfl
    | cons b' bs' =>
      have hb' := hbs b' (by simp)
      have hp : post = b'.encode ++ encodeBlocks bs' := by rw [← hpost]; rfl
      have hl := encode_length b' hb'
      have hpl : post.length = b'.encode.length + (encodeBlocks bs').length := by rw [hp]; simp
      rw [if_neg (by omega)]
      have hs := skipMarker_next (pre ++ b.body) b' hb' (encodeBlocks bs')
      have e3 : (pre ++ b.body).length = pre.length + 4 + b.bytes.length := by simp [Block.body, word]; omega
      rw [← hp, e3, List.append_assoc, e] at hs
      rw [hs]
      have hrec := loadBlocks_encoded bs' b' (pre ++ b.body ++ (if b'.marked then [0xff, 0xff] else [])) (b.put mem) fuel hb'
        (fun x hx => hbs x (by simp [hx])) (by simp at hf; omega)
      have e4 : (pre ++ b.body ++ (if b'.marked then [0xff, 0xff] else [])).length = pre.length + 4 + b.bytes.length + if b'.marked then 2 else 0 := by
        rw [List.length_append, e3]; split <;> rfl
      have e5 : pre ++ b.body ++ (if b'.marked then [0xff, 0xff] else []) ++ (b'.body ++ encodeBlocks bs') = pre ++ (b.body ++ post) := by
        rw [hp]; unfold Block.encode; simp [List.append_assoc]
      rw [e5, e4, e] at hrec
      exact hrec

/-- Like `Post`, but undefined behaviour is possible under the condition `U`. -/
def PostU {α : Type} (U : Prop) (P : α → Prop) : M α → Prop
  | .ok a => P a
  | .error (.thrown _) => True
  | .error .ub => U
  | .error .fuel => False

theorem PostU.bind {U : Prop} {α β : Type} {P : α → Prop} {Q : β → Prop} {x : M α} {f : α → M β}
    (hx : PostU U P x) (hf : ∀ a, P a → PostU U Q (f a)) : PostU U Q (x >>= f) := by
  match x, hx with
  | .ok a, h => exact hf a h
  | .error (.thrown _), _ => trivial
  | .error .ub, h => exact h

theorem PostU.ite {U : Prop} {α : Type} {P : α → Prop} {c : Prop} [Decidable c] {x y : M α}
    (h1 : c → PostU U P x) (h2 : ¬ c → PostU U P y) : PostU U P (if c then x else y) := by
  split
  · exact h1 ‹_›
  · exact h2 ‹_›

theorem Post.weaken {U : Prop} {α : Type} {P : α → Prop} {x : M α} (h : Post P x) : PostU U P x := by
  match x, h with
  | .ok _, h => exact h
  | .error (.thrown _), _ => trivial

section
variable {buf : List Nat} {len : Nat} (hl : len ≤ buf.length) (hb : AllBytes buf)
include hl hb

theorem rd_byte {i : Nat} (hi : i < len) : Post (fun b => b < 256) (rd buf i) :=
  (Post.rd (show i < buf.length by omega)).mono fun b h => hb b (List.mem_of_getElem? h)

theorem getWord_post {i : Nat} (hi : i + 1 < len) : Post (fun w => w < 65536) (getWord buf i) := by
  unfold getWord
  refine Post.bind (rd_byte hl hb (by omega)) fun a ha => ?_
  refine Post.bind (rd_byte hl hb (by omega)) fun b hb' => ?_
  show a + 256 * b < 65536
  omega

omit hl in
theorem copyTo_post {i addr n : Nat} {mem : Int → Int} (hm : ∀ a, 0 ≤ mem a ∧ mem a < 256) (hi : i + n ≤ len + 4)
    (ha : addr + n ≤ 65536) : PostU (buf.length < len + 4) (fun mem' => ∀ a, 0 ≤ mem' a ∧ mem' a < 256) (copyTo buf i mem addr n) := by
  unfold copyTo
  by_cases hc : i + n ≤ buf.length ∧ addr + n ≤ 65536
  · rw [if_pos hc]
    intro a
    dsimp only
    split
    · have : buf.getD (i + (a.toNat - addr)) 0 < 256 := by
        rw [List.getD_eq_getElem?_getD]
        cases h : buf[i + (a.toNat - addr)]? with
        | none => simp
        | some v => exact hb v (List.mem_of_getElem? h)
      omega
    · exact hm a
  · rw [if_neg hc]
    show buf.length < len + 4
    omega

theorem skipMarker_post {i : Nat} (hi : i ≤ len) : Post (fun j => i ≤ j ∧ j ≤ i + 2) (skipMarker buf len i) := by
  unfold skipMarker
  refine Post.ite (fun h7 => ?_) fun _ => ⟨Nat.le_refl i, by omega⟩
  refine Post.bind (rd_byte hl hb (by omega)) fun a _ => ?_
  refine Post.bind (rd_byte hl hb (by omega)) fun b _ => ?_
  show i ≤ (if a = 0xff ∧ b = 0xff then i + 2 else i) ∧ (if a = 0xff ∧ b = 0xff then i + 2 else i) ≤ i + 2
  split <;> omega

/-- Loading ends, writes only bytes of the memory, and reads outside of the array only if it has less than four bytes behind
the module. -/
theorem loadBlocks_post : ∀ (fuel i : Nat) (mem : Int → Int), 1 ≤ fuel → len < i + 5 * fuel → (∀ a, 0 ≤ mem a ∧ mem a < 256) →
    PostU (buf.length < len + 4) (fun mem' => ∀ a, 0 ≤ mem' a ∧ mem' a < 256) (loadBlocks buf len fuel i mem)
  | 0, i, mem, hf, _, _ => by omega
  | fuel + 1, i, mem, _, hf, hm => by
    unfold loadBlocks
    refine PostU.ite (fun h5 => ?_) fun _ => trivial
    refine PostU.bind (Post.weaken (getWord_post hl hb (by omega))) fun start hs => ?_
    refine PostU.bind (Post.weaken (getWord_post hl hb (by omega))) fun last hlast => ?_
    refine PostU.ite (fun _ => trivial) fun hc => ?_
    refine PostU.bind (copyTo_post hb hm (by omega) (by omega)) fun mem' hm' => ?_
    refine PostU.ite (fun _ => hm') fun hne => ?_
    by_cases hx : i + 4 + (last + 1 - start) ≤ len
    · refine PostU.bind (Post.weaken (skipMarker_post hl hb hx)) fun j hj => ?_
      exact loadBlocks_post fuel j mem' (by omega) (by omega) hm'
    · unfold skipMarker
      rw [if_neg (by omega)]
      exact loadBlocks_post fuel _ mem' (by omega) (by omega) hm'
end

theorem blank_fresh (name : List Nat) : Sap.Fresh (Info.blank name) :=
  ⟨rfl, rfl, rfl, by simp [Info.blank], by simp [Info.blank], by simp [Info.blank], by simp [Info.blank], by simp [Info.blank],
    by simp [Info.blank], rfl, fun _ => rfl, fun _ => rfl⟩

/-- `Load` of a SAP file. -/
theorem loadSap_post (filename : List Nat) {buf : List Nat} {len : Nat} (hl : len ≤ buf.length) (hb : AllBytes buf) (m : Machine) :
    PostU (buf.length < len + 4) (fun m' => (∀ a, 0 ≤ m'.cpu.mem a ∧ m'.cpu.mem a < 256) ∧ Sane m'.info) (loadSap filename buf len m) := by
  unfold loadSap
  refine PostU.bind (P := fun _ => True) ?_ fun r _ => PostU.ite (fun _ => ?_) fun _ => trivial
  · unfold loadName
    split <;> trivial
  · refine PostU.bind (Post.weaken (Sap.parseSap_post (blank_fresh r.1))) fun i hi => ?_
    have h6 : 0 ≤ i.headerLen ∧ i.headerLen + 6 < len := by have := hi.2; rw [List.length_take] at this; omega
    refine PostU.bind (loadBlocks_post hl hb len _ _ (by omega) (by omega) fun _ => ⟨Int.le_refl 0, by decide⟩) fun mem hm => ?_
    exact ⟨hm, hi.1⟩

end Asap.Loader
