import Verif.Lemmas.Load
import Verif.Props.Sap
import Verif.Props.SapWrite

/-! # C09: binary blocks of SAP files -/

namespace Asap.Props
open Asap Asap.Spec Asap.Loader

/-- C09.  A file that consists of a header and well-formed blocks (the first one marked) is loaded faithfully: the bytes of the
blocks are at their addresses, later blocks win, all other bytes are zero, and only the module information and the memory
change. -/
theorem C09_faithful (filename name hdr : List Nat) (b : Block) (bs : List Block) (info : Info) (m : Machine)
    (hn : loadName filename = .ok (name, packExt (ascii "SAP")))
    (hm : b.marked = true) (hb : ∀ x ∈ b :: bs, x.WellFormed)
    (hp : Sap.parseSap (Info.blank name) (hdr ++ encodeBlocks (b :: bs)) = .ok info) (hh : info.headerLen = hdr.length) :
    loadSap filename (hdr ++ encodeBlocks (b :: bs)) (hdr ++ encodeBlocks (b :: bs)).length m =
      .ok { m with info := info, cpu := { m.cpu with mem := image (b :: bs) } } := by
  have hbw := hb b (by simp)
  have e : hdr ++ encodeBlocks (b :: bs) = (hdr ++ [0xff, 0xff]) ++ (b.body ++ encodeBlocks bs) := by
    show hdr ++ (b.encode ++ encodeBlocks bs) = _
    unfold Block.encode; rw [hm]; simp
  have hlen : ∀ l : List Block, (∀ x ∈ l, x.WellFormed) → l.length ≤ (encodeBlocks l).length := by
    intro l
    induction l with
    | nil => intro _; simp
    | cons x l ih =>
      intro hx
      have := encode_length x (hx x (by simp))
      have := ih fun y hy => hx y (by simp [hy])
      show l.length + 1 ≤ (x.encode ++ encodeBlocks l).length
      rw [List.length_append]; omega
  have hl := hlen (b :: bs) hb
  have key := loadBlocks_encoded bs b (hdr ++ [0xff, 0xff]) (fun _ => 0) (hdr ++ encodeBlocks (b :: bs)).length hbw
    (fun x hx => hb x (by simp [hx])) (by rw [List.length_append]; simp at hl; omega)
  rw [← e] at key
  have e2 : (info.headerLen + 2).toNat = (hdr ++ [0xff, 0xff]).length := by rw [hh]; simp; omega
  unfold loadSap
  simp only [hn, List.take_length, hp, bind, Except.bind, if_true, e2, key]
  rfl

/-- C09, the safe part.  For every file name and every contents, loading ends; if the array extends four bytes beyond the module
(`moduleLen + 4 <= array length`), nothing outside the array is read and nothing outside the 64 KB is written: the module is
accepted or rejected.  After it is accepted the memory holds bytes and the information is sane.  Missing (and false, see
`C09_reads_outside`): safety for an array that ends with the module. -/
theorem C09_safe_partial (filename buf : List Nat) (len : Nat) (m : Machine) (hl : len + 4 ≤ buf.length) (hb : AllBytes buf) :
    (∃ m', loadSap filename buf len m = .ok m' ∧ (∀ a, 0 ≤ m'.cpu.mem a ∧ m'.cpu.mem a < 256) ∧ Sane m'.info) ∨
      ∃ msg, loadSap filename buf len m = .error (.thrown msg) := by
  have key := loadSap_post filename (len := len) (by omega) hb m
  match hx : loadSap filename buf len m with
  | .ok m' => rw [hx] at key; exact Or.inl ⟨m', rfl, key⟩
  | .error (.thrown msg) => exact Or.inr ⟨msg, rfl⟩
  | .error .ub => rw [hx] at key; exact absurd key (by show ¬ buf.length < len + 4; omega)
  | .error .fuel => rw [hx] at key; exact absurd key id

/-- C09.  Loading ends for every array that has the module. -/
theorem C09_ends (filename buf : List Nat) (len : Nat) (m : Machine) (hl : len ≤ buf.length) (hb : AllBytes buf) :
    loadSap filename buf len m ≠ .error .fuel := by
  have key := loadSap_post filename hl hb m
  intro h
  rw [h] at key
  exact key

/-- C09 and C06 together: a written header followed by blocks, the first one marked, is loaded as it was written. -/
theorem C09_written_header (filename name : List Nat) (hn : loadName filename = .ok (name, packExt (ascii "SAP")))
    (i : Info) (letter : Nat) (init player : Int) (h : Expressible i letter init player) (w w' : Writer) (hw : w.Valid)
    (he : writeSapHeader i letter init player w = (.ok (), w')) (b : Block) (bs : List Block) (hm : b.marked = true)
    (hb : ∀ x ∈ b :: bs, x.WellFormed) (m : Machine) :
    loadSap filename (written w w' ++ encodeBlocks (b :: bs)) (written w w' ++ encodeBlocks (b :: bs)).length m =
      .ok { m with info := reloaded i letter init player name (written w w').length, cpu := { m.cpu with mem := image (b :: bs) } } := by
  rcases C06_header_roundtrip i letter init player h w hw with ⟨k, hk⟩ | ⟨w'', h1, h2⟩
  · rw [he] at hk; cases hk
  · rw [he] at h1
    injection h1 with h3 h4
    subst h4
    have e : encodeBlocks (b :: bs) = 0xff :: 0xff :: (b.body ++ encodeBlocks bs) := by
      show b.encode ++ encodeBlocks bs = _
      unfold Block.encode; rw [hm]; simp
    have hpos : 0 < b.bytes.length := List.length_pos_iff.mpr (hb b (by simp)).nonempty
    refine C09_faithful filename name (written w w') b bs _ m hn hm hb ?_ rfl
    rw [e]
    exact h2 name _ (by simp [Block.body, word]; omega)

/-- A file name. -/
def sampleName : List Nat := ascii "x/Song.sap"

/-- Outcome of loading, as far as it can be compared: bytes at some addresses. -/
def loadOutcome (m : Machine) (file : List Nat) (at_ : List Int) : Fault ⊕ List Int :=
  match loadSap sampleName file file.length m with
  | .ok m => .inr (at_.map m.cpu.mem)
  | .error e => .inl e

/-- A header. -/
def sampleHeader : List Nat := ascii "SAP\r\nTYPE B\r\nINIT 1000\r\nPLAYER 1003\r\n"

/-- Two overlapping blocks, the second one without a marker. -/
def sampleBlocks : List Block := [⟨true, 0x1000, [1, 2, 3, 4]⟩, ⟨false, 0x1002, [5]⟩]

example : (∀ x ∈ sampleBlocks, x.WellFormed) ∧ loadName sampleName = .ok (ascii "Song", packExt (ascii "SAP")) ∧
    (match Sap.parseSap (Info.blank (ascii "Song")) (sampleHeader ++ encodeBlocks sampleBlocks) with
      | .ok i => i.headerLen.toNat | .error _ => 0) = sampleHeader.length := by
  refine ⟨?_, by decide +kernel, by decide +kernel⟩
  intro x hx
  simp only [sampleBlocks, List.mem_cons, List.not_mem_nil, or_false] at hx
  rcases hx with rfl | rfl
  · exact ⟨by simp, by simp [AllBytes], by decide, by simp⟩
  · exact ⟨by simp, by simp [AllBytes], by decide, by simp⟩

example (m : Machine) : loadOutcome m (sampleHeader ++ encodeBlocks sampleBlocks) [0xfff, 0x1000, 0x1001, 0x1002, 0x1003, 0x1004] =
    .inr [0, 1, 2, 5, 4, 0] := by rfl

/-- C09 fails without the four bytes: a file whose last block lacks its last four bytes is not rejected, the bytes are read
behind the end of the array. -/
theorem C09_reads_outside : ∃ file, AllBytes file ∧ ∀ m, loadSap sampleName file file.length m = .error .ub :=
  ⟨sampleHeader ++ [0xff, 0xff, 0x00, 0x10, 0x09, 0x10, 1, 2, 3, 4, 5, 6], by unfold AllBytes; decide +kernel, fun m => by rfl⟩

end Asap.Props
