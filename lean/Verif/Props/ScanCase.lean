import Verif.Props.Fingerprint
import Verif.Props.Player

/-! # C53, C54: concrete cases -/

namespace Asap.Props
open Asap Asap.Spec

/-- AUDCTL is 1, 0, 1, 0, and so on: `INC $80; LDA $80; AND #1; STA $D208; RTS` is called once per frame. -/
def beat : List Nat := ascii "SAP\r\nTYPE D\r\nINIT 1000\r\nPLAYER 1001\r\n" ++
  encodeBlocks [⟨true, 0x1000, [0x12, 0xe6, 0x80, 0xa5, 0x80, 0x29, 0x01, 0x8d, 0x08, 0xd2, 0x60]⟩]

/-- The same music from other code. -/
def beat' : List Nat := ascii "SAP\r\nTYPE D\r\nINIT 2000\r\nPLAYER 2001\r\n" ++
  encodeBlocks [⟨true, 0x2000, [0x12, 0xe6, 0x90, 0xa5, 0x90, 0x29, 0x01, 0x8d, 0x08, 0xd2, 0x60]⟩]

/-- Arrays that are not initialised. -/
def garbage : Asap.Scan.State := Asap.Scan.begin (fun _ => [7]) (fun _ => 3) (fun _ => 5)

/-- The result and the rows of a scan. -/
def scanned (c : Asap.Scan.Params) (file : List Nat) : Option (Asap.Scan.Found × Nat × List (List Nat)) :=
  match Loader.load 1000 (some (ascii "x.sap")) file newPlayer with
  | .ok m => match Asap.Scan.scanSong c 0 m garbage with
    | .ok r => some (r.1, r.2.1, (List.range r.2.1).map fun k => Asap.Scan.cleanRow (r.2.2.rows k))
    | .error _ => none
  | .error _ => none

theorem scanned_some {c : Asap.Scan.Params} {file : List Nat} {v : Asap.Scan.Found × Nat × List (List Nat)} (h : scanned c file = some v) :
    ∃ m s', Loader.load 1000 (some (ascii "x.sap")) file newPlayer = .ok m ∧ Asap.Scan.scanSong c 0 m garbage = .ok (v.1, v.2.1, s') ∧
      v.2.2 = (List.range v.2.1).map fun k => Asap.Scan.cleanRow (s'.rows k) := by
  unfold scanned at h
  cases hl : Loader.load 1000 (some (ascii "x.sap")) file newPlayer with
  | error e => rw [hl] at h; cases h
  | ok m =>
    rw [hl] at h
    dsimp only at h
    cases hx : Asap.Scan.scanSong c 0 m garbage with
    | error e => rw [hx] at h; cases h
    | ok r =>
      rw [hx] at h
      injection h with h
      obtain ⟨a, b, s'⟩ := r
      rw [← h]
      exact ⟨m, s', rfl, hx, rfl⟩

/-- The rows of the music. -/
def beats (n : Nat) : List (List Nat) := (List.range n).map fun k => [0, 0, 0, 0, 0, 0, 0, 0, (k + 1) % 2, 0, 0, 0, 0, 0, 0, 0, 0, 0]

/-- C53.  A loop is found. -/
theorem C53_case : ∃ m s', Loader.load 1000 (some (ascii "x.sap")) beat newPlayer = .ok m ∧ Scanned.Sane ⟨4, 1, 1, 2, 1⟩ ∧
    Asap.Scan.scanSong ⟨4, 1, 1, 2, 1⟩ 0 m garbage = .ok (some (2, true), 3, s') := by
  obtain ⟨m, s', h1, h2, -⟩ := scanned_some (show scanned ⟨4, 1, 1, 2, 1⟩ beat = some (some (2, true), 3, beats 3) by decide +kernel)
  exact ⟨m, s', h1, ⟨by decide, by decide, by decide⟩, h2⟩

/-- C54.  Two programs whose music sounds the same meet the hypotheses. -/
theorem C54_case : ∃ m m' m1 m1' f g, Loader.load 1000 (some (ascii "x.sap")) beat newPlayer = .ok m ∧ Loader.load 1000 (some (ascii "x.sap")) beat' newPlayer = .ok m' ∧
    Scanned.Long ⟨2, 2, 2, 2, 2⟩ ∧ Machine.playSong 0 (-1) m = .ok ((), m1) ∧ Machine.playSong 0 (-1) m' = .ok ((), m1') ∧
    Spec.Scan.Frames m1 f 2 ∧ Spec.Scan.Frames m1' g 2 ∧ (∀ k < 2, Spec.Scan.audible (f k) = Spec.Scan.audible (g k)) ∧ m.cpu.mem 0x1001 ≠ m'.cpu.mem 0x1001 := by
  obtain ⟨m, s, h1, h2, h3⟩ := scanned_some (show scanned ⟨2, 2, 2, 2, 2⟩ beat = some (none, 2, beats 2) by decide +kernel)
  obtain ⟨m', s', h1', h2', h3'⟩ := scanned_some (show scanned ⟨2, 2, 2, 2, 2⟩ beat' = some (none, 2, beats 2) by decide +kernel)
  have hl : Scanned.Long ⟨2, 2, 2, 2, 2⟩ := ⟨by decide, by decide, by decide, by decide, by decide⟩
  obtain ⟨m1, p1⟩ := Scanned.scanSong_plays h2
  obtain ⟨m1', p1'⟩ := Scanned.scanSong_plays h2'
  have o := Scanned.scanSong_outcome hl.sane p1 garbage
  have o' := Scanned.scanSong_outcome hl.sane p1' garbage
  rw [h2] at o
  rw [h2'] at o'
  obtain ⟨-, f, -, f1, -, f2⟩ := o
  obtain ⟨-, g, -, g1, -, g2⟩ := o'
  have hm : (Loader.load 1000 (some (ascii "x.sap")) beat newPlayer).toOption.map (fun m => m.cpu.mem 0x1001) ≠
      (Loader.load 1000 (some (ascii "x.sap")) beat' newPlayer).toOption.map (fun m => m.cpu.mem 0x1001) := by decide +kernel
  rw [h1, h1'] at hm
  refine ⟨m, m', m1, m1', f, g, h1, h1', hl, p1, p1', f1, g1, fun k hk => Asap.Scan.rowOf_inj ?_, fun e => hm (by
    show some (m.cpu.mem 0x1001) = some (m'.cpu.mem 0x1001)
    rw [e])⟩
  have e := h3.symm.trans h3'
  have := List.map_inj_left.mp e k (List.mem_range.mpr hk)
  exact (f2 k hk).symm.trans (this.trans (g2 k hk))

/-- C54.  The fingerprint of this music is the same in both programs. -/
example : ∃ m m', Loader.load 1000 (some (ascii "x.sap")) beat newPlayer = .ok m ∧ Loader.load 1000 (some (ascii "x.sap")) beat' newPlayer = .ok m' ∧
    Asap.Scan.fingerprint ⟨2, 2, 2, 2, 2⟩ false 0 m garbage = Asap.Scan.fingerprint ⟨2, 2, 2, 2, 2⟩ false 0 m' garbage := by
  obtain ⟨m, m', m1, m1', f, g, h1, h2, h3, h4, h5, h6, h7, h8, -⟩ := C54_case
  obtain ⟨_, _, _, _, -, -, h⟩ := C54_same ⟨2, 2, 2, 2, 2⟩ h3 0 0 m m' m1 m1' garbage garbage f g h4 h5 h6 h7 h8
  exact ⟨m, m', h1, h2, h false⟩

end Asap.Props
