import Verif.Lemmas.ConvertMain
import Verif.Props.Load

/-! # C48 (native modules saved as SAP files play the same) -/

namespace Asap.Props
open Asap Asap.Spec Asap.Spec.Convert Asap.Convert Asap.Loader
open Asap.Spec.Relocate (byteAt)

theorem output_offset (w : Writer) : outputOffset w = (.ok w.offset, w) := rfl

/-- What is written is what was planned. -/
theorem saved_file {target : List Nat} (ht : Named target (ascii "sap")) {info : Info} {m : List Nat} {v : Int × Int} {bs : List Nat} (h : Sends (writeExecutable false info m) v bs)
    (fuel : Nat) (tag : Bool) (w : Writer) (hw : w.Valid) :
    (w.offset + bs.length ≤ w.stop → ∃ n, write fuel target info m tag w = (.ok n, w.put bs)) ∧
    ∀ n w', write fuel target info m tag w = (.ok n, w') → w' = w.put bs := by
  have e1 : ∀ x y, writeExecutable false info m w = (.ok x, y) → (do let _ ← writeExecutable false info m; outputOffset : W _) w = outputOffset y := by
    intro x y h
    show W.bind _ _ w = _
    unfold W.bind
    rw [h]
  have e2 : ∀ x y, writeExecutable false info m w = (.error x, y) → (do let _ ← writeExecutable false info m; outputOffset : W _) w = (.error x, y) := by
    intro x y h
    show W.bind _ _ w = _
    unfold W.bind
    rw [h]
  rw [write_sap ht]
  constructor
  · intro hf
    rw [e1 _ _ ((h w hw).1 hf)]
    exact ⟨_, rfl⟩
  · intro n w' he
    by_cases hf : w.offset + bs.length ≤ w.stop
    · rw [e1 _ _ ((h w hw).1 hf)] at he
      exact (congrArg Prod.snd he).symm
    · obtain ⟨x, y, hx⟩ := (h w hw).2 (by omega)
      rw [e2 _ _ hx] at he
      cases he

/-- C48.  Given room for 6000 bytes more than the module has, saving it as SAP succeeds. -/
theorem C48_saves (target : List Nat) (ht : Named target (ascii "sap")) (info : Info) (m : List Nat) (hn : (playerRoutine info).isSome) (hm : IsModule info m)
    (hc : Convertible info m) (h1 : info.author.length ≤ 127) (h2 : info.title.length ≤ 127) (h3 : info.date.length ≤ 127)
    (fuel : Nat) (tag : Bool) (w : Writer) (hw : w.Valid) (room : w.offset + m.length + 6000 ≤ w.stop) :
    ∃ n w', write fuel target info m tag w = (.ok n, w') := by
  obtain ⟨r, player, last, hr⟩ := has_routine hn
  obtain ⟨letter, init, pl, b, bs, hplan, hlen, _⟩ := sap_for hm hc hr
  have hb := headerBytes_bound hplan.described h1 h2 h3
  obtain ⟨n, hn⟩ := (saved_file ht hplan.sends fuel tag w hw).1 (by rw [List.length_append]; omega)
  exact ⟨n, _, hn⟩

theorem saved_plays {target : List Nat} (ht : Named target (ascii "sap")) {filename name : List Nat} (hf : loadName filename = .ok (name, packExt (ascii "SAP")))
    {info : Info} {m : List Nat} (hn : (playerRoutine info).isSome) (hm : IsModule info m) (hc : Convertible info m)
    {fuel : Nat} {tag : Bool} {w w' : Writer} {n : Nat} (hw : w.Valid) (hx : write fuel target info m tag w = (.ok n, w')) (a b : Machine) :
    ∃ nat sap, loadMemory info m a = .ok nat ∧ nat.info = { info with player := nativePlayer info } ∧
      loadSap filename (written w w') (written w w').length b = .ok sap ∧ PlaysSame info m (made info) nat sap := by
  obtain ⟨r, player, last, hr⟩ := has_routine hn
  obtain ⟨letter, init, pl, blk, bs, hplan, _, hplay⟩ := sap_for hm hc hr
  obtain ⟨mem, hl, hmb, hrb⟩ := native_loaded hm hc hr a
  have hw' := (saved_file ht hplan.sends fuel tag w hw).2 n w' hx
  subst hw'
  rw [written_put hw]
  have hbig : (⟨[], 0, 0⟩ : Writer).Valid := ⟨Nat.le_refl _, Nat.le_refl _⟩
  have hd := Sap.Expressible.emits hplan.described
  have hv : (⟨List.replicate (Sap.headerBytes info letter init pl).length 0, 0, (Sap.headerBytes info letter init pl).length⟩ : Writer).Valid :=
    ⟨Nat.zero_le _, by simp⟩
  have key := C09_written_header filename name hf info letter init pl hplan.described _ _ hv ((hd _ hv).1 (by simp)) blk bs hplan.marked hplan.formed b
  rw [written_put hv] at key
  refine ⟨_, _, hl, rfl, key, ?_, ⟨rfl, rfl, rfl⟩, ⟨rfl, rfl, rfl, rfl⟩, ⟨rfl, rfl, rfl, rfl⟩, ?_⟩
  · intro p hp
    show image (blk :: bs) p = mem p
    rcases hp with hp | hp
    · rw [hplan.module p hp, hmb p hp]
    · rw [hplan.routine p hp, hrb p hp]
  · rcases hplay with ⟨rfl, h1, h2⟩ | ⟨rfl, lo, hi, h1, h2, h3, h4⟩
    · exact Or.inl ⟨rfl, h1, h2⟩
    · exact Or.inr ⟨rfl, lo, hi, h1, h2, h3, h4⟩

/-- C48.  A native module that was saved as a SAP file plays the same: with the file loaded, the module and the player routine are in the memory
as with the module loaded, songs are started with the same calls of the player routine, and then it is called the same way.
For TMC modules with one song see `C48_tmc_single`.  Restricted to `Convertible` modules: see `C48_first_position` and
`C48_unmarked` for others. -/
theorem C48_saved_partial (target : List Nat) (ht : Named target (ascii "sap")) (filename name : List Nat) (hf : loadName filename = .ok (name, packExt (ascii "SAP")))
    (info : Info) (m : List Nat) (hn : (playerRoutine info).isSome) (hm : IsModule info m) (hc : Convertible info m) (h1 : ¬ (info.type = .tmc ∧ info.songs = 1))
    (fuel : Nat) (tag : Bool) (w w' : Writer) (n : Nat) (hw : w.Valid) (hx : write fuel target info m tag w = (.ok n, w')) (a b : Machine) :
    ∃ nat sap, loadMemory info m a = .ok nat ∧ loadSap filename (written w w') (written w w').length b = .ok sap ∧
      PlaysSame info m (fun song => starts info.type nat.info.player nat.info.music song (info.songPos song)) nat sap := by
  obtain ⟨nat, sap, e1, e2, e3, e4⟩ := saved_plays ht hf hn hm hc hw hx a b
  refine ⟨nat, sap, e1, e3, ?_⟩
  have : made info = fun song => starts info.type nat.info.player nat.info.music song (info.songPos song) := by
    funext song
    rw [e2]
    unfold made
    by_cases h2 : info.type = .tmc
    · have h3 : info.songs ≠ 1 := fun e => h1 ⟨h2, e⟩
      have hnp : nativePlayer info = 0x500 := by unfold nativePlayer routineArea; rw [hm.player, h2]; rfl
      rw [if_pos h2]
      show tmcCalls info song = starts info.type (nativePlayer info) info.music song (info.songPos song)
      rw [hnp, h2]
      exact if_pos h3
    · rw [if_neg h2]
  rw [← this]
  exact e4

/-- C48.  The SAP file for a TMC module with one song sets the address of the module and tells the player routine to play (60), instead of
selecting the song (0). -/
theorem C48_tmc_single (target : List Nat) (ht : Named target (ascii "sap")) (filename name : List Nat) (hf : loadName filename = .ok (name, packExt (ascii "SAP")))
    (info : Info) (m : List Nat) (hm : IsModule info m) (hc : Convertible info m) (h1 : info.type = .tmc) (h2 : info.songs = 1)
    (fuel : Nat) (tag : Bool) (w w' : Writer) (n : Nat) (hw : w.Valid) (hx : write fuel target info m tag w = (.ok n, w')) (a b : Machine) :
    ∃ nat sap, loadMemory info m a = .ok nat ∧ loadSap filename (written w w') (written w w').length b = .ok sap ∧
      PlaysSame info m (fun _ => [⟨nat.info.player, some 0x70, some (nat.info.music / 256), some (nat.info.music % 256)⟩, ⟨nat.info.player, some 0x60, none, none⟩]) nat sap := by
  have hn : (playerRoutine info).isSome := by unfold playerRoutine; rw [h1]; rfl
  obtain ⟨nat, sap, e1, e2, e3, e4⟩ := saved_plays ht hf hn hm hc hw hx a b
  refine ⟨nat, sap, e1, e3, ?_⟩
  have hnp : nativePlayer info = 0x500 := by unfold nativePlayer routineArea; rw [hm.player, h1]; rfl
  have : made info = fun _ => [⟨nat.info.player, some 0x70, some (nat.info.music / 256), some (nat.info.music % 256)⟩, ⟨nat.info.player, some 0x60, none, none⟩] := by
    funext song
    rw [e2]
    unfold made
    rw [if_pos h1]
    show tmcCalls info song = [⟨nativePlayer info, _, _, _⟩, ⟨nativePlayer info, _, _, _⟩]
    rw [hnp]
    exact if_neg (by omega)
  rw [← this]
  exact e4

end Asap.Props
