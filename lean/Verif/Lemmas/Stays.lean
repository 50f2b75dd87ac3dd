import Verif.Model.Write
import Verif.Lemmas.Writer

/-! Writer computations stay inside the window. -/

namespace Asap

/-- Bytes outside what was written stay the same, and the window ends where it did. -/
structure KeptW (w w' : Writer) : Prop where
  stop : w'.stop = w.stop
  length : w'.output.length = w.output.length
  le : w.offset ≤ w'.offset
  fits : w'.offset ≤ w.stop
  before : ∀ i, i < w.offset → w'.output[i]? = w.output[i]?
  after : ∀ i, w'.offset ≤ i → w'.output[i]? = w.output[i]?

/-- From every valid window. -/
structure Stays {α : Type} (m : W α) : Prop where
  kept : ∀ w, w.Valid → KeptW w (m w).2

theorem KeptW.refl {w : Writer} (h : w.Valid) : KeptW w w := ⟨rfl, rfl, Nat.le_refl _, h.le, fun _ _ => rfl, fun _ _ => rfl⟩

theorem KeptW.valid {w w' : Writer} (h : KeptW w w') (hw : w.Valid) : w'.Valid :=
  ⟨by rw [h.stop]; exact h.fits, by rw [h.stop, h.length]; exact hw.fits⟩

theorem KeptW.trans {a b c : Writer} (h1 : KeptW a b) (h2 : KeptW b c) : KeptW a c := by
  have := h1.le
  have := h2.le
  refine ⟨h2.stop.trans h1.stop, h2.length.trans h1.length, by omega, by have := h2.fits; rw [h1.stop] at this; exact this, ?_, ?_⟩
  · intro i hi
    rw [h2.before i (by omega), h1.before i hi]
  · intro i hi
    rw [h2.after i hi, h1.after i (by omega)]

theorem stays_pure {α : Type} (a : α) : Stays (pure a) := ⟨fun _ hw => KeptW.refl hw⟩

theorem stays_fail {α : Type} (f : Fault) : Stays (W.fail f : W α) := ⟨fun _ hw => KeptW.refl hw⟩

theorem stays_lift {α : Type} (m : M α) : Stays (W.lift m) := ⟨fun _ hw => KeptW.refl hw⟩

theorem stays_offset : Stays Native.offset := ⟨fun _ hw => KeptW.refl hw⟩

theorem stays_outputOffset : Stays outputOffset := ⟨fun _ hw => KeptW.refl hw⟩

theorem Stays.bind {α β : Type} {m : W α} {f : α → W β} (hm : Stays m) (hf : ∀ a, Stays (f a)) : Stays (m >>= f) := by
  refine ⟨fun w hw => ?_⟩
  show KeptW w (W.bind m f w).2
  have h1 := hm.kept w hw
  unfold W.bind
  rcases h : m w with ⟨r, w'⟩
  rw [h] at h1
  cases r with
  | ok a => exact h1.trans ((hf a).kept w' (h1.valid hw))
  | error e => exact h1

theorem stays_ite {α : Type} {c : Prop} [Decidable c] {m n : W α} (hm : Stays m) (hn : Stays n) : Stays (if c then m else n) := by
  split <;> assumption

theorem stays_when {c : Prop} [Decidable c] {m : W Unit} (hm : Stays m) : Stays (W.when c m) := stays_ite hm (stays_pure _)

theorem stays_writeByte (v : Int) : Stays (writeByte v) := by
  refine ⟨fun w hw => ?_⟩
  unfold writeByte
  split
  · exact KeptW.refl hw
  · split
    · rename_i h1 h2
      refine ⟨rfl, by simp, by simp, by show w.offset + 1 ≤ _; omega, ?_, ?_⟩
      · intro i hi
        exact List.getElem?_set_ne (by omega)
      · intro i hi
        have hi : w.offset + 1 ≤ i := hi
        exact List.getElem?_set_ne (by omega)
    · exact KeptW.refl hw

theorem stays_writeBytes (a : List Nat) (i j : Int) : Stays (writeBytes a i j) := by
  refine ⟨fun w hw => ?_⟩
  unfold writeBytes
  simp only []
  split
  · exact KeptW.refl hw
  · split
    · rename_i h1 h2
      have hl : (List.take (j - i).toNat (List.drop i.toNat a)).length = (j - i).toNat := by simp; omega
      generalize hc : List.take (j - i).toNat (List.drop i.toNat a) = chunk at hl
      generalize hn : (j - i).toNat = n at hl
      have hn2 : (j - i) = (n : Int) := by omega
      rw [hn2] at h1 h2
      refine ⟨rfl, ?_, by simp, by show w.offset + n ≤ _; omega, ?_, ?_⟩
      · simp [hl]; omega
      · intro k hk
        show (w.output.take w.offset ++ chunk ++ _)[k]? = _
        rw [List.append_assoc, List.getElem?_append_left (by simp; omega), List.getElem?_take_of_lt hk]
      · intro k hk
        have hk : w.offset + n ≤ k := hk
        have hlen : (w.output.take w.offset ++ chunk).length = w.offset + n := by simp [hl]; omega
        show (w.output.take w.offset ++ chunk ++ _)[k]? = _
        rw [List.getElem?_append_right (by omega), hlen, List.getElem?_drop]
        congr 1
        omega
    · exact KeptW.refl hw

theorem stays_writeWord (v : Int) : Stays (writeWord v) := Stays.bind (stays_writeByte _) fun _ => stays_writeByte _

theorem stays_writeString : ∀ s : List Nat, Stays (writeString s)
  | [] => stays_pure _
  | _ :: s => Stays.bind (stays_writeByte _) fun _ => stays_writeString s

theorem stays_writeSeq : ∀ s : List Int, Stays (writeSeq s)
  | [] => stays_pure _
  | _ :: s => Stays.bind (stays_writeByte _) fun _ => stays_writeSeq s

theorem stays_writeDecF : ∀ n v, Stays (writeDecF n v)
  | 0, _ => stays_fail _
  | n + 1, _ => stays_ite (Stays.bind (stays_writeDecF n _) fun _ => stays_writeByte _) (stays_writeByte _)

theorem stays_writeDec (v : Nat) : Stays (writeDec v) := stays_writeDecF _ _

/-- Goes through a computation. -/
syntax "stays" : tactic

macro_rules
  | `(tactic| stays) => `(tactic| repeat' first
      | intro _
      | with_reducible exact stays_pure _ | with_reducible exact stays_fail _ | with_reducible exact stays_lift _ | with_reducible exact stays_offset | with_reducible exact stays_outputOffset
      | with_reducible exact stays_writeByte _ | with_reducible exact stays_writeBytes _ _ _ | with_reducible exact stays_writeWord _ | with_reducible exact stays_writeString _
      | with_reducible exact stays_writeSeq _ | with_reducible exact stays_writeDec _
      | with_reducible assumption
      | with_reducible apply stays_when | with_reducible apply stays_ite | with_reducible apply Stays.bind)

theorem stays_crLf : Stays writeCrLf := by unfold writeCrLf; stays

theorem stays_textTag (t v : List Nat) : Stays (writeTextSapTag t v) := by
  have := stays_crLf
  unfold writeTextSapTag; stays

theorem stays_decTag (t : List Nat) (v : Nat) : Stays (writeDecSapTag t v) := by
  have := stays_crLf
  unfold writeDecSapTag; stays

theorem stays_hexTag (t : List Nat) (v : Int) : Stays (writeHexSapTag t v) := by
  have := stays_crLf
  have := stays_writeByte
  unfold writeHexSapTag writeHexDigit; stays

theorem stays_times (info : Info) : ∀ n song, Stays (writeTimes info song n)
  | 0, _ => stays_pure _
  | n + 1, song => by
    have := stays_crLf
    have := stays_times info n (song + 1)
    unfold writeTimes; stays

theorem stays_sapHeader (info : Info) (type : Nat) (init player : Int) : Stays (writeSapHeader info type init player) := by
  have := stays_crLf
  have h1 := stays_textTag
  have h2 := stays_decTag
  have h3 := stays_hexTag
  have h4 := stays_times
  unfold writeSapHeader
  repeat' first
    | with_reducible exact h1 _ _ | with_reducible exact h2 _ _ | with_reducible exact h3 _ _ | with_reducible exact h4 _ _ _ | stays

theorem stays_header (xex : Bool) (info : Info) (type : Nat) (init player : Int) : Stays (writeExecutableHeader xex info type init player) := by
  have := stays_sapHeader info type init player
  unfold writeExecutableHeader; stays

theorem stays_cmcInit (xex : Bool) (info : Info) (ip : Int × Int) : Stays (writeCmcInit xex info ip) := by
  unfold writeCmcInit writePlaTaxLda0; stays

theorem stays_fromSap (xex : Bool) (info : Info) (type : Nat) (m : List Nat) : Stays (writeExecutableFromSap xex info type m) := by
  have := stays_header xex info type info.init info.player
  unfold writeExecutableFromSap; stays

theorem stays_headerForSongPos (xex : Bool) (info : Info) (a b c d : Int) : Stays (writeExecutableHeaderForSongPos xex info a b c d) := by
  have h := stays_header xex info
  unfold writeExecutableHeaderForSongPos
  repeat' first | with_reducible exact h _ _ _ | stays

theorem stays_sapFile (xex : Bool) (info : Info) (m : List Nat) : Stays (writeSapFile xex info m) := by
  have h := stays_fromSap xex info
  have h2 := stays_cmcInit xex info
  unfold writeSapFile
  split
  all_goals repeat' first | with_reducible exact h _ _ | with_reducible exact h2 _ | stays

theorem stays_module (xex : Bool) (info : Info) (m r : List Nat) (player last : Int) : Stays (writeModule xex info m r player last) := by
  have h := stays_header xex info
  have h2 := stays_headerForSongPos xex info
  have h3 := stays_cmcInit xex info
  unfold writeModule
  split
  · unfold writeDlt writeDltModule writeDltInit
    repeat' first | with_reducible exact h2 _ _ _ _ | stays
  · unfold writeMpt writeMptInit
    repeat' first | with_reducible exact h2 _ _ _ _ | stays
  · unfold writeRmt writeRmtInit
    repeat' first | with_reducible exact h _ _ _ | stays
  · unfold writeTmc writeTmcInit writePlaTaxLda0 writeTmcPerFrame
    repeat' first | with_reducible exact h _ _ _ | stays
  · unfold writeTm2 writeTm2Init writePlaTaxLda0
    repeat' first | with_reducible exact h _ _ _ | stays
  · unfold writeFc
    repeat' first | with_reducible exact h _ _ _ | stays
  · unfold writeCmc
    repeat' first | with_reducible exact h _ _ _ | with_reducible exact h3 _ | stays

theorem stays_executable (xex : Bool) (info : Info) (m : List Nat) : Stays (writeExecutable xex info m) := by
  have h := stays_sapFile xex info m
  have h2 := stays_module xex info m
  unfold writeExecutable
  split
  · exact h
  · repeat' first | with_reducible exact h2 _ _ _ | stays

theorem stays_copy (src : List Nat) (so e : Int) : Stays (Native.copy src so e) := by
  unfold Native.copy; stays

theorem stays_relocateBytesFrom (src : List Nat) (diff low high shift : Int) : ∀ n i, Stays (Native.relocateBytesFrom src diff low high shift i n)
  | 0, _ => stays_pure _
  | n + 1, i => by
    have := stays_relocateBytesFrom src diff low high shift n (i + 1)
    unfold Native.relocateBytesFrom; stays

theorem stays_relocateBytes (src : List Nat) (so diff low high shift : Int) (n : Nat) : Stays (Native.relocateBytes src so diff low high n shift) :=
  stays_relocateBytesFrom _ _ _ _ _ _ _

theorem stays_relocateLowHigh (src : List Nat) (so diff : Int) (n : Nat) : Stays (Native.relocateLowHigh src so diff n) := by
  have h := stays_relocateBytes src so diff
  unfold Native.relocateLowHigh
  repeat' first | with_reducible exact h _ _ _ _ | stays

theorem stays_relocateWords (src : List Nat) (so diff : Int) : ∀ n, Stays (Native.relocateWords src so diff n)
  | 0 => stays_pure _
  | n + 1 => by
    have := stays_relocateWords src so diff n
    unfold Native.relocateWords; stays

theorem stays_rmtSong (src : List Nat) (so diff songEnd : Int) : ∀ n o, Stays (Native.rmtSong src so diff songEnd n o)
  | 0, _ => stays_fail _
  | n + 1, o => by
    have h := stays_rmtSong src so diff songEnd n
    have h2 := stays_copy src so
    have h3 := stays_relocateWords src so diff
    unfold Native.rmtSong Native.rmtJump
    repeat' first | with_reducible exact h _ | with_reducible exact h2 _ | with_reducible exact h3 _ | stays

theorem stays_nativeWrite (fuel : Nat) (src : List Nat) (so : Int) (info : Info) (type : ModType) (len : Int) :
    Stays (Native.write fuel src so info type len) := by
  have h1 := stays_relocateWords src so
  have h2 := stays_copy src so
  have h3 := stays_relocateLowHigh src so
  have h4 := stays_relocateBytes src so
  have h5 := stays_rmtSong src so
  have h6 : ∀ diff startAddr, Stays (Native.writeTables fuel src so diff startAddr len type) := by
    intro diff startAddr
    unfold Native.writeTables
    split
    all_goals try unfold Native.writeRmt
    all_goals repeat' first | with_reducible exact h1 _ _ | with_reducible exact h2 _ | with_reducible exact h3 _ _ | with_reducible exact h4 _ _ _ _ _ | with_reducible exact h5 _ _ _ _ | stays
  unfold Native.write
  repeat' first | with_reducible exact h2 _ | with_reducible exact h6 _ _ | stays

theorem stays_native (fuel : Nat) (info : Info) (m : List Nat) : Stays (writeNative fuel info m) := by
  have h := stays_nativeWrite fuel m
  unfold writeNative
  split
  all_goals try unfold writeNativeSap
  all_goals repeat' first | with_reducible exact h _ _ _ _ | stays

theorem stays_other (fuel ext : Nat) (info : Info) (m : List Nat) : Stays (writeOther fuel ext info m) := by
  have h := stays_native fuel info m
  unfold writeOther
  refine Stays.bind (stays_lift _) fun p => ?_
  cases p with
  | none => exact stays_fail _
  | some e => exact stays_ite h (stays_fail _)

theorem stays_dlLoop : ∀ n i len a, Stays (writeDlLoop n i len a)
  | 0, _, _, _ => stays_fail _
  | n + 1, i, len, a => by
    have := stays_dlLoop n (i + XexInfo.lineLen) len a
    unfold writeDlLoop; stays

theorem stays_xexInfo (info : Info) : Stays (writeXexInfo info) := by
  have h := stays_dlLoop
  unfold writeXexInfo writeXexTexts writeXexInfoTextDl writeLines
  repeat' first | with_reducible exact h _ _ _ _ | stays

theorem stays_xexFile (info : Info) (m : List Nat) (tag : Bool) : Stays (writeXexFile info m tag) := by
  have h1 := stays_executable true info m
  have h2 := stays_xexInfo info
  have h3 : ∀ ip, Stays (writeXexD info ip) := by intro ip; unfold writeXexD; stays
  have h4 : ∀ ip, Stays (writeXexB info ip) := by intro ip; unfold writeXexB; stays
  unfold writeXexFile
  refine Stays.bind h1 fun ip => Stays.bind ?_ fun _ => ?_
  · unfold writeXexDriver
    split
    · exact h3 _
    · exact stays_fail _
    · exact h4 _
  · stays

end Asap
