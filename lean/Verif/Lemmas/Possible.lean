import Verif.Model.Write

/-! Which conversions are refused as impossible. -/

namespace Asap

/-- The message of asapwriter.fu:143, 830, 845 and 880. -/
def impossible : Fault := .thrown "Impossible conversion"

/-- A computation that does not refuse. -/
def PossibleM {α : Type} (m : M α) : Prop := m ≠ .error impossible

/-- A writer computation that does not refuse. -/
structure Possible {α : Type} (m : W α) : Prop where
  ne : ∀ w, (m w).1 ≠ .error impossible

theorem PossibleM.bind {α β : Type} {m : M α} {f : α → M β} (hm : PossibleM m) (hf : ∀ a, PossibleM (f a)) : PossibleM (m >>= f) := by
  cases m with
  | ok a => exact hf a
  | error e => exact fun h => hm (by cases h; rfl)

theorem possibleM_ok {α : Type} (a : α) : PossibleM (.ok a : M α) := by intro h; cases h

theorem possibleM_ub {α : Type} : PossibleM (.error .ub : M α) := by intro h; cases h

theorem possibleM_fuel {α : Type} : PossibleM (.error .fuel : M α) := by intro h; cases h

theorem possibleM_raise {α : Type} {s : String} (hs : s ≠ "Impossible conversion") : PossibleM (raise s : M α) := by
  intro h
  unfold raise impossible at h
  cases h
  exact hs rfl

theorem possibleM_rd (a : List Nat) (i : Nat) : PossibleM (rd a i) := by
  unfold rd
  split
  · exact possibleM_ok _
  · exact possibleM_ub

theorem possibleM_rdI (a : List Nat) (i : Int) : PossibleM (rdI a i) := by
  unfold rdI
  split
  · exact possibleM_rd _ _
  · exact possibleM_ub

theorem possibleM_getWord (a : List Nat) (i : Nat) : PossibleM (getWord a i) :=
  PossibleM.bind (possibleM_rd _ _) fun _ => PossibleM.bind (possibleM_rd _ _) fun _ => possibleM_ok _

theorem possibleM_getWordI (a : List Nat) (i : Int) : PossibleM (getWordI a i) :=
  PossibleM.bind (possibleM_rdI _ _) fun _ => PossibleM.bind (possibleM_rdI _ _) fun _ => possibleM_ok _

theorem possibleM_ite {α : Type} {c : Prop} [Decidable c] {m n : M α} (hm : PossibleM m) (hn : PossibleM n) : PossibleM (if c then m else n) := by
  split <;> assumption

theorem possibleM_rmtSapOffset (info : Info) (m : List Nat) : PossibleM (rmtSapOffset info m) := by
  have h1 := possibleM_getWordI m
  have h2 := possibleM_rdI m
  have h3 : ∀ i : Int, PossibleM (.ok i : M Int) := possibleM_ok
  unfold rmtSapOffset
  refine possibleM_ite (h3 _) ?_
  refine PossibleM.bind (h1 _) fun _ => PossibleM.bind (h1 _) fun _ => possibleM_ite (h3 _) ?_
  refine PossibleM.bind (h2 _) fun _ => possibleM_ite (h3 _) ?_
  refine PossibleM.bind (h2 _) fun _ => possibleM_ite (h3 _) ?_
  exact PossibleM.bind (h2 _) fun _ => possibleM_ite (h3 _) (h3 _)

theorem possibleM_originalType (info : Info) (m : List Nat) : PossibleM (originalType info m) := by
  have h3 : ∀ i : ModType, PossibleM (.ok i : M ModType) := possibleM_ok
  unfold originalType
  split
  · exact possibleM_ite (h3 _) (possibleM_ite (h3 _) (possibleM_ite (h3 _)
      (PossibleM.bind (possibleM_rmtSapOffset _ _) fun _ => possibleM_ite (h3 _) (h3 _))))
  · exact possibleM_ite (possibleM_ite (h3 _) (PossibleM.bind (possibleM_rd _ _) fun _ => possibleM_ite (h3 _)
      (PossibleM.bind (possibleM_rd _ _) fun _ => possibleM_ite (h3 _) (h3 _)))) (h3 _)
  · exact h3 _

/-! ## Text and compression -/

theorem possibleM_store (d : List Nat) (c : Nat) : PossibleM (XexInfo.store d c) := possibleM_ite (possibleM_ok _) possibleM_ub

theorem possibleM_padLoop : ∀ n d c, PossibleM (XexInfo.padLoop n d c)
  | 0, _, _ => possibleM_fuel
  | n + 1, _, _ => possibleM_ite (PossibleM.bind (possibleM_store _ _) fun _ => possibleM_padLoop n _ _) (possibleM_ok _)

theorem possibleM_formatLoop (a : Bool) : ∀ s d, PossibleM (XexInfo.formatLoop a s d)
  | [], _ => possibleM_ok _
  | _ :: s, _ => possibleM_ite (PossibleM.bind (possibleM_padLoop _ _ _) fun _ => possibleM_formatLoop a s _)
      (possibleM_ite (PossibleM.bind (possibleM_padLoop _ _ _) fun _ => possibleM_formatLoop a s _)
        (PossibleM.bind (possibleM_store _ _) fun _ => possibleM_formatLoop a s _))

theorem possibleM_format (d : List Nat) (c : Nat) (s : List Nat) (a : Bool) : PossibleM (XexInfo.format d c s a) :=
  PossibleM.bind (possibleM_formatLoop _ _ _) fun _ => possibleM_padLoop _ _ _

theorem possibleM_storeTime (d : List Nat) (t : Int) : PossibleM (XexInfo.storeTime d t) := by
  unfold XexInfo.storeTime
  split
  · split
    · exact possibleM_ite (possibleM_ok _) possibleM_ub
    · exact possibleM_padLoop _ _ _
  · exact possibleM_padLoop _ _ _

theorem possibleM_other (info : Info) : PossibleM (XexInfo.other info) :=
  PossibleM.bind (possibleM_format _ _ _ _) fun _ => PossibleM.bind (possibleM_format _ _ _ _) fun _ => possibleM_storeTime _ _

open FlashPack in
theorem possibleM_loadXexLoop (x : List Nat) : ∀ n i mem, PossibleM (loadXexLoop x n i mem)
  | 0, _, _ => possibleM_fuel
  | n + 1, i, mem => by
    refine possibleM_ite (PossibleM.bind ?_ fun _ => possibleM_loadXexLoop x n _ _) (possibleM_ok _)
    refine PossibleM.bind (possibleM_getWord _ _) fun _ => PossibleM.bind (possibleM_getWord _ _) fun _ => PossibleM.bind (possibleM_getWord _ _) fun _ => ?_
    exact possibleM_ite (possibleM_raise (by decide)) (possibleM_ite (possibleM_raise (by decide)) (possibleM_ok _))

open FlashPack in
theorem possibleM_skipUsed (mem : Mem) : ∀ e, PossibleM (skipUsed mem e)
  | 0 => possibleM_ite (possibleM_raise (by decide)) (possibleM_ok _)
  | e + 1 => possibleM_ite (possibleM_ite (possibleM_raise (by decide)) (possibleM_skipUsed mem e)) (possibleM_ok _)

open FlashPack in
theorem possibleM_scanHole (mem : Mem) (stop : Nat) : ∀ e, PossibleM (scanHole mem stop e)
  | 0 => possibleM_ub
  | e + 1 => possibleM_ite (possibleM_ok _) (possibleM_ite (possibleM_ok _) (possibleM_scanHole mem stop e))

open FlashPack in
theorem possibleM_findHoleLoop (mem : Mem) : ∀ n e, PossibleM (findHoleLoop mem n e)
  | 0, _ => possibleM_fuel
  | n + 1, e => by
    refine PossibleM.bind (possibleM_skipUsed _ _) fun _ => PossibleM.bind (possibleM_scanHole _ _ _) fun r => ?_
    cases r with
    | none => exact possibleM_ok _
    | some s => exact possibleM_findHoleLoop mem n s

open FlashPack in
theorem possibleM_packRun (mem : Mem) (start stop : Nat) : ∀ n a l p, PossibleM (packRun mem start stop n a l p)
  | 0, _, _, _ => possibleM_fuel
  | n + 1, a, l, p => possibleM_ite (possibleM_ite (possibleM_packRun mem start stop n _ _ _) (possibleM_packRun mem start stop n _ _ _)) (possibleM_ok _)

open FlashPack in
theorem possibleM_packArea (mem : Mem) (start stop : Nat) : ∀ n a l p, PossibleM (packArea mem start stop n a l p)
  | 0, _, _, _ => possibleM_fuel
  | n + 1, a, l, p => by
    refine possibleM_ite ?_ (possibleM_ok _)
    split
    · exact possibleM_ok _
    · exact PossibleM.bind (possibleM_packRun _ _ _ _ _ _ _) fun _ => possibleM_packArea mem start stop n _ _ _

open FlashPack in
theorem possibleM_compress (x : List Nat) : PossibleM (compress x) := by
  unfold compress
  refine PossibleM.bind (possibleM_loadXexLoop _ _ _ _) fun mem => ?_
  split
  · refine possibleM_ite (possibleM_raise (by decide)) ?_
    refine PossibleM.bind (possibleM_findHoleLoop _ _ _) fun hole => PossibleM.bind ?_ fun s => ?_
    · refine PossibleM.bind (possibleM_packArea _ _ _ _ _ _ _) fun _ => PossibleM.bind (possibleM_packArea _ _ _ _ _ _ _) fun _ => ?_
      exact possibleM_ite possibleM_ub (possibleM_ok _)
    · exact possibleM_ite (possibleM_raise (by decide)) (possibleM_ok _)
  · exact possibleM_raise (by decide)

/-! ## Writing -/

theorem possible_pure {α : Type} (a : α) : Possible (pure a) := ⟨fun _ h => by cases h⟩

theorem possible_fail {α : Type} {f : Fault} (h : f ≠ impossible) : Possible (W.fail f : W α) := ⟨fun _ h' => h (by cases h'; rfl)⟩

theorem possible_lift {α : Type} {m : M α} (h : PossibleM m) : Possible (W.lift m) := ⟨fun _ => h⟩

theorem Possible.bind {α β : Type} {m : W α} {f : α → W β} (hm : Possible m) (hf : ∀ a, Possible (f a)) : Possible (m >>= f) := by
  refine ⟨fun w => ?_⟩
  show (W.bind m f w).1 ≠ _
  have h1 := hm.ne w
  unfold W.bind
  rcases h : m w with ⟨r, w'⟩
  rw [h] at h1
  cases r with
  | ok a => exact (hf a).ne w'
  | error e => exact fun h => h1 (by cases h; rfl)

theorem possible_ite {α : Type} {c : Prop} [Decidable c] {m n : W α} (hm : Possible m) (hn : Possible n) : Possible (if c then m else n) := by
  split <;> assumption

theorem possible_when {c : Prop} [Decidable c] {m : W Unit} (hm : Possible m) : Possible (W.when c m) := possible_ite hm (possible_pure _)

theorem possible_writeByte (v : Int) : Possible (writeByte v) := by
  refine ⟨fun w => ?_⟩
  unfold writeByte impossible
  split
  · simp
  · split <;> simp

theorem possible_writeBytes (a : List Nat) (i j : Int) : Possible (writeBytes a i j) := by
  refine ⟨fun w => ?_⟩
  unfold writeBytes impossible
  simp only []
  split
  · simp
  · split <;> simp

theorem possible_writeWord (v : Int) : Possible (writeWord v) := Possible.bind (possible_writeByte _) fun _ => possible_writeByte _

theorem possible_writeString : ∀ s : List Nat, Possible (writeString s)
  | [] => possible_pure _
  | _ :: s => Possible.bind (possible_writeByte _) fun _ => possible_writeString s

theorem possible_writeSeq : ∀ s : List Int, Possible (writeSeq s)
  | [] => possible_pure _
  | _ :: s => Possible.bind (possible_writeByte _) fun _ => possible_writeSeq s

theorem possible_writeDecF : ∀ n v, Possible (writeDecF n v)
  | 0, _ => possible_fail (by decide)
  | n + 1, _ => possible_ite (Possible.bind (possible_writeDecF n _) fun _ => possible_writeByte _) (possible_writeByte _)

theorem possible_writeDec (v : Nat) : Possible (writeDec v) := possible_writeDecF _ _

theorem possible_offset : Possible Native.offset := ⟨fun _ h => by cases h⟩

theorem possible_outputOffset : Possible outputOffset := ⟨fun _ h => by cases h⟩

/-- Goes through a computation. -/
syntax "possible" : tactic

macro_rules
  | `(tactic| possible) => `(tactic| repeat' first
      | intro _
      | with_reducible exact possible_pure _ | (with_reducible refine possible_fail ?_; decide) | with_reducible exact possible_lift (possibleM_rd _ _) | with_reducible exact possible_lift (possibleM_rdI _ _)
      | with_reducible exact possible_lift (possibleM_getWord _ _) | with_reducible exact possible_lift (possibleM_getWordI _ _) | with_reducible exact possible_offset | with_reducible exact possible_outputOffset
      | with_reducible exact possible_writeByte _ | with_reducible exact possible_writeBytes _ _ _ | with_reducible exact possible_writeWord _ | with_reducible exact possible_writeString _
      | with_reducible exact possible_writeSeq _ | with_reducible exact possible_writeDec _
      | with_reducible assumption
      | with_reducible apply possible_when | with_reducible apply possible_ite | with_reducible apply Possible.bind)

theorem possible_crLf : Possible writeCrLf := by unfold writeCrLf; possible

theorem possible_textTag (t v : List Nat) : Possible (writeTextSapTag t v) := by
  have := possible_crLf
  unfold writeTextSapTag; possible

theorem possible_decTag (t : List Nat) (v : Nat) : Possible (writeDecSapTag t v) := by
  have := possible_crLf
  unfold writeDecSapTag; possible

theorem possible_hexTag (t : List Nat) (v : Int) : Possible (writeHexSapTag t v) := by
  have := possible_crLf
  have := possible_writeByte
  unfold writeHexSapTag writeHexDigit; possible

theorem possible_times (info : Info) : ∀ n song, Possible (writeTimes info song n)
  | 0, _ => possible_pure _
  | n + 1, song => by
    have := possible_crLf
    have := possible_times info n (song + 1)
    unfold writeTimes; possible

theorem possible_sapHeader (info : Info) (type : Nat) (init player : Int) : Possible (writeSapHeader info type init player) := by
  have := possible_crLf
  have h1 := possible_textTag
  have h2 := possible_decTag
  have h3 := possible_hexTag
  have h4 := possible_times
  unfold writeSapHeader
  repeat' first
    | with_reducible exact h1 _ _ | with_reducible exact h2 _ _ | with_reducible exact h3 _ _ | with_reducible exact h4 _ _ _ | possible

theorem possible_header (xex : Bool) (info : Info) (type : Nat) (init player : Int) : Possible (writeExecutableHeader xex info type init player) := by
  have := possible_sapHeader info type init player
  unfold writeExecutableHeader; possible

theorem possible_cmcInit (xex : Bool) (info : Info) (ip : Int × Int) : Possible (writeCmcInit xex info ip) := by
  unfold writeCmcInit writePlaTaxLda0; possible

theorem possible_fromSap (xex : Bool) (info : Info) (type : Nat) (m : List Nat) : Possible (writeExecutableFromSap xex info type m) := by
  have := possible_header xex info type info.init info.player
  unfold writeExecutableFromSap; possible

theorem possible_headerForSongPos (xex : Bool) (info : Info) (a b c d : Int) : Possible (writeExecutableHeaderForSongPos xex info a b c d) := by
  have h := possible_header xex info
  unfold writeExecutableHeaderForSongPos
  repeat' first | with_reducible exact h _ _ _ | possible

theorem possible_sapFile (xex : Bool) (info : Info) (m : List Nat) : Possible (writeSapFile xex info m) := by
  have h := possible_fromSap xex info
  have h2 := possible_cmcInit xex info
  unfold writeSapFile
  split
  all_goals repeat' first | with_reducible exact h _ _ | with_reducible exact h2 _ | possible

theorem possible_module (xex : Bool) (info : Info) (m r : List Nat) (player last : Int) : Possible (writeModule xex info m r player last) := by
  have h := possible_header xex info
  have h2 := possible_headerForSongPos xex info
  have h3 := possible_cmcInit xex info
  unfold writeModule
  split
  · unfold writeDlt writeDltModule writeDltInit
    repeat' first | with_reducible exact h2 _ _ _ _ | possible
  · unfold writeMpt writeMptInit
    repeat' first | with_reducible exact h2 _ _ _ _ | possible
  · unfold writeRmt writeRmtInit
    repeat' first | with_reducible exact h _ _ _ | possible
  · unfold writeTmc writeTmcInit writePlaTaxLda0 writeTmcPerFrame
    have ht : ∀ n, Possible (W.lift (tmcOffsets n)) := fun n => possible_lift
      (possibleM_ite (possibleM_ok _) (possibleM_ite (possibleM_ok _) (possibleM_ite (possibleM_ok _) possibleM_ub)))
    repeat' first | with_reducible exact ht _ | with_reducible exact h _ _ _ | possible
  · unfold writeTm2 writeTm2Init writePlaTaxLda0
    repeat' first | with_reducible exact h _ _ _ | possible
  · unfold writeFc
    repeat' first | with_reducible exact h _ _ _ | possible
  · unfold writeCmc
    repeat' first | with_reducible exact h _ _ _ | with_reducible exact h3 _ | possible

theorem possible_executable (xex : Bool) (info : Info) (m : List Nat) : Possible (writeExecutable xex info m) := by
  have h := possible_sapFile xex info m
  have h2 := possible_module xex info m
  unfold writeExecutable
  split
  · exact h
  · repeat' first | with_reducible exact h2 _ _ _ | possible

theorem possible_copy (src : List Nat) (so e : Int) : Possible (Native.copy src so e) := by
  unfold Native.copy; possible

theorem possible_relocateBytesFrom (src : List Nat) (diff low high shift : Int) : ∀ n i, Possible (Native.relocateBytesFrom src diff low high shift i n)
  | 0, _ => possible_pure _
  | n + 1, i => by
    have := possible_relocateBytesFrom src diff low high shift n (i + 1)
    unfold Native.relocateBytesFrom; possible

theorem possible_relocateBytes (src : List Nat) (so diff low high shift : Int) (n : Nat) : Possible (Native.relocateBytes src so diff low high n shift) :=
  possible_relocateBytesFrom _ _ _ _ _ _ _

theorem possible_relocateLowHigh (src : List Nat) (so diff : Int) (n : Nat) : Possible (Native.relocateLowHigh src so diff n) := by
  have h := possible_relocateBytes src so diff
  unfold Native.relocateLowHigh
  repeat' first | with_reducible exact h _ _ _ _ | possible

theorem possible_relocateWords (src : List Nat) (so diff : Int) : ∀ n, Possible (Native.relocateWords src so diff n)
  | 0 => possible_pure _
  | n + 1 => by
    have := possible_relocateWords src so diff n
    unfold Native.relocateWords; possible

theorem possible_rmtSong (src : List Nat) (so diff songEnd : Int) : ∀ n o, Possible (Native.rmtSong src so diff songEnd n o)
  | 0, _ => possible_fail (by decide)
  | n + 1, o => by
    have h := possible_rmtSong src so diff songEnd n
    have h2 := possible_copy src so
    have h3 := possible_relocateWords src so diff
    unfold Native.rmtSong Native.rmtJump
    repeat' first | with_reducible exact h _ | with_reducible exact h2 _ | with_reducible exact h3 _ | possible

theorem possible_nativeWrite (fuel : Nat) (src : List Nat) (so : Int) (info : Info) (type : ModType) (len : Int)
    (ht : extOf info type ≠ none) (hf : type ≠ .fc) : Possible (Native.write fuel src so info type len) := by
  have h1 := possible_relocateWords src so
  have h2 := possible_copy src so
  have h3 := possible_relocateLowHigh src so
  have h4 := possible_relocateBytes src so
  have h5 := possible_rmtSong src so
  have h6 : ∀ diff startAddr, Possible (Native.writeTables fuel src so diff startAddr len type) := by
    intro diff startAddr
    have go : ∀ t : ModType, t ≠ .sapB → t ≠ .sapC → t ≠ .sapD → t ≠ .sapS → t ≠ .fc → Possible (Native.writeTables fuel src so diff startAddr len t) := by
      intro t a1 a2 a3 a4 a5
      unfold Native.writeTables
      split
      case h_10 => cases t <;> contradiction
      all_goals try unfold Native.writeRmt
      all_goals repeat' first | with_reducible exact h1 _ _ | with_reducible exact h2 _ | with_reducible exact h3 _ _ | with_reducible exact h4 _ _ _ _ _ | with_reducible exact h5 _ _ _ _ | possible
    refine go type ?_ ?_ ?_ ?_ hf <;> (rintro rfl; exact ht rfl)
  unfold Native.write
  repeat' first | with_reducible exact h2 _ | with_reducible exact h6 _ _ | possible

theorem possible_dlLoop : ∀ n i len a, Possible (writeDlLoop n i len a)
  | 0, _, _, _ => possible_fail (by decide)
  | n + 1, i, len, a => by
    have := possible_dlLoop n (i + XexInfo.lineLen) len a
    unfold writeDlLoop; possible

theorem possible_xexInfo (info : Info) : Possible (writeXexInfo info) := by
  have h := possible_dlLoop
  have h1 := possible_lift (possibleM_format [] 0 (if info.title.length = 0 then ascii "(untitled)" else info.title) false)
  have h2 : Possible (W.lift (XexInfo.author info)) := possible_lift (possibleM_ite (possibleM_format _ _ _ _) (possibleM_ok _))
  have h3 := possible_lift (possibleM_other info)
  unfold writeXexInfo writeXexTexts writeXexInfoTextDl writeLines
  refine Possible.bind h1 fun _ => Possible.bind h2 fun _ => Possible.bind h3 fun _ => ?_
  repeat' first | with_reducible exact h _ _ _ _ | possible

end Asap
