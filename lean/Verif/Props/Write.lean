import Verif.Lemmas.Stays
import Verif.Lemmas.Possible
import Verif.Props.Ext
import Verif.Spec.Write
import Verif.Lemmas.FlashCompress

/-! C31, C33: what is written where, and which formats are written. -/

namespace Asap.Props
open Asap Asap.Spec

/-! ## Names -/

theorem named_split (target : List Nat) :
    (∃ x, HasExt target x ∧ (∀ c ∈ x, ExtChar c) ∧ getPackedExt target = (extVal x % 2 ^ 32) ||| 0x202020) ∨
    (getPackedExt target = 0 ∧ ¬ ∃ x, HasExt target x ∧ ∀ c ∈ x, ExtChar c) := by
  unfold getPackedExt
  have h := packedExtLoop_char target.reverse [] (by simp)
  rw [show extVal [] % 2 ^ 32 = 0 from rfl] at h
  simp only [List.reverse_reverse, List.append_nil] at h
  rcases h with ⟨base, ext, hb, e, hd, hx, hp⟩ | ⟨hp, hn⟩
  · exact Or.inl ⟨ext, ⟨base, hb, hd, e⟩, hx, hp⟩
  · exact Or.inr ⟨hp, fun ⟨x, ⟨base, hb, hd, e⟩, hx⟩ => hn ⟨base, x, hb, e, hd, hx⟩⟩

theorem hasExt_unique {target x y : List Nat} (hx : HasExt target x) (hy : HasExt target y) : x = y := by
  obtain ⟨b, _, hd, e⟩ := hx
  obtain ⟨b', _, hd', e'⟩ := hy
  rw [e] at e'
  exact (dot_split_unique e' hd hd').1

theorem named_of_packed (target e : List Nat) (v : Nat) (hv : v ≠ 0) (ha : ∀ c ∈ e, Alnum c)
    (key : ∀ x : List Nat, (∀ c ∈ x, ExtChar c) → ((extVal x % 2 ^ 32) ||| 0x202020 = v ↔ x.map lower = e)) :
    getPackedExt target = v ↔ Named target e := by
  rcases named_split target with ⟨x, hx, hc, hp⟩ | ⟨hp, hn⟩
  · rw [hp, key x hc]
    exact ⟨fun h => ⟨x, hx, h⟩, fun ⟨y, hy, h⟩ => by rw [hasExt_unique hx hy]; exact h⟩
  · rw [hp]
    refine ⟨fun h => absurd h.symm hv, ?_⟩
    rintro ⟨y, hy, h⟩
    refine absurd ⟨y, hy, fun c hc => ?_⟩ hn
    exact lower_extChar rfl (ha _ (by rw [← h]; exact List.mem_map_of_mem hc))

theorem named3 (target : List Nat) {a b c : Nat} (ha : Alnum a) (hb : Alnum b) (hc : Alnum c) :
    getPackedExt target = a + 256 * (b + 256 * c) ↔ Named target [a, b, c] := by
  refine named_of_packed target [a, b, c] _ (by unfold Alnum at ha; omega) (by simp [ha, hb, hc]) ?_
  intro x hx
  exact packed3 x hx a b c ha hb hc

theorem named2 (target : List Nat) {a b : Nat} (ha : Alnum a) (hb : Alnum b) :
    getPackedExt target = a + 256 * (b + 256 * 32) ↔ Named target [a, b] := by
  refine named_of_packed target [a, b] _ (by unfold Alnum at ha; omega) (by simp [ha, hb]) ?_
  intro x hx
  exact packed2 x hx a b ha hb

/-- The formats `Write` knows. -/
def writeExts : List (List Nat) := [ascii "sap", ascii "xex", ascii "cmc", ascii "cm3", ascii "cmr", ascii "cms", ascii "dmc", ascii "dlt", ascii "mpt", ascii "mpd", ascii "rmt", ascii "tmc", ascii "tm8", ascii "tm2", ascii "fc"]

theorem packed_named (target : List Nat) : ∀ e ∈ writeExts, (getPackedExt target = packExt e ↔ Named target e) := by
  have al : ∀ c : Nat, (97 ≤ c ∧ c ≤ 122) ∨ (48 ≤ c ∧ c ≤ 57) → Alnum c := fun c h => by unfold Alnum; omega
  intro e he
  simp only [writeExts, List.mem_cons, List.not_mem_nil, or_false] at he
  rcases he with rfl|rfl|rfl|rfl|rfl|rfl|rfl|rfl|rfl|rfl|rfl|rfl|rfl|rfl|rfl
  · exact named3 target (a := 115) (b := 97) (c := 112) (al _ (by omega)) (al _ (by omega)) (al _ (by omega))
  · exact named3 target (a := 120) (b := 101) (c := 120) (al _ (by omega)) (al _ (by omega)) (al _ (by omega))
  · exact named3 target (a := 99) (b := 109) (c := 99) (al _ (by omega)) (al _ (by omega)) (al _ (by omega))
  · exact named3 target (a := 99) (b := 109) (c := 51) (al _ (by omega)) (al _ (by omega)) (al _ (by omega))
  · exact named3 target (a := 99) (b := 109) (c := 114) (al _ (by omega)) (al _ (by omega)) (al _ (by omega))
  · exact named3 target (a := 99) (b := 109) (c := 115) (al _ (by omega)) (al _ (by omega)) (al _ (by omega))
  · exact named3 target (a := 100) (b := 109) (c := 99) (al _ (by omega)) (al _ (by omega)) (al _ (by omega))
  · exact named3 target (a := 100) (b := 108) (c := 116) (al _ (by omega)) (al _ (by omega)) (al _ (by omega))
  · exact named3 target (a := 109) (b := 112) (c := 116) (al _ (by omega)) (al _ (by omega)) (al _ (by omega))
  · exact named3 target (a := 109) (b := 112) (c := 100) (al _ (by omega)) (al _ (by omega)) (al _ (by omega))
  · exact named3 target (a := 114) (b := 109) (c := 116) (al _ (by omega)) (al _ (by omega)) (al _ (by omega))
  · exact named3 target (a := 116) (b := 109) (c := 99) (al _ (by omega)) (al _ (by omega)) (al _ (by omega))
  · exact named3 target (a := 116) (b := 109) (c := 56) (al _ (by omega)) (al _ (by omega)) (al _ (by omega))
  · exact named3 target (a := 116) (b := 109) (c := 50) (al _ (by omega)) (al _ (by omega)) (al _ (by omega))
  · exact named2 target (a := 102) (b := 99) (al _ (by omega)) (al _ (by omega))

theorem packExt_inj : ∀ a ∈ writeExts, ∀ b ∈ writeExts, packExt a = packExt b → a = b := by decide +kernel

theorem packed_upper : packExt (ascii "SAP") = packExt (ascii "sap") ∧ packExt (ascii "XEX") = packExt (ascii "xex") ∧
    packExt (ascii "TM8") = packExt (ascii "tm8") ∧ packExt (ascii "TMC") = packExt (ascii "tmc") := by decide +kernel

theorem named_unique {target a b : List Nat} (ha : Named target a) (hb : Named target b) : a = b := by
  obtain ⟨x, hx, rfl⟩ := ha
  obtain ⟨y, hy, rfl⟩ := hb
  rw [hasExt_unique hx hy]

theorem write_sap {target : List Nat} (h : Named target (ascii "sap")) (fuel : Nat) (info : Info) (m : List Nat) (tag : Bool) :
    write fuel target info m tag = (do let _ ← writeExecutable false info m; outputOffset) := by
  unfold write
  rw [if_pos]
  rw [packed_upper.1]
  exact (packed_named target _ (by decide)).mpr h

theorem write_xex {target : List Nat} (h : Named target (ascii "xex")) (fuel : Nat) (info : Info) (m : List Nat) (tag : Bool) :
    write fuel target info m tag = (do writeXexFile info m tag; writeCompressed; outputOffset) := by
  have e := (packed_named target (ascii "xex") (by decide)).mpr h
  unfold write
  rw [if_neg, if_pos]
  · rw [packed_upper.2.1]; exact e
  · rw [packed_upper.1, e]; decide +kernel

theorem write_native {target : List Nat} (h1 : ¬ Named target (ascii "sap")) (h2 : ¬ Named target (ascii "xex")) (fuel : Nat) (info : Info) (m : List Nat) (tag : Bool) :
    write fuel target info m tag = (do writeOther fuel (getPackedExt target) info m; outputOffset) := by
  unfold write
  rw [if_neg, if_neg]
  · rw [packed_upper.2.1]; exact fun h => h2 ((packed_named target _ (by decide)).mp h)
  · rw [packed_upper.1]; exact fun h => h1 ((packed_named target _ (by decide)).mp h)

/-! ## C31 -/

theorem stays_write {target : List Nat} (hx : ¬ Named target (ascii "xex")) (fuel : Nat) (info : Info) (m : List Nat) (tag : Bool) :
    Stays (write fuel target info m tag) := by
  by_cases hs : Named target (ascii "sap")
  · rw [write_sap hs]
    exact Stays.bind (stays_executable _ _ _) fun _ => stays_outputOffset
  · rw [write_native hs hx]
    exact Stays.bind (stays_other _ _ _ _) fun _ => stays_outputOffset

/-- The result of `outputOffset` last. -/
theorem ends_outputOffset {α : Type} {m : W α} {w w' : Writer} {n : Nat} (h : (do let _ ← m; outputOffset) w = (.ok n, w')) : n = w'.offset := by
  have h : W.bind m (fun _ => outputOffset) w = (.ok n, w') := h
  unfold W.bind at h
  rcases hm : m w with ⟨r, w1⟩
  rw [hm] at h
  cases r with
  | ok a =>
    simp only [outputOffset, Prod.mk.injEq, Except.ok.injEq] at h
    rw [← h.2, h.1]
  | error e => simp at h

/-- C31: writing a SAP or native file changes nothing outside the window given to `SetOutput`, also when it throws.  The result is the end of what was written, and nothing is changed from there on. -/
theorem C31_window (fuel : Nat) (target : List Nat) (info : Info) (m : List Nat) (tag : Bool) (out : List Nat) (start stop : Nat)
    (h1 : start ≤ stop) (h2 : stop ≤ out.length) (hx : ¬ Named target (ascii "xex")) (r : M Nat) (w' : Writer)
    (h : write fuel target info m tag (setOutput out start stop) = (r, w')) (_hub : r ≠ .error .ub) :
    Outside out w'.output start stop ∧ ∀ n, r = .ok n → start ≤ n ∧ n ≤ stop ∧ Outside out w'.output start n := by
  have k := (stays_write hx fuel info m tag).kept (setOutput out start stop) ⟨h1, h2⟩
  rw [h] at k
  have kf : w'.offset ≤ stop := k.fits
  have hl := k.le
  refine ⟨⟨k.length, k.before, fun i hi => k.after i (show w'.offset ≤ i by omega)⟩, ?_⟩
  rintro n rfl
  have hn : n = w'.offset := by
    by_cases hs : Named target (ascii "sap")
    · rw [write_sap hs] at h; exact ends_outputOffset h
    · rw [write_native hs hx] at h; exact ends_outputOffset h
  rw [hn]
  exact ⟨k.le, kf, k.length, k.before, k.after⟩

/-- What `Compress` writes. -/
def packedBytes (out : List Nat) : W Unit := do
  writeSeq ((out.take 11).map (Nat.cast (R := Int)))
  writeBytes out 11 (out.length - 94)
  writeSeq ((out.drop (out.length - 94)).map (Nat.cast (R := Int)))

theorem stays_packedBytes (out : List Nat) : Stays (packedBytes out) := by unfold packedBytes; stays

theorem writeCompressed_cases (w : Writer) : (∃ e, writeCompressed w = (.error e, w)) ∨
    ∃ out, FlashPack.compress (w.output.take w.offset) = .ok out ∧ writeCompressed w = packedBytes out { w with offset := 0 } := by
  unfold writeCompressed
  cases h : FlashPack.compress (w.output.take w.offset) with
  | error e => exact Or.inl ⟨e, rfl⟩
  | ok out => exact Or.inr ⟨out, rfl, rfl⟩

/-- C31: writing an executable into a window from the beginning of the array changes nothing after the window, also when it throws; the result is inside the window.
Missing: windows that begin later, see `C31_executable_ignores_start`. -/
theorem C31_executable_partial (fuel : Nat) (target : List Nat) (info : Info) (m : List Nat) (tag : Bool) (out : List Nat) (start stop : Nat)
    (h1 : start ≤ stop) (h2 : stop ≤ out.length) (hx : Named target (ascii "xex")) (r : M Nat) (w' : Writer)
    (h : write fuel target info m tag (setOutput out start stop) = (r, w')) (_hub : r ≠ .error .ub) :
    Outside out w'.output 0 stop ∧ ∀ n, r = .ok n → n ≤ stop := by
  rw [write_xex hx] at h
  have hv : (setOutput out start stop).Valid := ⟨h1, h2⟩
  have k1 := (stays_xexFile info m tag).kept _ hv
  have key : ∀ w1 : Writer, KeptW (setOutput out start stop) w1 → w1.Valid → w1.stop = stop → Outside out w1.output 0 stop ∧ w1.offset ≤ stop := by
    intro w1 k v hs
    exact ⟨⟨k.length, fun i hi => absurd hi (Nat.not_lt_zero i), fun i hi => k.after i (Nat.le_trans k.fits hi)⟩, k.fits⟩
  have h : W.bind (writeXexFile info m tag) (fun _ => W.bind writeCompressed fun _ => outputOffset) (setOutput out start stop) = (r, w') := h
  unfold W.bind at h
  rcases hm : writeXexFile info m tag (setOutput out start stop) with ⟨r1, w1⟩
  rw [hm] at h k1
  have v1 := k1.valid hv
  have s1 := k1.stop
  have o1 := key w1 k1 v1 s1
  cases r1 with
  | error e =>
    simp only [Prod.mk.injEq] at h
    obtain ⟨rfl, rfl⟩ := h
    exact ⟨o1.1, fun n hn => by cases hn⟩
  | ok _ =>
    simp only at h
    rcases writeCompressed_cases w1 with ⟨e, he⟩ | ⟨pk, _, he⟩
    · rw [he] at h
      simp only [Prod.mk.injEq] at h
      obtain ⟨rfl, rfl⟩ := h
      exact ⟨o1.1, fun n hn => by cases hn⟩
    · rw [he] at h
      have v2 : ({ w1 with offset := 0 } : Writer).Valid := ⟨Nat.zero_le _, v1.fits⟩
      have k2 := (stays_packedBytes pk).kept _ v2
      rcases hp : packedBytes pk { w1 with offset := 0 } with ⟨r2, w2⟩
      rw [hp] at h k2
      have hs : w2.output.length = w1.output.length := k2.length
      have hf : w2.offset ≤ w1.stop := k2.fits
      have o2 : Outside out w2.output 0 stop := by
        refine ⟨hs.trans o1.1.length, fun i hi => absurd hi (Nat.not_lt_zero i), fun i hi => ?_⟩
        have hi : w2.offset ≤ i := by rw [s1] at hf; exact Nat.le_trans hf hi
        rw [k2.after i hi]
        exact o1.1.after i (by assumption)
      cases r2 with
      | error e =>
        simp only [Prod.mk.injEq] at h
        obtain ⟨rfl, rfl⟩ := h
        exact ⟨o2, fun n hn => by cases hn⟩
      | ok _ =>
        simp only [outputOffset, Prod.mk.injEq] at h
        obtain ⟨rfl, rfl⟩ := h
        refine ⟨o2, fun n hn => ?_⟩
        simp only [Except.ok.injEq] at hn
        have s1 : w1.stop = stop := s1
        omega

theorem compress_starts {xex out : List Nat} (h : FlashPack.compress xex = .ok out) : ∃ rest, out = 0xff :: 0xff :: rest ∧ 103 ≤ rest.length := by
  unfold FlashPack.compress at h
  cases h1 : FlashPack.loadXex xex with
  | error e => rw [h1] at h; cases h
  | ok mem =>
    rw [h1] at h
    simp only [bind, Except.bind] at h
    split at h
    · split at h
      · cases h
      · split at h
        · cases h
        · rename_i hole hh
          split at h
          · cases h
          · rename_i s hs
            split at h
            · cases h
            · simp only [Except.ok.injEq] at h
              obtain ⟨c, hc⟩ : ∃ c : Int, c = (hole : Int) - (0x58 - 1) - s.length := ⟨_, rfl⟩
              rw [← hc] at h
              generalize hd : FlashPack.depacker c _ _ = d at h
              have hl : d.length = 0x58 := by rw [← hd]; exact FlashPack.depacker_length _ _ _
              refine ⟨_, by rw [← h]; rfl, ?_⟩
              simp [FlashPack.word, hl]
    · cases h

theorem emits_seq : ∀ l : List Int, Emits (writeSeq l) (l.map toByte)
  | [] => emits_pure
  | v :: l => Emits.seq (emits_byte v) (emits_seq l) rfl

theorem emits_packedBytes {out : List Nat} (h : 105 ≤ out.length) :
    Emits (packedBytes out) (((out.take 11).map (Nat.cast (R := Int))).map toByte ++
      ((out.drop 11).take (out.length - 94 - 11) ++ ((out.drop (out.length - 94)).map (Nat.cast (R := Int))).map toByte)) := by
  unfold packedBytes
  have e : ((out.length : Int) - 94) = ((out.length - 94 : Nat) : Int) := by omega
  refine Emits.bind (emits_seq _) (Emits.bind ?_ (emits_seq _))
  rw [e]
  exact emits_bytes (a := out) (i := 11) (j := out.length - 94) (by omega) (by omega)

/-- C31 is false of the code for executables in windows that do not begin at 0: wherever the window begins, a successful `Write`
puts the file at the beginning of the array, over bytes outside the window. -/
theorem C31_executable_ignores_start (fuel : Nat) (target : List Nat) (info : Info) (m : List Nat) (tag : Bool) (out : List Nat) (start stop : Nat)
    (h1 : start ≤ stop) (h2 : stop ≤ out.length) (hx : Named target (ascii "xex")) (n : Nat) (w' : Writer)
    (h : write fuel target info m tag (setOutput out start stop) = (.ok n, w')) :
    w'.output[0]? = some 0xff ∧ w'.output[1]? = some 0xff := by
  rw [write_xex hx] at h
  have hv : (setOutput out start stop).Valid := ⟨h1, h2⟩
  have k1 := (stays_xexFile info m tag).kept _ hv
  have h : W.bind (writeXexFile info m tag) (fun _ => W.bind writeCompressed fun _ => outputOffset) (setOutput out start stop) = (.ok n, w') := h
  unfold W.bind at h
  rcases hm : writeXexFile info m tag (setOutput out start stop) with ⟨r1, w1⟩
  rw [hm] at h k1
  have v1 : w1.Valid := k1.valid hv
  cases r1 with
  | error e => simp at h
  | ok _ =>
    simp only at h
    rcases writeCompressed_cases w1 with ⟨e, he⟩ | ⟨pk, hpk, he⟩
    · rw [he] at h; simp at h
    · rw [he] at h
      rcases hp : packedBytes pk { w1 with offset := 0 } with ⟨r2, w2⟩
      rw [hp] at h
      cases r2 with
      | error e => simp at h
      | ok _ =>
        simp only [outputOffset, Prod.mk.injEq] at h
        obtain ⟨_, rfl⟩ := h
        obtain ⟨rest, hr, hl⟩ := compress_starts hpk
        have v2 : ({ w1 with offset := 0 } : Writer).Valid := ⟨Nat.zero_le _, v1.fits⟩
        have em := emits_packedBytes (out := pk) (by rw [hr]; simp; omega) _ v2
        have hbs : ∃ t, ((pk.take 11).map (Nat.cast (R := Int))).map toByte ++
            ((pk.drop 11).take (pk.length - 94 - 11) ++ ((pk.drop (pk.length - 94)).map (Nat.cast (R := Int))).map toByte) = 255 :: 255 :: t :=
          ⟨_, by rw [hr]; rfl⟩
        obtain ⟨t, ht⟩ := hbs
        rw [ht, hp] at em
        by_cases hfit : ({ w1 with offset := 0 } : Writer).offset + (255 :: 255 :: t).length ≤ ({ w1 with offset := 0 } : Writer).stop
        · have := em.1 hfit
          simp only [Prod.mk.injEq] at this
          rw [this.2]
          exact ⟨rfl, rfl⟩
        · obtain ⟨k, _, hk⟩ := em.2 (by omega)
          simp at hk

/-! ## C33 -/

/-- The writer computation never returns normally. -/
structure Refused {α : Type} (m : W α) : Prop where
  ne : ∀ w a, (m w).1 ≠ .ok a

theorem Refused.bind_left {α β : Type} {m : W α} (h : Refused m) (f : α → W β) : Refused (m >>= f) := by
  refine ⟨fun w a => ?_⟩
  show (W.bind m f w).1 ≠ _
  unfold W.bind
  cases hm : (m w).1 with
  | ok b => exact absurd hm (h.ne w b)
  | error e => simp

theorem Refused.bind_right {α β : Type} (m : W α) {f : α → W β} (h : ∀ a, Refused (f a)) : Refused (m >>= f) := by
  refine ⟨fun w a => ?_⟩
  show (W.bind m f w).1 ≠ _
  unfold W.bind
  cases hm : (m w).1 with
  | ok b => exact (h b).ne _ a
  | error e => simp

theorem refused_fail {α : Type} (f : Fault) : Refused (W.fail f : W α) := ⟨fun _ _ h => by cases h⟩

theorem extOf_mem {info : Info} {t : ModType} {e : List Nat} (h : extOf info t = some e) : e ∈ writeExts ∧ e ≠ ascii "sap" ∧ e ≠ ascii "xex" ∧ e ≠ ascii "tm8" := by
  have hd : ∀ s ∈ [ascii "cmc", ascii "dmc", ascii "cm3", ascii "cmr", ascii "cms", ascii "dlt", ascii "mpt", ascii "mpd", ascii "rmt", ascii "tmc", ascii "tm2", ascii "fc"],
      s ∈ writeExts ∧ s ≠ ascii "sap" ∧ s ≠ ascii "xex" ∧ s ≠ ascii "tm8" := by decide +kernel
  refine hd e ?_
  unfold extOf at h
  cases t <;> simp only [Option.some.injEq, reduceCtorEq] at h
  all_goals first
    | (rw [← h]; split <;> decide)
    | (rw [← h]; decide)

/-- What is offered besides SAP and XEX is the original format. -/
theorem saveExts_cases {info : Info} {m : List Nat} {exts : List (List Nat)} (h : saveExts info m = .ok exts) :
    (info.type = .sapS ∧ exts = [ascii "sap"]) ∨ (info.type = .sapD ∧ info.fastplay ≠ 312 ∧ exts = [ascii "sap"]) ∨
    (info.type = .sapD ∧ info.fastplay = 312 ∧ exts = [ascii "sap", ascii "xex"]) ∨
    (info.type ≠ .sapS ∧ info.type ≠ .sapD ∧ ∃ t, originalType info m = .ok t ∧ ((extOf info t = none ∧ (info.type = .sapB ∨ info.type = .sapC) ∧ exts = [ascii "sap", ascii "xex"]) ∨
      ∃ e, extOf info t = some e ∧ ((info.type = .sapB ∨ info.type = .sapC) ∧ exts = [ascii "sap", e, ascii "xex"] ∨
        (info.type = t ∧ info.type ≠ .sapB ∧ info.type ≠ .sapC) ∧ exts = [e, ascii "sap", ascii "xex"]))) := by
  have sap : (info.type = .sapB ∨ info.type = .sapC) → (originalExt info m >>= fun ext => (.ok ([ascii "sap"] ++ ext.toList ++ [ascii "xex"]) : M _)) = .ok exts →
      ∃ t, originalType info m = .ok t ∧ ((extOf info t = none ∧ (info.type = .sapB ∨ info.type = .sapC) ∧ exts = [ascii "sap", ascii "xex"]) ∨
      ∃ e, extOf info t = some e ∧ ((info.type = .sapB ∨ info.type = .sapC) ∧ exts = [ascii "sap", e, ascii "xex"] ∨
        (info.type = t ∧ info.type ≠ .sapB ∧ info.type ≠ .sapC) ∧ exts = [e, ascii "sap", ascii "xex"])) := by
    intro hbc h
    unfold originalExt at h
    cases ht : originalType info m with
    | error e => rw [ht] at h; cases h
    | ok t =>
      rw [ht] at h
      simp only [bind, Except.bind, Except.ok.injEq] at h
      refine ⟨t, rfl, ?_⟩
      cases he : extOf info t with
      | none => rw [he] at h; exact Or.inl ⟨rfl, hbc, by rw [← h]; rfl⟩
      | some e => rw [he] at h; exact Or.inr ⟨e, rfl, Or.inl ⟨hbc, by rw [← h]; rfl⟩⟩
  have native : info.type ≠ .sapB → info.type ≠ .sapC → originalType info m = .ok info.type → (originalExt info m >>= fun ext => (match ext with
      | some e => .ok [e, ascii "sap", ascii "xex"]
      | none => .error .ub : M _)) = .ok exts → ∃ t, originalType info m = .ok t ∧ ((extOf info t = none ∧ (info.type = .sapB ∨ info.type = .sapC) ∧ exts = [ascii "sap", ascii "xex"]) ∨
      ∃ e, extOf info t = some e ∧ ((info.type = .sapB ∨ info.type = .sapC) ∧ exts = [ascii "sap", e, ascii "xex"] ∨
        (info.type = t ∧ info.type ≠ .sapB ∧ info.type ≠ .sapC) ∧ exts = [e, ascii "sap", ascii "xex"])) := by
    intro hb hc ht h
    unfold originalExt at h
    rw [ht] at h
    simp only [bind, Except.bind] at h
    refine ⟨_, ht, ?_⟩
    cases he : extOf info info.type with
    | none => rw [he] at h; cases h
    | some e =>
      rw [he] at h
      simp only [Except.ok.injEq] at h
      exact Or.inr ⟨e, rfl, Or.inr ⟨⟨rfl, hb, hc⟩, h.symm⟩⟩
  have hot : info.type ≠ .sapB → info.type ≠ .sapC → originalType info m = .ok info.type := by
    intro hb hc
    unfold originalType
    cases h : info.type <;> first | rfl | contradiction
  unfold saveExts at h
  cases hty : info.type <;> rw [hty] at h sap native hot <;> simp only at h
  case sapB => exact Or.inr (Or.inr (Or.inr ⟨by simp, by simp, sap (by simp) h⟩))
  case sapC => exact Or.inr (Or.inr (Or.inr ⟨by simp, by simp, sap (by simp) h⟩))
  case sapD =>
    simp only [Except.ok.injEq] at h
    by_cases hf : info.fastplay = 312
    · rw [if_pos hf] at h; exact Or.inr (Or.inr (Or.inl ⟨rfl, hf, h.symm⟩))
    · rw [if_neg hf] at h; exact Or.inr (Or.inl ⟨rfl, hf, h.symm⟩)
  case sapS =>
    simp only [Except.ok.injEq] at h
    exact Or.inl ⟨rfl, h.symm⟩
  all_goals exact Or.inr (Or.inr (Or.inr ⟨by simp, by simp, native (by simp) (by simp) (hot (by simp) (by simp)) h⟩))

theorem possible_compressed : Possible writeCompressed := by
  refine ⟨fun w => ?_⟩
  rcases writeCompressed_cases w with ⟨e, he⟩ | ⟨pk, hpk, he⟩
  · have := possibleM_compress (w.output.take w.offset)
    unfold writeCompressed
    cases h : FlashPack.compress (w.output.take w.offset) with
    | error e =>
      rw [h] at this
      intro hc
      exact this (by simpa using hc)
    | ok out =>
      have e : writeCompressed w = packedBytes out { w with offset := 0 } := by unfold writeCompressed; rw [h]; rfl
      exact (show Possible (packedBytes out) by unfold packedBytes; possible).ne _
  · rw [he]
    exact (show Possible (packedBytes pk) by unfold packedBytes; possible).ne _

theorem possible_xex {info : Info} (hs : info.type ≠ .sapS) (hd : info.type = .sapD → info.fastplay = 312) (m : List Nat) (tag : Bool) :
    Possible (writeXexFile info m tag) := by
  have h1 := possible_executable true info m
  have h2 := possible_xexInfo info
  have h3 : ∀ ip, Possible (writeXexB info ip) := by intro ip; unfold writeXexB; possible
  unfold writeXexFile
  refine Possible.bind h1 fun ip => Possible.bind ?_ fun _ => ?_
  · unfold writeXexDriver
    split
    · rename_i ht
      unfold writeXexD
      rw [if_neg (by rw [hd ht]; simp)]
      possible
    · contradiction
    · exact h3 _
  · possible

theorem possible_native {fuel : Nat} {info : Info} {m : List Nat} {t : ModType} (ht : originalType info m = .ok t) (he : extOf info t ≠ none)
    (hd : info.type ≠ .sapD) (hs : info.type ≠ .sapS) : Possible (writeNative fuel info m) := by
  unfold writeNative
  have sapCase : Possible (writeNativeSap fuel info m) := by
    unfold writeNativeSap
    refine Possible.bind (possible_lift (possibleM_rmtSapOffset _ _)) fun o => possible_ite (possible_nativeWrite _ _ _ _ _ _ (by simp [extOf]) (by simp)) ?_
    refine Possible.bind (possible_lift (possibleM_getWordI _ _)) fun _ => Possible.bind (possible_lift (possibleM_getWordI _ _)) fun _ => ?_
    refine possible_ite (possible_fail (by decide)) ?_
    rw [ht]
    show Possible (W.bind (W.lift (.ok t)) _)
    have e : ∀ f : ModType → W Unit, W.bind (W.lift (.ok t)) f = f t := fun f => rfl
    rw [e]
    by_cases hf : t = .fc
    · rw [if_pos hf]; exact possible_writeBytes _ _ _
    · rw [if_neg hf]; exact possible_nativeWrite _ _ _ _ _ _ he hf
  split
  · exact sapCase
  · exact sapCase
  · exact possible_writeBytes _ _ _
  · rename_i h1 h2 h3
    have hne : extOf info info.type ≠ none := by
      cases h : info.type <;> simp_all [extOf]
    exact possible_nativeWrite _ _ _ _ _ _ hne h3

/-- C33: at most three formats are offered, each once, and `Write` never refuses one of them as an impossible conversion. -/
theorem C33_offered (info : Info) (m : List Nat) (exts : List (List Nat)) (h : saveExts info m = .ok exts) :
    exts.length ≤ 3 ∧ exts.Nodup ∧
    ∀ e ∈ exts, ∀ target, Named target e → ∀ fuel tag w, (write fuel target info m tag w).1 ≠ .error (.thrown "Impossible conversion") := by
  have psap : ∀ target, Named target (ascii "sap") → ∀ fuel tag, Possible (write fuel target info m tag) := by
    intro target hn fuel tag
    rw [write_sap hn]
    exact Possible.bind (possible_executable _ _ _) fun _ => possible_outputOffset
  have pxex : info.type ≠ .sapS → (info.type = .sapD → info.fastplay = 312) → ∀ target, Named target (ascii "xex") → ∀ fuel tag, Possible (write fuel target info m tag) := by
    intro hs hd target hn fuel tag
    rw [write_xex hn]
    exact Possible.bind (possible_xex hs hd m tag) fun _ => Possible.bind possible_compressed fun _ => possible_outputOffset
  have pnat : ∀ t e, originalType info m = .ok t → extOf info t = some e → info.type ≠ .sapD → info.type ≠ .sapS → ∀ target, Named target e → ∀ fuel tag, Possible (write fuel target info m tag) := by
    intro t e ht he hd hs target hn fuel tag
    obtain ⟨hm, n1, n2, n3⟩ := extOf_mem he
    rw [write_native (fun h => n1 (named_unique hn h)) (fun h => n2 (named_unique hn h))]
    refine Possible.bind ?_ fun _ => possible_outputOffset
    unfold writeOther
    have ho : originalExt info m = .ok (some e) := by unfold originalExt; rw [ht]; simp only [bind, Except.bind]; rw [he]
    rw [ho]
    show Possible (if getPackedExt target = packExt e ∨ _ then writeNative fuel info m else _)
    rw [if_pos (Or.inl ((packed_named target e hm).mpr hn))]
    exact possible_native ht (by rw [he]; simp) hd hs
  rcases saveExts_cases h with ⟨ht, rfl⟩ | ⟨ht, hf, rfl⟩ | ⟨ht, hf, rfl⟩ | ⟨hs, hd, t, ht, hc⟩
  · exact ⟨by simp, by simp, fun e he target hn fuel tag w => (psap target (by rw [List.mem_singleton] at he; rw [← he]; exact hn) fuel tag).ne w⟩
  · exact ⟨by simp, by simp, fun e he target hn fuel tag w => (psap target (by rw [List.mem_singleton] at he; rw [← he]; exact hn) fuel tag).ne w⟩
  · refine ⟨by simp, by decide, fun e he target hn fuel tag w => ?_⟩
    simp only [List.mem_cons, List.not_mem_nil, or_false] at he
    rcases he with rfl | rfl
    · exact (psap target hn fuel tag).ne w
    · exact (pxex (by rw [ht]; simp) (fun _ => hf) target hn fuel tag).ne w
  · have px := pxex hs (fun h => absurd h hd)
    rcases hc with ⟨_, _, rfl⟩ | ⟨e, he, ⟨_, rfl⟩ | ⟨_, rfl⟩⟩
    · refine ⟨by simp, by decide, fun e he target hn fuel tag w => ?_⟩
      simp only [List.mem_cons, List.not_mem_nil, or_false] at he
      rcases he with rfl | rfl
      · exact (psap target hn fuel tag).ne w
      · exact (px target hn fuel tag).ne w
    · obtain ⟨_, n1, n2, _⟩ := extOf_mem he
      refine ⟨by simp, ?_, fun x hx target hn fuel tag w => ?_⟩
      · simp only [List.nodup_cons, List.mem_cons, List.not_mem_nil, or_false, not_or, not_false_eq_true, List.nodup_nil, and_true]
        exact ⟨⟨fun h => n1 h.symm, by decide⟩, n2⟩
      · simp only [List.mem_cons, List.not_mem_nil, or_false] at hx
        rcases hx with rfl | rfl | rfl
        · exact (psap target hn fuel tag).ne w
        · exact (pnat t _ ht he hd hs target hn fuel tag).ne w
        · exact (px target hn fuel tag).ne w
    · obtain ⟨_, n1, n2, _⟩ := extOf_mem he
      refine ⟨by simp, ?_, fun x hx target hn fuel tag w => ?_⟩
      · simp only [List.nodup_cons, List.mem_cons, List.not_mem_nil, or_false, not_or, not_false_eq_true, List.nodup_nil, and_true]
        exact ⟨⟨n1, n2⟩, by decide⟩
      · simp only [List.mem_cons, List.not_mem_nil, or_false] at hx
        rcases hx with rfl | rfl | rfl
        · exact (pnat t _ ht he hd hs target hn fuel tag).ne w
        · exact (psap target hn fuel tag).ne w
        · exact (px target hn fuel tag).ne w

/-- C33: no other file is written, whatever its name; the extension TM8 stands for TMC. -/
theorem C33_others (info : Info) (m : List Nat) (exts : List (List Nat)) (h : saveExts info m = .ok exts) (target : List Nat)
    (hn : ∀ e ∈ exts, ¬ Named target e) (h8 : ascii "tmc" ∈ exts → ¬ Named target (ascii "tm8")) (fuel : Nat) (tag : Bool) (w : Writer) (n : Nat) :
    (write fuel target info m tag w).1 ≠ .ok n := by
  have nsap : ¬ Named target (ascii "sap") := by
    rcases saveExts_cases h with ⟨_, rfl⟩ | ⟨_, _, rfl⟩ | ⟨_, _, rfl⟩ | ⟨_, _, t, _, ⟨_, _, rfl⟩ | ⟨e, _, ⟨_, rfl⟩ | ⟨_, rfl⟩⟩⟩ <;> exact hn _ (by simp)
  by_cases hx : Named target (ascii "xex")
  · rw [write_xex hx]
    refine (Refused.bind_left ?_ _).ne w n
    have key : (info.type = .sapS ∨ (info.type = .sapD ∧ info.fastplay ≠ 312)) := by
      rcases saveExts_cases h with ⟨ht, rfl⟩ | ⟨ht, hf, rfl⟩ | ⟨_, _, rfl⟩ | ⟨_, _, t, _, ⟨_, _, rfl⟩ | ⟨e, _, ⟨_, rfl⟩ | ⟨_, rfl⟩⟩⟩
      · exact Or.inl ht
      · exact Or.inr ⟨ht, hf⟩
      all_goals exact absurd hx (hn _ (by simp))
    unfold writeXexFile
    refine Refused.bind_right _ fun ip => Refused.bind_left ?_ _
    unfold writeXexDriver
    rcases key with ht | ⟨ht, hf⟩
    · rw [ht]; exact refused_fail _
    · rw [ht]
      show Refused (writeXexD info ip)
      unfold writeXexD
      rw [if_pos hf]
      exact refused_fail _
  · rw [write_native nsap hx]
    refine (Refused.bind_left ?_ _).ne w n
    unfold writeOther
    cases ho : originalExt info m with
    | error e => exact Refused.bind_left ⟨fun _ _ h => by cases h⟩ _
    | ok o =>
      cases o with
      | none => exact refused_fail _
      | some e =>
        show Refused (if getPackedExt target = packExt e ∨ (getPackedExt target = packExt (ascii "TM8") ∧ packExt e = packExt (ascii "TMC")) then _ else _)
        obtain ⟨t, ht, hte⟩ : ∃ t, originalType info m = .ok t ∧ extOf info t = some e := by
          unfold originalExt at ho
          cases ht : originalType info m with
          | error e => rw [ht] at ho; cases ho
          | ok t =>
            rw [ht] at ho
            simp only [bind, Except.bind, Except.ok.injEq] at ho
            exact ⟨t, rfl, ho⟩
        have hmem : e ∈ exts := by
          rcases saveExts_cases h with ⟨hs, rfl⟩ | ⟨hs, _, rfl⟩ | ⟨hs, _, rfl⟩ | ⟨_, _, t', ht', hc⟩
          · exfalso
            unfold originalType at ht; rw [hs] at ht; simp only [Except.ok.injEq] at ht; rw [← ht] at hte; simp [extOf] at hte
          · exfalso
            unfold originalType at ht; rw [hs] at ht; simp only [Except.ok.injEq] at ht; rw [← ht] at hte; simp [extOf] at hte
          · exfalso
            unfold originalType at ht; rw [hs] at ht; simp only [Except.ok.injEq] at ht; rw [← ht] at hte; simp [extOf] at hte
          · rw [ht] at ht'
            simp only [Except.ok.injEq] at ht'
            subst ht'
            rcases hc with ⟨h0, _⟩ | ⟨e', he', ⟨_, rfl⟩ | ⟨_, rfl⟩⟩
            · rw [hte] at h0; cases h0
            · rw [hte] at he'; cases he'; simp
            · rw [hte] at he'; cases he'; simp
        obtain ⟨hm, n1, n2, n3⟩ := extOf_mem hte
        rw [if_neg]
        · exact refused_fail _
        · rintro (h1 | ⟨h1, h2⟩)
          · exact hn e hmem ((packed_named target e hm).mp h1)
          · rw [packed_upper.2.2.2] at h2
            have := packExt_inj e hm (ascii "tmc") (by decide) h2
            rw [packed_upper.2.2.1] at h1
            exact h8 (this ▸ hmem) ((packed_named target _ (by decide)).mp h1)

/-- A CMC module is offered as CMC, SAP and XEX, and a file name of any case names one of them. -/
theorem C33_sample : saveExts { Info.blank [] with type := .cmc } [] = .ok [ascii "cmc", ascii "sap", ascii "xex"] ∧
    Named (ascii "dir.d/Tune.SaP") (ascii "sap") ∧ ¬ Named (ascii "Tune.sap") (ascii "cmc") := by
  have hsap : Named (ascii "Tune.sap") (ascii "sap") := ⟨ascii "sap", ⟨ascii "Tune", by decide, by decide, by decide⟩, by decide⟩
  refine ⟨by decide +kernel, ⟨ascii "SaP", ⟨ascii "dir.d/Tune", by decide, by decide, by decide⟩, by decide⟩, fun h => ?_⟩
  exact absurd (named_unique hsap h) (by decide)

end Asap.Props
