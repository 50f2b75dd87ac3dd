import Verif.Model.Write
import Verif.Lemmas.Writer
import Verif.Spec.Relocate

/-! What the writer of native modules emits, at a known offset in its output. -/

namespace Asap
open Spec.Relocate

/-- `m` writes `bs` from the offset `k` on when they fit, otherwise it throws. -/
structure EmitsAt (k : Nat) (m : W Unit) (bs : List Nat) : Prop where
  ok : ∀ w : Writer, w.Valid → w.offset = k → k + bs.length ≤ w.stop → m w = (.ok (), w.put bs)
  full : ∀ w : Writer, w.Valid → w.offset = k → w.stop < k + bs.length → (m w).1 = .error (.thrown "Output full")

theorem Emits.at {m : W Unit} {bs : List Nat} (h : Emits m bs) (k : Nat) : EmitsAt k m bs := by
  refine ⟨fun w hv hk hf => (h w hv).1 (by omega), fun w hv hk hf => ?_⟩
  obtain ⟨n, _, e⟩ := (h w hv).2 (by omega)
  rw [e]

theorem EmitsAt.bind {k : Nat} {m n : W Unit} {a b : List Nat} (hm : EmitsAt k m a) (hn : EmitsAt (k + a.length) n b) : EmitsAt k (m >>= fun _ => n) (a ++ b) := by
  refine ⟨fun w hv hk hf => ?_, fun w hv hk hf => ?_⟩
  · rw [List.length_append] at hf
    show W.bind m (fun _ => n) w = _
    unfold W.bind
    have := hv.fits
    rw [hm.ok w hv hk (by omega)]
    simp only
    rw [hn.ok _ (Writer.put_valid hv (by omega)) (by simp [Writer.put, hk]) (by show _ ≤ w.stop; omega), Writer.put_put _ _ _ (by omega)]
  · rw [List.length_append] at hf
    show (W.bind m (fun _ => n) w).1 = _
    unfold W.bind
    by_cases h : k + a.length ≤ w.stop
    · rw [hm.ok w hv hk h]
      exact hn.full _ (Writer.put_valid hv (by omega)) (by simp [Writer.put, hk]) (by show w.stop < _; omega)
    · have := hm.full w hv hk (by omega)
      rcases hr : m w with ⟨r, w'⟩
      rw [hr] at this
      simp only at this
      rw [this]

theorem EmitsAt.offset {k : Nat} {g : Int → W Unit} {bs : List Nat} (h : EmitsAt k (g k) bs) : EmitsAt k (Native.offset >>= g) bs :=
  ⟨fun w hv hk hf => by subst hk; exact h.ok w hv rfl hf, fun w hv hk hf => by subst hk; exact h.full w hv rfl hf⟩

theorem EmitsAt.lift {α : Type} {k : Nat} {r : M α} {a : α} {g : α → W Unit} {bs : List Nat} (hr : r = .ok a) (h : EmitsAt k (g a) bs) : EmitsAt k (W.lift r >>= g) bs := by
  subst hr
  exact h

/-- The bytes `f` from index `k` on. -/
def seg (f : Nat → Nat) (k n : Nat) : List Nat := (List.range' k n).map f

theorem seg_length (f : Nat → Nat) (k n : Nat) : (seg f k n).length = n := by simp [seg]

theorem seg_append (f : Nat → Nat) (k n p : Nat) : seg f k n ++ seg f (k + n) p = seg f k (n + p) := by
  unfold seg
  rw [← List.map_append]
  congr 1
  rw [List.range'_append_1]

/-- `m` writes the bytes `f` from index `k` up to `e`. -/
def Fills (f : Nat → Nat) (k e : Nat) (m : W Unit) : Prop := k ≤ e ∧ EmitsAt k m (seg f k (e - k))

theorem Fills.bind {f : Nat → Nat} {k e e' : Nat} {m n : W Unit} (hm : Fills f k e m) (hn : Fills f e e' n) : Fills f k e' (m >>= fun _ => n) := by
  refine ⟨Nat.le_trans hm.1 hn.1, ?_⟩
  have h1 := hm.1
  have h2 := hn.1
  have := hm.2.bind (b := seg f e (e' - e)) (by rw [seg_length, Nat.add_sub_cancel' h1]; exact hn.2)
  rwa [show e = k + (e - k) by omega, Nat.add_sub_cancel_left, seg_append, show e - k + (e' - (k + (e - k))) = e' - k by omega] at this

theorem Fills.nothing (f : Nat → Nat) (k : Nat) : Fills f k k (pure ()) := ⟨Nat.le_refl _, by rw [Nat.sub_self]; exact emits_pure.at k⟩

theorem Fills.lift {α : Type} {f : Nat → Nat} {k e : Nat} {r : M α} {a : α} {g : α → W Unit} (hr : r = .ok a) (h : Fills f k e (g a)) : Fills f k e (W.lift r >>= g) :=
  ⟨h.1, h.2.lift hr⟩

theorem Fills.offset {f : Nat → Nat} {k e : Nat} {g : Int → W Unit} (h : Fills f k e (g k)) : Fills f k e (Native.offset >>= g) := ⟨h.1, h.2.offset⟩

theorem Fills.byte {f : Nat → Nat} {k : Nat} {v : Int} (h : toByte v = f k) : Fills f k (k + 1) (writeByte v) := by
  refine ⟨by omega, ?_⟩
  rw [Nat.add_sub_cancel_left]
  have := (emits_byte v).at k
  rwa [h] at this

theorem Fills.word {f : Nat → Nat} {k : Nat} {v : Int} (h0 : toByte v = f k) (h1 : toByte (v / 256) = f (k + 1)) : Fills f k (k + 2) (writeWord v) := by
  unfold writeWord
  refine Fills.bind (Fills.byte ?_) (Fills.byte h1)
  rw [← h0]; unfold toByte; omega

/-! ## The source -/

/-- `n` bytes `m` of a module at `so` in the array `src`. -/
structure Source (src : List Nat) (so : Nat) (m : List Nat) : Prop where
  eq : (src.drop so).take m.length = m
  le : so + m.length ≤ src.length
  bytes : AllBytes m

theorem Source.get {src : List Nat} {so : Nat} {m : List Nat} (h : Source src so m) {i : Nat} (hi : i < m.length) : src[so + i]? = some (byteAt m i) := by
  have e : m[i]? = some (byteAt m i) := by unfold byteAt; rw [List.getElem?_eq_getElem hi]; rfl
  rw [← e]
  conv => rhs; rw [← h.eq]
  rw [List.getElem?_take_of_lt hi, List.getElem?_drop]

theorem byteAt_lt {m : List Nat} (h : AllBytes m) (i : Nat) : byteAt m i < 256 := by
  unfold byteAt
  cases e : m[i]? with
  | none => decide
  | some b => exact h b (List.mem_of_getElem? e)

theorem Source.rd {src : List Nat} {so : Nat} {m : List Nat} (h : Source src so m) {i : Nat} (hi : i < m.length) {j : Int} (hj : j = so + i) : rdI src j = .ok (byteAt m i) := by
  subst hj
  unfold rdI
  rw [if_pos (by omega), show ((so : Int) + i).toNat = so + i by omega]
  unfold Asap.rd
  rw [h.get hi]

theorem Source.word {src : List Nat} {so : Nat} {m : List Nat} (h : Source src so m) {i : Nat} (hi : i + 1 < m.length) {j : Int} (hj : j = so + i) : getWordI src j = .ok (Spec.Relocate.word m i) := by
  unfold getWordI
  rw [h.rd (by omega) hj]
  simp only [bind, Except.bind]
  rw [h.rd hi (by omega)]
  rfl

theorem Source.copy {src : List Nat} {so : Nat} {m : List Nat} (h : Source src so m) {f : Nat → Nat} {k e : Nat} (hk : k ≤ e) (he : e ≤ m.length)
    (hf : ∀ i, k ≤ i → i < e → f i = byteAt m i) {e' : Int} (hee : e' = e) : Fills f k e (Native.copy src so e') := by
  subst hee
  refine ⟨hk, EmitsAt.offset ?_⟩
  have hle := h.le
  have := (emits_bytes (a := src) (i := so + k) (j := so + e) (by omega) (by omega)).at k
  have e2 : seg f k (e - k) = (src.drop (so + k)).take (so + e - (so + k)) := by
    apply List.ext_getElem?
    intro i
    by_cases hi : i < e - k
    · unfold seg
      rw [List.getElem?_map, List.getElem?_range' hi, List.getElem?_take_of_lt (by omega), List.getElem?_drop, show so + k + i = so + (k + i) by omega, h.get (by omega)]
      simp only [Option.map_some, Nat.one_mul]
      rw [hf _ (by omega) (by omega)]
    · rw [List.getElem?_eq_none (by rw [seg_length]; omega), List.getElem?_eq_none (by simp; omega)]
  rw [e2]
  have c1 : ((so : Int) + k) = ((so + k : Nat) : Int) := by omega
  have c2 : ((so : Int) + e) = ((so + e : Nat) : Int) := by omega
  simp only [c1, c2]
  exact this

theorem relocate_bytes (diff : Int) {lo hi : Nat} (h1 : lo < 256) (h2 : hi < 256) :
    toByte (Native.relocate diff (lo + 256 * hi)) = move diff (lo + 256 * hi) % 256 ∧ toByte (Native.relocate diff (lo + 256 * hi) / 256) = move diff (lo + 256 * hi) / 256 := by
  unfold Native.relocate move toByte
  by_cases h : (lo + 256 * hi = 0 ∨ lo + 256 * hi = 0xffff)
  · rw [if_pos h, if_neg (by omega)]
    omega
  · rw [if_neg h, if_pos (by omega)]
    omega

/-- The addresses of the file, moved, are what `f` has. -/
def Low (f : Nat → Nat) (diff : Int) (m : List Nat) (l h : Nat) : Prop := f l = move diff (byteAt m l + 256 * byteAt m h) % 256
def High (f : Nat → Nat) (diff : Int) (m : List Nat) (l h : Nat) : Prop := f h = move diff (byteAt m l + 256 * byteAt m h) / 256

theorem Source.words {src : List Nat} {so : Nat} {m : List Nat} (h : Source src so m) {f : Nat → Nat} {diff : Int} : ∀ (n : Nat) {k : Nat}, k + 2 * n ≤ m.length →
    (∀ j, j < n → Low f diff m (k + 2 * j) (k + 2 * j + 1) ∧ High f diff m (k + 2 * j) (k + 2 * j + 1)) → Fills f k (k + 2 * n) (Native.relocateWords src so diff n)
  | 0, k, _, _ => Fills.nothing f k
  | n + 1, k, hk, hf => by
    unfold Native.relocateWords
    have h0 : Low f diff m k (k + 1) ∧ High f diff m k (k + 1) := hf 0 (by omega)
    unfold Low High at h0
    have hb := relocate_bytes diff (byteAt_lt h.bytes k) (byteAt_lt h.bytes (k + 1))
    refine Fills.offset (Fills.lift (h.word (i := k) (by omega) rfl) ?_)
    rw [show k + 2 * (n + 1) = k + 2 + 2 * n by omega]
    refine Fills.bind (Fills.word ?_ ?_) (h.words n (by omega) fun j hj => ?_)
    · rw [h0.1, ← hb.1]; rfl
    · rw [h0.2, ← hb.2]; rfl
    · have := hf (j + 1) (by omega)
      rwa [show k + 2 * (j + 1) = k + 2 + 2 * j by omega] at this

theorem Source.lows {src : List Nat} {so : Nat} {m : List Nat} (h : Source src so m) {f : Nat → Nat} {diff : Int} {low high : Nat} {l' h' : Int} (hl : l' = low + so) (hh : h' = high + so) : ∀ (n i : Nat),
    low + i + n ≤ m.length → high + i + n ≤ m.length → (∀ j, i ≤ j → j < i + n → Low f diff m (low + j) (high + j)) → Fills f (low + i) (low + i + n) (Native.relocateBytesFrom src diff l' h' 1 i n)
  | 0, i, _, _, _ => Fills.nothing f _
  | n + 1, i, hlo, hhi, hf => by
    unfold Native.relocateBytesFrom
    refine Fills.lift (h.rd (i := low + i) (by omega) (by omega)) (Fills.lift (h.rd (i := high + i) (by omega) (by omega)) ?_)
    rw [show low + i + (n + 1) = low + i + 1 + n by omega]
    refine Fills.bind (Fills.byte ?_) (h.lows hl hh n (i + 1) (by omega) (by omega) fun j h1 h2 => hf j (by omega) (by omega))
    rw [hf i (by omega) (by omega), ← (relocate_bytes diff (byteAt_lt h.bytes (low + i)) (byteAt_lt h.bytes (high + i))).1]
    unfold toByte; omega

theorem Source.highs {src : List Nat} {so : Nat} {m : List Nat} (h : Source src so m) {f : Nat → Nat} {diff : Int} {low high : Nat} {l' h' : Int} (hl : l' = low + so) (hh : h' = high + so) : ∀ (n i : Nat),
    low + i + n ≤ m.length → high + i + n ≤ m.length → (∀ j, i ≤ j → j < i + n → High f diff m (low + j) (high + j)) → Fills f (high + i) (high + i + n) (Native.relocateBytesFrom src diff l' h' 256 i n)
  | 0, i, _, _, _ => Fills.nothing f _
  | n + 1, i, hlo, hhi, hf => by
    unfold Native.relocateBytesFrom
    refine Fills.lift (h.rd (i := low + i) (by omega) (by omega)) (Fills.lift (h.rd (i := high + i) (by omega) (by omega)) ?_)
    rw [show high + i + (n + 1) = high + i + 1 + n by omega]
    refine Fills.bind (Fills.byte ?_) (h.highs hl hh n (i + 1) (by omega) (by omega) fun j h1 h2 => hf j (by omega) (by omega))
    rw [hf i (by omega) (by omega), ← (relocate_bytes diff (byteAt_lt h.bytes (low + i)) (byteAt_lt h.bytes (high + i))).2]
    unfold toByte; omega

theorem Source.lowHigh {src : List Nat} {so : Nat} {m : List Nat} (h : Source src so m) {f : Nat → Nat} {diff : Int} (n : Nat) {k : Nat} (hk : k + 2 * n ≤ m.length)
    (hf : ∀ j, j < n → Low f diff m (k + j) (k + n + j) ∧ High f diff m (k + j) (k + n + j)) : Fills f k (k + 2 * n) (Native.relocateLowHigh src so diff n) := by
  unfold Native.relocateLowHigh
  refine Fills.offset ?_
  unfold Native.relocateBytes
  rw [show k + 2 * n = k + n + 0 + n by omega]
  exact Fills.bind (h.lows (low := k) (high := k + n) rfl (by omega) n 0 (by omega) (by omega) fun j _ hj => (hf j (by omega)).1)
    (h.highs (low := k) (high := k + n) rfl (by omega) n 0 (by omega) (by omega) fun j _ hj => (hf j (by omega)).2)

/-! ## Roles -/

theorem movedByte_low {m : List Nat} {diff : Int} {role : Nat → Role} {l h : Nat} (e : role l = .low h) : Low (fun i => movedByte (role i) diff m i) diff m l h := by
  unfold Low movedByte
  simp only [e]

theorem movedByte_high {m : List Nat} {diff : Int} {role : Nat → Role} {l h : Nat} (e : role h = .high l) : High (fun i => movedByte (role i) diff m i) diff m l h := by
  unfold High movedByte
  simp only [e]

theorem movedByte_plain {m : List Nat} {diff : Int} {role : Nat → Role} {i : Nat} (e : role i = .plain) : movedByte (role i) diff m i = byteAt m i := by
  unfold movedByte
  simp only [e]

theorem pair_low (k j : Nat) (hk : k % 2 = 0) : pair (k + 2 * j) = .low (k + 2 * j + 1) := by unfold pair; rw [if_pos (by omega)]
theorem pair_high (k j : Nat) (hk : k % 2 = 0) : pair (k + 2 * j + 1) = .high (k + 2 * j) := by unfold pair; rw [if_neg (by omega)]; congr 1

section
variable {src : List Nat} {so : Nat} {m : List Nat} (h : Source src so m) {diff : Int} {startAddr moduleLen : Int} {fuel : Nat}
include h

/-- What remains to be copied. -/
theorem Source.rest {role : Nat → Role} {k : Nat} (hk : k ≤ m.length) (hp : ∀ i, k ≤ i → role i = .plain) {t : W Unit} (ht : Fills (fun i => movedByte (role i) diff m i) 0 k t) :
    Fills (fun i => movedByte (role i) diff m i) 0 m.length (t >>= fun _ => Native.copy src so m.length) :=
  ht.bind (h.copy hk (Nat.le_refl _) (fun i hi _ => movedByte_plain (hp i hi)) rfl)

theorem tables_cmc (hl : 0x9a ≤ m.length) {type : ModType} (ht : type = .cmc ∨ type = .cm3 ∨ type = .cmr ∨ type = .cms) :
    Fills (fun i => movedByte (cmc i) diff m i) 0 0x9a (Native.writeTables fuel src so diff startAddr moduleLen type) := by
  have e : Native.writeTables fuel src so diff startAddr moduleLen type = (do
      Native.relocateWords src so diff 3
      Native.copy src so (6 + 0x14)
      Native.relocateLowHigh src so diff 64) := by rcases ht with rfl | rfl | rfl | rfl <;> rfl
  rw [e]
  refine (h.words 3 (k := 0) (by omega) fun j hj => ⟨movedByte_low ?_, movedByte_high ?_⟩).bind ((h.copy (k := 6) (e := 0x1a) (by omega) (by omega) (fun i h1 h2 => movedByte_plain ?_) rfl).bind
    (h.lowHigh 64 (k := 0x1a) (by omega) fun j hj => ⟨movedByte_low ?_, movedByte_high ?_⟩))
  · unfold cmc; rw [if_pos (by omega)]; exact pair_low 0 j rfl
  · unfold cmc; rw [if_pos (by omega)]; exact pair_high 0 j rfl
  · unfold cmc; rw [if_neg (by omega), if_neg (by omega), if_neg (by omega)]
  · unfold cmc; rw [if_neg (by omega), if_pos (by omega)]; first | exact congrArg Role.low (by omega) | exact congrArg Role.high (by omega)
  · unfold cmc; rw [if_neg (by omega), if_neg (by omega), if_pos (by omega)]; first | exact congrArg Role.low (by omega) | exact congrArg Role.high (by omega)

theorem tables_dlt (hl : 6 ≤ m.length) : Fills (fun i => movedByte (dlt i) diff m i) 0 6 (Native.writeTables fuel src so diff startAddr moduleLen .dlt) := by
  refine (h.words 3 (k := 0) (by omega) fun j hj => ⟨movedByte_low ?_, movedByte_high ?_⟩)
  · unfold dlt; rw [if_pos (by omega)]; exact pair_low 0 j rfl
  · unfold dlt; rw [if_pos (by omega)]; exact pair_high 0 j rfl

theorem tables_mpt (hl : 0x1ce ≤ m.length) : Fills (fun i => movedByte (mpt i) diff m i) 0 0x1ce (Native.writeTables fuel src so diff startAddr moduleLen .mpt) := by
  refine (h.words (3 + 32 + 64) (k := 0) (by omega) fun j hj => ⟨movedByte_low ?_, movedByte_high ?_⟩).bind ((h.copy (k := 0xc6) (e := 0x1c6) (by omega) (by omega) (fun i h1 h2 => movedByte_plain ?_) rfl).bind
    (h.lowHigh 4 (k := 0x1c6) (by omega) fun j hj => ⟨movedByte_low ?_, movedByte_high ?_⟩))
  · unfold mpt; rw [if_pos (by omega)]; exact pair_low 0 j rfl
  · unfold mpt; rw [if_pos (by omega)]; exact pair_high 0 j rfl
  · unfold mpt; rw [if_neg (by omega), if_neg (by omega), if_neg (by omega)]
  · unfold mpt; rw [if_neg (by omega), if_pos (by omega)]; first | exact congrArg Role.low (by omega) | exact congrArg Role.high (by omega)
  · unfold mpt; rw [if_neg (by omega), if_neg (by omega), if_pos (by omega)]; first | exact congrArg Role.low (by omega) | exact congrArg Role.high (by omega)

theorem tables_tmc (hl : 0x1a6 ≤ m.length) : Fills (fun i => movedByte (tmc i) diff m i) 0 0x1a6 (Native.writeTables fuel src so diff startAddr moduleLen .tmc) := by
  refine (h.words 3 (k := 0) (by omega) fun j hj => ⟨movedByte_low ?_, movedByte_high ?_⟩).bind ((h.copy (k := 6) (e := 0x26) (by omega) (by omega) (fun i h1 h2 => movedByte_plain ?_) rfl).bind
    ((h.lowHigh 64 (k := 0x26) (by omega) fun j hj => ⟨movedByte_low ?_, movedByte_high ?_⟩).bind (h.lowHigh 128 (k := 0xa6) (by omega) fun j hj => ⟨movedByte_low ?_, movedByte_high ?_⟩)))
  · unfold tmc; rw [if_pos (by omega)]; exact pair_low 0 j rfl
  · unfold tmc; rw [if_pos (by omega)]; exact pair_high 0 j rfl
  · unfold tmc; rw [if_neg (by omega), if_neg (by omega), if_neg (by omega), if_neg (by omega), if_neg (by omega)]
  · unfold tmc; rw [if_neg (by omega), if_pos (by omega)]; first | exact congrArg Role.low (by omega) | exact congrArg Role.high (by omega)
  · unfold tmc; rw [if_neg (by omega), if_neg (by omega), if_pos (by omega)]; first | exact congrArg Role.low (by omega) | exact congrArg Role.high (by omega)
  · unfold tmc; rw [if_neg (by omega), if_neg (by omega), if_neg (by omega), if_pos (by omega)]; first | exact congrArg Role.low (by omega) | exact congrArg Role.high (by omega)
  · unfold tmc; rw [if_neg (by omega), if_neg (by omega), if_neg (by omega), if_neg (by omega), if_pos (by omega)]; first | exact congrArg Role.low (by omega) | exact congrArg Role.high (by omega)

theorem tables_tm2 (hl : 0x386 ≤ m.length) : Fills (fun i => movedByte (tm2 i) diff m i) 0 0x386 (Native.writeTables fuel src so diff startAddr moduleLen .tm2) := by
  refine (h.words 3 (k := 0) (by omega) fun j hj => ⟨movedByte_low ?_, movedByte_high ?_⟩).bind ((h.copy (k := 6) (e := 0x86) (by omega) (by omega) (fun i h1 h2 => movedByte_plain ?_) rfl).bind
    ((h.lows (low := 0x86) (high := 0x306) (by omega) (by omega) 128 0 (by omega) (by omega) fun j _ hj => movedByte_low ?_).bind
      ((h.lowHigh 256 (k := 0x106) (by omega) fun j hj => ⟨movedByte_low ?_, movedByte_high ?_⟩).bind
        (h.highs (low := 0x86) (high := 0x306) (by omega) (by omega) 128 0 (by omega) (by omega) fun j _ hj => movedByte_high ?_))))
  · unfold tm2; rw [if_pos (by omega)]; exact pair_low 0 j rfl
  · unfold tm2; rw [if_pos (by omega)]; exact pair_high 0 j rfl
  · unfold tm2; rw [if_neg (by omega), if_neg (by omega), if_neg (by omega), if_neg (by omega), if_neg (by omega)]
  · unfold tm2; rw [if_neg (by omega), if_pos (by omega)]; first | exact congrArg Role.low (by omega) | exact congrArg Role.high (by omega)
  · unfold tm2; rw [if_neg (by omega), if_neg (by omega), if_pos (by omega)]; first | exact congrArg Role.low (by omega) | exact congrArg Role.high (by omega)
  · unfold tm2; rw [if_neg (by omega), if_neg (by omega), if_neg (by omega), if_pos (by omega)]; first | exact congrArg Role.low (by omega) | exact congrArg Role.high (by omega)
  · unfold tm2; rw [if_neg (by omega), if_neg (by omega), if_neg (by omega), if_neg (by omega), if_pos (by omega)]; first | exact congrArg Role.low (by omega) | exact congrArg Role.high (by omega)

/-! ## RMT -/

omit h in
theorem rmt_column {l : RmtLayout} {k i : Nat} (hs : l.song ≤ k) (hk : (k - l.song) % l.channels = 0) (h1 : k ≤ i) (h2 : i < k + l.channels) : (i - l.song) % l.channels = i - k := by
  obtain ⟨c, hc⟩ := Nat.dvd_of_mod_eq_zero hk
  rw [show i - l.song = i - k + l.channels * c by omega, Nat.add_mul_mod_self_left, Nat.mod_eq_of_lt (by omega)]

omit h in
theorem rmt_line {l : RmtLayout} (hr : IsRmt m l) {k i : Nat} (hs : l.song ≤ k) (hk : (k - l.song) % l.channels = 0) (h1 : k ≤ i) (h2 : i < k + l.channels) (h3 : i < l.stop) :
    rmt m l i = if byteAt m k = 0xfe ∧ k + 3 < l.stop then if i = k + 2 then .low (i + 1) else if i = k + 3 then .high (i - 1) else .plain else .plain := by
  have e := rmt_column hs hk h1 h2
  have a1 := hr.after
  have a2 := hr.disjoint
  unfold rmt
  rw [if_neg (by omega), if_neg (by omega), if_neg (by omega), if_neg (by omega), if_neg (by omega), if_neg (by omega), if_neg (by omega), if_pos h3]
  simp only [e]
  rw [show i - (i - k) = k by omega]
  have c1 : (i - k = 2) = (i = k + 2) := by apply propext; omega
  have c2 : (i - k = 3) = (i = k + 3) := by apply propext; omega
  simp only [c1, c2]

/-- What `Write` puts into an RMT file. -/
def rmtByte (m : List Nat) (l : RmtLayout) (diff : Int) (i : Nat) : Nat := if i < 2 then 0xff else movedByte (rmt m l i) diff m i

omit h in
theorem rmtByte_eq {l : RmtLayout} {i : Nat} (hi : 2 ≤ i) : rmtByte m l diff i = movedByte (rmt m l i) diff m i := if_neg (by omega)

omit h in
theorem rmtByte_plain {l : RmtLayout} {i : Nat} (hi : 2 ≤ i) (e : rmt m l i = .plain) : rmtByte m l diff i = byteAt m i := by
  rw [rmtByte_eq hi]; exact movedByte_plain e

omit h in
theorem rmtByte_low {l : RmtLayout} {i j : Nat} (hi : 2 ≤ i) (e : rmt m l i = .low j) : Low (rmtByte m l diff) diff m i j := by
  unfold Low
  rw [rmtByte_eq hi]
  exact movedByte_low e

omit h in
theorem rmtByte_high {l : RmtLayout} {i j : Nat} (hi : 2 ≤ i) (e : rmt m l i = .high j) : High (rmtByte m l diff) diff m j i := by
  unfold High
  rw [rmtByte_eq hi]
  exact movedByte_high e

theorem rmt_jump {l : RmtLayout} (hr : IsRmt m l) {k : Nat} (hs : l.song ≤ k) (hk : (k - l.song) % l.channels = 0) (hlt : k + 3 < l.stop) :
    Fills (rmtByte m l diff) k (if byteAt m k = 0xfe then k + 4 else k) (Native.rmtJump src so diff k) := by
  have a1 := hr.after
  have a2 := hr.disjoint
  have a3 := hr.whole
  have a4 := hr.wide
  unfold Native.rmtJump
  refine Fills.lift (h.rd (i := k) (by omega) rfl) ?_
  unfold W.when
  by_cases hf : byteAt m k = 0xfe
  · have role := fun i h1 h2 => rmt_line (i := i) hr hs hk h1 h2
    simp only [hf, true_and, hlt, if_true] at role
    rw [if_pos hf, if_pos hf]
    refine Fills.bind (h.copy (e := k + 2) (by omega) (by omega) (fun i h1 h2 => rmtByte_plain (by omega) ?_) (by omega)) (h.words 1 (k := k + 2) (by omega) fun j hj => ?_)
    · rw [role i h1 (by omega) (by omega), if_neg (by omega), if_neg (by omega)]
    · obtain rfl : j = 0 := by omega
      refine ⟨rmtByte_low (by omega) ?_, rmtByte_high (by omega) ?_⟩
      · rw [role _ (by omega) (by omega) (by omega), if_pos (by omega)]
      · rw [role _ (by omega) (by omega) (by omega), if_neg (by omega), if_pos (by omega)]; congr 1
  · rw [if_neg hf, if_neg hf]
    exact Fills.nothing _ _

theorem rmt_song {l : RmtLayout} (hr : IsRmt m l) : ∀ (fuel k : Nat), l.song ≤ k → k ≤ l.stop → ((k - l.song) % l.channels = 0 ∨ k = l.stop) → l.stop < k + fuel →
    ∃ k', (∀ i, k' ≤ i → i < l.stop → rmt m l i = .plain) ∧ k' ≤ l.stop ∧ l.song ≤ k' ∧ Fills (rmtByte m l diff) k k' (Native.rmtSong src so diff l.stop fuel k)
  | 0, k, _, _, _, hf => by omega
  | fuel + 1, k, hs, hle, hk, hf => by
    have a1 := hr.after
    have a2 := hr.disjoint
    have a3 := hr.whole
    have a4 := hr.wide
    by_cases hlt : k + 3 < l.stop
    · have hk : (k - l.song) % l.channels = 0 := by omega
      obtain ⟨next, hn⟩ : ∃ next, next = min (k + l.channels) l.stop := ⟨_, rfl⟩
      have hnk : (next - l.song) % l.channels = 0 ∨ next = l.stop := by
        by_cases hc : k + l.channels ≤ l.stop
        · left
          rw [show next - l.song = k - l.song + l.channels by omega, Nat.add_mod_right]
          exact hk
        · right; omega
      obtain ⟨k', h1, h2, h2', h3⟩ := rmt_song hr fuel next (by omega) (by omega) hnk (by omega)
      refine ⟨k', h1, h2, h2', ?_⟩
      unfold Native.rmtSong
      rw [if_pos (by omega)]
      refine Fills.lift (h.rd (i := 9) (by omega) (by omega)) ?_
      refine Fills.bind (rmt_jump h hr hs hk hlt) ?_
      have hnext : min ((k : Int) + (byteAt m 9 : Nat) - 48) l.stop = (next : Nat) := by
        have := hr.channels
        omega
      rw [hnext]
      refine Fills.bind (h.copy (e := next) ?_ (by omega) (fun i g1 g2 => rmtByte_plain ?_ ?_) rfl) h3
      · split <;> omega
      · split at g1 <;> omega
      · have hge : k ≤ i := by split at g1 <;> omega
        rw [rmt_line hr hs hk hge (by omega) (by omega)]
        by_cases hfe : byteAt m k = 0xfe
        · rw [if_pos hfe] at g1
          rw [if_pos ⟨hfe, hlt⟩, if_neg (by omega), if_neg (by omega)]
        · rw [if_neg (fun h => hfe h.1)]
    · refine ⟨k, fun i h1 h2 => ?_, hle, hs, ?_⟩
      · have hk : (k - l.song) % l.channels = 0 := by omega
        rw [rmt_line hr hs hk h1 (by omega) h2, if_neg (fun h => hlt h.2)]
      · unfold Native.rmtSong
        rw [if_neg (by omega)]
        exact Fills.nothing _ _

theorem tables_rmt {l : RmtLayout} (hr : IsRmt m l) (hf : l.stop < l.song + fuel) :
    Fills (rmtByte m l diff) 0 (if l.stop + 5 ≤ m.length then l.stop + 4 else l.stop) (Native.writeTables fuel src so diff (word m 2) m.length .rmt) := by
  have a1 := hr.after
  have a2 := hr.disjoint
  have a3 := hr.whole
  have a4 := hr.inside
  have a5 := hr.even
  obtain ⟨k', p1, p2, p2', p3⟩ := rmt_song (diff := diff) h hr fuel l.song (Nat.le_refl _) (Nat.le_of_lt hr.inside) (Or.inl (by simp)) hf
  show Fills _ _ _ (Native.writeRmt fuel src so diff (word m 2) m.length)
  unfold Native.writeRmt
  have w0 : Fills (rmtByte m l diff) 0 2 (writeWord 0xffff) := Fills.word (by unfold rmtByte; rfl) (by unfold rmtByte; rfl)
  refine w0.bind ((h.words 2 (k := 2) (by omega) fun j hj => ⟨rmtByte_low (by omega) ?_, rmtByte_high (by omega) ?_⟩).bind
    ((h.copy (k := 6) (e := 14) (by omega) (by omega) (fun i h1 h2 => rmtByte_plain (by omega) ?_) rfl).bind ?_))
  · unfold rmt; rw [if_neg (by omega), if_pos (by omega)]; exact pair_low 2 j rfl
  · unfold rmt; rw [if_neg (by omega), if_pos (by omega)]; exact pair_high 2 j rfl
  · unfold rmt; rw [if_neg (by omega), if_neg (by omega), if_pos (by omega)]
  refine Fills.lift (h.word (i := 0x10) (by omega) (by omega)) ?_
  have e1 : (((word m 0x10 : Nat) : Int) - (word m 2 : Nat) - 8) / 2 = ((l.patterns - 14) / 2 : Nat) := by
    have := hr.patterns
    omega
  rw [e1, Int.toNat_natCast]
  have hw := h.words (f := rmtByte m l diff) (diff := diff) ((l.patterns - 14) / 2) (k := 14) (by omega) fun j hj => ⟨rmtByte_low (by omega) (by
      unfold rmt; rw [if_neg (by omega), if_neg (by omega), if_neg (by omega), if_pos (by omega)]; exact pair_low 14 j rfl), rmtByte_high (by omega) (by
      unfold rmt; rw [if_neg (by omega), if_neg (by omega), if_neg (by omega), if_pos (by omega)]; exact pair_high 14 j rfl)⟩
  rw [show 14 + 2 * ((l.patterns - 14) / 2) = l.patterns by omega] at hw
  refine hw.bind (Fills.lift (h.word (i := 0x12) (by omega) (by omega)) ?_)
  have e2 : ((word m 0x12 : Nat) : Int) - (word m 0x10 : Nat) = (l.count : Nat) := by
    have := hr.count
    omega
  rw [e2, Int.toNat_natCast]
  refine (h.lowHigh l.count (k := l.patterns) (by omega) fun j hj => ⟨rmtByte_low (by omega) ?_, rmtByte_high (by omega) ?_⟩).bind ?_
  · unfold rmt; rw [if_neg (by omega), if_neg (by omega), if_neg (by omega), if_neg (by omega), if_pos (by omega)]; exact congrArg Role.low (by omega)
  · unfold rmt; rw [if_neg (by omega), if_neg (by omega), if_neg (by omega), if_neg (by omega), if_neg (by omega), if_pos (by omega)]; exact congrArg Role.high (by omega)
  refine Fills.lift (h.word (i := 0x14) (by omega) (by omega)) ?_
  have e3 : 6 + ((word m 0x14 : Nat) : Int) - (word m 2 : Nat) = (l.song : Nat) := by
    have := hr.song
    omega
  rw [e3]
  refine (h.copy (e := l.song) (by omega) (by omega) (fun i h1 h2 => rmtByte_plain (by omega) ?_) rfl).bind ?_
  · unfold rmt; rw [if_neg (by omega), if_neg (by omega), if_neg (by omega), if_neg (by omega), if_neg (by omega), if_neg (by omega), if_pos (by omega)]
  refine Fills.lift (h.word (i := 4) (by omega) (by omega)) ?_
  have e4 : 7 + ((word m 4 : Nat) : Int) - (word m 2 : Nat) = (l.stop : Nat) := by
    have := hr.stop
    omega
  rw [e4]
  refine p3.bind ((h.copy (e := l.stop) p2 (by omega) (fun i h1 h2 => rmtByte_plain (by omega) (p1 i h1 h2)) rfl).bind ?_)
  unfold W.when
  by_cases hm : l.stop + 5 ≤ m.length
  · rw [if_pos hm, if_pos (by omega)]
    refine h.words 2 (k := l.stop) (by omega) fun j hj => ⟨rmtByte_low (by omega) ?_, rmtByte_high (by omega) ?_⟩
    · unfold rmt; rw [if_neg (by omega), if_neg (by omega), if_neg (by omega), if_neg (by omega), if_neg (by omega), if_neg (by omega), if_neg (by omega), if_neg (by omega), if_pos (by omega), if_pos (by omega)]
    · unfold rmt; rw [if_neg (by omega), if_neg (by omega), if_neg (by omega), if_neg (by omega), if_neg (by omega), if_neg (by omega), if_neg (by omega), if_neg (by omega), if_pos (by omega), if_neg (by omega)]; exact congrArg Role.high (by omega)
  · rw [if_neg hm, if_neg (by omega)]
    exact Fills.nothing _ _

end

end Asap
