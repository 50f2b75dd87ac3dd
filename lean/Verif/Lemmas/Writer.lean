import Verif.Model.Writer

/-! What writer computations emit. -/

namespace Asap

/-- Bytes `bs` stored at the current offset. -/
def Writer.put (w : Writer) (bs : List Nat) : Writer :=
  { w with output := w.output.take w.offset ++ bs ++ w.output.drop (w.offset + bs.length)
           offset := w.offset + bs.length }

/-- Windows that lie inside their array and are not exhausted. -/
structure Writer.Valid (w : Writer) : Prop where
  le : w.offset ≤ w.stop
  fits : w.stop ≤ w.output.length

/-- `m` writes `bs` when they fit, otherwise it throws after writing an initial part of them. -/
def Emits (m : W Unit) (bs : List Nat) : Prop :=
  ∀ w : Writer, w.Valid →
    (w.offset + bs.length ≤ w.stop → m w = (.ok (), w.put bs)) ∧
    (w.stop < w.offset + bs.length →
      ∃ k, w.offset + k ≤ w.stop ∧ m w = (.error (.thrown "Output full"), w.put (bs.take k)))

theorem Writer.put_nil (w : Writer) : w.put [] = w := by
  simp [Writer.put]

theorem Writer.put_put (w : Writer) (a b : List Nat) (h : w.offset + a.length ≤ w.output.length) :
    (w.put a).put b = w.put (a ++ b) := by
  have h1 : (w.output.take w.offset ++ a).length = w.offset + a.length := by
    simp; omega
  simp only [Writer.put, Writer.mk.injEq]
  refine ⟨?_, by simp; omega, trivial⟩
  rw [List.take_left' h1, List.drop_append, List.drop_of_length_le (by omega)]
  simp only [h1, List.nil_append, List.drop_drop, List.length_append, List.append_assoc]
  congr 4
  omega

theorem Writer.put_valid {w : Writer} (h : w.Valid) {a : List Nat} (ha : w.offset + a.length ≤ w.stop) :
    (w.put a).Valid := by
  refine ⟨ha, ?_⟩
  have := h.fits
  simp only [Writer.put]
  simp
  omega

theorem emits_pure : Emits (pure ()) [] := by
  intro w hw
  refine ⟨fun _ => ?_, fun h => ?_⟩
  · rw [Writer.put_nil]; rfl
  · have := hw.le; simp at h; omega

theorem Emits.bind {m n : W Unit} {a b : List Nat} (hm : Emits m a) (hn : Emits n b) :
    Emits (m >>= fun _ => n) (a ++ b) := by
  intro w hw
  have hfit := hw.fits
  have hle := hw.le
  have e : ∀ x, (m >>= fun _ => n) x = match m x with
      | (.ok _, x') => n x'
      | (.error f, x') => (.error f, x') := by
    intro x
    show W.bind m (fun _ => n) x = _
    unfold W.bind
    rcases m x with ⟨_ | _, _⟩ <;> rfl
  rw [List.length_append]
  constructor
  · intro h
    rw [e, (hm w hw).1 (by omega)]
    simp only []
    have hv := Writer.put_valid hw (a := a) (by omega)
    rw [(hn _ hv).1 (by show w.offset + a.length + b.length ≤ w.stop; omega), Writer.put_put _ _ _ (by omega)]
  · intro h
    by_cases ha : w.offset + a.length ≤ w.stop
    · have hv := Writer.put_valid hw (a := a) ha
      obtain ⟨k, hk, hr⟩ := (hn _ hv).2 (by show w.stop < w.offset + a.length + b.length; omega)
      have hk' : w.offset + a.length + k ≤ w.stop := hk
      refine ⟨a.length + k, by omega, ?_⟩
      rw [e, (hm w hw).1 ha]
      simp only []
      rw [hr, Writer.put_put _ _ _ (by omega)]
      rw [List.take_append, List.take_of_length_le (by omega : a.length ≤ a.length + k)]
      simp
    · obtain ⟨k, hk, hr⟩ := (hm w hw).2 (by omega)
      refine ⟨k, hk, ?_⟩
      rw [e, hr]
      simp only []
      rw [List.take_append_of_le_length (by omega)]

theorem Emits.seq {m n : W Unit} {a b c : List Nat} (hm : Emits m a) (hn : Emits n b) (e : a ++ b = c) :
    Emits (do m; n) c := by
  subst e
  exact hm.bind hn

theorem emits_byte (v : Int) : Emits (writeByte v) [toByte v] := by
  intro w hw
  have h1 := hw.fits
  have h2 := hw.le
  constructor
  · intro h
    have h : w.offset + 1 ≤ w.stop := h
    unfold writeByte
    rw [if_neg (by omega), if_pos (by omega)]
    simp only [Writer.put, List.length_singleton]
    rw [List.set_eq_take_append_cons_drop, if_pos (by omega)]
    simp
  · intro h
    have h : w.stop < w.offset + 1 := h
    refine ⟨0, by omega, ?_⟩
    unfold writeByte
    rw [if_pos (by omega), List.take_zero, Writer.put_nil]

theorem toByte_of_lt {v : Nat} (h : v < 256) : toByte (v : Int) = v := by
  unfold toByte; omega

theorem emits_byte_nat {v : Nat} (h : v < 256) : Emits (writeByte (v : Int)) [v] := by
  have := emits_byte (v : Int)
  rwa [toByte_of_lt h] at this

theorem emits_string {s : List Nat} (h : AllBytes s) : Emits (writeString s) s := by
  induction s with
  | nil => exact emits_pure
  | cons c s ih =>
    exact Emits.seq (emits_byte_nat (h c (by simp))) (ih fun b hb => h b (by simp [hb])) rfl

theorem emits_bytes {a : List Nat} {i j : Nat} (hij : i ≤ j) (hj : j ≤ a.length) :
    Emits (writeBytes a i j) ((a.drop i).take (j - i)) := by
  intro w hw
  have h1 := hw.fits
  have h2 := hw.le
  have hl : ((a.drop i).take (j - i)).length = j - i := by simp; omega
  rw [hl]
  constructor
  · intro h
    unfold writeBytes
    simp only []
    rw [if_neg (by omega), if_pos (by omega)]
    have e1 : (i : Int).toNat = i := by omega
    have e2 : ((j : Int) - i).toNat = j - i := by omega
    simp only [Writer.put, e1, e2, hl]
  · intro h
    refine ⟨0, by omega, ?_⟩
    unfold writeBytes
    simp only []
    rw [if_pos (by omega), List.take_zero, Writer.put_nil]

theorem emits_word {v : Nat} : Emits (writeWord (v : Int)) [v % 256, v / 256 % 256] := by
  have e1 : toByte ((v : Int) % 256) = v % 256 := by unfold toByte; omega
  have e2 : toByte ((v : Int) / 256) = v / 256 % 256 := by unfold toByte; omega
  refine Emits.seq (emits_byte _) (emits_byte _) ?_
  rw [e1, e2]; rfl

theorem emits_ite {c : Prop} [Decidable c] {m n : W Unit} {a b : List Nat} (h1 : c → Emits m a) (h2 : ¬ c → Emits n b) :
    Emits (if c then m else n) (if c then a else b) := by
  split
  · exact h1 ‹_›
  · exact h2 ‹_›

theorem emits_when {c : Prop} [Decidable c] {m : W Unit} {a : List Nat} (h1 : c → Emits m a) :
    Emits (W.when c m) (if c then a else []) :=
  emits_ite h1 fun _ => emits_pure

end Asap
