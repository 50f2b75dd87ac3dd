import Verif.Lemmas.ConvertObx
import Verif.Lemmas.ConvertTmc
import Verif.Lemmas.SapFile
import Verif.Props.Write
import Verif.Props.SapWrite
import Mathlib.Tactic.SplitIfs

/-! # The SAP files written for native modules -/

namespace Asap.Convert
open Asap Asap.Spec Asap.Spec.Convert Asap.Props
open Asap.Spec.Relocate (byteAt)

/-- `m` writes `bs` and returns `v` when they fit, otherwise it fails. -/
def Sends {α : Type} (m : W α) (v : α) (bs : List Nat) : Prop :=
  ∀ w : Writer, w.Valid → (w.offset + bs.length ≤ w.stop → m w = (.ok v, w.put bs)) ∧ (w.stop < w.offset + bs.length → ∃ e w', m w = (.error e, w'))

theorem Sends.of {m : W Unit} {bs : List Nat} (h : Emits m bs) : Sends m () bs := by
  intro w hw
  refine ⟨(h w hw).1, fun hf => ?_⟩
  obtain ⟨k, _, e⟩ := (h w hw).2 hf
  exact ⟨_, _, e⟩

theorem Sends.pure {α : Type} (v : α) : Sends (Pure.pure v : W α) v [] := by
  intro w hw
  refine ⟨fun _ => by rw [Writer.put_nil]; rfl, fun h => ?_⟩
  have := hw.le
  simp at h; omega

theorem Sends.lift {α : Type} {x : M α} {v : α} (h : x = .ok v) : Sends (W.lift x) v [] := by
  intro w hw
  refine ⟨fun _ => by rw [Writer.put_nil, h]; rfl, fun h => ?_⟩
  have := hw.le
  simp at h; omega

theorem Sends.bind {α β : Type} {m : W α} {n : α → W β} {u : α} {v : β} {a b c : List Nat} (hm : Sends m u a) (hn : Sends (n u) v b) (e : a ++ b = c) :
    Sends (m >>= n) v c := by
  subst e
  intro w hw
  have hfit := hw.fits
  have hle := hw.le
  have e1 : ∀ x y, m w = (.ok x, y) → (m >>= n) w = n x y := by
    intro x y h
    show W.bind m n w = _
    unfold W.bind
    rw [h]
  have e2 : ∀ x y, m w = (.error x, y) → (m >>= n) w = (.error x, y) := by
    intro x y h
    show W.bind m n w = _
    unfold W.bind
    rw [h]
  rw [List.length_append]
  constructor
  · intro h
    have hv := Writer.put_valid hw (a := a) (by omega)
    rw [e1 _ _ ((hm w hw).1 (by omega)), (hn _ hv).1 (by show w.offset + a.length + b.length ≤ w.stop; omega), Writer.put_put _ _ _ (by omega)]
  · intro h
    by_cases ha : w.offset + a.length ≤ w.stop
    · have hv := Writer.put_valid hw (a := a) ha
      rw [e1 _ _ ((hm w hw).1 ha)]
      exact (hn _ hv).2 (by show w.stop < w.offset + a.length + b.length; omega)
    · obtain ⟨x, y, h⟩ := (hm w hw).2 (by omega)
      exact ⟨x, y, e2 _ _ h⟩

theorem emits_wordI {v : Int} (h : 0 ≤ v ∧ v < 65536) : Emits (writeWord v) (word v.toNat) := by
  have := emits_word (v := v.toNat)
  rw [show ((v.toNat : Nat) : Int) = v by omega] at this
  unfold word
  rw [show v.toNat / 256 = v.toNat / 256 % 256 by omega]
  exact this

theorem emits_bytesI {a : List Nat} {i j : Int} {i' j' : Nat} (hi : i = i') (hj : j = j') (hij : i' ≤ j') (hl : j' ≤ a.length) :
    Emits (writeBytes a i j) ((a.drop i').take (j' - i')) := by
  subst hi hj
  exact emits_bytes hij hl

/-- All of an array from an index on. -/
theorem emits_rest {a : List Nat} {i j : Int} {i' : Nat} (hi : i = i') (hj : j = a.length) (hij : i' ≤ a.length) : Emits (writeBytes a i j) (a.drop i') := by
  have := emits_bytesI (a := a) hi hj hij (Nat.le_refl _)
  rwa [List.take_of_length_le (by simp)] at this

/-! ## Blocks -/

theorem split_at {l : List Nat} (n : Nat) : l = l.take n ++ l.drop n := (List.take_append_drop n l).symm

theorem routine_last {r : List Nat} {player last : Nat} (h : Routine r player last) (hp : 0 < last - player) : last = player + (r.drop 6).length - 1 := by
  rw [List.length_drop, h.length]; omega

theorem routine_rest {r : List Nat} {player last : Nat} (h : Routine r player last) (hp : 0 < last - player) :
    r.drop 2 = (Block.mk false player (r.drop 6)).encode := by
  have e : r.drop 2 = (r.take 6).drop 2 ++ r.drop 6 := by
    conv => lhs; rw [split_at (l := r) 6]
    rw [List.drop_append_of_le_length]
    rw [h.head]; simp [word]
  rw [e, h.head]
  unfold Block.encode Block.body
  rw [← routine_last h hp]
  simp

theorem getWord_routine {r : List Nat} {player last : Nat} (h : Routine r player last) (hl : last < 65536) (hp : player < 65536) :
    getWord r 2 = .ok player ∧ getWord r 4 = .ok last := by
  have e : r = r.take 6 ++ r.drop 6 := split_at 6
  rw [h.head] at e
  have g : ∀ i v, (0xff :: 0xff :: (word player ++ word last))[i]? = some v → rd r i = .ok v := by
    intro i v hv
    unfold rd
    rw [e, List.getElem?_append_left (List.getElem?_eq_some_iff.mp hv).1, hv]
  unfold getWord
  rw [g 2 (player % 256) rfl, g 3 (player / 256) rfl, g 4 (last % 256) rfl, g 5 (last / 256) rfl]
  simp only [bind, Except.bind]
  exact ⟨congrArg Except.ok (by omega), congrArg Except.ok (by omega)⟩

theorem byteAt_lt {m : List Nat} (hb : AllBytes m) (i : Nat) : byteAt m i < 256 := by
  unfold byteAt
  cases h : m[i]? with
  | none => decide
  | some v => exact hb v (List.mem_of_getElem? h)

theorem word_word {m : List Nat} (hb : AllBytes m) (i : Nat) : word (Relocate.word m i) = [byteAt m i, byteAt m (i + 1)] := by
  have h1 := byteAt_lt hb i
  have h2 := byteAt_lt hb (i + 1)
  unfold word Relocate.word
  rw [show (byteAt m i + 256 * byteAt m (i + 1)) % 256 = byteAt m i by omega, show (byteAt m i + 256 * byteAt m (i + 1)) / 256 = byteAt m (i + 1) by omega]

theorem byteAt_get {m : List Nat} {i : Nat} (h : i < m.length) : byteAt m i = m[i] := by
  unfold byteAt; rw [List.getElem?_eq_getElem h]; rfl

/-- The header of a module file. -/
theorem module_head {m : List Nat} (hb : AllBytes m) (hl : 6 ≤ m.length) : m = m.take 2 ++ (word (Relocate.word m 2) ++ word (Relocate.word m 4)) ++ m.drop 6 := by
  rw [word_word hb, word_word hb, byteAt_get (by omega), byteAt_get (by omega), byteAt_get (by omega), byteAt_get (by omega)]
  conv => lhs; rw [← List.take_append_drop 2 m, List.drop_eq_getElem_cons (by omega), List.drop_eq_getElem_cons (by omega), List.drop_eq_getElem_cons (by omega), List.drop_eq_getElem_cons (by omega)]
  simp

/-- A module is a block. -/
theorem module_block {m : List Nat} (hb : AllBytes m) (hl : 7 ≤ m.length) (hm : m.take 2 = [0xff, 0xff]) (hlast : m.length + Relocate.word m 2 = Relocate.word m 4 + 7) :
    (Block.mk true (Relocate.word m 2) (m.drop 6)).encode = m := by
  conv => rhs; rw [module_head hb (by omega), hm]
  unfold Block.encode Block.body
  rw [show Relocate.word m 2 + (m.drop 6).length - 1 = Relocate.word m 4 by rw [List.length_drop]; omega]
  simp

/-- The main part of a module with more after it. -/
theorem module_part {m : List Nat} {n : Nat} (hb : AllBytes m) (hl : 7 ≤ n) (hn : n ≤ m.length) (hm : m.take 2 = [0xff, 0xff])
    (hlast : n + Relocate.word m 2 = Relocate.word m 4 + 7) :
    (Block.mk true (Relocate.word m 2) ((m.take n).drop 6)).encode = m.take n := by
  have hw : ∀ i, i + 1 < n → Relocate.word (m.take n) i = Relocate.word m i := by
    intro i hi
    unfold Relocate.word byteAt
    rw [List.getElem?_take_of_lt (by omega), List.getElem?_take_of_lt (by omega)]
  have := module_block (m := m.take n) (fun b h => hb b (List.mem_of_mem_take h)) (by rw [List.length_take]; omega) (by rw [List.take_take, Nat.min_eq_left (by omega)]; exact hm)
    (by rw [hw 2 (by omega), hw 4 (by omega), List.length_take]; omega)
  rwa [hw 2 (by omega)] at this

/-- Code before a routine. -/
theorem code_block {r code : List Nat} {player last start : Nat} (h : Routine r player last) (hp : 0 < last - player) (hs : start + code.length = player) :
    (Block.mk false start (code ++ r.drop 6)).encode = word start ++ (word last ++ (code ++ r.drop 6)) := by
  unfold Block.encode Block.body
  rw [show start + (code ++ r.drop 6).length - 1 = last by have := routine_last h hp; rw [List.length_append]; omega]
  simp

end Asap.Convert
