import Verif.Model.FlashPack
import Verif.Spec.FlashPack

/-! FlashPack: the stream of items is decoded to the items. -/

namespace Asap.FlashPack
open Asap Asap.Spec.FlashPack

/-! ### Flags -/

/-- The kind of an item. -/
def flag (items : List Item) (k : Nat) : Bool :=
  match items[k]? with
  | none => false
  | some i => decide (i.type ≠ .literal)

/-- The value of flags. -/
def flagsVal (items : List Item) : Nat → Nat → Nat
  | 0, _ => 0
  | k + 1, index => (flag items index).toNat * 2 ^ k + flagsVal items k (index + 1)

theorem flag_none {items : List Item} {k : Nat} (h : items.length ≤ k) : flag items k = false := by
  unfold flag
  rw [List.getElem?_eq_none h]

theorem flagsVal_none {items : List Item} (k : Nat) : ∀ {index : Nat}, items.length ≤ index → flagsVal items k index = 0 := by
  induction k with
  | zero => exact fun _ => rfl
  | succ k ih =>
    intro index h
    unfold flagsVal
    rw [flag_none h, ih (by omega)]
    simp

theorem innerFlagsLoop_eq (items : List Item) (k : Nat) : ∀ (index flags : Nat),
    innerFlagsLoop items k index flags = flags * 2 ^ k + flagsVal items k index := by
  induction k with
  | zero => intro _ _; simp [innerFlagsLoop, flagsVal]
  | succ k ih =>
    intro index flags
    unfold innerFlagsLoop flagsVal
    rcases h : items[index]? with _ | i
    · have hl := List.getElem?_eq_none_iff.mp h
      rw [flag_none hl, flagsVal_none k (by omega : items.length ≤ index + 1), ih, flagsVal_none k hl, Nat.pow_succ]
      simp [Nat.mul_assoc, Nat.mul_comm 2]
    · have hf : flag items index = decide (i.type ≠ .literal) := by unfold flag; rw [h]
      show innerFlagsLoop items k (index + 1) _ = _
      rw [ih, hf, Nat.pow_succ]
      by_cases e : i.type = .literal
      · simp [e, Nat.mul_assoc, Nat.mul_comm 2]
      · simp [e, Nat.add_mul, Nat.mul_assoc, Nat.mul_comm 2, Nat.add_assoc]

theorem bits_val : ∀ a b c d e f g h : Bool, bits (a.toNat * 128 + (b.toNat * 64 + (c.toNat * 32 + (d.toNat * 16 + (e.toNat * 8 + (f.toNat * 4 + (g.toNat * 2 + h.toNat))))))) =
    [a, b, c, d, e, f, g, h] := by decide +kernel

theorem val_lt (a b c d e f g h : Bool) : a.toNat * 128 + (b.toNat * 64 + (c.toNat * 32 + (d.toNat * 16 + (e.toNat * 8 + (f.toNat * 4 + (g.toNat * 2 + h.toNat)))))) < 256 := by
  have := a.toNat_lt; have := b.toNat_lt; have := c.toNat_lt; have := d.toNat_lt; have := e.toNat_lt; have := f.toNat_lt; have := g.toNat_lt; have := h.toNat_lt
  omega

theorem innerFlags_val (items : List Item) (i : Nat) : innerFlags items i =
    (flag items i).toNat * 128 + ((flag items (i + 1)).toNat * 64 + ((flag items (i + 2)).toNat * 32 + ((flag items (i + 3)).toNat * 16 +
      ((flag items (i + 4)).toNat * 8 + ((flag items (i + 5)).toNat * 4 + ((flag items (i + 6)).toNat * 2 + (flag items (i + 7)).toNat)))))) := by
  unfold innerFlags
  rw [innerFlagsLoop_eq]
  simp only [flagsVal, Nat.add_assoc, Nat.reduceAdd, Nat.reducePow]
  have := val_lt (flag items i) (flag items (i + 1)) (flag items (i + 2)) (flag items (i + 3)) (flag items (i + 4)) (flag items (i + 5)) (flag items (i + 6)) (flag items (i + 7))
  omega

theorem innerFlags_lt (items : List Item) (i : Nat) : innerFlags items i < 256 := Nat.mod_lt _ (by decide)

theorem bits_inner (items : List Item) (i : Nat) : bits (innerFlags items i) =
    [flag items i, flag items (i + 1), flag items (i + 2), flag items (i + 3), flag items (i + 4), flag items (i + 5), flag items (i + 6), flag items (i + 7)] := by
  rw [innerFlags_val, bits_val]

theorem bits_inner_get {items : List Item} {i j : Nat} (hj : j < 8) :
    (bits (innerFlags items i)).drop j = flag items (i + j) :: (bits (innerFlags items i)).drop (j + 1) := by
  rw [bits_inner]
  match j, hj with
  | 0, _ => rfl
  | 1, _ => rfl
  | 2, _ => rfl
  | 3, _ => rfl
  | 4, _ => rfl
  | 5, _ => rfl
  | 6, _ => rfl
  | 7, _ => rfl

/-- Whether a group has flags. -/
def mixed (items : List Item) (g : Nat) : Bool := decide (innerFlags items (8 * g) ≠ 0)

theorem mixed_none {items : List Item} {g : Nat} (h : items.length ≤ 8 * g) : mixed items g = false := by
  unfold mixed
  rw [innerFlags_val, flag_none h, flag_none (by omega : items.length ≤ 8 * g + 1), flag_none (by omega : items.length ≤ 8 * g + 2), flag_none (by omega : items.length ≤ 8 * g + 3),
    flag_none (by omega : items.length ≤ 8 * g + 4), flag_none (by omega : items.length ≤ 8 * g + 5), flag_none (by omega : items.length ≤ 8 * g + 6), flag_none (by omega : items.length ≤ 8 * g + 7)]
  rfl

/-- The kinds of groups as a byte. -/
def groupsVal (items : List Item) : Nat → Nat → Nat
  | 0, _ => 0
  | k + 1, g => (if mixed items g then 0x80 / 2 ^ g else 0) ||| groupsVal items k (g + 1)

theorem groupsVal_none {items : List Item} (k : Nat) : ∀ {g : Nat}, items.length ≤ 8 * g → groupsVal items k g = 0 := by
  induction k with
  | zero => exact fun _ => rfl
  | succ k ih =>
    intro g h
    unfold groupsVal
    rw [mixed_none h, ih (by omega), if_neg (by decide), Nat.or_zero]

theorem outerFlagsLoop_eq (items : List Item) (k : Nat) : ∀ (g flags : Nat), outerFlagsLoop items k g flags = flags ||| groupsVal items k g := by
  induction k with
  | zero => intro _ flags; simp [outerFlagsLoop, groupsVal]
  | succ k ih =>
    intro g flags
    by_cases h : 8 * g < items.length
    · unfold outerFlagsLoop groupsVal
      rw [if_pos h, ih]
      by_cases e : innerFlags items (8 * g) ≠ 0
      · have : mixed items g = true := by unfold mixed; exact decide_eq_true e
        rw [if_pos e, this, if_pos rfl, Nat.or_assoc]
      · have : mixed items g = false := by unfold mixed; exact decide_eq_false e
        rw [if_neg e, this, if_neg (by decide), Nat.zero_or]
    · rw [groupsVal_none (k + 1) (by omega), Nat.or_zero]
      unfold outerFlagsLoop
      rw [if_neg h]

theorem bits_or : ∀ a b c d e f g h : Bool, bits (0 ||| ((if a then 0x80 / 2 ^ 0 else 0) ||| ((if b then 0x80 / 2 ^ 1 else 0) ||| ((if c then 0x80 / 2 ^ 2 else 0) |||
    ((if d then 0x80 / 2 ^ 3 else 0) ||| ((if e then 0x80 / 2 ^ 4 else 0) ||| ((if f then 0x80 / 2 ^ 5 else 0) ||| ((if g then 0x80 / 2 ^ 6 else 0) ||| ((if h then 0x80 / 2 ^ 7 else 0) ||| 0))))))))) =
    [a, b, c, d, e, f, g, h] := by decide +kernel

theorem or_lt : ∀ a b c d e f g h : Bool, (0 ||| ((if a then 0x80 / 2 ^ 0 else 0) ||| ((if b then 0x80 / 2 ^ 1 else 0) ||| ((if c then 0x80 / 2 ^ 2 else 0) |||
    ((if d then 0x80 / 2 ^ 3 else 0) ||| ((if e then 0x80 / 2 ^ 4 else 0) ||| ((if f then 0x80 / 2 ^ 5 else 0) ||| ((if g then 0x80 / 2 ^ 6 else 0) ||| ((if h then 0x80 / 2 ^ 7 else 0) ||| 0))))))))) < 256 := by decide +kernel

theorem outerFlags_lt (items : List Item) : outerFlagsLoop items 8 0 0 < 256 := by
  rw [outerFlagsLoop_eq]
  exact or_lt _ _ _ _ _ _ _ _

theorem bits_outer (items : List Item) : bits (outerFlagsLoop items 8 0 0) =
    [mixed items 0, mixed items 1, mixed items 2, mixed items 3, mixed items 4, mixed items 5, mixed items 6, mixed items 7] := by
  rw [outerFlagsLoop_eq]
  exact bits_or _ _ _ _ _ _ _ _

theorem bits_outer_get {items : List Item} {j : Nat} (hj : j < 8) :
    (bits (outerFlagsLoop items 8 0 0)).drop j = mixed items j :: (bits (outerFlagsLoop items 8 0 0)).drop (j + 1) := by
  rw [bits_outer]
  match j, hj with
  | 0, _ => rfl
  | 1, _ => rfl
  | 2, _ => rfl
  | 3, _ => rfl
  | 4, _ => rfl
  | 5, _ => rfl
  | 6, _ => rfl
  | 7, _ => rfl

/-! ### Items -/

/-- The memory, the output address and the distance of a depacker. -/
structure Core where
  ram : Nat → Nat
  out : Nat
  dist : Nat
  used : List Nat

/-- A depacker with flags and input. -/
def Core.with (c : Core) (groups flags : List Bool) (input : List Nat) : Depacker := ⟨c.ram, c.out, c.dist, groups, flags, input, c.used⟩

/-- The core of a depacker. -/
def core (d : Depacker) : Core := ⟨d.ram, d.out, d.dist, d.used⟩

/-- Copying. -/
def Core.copy (n : Nat) (c : Core) : Core := core (Depacker.copy n (c.with [] [] []))

/-- Writing. -/
def Core.put (b : Nat) (c : Core) : Core := core (Depacker.put (c.with [] [] []) b)

/-- Reading what is copied next. -/
def Core.take (c : Core) : Core := { c with used := (c.out + 65536 - c.dist) % 65536 :: c.used }

theorem copy_with (n : Nat) : ∀ (c : Core) (g f : List Bool) (i : List Nat), Depacker.copy n (c.with g f i) = (c.copy n).with g f i := by
  induction n with
  | zero => intros; rfl
  | succ n ih =>
    intro c g f i
    have := ih (c.take.put (c.ram ((c.out + 65536 - c.dist) % 65536))) g f i
    unfold Core.copy
    show Depacker.copy n ((c.take.put (c.ram ((c.out + 65536 - c.dist) % 65536))).with g f i) = (core (Depacker.copy n ((c.take.put (c.ram ((c.out + 65536 - c.dist) % 65536))).with [] [] []))).with g f i
    rw [this]
    rfl

theorem copy_succ (n : Nat) (c : Core) : c.copy (n + 1) = (c.take.put (c.ram ((c.out + 65536 - c.dist) % 65536))).copy n := rfl

/-- The effect of an item. -/
def Item.exec (i : Item) (c : Core) : Core :=
  match i.type with
  | .literal => c.put i.value.toNat
  | .copyTwoBytes => Core.copy 2 { c with dist := i.value.toNat }
  | .copyThreeBytes => Core.copy 3 { c with dist := i.value.toNat }
  | .copyManyBytes => c.copy i.value.toNat
  | .setAddress => { c with out := i.value.toNat % 65536 }
  | .endOfStream => c

/-- Items that can be encoded. -/
def Item.Valid (i : Item) : Prop :=
  match i.type with
  | .literal => 0 ≤ i.value ∧ i.value < 256
  | .copyTwoBytes => 1 ≤ i.value ∧ i.value < 128
  | .copyThreeBytes => 1 ≤ i.value ∧ i.value < 128
  | .copyManyBytes => 1 ≤ i.value ∧ i.value < 256
  | .setAddress => 0 ≤ i.value ∧ i.value < 65536
  | .endOfStream => False

theorem Steps.trans {a b c : Depacker} (h1 : Steps a b) (h2 : Steps b c) : Steps a c := by
  induction h1 with
  | done => exact h2
  | groups x y z _ ih => exact .groups x y z (ih h2)
  | plain x y _ ih => exact .plain x y (ih h2)
  | mixed x y z _ ih => exact .mixed x y z (ih h2)
  | literal x y _ ih => exact .literal x y (ih h2)
  | copy x y z _ ih => exact .copy x y z (ih h2)
  | again x y z _ ih => exact .again x y z (ih h2)
  | goto x y _ ih => exact .goto x y (ih h2)

/-- An item is decoded. -/
theorem exec_steps {i : Item} (h : i.Valid) (c : Core) (groups flags : List Bool) (rest : List Nat) :
    Steps (c.with groups (decide (i.type ≠ .literal) :: flags) (i.bytes ++ rest)) ((i.exec c).with groups flags rest) := by
  obtain ⟨type, v⟩ := i
  cases type with
  | literal =>
    have h : 0 ≤ v ∧ v < 256 := h
    have e : byte v = v.toNat := by unfold byte; omega
    refine .literal (flags := flags) (b := byte v) (input := rest) rfl rfl ?_
    rw [e]
    exact .done
  | copyTwoBytes =>
    have h : 1 ≤ v ∧ v < 128 := h
    have e : byte ((0x80 - v) * 2) = (128 - v.toNat) * 2 := by unfold byte; omega
    refine .copy (flags := flags) (b := byte ((0x80 - v) * 2)) (input := rest) rfl rfl (by omega) ?_
    rw [e, show 2 + (128 - v.toNat) * 2 % 2 = 2 by omega, show 128 - (128 - v.toNat) * 2 / 2 = v.toNat by omega]
    rw [show ({ c.with groups (decide ((⟨.copyTwoBytes, v⟩ : Item).type ≠ .literal) :: flags) ((⟨.copyTwoBytes, v⟩ : Item).bytes ++ rest) with flags := flags, input := rest, dist := v.toNat } : Depacker) =
      Core.with { c with dist := v.toNat } groups flags rest from rfl, copy_with]
    exact .done
  | copyThreeBytes =>
    have h : 1 ≤ v ∧ v < 128 := h
    have e : byte ((0x80 - v) * 2 + 1) = (128 - v.toNat) * 2 + 1 := by unfold byte; omega
    refine .copy (flags := flags) (b := byte ((0x80 - v) * 2 + 1)) (input := rest) rfl rfl (by omega) ?_
    rw [e, show 2 + ((128 - v.toNat) * 2 + 1) % 2 = 3 by omega, show 128 - ((128 - v.toNat) * 2 + 1) / 2 = v.toNat by omega]
    rw [show ({ c.with groups (decide ((⟨.copyThreeBytes, v⟩ : Item).type ≠ .literal) :: flags) ((⟨.copyThreeBytes, v⟩ : Item).bytes ++ rest) with flags := flags, input := rest, dist := v.toNat } : Depacker) =
      Core.with { c with dist := v.toNat } groups flags rest from rfl, copy_with]
    exact .done
  | copyManyBytes =>
    have h : 1 ≤ v ∧ v < 256 := h
    have e : byte v = v.toNat := by unfold byte; omega
    refine .again (flags := flags) (n := byte v) (input := rest) rfl rfl (by omega) ?_
    rw [e]
    rw [show ({ c.with groups (decide ((⟨.copyManyBytes, v⟩ : Item).type ≠ .literal) :: flags) ((⟨.copyManyBytes, v⟩ : Item).bytes ++ rest) with flags := flags, input := rest } : Depacker) =
      c.with groups flags rest from rfl, copy_with]
    exact .done
  | setAddress =>
    have h : 0 ≤ v ∧ v < 65536 := h
    have e : (byte (v - 0x80) + 256 * byte ((v - 0x80) / 256) + 128) % 65536 = v.toNat % 65536 := by unfold byte; omega
    refine .goto (flags := flags) (lo := byte (v - 0x80)) (hi := byte ((v - 0x80) / 256)) (input := rest) rfl rfl ?_
    rw [e]
    exact .done
  | endOfStream => exact absurd h id

/-! ### Groups -/

/-- The rest of the flags at an item. -/
def flagsAt (items : List Item) (k : Nat) : List Bool := if k % 8 = 0 then [] else (bits (innerFlags items (8 * (k / 8)))).drop (k % 8)

/-- The rest of the kinds of groups at an item. -/
def groupsAt (items : List Item) (k : Nat) : List Bool := (bits (outerFlagsLoop items 8 0 0)).drop ((k + 7) / 8)

/-- The flags before an item. -/
def header (items : List Item) (k : Nat) : List Nat := if k % 8 = 0 ∧ innerFlags items k ≠ 0 then [innerFlags items k] else []

theorem itemBytes_cons (items : List Item) (i : Item) (rest : List Item) (k : Nat) :
    itemBytes items (i :: rest) k = header items k ++ i.bytes ++ itemBytes items rest (k + 1) := rfl

/-- The flags are read before an item. -/
theorem header_steps {items : List Item} {k : Nat} (hk : k < 64) (c : Core) (rest : List Nat) :
    Steps (c.with (groupsAt items k) (flagsAt items k) (header items k ++ rest)) (c.with (groupsAt items (k + 1)) (flag items k :: flagsAt items (k + 1)) rest) := by
  have hlast : flag items k :: flagsAt items (k + 1) = (bits (innerFlags items (8 * (k / 8)))).drop (k % 8) := by
    rw [bits_inner_get (Nat.mod_lt _ (by decide)), show 8 * (k / 8) + k % 8 = k by omega]
    unfold flagsAt
    by_cases e : (k + 1) % 8 = 0
    · rw [if_pos e, show k % 8 + 1 = 8 by omega, bits_inner]
      rfl
    · rw [if_neg e, show (k + 1) / 8 = k / 8 by omega, show (k + 1) % 8 = k % 8 + 1 by omega]
  rw [hlast]
  by_cases e : k % 8 = 0
  · have hg : groupsAt items k = mixed items (k / 8) :: groupsAt items (k + 1) := by
      unfold groupsAt
      rw [show (k + 7) / 8 = k / 8 by omega, bits_outer_get (by omega), show (k + 1 + 7) / 8 = k / 8 + 1 by omega]
    have hf : flagsAt items k = [] := by unfold flagsAt; rw [if_pos e]
    have h8 : 8 * (k / 8) = k := by omega
    rw [hg, hf, h8, e, List.drop_zero]
    by_cases z : innerFlags items k = 0
    · have hm : mixed items (k / 8) = false := by unfold mixed; rw [h8]; exact decide_eq_false (by omega)
      have hh : header items k = [] := by unfold header; rw [if_neg (by omega)]
      rw [hm, hh, z]
      exact .plain (groups := groupsAt items (k + 1)) rfl rfl .done
    · have hm : mixed items (k / 8) = true := by unfold mixed; rw [h8]; exact decide_eq_true z
      have hh : header items k = [innerFlags items k] := by unfold header; rw [if_pos ⟨e, z⟩]
      rw [hm, hh]
      exact .mixed (groups := groupsAt items (k + 1)) (b := innerFlags items k) (input := rest) rfl rfl rfl .done
  · have hg : groupsAt items k = groupsAt items (k + 1) := by
      unfold groupsAt
      rw [show (k + 7) / 8 = (k + 1 + 7) / 8 by omega]
    have hf : flagsAt items k = (bits (innerFlags items (8 * (k / 8)))).drop (k % 8) := by unfold flagsAt; rw [if_neg e]
    have hh : header items k = [] := by unfold header; rw [if_neg (by omega)]
    rw [hg, hf, hh]
    exact .done

/-- The effect of items. -/
def execAll (l : List Item) (c : Core) : Core := l.foldl (fun c i => i.exec c) c

theorem execAll_append (a b : List Item) (c : Core) : execAll (a ++ b) c = execAll b (execAll a c) := by
  unfold execAll
  rw [List.foldl_append]

theorem flag_eq {items : List Item} {k : Nat} {i : Item} (h : items[k]? = some i) : flag items k = decide (i.type ≠ .literal) := by
  unfold flag
  rw [h]

/-- Valid items are decoded one after another. -/
theorem items_steps {items : List Item} (hl : items.length ≤ 64) (tail : List Nat) : ∀ (l : List Item) (k : Nat) (c : Core) (more : List Item), items.drop k = l ++ more →
    (∀ i ∈ l, i.Valid) →
    Steps (c.with (groupsAt items k) (flagsAt items k) (itemBytes items (l ++ more) k ++ tail))
      ((execAll l c).with (groupsAt items (k + l.length)) (flagsAt items (k + l.length)) (itemBytes items more (k + l.length) ++ tail)) := by
  intro l
  induction l with
  | nil => intro k c more _ _; exact .done
  | cons i l ih =>
    intro k c more hd hv
    have hk : k < items.length := by
      rcases Nat.lt_or_ge k items.length with h | h
      · exact h
      · rw [List.drop_eq_nil_of_le h] at hd
        cases hd
    have hi : items[k]? = some i := by
      rw [List.drop_eq_getElem_cons hk] at hd
      rw [List.getElem?_eq_getElem hk]
      exact congrArg some (List.cons.inj hd).1
    have hd' : items.drop (k + 1) = l ++ more := by
      rw [List.drop_eq_getElem_cons hk] at hd
      exact (List.cons.inj hd).2
    rw [List.cons_append, itemBytes_cons, List.append_assoc, List.append_assoc]
    refine Steps.trans (header_steps (by omega) c _) ?_
    rw [flag_eq hi]
    refine Steps.trans (exec_steps (hv i (by simp)) c _ _ _) ?_
    have := ih (k + 1) (i.exec c) more hd' fun j hj => hv j (by simp [hj])
    rw [show k + (i :: l).length = k + 1 + l.length by rw [List.length_cons]; omega]
    exact this

/-- The bytes of a flush. -/
def chunk (items : List Item) : List Nat := outerFlagsLoop items 8 0 0 :: itemBytes items items 0

theorem groups_steps (c : Core) (b : Nat) (input : List Nat) {d : Depacker} (h : Steps (c.with (bits b) [] input) d) : Steps (c.with [] [] (b :: input)) d :=
  .groups (b := b) (input := input) rfl rfl rfl h

theorem chunk_groups (items : List Item) (c : Core) (tail : List Nat) {d : Depacker}
    (h : Steps (c.with (groupsAt items 0) (flagsAt items 0) (itemBytes items items 0 ++ tail)) d) : Steps (c.with [] [] (chunk items ++ tail)) d :=
  groups_steps c _ _ h

theorem chunk_steps {items : List Item} (hl : items.length = 64) (hv : ∀ i ∈ items, i.Valid) (c : Core) (tail : List Nat) :
    Steps (c.with [] [] (chunk items ++ tail)) ((execAll items c).with [] [] tail) := by
  refine chunk_groups items c tail ?_
  have h := items_steps (by omega : items.length ≤ 64) tail items 0 c [] (by simp) hv
  rw [List.append_nil, Nat.zero_add, hl] at h
  have e1 : groupsAt items 64 = [] := by unfold groupsAt; rw [bits_outer]; rfl
  have e2 : flagsAt items 64 = [] := rfl
  rw [e1, e2] at h
  exact h

theorem last_steps {items all : List Item} {v : Int} (ha : all = items ++ [⟨.endOfStream, v⟩]) (hl : items.length < 64) (hv : ∀ i ∈ items, i.Valid) (c : Core) (tail : List Nat) :
    ∃ groups flags, Steps (c.with [] [] (chunk all ++ tail)) ((execAll items c).with groups (true :: flags) (1 :: 0 :: tail)) := by
  have hlen : all.length ≤ 64 := by rw [ha, List.length_append]; simp; omega
  have h := items_steps hlen tail items 0 c [⟨.endOfStream, v⟩] (by rw [ha, List.drop_zero]) hv
  rw [← ha] at h
  have hk : all[items.length]? = some (⟨.endOfStream, v⟩ : Item) := by rw [ha]; simp
  refine ⟨groupsAt all (items.length + 1), flagsAt all (items.length + 1), chunk_groups all c tail (Steps.trans h ?_)⟩
  rw [Nat.zero_add, itemBytes_cons, List.append_assoc, List.append_assoc]
  refine Steps.trans (header_steps hl _ _) ?_
  rw [flag_eq hk]
  exact .done

/-! ### The packer -/

/-- What has been packed: `h` are the items put so far. -/
structure Packed (p : Packer) (h : List Item) : Prop where
  le : p.items.length ≤ 64
  valid : ∀ i ∈ h, i.Valid
  split : ∃ done, h = done ++ p.items ∧ ∀ (c : Core) (tail : List Nat), Steps (c.with [] [] (p.out ++ tail)) ((execAll done c).with [] [] tail)

theorem Packed.empty : Packed {} [] := ⟨Nat.zero_le _, (fun _ h => by cases h), [], rfl, fun _ _ => .done⟩

theorem Packed.flush {p : Packer} {h : List Item} (hp : Packed p h) (hl : p.items.length = 64) (c : Core) (tail : List Nat) :
    Steps (c.with [] [] (p.putItems.out ++ tail)) ((execAll h c).with [] [] tail) := by
  obtain ⟨done, hs, hd⟩ := hp.split
  have := hd c (chunk p.items ++ tail)
  rw [hs, execAll_append]
  unfold Packer.putItems
  rw [show p.out ++ [outerFlagsLoop p.items 8 0 0] ++ itemBytes p.items p.items 0 ++ tail = p.out ++ (chunk p.items ++ tail) by
    unfold chunk; simp]
  exact Steps.trans this (chunk_steps hl (fun i hi => hp.valid i (by rw [hs]; exact List.mem_append_right _ hi)) _ _)

theorem Packed.put {p : Packer} {h : List Item} (hp : Packed p h) {i : Item} (hi : i.Valid) : Packed (p.putItem i) (h ++ [i]) := by
  have hv : ∀ j ∈ h ++ [i], j.Valid := by
    intro j hj
    rcases List.mem_append.mp hj with hj | hj
    · exact hp.valid j hj
    · rw [List.mem_singleton.mp hj]; exact hi
  unfold Packer.putItem
  by_cases hl : p.items.length ≥ 64
  · rw [if_pos hl]
    exact ⟨by show 1 ≤ 64; decide, hv, h, rfl, hp.flush (by have := hp.le; omega)⟩
  · rw [if_neg hl]
    obtain ⟨done, hs, hd⟩ := hp.split
    exact ⟨by show (p.items ++ [i]).length ≤ 64; simp; omega, hv, done, by show h ++ [i] = done ++ (p.items ++ [i]); rw [hs, List.append_assoc], hd⟩

theorem Packed.putAll {l : List Item} : ∀ {p : Packer} {h : List Item}, Packed p h → (∀ i ∈ l, i.Valid) → Packed (p.putAll l) (h ++ l) := by
  induction l with
  | nil => intro p h hp _; rw [List.append_nil]; exact hp
  | cons i l ih =>
    intro p h hp hv
    have := ih (hp.put (hv i (by simp))) fun j hj => hv j (by simp [hj])
    rw [List.append_assoc] at this
    exact this

theorem putItems_out (p : Packer) : p.putItems.out = p.out ++ chunk p.items := by
  unfold Packer.putItems chunk
  rw [List.append_assoc]
  rfl

/-- The whole stream. -/
theorem Packed.finish {p : Packer} {h : List Item} (hp : Packed p h) (v : Int) (c : Core) :
    ∃ groups flags, Steps (c.with [] [] (p.putItem ⟨.endOfStream, v⟩).putItems.out) ((execAll h c).with groups (true :: flags) [1, 0]) := by
  rw [putItems_out]
  unfold Packer.putItem
  by_cases hl : p.items.length ≥ 64
  · rw [if_pos hl]
    obtain ⟨g, f, hs⟩ := last_steps (items := []) (all := [⟨.endOfStream, v⟩]) (v := v) rfl (by decide) (fun _ h => by cases h) (execAll h c) []
    refine ⟨g, f, Steps.trans ?_ hs⟩
    rw [List.append_nil]
    exact hp.flush (by have := hp.le; omega) c _
  · rw [if_neg hl]
    obtain ⟨done, hs, hd⟩ := hp.split
    obtain ⟨g, f, hl'⟩ := last_steps (items := p.items) (v := v) rfl (by omega) (fun i hi => hp.valid i (by rw [hs]; exact List.mem_append_right _ hi)) (execAll done c) []
    refine ⟨g, f, ?_⟩
    rw [hs, execAll_append]
    refine Steps.trans ?_ hl'
    rw [List.append_nil]
    exact hd c _

end Asap.FlashPack
