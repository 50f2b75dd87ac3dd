import Mathlib.Tactic.SplitIfs
import Verif.Lemmas.FlashPack
import Verif.Lemmas.Hoare

/-! FlashPack: the items rebuild the memory. -/

namespace Asap.FlashPack
open Asap Asap.Spec.FlashPack

/-- The memory after the addresses from `start` up to `a` have been written. -/
def ramAt (mem : Mem) (r : Nat → Nat) (start a x : Nat) : Nat :=
  if start ≤ x ∧ x < a then (mem x).getD (r x) else r x

/-- Only registers and addresses in use have been touched. -/
def Only (mem : Mem) (c : Core) : Prop := ∀ x ∈ c.used, Register x ∨ (mem x).isSome

theorem Only.put {mem : Mem} {c : Core} (h : Only mem c) {a b v : Nat} (e : c.out = a) (hb : mem a = some b) : Only mem (c.put v) := by
  intro x hx
  rcases List.mem_cons.mp hx with rfl | hx
  · right
    show (mem c.out).isSome
    rw [e, hb]; rfl
  · exact h x hx

/-- The depacker has written everything below `a`. -/
structure At (mem : Mem) (r : Nat → Nat) (start a dist : Nat) (c : Core) : Prop where
  out : c.out = a % 65536
  ram : ∀ x, c.ram x = ramAt mem r start a x
  dist : c.dist = dist
  only : Only mem c

theorem put_at {mem : Mem} {r : Nat → Nat} {start a dist b : Nat} {c : Core} (h : At mem r start a dist c) (hs : start ≤ a) (ha : a < 65536) (hb : mem a = some b) :
    At mem r start (a + 1) dist (c.put b) := by
  refine ⟨?_, fun x => ?_, h.dist, h.only.put (by rw [h.out, Nat.mod_eq_of_lt ha]) hb⟩
  · show (c.out + 1) % 65536 = _
    rw [h.out]; omega
  · show (if x = c.out then b else c.ram x) = _
    rw [h.out, Nat.mod_eq_of_lt ha, h.ram]
    unfold ramAt
    by_cases e : x = a
    · rw [if_pos e, if_pos (by omega), e, hb]; rfl
    · rw [if_neg e]
      by_cases e' : start ≤ x ∧ x < a
      · rw [if_pos e', if_pos (by omega)]
      · rw [if_neg e', if_neg (by omega)]

/-- The bytes at `a` are those `d` before. -/
structure Matches (mem : Mem) (start a n d : Nat) : Prop where
  pos : 1 ≤ d
  le : d ≤ 127
  back : start + d ≤ a
  top : a + n ≤ 65536
  same : ∀ j < n, ∃ b, mem (a + j) = some b ∧ mem (a + j - d) = some b

theorem Matches.sub {mem : Mem} {start a n d : Nat} (h : Matches mem start a n d) (k l : Nat) (hk : k + l ≤ n) : Matches mem start (a + k) l d := by
  refine ⟨h.pos, h.le, by have := h.back; omega, by have := h.top; omega, fun j hj => ?_⟩
  obtain ⟨b, h1, h2⟩ := h.same (k + j) (by omega)
  exact ⟨b, by rw [Nat.add_assoc]; exact h1, by rw [Nat.add_assoc]; exact h2⟩

theorem copy_at {mem : Mem} {r : Nat → Nat} {start d : Nat} (n : Nat) : ∀ {a : Nat} {c : Core}, At mem r start a d c → Matches mem start a n d →
    At mem r start (a + n) d (c.copy n) := by
  induction n with
  | zero => intro a c h _; exact h
  | succ n ih =>
    intro a c h hm
    obtain ⟨b, h1, h2⟩ := hm.same 0 (by omega)
    have := hm.top
    have := hm.back
    have := hm.pos
    have := hm.le
    have hr : c.ram ((c.out + 65536 - c.dist) % 65536) = b := by
      rw [h.out, h.dist, h.ram, show (a % 65536 + 65536 - d) % 65536 = a - d by omega]
      unfold ramAt
      rw [if_pos (by omega)]
      rw [Nat.add_zero] at h2
      rw [h2]
      rfl
    rw [copy_succ, hr, show a + (n + 1) = a + 1 + n by omega]
    have ht : At mem r start a d c.take := by
      refine ⟨h.out, h.ram, h.dist, fun x hx => ?_⟩
      rcases List.mem_cons.mp hx with rfl | hx
      · right
        rw [h.out, h.dist, show (a % 65536 + 65536 - d) % 65536 = a - d by omega]
        rw [Nat.add_zero] at h2
        rw [h2]; rfl
      · exact h.only x hx
    exact ih (put_at ht (by omega) (by omega) h1) (hm.sub 1 n (by omega))

/-- Items that write `n` bytes from `a` on, and change the distance from `d` to `d'`. -/
def Writes (mem : Mem) (r : Nat → Nat) (start a n d d' : Nat) (l : List Item) : Prop :=
  (∀ i ∈ l, i.Valid) ∧ ∀ c, At mem r start a d c → At mem r start (a + n) d' (execAll l c)

section
variable {mem : Mem} {r : Nat → Nat} {start : Nat}

theorem Writes.append {a n n' d d' d'' : Nat} {l l' : List Item} (h : Writes mem r start a n d d' l) (h' : Writes mem r start (a + n) n' d' d'' l') :
    Writes mem r start a (n + n') d d'' (l ++ l') := by
  refine ⟨fun i hi => (List.mem_append.mp hi).elim (h.1 i) (h'.1 i), fun c hc => ?_⟩
  rw [execAll_append, ← Nat.add_assoc]
  exact h'.2 _ (h.2 c hc)

theorem writes_nil (a d : Nat) : Writes mem r start a 0 d d [] := ⟨(fun _ h => by cases h), fun _ h => h⟩

theorem writes_one {a n d d' : Nat} {i : Item} (hv : i.Valid) (h : ∀ c, At mem r start a d c → At mem r start (a + n) d' (i.exec c)) : Writes mem r start a n d d' [i] :=
  ⟨fun j hj => by rw [List.mem_singleton.mp hj]; exact hv, h⟩

theorem writes_literal {a d b : Nat} (hs : start ≤ a) (ha : a < 65536) (hb : mem a = some b) (hlt : b < 256) : Writes mem r start a 1 d d [⟨.literal, memValue mem a⟩] := by
  have e : memValue mem a = (b : Int) := by unfold memValue; rw [hb]; rfl
  rw [e]
  exact writes_one ⟨by show (0 : Int) ≤ b; omega, by show (b : Int) < 256; omega⟩ fun c hc => put_at hc hs ha hb

theorem set_dist {a d d' : Nat} {c : Core} (h : At mem r start a d c) : At mem r start a d' { c with dist := d' } := ⟨h.out, h.ram, rfl, h.only⟩

theorem writes_two {a d d' : Nat} (h : Matches mem start a 2 d') : Writes mem r start a 2 d d' [⟨.copyTwoBytes, d'⟩] :=
  writes_one ⟨by show (1 : Int) ≤ d'; have := h.pos; omega, by show (d' : Int) < 128; have := h.le; omega⟩ fun _ hc => copy_at 2 (set_dist hc) h

theorem writes_three {a d d' : Nat} (h : Matches mem start a 3 d') : Writes mem r start a 3 d d' [⟨.copyThreeBytes, d'⟩] :=
  writes_one ⟨by show (1 : Int) ≤ d'; have := h.pos; omega, by show (d' : Int) < 128; have := h.le; omega⟩ fun _ hc => copy_at 3 (set_dist hc) h

theorem writes_many {a n d : Nat} (h : Matches mem start a n d) (h1 : 1 ≤ n) (h2 : n < 256) : Writes mem r start a n d d [⟨.copyManyBytes, n⟩] :=
  writes_one ⟨by show (1 : Int) ≤ n; omega, by show (n : Int) < 256; omega⟩ fun _ hc => copy_at n hc h

theorem matches_mem {a n d : Nat} (h : Matches mem start a n d) {j : Nat} (hj : j < n) : ∃ b, mem (a + j) = some b := (h.same j hj).elim fun b hb => ⟨b, hb.1⟩

variable (hbyte : ∀ x b, mem x = some b → b < 256)
include hbyte

theorem writes_lit {a n d d' : Nat} (h : Matches mem start a n d') (hn : 1 ≤ n) : Writes mem r start a 1 d d [⟨.literal, memValue mem a⟩] := by
  obtain ⟨b, hb⟩ := matches_mem h (j := 0) hn
  have := h.top
  have := h.back
  exact writes_literal (by omega) (by omega) hb (hbyte _ _ hb)

theorem manyItems_writes (fuel : Nat) : ∀ {a n d : Nat}, Matches mem start a n d → n ≤ fuel → (0 < n → 0 < fuel) →
    Writes mem r start a n d d (manyItems (memValue mem (a + n - 1)) d fuel n) := by
  induction fuel with
  | zero =>
    intro a n d _ hn _
    obtain rfl : n = 0 := by omega
    exact writes_nil a d
  | succ fuel ih =>
    intro a n d h hn _
    unfold manyItems
    by_cases h255 : n > 255
    · rw [if_pos h255]
      have h1 := writes_many (r := r) (h.sub 0 255 (by omega)) (by decide) (by decide)
      have h2 := ih (a := a + 255) (n := n - 255) (h.sub 255 (n - 255) (by omega)) (by omega) (by omega)
      have := Writes.append h1 h2
      rw [show a + 255 + (n - 255) - 1 = a + n - 1 by omega, show 255 + (n - 255) = n by omega] at this
      exact this
    · rw [if_neg h255]
      by_cases h0 : n = 0
      · rw [if_pos h0, h0]; exact writes_nil a d
      · rw [if_neg h0]
        by_cases h1 : n = 1
        · rw [if_pos h1, h1]; exact writes_lit hbyte h (by omega)
        · rw [if_neg h1]
          by_cases h2 : n = 2
          · rw [if_pos h2, h2]; exact writes_two (h.sub 0 2 (by omega))
          · rw [if_neg h2]
            by_cases h3 : n = 3
            · rw [if_pos h3, h3]; exact writes_three (h.sub 0 3 (by omega))
            · rw [if_neg h3]; exact writes_many h (by omega) (by omega)

theorem matchItems_writes {a n d δ : Nat} {last : Int} (hl : (d : Int) = last → δ = d) (h : Matches mem start a n d) (hn : 2 ≤ n) (pref : Bool) :
    Writes mem r start a n δ d (matchItems mem a n d last pref) := by
  have lits : ∀ {k δ : Nat}, k < n → Writes mem r start (a + k) 1 δ δ [⟨.literal, memValue mem (a + k)⟩] := fun {k δ} hk => writes_lit hbyte (h.sub k 1 (by omega)) (by decide)
  have two : ∀ {k δ : Nat}, k + 2 ≤ n → Writes mem r start (a + k) 2 δ d [⟨.copyTwoBytes, d⟩] := fun {k δ} hk => writes_two (h.sub k 2 hk)
  have three : ∀ {k δ : Nat}, k + 3 ≤ n → Writes mem r start (a + k) 3 δ d [⟨.copyThreeBytes, d⟩] := fun {k δ} hk => writes_three (h.sub k 3 hk)
  have many : ∀ {k l : Nat}, k + l ≤ n → 1 ≤ l → l < 256 → Writes mem r start (a + k) l d d [⟨.copyManyBytes, l⟩] := fun {k l} hk h1 h2 => writes_many (h.sub k l hk) h1 h2
  have rest : ∀ {k : Nat}, k < n → Writes mem r start (a + k) (n - k) d d (manyItems (memValue mem (a + n - 1)) d n (n - k)) := by
    intro k hk
    have := manyItems_writes (r := r) hbyte n (h.sub k (n - k) (by omega)) (by omega) (by omega)
    rw [show a + k + (n - k) - 1 = a + n - 1 by omega] at this
    exact this
  have none : ∀ {δ : Nat}, Writes mem r start (a + n) 0 δ δ (manyItems (memValue mem (a + n - 1)) d n 0) := by
    intro δ
    obtain ⟨k, rfl⟩ : ∃ k, n = k + 1 := ⟨n - 1, by omega⟩
    exact writes_nil _ _
  unfold matchItems
  by_cases h2 : n = 2
  · rw [if_pos h2, h2]; exact two (k := 0) (by omega)
  rw [if_neg h2]
  by_cases h3 : n = 3
  · rw [if_pos h3, h3]; exact three (k := 0) (by omega)
  rw [if_neg h3]
  by_cases h4 : n = 4
  · rw [if_pos h4]
    by_cases e : (d : Int) = last
    · rw [if_pos e, hl e, h4]; exact many (k := 0) (by omega) (by decide) (by decide)
    · rw [if_neg e, h4]
      cases pref with
      | true => exact Writes.append (lits (k := 0) (by omega)) (three (k := 1) (by omega))
      | false => exact Writes.append (three (k := 0) (by omega)) (lits (k := 3) (by omega))
  rw [if_neg h4]
  by_cases h5 : n = 5
  · rw [if_pos h5]
    by_cases e : (d : Int) = last
    · rw [if_pos e, hl e, h5]; exact many (k := 0) (by omega) (by decide) (by decide)
    · rw [if_neg e, h5]; exact Writes.append (three (k := 0) (by omega)) (two (k := 3) (by omega))
  rw [if_neg h5]
  by_cases h6 : n = 6
  · rw [if_pos h6]
    by_cases e : (d : Int) = last
    · rw [if_pos e, hl e, h6]; exact many (k := 0) (by omega) (by decide) (by decide)
    · rw [if_neg e, h6]; exact Writes.append (three (k := 0) (by omega)) (three (k := 3) (by omega))
  rw [if_neg h6]
  by_cases e : (d : Int) = last
  · rw [if_neg (not_not_intro e), hl e]
    by_cases hp : pref = true ∧ n % 255 = 1
    · rw [if_pos hp]
      have := Writes.append (lits (k := 0) (δ := d) (by omega)) (rest (k := 1) (by omega))
      rw [show 1 + (n - 1) = n by omega] at this
      exact this
    · rw [if_neg hp]
      exact rest (k := 0) (by omega)
  · rw [if_pos e]
    by_cases hp : pref = true ∧ n % 255 = 4
    · rw [if_pos hp]
      have := Writes.append (Writes.append (lits (k := 0) (δ := δ) (by omega)) (three (k := 1) (by omega))) (rest (k := 4) (by omega))
      rw [show 1 + 3 + (n - 4) = n by omega, show n - 4 = n - 1 - 3 by omega] at this
      exact this
    · rw [if_neg hp]
      have := Writes.append (three (k := 0) (δ := δ) (by omega)) (rest (k := 3) (by omega))
      rw [show 3 + (n - 3) = n by omega] at this
      exact this

end

/-! ### Matching -/

theorem matchLen_spec (mem : Mem) (a back : Nat) (k : Nat) : ∀ n, n ≤ matchLen mem a back k n ∧ matchLen mem a back k n ≤ n + k ∧
    ∀ j, n ≤ j → j < matchLen mem a back k n → ∃ b, mem (a + j) = some b ∧ mem (back + j) = some b := by
  induction k with
  | zero => exact fun n => ⟨Nat.le_refl _, Nat.le_refl _, fun j h1 h2 => absurd h2 (by show ¬ j < n; omega)⟩
  | succ k ih =>
    intro n
    unfold matchLen
    rcases hm : mem (a + n) with _ | data
    · exact ⟨Nat.le_refl _, by show n ≤ n + (k + 1); omega, fun j h1 h2 => absurd h2 (by show ¬ j < n; omega)⟩
    · show n ≤ (if mem (back + n) = some data then _ else _) ∧ _
      by_cases h : mem (back + n) = some data
      · have := ih (n + 1)
        simp only [if_pos h]
        refine ⟨by omega, by omega, fun j h1 h2 => ?_⟩
        by_cases e : j = n
        · exact ⟨data, by rw [e]; exact hm, by rw [e]; exact h⟩
        · exact this.2.2 j (by omega) h2
      · simp only [if_neg h]
        exact ⟨Nat.le_refl _, by omega, fun j h1 h2 => by omega⟩

theorem bestLoop_spec (mem : Mem) (start stop a : Nat) (last : Int) (hstop : stop ≤ 0xffff) (ha : a ≤ stop) (k : Nat) : ∀ (d best : Nat) (dist : Int), 1 ≤ d → d + k ≤ 128 →
    (1 ≤ best → best ≤ stop + 1 - a ∧ ∃ e : Nat, dist = e ∧ Matches mem start a best e) →
    1 ≤ (bestLoop mem start stop a last k d best dist).1 →
      (bestLoop mem start stop a last k d best dist).1 ≤ stop + 1 - a ∧
      ∃ e : Nat, (bestLoop mem start stop a last k d best dist).2 = e ∧ Matches mem start a (bestLoop mem start stop a last k d best dist).1 e := by
  induction k with
  | zero => exact fun d best dist _ _ h hb => h hb
  | succ k ih =>
    intro d best dist h1 hk h hb
    unfold bestLoop at hb ⊢
    by_cases hs : start + d ≤ a
    · rw [if_pos hs] at hb ⊢
      have hm := matchLen_spec mem a (a - d) (stop + 1 - a) 0
      have hok : ∀ n, n = matchLen mem a (a - d) (stop + 1 - a) 0 → n ≤ stop + 1 - a ∧ Matches mem start a n d := by
        intro n hn
        subst hn
        refine ⟨by omega, h1, by omega, hs, by omega, fun j hj => ?_⟩
        have := hm.2.2 j (Nat.zero_le _) hj
        rw [show a + j - d = a - d + j by omega]
        exact this
      generalize hg : matchLen mem a (a - d) (stop + 1 - a) 0 = n at hb ⊢
      have hok := hok n hg.symm
      dsimp only at hb ⊢
      by_cases c1 : best < n
      · rw [if_pos c1] at hb ⊢
        exact ih (d + 1) n d (by omega) (by omega) (fun _ => ⟨hok.1, d, rfl, hok.2⟩) hb
      · rw [if_neg c1] at hb ⊢
        by_cases c2 : best = n ∧ (d : Int) = last
        · rw [if_pos c2] at hb ⊢
          exact ih (d + 1) best last (by omega) (by omega) (fun _ => ⟨by rw [c2.1]; exact hok.1, d, c2.2.symm, by rw [c2.1]; exact hok.2⟩) hb
        · rw [if_neg c2] at hb ⊢
          exact ih (d + 1) best dist (by omega) (by omega) h hb
    · rw [if_neg hs] at hb ⊢
      exact h hb

/-! ### Areas -/

/-- The packer has encoded items whose effect is `c`, starting at `c0`. -/
def Built (c0 : Core) (p : Packer) (P : Core → Prop) : Prop := ∃ h, Packed p h ∧ P (execAll h c0)

theorem Built.putAll {c0 : Core} {p : Packer} {P Q : Core → Prop} {l : List Item} (hp : Built c0 p P) (hv : ∀ i ∈ l, i.Valid) (h : ∀ c, P c → Q (execAll l c)) :
    Built c0 (p.putAll l) Q := by
  obtain ⟨hist, h1, h2⟩ := hp
  exact ⟨hist ++ l, h1.putAll hv, by rw [execAll_append]; exact h _ h2⟩

theorem Built.put {c0 : Core} {p : Packer} {P Q : Core → Prop} {i : Item} (hp : Built c0 p P) (hv : i.Valid) (h : ∀ c, P c → Q (i.exec c)) :
    Built c0 (p.putItem i) Q := Built.putAll (l := [i]) hp (fun j hj => by rw [List.mem_singleton.mp hj]; exact hv) h

theorem skipFree_spec (mem : Mem) (k : Nat) : ∀ a, match skipFree mem k a with
    | none => ∀ x, a ≤ x → x < a + k → mem x = none
    | some a' => a ≤ a' ∧ a' < a + k ∧ (mem a').isSome ∧ ∀ x, a ≤ x → x < a' → mem x = none := by
  induction k with
  | zero => intro a x h1 h2; omega
  | succ k ih =>
    intro a
    unfold skipFree
    by_cases h : (mem a).isSome
    · rw [if_pos h]
      exact ⟨Nat.le_refl _, by omega, h, fun x h1 h2 => by omega⟩
    · rw [if_neg h]
      have hn : mem a = none := by simpa using h
      have := ih (a + 1)
      generalize skipFree mem k (a + 1) = o at this
      cases o with
      | none =>
        intro x h1 h2
        by_cases e : x = a
        · rw [e]; exact hn
        · exact this x (by omega) (by omega)
      | some a' =>
        refine ⟨by have := this.1; omega, by have := this.2.1; omega, this.2.2.1, fun x h1 h2 => ?_⟩
        by_cases e : x = a
        · rw [e]; exact hn
        · exact this.2.2.2 x (by omega) h2

theorem ramAt_free {mem : Mem} {r : Nat → Nat} {start a a' : Nat} (h : a ≤ a') (hf : ∀ x, a ≤ x → x < a' → mem x = none) (x : Nat) : ramAt mem r start a x = ramAt mem r start a' x := by
  unfold ramAt
  by_cases e : start ≤ x ∧ x < a
  · rw [if_pos e, if_pos (by omega)]
  · rw [if_neg e]
    by_cases e' : start ≤ x ∧ x < a'
    · rw [if_pos e', hf x (by omega) (by omega)]; rfl
    · rw [if_neg e']

section
variable {mem : Mem} (hbyte : ∀ x b, mem x = some b → b < 256) {c0 : Core} {r : Nat → Nat} {start stop : Nat} (hstop : stop ≤ 0xffff)
include hbyte hstop

theorem packRun_spec (fuel : Nat) : ∀ (a : Nat) (last : Int) (p : Packer), start ≤ a → a ≤ stop + 1 → stop + 1 - a < fuel → (last = -1 ∨ 0 ≤ last) →
    Built c0 p (fun c => c.out = a % 65536 ∧ ((∀ x, c.ram x = ramAt mem r start a x) ∧ Only mem c) ∧ (last ≠ -1 → c.dist = last.toNat)) →
    Post (fun q => a ≤ q.2.1 ∧ q.2.1 ≤ stop + 1 ∧ (a ≤ stop → (mem a).isSome → a < q.2.1) ∧ (q.2.2 = -1 ∨ 0 ≤ q.2.2) ∧
      Built c0 q.1 (fun c => ((∀ x, c.ram x = ramAt mem r start q.2.1 x) ∧ Only mem c) ∧ (q.2.2 ≠ -1 → c.dist = q.2.2.toNat))) (packRun mem start stop fuel a last p) := by
  induction fuel with
  | zero => intro a last p _ _ h; omega
  | succ fuel ih =>
    intro a last p hsa hle hf hl hb
    unfold packRun
    refine Post.ite (fun hc => ?_) fun hc => ?_
    · obtain ⟨b, hmem⟩ := Option.isSome_iff_exists.mp hc.2
      have hbest := bestLoop_spec mem start stop a last hstop hc.1 127 1 0 (-1) (by decide) (by decide) (fun h => by omega)
      generalize bestLoop mem start stop a last 127 1 0 (-1) = best at hbest
      have mono : ∀ {n : Nat} {last' : Int} {p' : Packer}, 1 ≤ n → Post (fun q => a + n ≤ q.2.1 ∧ q.2.1 ≤ stop + 1 ∧ (a + n ≤ stop → (mem (a + n)).isSome → a + n < q.2.1) ∧ (q.2.2 = -1 ∨ 0 ≤ q.2.2) ∧
          Built c0 q.1 (fun c => ((∀ x, c.ram x = ramAt mem r start q.2.1 x) ∧ Only mem c) ∧ (q.2.2 ≠ -1 → c.dist = q.2.2.toNat))) (packRun mem start stop fuel (a + n) last' p') →
          Post (fun q => a ≤ q.2.1 ∧ q.2.1 ≤ stop + 1 ∧ (a ≤ stop → (mem a).isSome → a < q.2.1) ∧ (q.2.2 = -1 ∨ 0 ≤ q.2.2) ∧
          Built c0 q.1 (fun c => ((∀ x, c.ram x = ramAt mem r start q.2.1 x) ∧ Only mem c) ∧ (q.2.2 ≠ -1 → c.dist = q.2.2.toNat))) (packRun mem start stop fuel (a + n) last' p') :=
        fun hn h => h.mono fun q hq => ⟨by omega, hq.2.1, fun _ _ => by omega, hq.2.2.2⟩
      dsimp only
      refine Post.ite (fun h2 => ?_) fun h2 => ?_
      · refine mono (n := 1) (by decide) (ih (a + 1) last _ (by omega) (by omega) (by omega) hl ?_)
        refine Built.putAll (l := [⟨.literal, memValue mem a⟩]) hb (writes_literal (r := r) (d := 0) hsa (by omega) hmem (hbyte _ _ hmem)).1 fun c hc' => ?_
        have := (writes_literal (r := r) (d := c.dist) hsa (by omega) hmem (hbyte _ _ hmem)).2 c ⟨hc'.1, hc'.2.1.1, rfl, hc'.2.1.2⟩
        exact ⟨this.out, ⟨this.ram, this.only⟩, fun hne => by rw [this.dist]; exact hc'.2.2 hne⟩
      · obtain ⟨hle', e, he, hm⟩ := hbest (by omega)
        rw [he]
        refine mono (n := best.1) (by omega) (ih (a + best.1) e _ (by omega) (by omega) (by omega) (.inr (by omega)) ?_)
        refine Built.putAll hb (matchItems_writes (r := r) (δ := e) hbyte (fun _ => rfl) hm (by omega) _).1 fun c hc' => ?_
        have hd : (e : Int) = last → c.dist = e := fun h => by rw [hc'.2.2 (by omega)]; omega
        have := (matchItems_writes (r := r) hbyte hd hm (by omega : 2 ≤ best.1) p.literalPreferred).2 c ⟨hc'.1, hc'.2.1.1, rfl, hc'.2.1.2⟩
        exact ⟨this.out, ⟨this.ram, this.only⟩, fun _ => by rw [this.dist]; omega⟩
    · exact ⟨Nat.le_refl _, hle, fun h1 h2 => absurd ⟨h1, h2⟩ hc, hl, hb.elim fun h hh => ⟨h, hh.1, hh.2.2⟩⟩

theorem packArea_spec (fuel : Nat) : ∀ (a : Nat) (last : Int) (p : Packer), start ≤ a → a ≤ stop + 1 → stop + 1 - a < fuel → (last = -1 ∨ 0 ≤ last) →
    Built c0 p (fun c => ((∀ x, c.ram x = ramAt mem r start a x) ∧ Only mem c) ∧ (last ≠ -1 → c.dist = last.toNat)) →
    Post (fun q => Built c0 q (fun c => (∀ x, c.ram x = ramAt mem r start (stop + 1) x) ∧ Only mem c)) (packArea mem start stop fuel a last p) := by
  induction fuel with
  | zero => intro a last p _ _ h; omega
  | succ fuel ih =>
    intro a last p hsa hle hf hl hb
    unfold packArea
    refine Post.ite (fun hc => ?_) fun hc => ?_
    · have hskip := skipFree_spec mem (stop + 1 - a) a
      rcases hs : skipFree mem (stop + 1 - a) a with _ | a'
      · rw [hs] at hskip
        exact hb.elim fun h hh => ⟨h, hh.1, fun x => by rw [hh.2.1.1 x]; exact ramAt_free (by omega) (fun y h1 h2 => hskip y h1 (by omega)) x, hh.2.1.2⟩
      · rw [hs] at hskip
        obtain ⟨h1, h2, h3, h4⟩ := hskip
        refine Post.bind (packRun_spec (c0 := c0) (r := r) hbyte hstop 65537 a' last _ (by omega) (by omega) (by omega) hl ?_) fun q hq => ?_
        · refine Built.put hb ⟨by show (0 : Int) ≤ a'; omega, by show (a' : Int) < 65536; omega⟩ fun c hc' => ⟨rfl, ⟨fun x => ?_, hc'.1.2⟩, hc'.2⟩
          show c.ram x = _
          rw [hc'.1.1 x]
          exact ramAt_free h1 (fun y g1 g2 => h4 y g1 g2) x
        · obtain ⟨p', a'', last'⟩ := q
          obtain ⟨q1, q2, q3, q4, q5⟩ := hq
          dsimp only at q1 q2 q3 q4 q5 ⊢
          have := q3 (by omega) h3
          exact ih a'' last' p' (by omega) q2 (by omega) q4 q5
    · obtain rfl : a = stop + 1 := by omega
      exact hb.elim fun h hh => ⟨h, hh.1, hh.2.1⟩

theorem compressArea_spec {p : Packer} (h : Built c0 p (fun c => c.ram = r ∧ Only mem c)) (hs : start ≤ stop) :
    Post (fun q => Built c0 q (fun c => (∀ x, c.ram x = ramAt mem r start (stop + 1) x) ∧ Only mem c)) (compressArea mem start stop p) := by
  refine packArea_spec hbyte hstop 65537 start (-1) p (Nat.le_refl _) (by omega) (by omega) (.inl rfl) (h.elim fun l hl => ⟨l, hl.1, ⟨fun x => ?_, hl.2.2⟩, fun hne => absurd rfl hne⟩)
  rw [hl.2.1]
  unfold ramAt
  rw [if_neg (by omega)]

end

/-- The pokes of the depacker. -/
def poked (r : Nat → Nat) (x : Nat) : Nat :=
  if x = 0xd40e ∨ x = 0xd20e ∨ x = 0xd400 then 0 else if x = 0xd301 then 0xfe else if x = 0x244 then 0xff else r x

theorem Built.poke {c0 : Core} {p : Packer} {r : Nat → Nat} {mem : Mem} (h : Built c0 p (fun c => c.ram = r ∧ Only mem c)) {a v : Nat} (ha : a < 65536) (hv : v < 256) (hr : Register a) :
    Built c0 (p.putPoke a v) (fun c => (c.ram = fun x => if x = a then v else r x) ∧ Only mem c) := by
  refine Built.putAll h (fun i hi => ?_) fun c hc => ?_
  · rcases List.mem_cons.mp hi with rfl | hi
    · exact ⟨by show (0 : Int) ≤ a; omega, by show (a : Int) < 65536; omega⟩
    · rw [List.mem_singleton.mp hi]
      exact ⟨by show (0 : Int) ≤ v; omega, by show (v : Int) < 256; omega⟩
  · refine ⟨funext fun x => ?_, fun x hx => ?_⟩
    rotate_left
    · rcases List.mem_cons.mp hx with rfl | hx
      · left
        show Register ((a : Int).toNat % 65536)
        rw [Int.toNat_natCast, Nat.mod_eq_of_lt ha]; exact hr
      · exact hc.2 x hx
    show (if x = (a : Int).toNat % 65536 then (v : Int).toNat else c.ram x) = _
    rw [hc.1, Int.toNat_natCast, Int.toNat_natCast, Nat.mod_eq_of_lt ha]

theorem pokes_built (mem : Mem) (c0 : Core) (hu : c0.used = []) : Built c0 (pokes {}) (fun c => c.ram = poked c0.ram ∧ Only mem c) := by
  have h0 : Built c0 {} (fun c => c.ram = c0.ram ∧ Only mem c) := ⟨[], Packed.empty, rfl, fun x hx => by rw [show (execAll [] c0).used = [] from hu] at hx; cases hx⟩
  have h1 := h0.poke (a := 0xd40e) (v := 0) (by decide) (by decide) (by unfold Register; decide)
  have h2 := h1.poke (a := 0xd20e) (v := 0) (by decide) (by decide) (by unfold Register; decide)
  have h3 := h2.poke (a := 0xd400) (v := 0) (by decide) (by decide) (by unfold Register; decide)
  have h4 := h3.poke (a := 0xd301) (v := 0xfe) (by decide) (by decide) (by unfold Register; decide)
  have h5 := h4.poke (a := 0x244) (v := 0xff) (by decide) (by decide) (by unfold Register; decide)
  refine h5.elim fun l hl => ⟨l, hl.1, hl.2.1.trans ?_, hl.2.2⟩
  funext x
  unfold poked
  split_ifs <;> first | rfl | omega

/-- The memory a stream leaves behind. -/
def unpacked (mem : Mem) (r : Nat → Nat) (x : Nat) : Nat := if x < 65536 then (mem x).getD (poked r x) else poked r x

theorem stream_spec {mem : Mem} (hbyte : ∀ x b, mem x = some b → b < 256) {hole : Nat} (hh : hole ≤ 0xffff) (hm : mem hole = none) :
    PostE (fun e => e = .ub ∨ ∃ s, e = .thrown s) (fun s => s.length ≤ 65536 ∧ ∀ r, Depacks s r (unpacked mem r) fun a => Register a ∨ (mem a).isSome) (stream mem hole) := by
  have key : ∀ c0 : Core, c0.used = [] → Post (fun s : List Nat => ∃ d flags rest, Steps (c0.with [] [] s) d ∧ d.flags = true :: flags ∧ d.input = 1 :: 0 :: rest ∧ d.ram = unpacked mem c0.ram ∧ ∀ a ∈ d.used, Register a ∨ (mem a).isSome)
      (do let p ← compressArea mem hole 0xffff (pokes {})
          let p ← compressArea mem 0 hole p
          .ok (p.putItem ⟨.endOfStream, 0⟩).putItems.out) := by
    intro c0 hu
    refine Post.bind (compressArea_spec hbyte (Nat.le_refl _) (pokes_built mem c0 hu) hh) fun p hp => ?_
    refine Post.bind (compressArea_spec hbyte hh (r := ramAt mem (poked c0.ram) hole 65536) (hp.elim fun l hl => ⟨l, hl.1, funext hl.2.1, hl.2.2⟩) (Nat.zero_le _)) fun q hq => ?_
    obtain ⟨l, h1, h2, h3⟩ := hq
    obtain ⟨g, f, hs⟩ := h1.finish 0 c0
    refine ⟨_, f, [], hs, rfl, rfl, funext fun x => ?_, h3⟩
    show (execAll l c0).ram x = _
    rw [h2 x]
    unfold ramAt unpacked
    by_cases e1 : x < 65536
    · rw [if_pos e1]
      by_cases e2 : x = hole
      · rw [if_pos (by omega), if_pos (by omega), e2, hm]; rfl
      · by_cases e3 : x < hole
        · rw [if_pos (by omega), if_neg (by omega)]
        · rw [if_neg (by omega), if_pos (by omega)]
    · rw [if_neg e1, if_neg (by omega), if_neg (by omega)]
  unfold stream
  match h1 : compressArea mem hole 0xffff (pokes {}) with
  | .error e =>
    have := key ⟨fun _ => 0, 0, 0, []⟩ rfl
    rw [h1] at this
    match e, this with
    | .thrown s, _ => exact .inr ⟨s, rfl⟩
  | .ok p =>
    match h2 : compressArea mem 0 hole p with
    | .error e =>
      have := key ⟨fun _ => 0, 0, 0, []⟩ rfl
      rw [h1] at this
      simp only [bind, Except.bind] at this ⊢
      rw [h2] at this ⊢
      match e, this with
      | .thrown s, _ => exact .inr ⟨s, rfl⟩
    | .ok q =>
      simp only [bind, Except.bind]
      rw [h2]
      show PostE _ _ (if _ then _ else _)
      refine PostE.ite (fun _ => .inl rfl) fun hlen => ⟨by omega, fun r out dist => ?_⟩
      have := key ⟨r, out, dist, []⟩ rfl
      rw [h1] at this
      simp only [bind, Except.bind] at this
      rw [h2] at this
      exact this

end Asap.FlashPack
