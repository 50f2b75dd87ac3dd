import Verif.Spec.Scan
import Verif.Lemmas.Bits

/-! # Lemmas on the music analyzer -/

namespace Asap.Scan
open Asap Asap.Spec.Scan

/-! ### Rows -/

/-- The bytes that are compared. -/
def rowOf (a : (List (Nat × Nat) × Nat) × (List (Nat × Nat) × Nat)) : List Nat :=
  a.1.1.flatMap (fun x => [x.1, x.2]) ++ [a.1.2] ++ (a.2.1.flatMap (fun x => [x.1, x.2]) ++ [a.2.2])

theorem cleanByte_eq : ∀ b : Nat, b < 256 → cleanByte b = if 0xe0 ≤ b then b - 0x40 else b := by decide +kernel

theorem clean_channel (c : Channel) : ∃ a b, storeChannel c = [a, b] ∧ channel c = (a, cleanByte b) := by
  unfold storeChannel channel
  rw [band_f]
  by_cases h : c.audc % 16 = 0
  · rw [if_neg (fun hn => hn h), if_pos h]
    exact ⟨0, 0, rfl, rfl⟩
  · rw [if_pos h, if_neg h]
    refine ⟨toByte c.audf, toByte c.audc, rfl, ?_⟩
    rw [cleanByte_eq _ (by unfold toByte; omega)]
    rfl

theorem cleanRow_store (m : Machine) : cleanRow (storePokeys m) = rowOf (audible m) := by
  obtain ⟨a0, b0, h0, g0⟩ := clean_channel (m.pk.base.ch 0)
  obtain ⟨a1, b1, h1, g1⟩ := clean_channel (m.pk.base.ch 1)
  obtain ⟨a2, b2, h2, g2⟩ := clean_channel (m.pk.base.ch 2)
  obtain ⟨a3, b3, h3, g3⟩ := clean_channel (m.pk.base.ch 3)
  obtain ⟨c0, d0, i0, j0⟩ := clean_channel (m.pk.extra.ch 0)
  obtain ⟨c1, d1, i1, j1⟩ := clean_channel (m.pk.extra.ch 1)
  obtain ⟨c2, d2, i2, j2⟩ := clean_channel (m.pk.extra.ch 2)
  obtain ⟨c3, d3, i3, j3⟩ := clean_channel (m.pk.extra.ch 3)
  have hr : List.range 4 = [0, 1, 2, 3] := by decide
  have hs : storePokeys m = [a0, b0, a1, b1, a2, b2, a3, b3, toByte m.pk.base.audctl, c0, d0, c1, d1, c2, d2, c3, d3, toByte m.pk.extra.audctl] := by
    unfold storePokeys storePokey
    rw [hr]
    simp only [List.flatMap_cons, List.flatMap_nil, h0, h1, h2, h3, i0, i1, i2, i3]
    rfl
  rw [hs]
  unfold audible chip rowOf
  rw [g0, g1, g2, g3, j0, j1, j2, j3]
  rfl

theorem rowOf_inj {m m' : Machine} (h : rowOf (audible m) = rowOf (audible m')) : audible m = audible m' := by
  unfold audible chip rowOf at h
  unfold audible chip
  simp only [List.flatMap_cons, List.flatMap_nil, List.cons_append, List.nil_append, List.cons.injEq, and_true] at h
  simp only [Prod.mk.injEq, List.cons.injEq, and_true, Prod.ext_iff]
  obtain ⟨h1, h2, h3, h4, h5, h6, h7, h8, h9, h10, h11, h12, h13, h14, h15, h16, h17, h18⟩ := h
  exact ⟨⟨⟨⟨h1, h2⟩, ⟨h3, h4⟩, ⟨h5, h6⟩, h7, h8⟩, h9⟩, ⟨⟨h10, h11⟩, ⟨h12, h13⟩, ⟨h14, h15⟩, h16, h17⟩, h18⟩

theorem cleanByte_clean (b : Nat) : cleanByte (cleanByte b) = cleanByte b := by
  unfold cleanByte
  by_cases h : b &&& 0xe0 = 0xe0
  · rw [if_pos h, if_neg]
    intro h2
    have h3 := congrArg (fun x => Nat.testBit x 6) h2
    simp only [Nat.testBit_and] at h3
    rw [show Nat.testBit 0xbf 6 = false by decide, show Nat.testBit 0xe0 6 = true by decide, Bool.and_false, Bool.false_and] at h3
    cases h3
  · rw [if_neg h, if_neg h]

theorem cleanRow_eq (r : List Nat) (i : Nat) : (cleanRow r)[i]? = (r[i]?).map fun b => if i ∈ [1, 3, 5, 7, 10, 12, 14, 16] then cleanByte b else b := by
  unfold cleanRow
  simp only [List.foldl_cons, List.foldl_nil, List.getElem?_modify]
  rcases hr : r[i]? with _ | b
  · rfl
  · simp only [Option.map_eq_map, Option.map_some, List.mem_cons, List.not_mem_nil, or_false]
    by_cases h1 : i = 1
    · subst h1; rfl
    by_cases h2 : i = 3
    · subst h2; rfl
    by_cases h3 : i = 5
    · subst h3; rfl
    by_cases h4 : i = 7
    · subst h4; rfl
    by_cases h5 : i = 10
    · subst h5; rfl
    by_cases h6 : i = 12
    · subst h6; rfl
    by_cases h7 : i = 14
    · subst h7; rfl
    by_cases h8 : i = 16
    · subst h8; rfl
    simp only [Ne.symm h1, Ne.symm h2, Ne.symm h3, Ne.symm h4, Ne.symm h5, Ne.symm h6, Ne.symm h7, Ne.symm h8, h1, h2, h3, h4, h5, h6, h7, h8, if_false, or_self]

theorem cleanRow_clean (r : List Nat) : cleanRow (cleanRow r) = cleanRow r := by
  apply List.ext_getElem?
  intro i
  rw [cleanRow_eq, cleanRow_eq]
  cases r[i]? with
  | none => rfl
  | some b =>
    simp only [Option.map_some]
    by_cases h : i ∈ [1, 3, 5, 7, 10, 12, 14, 16]
    · simp only [if_pos h, cleanByte_clean]
    · simp only [if_neg h]

theorem silent_iff (m : Machine) : silentPokeys m = true ↔ Silent m := by
  unfold silentPokeys silentPokey Silent
  simp only [Bool.and_eq_true, List.all_eq_true, List.mem_range, decide_eq_true_eq, band_f]
  exact ⟨fun h i hi => ⟨h.1 i hi, h.2 i hi⟩, fun h => ⟨fun i hi => (h i hi).1, fun i hi => (h i hi).2⟩⟩

/-! ### Hashes -/

/-- The row after normalization. -/
def row (f : Nat → Machine) (k : Nat) : List Nat := rowOf (audible (f k))

/-- The sum of the hashes of the first frames. -/
def pre (f : Nat → Machine) : Nat → Int
  | 0 => 0
  | n + 1 => pre f n + (row f n).sum

/-- The hash of the frames from `k`. -/
def key (c : Params) (f : Nat → Machine) (k : Nat) : Nat := ((pre f (k + c.check) - pre f k) % 256).toNat

theorem pre_same {f : Nat → Machine} {a b : Nat} : ∀ {n : Nat}, Same f a b n → pre f (a + n) - pre f a = pre f (b + n) - pre f b
  | 0, _ => by simp
  | n + 1, h => by
    have ih := pre_same (n := n) fun k hk => h k (by omega)
    have := h n (by omega)
    show pre f (a + n) + (row f (a + n)).sum - _ = pre f (b + n) + (row f (b + n)).sum - _
    unfold row
    rw [this]
    omega

theorem key_same {c : Params} {f : Nat → Machine} {a b : Nat} (h : Same f a b c.check) : key c f a = key c f b := by
  unfold key
  rw [pre_same h]

/-- The frames before `n` with the given hash. -/
def entries (c : Params) (f : Nat → Machine) (n b : Nat) : List Nat := (List.range n).filter fun k => decide (key c f k = b)

theorem entries_succ (c : Params) (f : Nat → Machine) (n b : Nat) : entries c f (n + 1) b = entries c f n b ++ if key c f n = b then [n] else [] := by
  unfold entries
  rw [List.range_succ, List.filter_append]
  congr 1
  by_cases h : key c f n = b
  · rw [if_pos h, List.filter_cons_of_pos (by simpa using h)]; rfl
  · rw [if_neg h, List.filter_cons_of_neg (by simpa using h)]; rfl

theorem mem_entries {c : Params} {f : Nat → Machine} {n b k : Nat} : k ∈ entries c f n b ↔ k < n ∧ key c f k = b := by
  unfold entries
  rw [List.mem_filter, List.mem_range, decide_eq_true_eq]

/-- The list behind an entry. -/
def Linked (next : Nat → Int) : List Nat → Prop
  | [] => True
  | [x] => next x = -1
  | x :: y :: l => next x = y ∧ Linked next (y :: l)

/-- The first entry, or -1. -/
def headOf : List Nat → Int
  | [] => -1
  | x :: _ => x

theorem linked_cons {next : Nat → Int} {x : Nat} {l : List Nat} (h : Linked next (x :: l)) : next x = headOf l ∧ Linked next l := by
  cases l with
  | nil => exact ⟨h, trivial⟩
  | cons y l => exact h

theorem linked_congr {next next' : Nat → Int} : ∀ {l : List Nat}, Linked next l → (∀ x ∈ l, next' x = next x) → Linked next' l
  | [], _, _ => trivial
  | [x], h, hn => by
    show next' x = -1
    rw [hn x (by simp)]; exact h
  | x :: y :: l, h, hn => ⟨by rw [hn x (by simp)]; exact h.1, linked_congr h.2 fun z hz => hn z (List.mem_cons_of_mem _ hz)⟩

theorem linked_append {next : Nat → Int} {n : Nat} : ∀ {l : List Nat}, Linked next l → l.Nodup → n ∉ l → ∀ {next' : Nat → Int},
    (∀ x ∈ l, next' x = if l.getLast? = some x then (n : Int) else next x) → next' n = -1 → Linked next' (l ++ [n])
  | [], _, _, _, _, _, h => h
  | [x], _, _, _, next', hx, h => by
    refine ⟨?_, h⟩
    rw [hx x (by simp), if_pos (show [x].getLast? = some x from rfl)]
  | x :: y :: l, hl, hd, hn, next', hx, h => by
    have hd' := List.nodup_cons.mp hd
    have hlast : (x :: y :: l).getLast? = (y :: l).getLast? := List.getLast?_cons_cons
    refine ⟨?_, linked_append (l := y :: l) hl.2 hd'.2 (fun e => hn (List.mem_cons_of_mem _ e)) (fun z hz => ?_) h⟩
    · rw [hx x (by simp), hlast, if_neg]
      · exact hl.1
      · intro e
        exact hd'.1 (List.mem_of_getLast? e)
    · rw [hx z (List.mem_cons_of_mem _ hz), hlast]

/-- What is known before a frame. -/
structure Inv (c : Params) (f : Nat → Machine) (frame : Nat) (s : State) : Prop where
  rows : ∀ k < frame, s.rows k = row f k
  runLe : s.run ≤ frame
  run : ∀ k, frame - s.run ≤ k → k < frame → Silent (f k)
  runStart : s.run < frame → ¬ Silent (f (frame - s.run - 1))
  hash : s.hash % 256 = (pre f frame - pre f (frame - c.check)) % 256
  linked : ∀ b < 256, Linked s.next (entries c f (frame - c.check) b)
  first : ∀ b < 256, s.first b = headOf (entries c f (frame - c.check) b)
  last : ∀ b < 256, ∀ x, (entries c f (frame - c.check) b).getLast? = some x → s.last b = x

/-- The part of it that is needed for the search. -/
theorem search_eq {c : Params} {s : State} {second : Nat} (h2 : second + c.check ≤ c.scan) : ∀ {l : List Nat} {fuel : Nat}, Linked s.next l → l.length < fuel →
    (∀ x ∈ l, x < second) → search c s second fuel (headOf l) =
      .ok (l.findSome? fun x => if (List.range c.check).all (fun k => decide (s.rows (x + k) = s.rows (second + k))) = true then judge c x second else none)
  | [], fuel + 1, _, _, _ => by
    simp only [search]
    rw [if_pos (show headOf [] < 0 by decide)]
    rfl
  | x :: l, fuel + 1, hl, hf, hx => by
    have hxs := hx x (by simp)
    obtain ⟨l1, l2⟩ := linked_cons hl
    have ih := search_eq h2 (fuel := fuel) l2 (by simp at hf; omega) (fun y hy => hx y (List.mem_cons_of_mem _ hy))
    simp only [search]
    rw [show headOf (x :: l) = (x : Int) from rfl, if_neg (by omega), Int.toNat_natCast]
    unfold hasLoopAt
    rw [if_pos ⟨by omega, h2⟩, List.findSome?_cons]
    show (match (if ((List.range c.check).all (fun k => decide (s.rows (x + k) = s.rows (second + k)))) = true then judge c x second else none) with
      | some r => _
      | none => _) = _
    cases (if ((List.range c.check).all (fun k => decide (s.rows (x + k) = s.rows (second + k)))) = true then judge c x second else none) with
    | some r => rfl
    | none =>
      dsimp only
      rw [if_pos (by omega), l1, ih]

theorem entries_nodup (c : Params) (f : Nat → Machine) (n b : Nat) : (entries c f n b).Nodup := by
  unfold List.Nodup
  exact List.Pairwise.filter _ List.nodup_range

theorem entries_sorted (c : Params) (f : Nat → Machine) (n b : Nat) : (entries c f n b).Pairwise (· < ·) := List.Pairwise.filter _ List.pairwise_lt_range

theorem rows_same {c : Params} {f : Nat → Machine} {s : State} {a b : Nat} (hr : ∀ k < b + c.check, s.rows k = row f k) (hab : a < b) :
    (List.range c.check).all (fun k => decide (s.rows (a + k) = s.rows (b + k))) = true ↔ Same f a b c.check := by
  simp only [List.all_eq_true, List.mem_range, decide_eq_true_eq]
  constructor
  · intro h k hk
    have := h k hk
    rw [hr _ (by omega), hr _ (by omega)] at this
    exact rowOf_inj this
  · intro h k hk
    rw [hr _ (by omega), hr _ (by omega)]
    unfold row
    rw [h k hk]

/-- The search finds loops, and otherwise sound that does not change. -/
theorem found_spec {c : Params} {f : Nat → Machine} {s : State} {second : Nat} (hm : 2 ≤ c.minimum) (hr : ∀ k < second + c.check, s.rows k = row f k) (found : Found)
    (h : (entries c f second (key c f second)).findSome? (fun x =>
      if (List.range c.check).all (fun k => decide (s.rows (x + k) = s.rows (second + k))) = true then judge c x second else none) = found) :
    (∀ r, found = some r → (r.2 = true ∧ LoopAt c f (second + c.check) r.1 ∨ (¬ ∃ t, LoopAt c f (second + c.check) t) ∧ r.2 = false ∧ StillAt c f (second + c.check) r.1)) ∧
    (found = none → (¬ ∃ t, LoopAt c f (second + c.check) t) ∧ ¬ ∃ t, StillAt c f (second + c.check) t) := by
  have hsame : ∀ {x : Nat}, x < second → Same f x second c.check → x ∈ entries c f second (key c f second) := fun hx hs => mem_entries.mpr ⟨hx, key_same hs⟩
  have loopEntry : ∀ t, LoopAt c f (second + c.check) t → ∃ a ∈ entries c f second (key c f second), a + c.minimum ≤ second ∧ Same f a second c.check := by
    intro t ⟨ht, a, ha, hs⟩
    obtain rfl : t = second := by omega
    exact ⟨a, hsame (by omega) hs, ha, hs⟩
  constructor
  · intro r hr'
    rw [hr'] at h
    obtain ⟨l1, x, l2, hl, hx, hn⟩ := List.findSome?_eq_some_iff.mp h
    have hxm : x ∈ entries c f second (key c f second) := by rw [hl]; simp
    have hxs := (mem_entries.mp hxm).1
    by_cases hs : (List.range c.check).all (fun k => decide (s.rows (x + k) = s.rows (second + k))) = true
    · rw [if_pos hs] at hx
      have hs' := (rows_same hr hxs).mp hs
      unfold judge at hx
      by_cases h1 : second - x ≥ c.minimum
      · rw [if_pos h1] at hx
        injection hx with hx
        rw [← hx]
        exact .inl ⟨rfl, rfl, x, by omega, hs'⟩
      · rw [if_neg h1] at hx
        by_cases h2 : second - x = 1
        · rw [if_pos h2] at hx
          injection hx with hx
          rw [← hx]
          refine .inr ⟨?_, rfl, by dsimp only; omega, ?_⟩
          · rintro ⟨t, ht⟩
            obtain ⟨a, ha, ha1, ha2⟩ := loopEntry t ht
            have hax : a < x := by omega
            have hsorted := entries_sorted c f second (key c f second)
            rw [hl] at ha hsorted
            rcases List.mem_append.mp ha with ha | ha
            · have := hn a ha
              rw [if_pos ((rows_same hr (by omega)).mpr ha2)] at this
              unfold judge at this
              rw [if_pos (by omega)] at this
              cases this
            · rcases List.mem_cons.mp ha with rfl | ha
              · omega
              · have := (List.pairwise_cons.mp (List.pairwise_append.mp hsorted).2.1).1 a ha
                omega
          · have : x + 1 = second := by omega
            dsimp only
            rw [this]; exact hs'
        · rw [if_neg h2] at hx; cases hx
    · rw [if_neg hs] at hx; cases hx
  · intro hf
    rw [hf] at h
    have hn := List.findSome?_eq_none_iff.mp h
    have key1 : ∀ x, x < second → Same f x second c.check → judge c x second = none := by
      intro x hx hs
      have := hn x (hsame hx hs)
      rw [if_pos ((rows_same hr hx).mpr hs)] at this
      exact this
    constructor
    · rintro ⟨t, ht⟩
      obtain ⟨a, ha, ha1, ha2⟩ := loopEntry t ht
      have := key1 a (by omega) ha2
      unfold judge at this
      rw [if_pos (by omega)] at this
      cases this
    · rintro ⟨t, ht1, ht2⟩
      have hts : t + 1 = second := by omega
      rw [hts] at ht2
      have := key1 t (by omega) ht2
      unfold judge at this
      rw [if_neg (by omega), if_pos (by omega)] at this
      cases this

theorem getHash_row {c : Params} {f : Nat → Machine} {s : State} {i : Nat} (hi : i < c.scan) (h : cleanRow (s.rows i) = row f i) :
    getHash c i s = .ok ((row f i).sum, { s with rows := fun k => if k = i then row f i else s.rows k }) := by
  unfold getHash
  rw [if_pos hi, h]

theorem row_clean (f : Nat → Machine) (k : Nat) : cleanRow (row f k) = row f k := by
  unfold row
  rw [← cleanRow_store, cleanRow_clean]

/-- The last part of a frame: the hash is updated. -/
theorem enter_inv {c : Params} {f : Nat → Machine} {frame : Nat} {s : State} (hf : frame < c.scan) (hrow : s.rows frame = storePokeys (f frame))
    (hrows : ∀ k < frame, s.rows k = row f k) (hrun : s.run ≤ frame + 1 ∧ (∀ k, frame + 1 - s.run ≤ k → k < frame + 1 → Silent (f k)) ∧ (s.run < frame + 1 → ¬ Silent (f (frame + 1 - s.run - 1))))
    (hhash : s.hash % 256 = (pre f frame - pre f (frame + 1 - c.check)) % 256)
    (hlinked : ∀ b < 256, Linked s.next (entries c f (frame + 1 - c.check) b)) (hfirst : ∀ b < 256, s.first b = headOf (entries c f (frame + 1 - c.check) b))
    (hlast : ∀ b < 256, ∀ x, (entries c f (frame + 1 - c.check) b).getLast? = some x → s.last b = x) :
    ∃ s', enter c frame s = .ok s' ∧ Inv c f (frame + 1) s' := by
  have h := getHash_row (c := c) (f := f) (s := s) hf (by rw [hrow, cleanRow_store]; rfl)
  refine ⟨{ s with rows := fun k => if k = frame then row f frame else s.rows k, hash := s.hash + (row f frame).sum }, by unfold enter; rw [h]; rfl, ?_, hrun.1, hrun.2.1, hrun.2.2, ?_, hlinked, hfirst, hlast⟩
  · intro k hk
    dsimp only
    by_cases he : k = frame
    · rw [if_pos he, he]
    · rw [if_neg he]; exact hrows k (by omega)
  · show (s.hash + ((row f frame).sum : Nat)) % 256 = (pre f frame + ((row f frame).sum : Nat) - pre f (frame + 1 - c.check)) % 256
    omega

theorem bind_okS {α β : Type} {x : S α} {g : α → S β} {a : α} (h : x = .ok a) : (x >>= g) = g a := by rw [h]; rfl

theorem link_end {c : Params} {f : Nat → Machine} {frame : Nat} {s : State} {n h : Nat} (hn : n < c.scan) (hh : h < 256) (hk : key c f n = h)
    (hrow : s.rows frame = storePokeys (f frame))
    (hlinked : ∀ b < 256, Linked s.next (entries c f n b)) (hfirst : ∀ b < 256, s.first b = headOf (entries c f n b))
    (hlast : ∀ b < 256, ∀ x, (entries c f n b).getLast? = some x → s.last b = x) :
    ∃ s1 s2, link c h n s = .ok s1 ∧ endList c h n s1 = .ok s2 ∧ s2.rows = s.rows ∧ s2.run = s.run ∧ s2.hash = s.hash ∧
      (∀ b < 256, Linked s2.next (entries c f (n + 1) b)) ∧ (∀ b < 256, s2.first b = headOf (entries c f (n + 1) b)) ∧
      ∀ b < 256, ∀ x, (entries c f (n + 1) b).getLast? = some x → s2.last b = x := by
  have hother : ∀ b, b ≠ h → entries c f (n + 1) b = entries c f n b := by
    intro b hb
    rw [entries_succ, if_neg (by rw [hk]; exact fun e => hb e.symm), List.append_nil]
  have hthis : entries c f (n + 1) h = entries c f n h ++ [n] := by rw [entries_succ, if_pos hk]
  have hout : ∀ b, n ∉ entries c f n b := fun b e => absurd (mem_entries.mp e).1 (Nat.lt_irrefl _)
  rcases he : (entries c f n h).getLast? with _ | x
  · -- the list is empty
    have hnil : entries c f n h = [] := List.getLast?_eq_none_iff.mp he
    have h0 : s.first h = -1 := by rw [hfirst h hh, hnil]; rfl
    refine ⟨{ s with first := fun k => if k = h then n else s.first k }, { s with first := fun k => if k = h then n else s.first k, next := fun k => if k = n then -1 else s.next k, last := fun k => if k = h then n else s.last k },
      by unfold link; rw [if_neg (by rw [h0]; decide)], by unfold endList; rw [if_pos hn], rfl, rfl, rfl, ?_, ?_, ?_⟩
    · intro b hb
      dsimp only
      by_cases hbh : b = h
      · rw [hbh, hthis, hnil]
        show (if n = n then (-1 : Int) else _) = -1
        rw [if_pos rfl]
      · rw [hother b hbh]
        refine linked_congr (hlinked b hb) fun x hx => ?_
        rw [if_neg (fun e : x = n => hout b (e ▸ hx))]
    · intro b hb
      dsimp only
      by_cases hbh : b = h
      · rw [if_pos hbh, hbh, hthis, hnil]; rfl
      · rw [if_neg hbh, hother b hbh]; exact hfirst b hb
    · intro b hb x hx
      dsimp only
      by_cases hbh : b = h
      · rw [if_pos hbh]
        rw [hbh, hthis, List.getLast?_concat] at hx
        injection hx with hx
        rw [hx]
      · rw [if_neg hbh]
        rw [hother b hbh] at hx
        exact hlast b hb x hx
  · have hxm : x ∈ entries c f n h := List.mem_of_getLast? he
    have hxn := (mem_entries.mp hxm).1
    have hl := hlast h hh x he
    have h0 : s.first h ≥ 0 := by
      rw [hfirst h hh]
      cases hc : entries c f n h with
      | nil => rw [hc] at hxm; cases hxm
      | cons y l => exact Int.natCast_nonneg _
    refine ⟨{ s with next := fun k => if k = (s.last h).toNat then n else s.next k }, { s with next := fun k => if k = n then -1 else if k = (s.last h).toNat then n else s.next k, last := fun k => if k = h then n else s.last k },
      by unfold link; rw [if_pos h0, if_pos (by rw [hl]; omega)], by unfold endList; rw [if_pos hn], rfl, rfl, rfl, ?_, ?_, ?_⟩
    · intro b hb
      dsimp only
      rw [hl, Int.toNat_natCast]
      by_cases hbh : b = h
      · rw [hbh, hthis]
        refine linked_append (hlinked h hh) (entries_nodup ..) (hout h) (fun z hz => ?_) (by rw [if_pos rfl])
        rw [if_neg (fun e : z = n => hout h (e ▸ hz)), he]
        by_cases hzx : z = x
        · rw [if_pos hzx, if_pos (by rw [hzx])]
        · rw [if_neg hzx, if_neg (fun e => hzx (by injection e with e; exact e.symm))]
      · rw [hother b hbh]
        refine linked_congr (hlinked b hb) fun z hz => ?_
        rw [if_neg (fun e : z = n => hout b (e ▸ hz)), if_neg]
        intro e
        have h1 := (mem_entries.mp hz).2
        have h2 := (mem_entries.mp hxm).2
        rw [e, h2] at h1
        exact hbh h1.symm
    · intro b hb
      dsimp only
      rw [hfirst b hb]
      by_cases hbh : b = h
      · rw [hbh, hthis]
        cases hc : entries c f n h with
        | nil => rw [hc] at hxm; cases hxm
        | cons y l => rfl
      · rw [hother b hbh]
    · intro b hb y hy
      dsimp only
      by_cases hbh : b = h
      · rw [if_pos hbh]
        rw [hbh, hthis, List.getLast?_concat] at hy
        injection hy with hy
        rw [hy]
      · rw [if_neg hbh]
        rw [hother b hbh] at hy
        exact hlast b hb y hy

/-- After the registers were stored and silence was not found. -/
theorem afterStore_spec {c : Params} {f : Nat → Machine} {frame : Nat} {s : State} (hc : 1 ≤ c.check) (hm : 2 ≤ c.minimum) (hf : frame < c.scan) (hrow : s.rows frame = storePokeys (f frame))
    (hrows : ∀ k < frame, s.rows k = row f k) (hrun : s.run ≤ frame + 1 ∧ (∀ k, frame + 1 - s.run ≤ k → k < frame + 1 → Silent (f k)) ∧ (s.run < frame + 1 → ¬ Silent (f (frame + 1 - s.run - 1))))
    (hhash : s.hash % 256 = (pre f frame - pre f (frame - c.check)) % 256)
    (hlinked : ∀ b < 256, Linked s.next (entries c f (frame - c.check) b)) (hfirst : ∀ b < 256, s.first b = headOf (entries c f (frame - c.check) b))
    (hlast : ∀ b < 256, ∀ x, (entries c f (frame - c.check) b).getLast? = some x → s.last b = x) :
    ∃ found s', afterStore c frame s = .ok (found, s') ∧
      (∀ r, found = some r → (r.2 = true ∧ LoopAt c f frame r.1 ∨ (¬ ∃ t, LoopAt c f frame t) ∧ r.2 = false ∧ StillAt c f frame r.1)) ∧
      (found = none → (¬ ∃ t, LoopAt c f frame t) ∧ (¬ ∃ t, StillAt c f frame t) ∧ Inv c f (frame + 1) s') ∧
      (∀ k < frame, s'.rows k = row f k) ∧ cleanRow (s'.rows frame) = row f frame := by
  have hclean : cleanRow (s.rows frame) = row f frame := by rw [hrow, cleanRow_store]; rfl
  unfold afterStore
  by_cases hge : frame ≥ c.check
  · rw [if_pos hge]
    have hsc : (frame - c.check) + c.check = frame := by omega
    have hkey : key c f (frame - c.check) = bucket s := by
      unfold key bucket
      rw [hsc, hhash]
    have hb : bucket s < 256 := by unfold bucket; omega
    have hsearch := search_eq (c := c) (s := { s with hash := bucket s }) (second := frame - c.check) (by omega) (l := entries c f (frame - c.check) (bucket s)) (fuel := c.scan + 1)
      (hlinked _ hb) (by
        have := List.length_filter_le (fun k => decide (key c f k = bucket s)) (List.range (frame - c.check))
        rw [List.length_range] at this
        unfold entries
        omega) (fun x hx => (mem_entries.mp hx).1)
    have hbb : bucket { s with hash := bucket s } = bucket s := by
      show (((bucket s : Nat) : Int) % 256).toNat = bucket s
      omega
    have hfound := found_spec (c := c) (f := f) (s := { s with hash := bucket s }) (second := frame - c.check) hm (by rw [hsc]; exact hrows) _ (by rw [hkey])
    rw [hsc] at hfound
    rcases hfs : (entries c f (frame - c.check) (bucket s)).findSome? (fun x =>
      if (List.range c.check).all (fun k => decide (s.rows (x + k) = s.rows (frame - c.check + k))) = true then judge c x (frame - c.check) else none) with _ | r
    · rw [hfs] at hfound hsearch
      obtain ⟨s1, s2, g1, g2, g3, g4, g5, g6, g7, g8⟩ := link_end (c := c) (f := f) (frame := frame) (s := { s with hash := bucket s }) (n := frame - c.check) (h := bucket s) (by omega) hb hkey hrow hlinked hfirst hlast
      have hrs : cleanRow (s2.rows (frame - c.check)) = row f (frame - c.check) := by
        rw [g3]
        show cleanRow (s.rows _) = _
        rw [hrows _ (by omega), row_clean]
      have g9 := getHash_row (c := c) (f := f) (s := s2) (i := frame - c.check) (by omega) hrs
      have hcl : checkLoop c frame s = .ok (none, { s2 with rows := fun k => if k = frame - c.check then row f (frame - c.check) else s2.rows k, hash := s2.hash - (row f (frame - c.check)).sum }) := by
        unfold checkLoop
        dsimp only
        rw [hbb, hfirst _ hb, bind_okS hsearch]
        dsimp only
        rw [bind_okS g1, bind_okS g2]
        unfold leave
        rw [g9]
        rfl
      rw [bind_okS hcl]
      dsimp only
      obtain ⟨s', e1, e2⟩ := enter_inv (c := c) (f := f) (frame := frame)
        (s := { s2 with rows := fun k => if k = frame - c.check then row f (frame - c.check) else s2.rows k, hash := s2.hash - (row f (frame - c.check)).sum }) hf
        (by dsimp only; rw [if_neg (by omega), g3]; exact hrow)
        (by
          intro k hk
          dsimp only
          by_cases he : k = frame - c.check
          · rw [if_pos he, he]
          · rw [if_neg he, g3]; exact hrows k hk)
        (by dsimp only; rw [g4]; exact hrun)
        (by
          dsimp only
          rw [g5]
          have h1 : frame + 1 - c.check = (frame - c.check) + 1 := by omega
          rw [h1]
          show (((bucket s : Nat) : Int) - _) % 256 = (pre f frame - (pre f (frame - c.check) + ((row f (frame - c.check)).sum : Nat))) % 256
          have h2 : ((bucket s : Nat) : Int) % 256 = (pre f frame - pre f (frame - c.check)) % 256 := by
            rw [← hhash]; unfold bucket; omega
          omega)
        (by rw [show frame + 1 - c.check = (frame - c.check) + 1 by omega]; exact g6)
        (by rw [show frame + 1 - c.check = (frame - c.check) + 1 by omega]; exact g7)
        (by rw [show frame + 1 - c.check = (frame - c.check) + 1 by omega]; exact g8)
      refine ⟨none, s', by rw [bind_okS e1], nofun, fun _ => ⟨(hfound.2 rfl).1, (hfound.2 rfl).2, e2⟩, fun k hk => e2.rows k (by omega), ?_⟩
      rw [e2.rows frame (by omega), row_clean]
    · rw [hfs] at hfound hsearch
      have hcl : checkLoop c frame s = .ok (some r, { s with hash := bucket s }) := by
        unfold checkLoop
        dsimp only
        rw [hbb, hfirst _ hb, bind_okS hsearch]
      rw [bind_okS hcl]
      exact ⟨some r, _, rfl, hfound.1, nofun, hrows, hclean⟩
  · rw [if_neg hge]
    have h0 : frame - c.check = 0 := by omega
    have h1 : frame + 1 - c.check = 0 := by omega
    obtain ⟨s', e1, e2⟩ := enter_inv (c := c) (f := f) hf hrow hrows hrun (by rw [h1]; rw [h0] at hhash; exact hhash) (by rw [h1]; rw [h0] at hlinked; exact hlinked)
      (by rw [h1]; rw [h0] at hfirst; exact hfirst) (by rw [h1]; rw [h0] at hlast; exact hlast)
    refine ⟨none, s', by rw [bind_okS e1], nofun, fun _ => ⟨?_, ?_, e2⟩, fun k hk => e2.rows k (by omega), by rw [e2.rows frame (by omega), row_clean]⟩
    · rintro ⟨t, ht, _⟩; omega
    · rintro ⟨t, ht, _⟩; omega

/-- One frame. -/
theorem detect_spec {c : Params} {f : Nat → Machine} {frame : Nat} {s : State} (hc : 1 ≤ c.check) (hm : 2 ≤ c.minimum) (hs : 1 ≤ c.silence) (hf : frame < c.scan) (h : Inv c f frame s)
    (hold : ∀ j < frame, ∀ r, ¬ Ends c f j r) :
    ∃ found s', detect c frame (storePokeys (f frame)) (silentPokeys (f frame)) s = .ok (found, s') ∧
      (∀ r, found = some r → Ends c f frame r) ∧ (found = none → (∀ r, ¬ Ends c f frame r) ∧ Inv c f (frame + 1) s') ∧
      (∀ k < frame, s'.rows k = row f k) ∧ cleanRow (s'.rows frame) = row f frame := by
  have hclean : cleanRow (storePokeys (f frame)) = row f frame := by rw [cleanRow_store]; rfl
  unfold detect
  rw [if_pos hf]
  dsimp only
  have go : ∀ run, (run ≤ frame + 1 ∧ (∀ k, frame + 1 - run ≤ k → k < frame + 1 → Silent (f k)) ∧ (run < frame + 1 → ¬ Silent (f (frame + 1 - run - 1)))) →
      (¬ ∃ t, SilenceAt c f frame t) →
      ∃ found s', afterStore c frame { s with rows := fun k => if k = frame then storePokeys (f frame) else s.rows k, run := run } = .ok (found, s') ∧
        (∀ r, found = some r → Ends c f frame r) ∧ (found = none → (∀ r, ¬ Ends c f frame r) ∧ Inv c f (frame + 1) s') ∧
        (∀ k < frame, s'.rows k = row f k) ∧ cleanRow (s'.rows frame) = row f frame := by
    intro run hrun hno
    obtain ⟨found, s', e1, e2, e3, e4, e5⟩ := afterStore_spec (c := c) (f := f) (frame := frame) (s := { s with rows := fun k => if k = frame then storePokeys (f frame) else s.rows k, run := run })
      hc hm hf (if_pos rfl) (fun k hk => by dsimp only; rw [if_neg (by omega)]; exact h.rows k hk) hrun h.hash h.linked h.first h.last
    refine ⟨found, s', e1, fun r hr => .inr ⟨hno, e2 r hr⟩, fun hn => ⟨?_, (e3 hn).2.2⟩, e4, e5⟩
    intro r hr
    rcases hr with hr | hr
    · exact hno ⟨_, hr.2⟩
    · rcases hr.2 with h2 | h2
      · exact (e3 hn).1 ⟨_, h2.2⟩
      · exact (e3 hn).2.1 ⟨_, h2.2.2⟩
  by_cases hsil : silentPokeys (f frame) = true
  · have hsil' := (silent_iff _).mp hsil
    rw [if_pos hsil]
    have hrun : s.run + 1 ≤ frame + 1 ∧ (∀ k, frame + 1 - (s.run + 1) ≤ k → k < frame + 1 → Silent (f k)) ∧ (s.run + 1 < frame + 1 → ¬ Silent (f (frame + 1 - (s.run + 1) - 1))) := by
      refine ⟨by have := h.runLe; omega, fun k h1 h2 => ?_, fun h1 => ?_⟩
      · by_cases hk : k = frame
        · rw [hk]; exact hsil'
        · exact h.run k (by omega) (by omega)
      · rw [show frame + 1 - (s.run + 1) - 1 = frame - s.run - 1 by omega]
        exact h.runStart (by omega)
    by_cases hfound : s.run + 1 ≥ c.silence ∧ s.run + 1 < frame
    · rw [if_pos hfound]
      refine ⟨_, _, rfl, ?_, nofun, fun k hk => by dsimp only; rw [if_neg (by omega)]; exact h.rows k hk, by dsimp only; rw [if_pos rfl]; exact hclean⟩
      intro r hr
      injection hr with hr
      rw [← hr]
      -- the run is exactly as long as needed
      have hlen : s.run + 1 = c.silence := by
        rcases Nat.lt_or_ge c.silence (s.run + 1) with hlt | hle
        · exfalso
          have hj : (frame - s.run) + c.silence - 1 < frame := by omega
          refine hold _ hj (frame - s.run, false) (.inl ⟨rfl, by dsimp only; omega, by dsimp only; omega, fun k h1 h2 => ?_, ?_⟩)
          · exact h.run k h1 (by omega)
          · exact h.runStart (by omega)
        · omega
      refine .inl ⟨rfl, by dsimp only; omega, by dsimp only; omega, fun k h1 h2 => ?_, ?_⟩
      · exact hrun.2.1 k h1 (by omega)
      · exact hrun.2.2 (by omega)
    · rw [if_neg hfound]
      refine go (s.run + 1) hrun ?_
      rintro ⟨t, h1, h2, h3, h4⟩
      apply hfound
      -- the run contains the silence
      have : frame + 1 - (s.run + 1) ≤ t := by
        rcases Nat.lt_or_ge t (frame + 1 - (s.run + 1)) with hlt | hge
        · exfalso
          exact hrun.2.2 (by omega) (h3 _ (by omega) (by omega))
        · exact hge
      have ht : t ≤ frame + 1 - (s.run + 1) := by
        rcases Nat.lt_or_ge (frame + 1 - (s.run + 1)) t with hlt | hge
        · exact absurd (hrun.2.1 (t - 1) (by omega) (by omega)) h4
        · exact hge
      omega
  · rw [if_neg hsil]
    have hns : ¬ Silent (f frame) := fun e => hsil ((silent_iff _).mpr e)
    refine go 0 ⟨by omega, fun k h1 h2 => by omega, fun _ => hns⟩ ?_
    rintro ⟨t, h1, h2, h3, h4⟩
    exact hns (h3 frame (by omega) (Nat.le_refl _))

end Asap.Scan
