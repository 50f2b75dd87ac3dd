import Verif.Lemmas.FlashArea

/-! FlashPack: executables and the hole. -/

namespace Asap.FlashPack
open Asap Asap.Spec.FlashPack

theorem storeBlock_eq (data : List Nat) : ∀ (mem : Mem) (start a : Nat), storeBlock mem start data a = if start ≤ a ∧ a < start + data.length then data[a - start]? else mem a := by
  induction data with
  | nil => intro mem start a; show mem a = _; rw [if_neg (by simp)]
  | cons b rest ih =>
    intro mem start a
    show storeBlock _ (start + 1) rest a = _
    rw [ih]
    simp only [List.length_cons]
    by_cases e : a = start
    · rw [if_neg (by omega), if_pos e, if_pos (by omega), e, Nat.sub_self]; rfl
    · by_cases e' : start + 1 ≤ a ∧ a < start + 1 + rest.length
      · rw [if_pos e', if_pos (by omega), show a - start = a - (start + 1) + 1 by omega]; rfl
      · rw [if_neg e', if_neg e, if_neg (by omega)]

theorem getWord_post (l : List Nat) (hb : AllBytes l) (i : Nat) : PostE Ends (fun w => i + 2 ≤ l.length ∧ w < 65536 ∧ (l.drop i).take 2 = [w % 256, w / 256]) (getWord l i) := by
  unfold getWord rd
  rcases h0 : l[i]? with _ | lo
  · exact fun h => by cases h
  · rcases h1 : l[i + 1]? with _ | hi
    · exact fun h => by cases h
    · have hlo := hb lo (List.mem_of_getElem? h0)
      have hhi := hb hi (List.mem_of_getElem? h1)
      obtain ⟨g1, e1⟩ := List.getElem?_eq_some_iff.mp h1
      obtain ⟨g0, e0⟩ := List.getElem?_eq_some_iff.mp h0
      refine ⟨by omega, by omega, ?_⟩
      rw [show (lo + 256 * hi) % 256 = lo by omega, show (lo + 256 * hi) / 256 = hi by omega,
        List.drop_eq_getElem_cons g0, List.drop_eq_getElem_cons g1, e0, e1]
      rfl

/-- Consecutive pieces of a list. -/
theorem take_split (l : List Nat) (i n k : Nat) : (l.drop i).take (n + k) = (l.drop i).take n ++ (l.drop (i + n)).take k := by
  rw [List.take_add, List.drop_drop]

theorem take_piece (l : List Nat) (i n : Nat) : l.take (i + n) = l.take i ++ (l.drop i).take n := List.take_add

theorem block_of_words {l : List Nat} {i first last : Nat} (h1 : (l.drop i).take 2 = [first % 256, first / 256]) (h2 : (l.drop (i + 2)).take 2 = [last % 256, last / 256]) (n : Nat) :
    (l.drop i).take (4 + n) = [first % 256, first / 256, last % 256, last / 256] ++ (l.drop (i + 4)).take n := by
  rw [take_split l i 4 n, take_split l i 2 2, h1, h2]; rfl

theorem loadXexBlock_spec {xex : List Nat} (hb : AllBytes xex) (mem : Mem) (i : Nat) (him : Image (xex.take i) mem) :
    PostE Ends (fun q => i + 5 ≤ q.2 ∧ q.2 ≤ xex.length ∧ Image (xex.take q.2) q.1) (loadXexBlock xex mem i) := by
  unfold loadXexBlock
  refine PostE.bind (getWord_post xex hb i) fun w hw => ?_
  generalize hi : (if w = 0xffff then i + 2 else i) = i'
  dsimp only
  refine PostE.bind (getWord_post xex hb i') fun start h1 => PostE.bind (getWord_post xex hb (i' + 2)) fun stop h2 => ?_
  refine PostE.ite (fun _ h => by cases h) fun c1 => PostE.ite (fun _ h => by cases h) fun c2 => ?_
  have hlen : ((xex.drop (i' + 4)).take (stop + 1 - start)).length = stop + 1 - start := by simp; omega
  have e4 := block_of_words h1.2.2 h2.2.2 (stop + 1 - start)
  have hst : storeBlock mem start ((xex.drop (i' + 4)).take (stop + 1 - start)) = fun a => if start ≤ a ∧ a ≤ stop then ((xex.drop (i' + 4)).take (stop + 1 - start))[a - start]? else mem a := by
    funext a
    rw [storeBlock_eq, hlen]
    by_cases e : start ≤ a ∧ a ≤ stop
    · rw [if_pos e, if_pos (by omega)]
    · rw [if_neg e, if_neg (by omega)]
  by_cases c : w = 0xffff
  · rw [if_pos c] at hi
    refine ⟨by show i + 5 ≤ _; omega, by show i' + 4 + (stop + 1 - start) ≤ _; omega, ?_⟩
    have key := Image.block him (b := [255, 255, start % 256, start / 256, stop % 256, stop / 256] ++ (xex.drop (i' + 4)).take (stop + 1 - start))
      (first := start) (last := stop) (data := (xex.drop (i' + 4)).take (stop + 1 - start)) ⟨by omega, by omega, hlen, .inr rfl, fun _ he => by
        have := congrArg List.length he
        simp at this
        omega⟩
    have ew := hw.2.2
    rw [c] at ew
    have ef : xex.take (i' + 4 + (stop + 1 - start)) = xex.take i ++ ([255, 255, start % 256, start / 256, stop % 256, stop / 256] ++ (xex.drop (i' + 4)).take (stop + 1 - start)) := by
      rw [← hi] at e4 ⊢
      rw [show i + 2 + 4 + (stop + 1 - start) = i + (2 + (4 + (stop + 1 - start))) by omega, take_piece, take_split, ew, e4]
      rfl
    show Image (xex.take (i' + 4 + (stop + 1 - start))) (storeBlock mem start ((xex.drop (i' + 4)).take (stop + 1 - start)))
    rw [ef]
    rw [hst]
    exact key
  · rw [if_neg c] at hi
    refine ⟨by show i + 5 ≤ i' + 4 + (stop + 1 - start); omega, by show i' + 4 + (stop + 1 - start) ≤ _; omega, ?_⟩
    have hws : start ≠ 65535 := by
      intro h
      have a1 := hw.2.2
      have a2 := h1.2.2
      rw [← hi, a1] at a2
      have b1 : w % 256 = start % 256 := by injection a2
      have b2 : w / 256 = start / 256 := by injection a2 with _ a3; injection a3
      omega
    have key := Image.block him (b := [start % 256, start / 256, stop % 256, stop / 256] ++ (xex.drop (i' + 4)).take (stop + 1 - start))
      (first := start) (last := stop) (data := (xex.drop (i' + 4)).take (stop + 1 - start)) ⟨by omega, by omega, hlen, .inl rfl, fun h => absurd h hws⟩
    have ef : xex.take (i' + 4 + (stop + 1 - start)) = xex.take i ++ ([start % 256, start / 256, stop % 256, stop / 256] ++ (xex.drop (i' + 4)).take (stop + 1 - start)) := by
      rw [← hi] at e4 ⊢
      rw [show i + 4 + (stop + 1 - start) = i + (4 + (stop + 1 - start)) by omega, take_piece, e4]
    show Image (xex.take (i' + 4 + (stop + 1 - start))) (storeBlock mem start ((xex.drop (i' + 4)).take (stop + 1 - start)))
    rw [ef]
    rw [hst]
    exact key

theorem loadXexLoop_spec {xex : List Nat} (hb : AllBytes xex) (fuel : Nat) : ∀ (i : Nat) (mem : Mem), xex.length < i + fuel → i ≤ xex.length → Image (xex.take i) mem →
    PostE Ends (fun mem' => ∃ n, n ≤ xex.length ∧ xex.length < n + 5 ∧ Image (xex.take n) mem') (loadXexLoop xex fuel i mem) := by
  induction fuel with
  | zero => intro i mem h1 h2; omega
  | succ fuel ih =>
    intro i mem h1 h2 him
    unfold loadXexLoop
    refine PostE.ite (fun _ => PostE.bind (loadXexBlock_spec hb mem i him) fun q hq => ih q.2 q.1 (by have := hq.1; omega) hq.2.1 hq.2.2) fun c => ⟨i, h2, by omega, him⟩

theorem loadXex_spec {xex : List Nat} (hb : AllBytes xex) :
    PostE Ends (fun mem => ∃ n, n ≤ xex.length ∧ xex.length < n + 5 ∧ Image (xex.take n) mem) (loadXex xex) :=
  loadXexLoop_spec hb _ 0 _ (by omega) (Nat.zero_le _) .empty

/-- The bytes of an image. -/
theorem image_bytes {file : List Nat} {mem : Mem} (h : Image file mem) (hb : AllBytes file) : ∀ x b, mem x = some b → b < 256 ∧ x < 65536 := by
  induction h with
  | empty => exact fun x b h => by cases h
  | @block file mem b first last data _ hbl ih =>
    intro x v hx
    dsimp only at hx
    by_cases e : first ≤ x ∧ x ≤ last
    · rw [if_pos e] at hx
      have hm := List.mem_of_getElem? hx
      refine ⟨hb v (List.mem_append_right _ ?_), by have := hbl.2.1; omega⟩
      rcases hbl.2.2.2.1 with rfl | rfl <;> exact List.mem_append_right _ hm
    · rw [if_neg e] at hx
      exact ih (fun c hc => hb c (List.mem_append_left _ hc)) x v hx

/-! ### The hole -/

theorem skipUsed_spec (mem : Mem) (e : Nat) : 0x2400 ≤ e ∨ (mem e).isSome → Post (fun e' => e' ≤ e ∧ mem e' = none ∧ 0x2400 ≤ e') (skipUsed mem e) := by
  induction e with
  | zero =>
    intro h
    unfold skipUsed
    exact Post.ite (fun _ => trivial) fun h2 => absurd h (by simp; simpa using h2)
  | succ e ih =>
    intro h
    unfold skipUsed
    refine Post.ite (fun _ => Post.ite (fun _ => trivial) fun h2 => (ih (by omega)).mono fun e' he => ⟨by omega, he.2⟩) fun h2 => ⟨Nat.le_refl _, by simpa using h2, by rcases h with h | h; exact h; exact absurd h h2⟩

theorem scanHole_spec (mem : Mem) (stop : Nat) (s : Nat) : s ≤ stop → stop - s < 0x400 - 1 ∨ stop = s → 0x2400 ≤ stop → (∀ x, s ≤ x → x ≤ stop → mem x = none) →
    Post (fun r => match r with | none => ∀ x, stop < x + 0x400 → x ≤ stop → mem x = none | some s' => s' < stop ∧ (mem s').isSome) (scanHole mem stop s) := by
  induction s with
  | zero => intro h1 h2 h3; omega
  | succ s ih =>
    intro h1 h2 h3 h4
    unfold scanHole
    refine Post.ite (fun c => ⟨by omega, c⟩) fun c => Post.ite (fun c2 => ?_) fun c2 => ?_
    · intro x g1 g2
      by_cases e : x = s
      · rw [e]; simpa using c
      · exact h4 x (by omega) g2
    · refine ih (by omega) (by omega) h3 fun x g1 g2 => ?_
      by_cases e : x = s
      · rw [e]; simpa using c
      · exact h4 x (by omega) g2

theorem findHoleLoop_spec (mem : Mem) (fuel : Nat) : ∀ e, e < fuel → 0x2400 ≤ e ∨ (mem e).isSome →
    Post (fun h => h ≤ e ∧ 0x2400 ≤ h ∧ ∀ x, h < x + 0x400 → x ≤ h → mem x = none) (findHoleLoop mem fuel e) := by
  induction fuel with
  | zero => intro e h; omega
  | succ fuel ih =>
    intro e h1 h2
    unfold findHoleLoop
    refine Post.bind (skipUsed_spec mem e h2) fun e' he => ?_
    refine Post.bind (scanHole_spec mem e' e' (Nat.le_refl _) (.inr rfl) he.2.2 fun x g1 g2 => by rw [show x = e' by omega]; exact he.2.1) fun r hr => ?_
    match r, hr with
    | none, hr => exact ⟨he.1, he.2.2, hr⟩
    | some s, hr => exact (ih s (by have := hr.1; omega) (.inr hr.2)).mono fun h hh => ⟨by have := hr.1; omega, hh.2⟩

theorem findHole_spec (mem : Mem) : Post (fun h => h ≤ 0xbc1f ∧ 0x2400 ≤ h ∧ ∀ x, h < x + 0x400 → x ≤ h → mem x = none) (findHole mem) :=
  findHoleLoop_spec mem _ _ (by decide) (.inl (by decide))

end Asap.FlashPack
