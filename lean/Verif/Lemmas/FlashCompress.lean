import Verif.Lemmas.FlashFile

/-! FlashPack: `Compress`. -/

namespace Asap.FlashPack
open Asap Asap.Spec.FlashPack

/-- The memory without the run address. -/
def withoutRun (mem : Mem) : Mem := fun a => if a = 0x2e0 ∨ a = 0x2e1 then none else mem a

theorem touched_of {image : Mem} {a : Nat} (h : (withoutRun image a).isSome) : a ≠ 0x2e0 ∧ a ≠ 0x2e1 ∧ image a ≠ none := by
  unfold withoutRun at h
  by_cases e : a = 0x2e0 ∨ a = 0x2e1
  · rw [if_pos e] at h; cases h
  · rw [if_neg e] at h
    refine ⟨fun h => e (.inl h), fun h => e (.inr h), fun hn => ?_⟩
    rw [hn] at h; cases h

theorem _root_.Asap.Spec.FlashPack.Depacks.mono {s : List Nat} {r r' : Nat → Nat} {p q : Nat → Prop} (h : Depacks s r r' p) (hpq : ∀ a, p a → q a) : Depacks s r r' q := by
  intro out dist
  obtain ⟨d, f, rest, h1, h2, h3, h4, h5⟩ := h out dist
  exact ⟨d, f, rest, h1, h2, h3, h4, fun a ha => hpq a (h5 a ha)⟩

/-- The output of `Compress`. -/
def packedFile (s : List Nat) (hole run : Nat) : List Nat :=
  let start : Int := (hole : Int) - (0x58 - 1)
  let compressed := start - s.length
  word 0xffff ++ word 0xd301 ++ word 0xd301 ++ [0xff] ++ word compressed ++ word hole ++ s ++ depacker compressed start run ++
        word 0x2e0 ++ word 0x2e1 ++ word (start + 0x32)

/-- What `Compress` did. -/
structure Compressed (xex out : List Nat) (image : Mem) (s : List Nat) (hole run : Nat) : Prop where
  input : ∃ n, n ≤ xex.length ∧ xex.length < n + 5 ∧ Image (xex.take n) image
  runs : image 0x2e0 = some (run % 256) ∧ image 0x2e1 = some (run / 256)
  vars : ∀ a, 0xfc ≤ a → a ≤ 0xff → image a = none
  below : hole ≤ 0xbc1f
  free : ∀ x, hole < x + 0x400 → x ≤ hole → withoutRun image x = none
  packs : ∀ r, Depacks s r (unpacked (withoutRun image) r) fun a => Register a ∨ (withoutRun image a).isSome
  fits : 0x2000 + s.length + 0x57 ≤ hole
  out : out = packedFile s hole run

theorem compress_spec {xex : List Nat} (hb : AllBytes xex) :
    PostE (fun e => e ≠ .fuel) (fun out => ∃ image s hole run, Compressed xex out image s hole run) (compress xex) := by
  unfold compress
  refine PostE.bind (loadXex_spec hb) fun mem hm => ?_
  obtain ⟨n, h1, h2, him⟩ := hm
  have hbytes := image_bytes him fun b h => hb b (List.mem_of_mem_take h)
  rcases hlo : mem 0x2e0 with _ | lo
  · exact fun h => by cases h
  rcases hhi : mem 0x2e1 with _ | hi
  · exact fun h => by cases h
  dsimp only
  have hlo' := (hbytes _ _ hlo).1
  have hhi' := (hbytes _ _ hhi).1
  refine PostE.ite (fun _ h => by cases h) fun hv => ?_
  have hfree : ∀ x b, withoutRun mem x = some b → b < 256 := by
    intro x b hx
    unfold withoutRun at hx
    by_cases e : x = 0x2e0 ∨ x = 0x2e1
    · rw [if_pos e] at hx; cases hx
    · rw [if_neg e] at hx; exact (hbytes _ _ hx).1
  show PostE _ _ (findHole (withoutRun mem) >>= fun hole => stream (withoutRun mem) hole >>= _)
  refine PostE.bind ((findHole_spec (withoutRun mem)).toE fun s h => by cases h) fun hole hh => ?_
  refine PostE.bind ((stream_spec hfree (hole := hole) (by omega) (hh.2.2 hole (by omega) (Nat.le_refl _))).mono (fun e he hf => ?_) fun _ h => h) fun s hs => ?_
  · rcases he with rfl | ⟨s, rfl⟩ <;> cases hf
  · refine PostE.ite (fun _ h => by cases h) fun hc => ?_
    refine ⟨mem, s, hole, lo + 256 * hi, ⟨n, h1, h2, him⟩, ⟨?_, ?_⟩, fun a g1 g2 => ?_, hh.1, hh.2.2, hs.2, by omega, rfl⟩
    · rw [hlo]; congr 1; omega
    · rw [hhi]; congr 1; omega
    · simp only [not_or, Option.not_isSome_iff_eq_none] at hv
      rcases (by omega : a = 0xfc ∨ a = 0xfd ∨ a = 0xfe ∨ a = 0xff) with rfl | rfl | rfl | rfl
      · exact hv.1
      · exact hv.2.1
      · exact hv.2.2.1
      · exact hv.2.2.2

/-! ### The output file -/

theorem byte_nat (n : Nat) : byte (n : Int) = n % 256 := by unfold byte; omega

theorem word_nat {n : Nat} (h : n < 65536) : word (n : Int) = [n % 256, n / 256] := by
  unfold word byte
  rw [show ((n : Int) % 256).toNat = n % 256 by omega, show ((n : Int) / 256 % 256).toNat = n / 256 by omega]

theorem depacker_length (a b c : Int) : (depacker a b c).length = 0x58 := by
  unfold depacker
  simp only [List.length_append]
  simp only [List.length_cons, List.length_nil]
  simp only [word]
  simp only [List.length_cons, List.length_nil]

theorem depacker_get (a b c : Int) : (depacker a b c)[0]? = some 0xad ∧ (depacker a b c)[1]? = (word a)[0]? ∧ (depacker a b c)[2]? = (word a)[1]? ∧
    (depacker a b c)[0xc]? = some 0x4c ∧ (depacker a b c)[0xd]? = (word c)[0]? ∧ (depacker a b c)[0xe]? = (word c)[1]? := by
  have hw : ∀ v, ∃ p q, word v = [p, q] := fun v => ⟨_, _, rfl⟩
  unfold depacker
  obtain ⟨p, q, h⟩ := hw a
  obtain ⟨p1, q1, h1⟩ := hw (b + 1)
  obtain ⟨p2, q2, h2⟩ := hw (b + 2)
  obtain ⟨p3, q3, h3⟩ := hw (b + 0x1a)
  obtain ⟨p4, q4, h4⟩ := hw b
  obtain ⟨p5, q5, h5⟩ := hw c
  rw [h, h1, h2, h3, h4, h5]
  simp only [List.cons_append, List.nil_append, List.append_assoc]
  exact ⟨rfl, rfl, rfl, rfl, rfl, rfl⟩

/-- The image of a packed file. -/
def packedImage (s : List Nat) (first run : Nat) : Mem := fun a =>
  if 0x2e0 ≤ a ∧ a ≤ 0x2e1 then [(first + s.length + 0x32) % 256, (first + s.length + 0x32) / 256][a - 0x2e0]?
  else if first ≤ a ∧ a ≤ first + s.length + 0x57 then (s ++ depacker first (first + s.length : Nat) run)[a - first]?
  else if 0xd301 ≤ a ∧ a ≤ 0xd301 then [0xff][a - 0xd301]? else none

theorem packedFile_eq {s : List Nat} {first run : Nat} (hl : first + s.length + 0x57 < 0xc000) :
    packedFile s (first + s.length + 0x57) run = [] ++ ([255, 255, 0xd301 % 256, 0xd301 / 256, 0xd301 % 256, 0xd301 / 256] ++ [0xff]) ++
      ([first % 256, first / 256, (first + s.length + 0x57) % 256, (first + s.length + 0x57) / 256] ++ (s ++ depacker first (first + s.length : Nat) run)) ++
      ([0x2e0 % 256, 0x2e0 / 256, 0x2e1 % 256, 0x2e1 / 256] ++ [(first + s.length + 0x32) % 256, (first + s.length + 0x32) / 256]) := by
  unfold packedFile
  dsimp only
  have e1 : ((first + s.length + 0x57 : Nat) : Int) - (0x58 - 1) = (first + s.length : Nat) := by omega
  rw [e1]
  have e2 : ((first + s.length : Nat) : Int) - s.length = (first : Nat) := by omega
  rw [e2]
  have e3 : ((first + s.length : Nat) : Int) + 0x32 = (first + s.length + 0x32 : Nat) := by omega
  rw [e3, word_nat (n := first) (by omega), word_nat (n := first + s.length + 0x57) (by omega), word_nat (n := first + s.length + 0x32) (by omega)]
  simp only [List.append_assoc]
  rfl

theorem packedImage_image {s : List Nat} {first run : Nat} (hl : first + s.length + 0x57 ≤ 0xbc1f) :
    Image (packedFile s (first + s.length + 0x57) run) (packedImage s first run) := by
  have b1 : Block ([255, 255, 0xd301 % 256, 0xd301 / 256, 0xd301 % 256, 0xd301 / 256] ++ [0xff]) 0xd301 0xd301 [0xff] :=
    ⟨by decide, by decide, rfl, .inr rfl, fun h => absurd h (by decide)⟩
  have b2 : Block ([first % 256, first / 256, (first + s.length + 0x57) % 256, (first + s.length + 0x57) / 256] ++ (s ++ depacker first (first + s.length : Nat) run))
      first (first + s.length + 0x57) (s ++ depacker first (first + s.length : Nat) run) :=
    ⟨by omega, by omega, by rw [List.length_append, depacker_length]; omega, .inl rfl, fun h => by omega⟩
  have b3 : Block ([0x2e0 % 256, 0x2e0 / 256, 0x2e1 % 256, 0x2e1 / 256] ++ [(first + s.length + 0x32) % 256, (first + s.length + 0x32) / 256]) 0x2e0 0x2e1
      [(first + s.length + 0x32) % 256, (first + s.length + 0x32) / 256] := ⟨by decide, by decide, rfl, .inl rfl, fun h => absurd h (by decide)⟩
  rw [packedFile_eq (by omega)]
  exact Image.block (Image.block (Image.block .empty b1) b2) b3

theorem packedFile_image {s : List Nat} {first run : Nat} (hf : 0x2000 ≤ first) (hrun : run < 65536) (hl : first + s.length + 0x57 ≤ 0xbc1f) (hs : s.length < 65536) :
    ∃ packed, Image (packedFile s (first + s.length + 0x57) run) packed ∧ HasAt packed first s ∧
      HasAt packed (first + s.length) [0xad, first % 256, first / 256] ∧ HasAt packed (first + s.length + 0x0c) [0x4c, run % 256, run / 256] ∧
      HasAt packed 0x2e0 [(first + s.length + 0x32) % 256, (first + s.length + 0x32) / 256] := by
  refine ⟨packedImage s first run, packedImage_image hl, ?_, ?_, ?_, ?_⟩
  · intro k hk
    unfold packedImage
    rw [if_neg (by omega), if_pos (by omega), Nat.add_sub_cancel_left, List.getElem?_append_left hk]
  · have key : ∀ k, k < 0x58 → packedImage s first run (first + s.length + k) = (depacker first (first + s.length : Nat) run)[k]? := by
      intro k hk
      unfold packedImage
      rw [if_neg (by omega), if_pos (by omega), show first + s.length + k - first = s.length + k by omega, List.getElem?_append_right (by omega), Nat.add_sub_cancel_left]
    have hg := depacker_get first (first + s.length : Nat) run
    rw [word_nat (n := first) (by omega)] at hg
    intro k hk
    rw [key k (by simp at hk; omega)]
    rcases (by simp at hk; omega : k = 0 ∨ k = 1 ∨ k = 2) with rfl | rfl | rfl
    · exact hg.1
    · exact hg.2.1
    · exact hg.2.2.1
  · have key : ∀ k, k < 0x58 → packedImage s first run (first + s.length + k) = (depacker first (first + s.length : Nat) run)[k]? := by
      intro k hk
      unfold packedImage
      rw [if_neg (by omega), if_pos (by omega), show first + s.length + k - first = s.length + k by omega, List.getElem?_append_right (by omega), Nat.add_sub_cancel_left]
    have hg := depacker_get first (first + s.length : Nat) run
    rw [word_nat hrun] at hg
    intro k hk
    rw [Nat.add_assoc, key (0x0c + k) (by simp at hk; omega)]
    rcases (by simp at hk; omega : k = 0 ∨ k = 1 ∨ k = 2) with rfl | rfl | rfl
    · exact hg.2.2.2.1
    · exact hg.2.2.2.2.1
    · exact hg.2.2.2.2.2
  · intro k hk
    unfold packedImage
    rw [if_pos (by simp at hk; omega), Nat.add_sub_cancel_left]

end Asap.FlashPack
