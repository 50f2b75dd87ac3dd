import Verif.Lemmas.DepackerRun
import Verif.Props.FlashPack

/-!
# Running compressed executables

C30: a 6502 that starts a compressed executable ends up in the original program, with the memory that the original would have.
-/

namespace Asap.Props
open Asap Asap.FlashPack Asap.Spec.FlashPack Asap.Spec.Flat
open Asap.Isa (State)
open Asap.Flat (bodyOf byte_cast Base Ptr Sim Private Safe simulate step_end to_item used_mono To)

theorem depacker_body (p C run : Int) : (depacker p C run).map (fun n : Nat => (n : Int)) = [0xad, p % 256, p / 256 % 256] ++ (bodyOf C run).drop 3 := by
  unfold depacker word bodyOf
  simp only [List.cons_append, List.nil_append, List.append_assoc, List.map_cons, List.map_nil, List.drop_succ_cons, List.drop_zero, byte_cast]
  rfl

/-- The bytes of the depacker in the image. -/
theorem packed_code {s : List Nat} {first run : Nat} (h1 : 0x2000 ≤ first) (h2 : first + s.length + 0x57 ≤ 0xbc1f) {j : Nat} {b : Int}
    (h : ([0xad, (first : Int) % 256, (first : Int) / 256 % 256] ++ (bodyOf ((first + s.length : Nat) : Int) run).drop 3)[j]? = some b) :
    ∃ n : Nat, packedImage s first run (first + s.length + j) = some n ∧ (n : Int) = b := by
  rw [← depacker_body, List.getElem?_map] at h
  have hl : j < 0x58 := by
    by_contra hge
    rw [List.getElem?_eq_none (by rw [depacker_length]; omega)] at h
    cases h
  rcases hd : (depacker first ((first + s.length : Nat) : Int) run)[j]? with _ | n
  · rw [hd] at h; cases h
  · rw [hd] at h
    refine ⟨n, ?_, Option.some.inj h⟩
    unfold packedImage
    rw [if_neg (by omega), if_pos (by omega), show first + s.length + j - first = s.length + j by omega, List.getElem?_append_right (by omega), Nat.add_sub_cancel_left]
    exact hd

theorem body_get {C run : Int} {p q : Int} {j : Nat} {b : Int} (h : (bodyOf C run)[j]? = some b) (hj : j ≠ 1 ∧ j ≠ 2) : ([0xad, p, q] ++ (bodyOf C run).drop 3)[j]? = some b := by
  by_cases h3 : j < 3
  · obtain rfl : j = 0 := by omega
    exact h
  · rw [List.getElem?_append_right (by simp; omega), List.getElem?_drop]
    show (bodyOf C run)[3 + (j - 3)]? = _
    rw [show 3 + (j - 3) = j by omega]; exact h

/-- The 6502 at the start of the depacker. -/
theorem started_sim {s : List Nat} {first run : Nat} (h1 : 0x2000 ≤ first) (h2 : first + s.length + 0x57 ≤ 0xbc1f) {st : State}
    (hst : Started (packedImage s first run) (first + s.length + 0x32) st) :
    ∃ dist, Sim (first + s.length) run st.s ⟨fun a => (st.mem a).toNat, first + s.length, dist, [], [], s, []⟩ (Spec.Convert.cfg st) := by
  have hfe := hst.bytes 0xfe
  have hin : ∀ k b, s[k]? = some b → packedImage s first run (first + k) = some b := by
    intro k b e
    have hk : k < s.length := by
      by_contra hge
      rw [List.getElem?_eq_none (by omega)] at e; cases e
    unfold packedImage
    rw [if_neg (by omega), if_pos (by omega), Nat.add_sub_cancel_left, List.getElem?_append_left hk]; exact e
  refine ⟨if st.mem 0xfe ≤ 128 then (128 - st.mem 0xfe).toNat else (65664 - st.mem 0xfe).toNat, .inr (.inl ⟨st.a, st.x, st.y, st.z, st.c, st.mem, ?_, ?_, .inl rfl, rfl, rfl⟩)⟩
  · unfold Spec.Convert.cfg
    rw [hst.pc]
    rfl
  · refine ⟨⟨by show 0x2000 + s.length ≤ _; omega, by omega⟩, hst.stack, fun j b e hj => ?_, ?_, ?_, fun b hb => ?_, fun k b e => ?_, fun a ha _ => ?_, ?_⟩
    · obtain ⟨n, k1, k2⟩ := packed_code h1 h2 (body_get e ⟨hj.1, hj.2.1⟩)
      have := hst.loaded _ _ k1
      rw [← k2, ← this]; rfl
    · obtain ⟨n, k1, k2⟩ := packed_code (s := s) (run := run) (j := 1) h1 h2 rfl
      have := hst.loaded _ _ k1
      show st.mem (((first + s.length : Nat) : Int) + 1) = (((first + s.length : Nat) : Int) - s.length) % 256
      rw [show ((first + s.length : Nat) : Int) - s.length = first by omega, ← k2, ← this]; rfl
    · obtain ⟨n, k1, k2⟩ := packed_code (s := s) (run := run) (j := 2) h1 h2 rfl
      have := hst.loaded _ _ k1
      show st.mem (((first + s.length : Nat) : Int) + 2) = (((first + s.length : Nat) : Int) - s.length) / 256
      rw [show ((first + s.length : Nat) : Int) - s.length = first by omega, show (first : Int) / 256 = first / 256 % 256 by omega, ← k2, ← this]; rfl
    · obtain ⟨k, hk, e⟩ := List.getElem_of_mem hb
      have := hst.loaded _ _ (hin k b (by rw [List.getElem?_eq_getElem hk]; exact congrArg some e))
      have hb := hst.bytes ((first + k : Nat) : Int)
      omega
    · have := hst.loaded _ _ (hin k b e)
      show st.mem (((first + s.length : Nat) : Int) - s.length + k) = b
      rw [show ((first + s.length : Nat) : Int) - s.length + k = ((first + k : Nat) : Int) by omega]; exact this
    · have := hst.bytes a
      show st.mem a = (((st.mem a).toNat : Nat) : Int)
      omega
    · dsimp only
      by_cases e : st.mem 0xfe ≤ 128
      · rw [if_pos e]; omega
      · rw [if_neg e]; omega

/-- A 6502 with nothing but memory that starts a compressed executable gets to the start address of the original.  There, the bytes of the
original are in the memory, with the stack pointer as it was, and everything else is as before except for the five
registers and the depacker's own variables, stack, stream and code.  The original must not need these. -/
theorem C30_depacker {xex out : List Nat} (hb : AllBytes xex) (h : compress xex = .ok out) :
    ∃ n image run packed start,
      n ≤ xex.length ∧ xex.length < n + 5 ∧ Image (xex.take n) image ∧ RunsAt image run ∧ Image out packed ∧ RunsAt packed start ∧
      ∀ st, Started packed start st → (∀ a, image a ≠ none → a ≠ 0x2e0 → a ≠ 0x2e1 → ¬ Spare packed st.s a) →
        ∃ st' ram', Runs st st' ∧ st'.pc = run ∧ st'.s = st.s ∧ LoadedInto image (fun a => (st.mem a).toNat) ram' ∧
          ∀ a : Nat, a < 65536 → ¬ Spare packed st.s a → st'.mem a = ram' a := by
  have hc := compress_spec hb
  rw [h] at hc
  obtain ⟨image, s, hole, run, hc⟩ := hc
  obtain ⟨n, h1, h2, him⟩ := hc.input
  have hbytes := image_bytes him fun b h => hb b (List.mem_of_mem_take h)
  have hrun : run < 65536 := by have := (hbytes _ _ hc.runs.2).1; omega
  have hlim := hc.fits
  have hlim' := hc.below
  obtain ⟨first, hfirst⟩ : ∃ first, first + s.length + 0x57 = hole := ⟨hole - s.length - 0x57, by omega⟩
  refine ⟨n, image, run, packedImage s first run, first + s.length + 0x32, h1, h2, him, ⟨hrun, fun k hk => ?_⟩, ?_, ⟨by omega, fun k hk => ?_⟩, fun st hst hfree => ?_⟩
  · rcases (by simp at hk; omega : k = 0 ∨ k = 1) with rfl | rfl
    · exact hc.runs.1
    · exact hc.runs.2
  · rw [hc.out, ← hfirst]
    exact packedImage_image (by omega)
  · unfold packedImage
    rw [if_pos (by simp at hk; omega), Nat.add_sub_cancel_left]
  · have hpk : ∀ a, first ≤ a → a ≤ first + s.length + 0x57 → packedImage s first run a ≠ none := by
      intro a g1 g2 hn
      unfold packedImage at hn
      rw [if_neg (by omega), if_pos (by omega), List.getElem?_eq_none_iff, List.length_append, depacker_length] at hn
      omega
    obtain ⟨dist, hs⟩ := started_sim (s := s) (first := first) (run := run) (by omega) (by omega) hst
    obtain ⟨d, flags, rest, hsteps, hf, hi, hram, hused⟩ := hc.packs (fun a => (st.mem a).toNat) (first + s.length) dist
    have hsafe : ∀ u m, m ≤ s.length → u ∈ d.used → Safe (first + s.length) st.s m u := by
      intro u m hm hu
      have hsp := hst.stack
      rcases hused u hu with hr | ht
      · unfold Register at hr
        unfold Safe Private
        omega
      · obtain ⟨g1, g2, g3⟩ := touched_of ht
        have := hfree u g3 g1 g2
        unfold Spare at this
        unfold Safe Private
        refine ⟨fun hp => this ?_, fun hp => this ?_⟩
        · rcases hp with hp | hp | hp | hp
          · exact .inl (by omega)
          · exact .inr (.inl hp)
          · exact .inr (.inr (.inl hp))
          · exact .inr (.inr (.inr ⟨by omega, by omega, hpk u (by omega) (by omega)⟩))
        · exact .inr (.inr (.inr ⟨by omega, by omega, hpk u (by omega) (by omega)⟩))
    have hlen : ∀ {d1 d2 : Depacker}, Steps d1 d2 → d2.input.length ≤ d1.input.length := by
      intro d1 d2 hh
      induction hh with
      | done => exact Nat.le_refl _
      | groups _ _ e _ ih => rw [e]; exact Nat.le_trans ih (Nat.le_succ _)
      | plain _ _ _ ih => exact ih
      | mixed _ _ e _ ih => rw [e]; exact Nat.le_trans ih (Nat.le_succ _)
      | literal _ e _ ih => rw [e]; exact Nat.le_trans ih (Nat.le_succ _)
      | copy _ e _ _ ih => rw [(Asap.Flat.copy_flags _ _).2.2] at ih; rw [e]; exact Nat.le_trans ih (Nat.le_succ _)
      | again _ e _ _ ih => rw [(Asap.Flat.copy_flags _ _).2.2] at ih; rw [e]; exact Nat.le_trans ih (Nat.le_trans (Nat.le_succ _) (Nat.le_succ _))
      | goto _ e _ ih => rw [e]; exact Nat.le_trans ih (Nat.le_trans (Nat.le_succ _) (Nat.le_trans (Nat.le_succ _) (Nat.le_succ _)))
    have key := (simulate hsteps hs fun d1 k1 k2 u hu => hsafe u _ (hlen k1) (used_mono k2 u hu)).trans fun g hg =>
      (to_item hg hf).trans fun g hg => step_end hg hf hi hrun
    obtain ⟨st', hr, ⟨a, x, y, z, c, mem, e, R⟩, _⟩ := key st rfl hst.binary
    have e1 : st'.pc = run := congrArg Spec.Convert.Cfg.pc e
    have e2 : st'.s = st.s := congrArg Spec.Convert.Cfg.s e
    have e3 : st'.mem = mem := congrArg Spec.Convert.Cfg.mem e
    refine ⟨st', unpacked (withoutRun image) fun a => (st.mem a).toNat, hr, e1, e2, fun a => ⟨fun ha => ?_, fun b g1 g2 hi => ?_⟩, fun a ha hn => ?_⟩
    · have e : withoutRun image a = none := by
        unfold withoutRun
        by_cases e : a = 0x2e0 ∨ a = 0x2e1
        · rw [if_pos e]
        · rw [if_neg e]
          rcases ha with h | h | h
          · exact absurd (.inl h) e
          · exact absurd (.inr h) e
          · exact h
      unfold unpacked
      rw [e, Option.getD_none, ite_self]
      rfl
    · have e : withoutRun image a = some b := by
        unfold withoutRun
        rw [if_neg (by omega)]; exact hi
      unfold unpacked
      rw [e, Option.getD_some, if_pos (hbytes _ _ hi).2]
    · rw [e3, R.ram a ha ?_]
      · show ((d.ram a : Nat) : Int) = _
        rw [hram]
      · intro hp
        refine hn ?_
        unfold Private at hp
        unfold Spare
        rcases hp with hp | hp | hp | hp
        · exact .inl (by omega)
        · exact .inr (.inl hp)
        · exact .inr (.inr (.inl hp))
        · exact .inr (.inr (.inr ⟨by omega, by omega, hpk a (by omega) (by omega)⟩))

/-- The sample, started with all other memory zero. -/
def sampleState : State :=
  ⟨0, 0, 0, 0xff, (0xbc1f - 0x57 + 0x32 : Nat), false, false, false, true, false, false,
    fun a => (((packedImage sampleStream (0xbc1f - 0x57 - sampleStream.length) 0x4000 a.toNat).getD 0 : Nat) : Int)⟩

/-- The hypotheses of `C30_depacker` about the 6502 can be met. -/
theorem C30_depacker_sample : ∃ packed start, Image (packedFile sampleStream 0xbc1f 0x4000) packed ∧ Started packed start sampleState ∧
    ∀ a, sampleImage a ≠ none → a ≠ 0x2e0 → a ≠ 0x2e1 → ¬ Spare packed sampleState.s a := by
  refine ⟨packedImage sampleStream (0xbc1f - 0x57 - sampleStream.length) 0x4000, 0xbc1f - 0x57 + 0x32, ?_, ⟨fun a b h => ?_, fun a => ?_, by decide, rfl, rfl⟩, fun a ha g1 g2 hs => ?_⟩
  · have hl : sampleStream.length = 35 := rfl
    have e : 0xbc1f - 0x57 - sampleStream.length + sampleStream.length + 0x57 = 0xbc1f := by rw [hl]
    have := packedImage_image (s := sampleStream) (first := 0xbc1f - 0x57 - sampleStream.length) (run := 0x4000) (by rw [hl]; decide)
    rw [e] at this
    exact this
  · show (((packedImage sampleStream _ 0x4000 (a : Int).toNat).getD 0 : Nat) : Int) = b
    rw [Int.toNat_natCast, h]
    rfl
  · show 0 ≤ (((packedImage sampleStream _ 0x4000 a.toNat).getD 0 : Nat) : Int) ∧ (((packedImage sampleStream _ 0x4000 a.toNat).getD 0 : Nat) : Int) < 256
    generalize a.toNat = n
    have hall : ∀ b ∈ sampleStream ++ depacker (0xbc1f - 0x57 - sampleStream.length : Nat) ((0xbc1f - 0x57 - sampleStream.length + sampleStream.length : Nat) : Int) (0x4000 : Nat), b < 256 := by decide +kernel
    have hget : ∀ (l : List Nat), (∀ b ∈ l, b < 256) → ∀ k : Nat, l[k]?.getD 0 < 256 := by
      intro l hl k
      rcases e : l[k]? with _ | b
      · decide
      · exact hl b (List.mem_of_getElem? e)
    have : (packedImage sampleStream (0xbc1f - 0x57 - sampleStream.length) 0x4000 n).getD 0 < 256 := by
      unfold packedImage
      by_cases e1 : 0x2e0 ≤ n ∧ n ≤ 0x2e1
      · rw [if_pos e1]; exact hget _ (by decide) _
      · rw [if_neg e1]
        by_cases e2 : 0xbc1f - 0x57 - sampleStream.length ≤ n ∧ n ≤ 0xbc1f - 0x57 - sampleStream.length + sampleStream.length + 0x57
        · rw [if_pos e2]; exact hget _ hall _
        · rw [if_neg e2]
          by_cases e3 : 0xd301 ≤ n ∧ n ≤ 0xd301
          · rw [if_pos e3]; exact hget _ (by decide) _
          · rw [if_neg e3]; decide
    omega
  · have h1 : 0x4000 ≤ a ∧ a < 0x400c := by
      by_contra hn
      refine ha ?_
      have := sample_free (a := a) (by omega)
      unfold withoutRun at this
      rw [if_neg (by omega)] at this
      exact this
    unfold Spare at hs
    have hs' : sampleState.s = 0xff := rfl
    rw [hs'] at hs
    rcases hs with hs | hs | hs | hs
    · omega
    · omega
    · omega
    · refine hs.2.2 ?_
      unfold packedImage
      have hl : sampleStream.length = 35 := rfl
      rw [hl, if_neg (by omega), if_neg (by omega), if_neg (by omega)]

end Asap.Props
