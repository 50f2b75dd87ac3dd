import Verif.Lemmas.FlashCompress

/-!
# Compressed executables

C30: the stream in a compressed executable, read as `Spec.FlashPack` describes, restores every byte of the original one.
-/

namespace Asap.Props
open Asap Asap.FlashPack Asap.Spec.FlashPack

/-- Compression is lossless: the input is an executable (up to four more bytes are ignored) with some image and start address.  The output is an
executable, too.  Its image has a stream, the code of the depacker that reads from the address of this stream and ends with a jump to the
start address of the original.  The stream puts all bytes of the original image where they were, and changes nothing else but
five registers; nor does it look at anything else. -/
theorem C30_lossless {xex out : List Nat} (hb : AllBytes xex) (h : compress xex = .ok out) :
    ∃ n image run packed stream first code,
      n ≤ xex.length ∧ xex.length < n + 5 ∧ Image (xex.take n) image ∧ RunsAt image run ∧
      Image out packed ∧ 0x2000 ≤ first ∧ code + 0x57 ≤ 0xbc1f ∧ HasAt packed first stream ∧
      code = first + stream.length ∧ HasAt packed code [0xad, first % 256, first / 256] ∧ HasAt packed (code + 0x0c) [0x4c, run % 256, run / 256] ∧
      RunsAt packed (code + 0x32) ∧ (∀ k, k < 0x58 → image (code + k) = none) ∧
      ∀ ram, ∃ ram', Depacks stream ram ram' (Touched image) ∧ LoadedInto image ram ram' := by
  have hc := compress_spec hb
  rw [h] at hc
  obtain ⟨image, s, hole, run, hc⟩ := hc
  obtain ⟨n, h1, h2, him⟩ := hc.input
  have hbytes := image_bytes him fun b h => hb b (List.mem_of_mem_take h)
  have hrun : run < 65536 := by have := (hbytes _ _ hc.runs.2).1; omega
  have hlim := hc.fits
  have hlim' := hc.below
  obtain ⟨first, hfirst⟩ : ∃ first, first + s.length + 0x57 = hole := ⟨hole - s.length - 0x57, by omega⟩
  obtain ⟨packed, hp, hat⟩ := packedFile_image (s := s) (first := first) (run := run) (by omega) hrun (by omega) (by omega)
  rw [hfirst] at hp
  refine ⟨n, image, run, packed, s, first, first + s.length, h1, h2, him, ⟨hrun, ?_⟩, hc.out ▸ hp, by omega, by omega, hat.1, rfl, hat.2.1, hat.2.2.1, ⟨by omega, hat.2.2.2⟩, fun k hk => ?_, fun ram => ⟨_, (hc.packs ram).mono fun a ha => ha.imp_right touched_of, fun a => ⟨fun ha => ?_, fun b g1 g2 hi => ?_⟩⟩⟩
  · intro k hk
    rcases (by simp at hk; omega : k = 0 ∨ k = 1) with rfl | rfl
    · exact hc.runs.1
    · exact hc.runs.2
  · have := hc.free (first + s.length + k) (by omega) (by omega)
    unfold withoutRun at this
    rw [if_neg (by omega)] at this
    exact this
  · have e : withoutRun image a = none := by
      unfold withoutRun
      by_cases e : a = 0x2e0 ∨ a = 0x2e1
      · rw [if_pos e]
      · rw [if_neg e]
        rcases ha with h | h | h
        · exact absurd (.inl h) e
        · exact absurd (.inr h) e
        · exact h
    show unpacked _ ram a = _
    unfold unpacked
    rw [e, Option.getD_none, ite_self]
    rfl
  · have e : withoutRun image a = some b := by
      unfold withoutRun
      rw [if_neg (by omega)]; exact hi
    show unpacked _ ram a = _
    unfold unpacked
    rw [e, Option.getD_some, if_pos (hbytes _ _ hi).2]

/-- Compression ends for all bytes. -/
theorem C30_ends {xex : List Nat} (hb : AllBytes xex) : compress xex ≠ .error .fuel := by
  intro h
  have := compress_spec hb
  rw [h] at this
  exact this rfl

/-! ### A sample -/

/-- An executable: twelve bytes at 0x4000 where it starts. -/
def sampleXex : List Nat := [0xff, 0xff, 0x00, 0x40, 0x0b, 0x40, 1, 2, 3, 1, 2, 3, 1, 2, 3, 1, 2, 3, 0xe0, 0x02, 0xe1, 0x02, 0x00, 0x40]

/-- Its image. -/
def sampleImage : Mem := storeBlock (storeBlock (fun _ => none) 0x4000 [1, 2, 3, 1, 2, 3, 1, 2, 3, 1, 2, 3]) 0x2e0 [0x00, 0x40]

/-- Its stream: five registers, an address, three literals, a copy of three bytes and another one of six bytes. -/
def sampleStream : List Nat :=
  [224, 170, 0, 142, 211, 0, 0, 142, 209, 0, 0, 128, 211, 0, 0, 129, 210, 254, 163, 0, 196, 1, 255, 0, 128, 63, 1, 2, 3, 251, 1, 6, 128, 1, 0]

theorem sample_free {a : Nat} (h : a < 0x4000 ∨ 0x400c ≤ a) : withoutRun sampleImage a = none := by
  unfold withoutRun
  by_cases e : a = 0x2e0 ∨ a = 0x2e1
  · rw [if_pos e]
  · rw [if_neg e]
    unfold sampleImage
    rw [storeBlock_eq, storeBlock_eq, if_neg (by simp; omega), if_neg (by simp; omega)]

theorem skip_none {mem : Mem} {k a : Nat} (h : ∀ x, a ≤ x → x < a + k → mem x = none) : skipFree mem k a = none := by
  have := skipFree_spec mem k a
  generalize skipFree mem k a = o at this
  cases o with
  | none => rfl
  | some a' =>
    have h2 := this.2.2.1
    rw [h a' this.1 this.2.1] at h2
    cases h2

theorem skip_some {mem : Mem} {k a b : Nat} (h : ∀ x, a ≤ x → x < b → mem x = none) (h1 : a ≤ b) (h2 : b < a + k) (h3 : (mem b).isSome) : skipFree mem k a = some b := by
  have := skipFree_spec mem k a
  generalize skipFree mem k a = o at this
  cases o with
  | none => rw [this b h1 h2] at h3; cases h3
  | some a' =>
    by_cases e1 : a' < b
    · have h4 := this.2.2.1
      rw [h a' this.1 e1] at h4
      cases h4
    · by_cases e2 : b < a'
      · rw [this.2.2.2 b h1 e2] at h3; cases h3
      · rw [show a' = b by omega]

theorem packArea_none {mem : Mem} {start stop fuel a : Nat} {last : Int} {p : Packer} (hs : a ≤ stop → skipFree mem (stop + 1 - a) a = none) :
    packArea mem start stop (fuel + 1) a last p = .ok p := by
  unfold packArea
  by_cases h : a ≤ stop
  · rw [if_pos h, hs h]
  · rw [if_neg h]

theorem packArea_some {mem : Mem} {start stop fuel a b a' : Nat} {last last' : Int} {p q : Packer} (h : a ≤ stop) (hs : skipFree mem (stop + 1 - a) a = some b)
    (hr : packRun mem start stop 65537 b last (p.putItem ⟨.setAddress, b⟩) = .ok (q, a', last')) :
    packArea mem start stop (fuel + 1) a last p = packArea mem start stop fuel a' last' q := by
  conv => lhs; unfold packArea
  rw [if_pos h, hs]
  show (packRun mem start stop 65537 b last (p.putItem ⟨.setAddress, b⟩) >>= _) = _
  rw [hr]
  rfl

/-- The items of the sample before the end. -/
def sampleItems : List Item := [⟨.setAddress, 0xd40e⟩, ⟨.literal, 0⟩, ⟨.setAddress, 0xd20e⟩, ⟨.literal, 0⟩, ⟨.setAddress, 0xd400⟩, ⟨.literal, 0⟩,
  ⟨.setAddress, 0xd301⟩, ⟨.literal, 0xfe⟩, ⟨.setAddress, 0x244⟩, ⟨.literal, 0xff⟩, ⟨.setAddress, 0x4000⟩, ⟨.literal, 1⟩, ⟨.literal, 2⟩, ⟨.literal, 3⟩,
  ⟨.copyThreeBytes, 3⟩, ⟨.copyManyBytes, 6⟩]

theorem sample_stream : stream (withoutRun sampleImage) 0xbc1f = .ok sampleStream := by
  have h1 : compressArea (withoutRun sampleImage) 0xbc1f 0xffff (pokes {}) = .ok (pokes {}) :=
    packArea_none fun _ => skip_none fun x h1 h2 => sample_free (by omega)
  have h2 : compressArea (withoutRun sampleImage) 0 0xbc1f (pokes {}) = .ok ⟨sampleItems, []⟩ := by
    refine (packArea_some (a' := 0x400c) (last' := 3) (by decide) (skip_some (b := 0x4000) (fun x h1 h2 => sample_free (by omega)) (by decide) (by decide) (by decide +kernel)) ?_).trans
      (packArea_none (fuel := 65535) fun _ => skip_none fun x h1 h2 => sample_free (by omega))
    decide +kernel
  have h3 {x : M Packer} {p q : Packer} {r : M (List Nat)} (f : Packer → M Packer) (hx : x = .ok p) (hf : f p = .ok q)
      (hr : (if (((q.putItem ⟨.endOfStream, 0⟩).putItems).out.length > 65536) then .error .ub else .ok ((q.putItem ⟨.endOfStream, 0⟩).putItems).out) = r) :
      (x >>= fun p => f p >>= fun p => if (((p.putItem ⟨.endOfStream, 0⟩).putItems).out.length > 65536) then .error .ub
        else .ok ((p.putItem ⟨.endOfStream, 0⟩).putItems).out) = r := by
    subst hx
    show (f p >>= _) = _
    rw [hf]
    exact hr
  unfold stream
  exact h3 (fun p => compressArea (withoutRun sampleImage) 0 0xbc1f p) h1 h2 (by decide +kernel)

theorem compress_ok {xex s : List Nat} {image : Mem} {lo hi hole : Nat} (h1 : loadXex xex = .ok image) (hlo : image 0x2e0 = some lo) (hhi : image 0x2e1 = some hi)
    (hv : ¬ ((image 0xfc).isSome ∨ (image 0xfd).isSome ∨ (image 0xfe).isSome ∨ (image 0xff).isSome)) (hf : findHole (withoutRun image) = .ok hole)
    (hs : stream (withoutRun image) hole = .ok s) (hfit : 0x2000 + s.length + 0x57 ≤ hole) : compress xex = .ok (packedFile s hole (lo + 256 * hi)) := by
  unfold compress
  rw [h1]
  simp only [bind, Except.bind]
  rw [hlo, hhi]
  dsimp only
  rw [if_neg hv]
  show (findHole (withoutRun image) >>= fun hole => stream (withoutRun image) hole >>= _) = _
  rw [hf]
  show (stream (withoutRun image) hole >>= _) = _
  rw [hs]
  show (if _ then _ else _) = _
  rw [if_neg (by omega)]
  rfl

/-- The hypothesis of `C30_lossless` can be met. -/
theorem C30_sample : compress sampleXex = .ok (packedFile sampleStream 0xbc1f 0x4000) ∧ AllBytes sampleXex := by
  refine ⟨?_, by unfold AllBytes; decide +kernel⟩
  have h1 : loadXex sampleXex = .ok sampleImage := rfl
  have h2 : findHole (withoutRun sampleImage) = .ok 0xbc1f := by decide +kernel
  have h3 : sampleImage 0x2e0 = some 0 ∧ sampleImage 0x2e1 = some 0x40 ∧
      ¬ ((sampleImage 0xfc).isSome ∨ (sampleImage 0xfd).isSome ∨ (sampleImage 0xfe).isSome ∨ (sampleImage 0xff).isSome) := by decide +kernel
  have h := compress_ok h1 h3.1 h3.2.1 h3.2.2 h2 sample_stream (by decide)
  rw [show 0 + 256 * 0x40 = 0x4000 from rfl] at h
  exact h

end Asap.Props
