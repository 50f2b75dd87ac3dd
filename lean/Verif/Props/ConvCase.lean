import Verif.Props.Conv
import Verif.Props.Player
import Verif.Props.Playback
import Verif.Props.Cmc

/-! # C49, C50, C51: concrete cases -/

namespace Asap.Props
open Asap Asap.Spec Asap.Conv Asap.Spec.Conv

/-- A folder with one file, and a command line. -/
def oneFile (name bytes : List Nat) (o : Opts) : Env := ⟨o, fun n => if n = name then some bytes else none, [], 0⟩

/-- Two songs of two samples and one sample at 100 Hz. -/
def twoStill : List Nat := ascii "SAP\r\nAUTHOR \"A/B\"\r\nSONGS 2\r\nTYPE D\r\nINIT 1000\r\nTIME 00:00.02\r\nTIME 00:00.01\r\n" ++ encodeBlocks [⟨true, 0x1000, [0x12]⟩]

/-- The command line `-o %a-%s.raw -R 100 -b -m 12345678`. -/
def rawOpts : Opts := { output := some (ascii "%a-%s.raw"), rate := 100, format := .u8, mute := 255 }

theorem told_case (o : Opts) (name pre ext stem x bytes : List Nat) (hn : name = stem ++ 46 :: x) (ho : o.output = some (pre ++ 46 :: ext)) (h1 : 46 ∉ ext) (h2 : 46 ∉ x)
    (h3 : Plain (stem ++ 46 :: x)) (hb : AllBytes bytes) : Told (oneFile name bytes o) name bytes pre ext [] stem :=
  ⟨ho, h1, ⟨x, hn, h2, h3⟩, .inl rfl, if_pos rfl, hb⟩

instance (c : Nat) : Decidable (IsSep c) := inferInstanceAs (Decidable (_ ∨ _))

/-- A conversion to raw samples: all songs, each in its own file. -/
theorem C50_case : Told (oneFile (ascii "x.sap") twoStill rawOpts) (ascii "x.sap") twoStill (ascii "%a-%s") (ascii "raw") [] (ascii "x") ∧ New newPlayer rawOpts ∧
    ∃ e1, processFile 1000 5 newPlayer (ascii "x.sap") (oneFile (ascii "x.sap") twoStill rawOpts) = (.ok (), e1) ∧
      e1.files (ascii "A_B-1.raw") = some [128, 128] ∧ e1.files (ascii "A_B-2.raw") = some [128] ∧ e1.files (ascii "A_B-3.raw") = none := by
  refine ⟨told_case _ _ _ _ _ (ascii "sap") _ rfl rfl (by decide) (by decide) ?_ (by unfold AllBytes; decide +kernel), ⟨newPlayer_inRange, by decide, by decide⟩, ?_⟩
  · unfold Plain; decide
  · have h : (fun r : Except Stop Unit × Env => (r.1, r.2.files (ascii "A_B-1.raw"), r.2.files (ascii "A_B-2.raw"), r.2.files (ascii "A_B-3.raw")))
        (processFile 1000 5 newPlayer (ascii "x.sap") (oneFile (ascii "x.sap") twoStill rawOpts)) = (.ok (), some [128, 128], some [128], none) := by decide +kernel
    rcases hx : processFile 1000 5 newPlayer (ascii "x.sap") (oneFile (ascii "x.sap") twoStill rawOpts) with ⟨a, e1⟩
    rw [hx] at h
    simp only [Prod.mk.injEq] at h
    obtain ⟨h1, h2, h3, h4⟩ := h
    rw [h1]
    exact ⟨e1, rfl, h2, h3, h4⟩

/-- A song with the duration 0 can be loaded, and its conversion never finishes. -/
theorem C50_endless_case : ∃ file, AllBytes file ∧ ∀ calls e1,
    processFile 1000 calls newPlayer (ascii "x.sap") (oneFile (ascii "x.sap") file { output := some (ascii ".wav") }) ≠ (.ok (), e1) := by
  let file := ascii "SAP\r\nTYPE D\r\nINIT 1000\r\nTIME 00:00\r\n" ++ encodeBlocks [⟨true, 0x1000, [0x12]⟩]
  have hb : AllBytes file := by unfold AllBytes; decide +kernel
  refine ⟨file, hb, fun calls e1 => ?_⟩
  have h : (fun r : M Machine => match r with | .ok m => (m.info.defaultSong, m.info.durations 0) | .error _ => (1, 1))
      (Loader.load 1000 (some (ascii "x.sap")) (file.take 65000) (newPlayer.setSampleRate 44100)) = (0, 0) := by decide +kernel
  rcases hl : Loader.load 1000 (some (ascii "x.sap")) (file.take 65000) (newPlayer.setSampleRate 44100) with f | m
  · rw [hl] at h; cases h
  rw [hl] at h
  simp only [Prod.mk.injEq] at h
  refine C50_endless 1000 calls newPlayer _ e1 (ascii "x.sap") file [] (ascii "wav") [] (ascii "x") true (told_case _ _ _ _ _ (ascii "sap") _ rfl rfl (by decide) (by decide) ?_ hb)
    ⟨newPlayer_inRange, by decide, by decide⟩ rfl m hl 0 ?_ ?_
  · unfold Plain; decide
  · show (0 : Int) ∈ selected _ m.info _
    unfold selected
    rw [if_neg (by decide), if_pos (by decide), h.1]
    exact List.mem_cons_self
  · unfold milliseconds
    rw [if_neg (by decide), if_neg (by rw [show ((0 : Int).toNat) = 0 from rfl, h.2]; decide), show ((0 : Int).toNat) = 0 from rfl, h.2]

/-- A conversion from CMC to CMC. -/
theorem C51_case : Told (oneFile (ascii "x.cmc") twoSongs { output := some (ascii "y.cmc") }) (ascii "x.cmc") twoSongs (ascii "y") (ascii "cmc") [] (ascii "x") ∧
    ∃ e1, processFile 1000 5 newPlayer (ascii "x.cmc") (oneFile (ascii "x.cmc") twoSongs { output := some (ascii "y.cmc") }) = (.ok (), e1) := by
  refine ⟨told_case _ _ _ _ _ (ascii "cmc") _ rfl rfl (by decide) (by decide) ?_ (by unfold AllBytes; decide +kernel), ?_⟩
  · unfold Plain; decide
  · have h : (processFile 1000 5 newPlayer (ascii "x.cmc") (oneFile (ascii "x.cmc") twoSongs { output := some (ascii "y.cmc") })).1 = .ok () := by decide +kernel
    rcases hx : processFile 1000 5 newPlayer (ascii "x.cmc") (oneFile (ascii "x.cmc") twoSongs { output := some (ascii "y.cmc") }) with ⟨a, e1⟩
    rw [hx] at h
    replace h : a = .ok () := h
    rw [h]
    exact ⟨e1, rfl⟩

/-- C51.  The output is emptied before the conversion: when it fails and the output is the input, the music is lost.  `asapconv -o .cmc --address=FFF0 x.cmc` -/
theorem C51_input_lost : ∃ file i, infoLoad 1000 (some (ascii "x.cmc")) file = .ok i ∧
    ∃ e1, processFile 1000 5 newPlayer (ascii "x.cmc") (oneFile (ascii "x.cmc") file { output := some (ascii ".cmc"), address := 0xfff0 }) = (.error .fatal, e1) ∧
      e1.files (ascii "x.cmc") = some [] := by
  have hl : (infoLoad 1000 (some (ascii "x.cmc")) twoSongs).isOk = true := by decide +kernel
  rcases hi : infoLoad 1000 (some (ascii "x.cmc")) twoSongs with f | i
  · rw [hi] at hl; cases hl
  refine ⟨twoSongs, i, hi, ?_⟩
  have h : (fun r : Except Stop Unit × Env => (r.1, r.2.files (ascii "x.cmc")))
      (processFile 1000 5 newPlayer (ascii "x.cmc") (oneFile (ascii "x.cmc") twoSongs { output := some (ascii ".cmc"), address := 0xfff0 })) = (.error .fatal, some []) := by decide +kernel
  rcases hx : processFile 1000 5 newPlayer (ascii "x.cmc") (oneFile (ascii "x.cmc") twoSongs { output := some (ascii ".cmc"), address := 0xfff0 }) with ⟨a, e1⟩
  rw [hx] at h
  simp only [Prod.mk.injEq] at h
  rw [h.1]
  exact ⟨e1, rfl, h.2⟩

/-- C49.  Placeholders in the folder: the texts in a file can lead to the parent of a folder, as dots are not replaced.  `-o out/%a/x.cmc` -/
theorem C49_dots : ∃ file, AllBytes file ∧
    ∃ e1, processFile 1000 5 newPlayer (ascii "x.sap") (oneFile (ascii "x.sap") file { output := some (ascii "out/%a/x.cmc") }) = (.error .fatal, e1) ∧
      e1.files (ascii "out/../x.cmc") = some [] := by
  let file := ascii "SAP\r\nAUTHOR \"..\"\r\nTYPE D\r\nINIT 1000\r\n" ++ encodeBlocks [⟨true, 0x1000, [0x12]⟩]
  refine ⟨file, by unfold AllBytes; decide +kernel, ?_⟩
  have h : (fun r : Except Stop Unit × Env => (r.1, r.2.files (ascii "out/../x.cmc")))
      (processFile 1000 5 newPlayer (ascii "x.sap") (oneFile (ascii "x.sap") file { output := some (ascii "out/%a/x.cmc") })) = (.error .fatal, some []) := by decide +kernel
  rcases hx : processFile 1000 5 newPlayer (ascii "x.sap") (oneFile (ascii "x.sap") file { output := some (ascii "out/%a/x.cmc") }) with ⟨a, e1⟩
  rw [hx] at h
  simp only [Prod.mk.injEq] at h
  rw [h.1]
  exact ⟨e1, rfl, h.2⟩

/-- The hypotheses of C49 are met by a file whose author is a path: the file that is changed is in the folder `out`. -/
example : Told (oneFile (ascii "x.sap") twoStill { output := some (ascii "out/%a.cmc") }) (ascii "x.sap") twoStill (ascii "out/" ++ ascii "%a") (ascii "cmc") [] (ascii "x") ∧
    (processFile 1000 5 newPlayer (ascii "x.sap") (oneFile (ascii "x.sap") twoStill { output := some (ascii "out/%a.cmc") })).2.files (ascii "out/A_B.cmc") = some [] := by
  refine ⟨told_case _ _ _ _ _ (ascii "sap") _ rfl rfl (by decide) (by decide) ?_ (by unfold AllBytes; decide +kernel), by decide +kernel⟩
  unfold Plain; decide

end Asap.Props
