import Verif.Lemmas.SapFile
import Verif.Props.Sap

/-! # C06 (SAP header round trip) -/

namespace Asap.Props
open Asap Asap.Sap Asap.Spec

/-- The bytes stored by a writer between two of its states. -/
def written (w w' : Writer) : List Nat := (w'.output.take w'.offset).drop w.offset

theorem written_put {w : Writer} (hw : w.Valid) (bs : List Nat) : written w (w.put bs) = bs := by
  have := hw.le; have := hw.fits
  have hl : (w.output.take w.offset).length = w.offset := by simp; omega
  have hl2 : (w.output.take w.offset ++ bs).length = w.offset + bs.length := by simp; omega
  unfold written Writer.put
  simp only []
  rw [List.take_left' hl2, List.drop_left' hl]

/-- C06.  For all information a SAP header can express, all writer windows and all binary parts
(at least 7 bytes, starting with the two 0xff): if there is room, `WriteSapHeader` succeeds, and
loading what it wrote followed by the binary part gives the very same information. -/
theorem C06_header_roundtrip (i : Info) (letter : Nat) (init player : Int)
    (h : Expressible i letter init player) (w : Writer) (hw : w.Valid) :
    (∃ k, writeSapHeader i letter init player w = (.error (.thrown "Output full"), k)) ∨
    ∃ w', writeSapHeader i letter init player w = (.ok (), w') ∧
      ∀ name rest, 5 ≤ rest.length →
        parseSap (Info.blank name) (written w w' ++ 0xff :: 0xff :: rest) =
          .ok (reloaded i letter init player name (written w w').length) := by
  have he := Expressible.emits h w hw
  by_cases hf : w.offset + (headerBytes i letter init player).length ≤ w.stop
  · refine .inr ⟨_, he.1 hf, ?_⟩
    intro name rest hr
    rw [written_put hw]
    exact parseSap_header h name rest hr
  · obtain ⟨k, _, e⟩ := he.2 (by omega)
    exact .inl ⟨_, e⟩

/-- The failing case of `C06_header_roundtrip` is only lack of room: 2000 bytes are always enough
if the texts have at most 127 characters (the limit of the setters). -/
theorem headerBytes_bound {i : Info} {letter : Nat} {init player : Int} (h : Expressible i letter init player)
    (h1 : i.author.length ≤ 127) (h2 : i.title.length ≤ 127) (h3 : i.date.length ≤ 127) :
    (headerBytes i letter init player).length ≤ 2000 := by
  have hdec : ∀ v, v ≤ 32767 → (decText v).length ≤ 5 := by
    intro v hv
    have hF : ∀ d f v, v < 10 ^ (d + 1) → v < f → (decTextF f v).length ≤ d + 1 := by
      intro d
      induction d with
      | zero =>
        intro f v h1 h2
        obtain ⟨f, rfl⟩ : ∃ g, f = g + 1 := ⟨f - 1, by omega⟩
        unfold decTextF
        rw [if_neg (by omega)]; simp
      | succ d ih =>
        intro f v h1 h2
        obtain ⟨f, rfl⟩ : ∃ g, f = g + 1 := ⟨f - 1, by omega⟩
        unfold decTextF
        split
        · have := ih f (v / 10) (by rw [Nat.pow_succ] at h1; omega) (by omega)
          simp; omega
        · simp
    exact hF 4 _ _ (by omega) (by omega)
  have hq : ∀ t : List Nat, t.length ≤ 127 → (quoted t).length ≤ 129 := by
    intro t ht
    unfold quoted
    split
    · simp [ascii]
    · simp; omega
  have hline : ∀ (tag : List Nat) a, (lineBytes (tag, some a)).length = tag.length + a.length + 3 := by
    intro tag a; simp [lineBytes, argBytes]; omega
  have hhex : ∀ tag v, ((hexLines tag v).flatMap lineBytes).length ≤ tag.length + 7 := by
    intro tag v
    unfold hexLines
    split
    · simp
    · simp [lineBytes, argBytes, hexText]
  have htime : ∀ n k, (∀ j, i.durations j < 6000000) → ((timeLines i k n).flatMap lineBytes).length ≤ 21 * n := by
    intro n
    induction n with
    | zero => intro k _; simp [timeLines]
    | succ n ih =>
      intro k hj
      unfold timeLines
      split
      · simp
      · rename_i hneg
        rw [List.flatMap_cons, List.length_append, hline]
        have := ih (k + 1) hj
        have h9 : (Duration.durationToString (i.durations k)).length ≤ 9 := by
          obtain ⟨d, hd⟩ := Int.eq_ofNat_of_zero_le (Int.not_lt.1 hneg)
          have hlt := hj k
          rw [hd] at hlt ⊢
          exact (Duration.durationToString_chars d (by omega)).2.1
        have e1 : (ascii "TIME").length = 4 := by decide
        have e2 : (ascii " LOOP").length = 5 := by decide
        rw [List.length_append, e1]
        have : (if i.loops k = true then ascii " LOOP" else []).length ≤ 5 := by split <;> simp [e2]
        omega
  have hdur : ∀ j, i.durations j < 6000000 := by
    obtain ⟨n, _, a, b⟩ := h.times
    intro j
    by_cases hj : j < n
    · exact (a j hj).2
    · rw [(b j (by omega)).1]; omega
  have hs := h.songs; have hd := h.defaultSong; have hf := h.fastplay
  have b1 := htime i.songs 0 hdur
  have b2 := hhex (ascii "COVOX") i.covoxAddr
  have b3 := hhex (ascii "PLAYER") player
  have b4 := hhex (ascii "INIT") init
  have b5 := hhex (ascii "MUSIC") i.music
  have b6 := hdec i.fastplay.toNat (by omega)
  have b7 := hdec i.songs (by omega)
  have b8 := hdec i.defaultSong (by omega)
  have b9 := hq _ h1; have b10 := hq _ h2; have b11 := hq _ h3
  unfold headerBytes headerLines
  simp only [List.flatMap_append, List.length_append, List.flatMap_cons, List.flatMap_nil, List.length_nil, hline]
  have c1 : ∀ (c : Prop) [Decidable c] (x : List Line) (n : Nat), (x.flatMap lineBytes).length ≤ n →
      ((if c then x else []).flatMap lineBytes).length ≤ n := by
    intro c _ x n hx; split
    · exact hx
    · simp
  have d1 := c1 (letter = 67) _ _ b5
  have d2 := c1 (i.fastplay ≠ (if letter = 83 then 78 else 312) ∨ i.ntsc = true)
    [(ascii "FASTPLAY", some (decText i.fastplay.toNat))] 16 (by simp [hline, ascii]; omega)
  have d3 := c1 (i.ntsc = true) [(ascii "NTSC", none)] 6 (by simp [lineBytes, argBytes, ascii])
  have d4 := c1 (i.channels > 1) [(ascii "STEREO", none)] 8 (by simp [lineBytes, argBytes, ascii])
  have d5 := c1 (i.defaultSong > 0) [(ascii "DEFSONG", some (decText i.defaultSong))] 15 (by simp [hline, ascii]; omega)
  have d6 := c1 (i.songs > 1) ((ascii "SONGS", some (decText i.songs)) ::
      (if i.defaultSong > 0 then [(ascii "DEFSONG", some (decText i.defaultSong))] else [])) 28 (by
    rw [List.flatMap_cons, List.length_append, hline]
    have : (ascii "SONGS").length = 5 := by decide
    omega)
  have g1 : (ascii "SAP\r\n").length = 5 := by decide
  have g2 : (ascii "AUTHOR").length = 6 := by decide
  have g3 : (ascii "NAME").length = 4 := by decide
  have g4 : (ascii "DATE").length = 4 := by decide
  have g5 : (ascii "TYPE").length = 4 := by decide
  have g6 : (ascii "INIT").length = 4 := by decide
  have g7 : (ascii "PLAYER").length = 6 := by decide
  have g8 : (ascii "COVOX").length = 5 := by decide
  have g9 : (ascii "MUSIC").length = 5 := by decide
  simp only [List.length_singleton]
  omega

/-- C06, room: with the texts limited to 127 characters, 2000 bytes are enough for every header. -/
theorem C06_header_room (i : Info) (letter : Nat) (init player : Int)
    (h : Expressible i letter init player) (h1 : i.author.length ≤ 127) (h2 : i.title.length ≤ 127)
    (h3 : i.date.length ≤ 127) (w : Writer) (hw : w.Valid) (hroom : w.offset + 2000 ≤ w.stop) :
    ∃ w', writeSapHeader i letter init player w = (.ok (), w') :=
  ⟨_, (Expressible.emits h w hw).1 (by have := headerBytes_bound h h1 h2 h3; omega)⟩

/-- Whatever was loaded from a SAP file can be expressed in a SAP header, provided the file had no
more `TIME` tags than songs. -/
theorem C06_loaded_expressible (name m : List Nat) (i : Info) (h : parseSap (Info.blank name) m = .ok i)
    (ht : i.durations i.songs = -1) :
    ∃ letter, Expressible i letter i.init i.player ∧ typeOfLetter letter = i.type := by
  obtain ⟨hs, _⟩ := C08_loaded_sane name m i h
  obtain ⟨n, hn, t1, t2⟩ := hs.times
  have hns : n ≤ i.songs := by
    rcases Nat.lt_or_ge i.songs n with hlt | hge
    · have := (t1 i.songs hlt).1; omega
    · exact hge
  have mk : ∀ letter, (letter = 66 ∧ 0 ≤ i.player ∧ 0 ≤ i.init) ∨
      (letter = 67 ∧ 0 ≤ i.player ∧ 0 ≤ i.music ∧ i.music ≤ 0xffff) ∨
      (letter = 68 ∧ 0 ≤ i.init) ∨ (letter = 83 ∧ 0 ≤ i.init) → Expressible i letter i.init i.player := fun letter hk =>
    ⟨hs.author, hs.title, hs.date, hs.songs, hs.defaultSong, hs.channels, hs.fastplay, hs.init, hs.player, hs.covox, hk,
      n, hns, t1, t2⟩
  have hm := hs.music
  rcases hs.type with ⟨e, a, b⟩ | ⟨e, a, b⟩ | ⟨e, a⟩ | ⟨e, a⟩
  · exact ⟨66, mk 66 (.inl ⟨rfl, a, b⟩), by rw [e]; rfl⟩
  · exact ⟨67, mk 67 (.inr (.inl ⟨rfl, a, b, hm.2⟩)), by rw [e]; rfl⟩
  · exact ⟨68, mk 68 (.inr (.inr (.inl ⟨rfl, a⟩))), by rw [e]; rfl⟩
  · exact ⟨83, mk 83 (.inr (.inr (.inr ⟨rfl, a⟩))), by rw [e]; rfl⟩

/-- A two-song stereo module, to show that the hypotheses can be met. -/
def sampleInfo : Info :=
  { author := ascii "A. B \"C\"", title := [], date := ascii "1999", songs := 2, defaultSong := 1, channels := 2
    ntsc := true, fastplay := 131, covoxAddr := 0xd600
    durations := fun k => if k = 0 then 61007 else -1, loops := fun k => decide (k = 0) }

instance (c : Nat) : Decidable (TextChar c) := by unfold TextChar SapChar; infer_instance

theorem sampleInfo_expressible : Expressible sampleInfo 66 0x1000 0x1003 := by
  have t : ∀ s : List Nat, (s.all (fun c => decide (TextChar c)) = true) → s ≠ ascii "<?>" → SapText s :=
    fun s h1 h2 => ⟨fun c hc => by simpa using List.all_eq_true.1 h1 c hc, h2⟩
  refine ⟨t _ (by decide) (by decide), t _ (by decide) (by decide), t _ (by decide) (by decide), by decide, by decide,
    by decide, by decide, by decide, by decide, by decide, by decide, 1, by decide, ?_, ?_⟩
  · intro k hk
    have : k = 0 := by omega
    subst this; decide
  · intro k hk
    have h0 : k ≠ 0 := by omega
    simp [sampleInfo, h0]

example : (headerBytes sampleInfo 66 0x1000 0x1003) =
    ascii "SAP\r\nAUTHOR \"A. B \"C\"\"\r\nNAME \"<?>\"\r\nDATE \"1999\"\r\nSONGS 2\r\nDEFSONG 1\r\nSTEREO\r\nNTSC\r\nTYPE B\r\nFASTPLAY 131\r\nINIT 1000\r\nPLAYER 1003\r\nCOVOX D600\r\nTIME 01:01.007 LOOP\r\n" := by
  decide +kernel

/-- Counterexample beyond the hypotheses of C06: a duration of 100 minutes is accepted by
`SetDuration`, but the header written for it cannot be loaded. -/
theorem C06_neg_long_duration :
    ∃ i : Info, i.durations 0 = 6000000 ∧
      ∃ hdr, Emits (writeSapHeader i 68 0x1000 (-1)) hdr ∧
        parseSap (Info.blank []) (hdr ++ [0xff, 0xff, 0, 16, 0, 16, 96]) = .error (.thrown "Missing TIME argument") := by
  refine ⟨{ durations := fun _ => 6000000, type := .sapD, init := 0x1000 }, rfl, _,
    emits_header _ 68 0x1000 (-1) (by decide) (by simp [AllBytes]) (by simp [AllBytes]) (by simp [AllBytes]), ?_⟩
  have : ∀ r : M Info, (match r with | .error (.thrown s) => s == "Missing TIME argument" | _ => false) = true →
      r = .error (.thrown "Missing TIME argument") := by
    intro r hr
    match r with
    | .error (.thrown s) => simp at hr; rw [hr]
    | .error .ub => simp at hr
    | .error .fuel => simp at hr
    | .ok _ => simp at hr
  apply this
  decide +kernel

/-- Counterexample: a title `<?>`, which `SetTitle` accepts, is lost. -/
theorem C06_neg_unknown_text :
    ∃ i : Info, checkValidText i.title = .ok () ∧ i.title = ascii "<?>" ∧
      ∃ hdr, Emits (writeSapHeader i 68 0x1000 (-1)) hdr ∧
        ∃ j, parseSap (Info.blank []) (hdr ++ [0xff, 0xff, 0, 16, 0, 16, 96]) = .ok j ∧ j.title = [] := by
  refine ⟨{ title := ascii "<?>", type := .sapD, init := 0x1000 }, by decide, rfl, _,
    emits_header _ 68 0x1000 (-1) (by decide) (by simp [AllBytes]) (allBytes_ascii rfl) (by simp [AllBytes]), ?_⟩
  have : ∀ r : M Info, (match r with | .ok j => j.title == [] | _ => false) = true → ∃ j, r = .ok j ∧ j.title = [] := by
    intro r hr
    match r with
    | .error _ => simp at hr
    | .ok j => exact ⟨j, rfl, by simpa using hr⟩
  apply this
  decide +kernel

end Asap.Props
