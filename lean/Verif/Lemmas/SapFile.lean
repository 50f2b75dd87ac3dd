import Verif.Lemmas.SapRoundtrip

/-! The whole header, written and read back. -/

namespace Asap.Sap
open Asap Asap.Spec

theorem runs_opt {c : Prop} [Decidable c] {a : List Line} {s s1 : St} (h : c → Runs a s s1) (h' : ¬ c → s1 = s) :
    Runs (if c then a else []) s s1 := by
  split
  · exact h ‹_›
  · rw [h' ‹_›]; exact .nil _

/-- State after the header lines. -/
theorem runs_header {i : Info} {letter : Nat} {init player : Int} (h : Expressible i letter init player) (name : List Nat) :
    ∃ s, Runs (headerLines i letter init player)
        { info := { Info.blank name with fastplay := -1 }, type := 0, durationIndex := 0 } s ∧ s.type = letter ∧
      s.info = { reloaded i letter init player name 0 with
        type := .sapB
        fastplay := if i.fastplay ≠ (if letter = 83 then 78 else 312) ∨ i.ntsc = true then i.fastplay else -1 } := by
  obtain ⟨n, hn, ht1, ht2⟩ := h.times
  unfold headerLines
  have hl : letter = 66 ∨ letter = 67 ∨ letter = 68 ∨ letter = 83 := by have := h.kind; omega
  obtain ⟨fp, hfp⟩ := Int.eq_ofNat_of_zero_le (show 0 ≤ i.fastplay by have := h.fastplay; omega)
  have hfp' : 1 ≤ fp ∧ fp ≤ 32767 := by have := h.fastplay; omega
  have r1 : ∀ s, Runs [(ascii "AUTHOR", some (quoted i.author)), (ascii "NAME", some (quoted i.title)),
      (ascii "DATE", some (quoted i.date))] s
      { s with info := { s.info with author := i.author, title := i.title, date := i.date } } := fun s =>
    (runs_author h.author.1 h.author.2).append ((runs_title h.title.1 h.title.2).append (runs_date h.date.1 h.date.2))
  have r2 : ∀ s : St, s.info.songs = 1 → s.info.defaultSong = 0 →
      Runs (if i.songs > 1 then (ascii "SONGS", some (decText i.songs)) ::
        (if i.defaultSong > 0 then [(ascii "DEFSONG", some (decText i.defaultSong))] else []) else []) s
      { s with info := { s.info with songs := i.songs, defaultSong := i.defaultSong } } := by
    intro s h1 h2
    have hs := h.songs; have hd := h.defaultSong
    refine runs_opt (fun _ => ?_) fun hc => ?_
    · refine (runs_songs hs.1 hs.2).append (b := if i.defaultSong > 0 then _ else []) (runs_opt (fun _ => ?_) fun hc => ?_)
      · exact runs_defsong (by omega)
      · have : i.defaultSong = s.info.defaultSong := by omega
        rw [this]
    · have e1 : i.songs = s.info.songs := by omega
      have e2 : i.defaultSong = s.info.defaultSong := by omega
      rw [e1, e2]
  have r3 : ∀ s : St, s.info.channels = 1 → Runs (if i.channels > 1 then [(ascii "STEREO", none)] else []) s
      { s with info := { s.info with channels := i.channels } } := by
    intro s h1
    have hc := h.channels
    refine runs_opt (fun _ => ?_) fun hc => ?_
    · have : i.channels = 2 := by omega
      rw [this]; exact runs_stereo
    · have e1 : i.channels = s.info.channels := by omega
      rw [e1]
  have r4 : ∀ s : St, s.info.ntsc = false → Runs (if i.ntsc = true then [(ascii "NTSC", none)] else []) s
      { s with info := { s.info with ntsc := i.ntsc } } := by
    intro s h1
    refine runs_opt (fun hc => ?_) fun hc => ?_
    · rw [hc]; exact runs_ntsc
    · have e1 : i.ntsc = s.info.ntsc := by rw [h1]; simpa using hc
      rw [e1]
  have r6 : ∀ s : St, s.info.fastplay = -1 →
      Runs (if i.fastplay ≠ (if letter = 83 then 78 else 312) ∨ i.ntsc = true then
        [(ascii "FASTPLAY", some (decText i.fastplay.toNat))] else []) s
      { s with info := { s.info with
        fastplay := if i.fastplay ≠ (if letter = 83 then 78 else 312) ∨ i.ntsc = true then i.fastplay else -1 } } := by
    intro s h1
    refine runs_opt (fun hc => ?_) fun hc => ?_
    · rw [if_pos hc, hfp, Int.toNat_natCast]; exact runs_fastplay hfp'.1 hfp'.2
    · rw [if_neg hc, ← h1]
  have r7 : ∀ s : St, s.info.music = -1 → Runs (if letter = 67 then hexLines (ascii "MUSIC") i.music else []) s
      { s with info := { s.info with music := if letter = 67 then i.music else -1 } } := by
    intro s h1
    refine runs_opt (fun hc => ?_) fun hc => ?_
    · have := h.kind
      rw [if_pos hc]; exact runs_music (by omega) (by omega) h1
    · rw [if_neg hc, ← h1]
  obtain ⟨s', hr, hty, hin⟩ := runs_times i i.songs 0
    { info := { Info.blank name with
        author := i.author, title := i.title, date := i.date, songs := i.songs, defaultSong := i.defaultSong
        channels := i.channels, ntsc := i.ntsc
        fastplay := if i.fastplay ≠ (if letter = 83 then 78 else 312) ∨ i.ntsc = true then i.fastplay else -1
        music := if letter = 67 then i.music else -1
        init := init, player := player, covoxAddr := i.covoxAddr }, type := letter, durationIndex := 0 }
    rfl (by have := h.songs; omega) (fun _ _ => rfl) (fun _ _ => rfl) (by omega) ⟨n, by omega, ht1, ht2⟩
  refine ⟨s', ?_, hty, ?_⟩
  · refine (r1 _).append ((r2 _ rfl rfl).append ((r3 _ rfl).append ((r4 _ rfl).append ((runs_type hl).append
      ((r6 _ rfl).append ((r7 _ rfl).append ((runs_init h.initRange.1 h.initRange.2 rfl).append
      ((runs_player h.playerRange.1 h.playerRange.2 rfl).append ((runs_covox h.covox rfl).append ?_)))))))))
    exact hr
  · rw [hin]; rfl

theorem headerBytes_length (i : Info) (letter : Nat) (init player : Int) :
    30 ≤ (headerBytes i letter init player).length := by
  simp [headerBytes, headerLines, lineBytes, argBytes, quoted, ascii]
  omega

theorem length_le_flatMap (ls : List Line) : ls.length ≤ (ls.flatMap lineBytes).length := by
  induction ls with
  | nil => simp
  | cons l ls ih =>
    rw [List.flatMap_cons, List.length_append, List.length_cons]
    have : 2 ≤ (lineBytes l).length := by simp [lineBytes]; omega
    omega

theorem parseSap_header {i : Info} {letter : Nat} {init player : Int} (h : Expressible i letter init player)
    (name rest : List Nat) (hr : 5 ≤ rest.length) :
    parseSap (Info.blank name) (headerBytes i letter init player ++ 0xff :: 0xff :: rest) =
      .ok (reloaded i letter init player name (headerBytes i letter init player).length) := by
  obtain ⟨s, hruns, hty, hin⟩ := runs_header h name
  unfold parseSap
  have hv : validateSap (headerBytes i letter init player ++ 0xff :: 0xff :: rest) = .ok true := by
    unfold validateSap
    rw [if_pos (by have := headerBytes_length i letter init player; simp; omega)]
    have := hasStringAt_self [] (ascii "SAP\r\n") ((headerLines i letter init player).flatMap lineBytes ++ 0xff :: 0xff :: rest)
    simpa [headerBytes] using this
  rw [hv, ok_bind, if_neg (by decide)]
  have hp := parseLines_runs (ascii "SAP\r\n") (headerLines i letter init player) (0xff :: rest)
    (headerBytes i letter init player ++ 0xff :: 0xff :: rest).length _ s hruns (by simp; omega) (by
      have := length_le_flatMap (headerLines i letter init player)
      unfold headerBytes; simp only [List.length_append, List.length_cons]; omega)
  have e : ascii "SAP\r\n" ++ ((headerLines i letter init player).flatMap lineBytes ++ 0xff :: 0xff :: rest) =
      headerBytes i letter init player ++ 0xff :: 0xff :: rest := by simp [headerBytes]
  rw [e] at hp
  have e5 : (ascii "SAP\r\n").length = 5 := by decide
  have e6 : 5 + ((headerLines i letter init player).flatMap lineBytes).length = (headerBytes i letter init player).length := by
    unfold headerBytes; rw [List.length_append, e5]
  rw [e5, e6] at hp
  rw [hp, ok_bind]
  show (if s.info.defaultSong ≥ s.info.songs then _ else _) = _
  have hds := h.defaultSong
  rw [if_neg (show ¬ (s.info.defaultSong ≥ s.info.songs) by rw [hin]; show ¬ (i.defaultSong ≥ i.songs); omega)]
  have hff : rd (headerBytes i letter init player ++ 0xff :: 0xff :: rest) ((headerBytes i letter init player).length + 1) = .ok 0xff := by
    rw [rd_off]; rfl
  have hfast := h.fastplay
  have hn := h.kind
  rw [hff]
  have fin : finishType s = .ok { s.info with
      type := typeOfLetter letter
      fastplay := if letter = 83 ∧ s.info.fastplay < 0 then 78 else s.info.fastplay } := by
    unfold finishType
    simp only [hty, hin, reloaded]
    rcases hn with ⟨rfl, a, b⟩ | ⟨rfl, a, b, c⟩ | ⟨rfl, a⟩ | ⟨rfl, a⟩
    · rw [if_pos rfl, if_neg (by omega), if_neg (by omega)]
      simp [typeOfLetter]
    · rw [if_neg (by omega), if_pos rfl, if_neg (by omega), if_pos rfl, if_neg (by omega)]
      simp [typeOfLetter]
    · rw [if_neg (by omega), if_neg (by omega), if_pos rfl, if_neg (by omega)]
      simp [typeOfLetter]
    · rw [if_neg (by omega), if_neg (by omega), if_neg (by omega), if_pos rfl, if_neg (by omega)]
      simp [typeOfLetter]
  have fast : defaultFastplay { s.info with
      type := typeOfLetter letter
      fastplay := if letter = 83 ∧ s.info.fastplay < 0 then 78 else s.info.fastplay } =
      reloaded i letter init player name 0 := by
    rw [hin]
    unfold defaultFastplay reloaded
    simp only []
    by_cases hw : i.fastplay ≠ (if letter = 83 then 78 else 312) ∨ i.ntsc = true
    · rw [if_pos hw]
      have h1 : ¬ (letter = 83 ∧ i.fastplay < 0) := by omega
      rw [if_neg h1, if_neg (by omega)]
    · rw [if_neg hw]
      have hw' := not_or.1 hw
      have hfe : i.fastplay = if letter = 83 then 78 else 312 := by
        have := hw'.1; simpa using this
      by_cases h83 : letter = 83
      · rw [if_pos h83] at hfe
        simp [hfe, h83]
      · rw [if_neg h83] at hfe
        simp [hw'.2, hfe, h83]
  rw [fin, ok_bind, ok_bind, if_neg (by decide), fast]
  rfl

theorem textBytes {t : List Nat} (h : SapText t) : AllBytes t := by
  intro b hb
  have := h.1 b hb
  unfold TextChar SapChar at this
  omega

theorem Expressible.emits {i : Info} {letter : Nat} {init player : Int} (h : Expressible i letter init player) :
    Emits (writeSapHeader i letter init player) (headerBytes i letter init player) :=
  emits_header i letter init player (by have := h.kind; omega) (textBytes h.author) (textBytes h.title) (textBytes h.date)

end Asap.Sap
