import Verif.Lemmas.ConvAny

/-! # C49, C50, C51: converting files from the command line -/

namespace Asap.Props
open Asap Asap.Spec Asap.Conv Asap.Spec.Conv

theorem processFile_eq {fuel calls : Nat} {blank : Machine} {e : Env} {input file pre ext dir stem : List Nat} (h : Told e input file pre ext dir stem) :
    processFile fuel calls blank input e = convert fuel calls blank input (file.take 65000) ext { e with song := -1 } := by
  have hext : extension (pre ++ 46 :: ext) = some ext := by
    unfold extension
    rw [lastDot_append h.oneDot, Option.map_some, List.drop_append]
    simp
  unfold processFile
  rw [bind_ok (show Conv.get id e = (.ok e, e) from rfl)]
  rw [h.pattern]
  dsimp only
  rw [h.contents]
  dsimp only
  rw [hext]
  rfl

theorem take_bytes {file : List Nat} (h : AllBytes file) (n : Nat) : AllBytes (file.take n) := fun b hb => h b (List.mem_of_mem_take hb)

theorem load_facts {fuel : Nat} {blank m0 : Machine} {o : Opts} {input m : List Nat} (hn : New blank o) (hb : AllBytes m)
    (h : Loader.load fuel (some input) m (blank.setSampleRate o.rate) = .ok m0) :
    ∃ i, infoLoad fuel (some input) m = .ok i ∧ m0.info = { i with player := m0.info.player } ∧ CanPlay m0 ∧ m0.silence ≤ 0 ∧ m0.rate = o.rate ∧
      ∀ k, -1 ≤ m0.info.durations k := by
  obtain ⟨i, h1, h2, h3, _⟩ := load_only hb (machine := blank.setSampleRate o.rate) hn.cpu.mem h
  refine ⟨i, h1, h2, load_canPlay hb (machine := blank.setSampleRate o.rate) hn.cpu hn.rate h, by rw [h3]; exact hn.silence, by rw [h3]; rfl, ?_⟩
  rw [h2]
  exact (C47_loaded_sane fuel _ m hb i h1).durations

theorem tagged_canPlay {o : Opts} {m0 : Machine} (h : CanPlay m0) : CanPlay { m0 with info := tagged o m0.info } :=
  ⟨h.cpu, h.rate, h.songs, h.channels, h.music⟩

/-- C50.  Whenever `asapconv` finishes with a conversion to WAV or raw samples: the outputs are recordings of all songs, each in its own file, if the
name of the output has the number of the song, otherwise one recording, of the song selected or the default one.  Nothing else is changed. -/
theorem C50_sound (fuel calls : Nat) (blank : Machine) (e e1 : Env) (input file pre ext dir stem : List Nat) (wav : Bool)
    (ht : Told e input file pre ext dir stem) (hn : New blank e.opts)
    (hk : ext.map lower = if wav = true then ascii "wav" else ascii "raw")
    (h : processFile fuel calls blank input e = (.ok (), e1)) :
    ∃ m0, Loader.load fuel (some input) (file.take 65000) (blank.setSampleRate e.opts.rate) = .ok m0 ∧
      Outputs (decide (pre = ascii "-")) (MakesSound e.opts wav (file.take 65000) pre ext dir stem) (selected e.opts m0.info (pre ++ 46 :: ext))
        { m0 with info := tagged e.opts m0.info } (disk e) (disk e1) := by
  rw [processFile_eq ht] at h
  have hc : convertToWav fuel calls blank input (file.take 65000) wav { e with song := -1 } = (.ok (), e1) := by
    unfold convert at h
    cases wav with
    | true =>
      rw [if_pos (show ext.map lower = ascii "wav" from hk)] at h
      exact h
    | false =>
      rw [if_neg (by rw [hk]; decide), if_pos (show ext.map lower = ascii "raw" from hk)] at h
      exact h
  unfold convertToWav at hc
  obtain ⟨m, e2, k1, k2⟩ := bind_inv hc
  obtain ⟨m0, a1, a2, a3⟩ := loadModule_inv k1
  obtain ⟨i, b1, b2, b3, b4, b5, b6⟩ := load_facts hn (take_bytes ht.bytes _) a1
  obtain ⟨x, c1, c2, c3⟩ := ht.inputName
  have := wavLoop_inv (o := { e.opts with name := none }) ht.pattern ht.oneDot c1 c2 ht.folder c3 40 (by rw [a3]) (by rw [a3]; exact Int.le_refl _) (by rw [a2]; exact tagged_canPlay b3)
    (by rw [a2]; exact b4) (by rw [a2]; exact b5) (by rw [a2]; exact b6) k2
  refine ⟨m0, a1, ?_⟩
  have h2 := this.1
  rw [a3, pending_start, a2] at h2
  exact h2

theorem outputs_finite {o : Opts} {wav std : Bool} {contents pre ext dir stem : List Nat} {info : Info} : ∀ {songs : List Int} {m : Machine} {d d' : Disk}, m.info = info →
    Outputs std (MakesSound o wav contents pre ext dir stem) songs m d d' → ∀ song ∈ songs, 0 < milliseconds o info song
  | [], _, _, _, _, _, _, hs => nomatch hs
  | s :: songs, m, d, d', hi, h, song, hs => by
    obtain ⟨m', name, bytes, h1, h2⟩ := h
    obtain ⟨g1, g2, _⟩ := h1.2
    rcases List.mem_cons.mp hs with rfl | hs
    · rw [← hi]; exact g1
    · exact outputs_finite (g2.trans hi) h2 song hs

/-- C50.  A conversion that includes a song with the duration 0 never finishes, however long it runs. -/
theorem C50_endless (fuel calls : Nat) (blank : Machine) (e e1 : Env) (input file pre ext dir stem : List Nat) (wav : Bool)
    (ht : Told e input file pre ext dir stem) (hn : New blank e.opts)
    (hk : ext.map lower = if wav = true then ascii "wav" else ascii "raw") (m0 : Machine)
    (hl : Loader.load fuel (some input) (file.take 65000) (blank.setSampleRate e.opts.rate) = .ok m0) (song : Int)
    (hs : song ∈ selected e.opts m0.info (pre ++ 46 :: ext)) (hd : milliseconds e.opts m0.info song = 0) :
    processFile fuel calls blank input e ≠ (.ok (), e1) := by
  intro h
  obtain ⟨m, h1, h2⟩ := C50_sound fuel calls blank e e1 input file pre ext dir stem wav ht hn hk h
  rw [hl] at h1
  injection h1 with h1
  rw [← h1] at h2
  have := outputs_finite (info := tagged e.opts m0.info) rfl h2 song hs
  rw [show milliseconds e.opts (tagged e.opts m0.info) song = milliseconds e.opts m0.info song from rfl] at this
  omega

/-- C51.  Whenever `asapconv` finishes with a conversion to another format: the outputs are what `ASAPWriter.Write` gives for the module with the options
applied, with the names as told.  Nothing else is changed. -/
theorem C51_module (fuel calls : Nat) (blank : Machine) (e e1 : Env) (input file pre ext dir stem : List Nat)
    (ht : Told e input file pre ext dir stem)
    (hk : ext.map lower ≠ ascii "wav" ∧ ext.map lower ≠ ascii "raw" ∧ ext.map lower ≠ ascii "mp3")
    (h : processFile fuel calls blank input e = (.ok (), e1)) :
    ∃ i, infoLoad fuel (some input) (file.take 65000) = .ok i ∧ (0 ≤ e.opts.ntsc → (tagged e.opts i).canSetNtsc = true) ∧
      Outputs (decide (pre = ascii "-")) (MakesModule fuel e.opts (decide (ext.map lower = ascii "xex")) (file.take 65000) pre ext dir stem)
        (selected e.opts i (pre ++ 46 :: ext)) (forModule e.opts i) (disk e) (disk e1) := by
  rw [processFile_eq ht] at h
  unfold convert at h
  rw [if_neg hk.1, if_neg hk.2.1, if_neg hk.2.2] at h
  unfold convertToModule at h
  obtain ⟨x, c1, c2, c3⟩ := ht.inputName
  rw [if_neg (by rw [c1]; simp)] at h
  obtain ⟨i, e2, k1, h2⟩ := bind_inv h
  obtain ⟨a1, a2⟩ := lift_inv k1
  rw [a2] at h2
  obtain ⟨i2, e3, k3, h3⟩ := bind_inv h2
  obtain ⟨a3, a4⟩ := applyTags_inv k3
  rw [a3, a4] at h3
  obtain ⟨i3, e4, k4, h4⟩ := bind_inv h3
  have hnt : i3 = (if 0 ≤ e.opts.ntsc then (tagged e.opts i).setNtsc (decide (e.opts.ntsc ≠ 0)) else tagged e.opts i) ∧
      e4 = { e with song := -1, opts := { e.opts with name := none } } ∧ (0 ≤ e.opts.ntsc → (tagged e.opts i).canSetNtsc = true) := by
    unfold applyNtsc at k4
    obtain ⟨o, e5, k5, k6⟩ := bind_inv k4
    obtain ⟨y1, y2⟩ := get_inv k5
    rw [y1, y2] at k6
    dsimp only at k6
    by_cases hn : e.opts.ntsc ≥ 0
    · rw [if_pos hn] at k6
      by_cases hs : (tagged e.opts i).canSetNtsc = true
      · rw [if_pos hs] at k6
        obtain ⟨z1, z2⟩ := pure_inv k6
        rw [if_pos hn]
        exact ⟨z1, z2, fun _ => hs⟩
      · rw [if_neg hs] at k6
        cases k6
    · rw [if_neg hn] at k6
      obtain ⟨z1, z2⟩ := pure_inv k6
      rw [if_neg hn]
      exact ⟨z1, z2, fun h => absurd h hn⟩
  obtain ⟨d1, d2, d3⟩ := hnt
  obtain ⟨o, e6, k7, k8⟩ := bind_inv h4
  obtain ⟨y1, y2⟩ := get_inv k7
  rw [y1, y2, d2] at k8
  have he : (if e.opts.address ≥ 0 then (i3.setMusicAddress e.opts.address).2 else i3) = forModule e.opts i := by
    unfold forModule
    dsimp only
    rw [← d1]
    unfold Info.setMusicAddress
    by_cases h1 : 0 ≤ e.opts.address
    · by_cases h2 : e.opts.address < 0xffff
      · rw [if_pos h1, if_neg (by omega), if_pos ⟨h1, h2⟩]
      · rw [if_pos h1, if_pos (by omega), if_neg (fun h => h2 h.2)]
    · rw [if_neg h1, if_neg (fun h => h1 h.1)]
  rw [show (if ({ e with song := -1, opts := { e.opts with name := none } } : Env).opts.address ≥ 0 then (i3.setMusicAddress ({ e with song := -1, opts := { e.opts with name := none } } : Env).opts.address).2 else i3) = forModule e.opts i from he] at k8
  have := moduleLoop_inv (o := { e.opts with name := none }) ht.pattern ht.oneDot c1 c2 ht.folder c3 40 rfl (Int.le_refl _) k8
  have h5 := this.1
  rw [pending_start] at h5
  have hsel : selected { e.opts with name := none } (forModule e.opts i) (pre ++ 46 :: ext) = selected e.opts i (pre ++ 46 :: ext) := by
    have h1 : (forModule e.opts i).songs = i.songs ∧ (forModule e.opts i).defaultSong = i.defaultSong := by
      unfold forModule
      dsimp only
      split <;> split <;> exact ⟨rfl, rfl⟩
    unfold selected
    rw [h1.1, h1.2]
  rw [hsel] at h5
  exact ⟨i, a1, d3, h5⟩

/-! ### Names -/

/-- C49.  Whatever `asapconv` does with a file, whether it succeeds or fails: it changes no files but those with names made from the pattern, the name of the
input and the texts in the file or on the command line, for some song.  It changes none if the file is not accepted. -/
theorem C49_only_outputs (fuel calls : Nat) (blank : Machine) (e : Env) (input file pre ext dir stem : List Nat)
    (ht : Told e input file pre ext dir stem) (hn : New blank e.opts) (n : List Nat)
    (h : (processFile fuel calls blank input e).2.files n ≠ e.files n) :
    ∃ i info song, infoLoad fuel (some input) (file.take 65000) = .ok i ∧ SameTexts e.opts i info ∧ Named info (file.take 65000) pre ext dir stem song n := by
  rw [processFile_eq ht] at h
  obtain ⟨x, c1, c2, c3⟩ := ht.inputName
  have wav : ∀ header, (convertToWav fuel calls blank input (file.take 65000) header { e with song := -1 }).2.files n ≠ e.files n →
      ∃ i info song, infoLoad fuel (some input) (file.take 65000) = .ok i ∧ SameTexts e.opts i info ∧ Named info (file.take 65000) pre ext dir stem song n := by
    intro header h
    unfold convertToWav at h
    rcases hl : loadModule fuel blank input (file.take 65000) { e with song := -1 } with ⟨s | m, e1⟩
    · rw [bind_err hl] at h
      have hq : Quiet (loadModule fuel blank input (file.take 65000)) := by
        unfold loadModule
        exact Quiet.bind (Quiet.get _) fun o => Quiet.bind (Quiet.lift _) fun m => Quiet.bind (quiet_applyTags _) fun i => Quiet.pure _
      have := congrArg Disk.files (hq { e with song := -1 }).1
      rw [hl] at this
      exact absurd (congrFun this n) h
    · rw [bind_ok hl] at h
      obtain ⟨m0, a1, a2, a3⟩ := loadModule_inv hl
      obtain ⟨i, b1, b2, b3, b4, b5, b6⟩ := load_facts hn (take_bytes ht.bytes _) a1
      have key := wavLoop_others (calls := calls) (contents := file.take 65000) (header := header) (info := tagged e.opts m0.info) (pre := pre) (files := e.files) ht.oneDot c1 c2 ht.folder c3 b6 40 (m := m) (e := e1)
        (by rw [a3]; exact ht.pattern) (by rw [a2]; exact tagged_canPlay b3) (by rw [a2]; exact b4) (by rw [a2, a3]; exact b5) (by rw [a2])
        (fun k _ => by rw [a3])
      have hex : ∃ song, Named (tagged e.opts m0.info) (file.take 65000) pre ext dir stem song n := by
        rcases Classical.em (∃ song, Named (tagged e.opts m0.info) (file.take 65000) pre ext dir stem song n) with h1 | h1
        · exact h1
        · exact absurd (key n h1) h
      obtain ⟨song, hs⟩ := hex
      refine ⟨i, _, song, b1, ?_, hs⟩
      rw [b2]
      exact ⟨rfl, rfl, rfl, rfl⟩
  unfold convert at h
  by_cases h1 : ext.map lower = ascii "wav"
  · rw [if_pos h1] at h; exact wav true h
  rw [if_neg h1] at h
  by_cases h2 : ext.map lower = ascii "raw"
  · rw [if_pos h2] at h; exact wav false h
  rw [if_neg h2] at h
  by_cases h3 : ext.map lower = ascii "mp3"
  · rw [if_pos h3] at h; exact absurd rfl h
  rw [if_neg h3] at h
  unfold convertToModule at h
  rw [if_neg (by rw [c1]; simp)] at h
  rcases hl : infoLoad fuel (some input) (file.take 65000) with f | i
  · rcases hx : lift (infoLoad fuel (some input) (file.take 65000)) { e with song := -1 } with ⟨s | i, e1⟩
    · rw [hl] at hx
      rw [hl, bind_err hx] at h
      have := congrArg Disk.files (Quiet.lift (.error f : M Info) { e with song := -1 }).1
      rw [hx] at this
      exact absurd (congrFun this n) h
    · have := (lift_inv hx).1
      rw [hl] at this
      cases this
  · have hx : lift (infoLoad fuel (some input) (file.take 65000)) { e with song := -1 } = (.ok i, { e with song := -1 }) := by rw [hl]; rfl
    rw [bind_ok hx] at h
    have hq : Quiet (applyTags i >>= fun info => applyNtsc info) := Quiet.bind (quiet_applyTags _) fun i => by
      unfold applyNtsc
      exact Quiet.bind (Quiet.get _) fun o => Quiet.ite (Quiet.ite (Quiet.pure _) (Quiet.stop _)) (Quiet.pure _)
    rcases ha : applyTags i { e with song := -1 } with ⟨s | i1, e2⟩
    · rw [bind_err ha] at h
      have := congrArg Disk.files (quiet_applyTags i { e with song := -1 }).1
      rw [ha] at this
      exact absurd (congrFun this n) h
    rw [bind_ok ha] at h
    obtain ⟨a1, a2⟩ := applyTags_inv ha
    have hq2 : Quiet (applyNtsc i1) := by
      unfold applyNtsc
      exact Quiet.bind (Quiet.get _) fun o => Quiet.ite (Quiet.ite (Quiet.pure _) (Quiet.stop _)) (Quiet.pure _)
    have hdisk : disk (applyNtsc i1 e2).2 = disk e := by
      rw [(hq2 e2).1, a2]; rfl
    have hout : (applyNtsc i1 e2).2.opts.output = some (pre ++ 46 :: ext) := by
      rw [(hq2 e2).2, a2]; exact ht.pattern
    rcases hb : applyNtsc i1 e2 with ⟨s | i2, e3⟩
    · rw [bind_err hb] at h
      rw [hb] at hdisk
      exact absurd (congrFun (congrArg Disk.files hdisk) n) h
    rw [bind_ok hb] at h
    rw [hb] at hdisk hout
    have htexts : SameTexts e.opts i i2 := by
      unfold applyNtsc at hb
      obtain ⟨o, e5, k5, k6⟩ := bind_inv hb
      rw [(get_inv k5).1, (get_inv k5).2] at k6
      split at k6
      · split at k6
        · obtain ⟨z1, _⟩ := pure_inv k6
          rw [z1, a1]; exact ⟨rfl, rfl, rfl, rfl⟩
        · cases k6
      · obtain ⟨z1, _⟩ := pure_inv k6
        rw [z1, a1]; exact ⟨rfl, rfl, rfl, rfl⟩
    rw [bind_ok (show Conv.get (·.opts) e3 = (.ok e3.opts, e3) from rfl)] at h
    generalize hi3 : (if e3.opts.address ≥ 0 then (i2.setMusicAddress e3.opts.address).2 else i2) = i3 at h
    have htexts3 : SameTexts e.opts i i3 := by
      rw [← hi3]
      unfold Info.setMusicAddress
      split
      · split <;> exact htexts
      · exact htexts
    have key := moduleLoop_others (fuel := fuel) (contents := file.take 65000) (xex := decide (ext.map lower = ascii "xex")) (info := i3) (pre := pre) (files := e.files)
      ht.oneDot c1 c2 ht.folder c3 40 (i := i3) (e := e3) hout (fun _ => rfl) (fun k _ => congrFun (congrArg Disk.files hdisk) k)
    rcases Classical.em (∃ song, Named i3 (file.take 65000) pre ext dir stem song n) with h1 | h1
    · obtain ⟨song, hs⟩ := h1
      exact ⟨i, i3, song, rfl, htexts3, hs⟩
    · exact absurd (key n h1) h

theorem expand_prefix (tag : Nat → Option (List Nat)) (s : List Nat) : ∀ d : List Nat, 37 ∉ d → expand tag (d ++ s) = (expand tag s).map (d ++ ·)
  | [], _ => by
    show expand tag s = _
    cases expand tag s <;> rfl
  | c :: d, h => by
    have hc : c ≠ 37 := fun e => h (by rw [e]; simp)
    have ih := expand_prefix tag s d (fun e => h (by simp [e]))
    have : expand tag (c :: (d ++ s)) = (expand tag (d ++ s)).map (c :: ·) := by
      rcases hx : d ++ s with _ | ⟨x, rest⟩
      · simp only [expand, if_neg hc]; rfl
      · simp only [expand, if_neg hc]
    rw [List.cons_append, this, ih]
    cases expand tag s <;> rfl

theorem plain_cleaned (s : List Nat) : Plain (cleaned s) := fun c hc => by
  unfold cleaned at hc
  obtain ⟨x, _, rfl⟩ := List.mem_map.mp hc
  split
  · intro h; rcases h with h | h <;> cases h
  · rename_i hx
    intro h
    rcases h with rfl | rfl <;> exact hx (by decide)

theorem plain_append {a b : List Nat} (ha : Plain a) (hb : Plain b) : Plain (a ++ b) := fun c hc => (List.mem_append.mp hc).elim (ha c) (hb c)

theorem expand_plain (tag : Nat → Option (List Nat)) : ∀ (n : Nat) {s r : List Nat}, s.length ≤ n → Plain s → expand tag s = some r → Plain r := by
  intro n
  induction n with
  | zero =>
    intro s r hn _ h
    obtain rfl : s = [] := List.length_eq_zero_iff.mp (by omega)
    cases h
    intro c hc; cases hc
  | succ n ih =>
    intro s r hn hs h
    match s with
    | [] => cases h; intro c hc; cases hc
    | [c] =>
      simp only [expand] at h
      split at h
      · cases h
      · cases h; exact hs
    | c :: d :: rest =>
      simp only [expand] at h
      by_cases hc : c = 37
      · rw [if_pos hc] at h
        rcases ht : tag d with _ | t
        · rw [ht] at h; cases h
        rcases hx : expand tag rest with _ | z
        · rw [ht, hx] at h; cases h
        rw [ht, hx] at h
        cases h
        exact plain_append (plain_cleaned t) (ih (by simp at hn; omega) (fun y hy => hs y (by simp [hy])) hx)
      · rw [if_neg hc] at h
        rcases hx : expand tag (d :: rest) with _ | z
        · rw [hx] at h; cases h
        rw [hx] at h
        cases h
        intro y hy
        rcases List.mem_cons.mp hy with rfl | hy
        · exact hs y (by simp)
        · exact ih (s := d :: rest) (by simp at hn ⊢; omega) (fun y hy => hs y (List.mem_cons_of_mem _ hy)) hx y hy

/-- C49.  All files that are changed are in the folder of the pattern, or in that of the input if the pattern is only an extension, whatever is in the
file and on the command line: texts do not lead elsewhere.  This is for folders without placeholders. -/
theorem C49_folder (fuel calls : Nat) (blank : Machine) (e : Env) (input file folder name ext dir stem : List Nat)
    (ht : Told e input file (folder ++ name) ext dir stem) (hn : New blank e.opts) (hf : Folder folder) (hp : Plain (name ++ 46 :: ext)) (h37 : 37 ∉ folder) (n : List Nat)
    (h : (processFile fuel calls blank input e).2.files n ≠ e.files n) :
    ∃ plain, Plain plain ∧ n = (if folder ++ name = [] then dir else folder) ++ plain := by
  obtain ⟨i, info, song, _, _, hnm, _⟩ := C49_only_outputs fuel calls blank e input file (folder ++ name) ext dir stem ht hn n h
  obtain ⟨x, c1, c2, c3⟩ := ht.inputName
  have hstem : Plain stem := fun c hc => c3 c (by simp [hc])
  unfold outputName at hnm
  rw [expand_prefix _ _ _ h37] at hnm
  rcases h1 : expand (tags info (file.take 65000) song) name with _ | p
  · rw [h1] at hnm; cases hnm
  rcases h2 : expand (tags info (file.take 65000) song) (46 :: ext) with _ | y
  · rw [h1, h2] at hnm; cases hnm
  rw [h1, h2] at hnm
  have hpp := expand_plain _ _ (Nat.le_refl _) (fun c hc => hp c (by simp [hc])) h1
  have hpy := expand_plain _ _ (Nat.le_refl _) (fun c hc => hp c (List.mem_append_right _ hc)) h2
  replace hnm : (if folder ++ name = [] then dir ++ stem ++ y
    else if (folder ++ name).getLast? = some 47 ∨ (folder ++ name).getLast? = some 92 then (folder ++ p) ++ stem ++ y else (folder ++ p) ++ y) = n := by
    injection hnm
  by_cases he : folder ++ name = []
  · rw [if_pos he] at hnm ⊢
    exact ⟨stem ++ y, plain_append hstem hpy, by rw [← hnm, List.append_assoc]⟩
  · rw [if_neg he] at hnm ⊢
    by_cases hl : (folder ++ name).getLast? = some 47 ∨ (folder ++ name).getLast? = some 92
    · rw [if_pos hl] at hnm
      exact ⟨p ++ stem ++ y, plain_append (plain_append hpp hstem) hpy, by rw [← hnm]; simp⟩
    · rw [if_neg hl] at hnm
      exact ⟨p ++ y, plain_append hpp hpy, by rw [← hnm]; simp⟩

end Asap.Props
