import Verif.Lemmas.Dlt

/-!
# C11: Delta Music Composer modules
-/

namespace Asap.Props
open Asap Asap.Module Asap.Spec.Dlt

/-- C11.  For every file contents, loading a DLT module ends, and reads only bytes of the module and only positions of its tables:
it is accepted or rejected. -/
theorem C11_safe (name m : List Nat) (hb : AllBytes m) :
    (∃ i, parseDlt (Info.blank name) m = .ok i) ∨ ∃ msg, parseDlt (Info.blank name) m = .error (.thrown msg) := by
  have key : Post (fun _ => True) (parseDlt (Info.blank name) m) := by
    unfold parseDlt
    refine Post.ite (fun _ => trivial) fun h => ?_
    refine Post.bind (parseModule_post hb (by omega)) fun music _ => Post.ite (fun _ => trivial) fun _ => ?_
    refine Post.bind (dltSongs_post (by omega) hb 128 0 _ _ rfl (Nat.zero_le _) rfl) fun i _ => Post.ite (fun _ => trivial) fun _ => trivial
  match hx : parseDlt (Info.blank name) m with
  | .ok i => exact .inl ⟨i, rfl⟩
  | .error (.thrown msg) => exact .inr ⟨msg, rfl⟩
  | .error .ub => rw [hx] at key; exact absurd key id
  | .error .fuel => rw [hx] at key; exact absurd key id

/-- C11.  The songs found are exactly those of the module (the first 32 of them): each starts where the specification says, loops if
the specification says so and its duration is the time of its calls of the player, 312 scan lines each, in milliseconds rounded
down.  There is at least one.  The number of scan lines fits a 32-bit integer. -/
theorem C11_songs (name m : List Nat) (hb : AllBytes m) (i : Info) (h : parseDlt (Info.blank name) m = .ok i) :
    ∃ songs : List Song, Songs m (fun _ => false) 0 songs ∧ i.songs = min 32 songs.length ∧ 1 ≤ i.songs ∧
      (∀ k x, songs[k]? = some x → k < 32 →
        i.songPos k = x.start ∧ i.loops k = x.loop ∧ i.durations k = (x.calls : Int) * 312 * 38000 / 591149 ∧
        x.start < 128 ∧ (x.calls : Int) * 312 < 2 ^ 31) ∧
      (∀ k, i.songs ≤ k → i.durations k = -1) ∧
      i = { Info.blank name with
        type := .dlt, music := 0x2000, songs := i.songs, songPos := i.songPos, loops := i.loops, durations := i.durations } := by
  have key : Post (fun i => ∃ songs : List Song, Songs m (fun _ => false) 0 songs ∧ i.songs = min 32 songs.length ∧ 1 ≤ i.songs ∧
      (∀ k x, songs[k]? = some x → k < 32 →
        i.songPos k = x.start ∧ i.loops k = x.loop ∧ i.durations k = (x.calls : Int) * 312 * 38000 / 591149 ∧
        x.start < 128 ∧ (x.calls : Int) * 312 < 2 ^ 31) ∧
      (∀ k, i.songs ≤ k → i.durations k = -1) ∧
      i = { Info.blank name with
        type := .dlt, music := 0x2000, songs := i.songs, songPos := i.songPos, loops := i.loops, durations := i.durations })
      (parseDlt (Info.blank name) m) := by
    unfold parseDlt
    refine Post.ite (fun _ => trivial) fun h => ?_
    refine Post.bind (parseModule_post hb (by omega)) fun music _ => Post.ite (fun _ => trivial) fun hm => ?_
    have hm : music = 0x2000 := Decidable.not_not.mp hm
    subst hm
    refine Post.bind (dltSongs_post (by omega) hb 128 0 _ _ rfl (Nat.zero_le _) rfl) fun i hi => Post.ite (fun _ => trivial) fun h0 => ?_
    obtain ⟨h1, l, h2, h3, h4⟩ := hi
    have h3 : i.songs = min 32 l.length := by rw [h3]; show min 32 (0 + l.length) = _; rw [Nat.zero_add]
    refine ⟨l, h2, h3, by omega, fun k x hx hk => ?_, fun k hk => h1.unknown k hk, h1.rest⟩
    have := h4 k x hx (by show 0 + k < 32; omega)
    rw [show (0 : Nat) + k = k from Nat.zero_add k] at this
    refine ⟨this.1, this.2.1, this.2.2.1, this.2.2.2.1, ?_⟩
    have := this.2.2.2.2
    omega
  rw [h] at key
  exact key

/-- A module of zeros: one song of 128 lines of 64 rows. -/
def sampleDlt : List Nat := [0xff, 0xff, 0, 0x20, 0xff, 0x4b] ++ List.replicate 0x2c00 0

theorem sampleDlt_rd {i : Nat} (h : 6 ≤ i) (h' : i < 0x2c06) : rd sampleDlt i = .ok 0 := by
  unfold rd sampleDlt
  rw [List.getElem?_append_right (by simpa using h), List.getElem?_replicate, if_pos (by simp; omega)]

theorem sampleDlt_length : sampleDlt.length = 0x2c06 := by
  unfold sampleDlt
  rw [List.length_append, List.length_replicate]
  rfl

theorem sampleDlt_bytes : AllBytes sampleDlt := by
  intro b hb
  unfold sampleDlt at hb
  rw [List.mem_append, List.mem_replicate] at hb
  rcases hb with hb | hb
  · simp at hb; omega
  · omega

theorem sampleDlt_start : goodStart sampleDlt = .ok true ∧ getWord sampleDlt 2 = .ok 0x2000 ∧ getWord sampleDlt 4 = .ok 0x4bff :=
  ⟨rfl, rfl, rfl⟩

attribute [local irreducible] sampleDlt

theorem sampleDlt_empty {pos : Nat} (h : pos < 128) : isDltTrackEmpty sampleDlt pos = .ok false := by
  unfold isDltTrackEmpty Module.andM
  rw [sampleDlt_rd (by omega) (by omega)]
  rfl

theorem sampleDlt_rows (pos k i calls : Nat) (h : pos < 128) (hi : i + k ≤ 64) : dltRows sampleDlt pos 6 k i calls = .ok (calls + k * 6) := by
  have he : ∀ ch i, ch < 4 → i < 64 → dltChannelEnd sampleDlt pos i ch = .ok false := by
    intro ch i hc hi
    unfold dltChannelEnd Module.andM
    rw [sampleDlt_rd (by omega) (by omega)]
    show (if (0 : Nat) < 64 then (do
      let b ← (do let x ← rd sampleDlt (6 + 0 * 128 + i * 2); .ok (decide (x < 0x80)))
      if b = true then (do let x ← rd sampleDlt (6 + 0 * 128 + i * 2 + 1); .ok (decide (x ≥ 0x80))) else .ok false) else .ok false) = Except.ok false
    rw [sampleDlt_rd (by omega) (by omega), sampleDlt_rd (by omega) (by omega)]
    rfl
  induction k generalizing i calls with
  | zero => rfl
  | succ k ih =>
    unfold dltRows isDltPatternEnd Module.orM
    rw [he 0 i (by omega) (by omega), he 1 i (by omega) (by omega), he 2 i (by omega) (by omega), he 3 i (by omega) (by omega)]
    show dltRows sampleDlt pos 6 k (i + 1) (calls + 6) = _
    rw [ih (i + 1) (calls + 6) (by omega)]
    congr 1
    omega

theorem sampleDlt_loop (k fuel : Nat) (s : DltSt) (h : s.pos + k = 128) (hf : k < fuel) (ht : s.tempo = 6) (hl : s.loop = false)
    (hs : ∀ p, s.pos ≤ p → s.seen p = false) :
    ∃ r, dltLoop sampleDlt fuel s = .ok r ∧ r.playerCalls = s.playerCalls + k * 384 ∧ r.loop = false ∧
      (∀ p, s.pos ≤ p → p < 128 → r.seen p = true) ∧ ∀ p, p < s.pos → s.seen p = true → r.seen p = true := by
  induction k generalizing fuel s with
  | zero =>
    obtain ⟨fuel, rfl⟩ : ∃ n, fuel = n + 1 := ⟨fuel - 1, by omega⟩
    unfold dltLoop
    rw [if_neg (by omega)]
    exact ⟨s, rfl, by omega, hl, by omega, fun _ _ h => h⟩
  | succ k ih =>
    obtain ⟨fuel, rfl⟩ : ∃ n, fuel = n + 1 := ⟨fuel - 1, by omega⟩
    unfold dltLoop
    rw [if_pos (by omega), hs s.pos (Nat.le_refl _), if_neg (by simp)]
    show ∃ r, (rd sampleDlt (0x2006 + s.pos) >>= _) = Except.ok r ∧ _
    rw [sampleDlt_rd (by omega) (by omega)]
    show ∃ r, (isDltTrackEmpty sampleDlt s.pos >>= _) = Except.ok r ∧ _
    rw [sampleDlt_empty (by omega)]
    show ∃ r, ((dltRows sampleDlt s.pos s.tempo 64 0 s.playerCalls >>= fun calls =>
      .ok { s with seen := upd s.seen s.pos true, playerCalls := calls, pos := s.pos + 1 }) >>= fun s => dltLoop sampleDlt fuel s) = Except.ok r ∧ _
    rw [ht, sampleDlt_rows _ _ _ _ (by omega) (by omega)]
    obtain ⟨r, h1, h2, h3, h4, h5⟩ := ih fuel { s with seen := upd s.seen s.pos true, playerCalls := s.playerCalls + 64 * 6, pos := s.pos + 1 }
      (by show s.pos + 1 + k = 128; omega) (by omega) ht hl (fun p hp => by
        have hp : s.pos + 1 ≤ p := hp
        show upd s.seen s.pos true p = false
        rw [upd, if_neg (by omega)]
        exact hs p (by omega))
    refine ⟨r, by rw [← h1, ← ht]; rfl, ?_, h3, fun p hp hp' => ?_, fun p hp hp' => ?_⟩
    · have h2 : r.playerCalls = s.playerCalls + 64 * 6 + k * 384 := h2
      omega
    · by_cases e : p = s.pos
      · refine h5 p (by show p < s.pos + 1; omega) ?_
        show upd s.seen s.pos true p = true
        rw [upd, if_pos e]
      · exact h4 p (by show s.pos + 1 ≤ p; omega) hp'
    · refine h5 p (by show p < s.pos + 1; omega) ?_
      show upd s.seen s.pos true p = true
      rw [upd, if_neg (by omega)]
      exact hp'

theorem sampleDlt_songs (k pos : Nat) (seen : Nat → Bool) (i : Info) (h : pos + k = 128) (hs : ∀ p, p < 128 → seen p = true) :
    dltSongs sampleDlt k pos seen i = .ok i := by
  induction k generalizing pos with
  | zero => rfl
  | succ k ih =>
    unfold dltSongs
    split
    · rw [hs pos (by omega), if_pos rfl]
      exact ih (pos + 1) (by omega)
    · rfl

theorem parseDlt_eq {m : List Nat} {i j : Info} (hl : m.length = 0x2c06) (hp : parseModule false m = .ok 0x2000)
    (hs : dltSongs m 128 0 (fun _ => false) { i with type := .dlt, music := 0x2000, songs := 0 } = .ok j) (hj : j.songs ≠ 0) :
    parseDlt i m = .ok j := by
  unfold parseDlt
  rw [if_neg (by omega), hp]
  simp only [bind, Except.bind]
  rw [if_neg (by decide), hs]
  exact if_neg hj

theorem parseDltSong_eq {m : List Nat} {i j : Info} {r : DltSt} (he : isDltTrackEmpty m 0 = .ok false)
    (hr : dltLoop m 130 { seen := fun _ => false, pos := 0 } = .ok r) (hc : 0 < r.playerCalls)
    (hj : addSong (setLoops (setSongPos i 0) r.loop) r.playerCalls = .ok j) :
    parseDltSong m (fun _ => false) 0 i = .ok (r.seen, j) := by
  unfold parseDltSong
  have : dltSkip m (128 - 0) 0 (fun _ => false) = .ok (0, fun _ => false) := by
    show dltSkip m (127 + 1) 0 (fun _ => false) = _
    unfold dltSkip
    rw [he]
    rfl
  rw [this]
  simp only [bind, Except.bind, hr]
  rw [if_pos hc, hj]

theorem dltSongs_eq {i j : Info} {seen : Nat → Bool} (h : i.songs < maxSongs)
    (hp : parseDltSong sampleDlt (fun _ => false) 0 i = .ok (seen, j)) (hs : ∀ p, p < 128 → seen p = true) :
    dltSongs sampleDlt 128 0 (fun _ => false) i = .ok j := by
  show dltSongs sampleDlt (127 + 1) 0 (fun _ => false) i = _
  unfold dltSongs
  rw [if_pos h, hp]
  simp only [bind, Except.bind]
  rw [if_neg (by simp)]
  exact sampleDlt_songs 127 1 _ j rfl hs

/-- The module is accepted, with one song of 49152 calls of the player. -/
theorem sampleDlt_ok : ∃ i, parseDlt (Info.blank []) sampleDlt = .ok i ∧ i.songs = 1 ∧ i.durations 0 = 985785 ∧ i.loops 0 = false := by
  obtain ⟨r, h1, h2, h3, h4, h5⟩ := sampleDlt_loop 128 130 { seen := fun _ => false, pos := 0 } rfl (by decide) rfl rfl fun _ _ => rfl
  have h2 : r.playerCalls = 49152 := h2
  have hp : parseModule false sampleDlt = .ok 0x2000 := by
    unfold parseModule
    rw [sampleDlt_start.1, sampleDlt_start.2.1, sampleDlt_start.2.2]
    have : checkLength false sampleDlt ((0x2000 : Nat) : Int) (((0x4bff : Nat) : Int) + 1 - ((0x2000 : Nat) : Int)) = .ok () := by
      unfold checkLength
      rw [sampleDlt_length, if_neg (by decide)]
    simp only [bind, Except.bind]
    rw [if_neg (by decide), if_neg (by decide)]
    rw [this]
    rfl
  generalize hi : ({ Info.blank [] with type := .dlt, music := 0x2000, songs := 0 } : Info) = i
  obtain ⟨j, hj, j1, j2, j3⟩ : ∃ j, addSong (setLoops (setSongPos i 0) false) 49152 = .ok j ∧ j.songs = 1 ∧ j.durations 0 = 985785 ∧ j.loops 0 = false := by
    rw [← hi]
    exact ⟨_, rfl, rfl, by decide +kernel, rfl⟩
  have hs : i.songs = 0 := by rw [← hi]
  refine ⟨j, parseDlt_eq sampleDlt_length hp ?_ (by omega), j1, j2, j3⟩
  rw [hi]
  exact dltSongs_eq (by rw [hs]; decide) (parseDltSong_eq (sampleDlt_empty (by decide)) h1 (by omega) (by rw [h2, h3]; exact hj))
    fun p hp => h4 p (Nat.zero_le _) hp

end Asap.Props
