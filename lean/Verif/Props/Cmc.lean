import Verif.Lemmas.Cmc

/-!
# C10: Chaos Music Composer modules (CMC, CM3, CMR, CMS, DMC)

The search for the end of a song runs on fuel: a statement for all amounts of fuel, or for all sufficiently large ones, is about
the loop of the program.
-/

namespace Asap.Props
open Asap Asap.Module Asap.Spec.Cmc

/-- The module is stereo. -/
def CmcKind.stereo (kind : CmcKind) : Bool := decide (kind = .cms)

/-- Rows of a pattern. -/
def CmcKind.rows (kind : CmcKind) : Nat := if kind = .cm3 then 48 else 64

/-- Scan lines between calls of the player. -/
def CmcKind.lines (kind : CmcKind) : Int := if kind = .dmc then 156 else 312

theorem CmcKind.type_cms (kind : CmcKind) : decide (kind.type = .cms) = CmcKind.stereo kind := by cases kind <;> rfl

theorem CmcKind.type_rows (kind : CmcKind) : (if kind.type = .cm3 then 48 else 64) = CmcKind.rows kind := by cases kind <;> rfl

theorem loadCmc_post {E : Fault → Prop} (hE : ∀ s, E (.thrown s)) {R : Nat → Nat → Bool → Prop} {fuel : Nat} {kind : CmcKind} {name m : List Nat} (hb : AllBytes m)
    (hlen : kind = .cms → 0x306 ≤ m.length → 0x404 ≤ m.length)
    (hsong : ∀ pos ≤ 85, 0x306 ≤ m.length → PostE E (fun s : CmcSt => R pos s.playerCalls s.loops) (cmcLoop kind.type m fuel { pos := pos, tempo := byte m 0x19 })) :
    PostE E (fun r => ∃ l : List Nat, l.Pairwise (· < ·) ∧ (∀ x, x ∈ l ↔ Start (CmcKind.stereo kind) m x) ∧ r.songs = min 32 l.length ∧ 1 ≤ l.length ∧
      SongsIn R (CmcKind.lines kind) 0 l r ∧ (∀ k, r.songs ≤ k → r.durations k = -1 ∧ r.loops k = false) ∧
      ∃ music : Int, 0 ≤ music ∧ music < 65536 ∧ r = { Info.blank name with
        channels := (if kind = .cms then 2 else 1), fastplay := CmcKind.lines kind,
        type := kind.type, music := music, songs := r.songs, songPos := r.songPos, loops := r.loops, durations := r.durations })
      (loadCmc fuel kind name m) := by
  have hst : decide ((if kind = .cms then 2 else 1) = 2) = CmcKind.stereo kind := by cases kind <;> rfl
  have key := parseCmc_post (i := { Info.blank name with channels := if kind = .cms then 2 else 1, fastplay := if kind = .dmc then 156 else 312 }) (type := kind.type) (R := R) (fuel := fuel) hE hb
    (fun j pos h1 h2 h3 h4 h5 => ?_) (fun h5 => ?_) (fun _ => rfl)
  · rw [hst] at key
    exact key
  · unfold parseCmcSong
    rw [byte_rd (by omega), h1]
    show PostE E _ (cmcLoop kind.type m fuel { pos := pos, tempo := byte m 0x19 } >>= _)
    exact PostE.bind (hsong pos h2 h5) fun s hs => (songAdded h3 h4 hs).toE hE
  · rw [hst]
    exact ⟨h5, fun h => hlen (by simpa [CmcKind.stereo] using h) h5⟩

/-- C10.  However long the search for the end of the songs goes on, nothing outside the module and outside the tables of the
program is read or written, provided that a CMS file that is long enough to be accepted has both channels' song (1028 bytes). -/
theorem C10_in_bounds (fuel : Nat) (kind : CmcKind) (name m : List Nat) (hb : AllBytes m)
    (hlen : kind = .cms → 0x306 ≤ m.length → 0x404 ≤ m.length) : loadCmc fuel kind name m ≠ .error .ub := by
  have key := loadCmc_post (E := InBounds) (R := fun _ _ _ => True) (fuel := fuel) (name := name) (fun s h => by cases h) hb hlen fun pos hp hl =>
    cmcLoop_bounds hl fuel _ ⟨Int.le_refl _, Int.le_refl _⟩
  intro h
  rw [h] at key
  exact key rfl

theorem loadCmc_last (fuel : Nat) (name : List Nat) {m : List Nat} {music : Int} {e : Fault} (h0 : ¬ m.length < 0x306) (h1 : parseModule false m = .ok music)
    (h2 : cmcLastPos 2 m 0x54 = .error e) : loadCmc fuel .cms name m = .error e := by
  unfold loadCmc parseCmc
  rw [if_neg h0, h1]
  show (cmcLastPos 2 m 0x54 >>= _) = _
  rw [h2]
  rfl

theorem loadCmc_song (fuel : Nat) (name : List Nat) {m : List Nat} {music last : Int} {tempo : Nat} {e : Fault} (h0 : ¬ m.length < 0x306) (h1 : parseModule false m = .ok music)
    (h2 : cmcLastPos 1 m 0x54 = .ok last) (h3 : rd m 0x19 = .ok tempo) (h4 : cmcLoop .cmc m fuel { pos := 0, tempo := tempo } = .error e) :
    loadCmc fuel .cmc name m = .error e := by
  unfold loadCmc parseCmc
  rw [if_neg h0, h1]
  show (cmcLastPos 1 m 0x54 >>= _) = _
  rw [h2]
  show (parseCmcSong fuel m _ 0 >>= _) = _
  unfold parseCmcSong
  rw [h3]
  show ((cmcLoop .cmc m fuel { pos := 0, tempo := tempo } >>= _) >>= _) = _
  rw [h4]
  rfl

/-- C10.  Without that proviso the claim is false: a stereo module of 774 bytes is read beyond its end. -/
theorem C10_short_stereo : ∃ m : List Nat, AllBytes m ∧ m.length = 0x306 ∧ ∀ fuel name, loadCmc fuel .cms name m = .error .ub := by
  refine ⟨[0xff, 0xff, 0, 0x40, 0xff, 0x42] ++ List.replicate 0x300 0xff, ?_, by rw [List.length_append, List.length_replicate]; rfl, fun fuel name => ?_⟩
  · intro b hb
    rw [List.mem_append, List.mem_replicate] at hb
    rcases hb with hb | hb
    · simp at hb; omega
    · omega
  · have h1 : parseModule false ([0xff, 0xff, 0, 0x40, 0xff, 0x42] ++ List.replicate 0x300 0xff) = .ok 0x4000 := by decide +kernel
    have h2 : cmcLastPos 2 ([0xff, 0xff, 0, 0x40, 0xff, 0x42] ++ List.replicate 0x300 0xff) 0x54 = .error .ub := by decide +kernel
    exact loadCmc_last fuel name (by rw [List.length_append, List.length_replicate]; decide) h1 h2

theorem cmcLoop_ends {type : ModType} {m : List Nat} (hb : AllBytes m) (hl : 0x306 ≤ m.length)
    (hn : NoReplay (decide (type = .cms)) m ∨ Forward (decide (type = .cms)) m) {fuel : Nat} (hf : 4000000 ≤ fuel) (pos : Nat) (hp : pos ≤ 85) (tempo : Nat) :
    ∃ r, cmcLoop type m fuel { pos := pos, tempo := tempo } = .ok r := by
  rcases hn with hn | hn
  · obtain ⟨r, _, h, _⟩ := cmcLoop_plays hl hn fuel { pos := pos, tempo := tempo } (by have : fresh (fun _ => 0) 85 = 85 := rfl; show fresh (fun _ => 0) 85 + 1 < fuel; omega)
      (Int.le_refl _) rfl (fun _ => false) (fun _ => false) ⟨fun _ => by simp, fun _ => by simp, fun _ => by simp⟩
    exact ⟨r, h⟩
  · refine cmcLoop_forward hl hb hn fuel _ ?_ ⟨Int.le_refl _, Int.le_refl _, by show (0 : Int) ≤ pos; omega, by show (0 : Int) ≤ 254; omega⟩
    show 2 * ((85 - (0 : Int)).toNat * 22016 + (0 : Int).toNat * 86 + (85 - (pos : Int)).toNat) + (if (0 : Nat) = 0 then 1 else 0) + 1 < fuel
    rw [if_pos rfl]
    omega

/-- C10.  Loading ends if no song contains a REPLAY command, or if no song goes back by a JUMP or UP command: the search takes less
than four million steps for every song.  Missing for the full claim: it is false, see `C10_hangs`. -/
theorem C10_ends_partial (fuel : Nat) (hf : 4000000 ≤ fuel) (kind : CmcKind) (name m : List Nat) (hb : AllBytes m)
    (hlen : kind = .cms → 0x306 ≤ m.length → 0x404 ≤ m.length)
    (hn : NoReplay (CmcKind.stereo kind) m ∨ Forward (CmcKind.stereo kind) m) :
    (∃ i, loadCmc fuel kind name m = .ok i) ∨ ∃ msg, loadCmc fuel kind name m = .error (.thrown msg) := by
  rw [← CmcKind.type_cms] at hn
  have key := loadCmc_post (E := Throws) (R := fun _ _ _ => True) (fuel := fuel) (name := name) (fun s => ⟨s, rfl⟩) hb hlen fun pos hp hl => by
    obtain ⟨r, h⟩ := cmcLoop_ends hb hl hn hf pos hp (byte m 0x19)
    rw [h]
    trivial
  match hx : loadCmc fuel kind name m with
  | .ok i => exact .inl ⟨i, rfl⟩
  | .error e =>
    rw [hx] at key
    obtain ⟨s, rfl⟩ := key
    exact .inr ⟨s, rfl⟩

/-- C10.  A module accepted without REPLAY commands has the songs of the specification: one for every start of a song, in the order
of the lines, at most 32 of them and at least one; each has the duration of its calls of the player in milliseconds, rounded down,
and is marked as looped if it repeats itself.  Missing: the length of songs with REPLAY commands. -/
theorem C10_songs_partial (fuel : Nat) (hf : 87 < fuel) (kind : CmcKind) (name m : List Nat) (hb : AllBytes m)
    (hlen : kind = .cms → 0x306 ≤ m.length → 0x404 ≤ m.length) (hn : NoReplay (CmcKind.stereo kind) m)
    (i : Info) (h : loadCmc fuel kind name m = .ok i) :
    ∃ starts : List Nat, starts.Pairwise (· < ·) ∧ (∀ x, x ∈ starts ↔ Start (CmcKind.stereo kind) m x) ∧
      i.songs = min 32 starts.length ∧ 1 ≤ i.songs ∧
      (∀ k x, starts[k]? = some x → k < 32 → ∃ calls, Song (CmcKind.stereo kind) (CmcKind.rows kind) m x calls (i.loops k) ∧
        i.durations k = (calls : Int) * CmcKind.lines kind * 38000 / 591149) ∧
      (∀ k, i.songs ≤ k → i.durations k = -1) ∧
      i.type = kind.type ∧ i.channels = (if kind = .cms then 2 else 1) ∧ i.fastplay = CmcKind.lines kind := by
  have key := loadCmc_post (E := Throws) (R := fun pos calls loop => Song (CmcKind.stereo kind) (CmcKind.rows kind) m pos calls loop) (fuel := fuel) (name := name) (fun s => ⟨s, rfl⟩) hb hlen
    fun pos hp hl => by
      obtain ⟨r, d, h1, h2, h3⟩ := cmcLoop_plays (type := kind.type) hl (by rw [CmcKind.type_cms]; exact hn) fuel { pos := pos, tempo := byte m 0x19 }
        (by have : fresh (fun _ => 0) 85 = 85 := rfl; show fresh (fun _ => 0) 85 + 1 < fuel; omega)
        (Int.le_refl _) rfl (fun _ => false) (fun _ => false) ⟨fun _ => by simp, fun _ => by simp, fun _ => by simp⟩
      rw [h1]
      rw [CmcKind.type_cms, CmcKind.type_rows] at h3
      have h2 : r.playerCalls = 0 + d := h2
      rw [show d = r.playerCalls by omega] at h3
      exact h3
  rw [h] at key
  obtain ⟨l, h1, h2, h3, h4, h5, h6, music, h7, h8, h9⟩ := key
  refine ⟨l, h1, h2, h3, by omega, fun k x hx hk => ?_, fun k hk => (h6 k hk).1, by rw [h9], by rw [h9], by rw [h9]⟩
  obtain ⟨calls, loop, h10, h11, h12⟩ := h5 k x hx (by omega)
  rw [Nat.zero_add] at h11 h12
  exact ⟨calls, by rw [h12]; exact h10, h11⟩

/-- A module: the six bytes of the header, instruments and pattern pointers of zeros, and the given lines at the start of the song. -/
def sampleCmc (lines : List (Nat × Nat × Nat)) : List Nat :=
  [0xff, 0xff, 0, 0x40, 0xff, 0x42] ++ List.replicate 0x13 0 ++ [6] ++ List.replicate 0x1ec 0 ++
    (lines.map (·.1) ++ List.replicate (85 - lines.length) 0xff) ++ (lines.map (·.2.1) ++ List.replicate (85 - lines.length) 0xff) ++
      (lines.map (·.2.2) ++ List.replicate (85 - lines.length) 0xff) ++ [0]

/-- A REPLAY command and a JUMP back to it. -/
def hangingCmc : List Nat := sampleCmc [(0xdf, 0, 2), (0x9f, 0, 0)]

theorem hangingCmc_loop (fuel : Nat) (s : CmcSt) (h1 : s.pos = 0) (h2 : s.repTimes ≤ 0) (h3 : s.seen 0 = 0) (h4 : s.seen 1 ≤ 1) :
    cmcLoop .cmc hangingCmc fuel s = .error .fuel := by
  have c0 : command false hangingCmc 0 = .replay 0 2 := by decide +kernel
  have c1 : command false hangingCmc 1 = .goto 0 := by decide +kernel
  have hl : 0x306 ≤ hangingCmc.length := by decide +kernel
  induction fuel using Nat.strongRecOn generalizing s with
  | ind fuel ih =>
    rcases fuel with _ | fuel
    · rfl
    have hr : cmcRepeat s = s := by unfold cmcRepeat; rw [if_neg (by omega)]
    rw [cmcLoop_step (line := 0) hl (by omega) (by rw [hr, h1]; rfl) (by omega), hr, if_neg (by simp [h3])]
    rw [show decide (ModType.cmc = .cms) = false from rfl, c0]
    rcases fuel with _ | fuel
    · rfl
    have e : ∃ t, applyCmd .cmc (s.mark 0) (.replay 0 2) = t ∧ t.pos = 1 ∧ t.repStart = 1 ∧ t.repEnd = 1 ∧ t.repTimes = 1 ∧ t.seen 0 = 1 ∧ t.seen 1 ≤ 1 := by
      refine ⟨_, rfl, ?_, ?_, ?_, rfl, rfl, h4⟩
      · show s.pos + 1 = 1; omega
      · show s.pos + 1 = 1; omega
      · show s.pos + 1 + ((0 : Nat) : Int) = 1; omega
    obtain ⟨t, e, t1, t2, t3, t4, t5, t6⟩ := e
    rw [e]
    have hrt : (cmcRepeat t).pos = 1 ∧ (cmcRepeat t).repTimes = 0 ∧ (cmcRepeat t).seen 0 = 0 ∧ (cmcRepeat t).seen 1 = 0 := by
      unfold cmcRepeat
      rw [if_pos (by omega)]
      refine ⟨t2, by show t.repTimes - 1 = 0; omega, by show (if t.seen 0 = 1 ∨ _ then 0 else _) = 0; rw [if_pos (.inl t5)], ?_⟩
      show (if t.seen 1 = 1 ∨ t.seen 1 = 3 then 0 else t.seen 1) = 0
      split <;> omega
    rw [cmcLoop_step (line := 1) hl (by omega) (by rw [hrt.1]; rfl) (by omega), if_neg (by simp [hrt.2.2.2])]
    rw [show decide (ModType.cmc = .cms) = false from rfl, c1]
    refine ih fuel (by omega) _ rfl ?_ ?_ ?_
    · show (cmcRepeat t).repTimes ≤ 0; omega
    · show upd (cmcRepeat t).seen 1 1 0 = 0
      rw [upd, if_neg (by omega)]; exact hrt.2.2.1
    · exact Nat.le_refl 1

/-- C10.  The claim that loading ends is false: no number of steps suffices for this module of 774 bytes, whose first line says to
replay nothing once more and whose second line goes back to the first. -/
theorem C10_hangs : AllBytes hangingCmc ∧ hangingCmc.length = 0x306 ∧ ∀ fuel name, loadCmc fuel .cmc name hangingCmc = .error .fuel := by
  refine ⟨by unfold AllBytes; decide +kernel, by decide +kernel, fun fuel name => ?_⟩
  have h1 : parseModule false hangingCmc = .ok 0x4000 := by decide +kernel
  have h2 : cmcLastPos 1 hangingCmc 0x54 = .ok 1 := by decide +kernel
  have h3 : rd hangingCmc 0x19 = .ok 6 := by decide +kernel
  have h4 : ¬ hangingCmc.length < 0x306 := by decide +kernel
  exact loadCmc_song fuel name h4 h1 h2 h3 (hangingCmc_loop fuel _ rfl (Int.le_refl _) rfl (Nat.zero_le _))

/-- A song of a pattern, a change of the tempo, a pattern and a JUMP to the first line; and a song of one pattern. -/
def twoSongs : List Nat := sampleCmc [(0, 0xff, 0xff), (0xcf, 4, 0xff), (1, 2, 3), (0x9f, 0, 0xff), (0x8f, 0, 0), (5, 6, 7), (0x8f, 0, 0)]

/-- The hypotheses of the theorems are met by `twoSongs`: 640 calls of the player and a loop, 384 calls and a stop. -/
theorem twoSongs_ok : AllBytes twoSongs ∧ NoReplay false twoSongs ∧ ∃ i, loadCmc 100 .cmc [] twoSongs = .ok i ∧ i.songs = 2 ∧
    i.durations 0 = 640 * 312 * 38000 / 591149 ∧ i.loops 0 = true ∧ i.durations 1 = 384 * 312 * 38000 / 591149 ∧ i.loops 1 = false := by
  refine ⟨by unfold AllBytes; decide +kernel, ?_, ?_⟩
  · have h : ∀ line < 85, (match command false twoSongs line with | .replay _ _ => false | _ => true) = true := by decide +kernel
    intro line hl b c hc
    have := h line hl
    rw [hc] at this
    cases this
  · have h : (match loadCmc 100 .cmc [] twoSongs with
      | .ok i => decide (i.songs = 2 ∧ i.durations 0 = 640 * 312 * 38000 / 591149 ∧ i.loops 0 = true ∧ i.durations 1 = 384 * 312 * 38000 / 591149 ∧ i.loops 1 = false)
      | .error _ => false) = true := by decide +kernel
    generalize loadCmc 100 .cmc [] twoSongs = x at h
    cases x with
    | error e => cases h
    | ok i => exact ⟨i, rfl, of_decide_eq_true h⟩

end Asap.Props
