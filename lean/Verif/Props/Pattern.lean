import Verif.Lemmas.PatternMpt
import Verif.Model.InfoLoad

/-!
# C58: songs and durations of MPT, TMC and TM2 modules

The patterns, the songs and the time they take are those of `Verif/Spec/Pattern.lean`, written from the source of the players.
-/

namespace Asap.Props
open Asap Asap.Module Asap.Module.Tracker Asap.Spec.Pattern

theorem millis_eq (lines : Int) (n : Nat) : (n : Int) * lines * 38000 / 591149 = millis lines n := by
  unfold millis
  omega

theorem found_starts {step : Nat} {Jump : Int → Prop} {Plays : Nat → Nat → Bool → Prop} {last lines : Int} {r : Info} (h : Found step Jump Plays last lines r) :
    ∃ starts, Starts step Jump last starts ∧ r.songs = min 32 starts.length ∧
      (∀ k l, starts[k]? = some l → k < 32 → ∃ n, Plays l n (r.loops k) ∧ r.durations k = millis lines n) ∧ ∀ k, r.songs ≤ k → r.durations k = -1 := by
  obtain ⟨starts, h1, h2, h3, h4, h5⟩ := h
  refine ⟨starts, ⟨h1, h2⟩, h3, fun k l hk hk2 => ?_, h5⟩
  obtain ⟨n, n1, n2⟩ := h4 k l hk hk2
  exact ⟨n, n1, by rw [n2, millis_eq]⟩

/-- C58.  The songs of a TMC file start at the first line and after every jump and end that lines follow.  At most 32 are
known.  The duration of a song is the time until its end or jump, if a rest of `d` rows took `d + 1`; whether it loops is whether it
ends with a jump. -/
theorem C58_tmc_late (fuel : Nat) {f : Format} (hf : f = .tmc ∨ f = .tm8) (name m : List Nat) (i : Info) (h : parseAs fuel f name m = .ok i) :
    ∃ last starts, TmcLast m last ∧ Starts 16 (TmcJump m) last starts ∧ i.songs = min 32 starts.length ∧
      (∀ k l, starts[k]? = some l → k < 32 →
        ∃ n, TmcPlays m (some fun b => tmcRest b + 1) l (byte m 0x24 + 1) n (i.loops k) ∧ i.durations k = millis 312 n) ∧
      ∀ k, i.songs ≤ k → i.durations k = -1 := by
  have h' : parseTmc (Info.blank name) m = .ok i := by rcases hf with rfl | rfl <;> exact h
  obtain ⟨last, h1, h2⟩ := okP_iff.mp (parseTmc_found (m := m) (Info.blank name) rfl ⟨rfl, fun _ => rfl⟩ fun _ => rfl) i h'
  obtain ⟨starts, h3⟩ := found_starts h2
  exact ⟨last, starts, h1, h3⟩

/-- C58.  The player takes as long as ASAP says for every song without rests, and loops if ASAP says so.  Missing: songs with rests,
because ASAP makes them one row longer than the player does. -/
theorem C58_tmc_partial (fuel : Nat) {f : Format} (hf : f = .tmc ∨ f = .tm8) (name m : List Nat) (i : Info) (h : parseAs fuel f name m = .ok i) :
    ∃ last starts, TmcLast m last ∧ Starts 16 (TmcJump m) last starts ∧ i.songs = min 32 starts.length ∧
      ∀ k l n loop, starts[k]? = some l → k < 32 → TmcPlays m none l (byte m 0x24 + 1) n loop →
        TmcPlays m (some tmcRest) l (byte m 0x24 + 1) n loop ∧ i.durations k = millis 312 n ∧ i.loops k = loop := by
  obtain ⟨last, starts, h1, h2, h3, h4, _⟩ := C58_tmc_late fuel hf name m i h
  refine ⟨last, starts, h1, h2, h3, fun k l n loop hk hk2 hp => ⟨tmcPlays_mono hp, ?_⟩⟩
  obtain ⟨n', p1, p2⟩ := h4 k l hk hk2
  obtain ⟨rfl, rfl⟩ := tmcPlays_det p1 (tmcPlays_mono hp)
  exact ⟨p2, rfl⟩

/-- C58.  The songs of a TM2 file, likewise.  Rate is the number of calls in a frame.  ASAP leaves the byte FF behind, which
the player does not. -/
theorem C58_tm2_skip (fuel : Nat) (name m : List Nat) (hb : AllBytes m) (i : Info) (h : parseAs fuel .tm2 name m = .ok i) :
    ∃ last starts, Tm2Last m last ∧ Starts 17 (Tm2Jump m) last starts ∧ i.songs = min 32 starts.length ∧
      (∀ k l, starts[k]? = some l → k < 32 →
        ∃ n, Tm2Plays m 1 l (byte m 0x24 + 1) n (i.loops k) ∧ i.durations k = millis (312 / byte m 0x25) n) ∧
      ∀ k, i.songs ≤ k → i.durations k = -1 := by
  obtain ⟨last, h1, _, _, h2⟩ := okP_iff.mp (parseTm2_found hb (Info.blank name) ⟨rfl, fun _ => rfl⟩ fun _ => rfl) i h
  obtain ⟨starts, h3⟩ := found_starts h2
  exact ⟨last, starts, h1, h3⟩

/-- C58.  If no line has more than 65 rows, the player takes as long as ASAP says for every song, and loops if ASAP says so.  Missing:
modules with longer lines. -/
theorem C58_tm2_partial (fuel : Nat) (name m : List Nat) (hb : AllBytes m) (i : Info) (h : parseAs fuel .tm2 name m = .ok i)
    (hrows : ∀ l, tm2Rows m l ≤ 65 ∨ 0x80 ≤ tm2Rows m l) :
    ∃ last starts, Tm2Last m last ∧ Starts 17 (Tm2Jump m) last starts ∧ i.songs = min 32 starts.length ∧
      ∀ k l, starts[k]? = some l → k < 32 →
        ∃ n, Tm2Plays m 0 l (byte m 0x24 + 1) n (i.loops k) ∧ i.durations k = millis (312 / byte m 0x25) n ∧
          ∀ n' loop, Tm2Plays m 0 l (byte m 0x24 + 1) n' loop → n' = n ∧ loop = i.loops k := by
  obtain ⟨last, starts, h1, h2, h3, h4, _⟩ := C58_tm2_skip fuel name m hb i h
  refine ⟨last, starts, h1, h2, h3, fun k l hk hk2 => ?_⟩
  obtain ⟨n, p1, p2⟩ := h4 k l hk hk2
  have p3 := tm2Plays_far (skip' := 0) hrows p1
  exact ⟨n, p3, p2, fun n' loop hp => tm2Plays_det hp p3⟩

/-- C58.  The songs of an MPT file: where they start, how long they take and whether they loop.  Missing: modules whose header says
that lines have no rows or that rows take no time. -/
theorem C58_mpt_partial (fuel : Nat) {f : Format} (hf : f = .mpt ∨ f = .mpd) (name m : List Nat) (i : Info) (h : parseAs fuel f name m = .ok i)
    (hr : 0 < byte m 0x1ce) (ht : 0 < byte m 0x1cf) :
    ∃ songs, songs ≠ [] ∧ MptSongs m (mptLength m) 32 (fun _ => false) 0 songs ∧ (∀ songs', MptSongs m (mptLength m) 32 (fun _ => false) 0 songs' → songs' = songs) ∧
      i.songs = songs.length ∧
      (∀ k x, songs[k]? = some x → i.songPos k = x.start ∧ i.durations k = millis (if f = .mpd then 156 else 312) x.calls ∧ i.loops k = x.loop) ∧
      ∀ k, i.songs ≤ k → i.durations k = -1 := by
  have key : ∀ i0 : Info, i0.loops = (fun _ => false) → i0.durations = (fun _ => -1) → parseMpt i0 m = .ok i → i0.fastplay = (if f = .mpd then 156 else 312) →
      ∃ songs, songs ≠ [] ∧ MptSongs m (mptLength m) 32 (fun _ => false) 0 songs ∧ (∀ songs', MptSongs m (mptLength m) 32 (fun _ => false) 0 songs' → songs' = songs) ∧
      i.songs = songs.length ∧
      (∀ k x, songs[k]? = some x → i.songPos k = x.start ∧ i.durations k = millis (if f = .mpd then 156 else 312) x.calls ∧ i.loops k = x.loop) ∧
      ∀ k, i.songs ≤ k → i.durations k = -1 := by
    intro i0 hl hd hp hfast
    obtain ⟨songs, h1, h2, _, _, h3⟩ := okP_iff.mp (parseMpt_listed i0 m fun k => by rw [hl]) i hp
    refine ⟨songs, h1, h2, fun _ h => mptSongs_det h h2, h3.songs.trans (Nat.zero_add _), fun k x hx => ?_, fun k hk => ?_⟩
    · obtain ⟨a, b, _, d⟩ := h3.new k x hx
      rw [Nat.zero_add] at a b d
      refine ⟨a, ?_, d ⟨hr, ht⟩⟩
      rw [b, millis_eq, ← hfast]
    · rw [h3.behind k hk]
      show i0.durations k = -1
      rw [hd]
  rcases hf with rfl | rfl
  · exact key _ rfl rfl h rfl
  · exact key _ rfl rfl h rfl

end Asap.Props
