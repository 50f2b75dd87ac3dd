import Verif.Lemmas.RmtDet
import Verif.Lemmas.RmtTunes
import Verif.Props.Pattern

/-! # C59: songs of RMT modules

Durations are counted in frames of 312 scan lines, also if the player is called several times per frame. -/

namespace Asap.Props
open Asap Asap.Module Asap.Module.Tracker
open Asap.Spec.Pattern (byte millis)
open Asap.Spec.Rmt (Reading Plays PlaysFrom Tune Tunes Track Rows LastSound)

/-- The number of tracks, in the header. -/
def rmtTracks (m : List Nat) : Nat := if byte m 9 = 0x38 then 8 else 4

theorem rows_notes {m : List Nat} {rd : Reading} {n k row : Nat} {vs vs' : Nat → Track} {t f t' f' : Nat} (h : Rows m rd n k row vs t f vs' t' f') (hv : ∀ ch, (vs ch).note ≤ f) :
    f ≤ f' ∧ ∀ ch, (vs' ch).note ≤ f' := by
  induction h with
  | all => exact ⟨Nat.le_refl _, hv⟩
  | stop => exact ⟨Nat.le_refl _, hv⟩
  | @next k row vs t f vs1 t1 vs' t' f' hr _ ih =>
    have key : ∀ {k ch vs t vs1 t1 s}, Spec.Rmt.Row m rd f row k ch vs t vs1 t1 s → (∀ ch, (vs ch).note ≤ f) → ∀ ch, (vs1 ch).note ≤ f := by
      intro k ch vs t vs1 t1 s hr
      induction hr with
      | done => exact fun h => h
      | idle _ _ ih => exact ih
      | event _ _ _ ih =>
        refine fun h => ih fun ch => ?_
        unfold Spec.Rmt.set
        split
        · show (if _ then _ else _) ≤ f
          split
          · exact Nat.le_refl _
          · exact h _
        · exact h _
      | stop => exact fun h => h
    obtain ⟨h1, h2⟩ := ih fun ch => Nat.le_trans (key hr hv ch) (by omega)
    exact ⟨by omega, h2⟩

theorem plays_notes {m : List Nat} {rd : Reading} {n : Nat} {len : Int} {seen fresh : Nat → Bool} {l : Nat} {vs : Nat → Track} {t f : Nat} {ok : Bool} {f' : Nat}
    {loop : Bool} {seen' : Nat → Bool} {vs' : Nat → Track} (h : Plays m rd n len seen fresh l vs t f ok f' loop seen' vs') (hv : ∀ ch, (vs ch).note ≤ f) :
    ∀ ch, (vs' ch).note ≤ f' := by
  induction h with
  | over => exact hv
  | again => exact hv
  | jump _ _ _ _ _ ih => exact ih hv
  | broken => exact hv
  | @line _ _ _ vs _ f vs0 _ _ _ _ _ _ _ _ _ _ _ hl hw hr _ ih =>
    refine ih (rows_notes hr fun ch => ?_).2
    by_cases hch : ch < n
    · have : (vs0 ch).note = (vs ch).note := by
        rcases hl ch hch with ⟨_, h⟩ | ⟨_, _, _, _, _, _, _, h⟩ <;> rw [h]
      rw [this]
      exact hv ch
    · rw [hw ch (by omega)]
      exact hv ch

theorem tunes_mem {m : List Nat} {n : Nat} {len : Int} {k : Nat} {glob : Nat → Bool} {l : Nat} {tunes : List Tune} (h : Tunes m n len k glob l tunes) :
    ∀ x ∈ tunes, ∃ seen vs, PlaysFrom m .asap n len x.start true x.frames x.loop seen vs ∧ (∀ ch < n, (vs ch).note ≤ x.sound) ∧ LastSound m n vs x.sound := by
  induction h with
  | full => exact fun x hx => (nomatch hx)
  | done => exact fun x hx => (nomatch hx)
  | visited _ _ _ ih => exact ih
  | broken _ _ _ _ ih => exact ih
  | tune _ _ hs hp hn hl _ ih =>
    intro y hy
    rcases List.mem_cons.mp hy with rfl | hy
    · exact ⟨_, _, by rw [hs]; exact hp, hn, hl⟩
    · exact ih y hy

theorem millis_mono {lines : Int} (h : 0 ≤ lines) {a b : Nat} (hab : a ≤ b) : millis lines a ≤ millis lines b := by
  unfold millis
  have h1 : (a : Int) * lines ≤ b * lines := Int.mul_le_mul_of_nonneg_right (by omega) h
  exact Int.ediv_le_ediv (by decide) (by omega)

/-- C59.  The songs of an RMT file begin at the lines that no song before visits; those without any sound are left out.  The duration of
a song is the time until its patterns are over or begin again, or until its last sound if that is earlier, which is not before its
last note.  It loops if its patterns do, except after more than 100 frames of silence.  Missing: the patterns as the player reads them
(`C59_player_partial`), and loops if a song without sound does.  -/
theorem C59_songs_partial (fuel : Nat) (name m : List Nat) (hb : AllBytes m) (i : Info) (h : parseAs fuel .rmt name m = .ok i) :
    ∃ tunes, Tunes m (rmtTracks m) (Spec.Rmt.lines m (rmtTracks m)) 32 (fun _ => false) 0 tunes ∧ 0 < i.songs ∧ i.songs = (tunes.filter Tune.heard).length ∧
      (∀ k x, (tunes.filter Tune.heard)[k]? = some x → i.songPos k = x.start ∧ i.durations k = millis 312 (min x.frames x.sound) ∧
        (x.loops = true → i.loops k = true) ∧ (x.sound + 100 < x.frames → i.loops k = false)) ∧
      ((∀ x ∈ tunes, x.heard = true ∨ x.loops = false) → ∀ k x, (tunes.filter Tune.heard)[k]? = some x → i.loops k = x.loops) ∧
      ∀ k, i.songs ≤ k → i.durations k = -1 := by
  obtain ⟨n, j, tunes, hn, h1, _, h2, h3, h4, h5, h6, h7⟩ := okP_iff.mp (parseRmt_tunes hb fuel (Info.blank name) fun _ => rfl) i h
  have hn' : n = rmtTracks m := by
    unfold rmtTracks
    rcases hn with ⟨rfl, hn⟩ | ⟨rfl, hn⟩ <;> rw [hn] <;> rfl
  rw [hn'] at h1
  refine ⟨tunes, h1, h3, ?_, fun k x hx => ?_, fun hc k x hx => ?_, fun k hk => ?_⟩
  · rw [h4, h2.songs]
    exact Nat.zero_add _
  · obtain ⟨a, b, c, d⟩ := h2.new k x hx
    rw [show ({ Info.blank name with songs := 0 } : Info).songs + k = k from Nat.zero_add k] at a b c d
    rw [h5, h6, h7]
    refine ⟨a, ?_, c, d⟩
    rw [b]
    exact millis_eq 312 _
  · have := h2.clean (fun _ _ => rfl) hc k x hx
    rw [show ({ Info.blank name with songs := 0 } : Info).songs + k = k from Nat.zero_add k] at this
    rw [h7, this]
  · rw [h6, h2.behind k (by omega)]
    rfl

/-- C59.  If the patterns of a song mean the same to ASAP and to the player, the player plays them until the end or the loop for no less
than the duration, and starts no note after it.  The duration is the shorter one of that time and the time until the last sound, as ASAP defines it.  If they loop no more than 100 frames after a note, so does the song.  Missing: songs
with pauses of no rows, tempo zero, changes of the tempo in a row that ends the line, jumps in other tracks than the first or to an
address that is not that of the line. -/
theorem C59_player_partial (fuel : Nat) (name m : List Nat) (hb : AllBytes m) (i : Info) (h : parseAs fuel .rmt name m = .ok i) (k : Nat) (hk : k < i.songs)
    {frames : Nat} {loop : Bool} {seen : Nat → Bool} {vs : Nat → Track}
    (hp : PlaysFrom m .common (rmtTracks m) (Spec.Rmt.lines m (rmtTracks m)) (i.songPos k) true frames loop seen vs) :
    PlaysFrom m .player (rmtTracks m) (Spec.Rmt.lines m (rmtTracks m)) (i.songPos k) true frames loop seen vs ∧
      (∃ sound, LastSound m (rmtTracks m) vs sound ∧ i.durations k = millis 312 (min frames sound) ∧ (loop = true → frames ≤ sound + 100 → i.loops k = true)) ∧
      i.durations k ≤ millis 312 frames ∧ (∀ ch < rmtTracks m, millis 312 (vs ch).note ≤ i.durations k) ∧
      (loop = true → (∃ ch < rmtTracks m, frames ≤ (vs ch).note + 100) → i.loops k = true) := by
  obtain ⟨tunes, h1, _, h2, h3, _, _⟩ := C59_songs_partial fuel name m hb i h
  obtain ⟨x, hx⟩ : ∃ x, (tunes.filter Tune.heard)[k]? = some x := ⟨_, List.getElem?_eq_getElem (h2 ▸ hk)⟩
  obtain ⟨a, b, c, _⟩ := h3 k x hx
  obtain ⟨seen', vs', p1, p2, p3⟩ := tunes_mem h1 x (List.mem_filter.mp (List.mem_of_getElem? hx)).1
  have hn : 0 < rmtTracks m := by unfold rmtTracks; split <;> decide
  rw [← a] at p1
  obtain ⟨_, e1, e2, _, e3⟩ := rmtPlays_det hn (rmtPlays_common (rd := .asap) hp) p1
  subst e3
  have hnote : ∀ ch, (vs ch).note ≤ frames := plays_notes hp fun _ => Nat.le_refl _
  refine ⟨rmtPlays_common hp, ⟨x.sound, p3, by rw [b, e1], fun hl hs => c ?_⟩, ?_, fun ch hch => ?_, fun hl ⟨ch, hch, hc⟩ => c ?_⟩
  · unfold Spec.Rmt.Tune.loops
    rw [← e2, hl, decide_eq_true (by omega)]
    rfl
  · rw [b]
    exact millis_mono (by decide) (by omega)
  · rw [b]
    have := p2 ch hch
    have := hnote ch
    exact millis_mono (by decide) (by omega)
  · have := p2 ch hch
    unfold Spec.Rmt.Tune.loops
    rw [← e2, hl, decide_eq_true (by omega)]
    rfl

end Asap.Props
