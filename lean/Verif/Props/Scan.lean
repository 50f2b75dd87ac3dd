import Verif.Lemmas.Scan
import Verif.Lemmas.Playback
import Verif.Props.Duration
import Verif.Props.LoadAny

/-! # C53, C54: detection of the end of the music, fingerprints -/

namespace Asap.Props
open Asap Asap.Spec

namespace Scanned
open Asap.Scan Asap.Spec.Scan

/-- What is needed of the times: a loop is longer than a frame. -/
structure Sane (c : Params) : Prop where
  silence : 1 ≤ c.silence
  check : 1 ≤ c.check
  minimum : 2 ≤ c.minimum

theorem params_sane (ntsc : Bool) : Sane (params ntsc) := by
  cases ntsc <;> exact ⟨by decide +kernel, by decide +kernel, by decide +kernel⟩

theorem begin_inv (c : Params) (f : Nat → Machine) (s : State) : Inv c f 0 (begin s.rows s.last s.next) := by
  have he : ∀ b, entries c f (0 - c.check) b = [] := fun b => by rw [Nat.zero_sub]; rfl
  refine ⟨fun k hk => by omega, Nat.le_refl _, fun k h1 h2 => by omega, fun h => by omega, ?_, fun b _ => by rw [he]; trivial, fun b _ => by rw [he]; rfl,
    fun b _ x hx => by rw [he] at hx; cases hx⟩
  rw [Nat.zero_sub]; rfl

/-- The invariant depends on the past only. -/
theorem row_congr {f g : Nat → Machine} {n k : Nat} (h : ∀ j < n, f j = g j) (hk : k < n) : row f k = row g k := by unfold row; rw [h k hk]

theorem pre_congr {f g : Nat → Machine} : ∀ {n k : Nat}, (∀ j < n, f j = g j) → k ≤ n → pre f k = pre g k
  | _, 0, _, _ => rfl
  | n, k + 1, h, hk => by
    show pre f k + (row f k).sum = pre g k + (row g k).sum
    rw [pre_congr h (by omega), row_congr h (by omega)]

theorem entries_congr {c : Params} {f g : Nat → Machine} {n : Nat} (h : ∀ j < n, f j = g j) (b : Nat) :
    entries c f (n - c.check) b = entries c g (n - c.check) b := by
  unfold entries
  apply List.filter_congr
  intro k hk
  have := List.mem_range.mp hk
  unfold key
  rw [pre_congr h (by omega), pre_congr h (by omega)]

theorem inv_congr {c : Params} {f g : Nat → Machine} {n : Nat} {s : State} (h : ∀ j < n, f j = g j) (hi : Inv c f n s) : Inv c g n s := by
  refine ⟨fun k hk => (hi.rows k hk).trans (row_congr h hk), hi.runLe, fun k h1 h2 => h k h2 ▸ hi.run k h1 h2, fun h1 => ?_, ?_, ?_, ?_, ?_⟩
  · rw [← h _ (by omega)]; exact hi.runStart h1
  · rw [← pre_congr h (Nat.le_refl _), ← pre_congr h (Nat.sub_le _ _)]; exact hi.hash
  · intro b hb; rw [← entries_congr h]; exact hi.linked b hb
  · intro b hb; rw [← entries_congr h]; exact hi.first b hb
  · intro b hb x hx; rw [← entries_congr h] at hx; exact hi.last b hb x hx

theorem silent_congr {f g : Nat → Machine} {n k : Nat} (h : ∀ j ≤ n, f j = g j) (hk : k ≤ n) : Silent (f k) ↔ Silent (g k) := by rw [h k hk]

theorem silenceAt_congr {c : Params} {f g : Nat → Machine} {n t : Nat} (h : ∀ j ≤ n, f j = g j) (hs : SilenceAt c f n t) (hc : 1 ≤ c.silence) : SilenceAt c g n t := by
  obtain ⟨h1, h2, h3, h4⟩ := hs
  exact ⟨h1, h2, fun k a b => (silent_congr h b).mp (h3 k a b), fun e => h4 ((silent_congr h (by omega)).mpr e)⟩

theorem loopAt_congr {c : Params} {f g : Nat → Machine} {n t : Nat} (h : ∀ j ≤ n, f j = g j) (hs : LoopAt c f n t) : LoopAt c g n t := by
  obtain ⟨h1, a, h2, h3⟩ := hs
  exact ⟨h1, a, h2, fun k hk => by rw [← h _ (by omega), ← h _ (by omega)]; exact h3 k hk⟩

theorem stillAt_congr {c : Params} {f g : Nat → Machine} {n t : Nat} (h : ∀ j ≤ n, f j = g j) (hs : StillAt c f n t) : StillAt c g n t := by
  obtain ⟨h1, h3⟩ := hs
  exact ⟨h1, fun k hk => by rw [← h _ (by omega), ← h _ (by omega)]; exact h3 k hk⟩

theorem ends_congr {c : Params} (hc : 1 ≤ c.silence) {f g : Nat → Machine} {n : Nat} {r : Nat × Bool} (h : ∀ j ≤ n, f j = g j) (hs : Spec.Scan.Ends c f n r) : Spec.Scan.Ends c g n r := by
  have h' : ∀ j ≤ n, g j = f j := fun j hj => (h j hj).symm
  rcases hs with ⟨h1, h2⟩ | ⟨h1, h2⟩
  · exact .inl ⟨h1, silenceAt_congr h h2 hc⟩
  · refine .inr ⟨fun ⟨t, ht⟩ => h1 ⟨t, silenceAt_congr h' ht hc⟩, ?_⟩
    rcases h2 with ⟨h2, h3⟩ | ⟨h2, h3, h4⟩
    · exact .inl ⟨h2, loopAt_congr h h3⟩
    · exact .inr ⟨fun ⟨t, ht⟩ => h2 ⟨t, loopAt_congr h' ht⟩, h3, stillAt_congr h h4⟩

/-- What `scan_song` finds, with what it leaves in the array. -/
def Outcome (c : Params) (m : Machine) (frame0 : Nat) (f : Nat → Machine) : S (Found × Nat × State) → Prop
  | .error e => ∃ h g k, e = .emulator h ∧ frame0 ≤ k ∧ k < c.scan ∧ (∀ j < frame0, g j = f j) ∧ Frames m g k ∧ Machine.do6502Frame (before m g k) = .error h
  | .ok (none, frame, s') => frame = c.scan ∧ ∃ g, (∀ j < frame0, g j = f j) ∧ Frames m g frame ∧ (∀ j < frame, ∀ r, ¬ Spec.Scan.Ends c g j r) ∧ ∀ k < frame, cleanRow (s'.rows k) = row g k
  | .ok (some r, frame, s') => frame < c.scan ∧ ∃ g, (∀ j < frame0, g j = f j) ∧ Frames m g (frame + 1) ∧ Spec.Scan.Ends c g frame r ∧ (∀ j < frame, ∀ r', ¬ Spec.Scan.Ends c g j r') ∧ ∀ k < frame, cleanRow (s'.rows k) = row g k

theorem scanLoop_outcome {c : Params} (hc : Sane c) {m0 : Machine} : ∀ (n frame : Nat) (s : State) (f : Nat → Machine), frame + n = c.scan → Inv c f frame s → Frames m0 f frame →
    (∀ j < frame, ∀ r, ¬ Spec.Scan.Ends c f j r) → Outcome c m0 frame f (scanLoop c n frame s (before m0 f frame))
  | 0, frame, s, f, hn, hi, hf, he => by
    refine ⟨by omega, f, fun _ _ => rfl, hf, he, fun k hk => ?_⟩
    rw [hi.rows k hk, row_clean]
  | n + 1, frame, s, f, hn, hi, hf, he => by
    simp only [scanLoop]
    unfold emulate
    cases hx : Machine.do6502Frame (before m0 f frame) with
    | error h => exact ⟨h, f, frame, rfl, Nat.le_refl _, by omega, fun _ _ => rfl, hf, hx⟩
    | ok r =>
      obtain ⟨cycles, m'⟩ := r
      obtain ⟨g, hg⟩ : ∃ g : Nat → Machine, g = fun k => if k = frame then m' else f k := ⟨_, rfl⟩
      have g1 : ∀ j < frame, f j = g j := fun j hj => by rw [hg]; dsimp only; rw [if_neg (by omega)]
      have g2 : g frame = m' := by rw [hg]; dsimp only; rw [if_pos rfl]
      have gb : ∀ j ≤ frame, before m0 g j = before m0 f j := fun j hj => by
        cases j with
        | zero => rfl
        | succ j => exact (g1 j (by omega)).symm
      have gf : Frames m0 g (frame + 1) := by
        intro k hk
        by_cases hkf : k = frame
        · rw [hkf, gb _ (Nat.le_refl _), g2]; exact ⟨_, hx⟩
        · obtain ⟨cy, h⟩ := hf k (by omega)
          rw [gb _ (by omega), ← g1 k (by omega)]; exact ⟨cy, h⟩
      have ge : ∀ j < frame, ∀ r, ¬ Spec.Scan.Ends c g j r := fun j hj r h => he j hj r (ends_congr hc.silence (fun i hi => (g1 i (by omega)).symm) h)
      obtain ⟨found, s', e1, e2, e3, e4, e5⟩ := detect_spec (c := c) (f := g) (frame := frame) (s := s) hc.check hc.minimum hc.silence (by omega) (inv_congr g1 hi) ge
      show Outcome c m0 frame f (bind (detect c frame (storePokeys m') (silentPokeys m') s) _)
      rw [g2] at e1
      rw [bind_okS e1]
      dsimp only
      cases found with
      | some r => exact ⟨by omega, g, fun j hj => (g1 j hj).symm, gf, e2 r rfl, ge, fun k hk => by rw [e4 k hk, row_clean]⟩
      | none =>
        dsimp only
        obtain ⟨e6, e7⟩ := e3 rfl
        have hnext := scanLoop_outcome hc n (frame + 1) s' g (by omega) e7 gf fun j hj r => by
          by_cases hjf : j = frame
          · rw [hjf]; exact e6 r
          · exact ge j (by omega) r
        have hb : before m0 g (frame + 1) = m' := g2
        rw [hb] at hnext
        have hgf : ∀ {q : Nat → Machine}, (∀ j < frame + 1, q j = g j) → ∀ j < frame, q j = f j := fun hq j hj => (hq j (by omega)).trans (g1 j hj).symm
        cases hy : scanLoop c n (frame + 1) s' m' with
        | error e =>
          rw [hy] at hnext
          obtain ⟨h, q, k, a1, a2, a3, a4, a5, a6⟩ := hnext
          exact ⟨h, q, k, a1, by omega, a3, hgf a4, a5, a6⟩
        | ok z =>
          rw [hy] at hnext
          obtain ⟨fd, fr, s''⟩ := z
          cases fd with
          | none =>
            obtain ⟨a1, q, a2, a3⟩ := hnext
            exact ⟨a1, q, hgf a2, a3⟩
          | some r =>
            obtain ⟨a1, q, a2, a3⟩ := hnext
            exact ⟨a1, q, hgf a2, a3⟩

theorem scanSong_outcome {c : Params} (hc : Sane c) {song : Int} {m m1 : Machine} {u : Unit} (h : Machine.playSong song (-1) m = .ok (u, m1)) (s : State) :
    Outcome c m1 0 (fun _ => m1) (scanSong c song m s) := by
  unfold scanSong
  rw [h]
  exact scanLoop_outcome hc c.scan 0 _ (fun _ => m1) (by omega) (begin_inv c _ s) (fun k hk => by omega) fun j hj => by omega

end Scanned

open Scanned

/-- C53.  What `asapscan -t` finds.  Whatever the arrays contain, and whatever collisions of hashes there are: the result is found after
the first frame after which the end of the music is known, and is that end.  If nothing is found, there is no such frame. -/
theorem C53_detects (c : Asap.Scan.Params) (hc : Sane c) (song : Int) (m : Machine) (s s' : Asap.Scan.State) (found : Asap.Scan.Found) (frame : Nat)
    (h : Asap.Scan.scanSong c song m s = .ok (found, frame, s')) :
    ∃ m1 f, Machine.playSong song (-1) m = .ok ((), m1) ∧
      (found = none → frame = c.scan ∧ Spec.Scan.Frames m1 f frame ∧ ∀ k < frame, ∀ r, ¬ Spec.Scan.Ends c f k r) ∧
      ∀ r, found = some r → frame < c.scan ∧ Spec.Scan.Frames m1 f (frame + 1) ∧ Spec.Scan.Ends c f frame r ∧ ∀ k < frame, ∀ r', ¬ Spec.Scan.Ends c f k r' := by
  cases hp : Machine.playSong song (-1) m with
  | error e => unfold Asap.Scan.scanSong at h; rw [hp] at h; cases h
  | ok r =>
    obtain ⟨u, m1⟩ := r
    have ho := scanSong_outcome hc hp s
    rw [h] at ho
    cases found with
    | none =>
      obtain ⟨h1, g, -, h2, h3, -⟩ := ho
      exact ⟨m1, g, rfl, fun _ => ⟨h1, h2, h3⟩, nofun⟩
    | some r =>
      obtain ⟨h1, g, -, h2, h3, h4, -⟩ := ho
      refine ⟨m1, g, rfl, nofun, fun r' hr => ?_⟩
      injection hr with hr
      rw [← hr]; exact ⟨h1, h2, h3, h4⟩

/-- C53.  The analyzer itself does not fail: the searches end, and all accesses to its arrays are within their bounds.  Otherwise the
emulator failed, at the start of the song or in one of the frames. -/
theorem C53_safe (c : Asap.Scan.Params) (hc : Sane c) (song : Int) (m : Machine) (s : Asap.Scan.State) (e : Asap.Scan.Stop)
    (h : Asap.Scan.scanSong c song m s = .error e) :
    ∃ hw, e = .emulator hw ∧ (Machine.playSong song (-1) m = .error hw ∨
      ∃ m1 f k, Machine.playSong song (-1) m = .ok ((), m1) ∧ k < c.scan ∧ Spec.Scan.Frames m1 f k ∧ Machine.do6502Frame (Spec.Scan.before m1 f k) = .error hw) := by
  cases hp : Machine.playSong song (-1) m with
  | error e' =>
    unfold Asap.Scan.scanSong at h
    rw [hp] at h
    injection h with h
    exact ⟨e', h.symm, .inl rfl⟩
  | ok r =>
    obtain ⟨u, m1⟩ := r
    have ho := scanSong_outcome hc hp s
    rw [h] at ho
    obtain ⟨hw, g, k, h1, -, h2, -, h3, h4⟩ := ho
    exact ⟨hw, h1, .inr ⟨m1, g, k, rfl, h2, h3, h4⟩⟩

/-- C53.  Any file and any song: the analyzer finds something or not, or the song does not start (an exception), or the emulator ends
with one of its two known defects. -/
theorem C53_any_file (fuel : Nat) (filename : Option (List Nat)) (file : List Nat) (hb : AllBytes file) (m m' : Machine)
    (hm : InRange m.cpu) (hr : 100 ≤ m.rate ∧ m.rate ≤ 48000) (hl : Loader.load fuel filename file m = .ok m') (song : Int) (s : Asap.Scan.State)
    (e : Asap.Scan.Stop) (h : Asap.Scan.scanSong (Asap.Scan.params m'.info.ntsc) song m' s = .error e) :
    e = .emulator .thrown ∨ e = .emulator .pc ∨ e = .emulator .dac := by
  have hcan := load_canPlay hb hm hr hl
  obtain ⟨hw, rfl, h1⟩ := C53_safe _ (params_sane _) song m' s e h
  have hp := loaded_playSong hcan.loaded song (-1)
  rcases h1 with h1 | ⟨m1, f, k, h1, -, h2, h3⟩
  · rw [h1] at hp
    rcases hp with (hp | hp) | hp
    · exact .inr (.inl (by rw [hp]))
    · exact .inr (.inr (by rw [hp]))
    · exact .inl (by rw [hp])
  · rw [h1] at hp
    have ready : ∀ j ≤ k, Ready (Spec.Scan.before m1 f j) := by
      intro j
      induction j with
      | zero => exact fun _ => hp.1.ready
      | succ j ih =>
        intro hj
        obtain ⟨cy, hx⟩ := h2 j (by omega)
        have := ready_frame (ih (by omega))
        rw [hx] at this
        exact this.2.1
    have := ready_frame (ready k (Nat.le_refl _))
    rw [h3] at this
    rcases this with this | this
    · exact .inr (.inl (by rw [this]))
    · exact .inr (.inr (by rw [this]))

/-- C53.  The time is printed as a line of a SAP file: a valid duration, less than 10 ms before the exact time of the frame and at most
1 ms after it, marked if it is a loop. -/
theorem C53_time (ntsc : Bool) (frames : Nat) (hf : frames ≤ (Asap.Scan.params ntsc).scan) (loop : Bool) :
    ∃ t ms, Asap.Scan.timeText ntsc frames loop = ascii "TIME " ++ t ++ (if loop = true then ascii " LOOP" else []) ∧ DurationText t ms ∧
      frames * 1000 * Asap.Scan.cyclesPerFrame ntsc < (ms + 10) * Asap.Scan.mainClock ntsc ∧
      ms * Asap.Scan.mainClock ntsc < frames * 1000 * Asap.Scan.cyclesPerFrame ntsc + Asap.Scan.mainClock ntsc := by
  have hv : ∃ v, v = Asap.Scan.framesToMilliseconds ntsc frames := ⟨_, rfl⟩
  obtain ⟨v, hv⟩ := hv
  have hb : v < 6000000 ∧ frames * 1000 * Asap.Scan.cyclesPerFrame ntsc ≤ v * Asap.Scan.mainClock ntsc ∧
      v * Asap.Scan.mainClock ntsc < frames * 1000 * Asap.Scan.cyclesPerFrame ntsc + Asap.Scan.mainClock ntsc := by
    rw [hv]
    unfold Asap.Scan.framesToMilliseconds
    cases ntsc with
    | false =>
      replace hf : frames ≤ 44874 := hf
      show (frames * 1000 * 35568 + 1773447 - 1) / 1773447 < 6000000 ∧ frames * 1000 * 35568 ≤ (frames * 1000 * 35568 + 1773447 - 1) / 1773447 * 1773447 ∧
        (frames * 1000 * 35568 + 1773447 - 1) / 1773447 * 1773447 < frames * 1000 * 35568 + 1773447
      omega
    | true =>
      replace hf : frames ≤ 53930 := hf
      show (frames * 1000 * 29868 + 1789772 - 1) / 1789772 < 6000000 ∧ frames * 1000 * 29868 ≤ (frames * 1000 * 29868 + 1789772 - 1) / 1789772 * 1789772 ∧
        (frames * 1000 * 29868 + 1789772 - 1) / 1789772 * 1789772 < frames * 1000 * 29868 + 1789772
      omega
  refine ⟨Asap.Scan.two (v / 60000) ++ [58] ++ Asap.Scan.two (v / 1000 % 60) ++ [46] ++ Asap.Scan.two (v / 10 % 100), v / 10 * 10, ?_, ?_, ?_, ?_⟩
  · unfold Asap.Scan.timeText
    rw [← hv]
    simp only [List.append_assoc]
  · refine ⟨Asap.Scan.two (v / 60000) ++ [58] ++ Asap.Scan.two (v / 1000 % 60), v / 1000, [46] ++ Asap.Scan.two (v / 10 % 100), v / 10 % 100 * 10, by simp only [List.append_assoc], ?_, ?_, by omega⟩
    · have := Whole.mm_ss (m₁ := 48 + v / 60000 / 10 % 10) (v₁ := v / 60000 / 10 % 10) (m₂ := 48 + v / 60000 % 10) (v₂ := v / 60000 % 10)
        (c₁ := 48 + v / 1000 % 60 / 10 % 10) (d₁ := v / 1000 % 60 / 10 % 10) (c₂ := 48 + v / 1000 % 60 % 10) (d₂ := v / 1000 % 60 % 10)
        ⟨by omega, by omega⟩ ⟨by omega, by omega⟩ ⟨by omega, by omega⟩ (by omega) ⟨by omega, by omega⟩
      rw [show 60 * (10 * (v / 60000 / 10 % 10) + v / 60000 % 10) + (10 * (v / 1000 % 60 / 10 % 10) + v / 1000 % 60 % 10) = v / 1000 by omega] at this
      exact this
    · have := Frac.ff (c₁ := 48 + v / 10 % 100 / 10 % 10) (d₁ := v / 10 % 100 / 10 % 10) (c₂ := 48 + v / 10 % 100 % 10) (d₂ := v / 10 % 100 % 10) ⟨by omega, by omega⟩ ⟨by omega, by omega⟩
      rw [show 100 * (v / 10 % 100 / 10 % 10) + 10 * (v / 10 % 100 % 10) = v / 10 % 100 * 10 by omega] at this
      exact this
  · refine Nat.lt_of_le_of_lt hb.2.1 (Nat.mul_lt_mul_of_pos_right (by omega) ?_)
    cases ntsc <;> decide
  · exact Nat.lt_of_le_of_lt (Nat.mul_le_mul_right _ (by omega)) hb.2.2

end Asap.Props
