import Verif.Props.Scan
import Mathlib.Tactic.SplitIfs

/-! # C54: fingerprints -/

namespace Asap.Props
open Asap Asap.Spec

namespace Scanned
open Asap.Scan Asap.Spec.Scan

/-- The rows of the first frames, normalized or not. -/
def RowsOk (f : Nat → Machine) (n : Nat) (s : State) : Prop := ∀ k < n, cleanRow (s.rows k) = row f k

theorem row_sum (m : Machine) : (rowOf (audible m)).sum = total (audible m).1 + total (audible m).2 := by
  unfold audible chip rowOf total
  simp only [List.flatMap_cons, List.flatMap_nil, List.cons_append, List.nil_append, List.sum_cons, List.sum_nil, List.map_cons, List.map_nil]
  omega

theorem channel_bound (c : Channel) : (channel c).1 < 256 ∧ (channel c).2 < 256 := by
  unfold channel
  split_ifs <;> dsimp only <;> omega

theorem total_bound (m : Machine) : total (audible m).1 + total (audible m).2 ≤ 4590 := by
  have h : ∀ p : Pokey, total (chip p) ≤ 2295 := by
    intro p
    have h0 := channel_bound (p.ch 0)
    have h1 := channel_bound (p.ch 1)
    have h2 := channel_bound (p.ch 2)
    have h3 := channel_bound (p.ch 3)
    unfold total chip
    simp only [List.sum_cons, List.sum_nil, List.map_cons, List.map_nil]
    omega
  have h1 := h m.pk.base
  have h2 := h m.pk.extra
  unfold audible
  dsimp only
  omega

theorem fold_eq (n : Nat) (h : n ≤ 4590) : fold (fold n) = if n = 0 then 0 else (n - 1) % 255 + 1 := by
  have hf : ∀ n, fold n = n % 256 + n / 256 := by
    intro n
    unfold fold
    rw [show (0xff : Nat) = 2 ^ 8 - 1 from rfl, Nat.and_two_pow_sub_one_eq_mod, Nat.shiftRight_eq_div_pow]
  rw [hf, hf]
  split_ifs <;> omega

theorem frameHash_lt (m : Machine) : frameHash m < 256 := by
  unfold frameHash
  dsimp only
  split_ifs <;> omega

theorem byteHash_ok {c : Params} {f : Nat → Machine} {n i : Nat} {s : State} (hn : n ≤ c.scan) (hi : i < n) (hs : RowsOk f n s) :
    ∃ s', byteHash c i s = .ok (frameHash (f i), s') ∧ RowsOk f n s' := by
  have h := getHash_row (c := c) (f := f) (s := s) (i := i) (by omega) (hs i hi)
  refine ⟨{ s with rows := fun k => if k = i then row f i else s.rows k }, ?_, ?_⟩
  · unfold byteHash
    rw [bind_okS h]
    dsimp only
    rw [fold_eq _ (by unfold row; rw [row_sum]; exact total_bound _)]
    unfold row
    rw [row_sum]
    rfl
  · intro k hk
    dsimp only
    by_cases hki : k = i
    · rw [if_pos hki, hki, row_clean]
    · rw [if_neg hki]; exact hs k hk

theorem hashes_ok {c : Params} {f : Nat → Machine} {n : Nat} (hn : n ≤ c.scan) : ∀ {l i : Nat} {s : State}, i + l ≤ n → RowsOk f n s →
    ∃ s', hashes c l i s = .ok ((List.range l).map (fun k => frameHash (f (i + k))), s') ∧ RowsOk f n s'
  | 0, _, s, _, hs => ⟨s, rfl, hs⟩
  | l + 1, i, s, hi, hs => by
    obtain ⟨s1, e1, hs1⟩ := byteHash_ok hn (by omega : i < n) hs
    obtain ⟨s2, e2, hs2⟩ := hashes_ok hn (l := l) (i := i + 1) (by omega) hs1
    refine ⟨s2, ?_, hs2⟩
    simp only [hashes]
    rw [bind_okS e1]
    dsimp only
    rw [bind_okS e2, List.range_succ_eq_map, List.map_cons, List.map_map]
    congr 2
    · congr 1
      apply List.map_congr_left
      intro k _
      show frameHash (f (i + 1 + k)) = frameHash (f (i + (k + 1)))
      rw [show i + 1 + k = i + (k + 1) by omega]

/-- One frame in the search for the part with the most different hashes. -/
def step (c : Params) (h : Nat → Nat) (i : Nat) (e : Entropy) : Entropy :=
  let e1 : Entropy := { e with value := if e.counters (h i) = 0 then e.value + 1 else e.value, counters := fun k => if k = h i then e.counters (h i) + 1 else e.counters k }
  if i ≥ c.window then
    let e2 : Entropy := { e1 with value := if e1.counters (h (i - c.window)) - 1 = 0 then e1.value - 1 else e1.value, counters := fun k => if k = h (i - c.window) then e1.counters (h (i - c.window)) - 1 else e1.counters k }
    e2.best c i
  else e1

/-- The search. -/
def steps (c : Params) (h : Nat → Nat) : Nat → Nat → Entropy → Entropy
  | 0, _, e => e
  | n + 1, i, e => steps c h n (i + 1) (step c h i e)

theorem entropyFrame_ok {c : Params} {f : Nat → Machine} {n i : Nat} {s : State} (hn : n ≤ c.scan) (hi : i < n) (hs : RowsOk f n s) (e : Entropy) :
    ∃ s', entropyFrame c i e s = .ok (step c (fun k => frameHash (f k)) i e, s') ∧ RowsOk f n s' := by
  obtain ⟨s1, e1, hs1⟩ := byteHash_ok hn hi hs
  unfold entropyFrame step
  rw [bind_okS e1]
  dsimp only
  unfold Entropy.add
  rw [if_pos (frameHash_lt _)]
  by_cases h : i ≥ c.window
  · obtain ⟨s2, e2, hs2⟩ := byteHash_ok hn (by omega : i - c.window < n) hs1
    rw [if_pos h]
    refine ⟨s2, ?_, hs2⟩
    rw [bind_okS rfl, if_pos h, bind_okS e2]
    dsimp only
    unfold Entropy.sub
    rw [if_pos (frameHash_lt _), bind_okS rfl]
  · rw [if_neg h]
    refine ⟨s1, ?_, hs1⟩
    rw [bind_okS rfl, if_neg h]

theorem entropyLoop_ok {c : Params} {f : Nat → Machine} {n : Nat} (hn : n ≤ c.scan) : ∀ {l i : Nat} {s : State} (e : Entropy), i + l ≤ n → RowsOk f n s →
    ∃ s', entropyLoop c l i e s = .ok (steps c (fun k => frameHash (f k)) l i e, s') ∧ RowsOk f n s'
  | 0, _, s, e, _, hs => ⟨s, rfl, hs⟩
  | l + 1, i, s, e, hi, hs => by
    obtain ⟨s1, e1, hs1⟩ := entropyFrame_ok hn (by omega : i < n) hs e
    obtain ⟨s2, e2, hs2⟩ := entropyLoop_ok hn (l := l) (i := i + 1) (step c (fun k => frameHash (f k)) i e) (by omega) hs1
    refine ⟨s2, ?_, hs2⟩
    simp only [entropyLoop]
    rw [bind_okS e1]
    exact e2

theorem best_frame (c : Params) (i : Nat) (e : Entropy) : (e.best c i).maxFrame = e.maxFrame ∨ (e.best c i).maxFrame = i - c.window := by
  unfold Entropy.best
  split
  · exact .inr rfl
  · exact .inl rfl

theorem step_frame (c : Params) (h : Nat → Nat) (i : Nat) (e : Entropy) : (step c h i e).maxFrame = e.maxFrame ∨ c.window ≤ i ∧ (step c h i e).maxFrame = i - c.window := by
  unfold step
  dsimp only
  by_cases hi : i ≥ c.window
  · rw [if_pos hi]
    rcases best_frame c i _ with h1 | h1
    · exact .inl h1
    · exact .inr ⟨hi, h1⟩
  · rw [if_neg hi]; exact .inl rfl

theorem step_congr {c : Params} {h h' : Nat → Nat} {i : Nat} (e : Entropy) (hh : ∀ k ≤ i, h k = h' k) : step c h i e = step c h' i e := by
  unfold step
  rw [hh i (Nat.le_refl _), hh (i - c.window) (by omega)]

theorem steps_congr {c : Params} {h h' : Nat → Nat} : ∀ {n i : Nat} (e : Entropy), (∀ k < i + n, h k = h' k) → steps c h n i e = steps c h' n i e
  | 0, _, _, _ => rfl
  | n + 1, i, e, hh => by
    show steps c h n (i + 1) (step c h i e) = steps c h' n (i + 1) (step c h' i e)
    rw [step_congr e (fun k hk => hh k (by omega)), steps_congr _ (fun k hk => hh k (by omega))]

theorem steps_frame (c : Params) (h : Nat → Nat) : ∀ (n i : Nat) (e : Entropy), (steps c h n i e).maxFrame = e.maxFrame ∨ c.window ≤ i + n ∧ (steps c h n i e).maxFrame + c.window < i + n
  | 0, _, _ => .inl rfl
  | n + 1, i, e => by
    show (steps c h n (i + 1) (step c h i e)).maxFrame = _ ∨ _ ∧ (steps c h n (i + 1) (step c h i e)).maxFrame + c.window < _
    rcases steps_frame c h n (i + 1) (step c h i e) with h1 | h1
    · rcases step_frame c h i e with h2 | h2
      · exact .inl (h1.trans h2)
      · exact .inr (by omega)
    · exact .inr (by omega)

/-- Where the short fingerprint begins. -/
def start (c : Params) (h : Nat → Nat) (frames : Nat) : Nat := (steps c h frames 0 ⟨fun _ => 0, 0, 0, 0⟩).maxFrame

theorem start_le (c : Params) (h : Nat → Nat) (frames n : Nat) (h1 : frames ≤ n) (h2 : c.window ≤ n) : start c h frames + c.window ≤ n := by
  unfold start
  rcases steps_frame c h frames 0 ⟨fun _ => 0, 0, 0, 0⟩ with h3 | h3
  · rw [h3]; exact (by omega : 0 + c.window ≤ n)
  · omega

/-- What is needed of the times for fingerprints. -/
structure Long (c : Params) : Prop where
  window : 1 ≤ c.window
  silence : c.window ≤ c.silence
  check : c.window ≤ c.check
  scan : c.check ≤ c.scan
  minimum : 2 ≤ c.minimum

theorem Long.sane {c : Params} (h : Long c) : Sane c := ⟨by have := h.window; have := h.silence; omega, by have := h.window; have := h.check; omega, h.minimum⟩

theorem params_long (ntsc : Bool) : Long (params ntsc) := by
  cases ntsc <;> exact ⟨by decide +kernel, by decide +kernel, by decide +kernel, by decide +kernel, by decide +kernel⟩

theorem ends_frames {c : Params} (hc : Long c) {f : Nat → Machine} {frame : Nat} {r : Nat × Bool} (h : Spec.Scan.Ends c f frame r) : r.1 ≤ frame ∧ c.window ≤ frame := by
  have h0 := hc.window
  have h1 := hc.silence
  have h2 := hc.check
  rcases h with ⟨-, h, h', -⟩ | ⟨-, ⟨-, h, -⟩ | ⟨-, -, h, -⟩⟩ <;> omega

/-- Both fingerprints, in terms of the music. -/
theorem fingerprint_ok {c : Params} (hc : Long c) {song : Int} {m m1 : Machine} {s : State} {found : Found} {frame : Nat} {s' : State}
    (hp : Machine.playSong song (-1) m = .ok ((), m1)) (h : scanSong c song m s = .ok (found, frame, s')) :
    ∃ f, (found = none → frame = c.scan ∧ Frames m1 f frame ∧ ∀ k < frame, ∀ r, ¬ Spec.Scan.Ends c f k r) ∧
      (∀ r, found = some r → frame < c.scan ∧ Frames m1 f (frame + 1) ∧ Spec.Scan.Ends c f frame r ∧ ∀ k < frame, ∀ r', ¬ Spec.Scan.Ends c f k r') ∧
      fingerprintFrames c found ≤ frame ∧ c.window ≤ frame ∧
      fingerprint c true song m s = .ok ((List.range frame).map fun k => frameHash (f k)) ∧
      fingerprint c false song m s = .ok ((List.range c.window).map fun k => frameHash (f (start c (fun k => frameHash (f k)) (fingerprintFrames c found) + k))) := by
  have ho := scanSong_outcome hc.sane hp s
  rw [h] at ho
  have go : ∀ f : Nat → Machine, frame ≤ c.scan → RowsOk f frame s' → fingerprintFrames c found ≤ frame → c.window ≤ frame →
      fingerprint c true song m s = .ok ((List.range frame).map fun k => frameHash (f k)) ∧
      fingerprint c false song m s = .ok ((List.range c.window).map fun k => frameHash (f (start c (fun k => frameHash (f k)) (fingerprintFrames c found) + k))) := by
    intro f h1 h2 h3 h4
    unfold fingerprint
    constructor
    · rw [bind_okS h, if_pos rfl]
      unfold longFingerprint
      obtain ⟨s2, e2, -⟩ := hashes_ok h1 (l := frame) (i := 0) (by omega) h2
      dsimp only
      rw [bind_okS e2]
      dsimp only
      congr 1
      apply List.map_congr_left
      intro k _
      rw [Nat.zero_add]
    · rw [bind_okS h, if_neg (by decide)]
      unfold shortFingerprint
      obtain ⟨s2, e2, hs2⟩ := entropyLoop_ok h1 (l := fingerprintFrames c found) (i := 0) ⟨fun _ => 0, 0, 0, 0⟩ (by omega) h2
      dsimp only
      rw [bind_okS e2]
      obtain ⟨s3, e3, -⟩ := hashes_ok h1 (l := c.window) (i := start c (fun k => frameHash (f k)) (fingerprintFrames c found)) (start_le c _ _ _ h3 h4) hs2
      have e3' : hashes c c.window (steps c (fun k => frameHash (f k)) (fingerprintFrames c found) 0 ⟨fun _ => 0, 0, 0, 0⟩).maxFrame s2 = _ := e3
      dsimp only
      rw [bind_okS e3']
  cases found with
  | none =>
    obtain ⟨h1, g, -, h2, h3, h4⟩ := ho
    have hfr : fingerprintFrames c none ≤ frame := by have := hc.scan; show c.check ≤ frame; omega
    have h32 : c.window ≤ frame := by have := hc.scan; have := hc.check; omega
    exact ⟨g, fun _ => ⟨h1, h2, h3⟩, nofun, hfr, h32, go g (by omega) h4 hfr h32⟩
  | some r =>
    obtain ⟨h1, g, -, h2, h3, h4, h5⟩ := ho
    have hfr := ends_frames hc h3
    exact ⟨g, nofun, fun r' hr => by injection hr with hr; rw [← hr]; exact ⟨h1, h2, h3, h4⟩, hfr.1, hfr.2, go g (by omega) h5 hfr.1 hfr.2⟩

theorem scanSong_plays {c : Params} {song : Int} {m : Machine} {s : State} {r : Found × Nat × State} (h : scanSong c song m s = .ok r) :
    ∃ m1, Machine.playSong song (-1) m = .ok ((), m1) := by
  unfold scanSong at h
  cases hp : Machine.playSong song (-1) m with
  | error e => rw [hp] at h; cases h
  | ok q => exact ⟨q.2, rfl⟩

theorem range_split (g : Nat → Nat) {a l n : Nat} (h : a + l ≤ n) :
    (List.range n).map g = (List.range a).map g ++ (List.range l).map (fun k => g (a + k)) ++ (List.range (n - (a + l))).map (fun k => g (a + l + k)) := by
  obtain ⟨d, rfl⟩ := Nat.le.dest h
  rw [Nat.add_sub_cancel_left, List.range_add, List.map_append, List.range_add, List.map_append, List.map_map, List.map_map]
  rfl

/-- The silence is heard. -/
theorem silent_audible {m m' : Machine} (h : audible m = audible m') : Silent m → Silent m' := by
  have key : ∀ {c c' : Channel}, channel c = channel c' → c.audc % 16 = 0 → c'.audc % 16 = 0 := by
    intro c c' h hc
    unfold channel at h
    rw [if_pos hc] at h
    by_cases hc' : c'.audc % 16 = 0
    · exact hc'
    · rw [if_neg hc'] at h
      have := (Prod.ext_iff.mp h).2
      dsimp only at this
      split_ifs at this <;> omega
  unfold audible chip at h
  simp only [Prod.mk.injEq, List.cons.injEq, and_true] at h
  obtain ⟨⟨⟨h0, h1, h2, h3⟩, -⟩, ⟨g0, g1, g2, g3⟩, -⟩ := h
  intro hs i hi
  have hs' := hs i hi
  match i, hi with
  | 0, _ => exact ⟨key h0 hs'.1, key g0 hs'.2⟩
  | 1, _ => exact ⟨key h1 hs'.1, key g1 hs'.2⟩
  | 2, _ => exact ⟨key h2 hs'.1, key g2 hs'.2⟩
  | 3, _ => exact ⟨key h3 hs'.1, key g3 hs'.2⟩

theorem ends_audible {c : Params} (hc : 1 ≤ c.silence) {f g : Nat → Machine} {n : Nat} {r : Nat × Bool} (h : ∀ j ≤ n, audible (f j) = audible (g j))
    (hs : Spec.Scan.Ends c f n r) : Spec.Scan.Ends c g n r := by
  have sil : ∀ {f g : Nat → Machine} {t : Nat}, (∀ j ≤ n, audible (f j) = audible (g j)) → SilenceAt c f n t → SilenceAt c g n t :=
    fun h ⟨h1, h2, h3, h4⟩ => ⟨h1, h2, fun k a b => silent_audible (h k b) (h3 k a b), fun e => h4 (silent_audible (h _ (by omega)).symm e)⟩
  have lp : ∀ {f g : Nat → Machine} {t : Nat}, (∀ j ≤ n, audible (f j) = audible (g j)) → LoopAt c f n t → LoopAt c g n t :=
    fun h ⟨h1, a, h2, h3⟩ => ⟨h1, a, h2, fun k hk => by rw [← h _ (by omega), ← h _ (by omega)]; exact h3 k hk⟩
  have h' : ∀ j ≤ n, audible (g j) = audible (f j) := fun j hj => (h j hj).symm
  rcases hs with ⟨h1, h2⟩ | ⟨h1, h2⟩
  · exact .inl ⟨h1, sil h h2⟩
  · refine .inr ⟨fun ⟨t, ht⟩ => h1 ⟨t, sil h' ht⟩, ?_⟩
    rcases h2 with ⟨h2, h3⟩ | ⟨h2, h3, h4, h5⟩
    · exact .inl ⟨h2, lp h h3⟩
    · exact .inr ⟨fun ⟨t, ht⟩ => h2 ⟨t, lp h' ht⟩, h3, h4, fun k hk => by rw [← h _ (by omega), ← h _ (by omega)]; exact h5 k hk⟩

theorem ends_unique {c : Params} {f : Nat → Machine} {n : Nat} {r r' : Nat × Bool} (h : Spec.Scan.Ends c f n r) (h' : Spec.Scan.Ends c f n r') : r = r' := by
  obtain ⟨t, b⟩ := r
  obtain ⟨t', b'⟩ := r'
  rcases h with ⟨h1, h2⟩ | ⟨h1, h2⟩ <;> rcases h' with ⟨g1, g2⟩ | ⟨g1, g2⟩
  · have := h2.1; have := g2.1
    dsimp only at *
    rw [h1, g1, show t = t' by omega]
  · exact absurd ⟨_, h2⟩ g1
  · exact absurd ⟨_, g2⟩ h1
  · rcases h2 with ⟨h2, h3⟩ | ⟨h2, h3, h4⟩ <;> rcases g2 with ⟨g2, g3⟩ | ⟨g2, g3, g4⟩
    · have := h3.1; have := g3.1
      dsimp only at *
      rw [h2, g2, show t = t' by omega]
    · exact absurd ⟨_, h3⟩ g2
    · exact absurd ⟨_, g3⟩ h2
    · have := h4.1; have := g4.1
      dsimp only at *
      rw [h3, g3, show t = t' by omega]

theorem frames_unique {m : Machine} {f g : Nat → Machine} {n : Nat} (hf : Frames m f n) (hg : Frames m g n) : ∀ k < n, f k = g k := by
  intro k
  induction k with
  | zero =>
    intro h
    obtain ⟨a, ha⟩ := hf 0 h
    obtain ⟨b, hb⟩ := hg 0 h
    have : Except.ok (a, f 0) = Except.ok (ε := Hw) (b, g 0) := ha.symm.trans hb
    injection this with this
    exact (Prod.ext_iff.mp this).2
  | succ k ih =>
    intro h
    obtain ⟨a, ha⟩ := hf (k + 1) h
    obtain ⟨b, hb⟩ := hg (k + 1) h
    have e : before m f (k + 1) = before m g (k + 1) := ih (by omega)
    rw [e] at ha
    have : Except.ok (a, f (k + 1)) = Except.ok (ε := Hw) (b, g (k + 1)) := ha.symm.trans hb
    injection this with this
    exact (Prod.ext_iff.mp this).2

end Scanned

open Scanned

/-- C54.  The fingerprint printed with `-p` is a part (of 32 bytes) of the longer one printed with `-l`, which has one byte for each frame. -/
theorem C54_substring (c : Asap.Scan.Params) (hc : Long c) (song : Int) (m : Machine) (s s' : Asap.Scan.State) (found : Asap.Scan.Found) (frame : Nat)
    (h : Asap.Scan.scanSong c song m s = .ok (found, frame, s')) :
    ∃ a short b, Asap.Scan.fingerprint c true song m s = .ok (a ++ short ++ b) ∧ Asap.Scan.fingerprint c false song m s = .ok short ∧
      short.length = c.window ∧ (a ++ short ++ b).length = frame ∧ AllBytes (a ++ short ++ b) := by
  obtain ⟨m1, hp⟩ := scanSong_plays h
  obtain ⟨f, -, -, h1, h2, h3, h4⟩ := fingerprint_ok hc hp h
  have hst := start_le c (fun k => Spec.Scan.frameHash (f k)) _ _ h1 h2
  have e := range_split (fun k => Spec.Scan.frameHash (f k)) hst
  refine ⟨_, _, _, by rw [h3, e], h4, by simp, ?_, ?_⟩
  · rw [← e]; simp
  · rw [← e]
    intro x hx
    obtain ⟨k, -, rfl⟩ := List.mem_map.mp hx
    exact frameHash_lt _

/-- C54.  The longer one is the hashes of the frames that were played until the end of the music was found. -/
theorem C54_long (c : Asap.Scan.Params) (hc : Long c) (song : Int) (m : Machine) (s s' : Asap.Scan.State) (found : Asap.Scan.Found) (frame : Nat)
    (h : Asap.Scan.scanSong c song m s = .ok (found, frame, s')) :
    ∃ m1 f, Machine.playSong song (-1) m = .ok ((), m1) ∧ Spec.Scan.Frames m1 f frame ∧
      Asap.Scan.fingerprint c true song m s = .ok ((List.range frame).map fun k => Spec.Scan.frameHash (f k)) := by
  obtain ⟨m1, hp⟩ := scanSong_plays h
  obtain ⟨f, h1, h2, -, -, h3, -⟩ := fingerprint_ok hc hp h
  refine ⟨m1, f, hp, ?_, h3⟩
  cases found with
  | none => exact (h1 rfl).2.1
  | some r => exact fun k hk => (h2 r rfl).2.1 k (by omega)

/-- C54.  Music that sounds the same has the same fingerprints and the same time, whatever else the two programs do.  `f` and `g` are
the machines after each frame of the two songs. -/
theorem C54_same (c : Asap.Scan.Params) (hc : Long c) (song song' : Int) (m m' m1 m1' : Machine) (s s' : Asap.Scan.State) (f g : Nat → Machine)
    (hp : Machine.playSong song (-1) m = .ok ((), m1)) (hp' : Machine.playSong song' (-1) m' = .ok ((), m1'))
    (hf : Spec.Scan.Frames m1 f c.scan) (hg : Spec.Scan.Frames m1' g c.scan) (h : ∀ k < c.scan, Spec.Scan.audible (f k) = Spec.Scan.audible (g k)) :
    ∃ found frame t t', Asap.Scan.scanSong c song m s = .ok (found, frame, t) ∧ Asap.Scan.scanSong c song' m' s' = .ok (found, frame, t') ∧
      ∀ long, Asap.Scan.fingerprint c long song m s = Asap.Scan.fingerprint c long song' m' s' := by
  have ok : ∀ {m m1 : Machine} {song : Int} {f : Nat → Machine} (s : Asap.Scan.State), Machine.playSong song (-1) m = .ok ((), m1) → Spec.Scan.Frames m1 f c.scan →
      ∃ r, Asap.Scan.scanSong c song m s = .ok r := by
    intro m m1 song f s hp hf
    cases hx : Asap.Scan.scanSong c song m s with
    | ok r => exact ⟨r, rfl⟩
    | error e =>
      exfalso
      obtain ⟨hw, -, hh⟩ := C53_safe c hc.sane song m s e hx
      rcases hh with hh | ⟨m2, f', k, hp2, hk, hf', he⟩
      · rw [hp] at hh; cases hh
      · rw [hp] at hp2
        injection hp2 with hp2
        have hm : m1 = m2 := (Prod.ext_iff.mp hp2).2
        subst hm
        have hfk : ∀ j < k, f j = f' j := frames_unique (fun j hj => hf j (by omega)) hf'
        have hb : Spec.Scan.before m1 f k = Spec.Scan.before m1 f' k := by
          cases k with
          | zero => rfl
          | succ k => exact hfk k (by omega)
        obtain ⟨cy, hx⟩ := hf k hk
        rw [hb, he] at hx
        cases hx
  obtain ⟨⟨found, frame, t⟩, hx⟩ := ok s hp hf
  obtain ⟨⟨found', frame', t'⟩, hx'⟩ := ok s' hp' hg
  obtain ⟨q, a1, a2, a3, a4, a5, a6⟩ := fingerprint_ok hc hp hx
  obtain ⟨q', b1, b2, b3, b4, b5, b6⟩ := fingerprint_ok hc hp' hx'
  -- the same frames
  have hq : frame ≤ c.scan ∧ (∀ k < frame, q k = f k) ∧ (found ≠ none → frame < c.scan ∧ q frame = f frame) := by
    cases found with
    | none =>
      obtain ⟨x1, x2, -⟩ := a1 rfl
      exact ⟨by omega, frames_unique x2 (fun j hj => hf j (by omega)), fun h => absurd rfl h⟩
    | some r =>
      obtain ⟨x1, x2, -⟩ := a2 r rfl
      have := frames_unique x2 (fun j hj => hf j (by omega))
      exact ⟨by omega, fun k hk => this k (by omega), fun _ => ⟨x1, this frame (by omega)⟩⟩
  have hq' : frame' ≤ c.scan ∧ (∀ k < frame', q' k = g k) ∧ (found' ≠ none → frame' < c.scan ∧ q' frame' = g frame') := by
    cases found' with
    | none =>
      obtain ⟨x1, x2, -⟩ := b1 rfl
      exact ⟨by omega, frames_unique x2 (fun j hj => hg j (by omega)), fun h => absurd rfl h⟩
    | some r =>
      obtain ⟨x1, x2, -⟩ := b2 r rfl
      have := frames_unique x2 (fun j hj => hg j (by omega))
      exact ⟨by omega, fun k hk => this k (by omega), fun _ => ⟨x1, this frame' (by omega)⟩⟩
  have hsil := hc.sane.silence
  -- the first end is the same
  have none_of : ∀ n, (∀ k < n, ∀ r, ¬ Spec.Scan.Ends c q k r) → n ≤ frame → ∀ k < n, ∀ r, ¬ Spec.Scan.Ends c g k r := by
    intro n hn hle k hk r he
    refine hn k hk r (ends_audible hsil (fun j hj => ?_) he)
    rw [← h j (by omega), hq.2.1 j (by omega)]
  have none_of' : ∀ n, (∀ k < n, ∀ r, ¬ Spec.Scan.Ends c q' k r) → n ≤ frame' → ∀ k < n, ∀ r, ¬ Spec.Scan.Ends c g k r := by
    intro n hn hle k hk r he
    refine hn k hk r (ends_audible hsil (fun j hj => ?_) he)
    rw [hq'.2.1 j (by omega)]
  have some_of : ∀ r, Spec.Scan.Ends c q frame r → found ≠ none → Spec.Scan.Ends c g frame r := by
    intro r he hne
    obtain ⟨y1, y2⟩ := hq.2.2 hne
    refine ends_audible hsil (fun j hj => ?_) he
    by_cases hj' : j = frame
    · rw [hj', y2]; exact h frame y1
    · rw [hq.2.1 j (by omega)]; exact h j (by omega)
  have some_of' : ∀ r, Spec.Scan.Ends c q' frame' r → found' ≠ none → Spec.Scan.Ends c g frame' r := by
    intro r he hne
    obtain ⟨y1, y2⟩ := hq'.2.2 hne
    refine ends_audible hsil (fun j hj => ?_) he
    by_cases hj' : j = frame'
    · rw [hj', y2]
    · rw [hq'.2.1 j (by omega)]
  have hsame : found = found' ∧ frame = frame' := by
    cases found with
    | none =>
      obtain ⟨x1, -, x3⟩ := a1 rfl
      have y := none_of frame x3 (Nat.le_refl _)
      cases found' with
      | none => exact ⟨rfl, by rw [x1, (b1 rfl).1]⟩
      | some r' =>
        obtain ⟨z1, -, z3, -⟩ := b2 r' rfl
        exact absurd (some_of' r' z3 nofun) (y frame' (by omega) r')
    | some r =>
      obtain ⟨x1, -, x3, x4⟩ := a2 r rfl
      have xe := some_of r x3 nofun
      have xn := none_of frame x4 (Nat.le_refl _)
      cases found' with
      | none =>
        obtain ⟨z1, -, z3⟩ := b1 rfl
        exact absurd xe (none_of' frame' z3 (Nat.le_refl _) frame (by omega) r)
      | some r' =>
        obtain ⟨z1, -, z3, z4⟩ := b2 r' rfl
        have ze := some_of' r' z3 nofun
        have zn := none_of' frame' z4 (Nat.le_refl _)
        have hfr : frame = frame' := by
          rcases Nat.lt_trichotomy frame frame' with hlt | heq | hgt
          · exact absurd xe (zn frame hlt r)
          · exact heq
          · exact absurd ze (xn frame' hgt r')
        rw [← hfr] at ze
        exact ⟨by rw [ends_unique xe ze], hfr⟩
  obtain ⟨hfound, hframe⟩ := hsame
  refine ⟨found, frame, t, t', hx, by rw [hfound, hframe]; exact hx', ?_⟩
  have hh : ∀ k < frame, Spec.Scan.frameHash (q k) = Spec.Scan.frameHash (q' k) := by
    intro k hk
    rw [hq.2.1 k hk, hq'.2.1 k (by omega)]
    unfold Spec.Scan.frameHash
    rw [h k (by omega)]
  intro long
  cases long with
  | true =>
    rw [a5, b5, ← hframe]
    congr 1
    exact List.map_congr_left fun k hk => hh k (List.mem_range.mp hk)
  | false =>
    have hstart : start c (fun k => Spec.Scan.frameHash (q k)) (Asap.Scan.fingerprintFrames c found) = start c (fun k => Spec.Scan.frameHash (q' k)) (Asap.Scan.fingerprintFrames c found) := by
      unfold start
      rw [steps_congr (h' := fun k => Spec.Scan.frameHash (q' k)) _ (fun k hk => hh k (by omega))]
    have hle := start_le c (fun k => Spec.Scan.frameHash (q k)) _ _ a3 a4
    rw [a6, b6, ← hfound, ← hstart]
    congr 1
    refine List.map_congr_left fun k hk => hh _ ?_
    have := List.mem_range.mp hk
    omega

end Asap.Props
