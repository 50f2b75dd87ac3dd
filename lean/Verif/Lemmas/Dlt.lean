import Verif.Lemmas.Module
import Verif.Spec.Dlt

/-! Delta Music Composer: the parser finds the songs of the specification. -/

namespace Asap.Module
open Asap Asap.Spec.Dlt

/-- The number of positions below `n` that have not been seen. -/
def unseen (seen : Nat → Bool) : Nat → Nat
  | 0 => 0
  | n + 1 => (if seen n then 0 else 1) + unseen seen n

theorem unseen_le (seen : Nat → Bool) (n : Nat) : unseen seen n ≤ n := by
  induction n with
  | zero => exact Nat.le_refl _
  | succ n ih => unfold unseen; split <;> omega

theorem unseen_upd_out (seen : Nat → Bool) (p n : Nat) (h : n ≤ p) : unseen (upd seen p true) n = unseen seen n := by
  induction n with
  | zero => rfl
  | succ n ih =>
    unfold unseen
    rw [ih (by omega)]
    simp only [upd, if_neg (show ¬ n = p by omega)]

theorem unseen_upd (seen : Nat → Bool) (p n : Nat) (h : p < n) (hs : seen p = false) :
    unseen (upd seen p true) n + 1 = unseen seen n := by
  induction n with
  | zero => omega
  | succ n ih =>
    unfold unseen
    by_cases e : p = n
    · subst e
      rw [unseen_upd_out _ _ _ (Nat.le_refl _), hs]
      simp [upd]; omega
    · rw [← ih (by omega)]
      simp only [upd, if_neg (show ¬ n = p by omega)]
      omega

theorem byte_of {m : List Nat} {i b : Nat} (h : m[i]? = some b) : byte m i = b := by
  unfold byte
  rw [List.getD_eq_getElem?_getD, h]; rfl

/-- A conjunction of conditions that are decided correctly is. -/
theorem andM_iff {x y : M Bool} {p q : Prop} (hx : Post (fun b => b = true ↔ p) x) (hy : Post (fun b => b = true ↔ q) y) :
    Post (fun b => b = true ↔ p ∧ q) (andM x y) := by
  refine Post.bind hx fun b hb => ?_
  cases b
  · exact ⟨fun h => by simp at h, fun h => hb.2 h.1⟩
  · exact hy.mono fun c hc => hc.trans ⟨fun h => ⟨hb.1 rfl, h⟩, fun h => h.2⟩

theorem orM_iff {x y : M Bool} {p q : Prop} (hx : Post (fun b => b = true ↔ p) x) (hy : Post (fun b => b = true ↔ q) y) :
    Post (fun b => b = true ↔ p ∨ q) (orM x y) := by
  refine Post.bind hx fun b hb => ?_
  cases b
  · exact hy.mono fun c hc => hc.trans ⟨.inr, fun h => h.elim (fun hp => absurd (hb.2 hp) (by simp)) id⟩
  · exact ⟨fun _ => .inl (hb.1 rfl), fun _ => rfl⟩

theorem test_iff {m : List Nat} {i : Nat} (h : i < m.length) (p : Nat → Prop) [DecidablePred p] :
    Post (fun b => b = true ↔ p (byte m i)) (do let x ← rd m i; .ok (decide (p x))) :=
  Post.bind (Post.rd h) fun x hx => by
    rw [byte_of hx]
    exact decide_eq_true_iff

variable {m : List Nat} (hl : 0x2c06 ≤ m.length)
include hl

theorem dltEmpty_post {pos : Nat} (hp : pos < 128) : Post (fun e => e = true ↔ Blank m pos) (isDltTrackEmpty m pos) := by
  unfold isDltTrackEmpty
  have h0 := test_iff (m := m) (i := 0x2006 + pos) (by omega) (fun x => x ≥ 0x43)
  have h1 := test_iff (m := m) (i := 0x2106 + pos) (by omega) (fun x => x ≥ 0x40)
  have h2 := test_iff (m := m) (i := 0x2206 + pos) (by omega) (fun x => x ≥ 0x40)
  have h3 := test_iff (m := m) (i := 0x2306 + pos) (by omega) (fun x => x ≥ 0x40)
  exact andM_iff h0 (andM_iff h1 (andM_iff h2 h3))

theorem dltChannelEnd_post {pos i ch : Nat} (hp : pos < 128) (hi : i < 64) (hc : ch < 4) :
    Post (fun e => e = true ↔ track m pos ch < 64 ∧ byte m (6 + 128 * track m pos ch + 2 * i) < 0x80 ∧
      0x80 ≤ byte m (6 + 128 * track m pos ch + 2 * i + 1)) (dltChannelEnd m pos i ch) := by
  unfold dltChannelEnd
  refine Post.bind (Post.rd (by omega)) fun p hp => ?_
  have e : track m pos ch = p := by unfold track; rw [show 0x2006 + 256 * ch + pos = 0x2006 + ch * 256 + pos by omega]; exact byte_of hp
  rw [e]
  refine Post.ite (fun h => ?_) fun h => ⟨fun h => by simp at h, fun h' => absurd h'.1 h⟩
  have h1 := test_iff (m := m) (i := 6 + p * 128 + i * 2) (by omega) (fun x => x < 0x80)
  have h2 := test_iff (m := m) (i := 6 + p * 128 + i * 2 + 1) (by omega) (fun x => x ≥ 0x80)
  refine (andM_iff h1 h2).mono fun b hb => hb.trans ?_
  rw [show 6 + p * 128 + i * 2 = 6 + 128 * p + 2 * i by omega]
  exact ⟨fun h' => ⟨h, h'⟩, fun h' => h'.2⟩

theorem dltPatternEnd_post {pos i : Nat} (hp : pos < 128) (hi : i < 64) :
    Post (fun e => e = true ↔ EndRow m pos i) (isDltPatternEnd m pos i) := by
  unfold isDltPatternEnd
  refine (orM_iff (dltChannelEnd_post hl hp hi (by omega)) (orM_iff (dltChannelEnd_post hl hp hi (by omega))
    (orM_iff (dltChannelEnd_post hl hp hi (by omega)) (dltChannelEnd_post hl hp hi (by omega))))).mono fun b hb => hb.trans ?_
  constructor
  · rintro (h | h | h | h)
    · exact ⟨0, by omega, h⟩
    · exact ⟨1, by omega, h⟩
    · exact ⟨2, by omega, h⟩
    · exact ⟨3, by omega, h⟩
  · rintro ⟨ch, hc, h⟩
    have : ch = 0 ∨ ch = 1 ∨ ch = 2 ∨ ch = 3 := by omega
    rcases this with rfl | rfl | rfl | rfl
    · exact .inl h
    · exact .inr (.inl h)
    · exact .inr (.inr (.inl h))
    · exact .inr (.inr (.inr h))

theorem dltRows_post {pos tempo : Nat} (hp : pos < 128) (k i calls : Nat) (h : i + k = 64) (hr : ∀ r < i, ¬ EndRow m pos r) :
    Post (fun r => ∃ n, i ≤ n ∧ r = calls + (n - i) * tempo ∧ Rows m pos n) (dltRows m pos tempo k i calls) := by
  induction k generalizing i calls with
  | zero => exact ⟨i, Nat.le_refl _, by simp, by omega, hr, by omega⟩
  | succ k ih =>
    unfold dltRows
    refine Post.bind (dltPatternEnd_post hl hp (by omega)) fun e he => Post.ite (fun h1 => ?_) fun h1 => ?_
    · exact ⟨i, Nat.le_refl _, by simp, by omega, hr, fun _ => he.1 h1⟩
    · refine (ih (i + 1) (calls + tempo) (by omega) ?_).mono fun r => ?_
      · intro r hri
        by_cases e' : r = i
        · subst e'; exact fun h' => h1 (he.2 h')
        · exact hr r (by omega)
      · rintro ⟨n, h1, h2, h3⟩
        refine ⟨n, by omega, ?_, h3⟩
        rw [h2, show n - i = (n - (i + 1)) + 1 by omega, Nat.add_mul, Nat.one_mul]
        omega

theorem dltSkip_post (k pos : Nat) (seen : Nat → Bool) (h : pos + k = 128) :
    Post (fun r => Skips m seen pos r.2 r.1 ∧ pos ≤ r.1 ∧ r.1 ≤ 128) (dltSkip m k pos seen) := by
  induction k generalizing pos seen with
  | zero => exact ⟨.here fun h => by omega, Nat.le_refl _, by omega⟩
  | succ k ih =>
    unfold dltSkip
    refine Post.ite (fun hs => ⟨.here fun _ => .inl hs, Nat.le_refl _, by omega⟩) fun hs => ?_
    refine Post.bind (dltEmpty_post hl (by omega)) fun e he => Post.ite (fun h1 => ?_) fun h1 =>
      ⟨.here fun _ => .inr fun h' => h1 (he.2 h'), Nat.le_refl _, by omega⟩
    refine (ih (pos + 1) _ (by omega)).mono fun r hr => ⟨.blank (by omega) (by simpa using hs) (he.1 h1) hr.1, by omega, hr.2.2⟩

/-- What one line contributes. -/
theorem dltLine_post (hb : AllBytes m) (s : DltSt) (p1 : Nat) (h1 : track m s.pos 0 = p1) (hp : s.pos < 128) (ht : s.tempo < 256)
    (h40 : p1 ≠ 0x40) (hbl : ¬ Blank m s.pos) (seen : Nat → Bool) (hs : seen s.pos = false) (hv : s.seen = visit seen s.pos) :
    Post (fun r => r.seen = s.seen ∧ r.tempo < 256 ∧ r.loop = s.loop ∧ ∃ d, r.playerCalls = s.playerCalls + d ∧ d ≤ 64 * 255 ∧
      ∀ calls loop seen', Plays m r.seen r.pos r.tempo calls loop seen' → Plays m seen s.pos s.tempo (d + calls) loop seen')
      (dltLine m s p1) := by
  unfold dltLine
  refine Post.ite (fun e => ?_) fun e1 => Post.ite (fun e => ?_) fun e2 => ?_
  · refine Post.bind (rdb hb (by omega)) fun x hx => ⟨rfl, ht, rfl, 0, by simp, by omega, fun calls loop seen' h => ?_⟩
    rw [Nat.zero_add]
    refine .jump hp hs (h1.trans e) ?_
    rw [show arg m s.pos = x from byte_of hx.1, ← hv]
    exact h
  · refine Post.bind (rdb hb (by omega)) fun x hx => ⟨rfl, hx.2, rfl, 0, by simp, by omega, fun calls loop seen' h => ?_⟩
    rw [Nat.zero_add]
    refine .tempo hp hs (h1.trans e) ?_
    rw [show arg m s.pos = x from byte_of hx.1, ← hv]
    exact h
  · refine Post.bind (dltRows_post hl hp 64 0 s.playerCalls rfl (by omega)) fun c hc => ?_
    obtain ⟨n, _, hc2, hc3⟩ := hc
    have := Nat.mul_le_mul hc3.1 (show s.tempo ≤ 255 by omega)
    refine ⟨rfl, ht, rfl, n * s.tempo, hc2, this, fun calls loop seen' h => ?_⟩
    refine .rows hp hs (by omega) hbl hc3 ?_
    rw [← hv]
    exact h

/-- The main loop. -/
theorem dltLoop_post (hb : AllBytes m) (fuel : Nat) (s : DltSt) (hf : unseen s.seen 128 < fuel) (ht : s.tempo < 256)
    (hlp : s.loop = false) :
    Post (fun r => ∃ d, r.playerCalls = s.playerCalls + d ∧ d + unseen r.seen 128 * (64 * 255) ≤ unseen s.seen 128 * (64 * 255) ∧
      Plays m s.seen s.pos s.tempo d r.loop r.seen) (dltLoop m fuel s) := by
  induction fuel generalizing s with
  | zero => omega
  | succ fuel ih =>
    unfold dltLoop
    refine Post.ite (fun hp => ?_) fun hp => ⟨0, rfl, by omega, by rw [hlp]; exact .off (by omega)⟩
    refine Post.ite (fun hs => ⟨0, rfl, ?_, .again hp hs⟩) fun hs => ?_
    · show 0 + unseen s.seen 128 * (64 * 255) ≤ _
      omega
    have hs : s.seen s.pos = false := by simpa using hs
    have hu := unseen_upd s.seen s.pos 128 hp hs
    have stop : (track m s.pos 0 = 0x40 ∨ Blank m s.pos) →
        Post (fun r : DltSt => ∃ d, r.playerCalls = s.playerCalls + d ∧ d + unseen r.seen 128 * (64 * 255) ≤ unseen s.seen 128 * (64 * 255) ∧
          Plays m s.seen s.pos s.tempo d r.loop r.seen)
        (.ok { s with seen := upd s.seen s.pos true }) := by
      intro h
      refine ⟨0, rfl, ?_, ?_⟩
      · show 0 + unseen (upd s.seen s.pos true) 128 * (64 * 255) ≤ _
        omega
      · show Plays m s.seen s.pos s.tempo 0 s.loop _
        rw [hlp]; exact .stop hp hs h
    refine Post.bind (Post.rd (by show 0x2006 + s.pos < _; omega)) fun p1 hp1 => ?_
    have e1 : track m s.pos 0 = p1 := byte_of hp1
    refine Post.ite (fun h => stop (.inl (e1.trans h))) fun h40 => ?_
    refine Post.bind (dltEmpty_post hl hp) fun e he => Post.ite (fun h => stop (.inr (he.1 h))) fun hbl => ?_
    refine Post.bind (dltLine_post hl hb { s with seen := upd s.seen s.pos true } p1 e1 hp ht h40 (fun h => hbl (he.2 h)) s.seen hs rfl) fun r hr => ?_
    obtain ⟨r1, r2, r3, d, r4, r5, r6⟩ := hr
    have r1 : r.seen = upd s.seen s.pos true := r1
    refine (ih r (by rw [r1]; omega) r2 (r3.trans hlp)).mono fun q hq => ?_
    obtain ⟨d', q1, q2, q3⟩ := hq
    rw [r1] at q2
    have r4 : r.playerCalls = s.playerCalls + d := r4
    exact ⟨d + d', by omega, by omega, r6 _ _ _ q3⟩

omit hl in
theorem unseen_skips {seen seen' : Nat → Bool} {l l' : Nat} (h : Skips m seen l seen' l') : unseen seen' 128 ≤ unseen seen 128 := by
  induction h with
  | blank h1 h2 _ _ ih =>
    have := unseen_upd _ _ 128 h1 h2
    have ih : _ ≤ unseen (upd _ _ true) 128 := ih
    omega
  | here _ => exact Nat.le_refl _

/-- The songs of a list are in the record, starting at index `n`. -/
def Listed (i : Info) (n : Nat) (l : List Song) : Prop :=
  ∀ k x, l[k]? = some x → n + k < 32 →
    i.songPos (n + k) = x.start ∧ i.loops (n + k) = x.loop ∧ i.durations (n + k) = (x.calls : Int) * 312 * 38000 / 591149 ∧
    x.start < 128 ∧ x.calls ≤ 128 * 64 * 255

/-- What is not changed by adding songs from index `i.songs` on. -/
structure Adds (i r : Info) : Prop where
  more : i.songs ≤ r.songs
  pos : ∀ k, k < i.songs → r.songPos k = i.songPos k
  loops : ∀ k, k < i.songs → r.loops k = i.loops k
  durations : ∀ k, k < i.songs → r.durations k = i.durations k
  unknown : ∀ k, r.songs ≤ k → r.durations k = i.durations k
  rest : r = { i with songs := r.songs, songPos := r.songPos, loops := r.loops, durations := r.durations }

omit hl in
theorem Adds.refl (i : Info) : Adds i i :=
  ⟨Nat.le_refl _, fun _ _ => rfl, fun _ _ => rfl, fun _ _ => rfl, fun _ _ => rfl, rfl⟩

omit hl in
theorem Adds.trans {a b c : Info} (h : Adds a b) (h' : Adds b c) : Adds a c := by
  refine ⟨Nat.le_trans h.more h'.more, fun k hk => ?_, fun k hk => ?_, fun k hk => ?_, fun k hk => ?_, ?_⟩
  · rw [h'.pos k (Nat.lt_of_lt_of_le hk h.more), h.pos k hk]
  · rw [h'.loops k (Nat.lt_of_lt_of_le hk h.more), h.loops k hk]
  · rw [h'.durations k (Nat.lt_of_lt_of_le hk h.more), h.durations k hk]
  · rw [h'.unknown k hk, h.unknown k (Nat.le_trans h'.more hk)]
  · have e1 := h.rest
    have e2 := h'.rest
    rw [e1] at e2
    exact e2

omit hl in
theorem Adds.setSongPos (i : Info) (p : Nat) : Adds i (setSongPos i p) :=
  ⟨Nat.le_refl _, fun k hk => by show upd _ _ _ k = _; rw [upd, if_neg (Nat.ne_of_lt hk)], fun _ _ => rfl, fun _ _ => rfl,
    fun _ _ => rfl, rfl⟩

omit hl in
theorem Adds.setLoops (i : Info) (b : Bool) : Adds i (setLoops i b) :=
  ⟨Nat.le_refl _, fun _ _ => rfl, fun k hk => by show upd _ _ _ k = _; rw [upd, if_neg (Nat.ne_of_lt hk)], fun _ _ => rfl,
    fun _ _ => rfl, rfl⟩

omit hl in
theorem addSong_adds {i : Info} {calls : Int} (h : i.songs < 32) :
    Post (fun r => Adds i r ∧ r.songs = i.songs + 1 ∧ r.songPos = i.songPos ∧ r.loops = i.loops ∧
      r.durations i.songs = calls * i.fastplay * 38000 / 591149) (addSong i calls) := by
  refine addSong_post h ⟨⟨Nat.le_succ _, fun _ _ => rfl, fun _ _ => rfl, fun k hk => ?_, fun k hk => ?_, rfl⟩, rfl, rfl, rfl, ?_⟩
  · show upd _ _ _ k = _
    rw [upd, if_neg (Nat.ne_of_lt hk)]
  · have hk : i.songs + 1 ≤ k := hk
    show upd _ _ _ k = _
    rw [upd, if_neg (by omega)]
  · show upd _ _ _ _ = _
    rw [upd, if_pos rfl]
    rfl

omit hl in
theorem plays_off {seen seen' : Nat → Bool} {line tempo calls : Nat} {loop : Bool} (h : Plays m seen line tempo calls loop seen')
    (h0 : 0 < calls) : line < 128 := by
  cases h <;> omega

/-- One song. -/
theorem parseDltSong_post (hb : AllBytes m) (pos : Nat) (seen : Nat → Bool) (i : Info) (hp : pos ≤ 128) (hs : i.songs < 32) (hf : i.fastplay = 312) :
    Post (fun r => ∃ seen' start calls loop, Skips m seen pos seen' start ∧ Plays m seen' start 6 calls loop r.1 ∧ Adds i r.2 ∧
      ((calls = 0 ∧ r.2.songs = i.songs) ∨ (0 < calls ∧ r.2.songs = i.songs + 1 ∧ Listed r.2 i.songs [⟨start, calls, loop⟩])))
      (parseDltSong m seen pos i) := by
  unfold parseDltSong
  refine Post.bind (dltSkip_post hl (128 - pos) pos seen (by omega)) fun r hr => ?_
  obtain ⟨start, seen'⟩ := r
  obtain ⟨h1, h2, h3⟩ := hr
  have hu := unseen_le seen' 128
  refine Post.bind (dltLoop_post hl hb 130 { seen := seen', pos := start } (by show unseen seen' 128 < 130; omega) (show 6 < 256 by decide) rfl) fun s hs' => ?_
  obtain ⟨d, s1, s2, s3⟩ := hs'
  have s1 : s.playerCalls = d := by rw [s1]; exact Nat.zero_add d
  have s2 : d + unseen s.seen 128 * (64 * 255) ≤ unseen seen' 128 * (64 * 255) := s2
  have s3 : Plays m seen' start 6 d s.loop s.seen := s3
  refine Post.ite (fun hc => ?_) fun hc => ?_
  · refine Post.bind (addSong_adds (i := setLoops (setSongPos i start) s.loop) hs) fun r hr => ?_
    refine ⟨seen', start, d, s.loop, h1, s3, ((Adds.setSongPos i start).trans (Adds.setLoops _ s.loop)).trans hr.1, .inr ⟨by omega, hr.2.1, ?_⟩⟩
    intro k x hx hk
    have : k = 0 := by
      rcases k with _ | k
      · rfl
      · simp at hx
    subst this
    have hx : x = ⟨start, d, s.loop⟩ := by simpa using hx.symm
    subst hx
    have hst : start < 128 := plays_off s3 (by omega)
    refine ⟨?_, ?_, ?_, hst, by show d ≤ _; omega⟩
    · show r.songPos i.songs = start
      rw [hr.2.2.1]
      show upd _ _ _ _ = _
      rw [upd, if_pos rfl]
    · show r.loops i.songs = s.loop
      rw [hr.2.2.2.1]
      exact if_pos rfl
    · show r.durations i.songs = _
      have := hr.2.2.2.2
      rw [show (setLoops (setSongPos i start) s.loop).songs = i.songs from rfl, show (setLoops (setSongPos i start) s.loop).fastplay = 312 from hf] at this
      rw [this, s1]
  · exact ⟨seen', start, d, s.loop, h1, s3, Adds.setSongPos i start, .inl ⟨by omega, rfl⟩⟩

/-- Every line has a number of rows. -/
theorem rows_exist (line : Nat) : ∃ n, Rows m line n := by
  have : ∀ k i, i + k = 64 → (∀ r < i, ¬ EndRow m line r) → ∃ n, Rows m line n := by
    intro k
    induction k with
    | zero => exact fun i h1 h2 => ⟨i, by omega, h2, by omega⟩
    | succ k ih =>
      intro i h1 h2
      by_cases h : EndRow m line i
      · exact ⟨i, by omega, h2, fun _ => h⟩
      · refine ih (i + 1) (by omega) fun r hr => ?_
        by_cases e : r = i
        · rw [e]; exact h
        · exact h2 r (by omega)
  exact this 64 0 rfl (by omega)

theorem plays_exist (n : Nat) (seen : Nat → Bool) (line tempo : Nat) (h : unseen seen 128 < n) :
    ∃ calls loop seen', Plays m seen line tempo calls loop seen' := by
  induction n generalizing seen line tempo with
  | zero => omega
  | succ n ih =>
    rcases Nat.lt_or_ge line 128 with h1 | h1
    · cases h2 : seen line
      · have hu : unseen (visit seen line) 128 + 1 = unseen seen 128 := unseen_upd seen line 128 h1 h2
        by_cases h3 : track m line 0 = 0x40 ∨ Blank m line
        · exact ⟨_, _, _, .stop h1 h2 h3⟩
        · by_cases h4 : track m line 0 = 0x41
          · obtain ⟨a, b, c, hx⟩ := ih (visit seen line) (arg m line) tempo (by omega)
            exact ⟨_, _, _, .jump h1 h2 h4 hx⟩
          · by_cases h5 : track m line 0 = 0x42
            · obtain ⟨a, b, c, hx⟩ := ih (visit seen line) (line + 1) (arg m line) (by omega)
              exact ⟨_, _, _, .tempo h1 h2 h5 hx⟩
            · obtain ⟨a, b, c, hx⟩ := ih (visit seen line) (line + 1) tempo (by omega)
              obtain ⟨r, hr⟩ := rows_exist hl line
              exact ⟨_, _, _, .rows h1 h2 (by omega) (fun h => h3 (.inr h)) hr hx⟩
      · exact ⟨_, _, _, .again h1 h2⟩
    · exact ⟨_, _, _, .off h1⟩

omit hl in
theorem skips_exist (k : Nat) (seen : Nat → Bool) (line : Nat) (h : 128 ≤ line + k) : ∃ seen' start, Skips m seen line seen' start := by
  induction k generalizing seen line with
  | zero => exact ⟨_, _, .here fun h => by omega⟩
  | succ k ih =>
    by_cases h1 : line < 128 → seen line = true ∨ ¬ Blank m line
    · exact ⟨_, _, .here h1⟩
    · have h2 : line < 128 := by
        rcases Nat.lt_or_ge line 128 with h | h
        · exact h
        · exact absurd (fun h' => by omega) h1
      have h3 : seen line = false := by
        cases h : seen line
        · rfl
        · exact absurd (fun _ => .inl h) h1
      have h4 : Blank m line := Classical.byContradiction fun h => h1 fun _ => .inr h
      obtain ⟨a, b, hx⟩ := ih (visit seen line) (line + 1) (by omega)
      exact ⟨a, b, .blank h2 h3 h4 hx⟩

/-- Every module has a list of songs. -/
theorem songs_exist (k : Nat) (seen : Nat → Bool) (line : Nat) (h : 128 ≤ line + k) : ∃ l, Songs m seen line l := by
  induction k generalizing seen line with
  | zero => exact ⟨[], .done (by omega)⟩
  | succ k ih =>
    rcases Nat.lt_or_ge line 128 with h1 | h1
    · cases h2 : seen line
      · obtain ⟨seen', start, hs⟩ := skips_exist (m := m) 128 seen line (by omega)
        obtain ⟨calls, loop, seen'', hp⟩ := plays_exist hl 129 seen' start 6 (by have := unseen_le seen' 128; omega)
        obtain ⟨l, hx⟩ := ih seen'' (line + 1) (by omega)
        rcases Nat.eq_zero_or_pos calls with e | e
        · subst e
          exact ⟨l, .silent h1 h2 hs hp hx⟩
        · exact ⟨_, .song h1 h2 hs hp e hx⟩
      · obtain ⟨l, hx⟩ := ih seen (line + 1) (by omega)
        exact ⟨l, .visited h1 h2 hx⟩
    · exact ⟨[], .done h1⟩

/-- All songs. -/
theorem dltSongs_post (hb : AllBytes m) (k pos : Nat) (seen : Nat → Bool) (i : Info) (h : pos + k = 128) (hs : i.songs ≤ 32) (hf : i.fastplay = 312) :
    Post (fun r => Adds i r ∧ ∃ l, Songs m seen pos l ∧ r.songs = min 32 (i.songs + l.length) ∧ Listed r i.songs l) (dltSongs m k pos seen i) := by
  induction k generalizing pos seen i with
  | zero => exact ⟨Adds.refl i, [], .done (by omega), by simp; omega, fun k x hx => by simp at hx⟩
  | succ k ih =>
    unfold dltSongs
    refine Post.ite (fun h32 => ?_) fun h32 => ?_
    · have h32 : i.songs < 32 := h32
      refine Post.ite (fun hv => ?_) fun hv => ?_
      · refine (ih (pos + 1) seen i (by omega) hs hf).mono fun r hr => ?_
        obtain ⟨h1, l, h2, h3⟩ := hr
        exact ⟨h1, l, .visited (by omega) hv h2, h3⟩
      · have hv : seen pos = false := by simpa using hv
        refine Post.bind (parseDltSong_post hl hb pos seen i (by omega) h32 hf) fun r hr => ?_
        obtain ⟨seen'', i'⟩ := r
        obtain ⟨seen', start, calls, loop, h1, h2, h3, h4⟩ := hr
        simp only [] at h2 h3 h4
        have hf' : i'.fastplay = 312 := by rw [h3.rest]; exact hf
        refine (ih (pos + 1) seen'' i' (by omega) (by omega) hf').mono fun r hr => ?_
        obtain ⟨r1, l, r2, r3, r4⟩ := hr
        refine ⟨h3.trans r1, ?_⟩
        rcases h4 with ⟨e, e'⟩ | ⟨e, e', e''⟩
        · subst e
          rw [e'] at r3 r4
          exact ⟨l, .silent (by omega) hv h1 h2 r2, r3, r4⟩
        · refine ⟨_, .song (by omega) hv h1 h2 e r2, by rw [r3, e']; simp; omega, ?_⟩
          intro k x hx hk
          rcases k with _ | k
          · obtain ⟨a, b, c, d⟩ := e'' 0 x (by simpa using hx) hk
            have hlt : i.songs + 0 < i'.songs := by omega
            exact ⟨by rw [r1.pos _ hlt]; exact a, by rw [r1.loops _ hlt]; exact b, by rw [r1.durations _ hlt]; exact c, d⟩
          · have := r4 k x (by simpa using hx) (by omega)
            rw [e'] at this
            rw [show i.songs + (k + 1) = i.songs + 1 + k by omega]
            exact this
    · have : i.songs = 32 := by
        have : ¬ i.songs < 32 := h32
        omega
      obtain ⟨l, hx⟩ := songs_exist hl 128 seen pos (by omega)
      exact ⟨Adds.refl i, l, hx, by omega, fun k x _ hk => by omega⟩

end Asap.Module
