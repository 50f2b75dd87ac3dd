import Verif.Lemmas.PatternDet

/-! The scan of MPT follows the specification. -/

namespace Asap.Module.Tracker
open Asap Asap.Module Asap.Spec.Pattern

theorem mptCommands_reads (m : List Nat) (fuel : Nat) (c : MptCh) (t : Nat) (s : Bool) :
    OkP (fun r : MptCh × Nat × Bool => ∃ e, MptReads m c.blank c.offset e ∧ r.1.offset = e.next ∧ r.1.blank = e.gap ∧ e.wait = e.gap + 1 ∧ 0 < e.next ∧
      r.2.1 = e.tempo.getD t ∧ r.2.2 = (s || e.stop)) (mptCommands m fuel c t s) := by
  induction fuel generalizing c t s with
  | zero => trivial
  | succ fuel ih =>
    unfold mptCommands
    refine PostE.bind (rdI_okP m _) fun i hi => PostE.ite (fun h1 => ?_) fun h1 => PostE.ite (fun h2 => ?_) fun h2 => PostE.ite (fun h3 => ?_) fun h3 =>
      PostE.ite (fun h4 => ?_) fun h4 => PostE.ite (fun h5 => ?_) fun h5 => ?_
    · exact ⟨_, .note hi h1, rfl, rfl, rfl, by show 0 < c.offset + 1; have := hi.1; omega, rfl, by simp⟩
    · refine (ih { c with offset := c.offset + 1 } t s).mono (fun _ h => h) ?_
      rintro r ⟨e, e1, e2⟩
      exact ⟨e, .instrument hi (by omega) h2 e1, e2⟩
    · refine (ih { c with offset := c.offset + 1, blank := i - 0x80 } t s).mono (fun _ h => h) ?_
      rintro r ⟨e, e1, e2⟩
      exact ⟨e, .gap hi (by omega) h3 e1, e2⟩
    · refine (ih { c with offset := c.offset + 1 } t s).mono (fun _ h => h) ?_
      rintro r ⟨e, e1, e2⟩
      exact ⟨e, .volume hi (by omega) h4 e1, e2⟩
    · refine (ih { c with offset := c.offset + 1 } (i - 0xcf) s).mono (fun _ h => h) ?_
      rintro r ⟨e, e1, e2, e3, e4, e5, e6, e7⟩
      refine ⟨_, .tempo hi (by omega) h5 e1, e2, e3, e4, e5, ?_, e7⟩
      rw [e6, show i - 0xcf = i - 0xd0 + 1 by omega]
      rfl
    · refine (ih { c with offset := c.offset + 1 } t true).mono (fun _ h => h) ?_
      rintro r ⟨e, e1, e2, e3, e4, e5, e6, e7⟩
      refine ⟨_, .stop hi (by omega) (by omega) e1, e2, e3, e4, e5, e6, ?_⟩
      rw [e7]
      simp

/-- The voice of a channel. -/
def voice (row : Nat) (c : MptCh) : Voice := if c.offset = 0 then ⟨none, 0, c.blank⟩ else ⟨some (row + c.counter.toNat), c.offset, c.blank⟩

theorem voice_gap (row : Nat) (c : MptCh) : (voice row c).gap = c.blank := by
  unfold voice
  split <;> rfl

theorem voice_start (a : Nat) (x : Int) (b : Nat) :
    voice 0 ⟨if a = 0 then 0 else x, b, 0⟩ = if a = 0 ∨ x = 0 then ⟨none, 0, b⟩ else ⟨some 0, x, b⟩ := by
  unfold voice
  dsimp only
  by_cases h : a = 0
  · simp [h]
  · by_cases h' : x = 0
    · simp [h, h']
    · simp [h, h']

theorem mptRow_sim (m : List Nat) (row k : Nat) (chs : Nat → MptCh) (vs : Nat → Voice) (t : Nat) (s : Bool) (h : ∀ ch < k, vs ch = voice row (chs ch)) :
    OkP (fun r => ∃ vs', Row (MptReads m) row k vs t s vs' r.2.1 r.2.2 ∧ (∀ ch < k, vs' ch = voice (row + 1) (r.1 ch)) ∧ ∀ ch, k ≤ ch → r.1 ch = chs ch ∧ vs' ch = vs ch)
      (mptRow m k chs t s) := by
  induction k generalizing chs vs t s with
  | zero => exact ⟨vs, .done, fun ch hch => absurd hch (Nat.not_lt_zero ch), fun ch _ => ⟨rfl, rfl⟩⟩
  | succ k ih =>
    have hk := h k (by omega)
    unfold mptRow mptChannel
    split
    · rename_i h0
      show OkP _ (mptRow m k (upd chs k (chs k)) t s)
      refine (ih (upd chs k (chs k)) vs t s fun ch hch => ?_).mono (fun _ h => h) ?_
      · rw [show upd chs k _ ch = chs ch from if_neg (by omega)]
        exact h ch (by omega)
      · rintro r ⟨vs', h1, h2, h3⟩
        have hv : ∀ row, voice row (chs k) = ⟨none, 0, (chs k).blank⟩ := fun row => by unfold voice; rw [if_pos h0]
        refine ⟨vs', .idle ?_ h1, fun ch hch => ?_, fun ch hch => ?_⟩
        · rw [hk, hv]
          exact fun e => (nomatch e)
        · by_cases hlt : ch < k
          · exact h2 ch hlt
          · have : ch = k := by omega
            subst this
            obtain ⟨h4, h5⟩ := h3 ch (Nat.le_refl _)
            rw [h4, h5, show upd chs ch _ ch = _ from if_pos rfl, hk, hv, hv]
        · obtain ⟨h4, h5⟩ := h3 ch (by omega)
          rw [h4, h5]
          exact ⟨if_neg (by omega), rfl⟩
    · rename_i h0
      have hv : voice row (chs k) = ⟨some (row + (chs k).counter.toNat), (chs k).offset, (chs k).blank⟩ := if_neg h0
      split
      · rename_i hc
        show OkP _ (mptRow m k (upd chs k { chs k with counter := (chs k).counter - 1 }) t s)
        refine (ih (upd chs k { chs k with counter := (chs k).counter - 1 }) vs t s fun ch hch => ?_).mono (fun _ h => h) ?_
        · rw [show upd chs k _ ch = chs ch from if_neg (by omega)]
          exact h ch (by omega)
        · rintro r ⟨vs', h1, h2, h3⟩
          refine ⟨vs', .idle ?_ h1, fun ch hch => ?_, fun ch hch => ?_⟩
          · rw [hk, hv]
            intro e
            injection e with e
            omega
          · by_cases hlt : ch < k
            · exact h2 ch hlt
            · have : ch = k := by omega
              subst this
              obtain ⟨h4, h5⟩ := h3 ch (Nat.le_refl _)
              rw [h4, h5, show upd chs ch _ ch = _ from if_pos rfl, hk, hv]
              unfold voice
              rw [if_neg h0]
              show Voice.mk _ _ _ = Voice.mk _ _ _
              congr 2
              show _ = row + 1 + ((chs ch).counter - 1).toNat
              omega
          · obtain ⟨h4, h5⟩ := h3 ch (by omega)
            rw [h4, h5]
            exact ⟨if_neg (by omega), rfl⟩
      · rename_i hc
        refine PostE.bind (PostE.bind (mptCommands_reads m _ { chs k with counter := (chs k).counter - 1 } t s) (Q := fun r : MptCh × Nat × Bool =>
          ∃ e, MptReads m (chs k).blank (chs k).offset e ∧ r.1.offset = e.next ∧ r.1.blank = e.gap ∧ e.wait = e.gap + 1 ∧ 0 < e.next ∧
            r.2.1 = e.tempo.getD t ∧ r.2.2 = (s || e.stop) ∧ r.1.counter = e.gap) ?_) ?_
        · rintro ⟨c, t1, s1⟩ ⟨e, e1, e2, e3, e4, e5, e6, e7⟩
          refine ⟨e, e1, e2, e3, e4, e5, e6, e7, ?_⟩
          show (c.blank : Int) = _
          rw [show c.blank = e.gap from e3]
        · rintro ⟨c, t1, s1⟩ ⟨e, e1, e2, e3, e4, e5, e6, e7, e8⟩
          dsimp only at e1 e2 e3 e4 e5 e6 e7 e8 ⊢
          refine (ih (upd chs k c) (set vs k ⟨some (row + e.wait), e.next, e.gap⟩) t1 s1 fun ch hch => ?_).mono (fun _ h => h) ?_
          · rw [show upd chs k c ch = chs ch from if_neg (by omega), show set vs k _ ch = vs ch from if_neg (by omega)]
            exact h ch (by omega)
          · rintro r ⟨vs', h1, h2, h3⟩
            rw [e6, e7] at h1
            refine ⟨vs', .event (e := e) ?_ ?_ h1, fun ch hch => ?_, fun ch hch => ?_⟩
            · rw [hk, hv]
              show some _ = some _
              congr 1
              omega
            · rw [hk, hv]
              exact e1
            · by_cases hlt : ch < k
              · exact h2 ch hlt
              · have : ch = k := by omega
                subst this
                obtain ⟨h4, h5⟩ := h3 ch (Nat.le_refl _)
                rw [h4, h5, show upd chs ch c ch = c from if_pos rfl, show set vs ch _ ch = _ from if_pos rfl]
                unfold voice
                rw [if_neg (by rw [e2]; omega), e2, e3, e8, e4]
                congr 2
                omega
            · obtain ⟨h4, h5⟩ := h3 ch (by omega)
              rw [h4, h5]
              exact ⟨if_neg (by omega), if_neg (by omega)⟩

theorem mptRows_sim (m : List Nat) (n row : Nat) (chs : Nat → MptCh) (vs : Nat → Voice) (t calls : Nat) (h : ∀ ch < 4, vs ch = voice row (chs ch)) :
    OkP (fun r => ∃ vs' c, Rows (MptReads m) 4 n row vs t vs' r.2.1 c ∧ r.2.2 = calls + c ∧ ∀ ch < 4, (vs' ch).gap = (r.1 ch).blank) (mptRows m n chs t calls) := by
  induction n generalizing row chs vs t calls with
  | zero => exact ⟨vs, 0, .all, rfl, fun ch hch => by rw [h ch hch, voice_gap]⟩
  | succ n ih =>
    unfold mptRows
    refine PostE.bind (mptRow_sim m row 4 chs vs t false h) ?_
    rintro ⟨chs', t', s'⟩ ⟨vs', h1, h2, _⟩
    dsimp only at h1 h2 ⊢
    refine PostE.ite (fun hs => ?_) fun hs => ?_
    · rw [hs] at h1
      exact ⟨vs', t', .stop h1, rfl, fun ch hch => by rw [h2 ch hch, voice_gap]⟩
    · rw [show s' = false by simpa using hs] at h1
      refine (ih (row + 1) chs' vs' t' (calls + t') h2).mono (fun _ h => h) ?_
      rintro r ⟨vs2, c, h3, h4, h5⟩
      exact ⟨vs2, t' + c, .next h1 h3, by rw [h4]; omega, h5⟩

theorem mptLine_voices (m : List Nat) (l k : Nat) (hk : k ≤ 4) (chs : Nat → MptCh) :
    OkP (fun r : Option (Nat → MptCh) => match r with
      | none => ∃ ch p, ch < 4 ∧ MptEntry m l ch p ∧ 0x40 ≤ p
      | some chs' => (∀ ch < k, ∃ p < 0x40, MptEntry m l ch p ∧ voice 0 (chs' ch) = mptVoice m p (chs ch).blank) ∧ ∀ ch, k ≤ ch → chs' ch = chs ch)
      (mptLine m (((byte m 2 + 256 * byte m 3 : Nat) : Int) - 6) l k chs) := by
  induction k generalizing chs with
  | zero => exact ⟨fun ch hch => absurd hch (Nat.not_lt_zero ch), fun ch _ => rfl⟩
  | succ k ih =>
    unfold mptLine
    refine PostE.bind (splitAddr_offset m (0x1c6 + k) (0x1ca + k)) fun track ht => PostE.bind (rdI_okP m _) fun p hp => ?_
    have hE : MptEntry m l k p := by
      unfold MptEntry
      rw [ht] at hp
      rw [show (2 : Int) * l = l * 2 by omega]
      exact hp
    refine PostE.ite (fun h => ⟨k, p, by omega, hE, h⟩) fun h => PostE.bind (getWord_okP m _) fun a ha => ?_
    refine (ih (by omega) _).mono (fun _ h => h) fun r hr => ?_
    cases r with
    | none => exact hr
    | some chs' =>
      obtain ⟨h1, h2⟩ := hr
      refine ⟨fun ch hch => ?_, fun ch hch => ?_⟩
      · by_cases hlt : ch < k
        · obtain ⟨q, hq, q1, q2⟩ := h1 ch hlt
          refine ⟨q, hq, q1, ?_⟩
          rw [q2, show upd chs k _ ch = chs ch from if_neg (by omega)]
        · have : ch = k := by omega
          subst this
          refine ⟨p, by omega, hE, ?_⟩
          rw [h2 ch (Nat.le_refl _), show upd chs ch _ ch = _ from if_pos rfl]
          have ha' : a = address m (0x46 + 2 * p) (0x47 + 2 * p) := by
            rw [ha]
            unfold address
            rw [show 0x46 + p * 2 = 0x46 + 2 * p by omega, show 0x46 + 2 * p + 1 = 0x47 + 2 * p by omega]
          have ho : (a : Int) - (((byte m 2 + 256 * byte m 3 : Nat) : Int) - 6) = offset m a := by
            unfold offset
            omega
          unfold mptVoice
          rw [← ha', ← ho]
          exact voice_start a _ _
      · rw [h2 ch (by omega)]
        exact if_neg (by omega)

theorem mptLoop_plays (m : List Nat) (len : Int) (g : Nat → Bool) (fuel l : Nat) (chs : Nat → MptCh) (vs : Nat → Voice) (t calls : Nat) (v : Visits) (seen fresh : Nat → Bool)
    (hv : ∀ ch < 4, (vs ch).gap = (chs ch).blank) (hs : ∀ k, seen k = decide (v.seen k ≠ 0)) (hf : ∀ k : Nat, (k : Int) < len → fresh k = decide (v.seen k = 1))
    (hg : ∀ k, v.glob k = (g k || seen k)) :
    OkP (fun r : Visits × Nat => ∃ n loop seen', MptPlays m len seen fresh l vs t n loop seen' ∧ r.2 = calls + n ∧ r.1.loop = (v.loop || loop) ∧
      ∀ k, r.1.glob k = (g k || seen' k)) (mptLoop m (((byte m 2 + 256 * byte m 3 : Nat) : Int) - 6) len fuel l chs t calls v) := by
  induction fuel generalizing l chs vs t calls v seen fresh with
  | zero => trivial
  | succ fuel ih =>
    have visit_seen : ∀ k, visit seen l k = decide ((v.visit l).seen k ≠ 0) := fun k => by
      unfold visit
      show _ = decide (upd v.seen l 1 k ≠ 0)
      unfold upd
      by_cases hk : k = l
      · rw [if_pos hk, if_pos hk]
        rfl
      · rw [if_neg hk, if_neg hk]
        exact hs k
    have visit_glob : ∀ k, (v.visit l).glob k = (g k || visit seen l k) := fun k => by
      unfold visit
      show upd v.glob l true k = _
      unfold upd
      by_cases hk : k = l
      · rw [if_pos hk, if_pos hk]
        simp
      · rw [if_neg hk, if_neg hk]
        exact hg k
    unfold mptLoop
    refine PostE.ite (fun hlen => PostE.ite (fun _ => trivial) fun _ => PostE.ite (fun hseen => ?_) fun hseen => ?_) fun hlen => ?_
    · refine ⟨0, !fresh l, seen, .again hlen (by rw [hs]; simpa using hseen), rfl, ?_, hg⟩
      show (v.loop || decide (v.seen l ≠ 1)) = _
      rw [hf l hlen]
      simp
    · have hs0 : seen l = false := by
        rw [hs]
        simpa using hseen
      refine PostE.bind (rd_okP m _) fun i hi => ?_
      have hi' : Has m (0x1d0 + 2 * (l : Int)) i := by
        refine ⟨by omega, ?_⟩
        rw [show (0x1d0 + 2 * (l : Int)).toNat = 0x1d0 + l * 2 by omega]
        exact hi
      refine PostE.ite (fun h => ?_) fun h => ?_
      · refine PostE.bind (rd_okP m _) fun p hp => ?_
        have hp' : Has m (0x1d1 + 2 * (l : Int)) p := by
          refine ⟨by omega, ?_⟩
          rw [show (0x1d1 + 2 * (l : Int)).toNat = 0x1d1 + l * 2 by omega]
          exact hp
        refine (ih p chs vs t calls (v.visit l) (visit seen l) (visit fresh l) hv visit_seen (fun k hk => ?_) visit_glob).mono (fun _ h => h) ?_
        · unfold visit
          show _ = decide (upd v.seen l 1 k = 1)
          unfold upd
          by_cases hkl : k = l
          · rw [if_pos hkl, if_pos hkl]
            rfl
          · rw [if_neg hkl, if_neg hkl]
            exact hf k hk
        · rintro r ⟨n, loop, seen', h1, h2⟩
          rw [h] at hi'
          exact ⟨n, loop, seen', .jump hlen hs0 hi' hp' h1, h2⟩
      · have hn : ¬ Has m (0x1d0 + 2 * (l : Int)) 0xff := fun h' => h (has_fun hi' h')
        refine PostE.bind (mptLine_voices m l 4 (Nat.le_refl _) chs) fun line hline => ?_
        cases line with
        | none =>
          obtain ⟨ch, p, h1, h2, h3⟩ := hline
          refine ⟨0, false, visit seen l, .stop hlen hs0 hn h1 h2 h3, rfl, ?_, visit_glob⟩
          simp [Visits.visit]
        | some chs' =>
          obtain ⟨h1, _⟩ := hline
          refine PostE.bind (rd_okP m _) fun rows hrows => ?_
          rw [← byte_eq hrows]
          refine PostE.bind (mptRows_sim m (byte m 0x1ce) 0 chs' (fun ch => voice 0 (chs' ch)) t calls fun ch _ => rfl) ?_
          rintro ⟨chs2, t2, c2⟩ ⟨vs2, c, r1, r2, r3⟩
          dsimp only at r1 r2 r3 ⊢
          refine (ih (l + 1) chs2 vs2 t2 c2 ((v.visit l).played len) (visit seen l) (fun _ => false) r3 (fun k => ?_) (fun k hk => ?_) visit_glob).mono (fun _ h => h) ?_
          · rw [visit_seen]
            show _ = decide ((if _ then 2 else _) ≠ 0)
            split
            · rename_i hc
              rw [hc.2]
              rfl
            · rfl
          · show false = decide ((if _ then 2 else _) = 1)
            split
            · rfl
            · rename_i hc
              rw [eq_comm, decide_eq_false_iff_not]
              exact fun h => hc ⟨hk, h⟩
          · rintro r ⟨n, loop, seen', p1, p2, p3, p4⟩
            refine ⟨c + n, loop, seen', .line hlen hs0 hn (fun ch hch => ?_) r1 p1, by rw [p2, r2]; omega, p3, p4⟩
            obtain ⟨p, q1, q2, q3⟩ := h1 ch hch
            exact ⟨p, q1, q2, by rw [hv ch hch]; exact q3⟩
    · exact ⟨0, false, seen, .over (by omega), rfl, by simp, hg⟩

/-- The songs found. -/
structure Listed (H : Prop) (i r : Info) (ls : List Song) : Prop where
  songs : r.songs = i.songs + ls.length
  new : ∀ k x, ls[k]? = some x → r.songPos (i.songs + k) = x.start ∧ r.durations (i.songs + k) = (x.calls : Int) * i.fastplay * 38000 / 591149 ∧
    (x.loop = true → r.loops (i.songs + k) = true) ∧ (H → r.loops (i.songs + k) = x.loop)
  old : ∀ k < i.songs, r.loops k = i.loops k ∧ r.durations k = i.durations k ∧ r.songPos k = i.songPos k
  behind : ∀ k, r.songs ≤ k → r.durations k = i.durations k
  fastplay : r.fastplay = i.fastplay
  kept : ∀ k, i.loops k = true → r.loops k = true

theorem Listed.refl {H : Prop} (i : Info) : Listed H i i [] :=
  ⟨rfl, fun k x hx => by simp at hx, fun _ _ => ⟨rfl, rfl, rfl⟩, fun _ _ => rfl, rfl, fun _ h => h⟩

theorem Listed.silent {H : Prop} {i r : Info} {l : Nat} {loop : Bool} {songs : List Song}
    (h : Listed H (if loop then setLoops (setSongPos i l) true else setSongPos i l) r songs) : Listed H i r songs := by
  have hS : ∀ k < i.songs, (setSongPos i l).songPos k = i.songPos k := fun k hk => if_neg (by omega)
  cases loop
  · refine ⟨h.songs, h.new, fun k hk => ?_, h.behind, h.fastplay, h.kept⟩
    obtain ⟨h1, h2, h3⟩ := h.old k hk
    exact ⟨h1, h2, h3.trans (hS k hk)⟩
  · refine ⟨h.songs, h.new, fun k hk => ?_, h.behind, h.fastplay, fun k hk => h.kept k ?_⟩
    · obtain ⟨h1, h2, h3⟩ := h.old k hk
      exact ⟨h1.trans (show upd i.loops i.songs true k = _ from if_neg (by omega)), h2, h3.trans (hS k hk)⟩
    · show upd i.loops i.songs true k = true
      unfold upd
      split
      · rfl
      · exact hk

theorem Listed.cons {H : Prop} {i j r : Info} {l calls : Nat} {loop : Bool} {songs : List Song} (h1 : One (setSongPos i l) j calls loop) (h2 : Listed H j r songs)
    (hl : H → i.loops i.songs = false) : Listed H i r (⟨l, calls, loop⟩ :: songs) := by
  have hs : j.songs = i.songs + 1 := h1.songs
  have hf : j.fastplay = i.fastplay := by rw [h1.rest]; rfl
  have hp : j.songPos = upd i.songPos i.songs l := by rw [h1.rest]; rfl
  have hd : j.durations = upd i.durations i.songs ((calls : Int) * i.fastplay * 38000 / 591149) := h1.durations
  have hL : j.loops = if loop = true then upd i.loops i.songs true else i.loops := h1.loops
  refine ⟨by rw [h2.songs, hs, List.length_cons]; omega, fun k x hx => ?_, fun k hk => ?_, fun k hk => ?_, h2.fastplay.trans hf, fun k hk => h2.kept k ?_⟩
  · cases k with
    | zero =>
      injection hx with hx
      subst hx
      obtain ⟨o1, o2, o3⟩ := h2.old i.songs (by omega)
      refine ⟨?_, ?_, ?_, ?_⟩
      · show r.songPos i.songs = l
        rw [o3, hp]
        exact if_pos rfl
      · show r.durations i.songs = _
        rw [o2, hd]
        exact if_pos rfl
      · intro h
        show r.loops i.songs = true
        rw [o1, hL, if_pos h]
        exact if_pos rfl
      · intro h
        show r.loops i.songs = loop
        rw [o1, hL]
        cases loop
        · exact hl h
        · exact if_pos rfl
    | succ k =>
      have hx' : songs[k]? = some x := by simpa using hx
      have := h2.new k x hx'
      rw [hs, hf, show i.songs + 1 + k = i.songs + (k + 1) by omega] at this
      exact this
  · obtain ⟨o1, o2, o3⟩ := h2.old k (by omega)
    rw [o1, o2, o3, hL, hd, hp]
    refine ⟨?_, if_neg (by omega), if_neg (by omega)⟩
    cases loop
    · rfl
    · exact if_neg (by omega)
  · have := h2.behind k hk
    have hsongs := h2.songs
    rw [this, hd]
    exact if_neg (by omega)
  · rw [hL]
    cases loop
    · exact hk
    · show upd i.loops i.songs true k = true
      unfold upd
      split
      · rfl
      · exact hk

theorem mptReads_tempo {m : List Nat} {gap : Nat} {o : Int} {e : Event} (h : MptReads m gap o e) : ∀ t, 0 < t → 0 < e.tempo.getD t := by
  induction h with
  | note => exact fun t h => h
  | instrument _ _ _ _ ih => exact ih
  | gap _ _ _ _ ih => exact ih
  | volume _ _ _ _ ih => exact ih
  | tempo _ _ _ _ ih => exact fun t _ => ih _ (Nat.succ_pos _)
  | stop _ _ _ _ ih => exact ih

theorem mptRow_tempo {m : List Nat} {row k : Nat} {vs vs' : Nat → Voice} {t t' : Nat} {s s' : Bool} (h : Row (MptReads m) row k vs t s vs' t' s') (ht : 0 < t) : 0 < t' := by
  induction h with
  | done => exact ht
  | idle _ _ ih => exact ih ht
  | event _ hr _ ih => exact ih (mptReads_tempo hr _ ht)

theorem mptRows_calls {m : List Nat} {k n row : Nat} {vs vs' : Nat → Voice} {t t' c : Nat} (h : Rows (MptReads m) k n row vs t vs' t' c) (ht : 0 < t) (hn : 0 < n) : 0 < c := by
  cases h with
  | all => omega
  | stop hr => exact mptRow_tempo hr ht
  | next hr => have := mptRow_tempo hr ht; omega

/-- A silent song does not loop, if lines have rows and rows take time. -/
theorem mptPlays_silent {m : List Nat} {len : Int} (hr : 0 < byte m 0x1ce) {seen fresh seen' : Nat → Bool} {l : Nat} {vs : Nat → Voice} {t n : Nat} {loop : Bool}
    (h : MptPlays m len seen fresh l vs t n loop seen') (ht : 0 < t) (hn : n = 0) (hf : ∀ k, seen k = true → fresh k = true) : loop = false := by
  induction h with
  | over => rfl
  | again _ h => rw [hf _ h]; rfl
  | jump _ _ _ _ _ ih =>
    refine ih ht hn fun k => ?_
    unfold visit
    split
    · exact fun _ => rfl
    · exact hf k
  | stop => rfl
  | line _ _ _ _ h => have := mptRows_calls h ht hr; omega

theorem parseMptSong_plays (m : List Nat) (len : Int) (i : Info) (g : Nat → Bool) (l : Nat) :
    OkP (fun r : Info × (Nat → Bool) => ∃ n loop seen, MptPlays m len (fun _ => false) (fun _ => false) l (fun _ => ⟨none, 0, 0⟩) (byte m 0x1cf) n loop seen ∧
      r.2 = (fun k => g k || seen k) ∧ ((n = 0 ∧ r.1 = if loop then setLoops i true else i) ∨ (0 < n ∧ One i r.1 n loop))) (parseMptSong m len i g l) := by
  unfold parseMptSong
  refine PostE.bind (getWord_okP m 2) fun a ha => PostE.bind (rd_okP m _) fun tempo ht => ?_
  rw [ha, ← byte_eq ht]
  refine PostE.bind (mptLoop_plays m len g 257 l (fun _ => {}) (fun _ => ⟨none, 0, 0⟩) (byte m 0x1cf) 0 { glob := g } (fun _ => false) (fun _ => false)
    (fun _ _ => rfl) (fun _ => rfl) (fun _ _ => rfl) fun k => by simp) ?_
  rintro ⟨v, c⟩ ⟨n, loop, seen, h1, h2, h3, h4⟩
  dsimp only at h2 h3 h4 ⊢
  rw [Nat.zero_add] at h2
  rw [h2, show v.loop = loop by rw [h3]; rfl]
  have h4' : v.glob = fun k => g k || seen k := funext h4
  unfold addFound
  by_cases hn : n > 0
  · rw [if_pos hn]
    refine PostE.bind (addSong_one i loop n) fun r hr => ?_
    exact ⟨n, loop, seen, h1, h4', .inr ⟨hn, hr⟩⟩
  · rw [if_neg hn]
    exact ⟨n, loop, seen, h1, h4', .inl ⟨by omega, rfl⟩⟩

theorem eachSong_listed (m : List Nat) (len : Int) (k l n : Nat) (hk : k = (len - l).toNat) (i : Info) (g : Nat → Bool) (hn : i.songs + n = 32)
    (hl : (0 < byte m 0x1ce ∧ 0 < byte m 0x1cf) → ∀ k, i.songs ≤ k → i.loops k = false) :
    OkP (fun r => ∃ songs, MptSongs m len n g l songs ∧ Listed (0 < byte m 0x1ce ∧ 0 < byte m 0x1cf) i r songs) (eachSong (parseMptSong m len) k l i g) := by
  induction k generalizing l n i g with
  | zero => exact ⟨[], .done (by omega), Listed.refl i⟩
  | succ k ih =>
    have hlt : (l : Int) < len := by omega
    unfold eachSong
    refine PostE.ite (fun hm => PostE.ite (fun hg => ?_) fun hg => ?_) fun hm => ?_
    · refine (ih (l + 1) n (by omega) i g hn hl).mono (fun _ h => h) ?_
      rintro r ⟨songs, h1, h2⟩
      exact ⟨songs, .visited hlt hg h1, h2⟩
    · have hm' : i.songs < 32 := hm
      obtain ⟨n, rfl⟩ : ∃ k, n = k + 1 := ⟨n - 1, by omega⟩
      have hg' : g l = false := by simpa using hg
      refine PostE.bind (parseMptSong_plays m len (setSongPos i l) g l) ?_
      rintro ⟨i', g'⟩ ⟨c, loop, seen, p1, p2, p3⟩
      dsimp only at p2 p3 ⊢
      rw [p2]
      rcases p3 with ⟨rfl, p3⟩ | ⟨hc, p3⟩
      · have hsongs : i'.songs = i.songs := by rw [p3]; cases loop <;> rfl
        refine (ih (l + 1) (n + 1) (by omega) i' _ (by omega) fun H k hk => ?_).mono (fun _ h => h) ?_
        · have := mptPlays_silent H.1 p1 H.2 rfl fun k h => h
          rw [p3, this]
          exact hl H k (by omega)
        · rintro r ⟨songs, h1, h2⟩
          rw [p3] at h2
          exact ⟨songs, .silent hlt hg' (fun _ => rfl) p1 h1, h2.silent⟩
      · have hs : i'.songs = i.songs + 1 := p3.songs
        refine (ih (l + 1) n (by omega) i' _ (by omega) fun H k hk => ?_).mono (fun _ h => h) ?_
        · rw [p3.loops]
          cases loop
          · exact hl H k (by omega)
          · show upd i.loops i.songs true k = false
            rw [show upd i.loops i.songs true k = _ from if_neg (by omega)]
            exact hl H k (by omega)
        · rintro r ⟨songs, h1, h2⟩
          exact ⟨_, .song hlt hg' (fun _ => rfl) p1 hc h1, Listed.cons p3 h2 fun H => hl H _ (Nat.le_refl _)⟩
    · have : ¬ i.songs < 32 := hm
      rw [show n = 0 by omega]
      exact ⟨[], .full, Listed.refl i⟩

theorem parseMpt_listed (i : Info) (m : List Nat) (hl : ∀ k, i.loops k = false) :
    OkP (fun r => ∃ songs, songs ≠ [] ∧ MptSongs m (mptLength m) 32 (fun _ => false) 0 songs ∧ mptLength m ≤ 0xfe ∧ offset m (address m 0x1c6 0x1ca) = 0x1d0 ∧
      Listed (0 < byte m 0x1ce ∧ 0 < byte m 0x1cf) { i with songs := 0 } r songs) (parseMpt i m) := by
  unfold parseMpt
  refine PostE.ite (fun _ => trivial) fun hlen => PostE.bind (okP_iff.mpr fun _ _ => trivial) fun music _ => ?_
  refine PostE.bind (getWord_okP m 2) fun a ha => PostE.bind (splitAddr_okP m 0x1c6 0x1ca 0) fun t0 h0 => PostE.ite (fun _ => trivial) fun hne => ?_
  refine PostE.bind (splitAddr_okP m 0x1c7 0x1cb 0) fun t1 h1 => PostE.ite (fun _ => trivial) fun hle => ?_
  have hL : (t1 - t0) / 2 = mptLength m := by
    unfold mptLength
    rw [h0, h1]
    omega
  rw [hL] at hle ⊢
  refine PostE.bind (eachSong_listed m (mptLength m) _ 0 32 (by simp) _ _ rfl fun _ k _ => hl k) ?_
  rintro r ⟨songs, r1, r2⟩
  refine PostE.ite (fun _ => trivial) fun hs => ?_
  refine ⟨songs, ?_, r1, by omega, ?_, ⟨r2.songs, r2.new, r2.old, r2.behind, r2.fastplay, r2.kept⟩⟩
  · rintro rfl
    exact hs (r2.songs.trans rfl)
  · have e3 : byte m (2 + 1) = byte m 3 := rfl
    unfold offset
    omega

/-! ### The songs are determined -/

theorem row_agree {reads : Reader} (hd : Det reads) (K : Nat) {row k : Nat} (hk : k ≤ K) {vs ws : Nat → Voice} {t : Nat} {s : Bool} {vs1 ws1 : Nat → Voice} {t1 t2 : Nat} {s1 s2 : Bool}
    (hv : ∀ ch < K, vs ch = ws ch) (h1 : Row reads row k vs t s vs1 t1 s1) (h2 : Row reads row k ws t s ws1 t2 s2) :
    (∀ ch < K, vs1 ch = ws1 ch) ∧ t1 = t2 ∧ s1 = s2 := by
  induction h1 generalizing ws ws1 t2 s2 with
  | done => cases h2; exact ⟨hv, rfl, rfl⟩
  | @idle k vs _ _ _ _ _ hn _ ih =>
    have hvk := hv k (by omega)
    cases h2 with
    | idle _ h => exact ih (by omega) hv h
    | event he => rw [← hvk] at he; exact absurd he hn
  | @event k vs _ _ e _ _ _ he hr _ ih =>
    have hvk := hv k (by omega)
    cases h2 with
    | idle hn => rw [← hvk] at hn; exact absurd he hn
    | event _ hr' h =>
      rw [← hvk] at hr'
      cases hd _ _ _ _ hr hr'
      refine ih (by omega) (fun ch hch => ?_) h
      unfold Spec.Pattern.set
      split
      · rfl
      · exact hv ch hch

theorem rows_agree {reads : Reader} (hd : Det reads) {k n row : Nat} {vs ws : Nat → Voice} {t : Nat} {vs1 ws1 : Nat → Voice} {t1 t2 c1 c2 : Nat}
    (hv : ∀ ch < k, vs ch = ws ch) (h1 : Rows reads k n row vs t vs1 t1 c1) (h2 : Rows reads k n row ws t ws1 t2 c2) :
    (∀ ch < k, vs1 ch = ws1 ch) ∧ t1 = t2 ∧ c1 = c2 := by
  induction h1 generalizing ws ws1 t2 c2 with
  | all => cases h2; exact ⟨hv, rfl, rfl⟩
  | stop hr =>
    cases h2 with
    | stop hr' =>
      obtain ⟨h, rfl, _⟩ := row_agree hd k (Nat.le_refl _) hv hr hr'
      exact ⟨h, rfl, rfl⟩
    | next hr' => cases (row_agree hd k (Nat.le_refl _) hv hr hr').2.2
  | next hr _ ih =>
    cases h2 with
    | stop hr' => cases (row_agree hd k (Nat.le_refl _) hv hr hr').2.2
    | next hr' h =>
      obtain ⟨h', rfl, _⟩ := row_agree hd k (Nat.le_refl _) hv hr hr'
      obtain ⟨h'', rfl, rfl⟩ := ih h' h
      exact ⟨h'', rfl, rfl⟩

theorem mptReads_inv {m : List Nat} {gap : Nat} {o : Int} {e : Event} (h : MptReads m gap o e) :
    ∃ b, Has m o b ∧ (((b < 0x40 ∨ b = 0xfe) ∧ e = ⟨o + 1, gap + 1, gap, none, false⟩) ∨
      (0x40 ≤ b ∧ b < 0x80 ∧ MptReads m gap (o + 1) e) ∨ (0x80 ≤ b ∧ b < 0xc0 ∧ MptReads m (b - 0x80) (o + 1) e) ∨
      (0xc0 ≤ b ∧ b < 0xd0 ∧ MptReads m gap (o + 1) e) ∨
      (0xd0 ≤ b ∧ b < 0xe0 ∧ ∃ e0, MptReads m gap (o + 1) e0 ∧ e = ⟨e0.next, e0.wait, e0.gap, some (e0.tempo.getD (b - 0xd0 + 1)), e0.stop⟩) ∨
      (0xe0 ≤ b ∧ b ≠ 0xfe ∧ ∃ e0, MptReads m gap (o + 1) e0 ∧ e = ⟨e0.next, e0.wait, e0.gap, e0.tempo, true⟩)) := by
  cases h with
  | note h1 h2 => exact ⟨_, h1, .inl ⟨h2, rfl⟩⟩
  | instrument h1 h2 h3 h4 => exact ⟨_, h1, .inr (.inl ⟨h2, h3, h4⟩)⟩
  | gap h1 h2 h3 h4 => exact ⟨_, h1, .inr (.inr (.inl ⟨h2, h3, h4⟩))⟩
  | volume h1 h2 h3 h4 => exact ⟨_, h1, .inr (.inr (.inr (.inl ⟨h2, h3, h4⟩)))⟩
  | tempo h1 h2 h3 h4 => exact ⟨_, h1, .inr (.inr (.inr (.inr (.inl ⟨h2, h3, _, h4, rfl⟩))))⟩
  | stop h1 h2 h3 h4 => exact ⟨_, h1, .inr (.inr (.inr (.inr (.inr ⟨h2, h3, _, h4, rfl⟩))))⟩

theorem mptReads_det (m : List Nat) : Det (MptReads m) := by
  intro gap o e e' h h'
  induction h generalizing e' with
  | note h1 h2 =>
    obtain ⟨b, hb, hc⟩ := mptReads_inv h'
    have := has_fun h1 hb
    rcases hc with ⟨_, hc⟩ | ⟨_, _, _⟩ | ⟨_, _, _⟩ | ⟨_, _, _⟩ | ⟨_, _, _⟩ | ⟨_, _, _⟩ <;> first | omega | exact hc.symm
  | instrument h1 h2 h3 _ ih =>
    obtain ⟨b, hb, hc⟩ := mptReads_inv h'
    have := has_fun h1 hb
    rcases hc with ⟨_, _⟩ | ⟨_, _, hc⟩ | ⟨_, _, _⟩ | ⟨_, _, _⟩ | ⟨_, _, _⟩ | ⟨_, _, _⟩ <;> first | omega | exact ih _ hc
  | gap h1 h2 h3 _ ih =>
    obtain ⟨b, hb, hc⟩ := mptReads_inv h'
    have := has_fun h1 hb
    subst this
    rcases hc with ⟨_, _⟩ | ⟨_, _, _⟩ | ⟨_, _, hc⟩ | ⟨_, _, _⟩ | ⟨_, _, _⟩ | ⟨_, _, _⟩ <;> first | omega | exact ih _ hc
  | volume h1 h2 h3 _ ih =>
    obtain ⟨b, hb, hc⟩ := mptReads_inv h'
    have := has_fun h1 hb
    rcases hc with ⟨_, _⟩ | ⟨_, _, _⟩ | ⟨_, _, _⟩ | ⟨_, _, hc⟩ | ⟨_, _, _⟩ | ⟨_, _, _⟩ <;> first | omega | exact ih _ hc
  | tempo h1 h2 h3 _ ih =>
    obtain ⟨b, hb, hc⟩ := mptReads_inv h'
    have := has_fun h1 hb
    rcases hc with ⟨_, _⟩ | ⟨_, _, _⟩ | ⟨_, _, _⟩ | ⟨_, _, _⟩ | ⟨_, _, e0, he, hc⟩ | ⟨_, _, _⟩ <;> first | omega | (rw [hc, ih _ he, this])
  | stop h1 h2 h3 _ ih =>
    obtain ⟨b, hb, hc⟩ := mptReads_inv h'
    have := has_fun h1 hb
    rcases hc with ⟨_, _⟩ | ⟨_, _, _⟩ | ⟨_, _, _⟩ | ⟨_, _, _⟩ | ⟨_, _, _⟩ | ⟨_, _, e0, he, hc⟩ <;> first | omega | (rw [hc, ih _ he])

theorem mptPlays_det {m : List Nat} {len : Int} {seen fresh : Nat → Bool} {l : Nat} {vs ws : Nat → Voice} {t n1 n2 : Nat} {loop1 loop2 : Bool} {seen1 seen2 : Nat → Bool}
    (h1 : MptPlays m len seen fresh l vs t n1 loop1 seen1) (h2 : MptPlays m len seen fresh l ws t n2 loop2 seen2) (hv : ∀ ch < 4, (vs ch).gap = (ws ch).gap) :
    n1 = n2 ∧ loop1 = loop2 ∧ seen1 = seen2 := by
  induction h1 generalizing ws n2 loop2 seen2 with
  | over h =>
    cases h2 with
    | over => exact ⟨rfl, rfl, rfl⟩
    | again h' => omega
    | jump h' => omega
    | stop h' => omega
    | line h' => omega
  | again h hs =>
    cases h2 with
    | over => omega
    | again h' => exact ⟨rfl, rfl, rfl⟩
    | jump h' hs' => rw [hs] at hs'; cases hs'
    | stop h' hs' => rw [hs] at hs'; cases hs'
    | line h' hs' => rw [hs] at hs'; cases hs'
  | jump h hs hj ht _ ih =>
    cases h2 with
    | over => omega
    | again h' hs' => rw [hs] at hs'; cases hs'
    | jump h' hs' hj' ht' h2 =>
      cases has_fun ht ht'
      exact ih h2 hv
    | stop h' hs' hj' => exact absurd hj hj'
    | line h' hs' hj' => exact absurd hj hj'
  | stop h hs hj hch he hp =>
    cases h2 with
    | over => omega
    | again h' hs' => rw [hs] at hs'; cases hs'
    | jump h' hs' hj' => exact absurd hj' hj
    | stop => exact ⟨rfl, rfl, rfl⟩
    | line _ _ _ hl =>
      obtain ⟨p, hp', he', _⟩ := hl _ hch
      have := has_fun he he'
      omega
  | line h hs hj hl hr _ ih =>
    cases h2 with
    | over => omega
    | again h' hs' => rw [hs] at hs'; cases hs'
    | jump h' hs' hj' => exact absurd hj' hj
    | stop _ _ _ hch he hp =>
      obtain ⟨p, hp', he', _⟩ := hl _ hch
      have := has_fun he he'
      omega
    | line _ _ _ hl' hr' h2 =>
      obtain ⟨hv', rfl, rfl⟩ := rows_agree (mptReads_det m) (fun ch hch => by
        obtain ⟨p, _, p1, p2⟩ := hl ch hch
        obtain ⟨q, _, q1, q2⟩ := hl' ch hch
        rw [p2, q2, has_fun p1 q1, hv ch hch]) hr hr'
      obtain ⟨rfl, rfl, rfl⟩ := ih h2 fun ch hch => by rw [hv' ch hch]
      exact ⟨rfl, rfl, rfl⟩

theorem mptSongs_det {m : List Nat} {len : Int} {n : Nat} {glob : Nat → Bool} {l : Nat} {a b : List Song} (h1 : MptSongs m len n glob l a) (h2 : MptSongs m len n glob l b) :
    a = b := by
  induction h1 generalizing b with
  | full =>
    generalize hn : 0 = n at h2
    induction h2 with
    | full => rfl
    | done => rfl
    | visited _ _ _ ih => exact ih hn
    | silent => cases hn
    | song => cases hn
  | done h =>
    cases h2 with
    | full => rfl
    | done => rfl
    | visited h' => omega
    | silent h' => omega
    | song h' => omega
  | visited h hg hr ih =>
    cases h2 with
    | full => exact ih .full
    | done h' => omega
    | visited _ _ h2 => exact ih h2
    | silent _ hg' => rw [hg] at hg'; cases hg'
    | song _ hg' => rw [hg] at hg'; cases hg'
  | silent h hg hv hp _ ih =>
    cases h2 with
    | done h' => omega
    | visited _ hg' => rw [hg] at hg'; cases hg'
    | silent _ _ hv' hp' h2 =>
      obtain ⟨_, _, rfl⟩ := mptPlays_det hp hp' fun ch _ => by rw [hv, hv']
      exact ih h2
    | song _ _ hv' hp' hpos =>
      obtain ⟨hn, _, _⟩ := mptPlays_det hp hp' fun ch _ => by rw [hv, hv']
      omega
  | song h hg hv hp hpos _ ih =>
    cases h2 with
    | done h' => omega
    | visited _ hg' => rw [hg] at hg'; cases hg'
    | silent _ _ hv' hp' =>
      obtain ⟨hn, _, _⟩ := mptPlays_det hp hp' fun ch _ => by rw [hv, hv']
      omega
    | song _ _ hv' hp' _ h2 =>
      obtain ⟨rfl, rfl, rfl⟩ := mptPlays_det hp hp' fun ch _ => by rw [hv, hv']
      rw [ih h2]

end Asap.Module.Tracker
