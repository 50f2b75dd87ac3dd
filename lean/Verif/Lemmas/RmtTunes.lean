import Verif.Lemmas.RmtSound

/-! The list of songs of an RMT module, and that it is determined. -/

namespace Asap.Module.Tracker
open Asap Asap.Module
open Asap.Spec.Pattern (Has byte offset address visit)
open Asap.Spec.Rmt (Reading Reads Event Track Voice Fades LastSound Row Rows Plays PlaysFrom Tune Tunes Enters Begins Jumps Kept noTracks)

/-! ### The last sound -/

theorem rmtLastFrame_last {m : List Nat} (hb : AllBytes m) (hr : 0 < byte m 0xc) (chs : Nat → RmtCh) (frames : Nat) (ht : ∀ x, Timed frames (chs x)) (k ch : Nat) (last : Nat) :
    OkP (fun r : Int => ∃ s : Nat, r = s ∧ last ≤ s ∧ (∀ x, ch ≤ x → x < ch + k → (chs x).instrumentFrame ≤ s ∧ ∃ f, f ≤ s ∧ Fades m (byte m 0xc) (decide (4 ≤ x)) (voiceOf (chs x)) f) ∧
      (s = last ∨ ∃ x, ch ≤ x ∧ x < ch + k ∧ Fades m (byte m 0xc) (decide (4 ≤ x)) (voiceOf (chs x)) s)) (rmtLastFrame m chs k ch last) := by
  induction k generalizing ch last with
  | zero => exact ⟨last, rfl, Nat.le_refl _, fun x h1 h2 => absurd h2 (by omega), .inl rfl⟩
  | succ k ih =>
    unfold rmtLastFrame
    refine PostE.bind (rmtFrames_fades hb (voiceOf (chs ch)) (decide (ch ≥ 4)) hr (ht ch).volume) ?_
    rintro n ⟨hn, f, hf, hfn⟩
    have hfn' : (f : Int) = (chs ch).instrumentFrame + n := hfn
    have e : (if (last : Int) < (chs ch).instrumentFrame + n then ((chs ch).instrumentFrame : Int) + n else last) = ((if last < f then f else last : Nat) : Int) := by
      split
      · rw [if_pos (by omega), hfn']
      · rw [if_neg (by omega)]
    rw [e]
    refine (ih (ch + 1) _).mono (fun _ h => h) ?_
    rintro r ⟨s, r1, r2, r3, r4⟩
    have hls : last ≤ s ∧ f ≤ s := by
      split at r2 <;> omega
    refine ⟨s, r1, hls.1, fun x h1 h2 => ?_, ?_⟩
    · by_cases hx : x = ch
      · subst hx
        exact ⟨by omega, f, hls.2, hf⟩
      · exact r3 x (by omega) (by omega)
    · rcases r4 with r4 | ⟨x, x1, x2, x3⟩
      · split at r4
        · exact .inr ⟨ch, Nat.le_refl _, by omega, by rw [r4]; exact hf⟩
        · exact .inl r4
      · exact .inr ⟨x, by omega, by omega, x3⟩

/-! ### One song -/

/-- A song has been dealt with. -/
structure Done (i r : Info) (x : Tune) : Prop where
  songs : r.songs = i.songs + if x.heard then 1 else 0
  durations : r.durations = if x.heard then upd i.durations i.songs (((min x.frames x.sound : Nat) : Int) * i.fastplay * 38000 / 591149) else i.durations
  loops : r.loops = if x.loops then upd i.loops i.songs true else if x.sound + 100 < x.frames then upd i.loops i.songs false else i.loops
  songPos : r.songPos = i.songPos
  fastplay : r.fastplay = i.fastplay

theorem rmtFinish_done (i : Info) (l frames sound : Nat) (loop : Bool) : OkP (fun r => Done i r ⟨l, frames, sound, loop⟩) (rmtFinish i loop frames sound) := by
  have heard : (Tune.mk l frames sound loop).heard = decide (0 < min frames sound) := rfl
  have loops : (Tune.mk l frames sound loop).loops = (loop && decide (frames ≤ sound + 100)) := rfl
  unfold rmtFinish
  refine PostE.ite (fun h => ?_) fun h => ?_
  · have hmin : min frames sound = sound := by omega
    dsimp only
    have e : (if (loop && decide (¬ (frames : Int) - sound > 100)) = true then setLoops i true else if (frames : Int) - sound > 100 then setLoops i false else i) =
        { i with loops := if (Tune.mk l frames sound loop).loops then upd i.loops i.songs true else if sound + 100 < frames then upd i.loops i.songs false else i.loops } := by
      rw [loops]
      by_cases h100 : (frames : Int) - sound > 100
      · rw [if_pos h100, if_pos (show sound + 100 < frames by omega), decide_eq_false (fun h => h h100), decide_eq_false (show ¬ frames ≤ sound + 100 by omega), Bool.and_false,
          if_neg Bool.false_ne_true, if_neg Bool.false_ne_true]
        rfl
      · rw [if_neg h100, if_neg (show ¬ sound + 100 < frames by omega), decide_eq_true h100, decide_eq_true (show frames ≤ sound + 100 by omega), Bool.and_true]
        cases loop <;> rfl
    rw [e]
    refine PostE.ite (fun hp => ?_) fun hp => ?_
    · unfold addSong
      refine PostE.ite (fun _ => ?_) fun _ => trivial
      have hh : (Tune.mk l frames sound loop).heard = true := by rw [heard, hmin]; exact decide_eq_true (by omega)
      refine ⟨?_, ?_, rfl, rfl, rfl⟩
      · rw [hh]
        rfl
      · rw [hh, if_pos rfl]
        show _ = upd i.durations i.songs (((min frames sound : Nat) : Int) * i.fastplay * 38000 / 591149)
        rw [hmin]
        rfl
    · have hh : (Tune.mk l frames sound loop).heard = false := by rw [heard, hmin]; exact decide_eq_false (by omega)
      refine ⟨?_, ?_, rfl, rfl, rfl⟩
      · rw [hh]
        rfl
      · rw [hh]
        rfl
  · have hmin : min frames sound = frames := by omega
    dsimp only
    have e : (if loop = true then setLoops i true else i) =
        { i with loops := if (Tune.mk l frames sound loop).loops then upd i.loops i.songs true else if sound + 100 < frames then upd i.loops i.songs false else i.loops } := by
      rw [loops, if_neg (show ¬ sound + 100 < frames by omega), decide_eq_true (show frames ≤ sound + 100 by omega), Bool.and_true]
      cases loop <;> rfl
    rw [e]
    refine PostE.ite (fun hp => ?_) fun hp => ?_
    · unfold addSong
      refine PostE.ite (fun _ => ?_) fun _ => trivial
      have hh : (Tune.mk l frames sound loop).heard = true := by rw [heard, hmin]; exact decide_eq_true (by omega)
      refine ⟨?_, ?_, rfl, rfl, rfl⟩
      · rw [hh]
        rfl
      · rw [hh, if_pos rfl]
        show _ = upd i.durations i.songs (((min frames sound : Nat) : Int) * i.fastplay * 38000 / 591149)
        rw [hmin]
        rfl
    · have hh : (Tune.mk l frames sound loop).heard = false := by rw [heard, hmin]; exact decide_eq_false (by omega)
      refine ⟨?_, ?_, rfl, rfl, rfl⟩
      · rw [hh]
        rfl
      · rw [hh]
        rfl

theorem parseRmtSong_plays {m : List Nat} (hb : AllBytes m) (hr : 0 < byte m 0xc) (fuel n : Nat) (len : Int) (i : Info) (g : Nat → Bool) (l : Nat) :
    OkP (fun r : Info × (Nat → Bool) => ∃ seen, r.2 = (fun k => g k || seen k) ∧
      ((∃ frames vs, PlaysFrom m .asap n len l false frames false seen vs ∧ r.1 = i) ∨
        ∃ x vs, x.start = l ∧ PlaysFrom m .asap n len l true x.frames x.loop seen vs ∧ (∀ ch < n, (vs ch).note ≤ x.sound) ∧ LastSound m n vs x.sound ∧ Done i r.1 x)) (parseRmtSong fuel m len n i g l) := by
  unfold parseRmtSong
  refine PostE.bind (getWord_okP m 2) fun a ha => PostE.bind (rd_okP m _) fun tempo ht => PostE.bind (getWord_okP m 0x14) fun song hsong =>
    PostE.bind (getWord_okP m 0x10) fun lo hlo => PostE.bind (getWord_okP m 0x12) fun hi hhi => ?_
  have ea : a = byte m 2 + 256 * byte m 3 := ha
  have e1 : (song : Int) - ((a : Int) - 6) = Spec.Rmt.song m := by
    have e : song = address m 0x14 0x15 := hsong
    rw [e, ea]
    unfold Spec.Rmt.song offset
    omega
  have e2 : (lo : Int) - ((a : Int) - 6) = offset m (address m 0x10 0x11) := by
    have e : lo = address m 0x10 0x11 := hlo
    rw [e, ea]
    unfold offset
    omega
  have e3 : (hi : Int) - ((a : Int) - 6) = offset m (address m 0x12 0x13) := by
    have e : hi = address m 0x12 0x13 := hhi
    rw [e, ea]
    unfold offset
    omega
  dsimp only
  rw [e1, e2, e3, ea, ← byte_eq ht]
  refine PostE.bind (rmtLoop_plays hb n len g fuel 257 l (fun _ => {}) noTracks (byte m 0xb) 0 { glob := g } (fun _ => false) (fun _ => false) (fun _ => ⟨Nat.le_refl _, Nat.le_refl _⟩)
    (fun _ _ => ⟨Nat.le_refl _, rfl⟩) (fun _ => rfl) (fun _ _ => rfl) (fun k => by simp) rfl) ?_
  rintro ⟨chs, frames, v⟩ ⟨loop, seen, vs, h1, h2, h3, h4, h5⟩
  dsimp only at h1 h2 h3 h4 h5 ⊢
  have h3' : v.glob = fun k => g k || seen k := funext h3
  cases chs with
  | none =>
    have hl := h4 rfl
    subst hl
    refine ⟨seen, h3', .inl ⟨frames, vs, h1, ?_⟩⟩
    show (if v.loop = true then setLoops i true else i) = i
    rw [h2, if_neg Bool.false_ne_true]
  | some chs =>
    obtain ⟨h6, h7⟩ := h5 chs rfl
    refine PostE.bind (rmtLastFrame_last hb hr chs frames h6 n 0 0) ?_
    rintro last ⟨sound, rfl, _, l2, l3⟩
    rw [h2]
    refine PostE.bind (rmtFinish_done i l frames sound loop) fun r hr => ?_
    refine ⟨seen, h3', .inr ⟨⟨l, frames, sound, loop⟩, vs, rfl, h1, fun ch hch => ?_, ⟨fun ch hch => ?_, ?_⟩, hr⟩⟩
    · exact Nat.le_trans (h7 ch hch).1 (l2 ch (Nat.zero_le _) (by omega)).1
    · rw [(h7 ch hch).2]
      exact (l2 ch (Nat.zero_le _) (by omega)).2
    · rcases l3 with l3 | ⟨ch, _, c1, c2⟩
      · exact .inl l3
      · have hch : ch < n := by omega
        rw [← (h7 ch hch).2] at c2
        exact .inr ⟨ch, hch, c2⟩

/-! ### The list -/

/-- What the parser keeps of the songs. -/
structure Kepts (i r : Info) (tunes : List Tune) : Prop where
  songs : r.songs = i.songs + (tunes.filter Tune.heard).length
  new : ∀ k x, (tunes.filter Tune.heard)[k]? = some x → r.songPos (i.songs + k) = x.start ∧
    r.durations (i.songs + k) = ((min x.frames x.sound : Nat) : Int) * i.fastplay * 38000 / 591149 ∧
    (x.loops = true → r.loops (i.songs + k) = true) ∧ (x.sound + 100 < x.frames → r.loops (i.songs + k) = false)
  clean : (∀ k, i.songs ≤ k → i.loops k = false) → (∀ x ∈ tunes, x.heard = true ∨ x.loops = false) → ∀ k x, (tunes.filter Tune.heard)[k]? = some x → r.loops (i.songs + k) = x.loops
  old : ∀ k < i.songs, r.loops k = i.loops k ∧ r.durations k = i.durations k ∧ r.songPos k = i.songPos k
  behind : ∀ k, r.songs ≤ k → r.durations k = i.durations k

theorem Kepts.refl (i : Info) : Kepts i i [] :=
  ⟨rfl, fun k x hx => by simp at hx, fun _ _ k x hx => by simp at hx, fun _ _ => ⟨rfl, rfl, rfl⟩, fun _ _ => rfl⟩

theorem Kepts.broken {i r : Info} {l : Nat} {tunes : List Tune} (h : Kepts (setSongPos i l) r tunes) : Kepts i r tunes := by
  refine ⟨h.songs, h.new, h.clean, fun k hk => ?_, h.behind⟩
  obtain ⟨h1, h2, h3⟩ := h.old k hk
  exact ⟨h1, h2, h3.trans (if_neg (by omega))⟩

theorem Kepts.cons {i j r : Info} {l : Nat} {x : Tune} {tunes : List Tune} (hx : x.start = l) (h1 : Done (setSongPos i l) j x) (h2 : Kepts j r tunes) :
    Kepts i r (x :: tunes) := by
  have hp : j.songPos = upd i.songPos i.songs l := h1.songPos
  have hf : j.fastplay = i.fastplay := h1.fastplay
  have hL : j.loops = if x.loops then upd i.loops i.songs true else if x.sound + 100 < x.frames then upd i.loops i.songs false else i.loops := h1.loops
  have hLk : ∀ k, k ≠ i.songs → j.loops k = i.loops k := fun k hk => by
    rw [hL]
    split
    · exact if_neg hk
    · split
      · exact if_neg hk
      · rfl
  by_cases hh : x.heard = true
  · have hs : j.songs = i.songs + 1 := by rw [h1.songs, hh]; rfl
    have hd : j.durations = upd i.durations i.songs (((min x.frames x.sound : Nat) : Int) * i.fastplay * 38000 / 591149) := by rw [h1.durations, hh]; rfl
    have hfl : (x :: tunes).filter Tune.heard = x :: tunes.filter Tune.heard := by simp [hh]
    obtain ⟨o1, o2, o3⟩ := h2.old i.songs (by omega)
    refine ⟨?_, fun k y hy => ?_, fun c1 c2 k y hy => ?_, fun k hk => ?_, fun k hk => ?_⟩
    · rw [hfl, h2.songs, hs, List.length_cons]
      omega
    · rw [hfl] at hy
      cases k with
      | zero =>
        injection hy with hy
        subst hy
        refine ⟨?_, ?_, fun h => ?_, fun h => ?_⟩
        · show r.songPos i.songs = _
          rw [o3, hp, hx]
          exact if_pos rfl
        · show r.durations i.songs = _
          rw [o2, hd]
          exact if_pos rfl
        · show r.loops i.songs = true
          rw [o1, hL, if_pos h]
          exact if_pos rfl
        · show r.loops i.songs = false
          have hn : x.loops = false := by
            unfold Spec.Rmt.Tune.loops
            rw [decide_eq_false (by omega), Bool.and_false]
          rw [o1, hL, hn, if_neg Bool.false_ne_true, if_pos h]
          exact if_pos rfl
      | succ k =>
        have hy' : (tunes.filter Tune.heard)[k]? = some y := by simpa using hy
        have := h2.new k y hy'
        rw [hs, hf, show i.songs + 1 + k = i.songs + (k + 1) by omega] at this
        exact this
    · rw [hfl] at hy
      cases k with
      | zero =>
        injection hy with hy
        subst hy
        show r.loops i.songs = _
        rw [o1, hL]
        cases hxl : x.loops with
        | true => exact if_pos rfl
        | false =>
          rw [if_neg Bool.false_ne_true]
          split
          · exact if_pos rfl
          · exact c1 _ (Nat.le_refl _)
      | succ k =>
        have hy' : (tunes.filter Tune.heard)[k]? = some y := by simpa using hy
        have := h2.clean (fun k hk => by rw [hLk k (by omega)]; exact c1 k (by omega)) (fun z hz => c2 z (List.mem_cons_of_mem _ hz)) k y hy'
        rw [hs, show i.songs + 1 + k = i.songs + (k + 1) by omega] at this
        exact this
    · obtain ⟨a1, a2, a3⟩ := h2.old k (by omega)
      rw [a1, a2, a3, hd, hp, hLk k (by omega)]
      exact ⟨rfl, if_neg (by omega), if_neg (by omega)⟩
    · have hr := h2.songs
      rw [h2.behind k hk, hd]
      exact if_neg (by omega)
  · have hh' : x.heard = false := by simpa using hh
    have hs : j.songs = i.songs := by rw [h1.songs, hh']; rfl
    have hd : j.durations = i.durations := by rw [h1.durations, hh']; rfl
    have hfl : (x :: tunes).filter Tune.heard = tunes.filter Tune.heard := by simp [hh']
    refine ⟨?_, fun k y hy => ?_, fun c1 c2 k y hy => ?_, fun k hk => ?_, fun k hk => ?_⟩
    · rw [hfl, h2.songs, hs]
    · rw [hfl] at hy
      have := h2.new k y hy
      rw [hs, hf] at this
      exact this
    · rw [hfl] at hy
      have hn : x.loops = false := by
        rcases c2 x (List.mem_cons_self ..) with h | h
        · rw [h] at hh'
          cases hh'
        · exact h
      have := h2.clean (fun k hk => ?_) (fun z hz => c2 z (List.mem_cons_of_mem _ hz)) k y hy
      · rw [hs] at this
        exact this
      · rw [hL, hn, if_neg Bool.false_ne_true]
        split
        · unfold upd
          split
          · rfl
          · exact c1 k (by omega)
        · exact c1 k (by omega)
    · obtain ⟨a1, a2, a3⟩ := h2.old k (by omega)
      rw [a1, a2, a3, hd, hp, hLk k (by omega)]
      exact ⟨rfl, rfl, if_neg (by omega)⟩
    · rw [h2.behind k hk, hd]

theorem eachRmt_tunes {m : List Nat} (hb : AllBytes m) (hr : 0 < byte m 0xc) (fuel n : Nat) (len : Int) (k l c : Nat) (hk : k = (len - l).toNat) (i : Info) (g : Nat → Bool) (hc : i.songs + c = 32) :
    OkP (fun r => ∃ tunes, Tunes m n len c g l tunes ∧ Kepts i r tunes) (eachSong (parseRmtSong fuel m len n) k l i g) := by
  induction k generalizing l c i g with
  | zero => exact ⟨[], .done (by omega), Kepts.refl i⟩
  | succ k ih =>
    have hlt : (l : Int) < len := by omega
    unfold eachSong
    refine PostE.ite (fun hm => PostE.ite (fun hg => ?_) fun hg => ?_) fun hm => ?_
    · refine (ih (l + 1) c (by omega) i g hc).mono (fun _ h => h) ?_
      rintro r ⟨tunes, h1, h2⟩
      exact ⟨tunes, .visited hlt hg h1, h2⟩
    · have hm' : i.songs < 32 := hm
      obtain ⟨c, rfl⟩ : ∃ k, c = k + 1 := ⟨c - 1, by omega⟩
      have hg' : g l = false := by simpa using hg
      refine PostE.bind (parseRmtSong_plays hb hr fuel n len (setSongPos i l) g l) ?_
      rintro ⟨i', g'⟩ ⟨seen, p1, p2⟩
      dsimp only at p1 p2 ⊢
      rw [p1]
      rcases p2 with ⟨frames, vs, p2, rfl⟩ | ⟨x, vs, p2, p3, p4, p6, p5⟩
      · refine (ih (l + 1) (c + 1) (by omega) (setSongPos i l) _ hc).mono (fun _ h => h) ?_
        rintro r ⟨tunes, h1, h2⟩
        exact ⟨tunes, .broken hlt hg' p2 h1, h2.broken⟩
      · have hs : i'.songs = i.songs + if x.heard = true then 1 else 0 := p5.songs
        refine (ih (l + 1) (if x.heard then c else c + 1) (by omega) i' _ (by rw [hs]; split <;> omega)).mono (fun _ h => h) ?_
        rintro r ⟨tunes, h1, h2⟩
        exact ⟨x :: tunes, .tune hlt hg' p2 p3 p4 p6 h1, Kepts.cons p2 p5 h2⟩
    · have : ¬ i.songs < 32 := hm
      rw [show c = 0 by omega]
      exact ⟨[], .full, Kepts.refl i⟩

theorem rmtSongLen_lines (m : List Nat) (n : Nat) (blockLen : Int) (h : blockLen = (address m 4 5 : Int) + 1 - address m 2 3) :
    OkP (fun len => len = Spec.Rmt.lines m n) (rmtSongLen m n blockLen) := by
  unfold rmtSongLen
  refine PostE.bind (getWord_okP m 4) fun last hlast => PostE.bind (getWord_okP m 0x14) fun song hsong => ?_
  have e1 : last = address m 4 5 := hlast
  have e2 : song = address m 0x14 0x15 := hsong
  rw [e1, e2]
  dsimp only
  unfold Spec.Rmt.lines
  dsimp only
  refine PostE.ite (fun hc => PostE.bind (rdI_okP m _) fun x hx => ?_) fun hc => ?_
  · have hx' : byte m (offset m (address m 4 5) - 3).toNat = x := by
      refine has_nat hx ?_
      have := hx.1
      have e3 : (byte m 2 + 256 * byte m 3 : Nat) = address m 2 3 := rfl
      rw [h] at this ⊢
      unfold offset
      rw [e3]
      omega
    rw [hx']
    by_cases hx0 : x = 0xfe
    · rw [if_pos hx0, if_pos ⟨hc.1, hc.2, hx0⟩]
      rfl
    · rw [if_neg hx0, if_neg fun h => hx0 h.2.2]
      rfl
  · rw [if_neg fun h => hc ⟨h.1, h.2.1⟩]
    rfl

theorem parseRmtBlock_tunes {m : List Nat} (hb : AllBytes m) (fuel : Nat) (i : Info) (n : Nat) (hl : ∀ k, i.loops k = false) :
    OkP (fun r => ∃ j tunes, Tunes m n (Spec.Rmt.lines m n) 32 (fun _ => false) 0 tunes ∧ Spec.Rmt.lines m n ≤ 0xff ∧ Kepts { i with songs := 0 } j tunes ∧
      0 < r.songs ∧ r.songs = j.songs ∧ r.songPos = j.songPos ∧ r.durations = j.durations ∧ r.loops = j.loops) (parseRmtBlock fuel i m n) := by
  unfold parseRmtBlock
  refine PostE.bind (rd_okP m 0xc) fun perFrame hrate => PostE.ite (fun _ => trivial) fun hpf => ?_
  have hr : 0 < byte m 0xc := by
    rw [byte_eq hrate]
    omega
  have hM : OkP (fun music : Int => music = address m 2 3) (parseModule true m) := by
    unfold parseModule
    refine PostE.bind (okP_true _) fun ok _ => PostE.ite (fun _ => trivial) fun _ => PostE.bind (getWord_okP m 2) fun music hmusic => ?_
    refine PostE.bind (okP_true _) fun last _ => PostE.ite (fun _ => trivial) fun _ => PostE.bind (okP_true _) fun _ _ => ?_
    show (music : Int) = _
    rw [hmusic]
    rfl
  refine PostE.bind hM fun music hmusic => PostE.bind (getWord_okP m 4) fun last hlast => ?_
  refine PostE.bind (rmtSongLen_lines m n _ ?_) fun len hlen => PostE.ite (fun _ => trivial) fun hlt => ?_
  · rw [hmusic, hlast]
    rfl
  · rw [hlen] at hlt ⊢
    refine PostE.bind (eachRmt_tunes hb hr fuel n (Spec.Rmt.lines m n) _ 0 32 (by simp) _ _ rfl) ?_
    rintro j ⟨tunes, j1, j2⟩
    refine PostE.ite (fun _ => trivial) fun hs => PostE.bind (okP_true _) fun title _ => ?_
    refine ⟨j, tunes, j1, by omega, ⟨j2.songs, j2.new, j2.clean, j2.old, j2.behind⟩, ?_, rfl, rfl, rfl, rfl⟩
    show 0 < j.songs
    omega

theorem parseRmt_tunes {m : List Nat} (hb : AllBytes m) (fuel : Nat) (i : Info) (hl : ∀ k, i.loops k = false) :
    OkP (fun r => ∃ n j tunes, (n = 4 ∧ byte m 9 = 0x34 ∨ n = 8 ∧ byte m 9 = 0x38) ∧ Tunes m n (Spec.Rmt.lines m n) 32 (fun _ => false) 0 tunes ∧
      Spec.Rmt.lines m n ≤ 0xff ∧ Kepts { i with songs := 0 } j tunes ∧
      0 < r.songs ∧ r.songs = j.songs ∧ r.songPos = j.songPos ∧ r.durations = j.durations ∧ r.loops = j.loops) (parseRmt fuel i m) := by
  unfold parseRmt
  refine PostE.bind (okP_true _) fun ok _ => PostE.ite (fun _ => trivial) fun _ => PostE.bind (rd_okP m 9) fun x hx => ?_
  have hx' := byte_eq hx
  refine PostE.ite (fun h => ?_) fun _ => PostE.ite (fun h => ?_) fun _ => trivial
  · refine (parseRmtBlock_tunes hb fuel i 4 hl).mono (fun _ h => h) ?_
    rintro r ⟨j, tunes, h1⟩
    exact ⟨4, j, tunes, .inl ⟨rfl, hx'.trans h⟩, h1⟩
  · refine (parseRmtBlock_tunes hb fuel i 8 hl).mono (fun _ h => h) ?_
    rintro r ⟨j, tunes, h1⟩
    exact ⟨8, j, tunes, .inr ⟨rfl, hx'.trans h⟩, h1⟩

end Asap.Module.Tracker
