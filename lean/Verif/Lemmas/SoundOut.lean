import Verif.Lemmas.SoundPlay

/-! The samples of a playback. -/

namespace Asap.Sound
open Asap.Spec Asap.Spec.Sound Asap.Pokey

variable {factor : Int} {sinc : Int → Int → Int} {T S t c : Int} {p : Pokey} {r : Chip}
  {cfg : Cfg} {z : Noise} {s : Sound} {q : Pair} {stereo : Bool} {acc : Bool → Int} {iir : Int} {v : Bool → Tape}
  {format : SampleFormat}

theorem sample_sound {w : Int → Int} {K : Nat} (h1 : p.iirAcc = integral iir w K) (h2 : p.iirRate = iir) {i : Int}
    (h3 : p.buf i = w K) (f : SampleFormat) :
    XPost (fun _ => True) (fun x => x.1 = sampleBytes f (sample iir w K) ∧ x.2 = { p with iirAcc := integral iir w (K + 1) })
      (p.storeSample i f) := by
  subst h2
  refine xpost_true fun a ha => ?_
  by_cases hr : 0 ≤ i ∧ i < p.bufLen
  · rw [Props.storeSample_ok hr f, h3, h1] at ha
    cases ha
    exact ⟨rfl, rfl⟩
  · unfold Pokey.storeSample at ha
    rw [if_neg hr] at ha
    nomatch ha

/-- The pair after some samples have been taken. -/
def taken (stereo : Bool) (iir : Int) (w : Bool → Int → Int) (K : Nat) (q : Pair) : Pair :=
  { q with
    base := { q.base with iirAcc := integral iir (w false) K }
    extra := if stereo then { q.extra with iirAcc := integral iir (w true) K } else q.extra }

theorem store_sound (w : Bool → Int → Int) (f : SampleFormat) : ∀ (n : Nat) (q : Pair) (i : Int) (K : Nat),
    (q.extraMask = if stereo then 0x10 else 0) →
    (∀ r, Active stereo r → (chipOf r q).iirAcc = integral iir (w r) K ∧ (chipOf r q).iirRate = iir ∧
      ∀ j : Nat, j < n → (chipOf r q).buf (i + j) = w r (K + j)) →
    XPost (fun _ => True) (fun x => x.1 = (List.range' K n).flatMap (block f stereo iir (w false) (w true)) ∧
      x.2 = taken stereo iir w (K + n) q) (q.storeBlocks f n i)
  | 0, q, i, K, hm, h => by
    refine ⟨rfl, ?_⟩
    have h0 := (h false fun x => nomatch x).1
    show q = taken stereo iir w K q
    unfold taken
    have e0 : ({ q.base with iirAcc := integral iir (w false) K } : Pokey) = q.base := by
      rw [← h0]; rfl
    rw [e0]
    cases hst : stereo
    · rfl
    · have h1 := (h true fun _ => hst).1
      have e1 : ({ q.extra with iirAcc := integral iir (w true) K } : Pokey) = q.extra := by
        rw [← h1]; rfl
      rw [e1]
      rfl
  | n + 1, q, i, K, hm, h => by
    have s0 : ∀ r, Active stereo r → XPost (fun _ => True) (fun x => x.1 = sampleBytes f (sample iir (w r) K) ∧
        x.2 = { chipOf r q with iirAcc := integral iir (w r) (K + 1) }) ((chipOf r q).storeSample i f) := by
      intro r hr
      obtain ⟨h1, h2, h3⟩ := h r hr
      have := h3 0 (by omega)
      rw [show i + ((0 : Nat) : Int) = i by omega, show (K : Int) + ((0 : Nat) : Int) = K by omega] at this
      exact sample_sound h1 h2 this f
    have one : XPost (fun _ => True) (fun x => x.1 = block f stereo iir (w false) (w true) K ∧ x.2 = taken stereo iir w (K + 1) q)
        (q.storeBlock i f) := by
      unfold Pair.storeBlock
      refine XPost.bind (s0 false fun x => nomatch x) fun a ha => ?_
      refine XPost.ite (fun hx => ?_) fun hx => ?_
      · have hst : stereo = true := by
          rw [hm] at hx
          cases stereo
          · exact absurd rfl hx
          · rfl
        subst hst
        refine XPost.bind (s0 true fun _ => rfl) fun b hb => ?_
        refine ⟨?_, ?_⟩
        · show a.1 ++ b.1 = _
          rw [ha.1, hb.1]; rfl
        · show ({ q with base := a.2, extra := b.2 } : Pair) = _
          rw [ha.2, hb.2]; rfl
      · have hst : stereo = false := by
          rw [hm] at hx
          cases stereo
          · rfl
          · exact absurd (by decide) hx
        subst hst
        refine ⟨?_, ?_⟩
        · show a.1 = _
          rw [ha.1]
          exact (List.append_nil _).symm
        · show ({ q with base := a.2 } : Pair) = _
          rw [ha.2]; rfl
    unfold Pair.storeBlocks
    refine XPost.bind one fun a ha => ?_
    refine XPost.bind (store_sound w f n a.2 (i + 1) (K + 1) (by rw [ha.2]; exact hm) ?_) fun b hb => ?_
    · intro r hr
      obtain ⟨h1, h2, h3⟩ := h r hr
      have hb : ∀ j : Nat, j < n → (chipOf r q).buf (i + 1 + j) = w r ((K + 1 : Nat) + j) := by
        intro j hj
        have := h3 (j + 1) (by omega)
        rw [show i + ((j + 1 : Nat) : Int) = i + 1 + j by omega, show (K : Int) + ((j + 1 : Nat) : Int) = (K + 1 : Nat) + j by omega] at this
        exact this
      rw [ha.2]
      cases r
      · exact ⟨rfl, h2, hb⟩
      · have hst : stereo = true := hr rfl
        subst hst
        exact ⟨rfl, h2, hb⟩
    · refine ⟨?_, ?_⟩
      · show a.1 ++ b.1 = _
        rw [ha.1, hb.1, List.range'_succ, List.flatMap_cons]
      · show b.2 = _
        rw [hb.2, ha.2, show K + 1 + n = K + (n + 1) by omega]
        unfold taken
        cases stereo <;> rfl

/-! ### Requests for samples -/

/-- After the end of a frame: `i` of its `n` samples have been taken. -/
structure Out (z : Noise) (factor : Int) (sinc : Int → Int → Int) (stereo : Bool) (T : Int) (K n : Nat) (iir : Int) (v : Bool → Tape)
    (i : Nat) (q : Pair) : Prop where
  desk : Desk factor sinc stereo T (K + n) q
  sides : Sides z factor sinc stereo T K (fun r => integral iir (v r).sound.wave (K + i)) iir q v
  buf : ∀ r, Active stereo r → ∀ k : Int, k < n → (chipOf r q).buf k = (v r).sound.wave (K + k)
  le : i ≤ n
  ready : q.readyStart = i ∧ q.readyEnd = n
  trail : i = n → 0 < n → ∀ r, (chipOf r q).trailing = n

variable {K n i : Nat}

theorem Out.calm (h : Out z factor sinc stereo T K n iir v i q) {e : PairEvent} (he : Calm e) :
    XPost (fun _ => True) (Out z factor sinc stereo T K n iir v i) (stepPair q e) := by
  refine (calm_step he h.desk h.sides).mono (fun _ x => x) ?_
  rintro q' ⟨g1, g2, g3, g4, g5, g6⟩
  refine ⟨g1, g2, fun r hr k hk => ?_, h.le, ⟨g3.trans h.ready.1, g4.trans h.ready.2⟩, fun a b r => (g5 r).trans (h.trail a b r)⟩
  have e : (core (chipOf r q')).buf = (core (chipOf r q)).buf := congrArg (fun p : Pokey => p.buf) (g6 r)
  rw [show (chipOf r q').buf = (chipOf r q).buf from e]
  exact h.buf r hr k hk

theorem Side.taken {x y : Int} {v : Tape} (h : Side z factor sinc S x iir p v) : Side z factor sinc S y iir { p with iirAcc := y } v := by
  obtain ⟨d, h1, h2, h3⟩ := h.filt
  exact ⟨h.lazy.twin rfl, ⟨d, rfl, h2, h3⟩, h.late⟩

theorem Side.trail {x y : Int} {v : Tape} (h : Side z factor sinc S x iir p v) : Side z factor sinc S x iir { p with trailing := y } v := by
  obtain ⟨d, h1, h2, h3⟩ := h.filt
  exact ⟨h.lazy.twin rfl, ⟨y, h1, h2, rfl⟩, h.late⟩

theorem Out.generate (h : Out z factor sinc stereo T K n iir v i q) {blocks : Int} (hb : 0 ≤ blocks) (f : SampleFormat) :
    XPost (fun _ => True) (fun x => x.1 = (List.range' (K + i) (min blocks.toNat (n - i))).flatMap
        (block f stereo iir (v false).sound.wave (v true).sound.wave) ∧
      Out z factor sinc stereo T K n iir v (i + min blocks.toNat (n - i)) x.2.2) (q.generate blocks f) := by
  obtain ⟨hr1, hr2⟩ := h.ready
  have hle := h.le
  unfold Pair.generate
  dsimp only
  rw [hr1, hr2]
  have hm : (if blocks < (n : Int) - i then blocks else (n : Int) - i) = ((min blocks.toNat (n - i) : Nat) : Int) := by
    split <;> omega
  rw [hm]
  generalize hM : min blocks.toNat (n - i) = M
  have hMn : i + M ≤ n := by omega
  refine XPost.ite (fun hp => ?_) fun hp => ?_
  · have hst := store_sound (stereo := stereo) (iir := iir) (fun r => (v r).sound.wave) f M q i (K + i) h.desk.mask ?_
    · rw [Int.toNat_natCast]
      refine XPost.bind hst fun x hx => ?_
      refine ⟨hx.1, ?_⟩
      have key : ∀ q2 : Pair, q2 = taken stereo iir (fun r => (v r).sound.wave) (K + i + M) q → ∀ q3 : Pair,
          (q3 = if (i : Int) + M = n then { q2 with base := { q2.base with trailing := (i : Int) + M }, extra := { q2.extra with trailing := (i : Int) + M } } else q2) →
          Out z factor sinc stereo T K n iir v (i + M) { q3 with readyStart := (i : Int) + M } := by
        intro q2 e2 q3 e3
        have t1 : Desk factor sinc stereo T (K + n) q2 := by
          rw [e2]; exact ⟨h.desk.mask, h.desk.rate, h.desk.table, h.desk.offset, h.desk.range⟩
        have t2 : Sides z factor sinc stereo T K (fun r => integral iir (v r).sound.wave (K + (i + M))) iir q2 v := by
          intro r hr
          refine ⟨(h.sides r hr).1, ?_⟩
          rw [e2, ← Nat.add_assoc]
          cases r
          · exact ((h.sides false hr).2).taken
          · have hst : stereo = true := hr rfl
            subst hst
            exact ((h.sides true hr).2).taken
        have t3 : ∀ r, Active stereo r → ∀ k : Int, k < n → (chipOf r q2).buf k = (v r).sound.wave (K + k) := by
          intro r hr k hk
          have := h.buf r hr k hk
          rw [e2]
          cases r
          · exact this
          · have hst : stereo = true := hr rfl
            subst hst
            exact this
        have t4 : q2.readyEnd = n := by rw [e2]; exact hr2
        by_cases hc : (i : Int) + M = n
        · rw [if_pos hc] at e3
          rw [e3]
          refine ⟨⟨t1.mask, t1.rate, t1.table, t1.offset, t1.range⟩, ?_, ?_, hMn, ⟨?_, t4⟩, ?_⟩
          · intro r hr
            refine ⟨(t2 r hr).1, ?_⟩
            cases r
            · exact ((t2 false hr).2).trail
            · exact ((t2 true hr).2).trail
          · intro r hr
            cases r
            · exact t3 false hr
            · exact t3 true hr
          · show (i : Int) + M = ((i + M : Nat) : Int)
            omega
          · intro _ _ r
            cases r
            · exact hc
            · exact hc
        · rw [if_neg hc] at e3
          rw [e3]
          refine ⟨⟨t1.mask, t1.rate, t1.table, t1.offset, t1.range⟩, ?_, ?_, hMn, ⟨?_, t4⟩, ?_⟩
          · intro r hr
            refine ⟨(t2 r hr).1, ?_⟩
            cases r
            · exact (t2 false hr).2
            · exact (t2 true hr).2
          · intro r hr
            cases r
            · exact t3 false hr
            · exact t3 true hr
          · show (i : Int) + M = ((i + M : Nat) : Int)
            omega
          · intro he
            exact absurd (by omega) hc
      exact key x.2 hx.2 _ rfl
    · intro r hr
      obtain ⟨-, hs⟩ := h.sides r hr
      obtain ⟨d, h1, h2, h3⟩ := hs.filt
      refine ⟨h1, h2, fun j hj => ?_⟩
      rw [h.buf r hr _ (by omega)]
      congr 1
      omega
  · have hM0 : M = 0 := by omega
    subst hM0
    refine ⟨rfl, ?_⟩
    exact h

theorem outputs_sound (f : SampleFormat) : ∀ (es : List PairEvent) (q : Pair) (i : Nat), (∀ e ∈ es, AfterFrame f e) →
    Out z factor sinc stereo T K n iir v i q →
    0 ≤ wanted es ∧ XPost (fun _ => True) (fun x => x.1 = (List.range' (K + i) (min (wanted es).toNat (n - i))).flatMap
        (block f stereo iir (v false).sound.wave (v true).sound.wave) ∧
      Out z factor sinc stereo T K n iir v (i + min (wanted es).toNat (n - i)) x.2) (produce q es)
  | [], q, i, _, h => by
    refine ⟨Int.le_refl _, ?_⟩
    have e : min (wanted []).toNat (n - i) = 0 := by show min (0 : Int).toNat (n - i) = 0; simp
    rw [e]
    exact ⟨rfl, h⟩
  | e :: es, q, i, ha, h => by
    have hes : ∀ e ∈ es, AfterFrame f e := fun e he => ha e (by simp [he])
    have hel := ha e (by simp)
    have calm : Calm e → wanted (e :: es) = wanted es → (∀ b f, e ≠ .generate b f) → _ := fun hc hw hg => by
      have hw0 := (outputs_sound f es q i hes h).1
      refine (⟨by rw [hw]; exact hw0, ?_⟩ : 0 ≤ wanted (e :: es) ∧ XPost (fun _ => True) (fun x => x.1 = (List.range' (K + i) (min (wanted (e :: es)).toNat (n - i))).flatMap
        (block f stereo iir (v false).sound.wave (v true).sound.wave) ∧
        Out z factor sinc stereo T K n iir v (i + min (wanted (e :: es)).toNat (n - i)) x.2) (produce q (e :: es)))
      rw [hw]
      show XPost _ _ (produceOne q e >>= fun r => produce r.2 es >>= fun s => .ok (r.1 ++ s.1, s.2))
      rw [produce_quiet hg]
      refine XPost.bind (P := fun x => x.1 = [] ∧ Out z factor sinc stereo T K n iir v i x.2) ?_ fun x hx => ?_
      · exact XPost.bind (h.calm hc) fun q' hq => ⟨rfl, hq⟩
      · refine XPost.bind (outputs_sound f es x.2 i hes hx.2).2 fun y hy => ⟨?_, hy.2⟩
        show x.1 ++ y.1 = _
        rw [hx.1, hy.1]; rfl
    cases e with
    | generate blocks g =>
      obtain ⟨hb, hg⟩ : 0 ≤ blocks ∧ g = f := hel
      subst hg
      have hw : wanted (.generate blocks g :: es) = blocks + wanted es := rfl
      have hw0 := (outputs_sound g es q i hes h).1
      refine ⟨by omega, ?_⟩
      rw [hw]
      show XPost _ _ (produceOne q (.generate blocks g) >>= fun r => produce r.2 es >>= fun s => .ok (r.1 ++ s.1, s.2))
      refine XPost.bind (P := fun x => x.1 = (List.range' (K + i) (min blocks.toNat (n - i))).flatMap
        (block g stereo iir (v false).sound.wave (v true).sound.wave) ∧
        Out z factor sinc stereo T K n iir v (i + min blocks.toNat (n - i)) x.2) ?_ fun x hx => ?_
      · exact XPost.bind (h.generate hb g) fun x hx => hx
      · have := (outputs_sound g es x.2 _ hes hx.2).2
        have e1 : min (blocks + wanted es).toNat (n - i) = min blocks.toNat (n - i) + min (wanted es).toNat (n - (i + min blocks.toNat (n - i))) := by
          omega
        refine XPost.bind this fun y hy => ⟨?_, ?_⟩
        · show x.1 ++ y.1 = _
          rw [hx.1, hy.1, e1, ← List.flatMap_append, ← Nat.add_assoc, List.range'_append_1]
        · rw [e1, ← Nat.add_assoc]
          exact hy.2
    | read => exact calm hel rfl (by simp)
    | irq => exact calm hel rfl (by simp)
    | timers => exact calm hel rfl (by simp)
    | write => exact hel.elim
    | start => exact hel.elim
    | finish => exact hel.elim
    | external => exact hel.elim
    | mute => exact hel.elim

/-! ### Playbacks -/

theorem produce_append : ∀ (es fs : List PairEvent) (q : Pair),
    produce q (es ++ fs) = (produce q es >>= fun r => produce r.2 fs >>= fun s => .ok (r.1 ++ s.1, s.2))
  | [], fs, q => by
    show produce q fs = (produce q fs >>= fun s => .ok ([] ++ s.1, s.2))
    cases produce q fs <;> rfl
  | e :: es, fs, q => by
    show (produceOne q e >>= fun r => produce r.2 (es ++ fs) >>= fun s => .ok (r.1 ++ s.1, s.2)) =
      ((produceOne q e >>= fun r => produce r.2 es >>= fun s => .ok (r.1 ++ s.1, s.2)) >>= fun r => produce r.2 fs >>= fun s => .ok (r.1 ++ s.1, s.2))
    cases produceOne q e with
    | error => rfl
    | ok r =>
      show (produce r.2 (es ++ fs) >>= fun s => .ok (r.1 ++ s.1, s.2)) =
        ((produce r.2 es >>= fun s => .ok (r.1 ++ s.1, s.2)) >>= fun r => produce r.2 fs >>= fun s => .ok (r.1 ++ s.1, s.2))
      rw [produce_append es fs r.2]
      cases produce r.2 es with
      | error => rfl
      | ok a =>
        show ((produce a.2 fs >>= fun s => .ok (a.1 ++ s.1, s.2)) >>= fun s => .ok (r.1 ++ s.1, s.2)) =
          (produce a.2 fs >>= fun s => .ok (r.1 ++ a.1 ++ s.1, s.2))
        cases produce a.2 fs with
        | error => rfl
        | ok b =>
          show Except.ok (r.1 ++ (a.1 ++ b.1), b.2) = Except.ok (r.1 ++ a.1 ++ b.1, b.2)
          rw [List.append_assoc]

theorem integral_congr {w w' : Int → Int} : ∀ (n : Nat), (∀ k : Nat, k < n → w k = w' k) → integral iir w n = integral iir w' n
  | 0, _ => rfl
  | n + 1, h => by
    have := integral_congr n fun k hk => h k (by omega)
    show integral iir w n + (w n - iir * integral iir w n / 2048) = _
    rw [this, h n (by omega)]
    rfl

theorem block_congr {f : SampleFormat} {w w' : Bool → Int → Int} {n : Nat} (h : ∀ r, Active stereo r → ∀ k : Nat, k ≤ n → w r k = w' r k) :
    block f stereo iir (w false) (w true) n = block f stereo iir (w' false) (w' true) n := by
  have one : ∀ r, Active stereo r → sample iir (w r) n = sample iir (w' r) n := by
    intro r hr
    unfold sample
    rw [integral_congr (n + 1) fun k hk => h r hr k (by omega)]
  unfold block
  rw [one false fun x => nomatch x]
  cases stereo
  · rfl
  · rw [one true fun _ => rfl]

theorem flatMap_same {α β : Type} {f g : α → List β} : ∀ (l : List α), (∀ x ∈ l, f x = g x) → l.flatMap f = l.flatMap g
  | [], _ => rfl
  | a :: l, h => by
    rw [List.flatMap_cons, List.flatMap_cons, h a (by simp), flatMap_same l fun x hx => h x (by simp [hx])]

theorem stamps_ge {T : Int} : ∀ (es : List PairEvent), (∀ e ∈ es, e.Within (312 * 114 + 34)) → ∀ x ∈ stamps T es, T ≤ x
  | [], _, x, hx => nomatch hx
  | e :: es, h, x, hx => by
    rw [stamps_cons] at hx
    rcases List.mem_append.1 hx with k | k
    · have he := h e (by simp)
      cases e with
      | write addr data c =>
        obtain ⟨-, h1, -⟩ : (0 ≤ data ∧ data < 256) ∧ 0 ≤ c ∧ c ≤ 312 * 114 + 34 := he
        have : x = T + c := by simpa [stamps] using k
        omega
      | external side c height =>
        obtain ⟨h1, -⟩ : 0 ≤ c ∧ c ≤ 312 * 114 + 34 := he
        have : x = T + c := by simpa [stamps] using k
        omega
      | _ => nomatch k
    · exact stamps_ge es (fun e he => h e (by simp [he])) x k

theorem history_events {f : Frame} {e : PairEvent} (h : e ∈ f.events) : e ∈ f.history := by
  unfold Frame.history; simp [h]

theorem history_finish (f : Frame) : .finish f.length ∈ f.history := by
  unfold Frame.history; simp

theorem frame_length {f : Frame} (h : ∀ e ∈ f.history, e.Within (312 * 114 + 34)) : 0 ≤ f.length ∧ f.length ≤ 312 * 114 + 34 :=
  h _ (history_finish f)

theorem allStamps_ge : ∀ (fs : List Frame) (T : Int), (∀ f ∈ fs, ∀ e ∈ f.history, e.Within (312 * 114 + 34)) →
    ∀ x ∈ allStamps T fs, T ≤ x
  | [], T, _, x, hx => nomatch hx
  | f :: fs, T, h, x, hx => by
    have hl := frame_length (h f (by simp))
    rcases List.mem_append.1 hx with k | k
    · exact stamps_ge f.events (fun e he => h f (by simp) e (history_events he)) x k
    · have := allStamps_ge fs (T + f.length) (fun g hg => h g (by simp [hg])) x k
      omega

/-- The next frame of the reference. -/
def next (z : Noise) (factor : Int) (sinc : Int → Int → Int) (m : PairEvent → Bool) (f : Frame) (v : Tape) : Tape :=
  (f.events.foldl (Tape.event z factor sinc m) v).finish z factor sinc f.length

/-- The reference is in time for the rest of the playback. -/
structure Timely (fs : List Frame) (v : Tape) : Prop where
  within : ∀ f ∈ fs, ∀ e ∈ f.history, e.Within (312 * 114 + 34)
  order : (allStamps v.frame fs).Pairwise (· ≤ ·)
  now : ∀ x ∈ allStamps v.frame fs, v.now ≤ x

theorem next_frame (m : PairEvent → Bool) (f : Frame) (v : Tape) : (next z factor sinc m f v).frame = v.frame + f.length := by
  show (f.events.foldl _ v).frame + f.length = _
  rw [fold_frame]

theorem next_now (m : PairEvent → Bool) (f : Frame) (v : Tape) : v.frame + f.length ≤ (next z factor sinc m f v).now := by
  show _ ≤ max _ ((f.events.foldl _ v).frame + f.length)
  rw [fold_frame]
  omega

theorem Timely.events {f : Frame} {fs : List Frame} {v : Tape} (h : Timely (f :: fs) v) :
    (∀ x ∈ stamps v.frame f.events, v.now ≤ x) ∧ (stamps v.frame f.events).Pairwise (· ≤ ·) :=
  ⟨fun x hx => h.now x (List.mem_append.2 (Or.inl hx)), (List.pairwise_append.1 h.order).1⟩

theorem next_past (m : PairEvent → Bool) (h0 : 0 ≤ factor) {k : Int} {f : Frame} {fs : List Frame} {v : Tape} (h : Timely (f :: fs) v)
    (hk : k < samplesAt factor v.now) :
    (next z factor sinc m f v).sound.wave k = v.sound.wave k ∧ v.now ≤ (next z factor sinc m f v).now ∧ Timely fs (next z factor sinc m f v) := by
  obtain ⟨h1, h2, h3⟩ := fold_past z m h0 (sinc := sinc) f.events v h.events.1 h.events.2 hk
  have hl := frame_length (h.within f (by simp))
  have hf : (f.events.foldl (Tape.event z factor sinc m) v).frame = v.frame := fold_frame z m f.events v
  have ho := List.pairwise_append.1 h.order
  refine ⟨?_, ?_, ⟨fun g hg => h.within g (by simp [hg]), ?_, ?_⟩⟩
  · show (Sound.wait z factor sinc _ _ _).wave k = _
    rw [wait_past z h0 _ _ _ (by have := samplesAt_mono h0 h2; omega), h1]
  · show _ ≤ max (f.events.foldl (Tape.event z factor sinc m) v).now _
    omega
  · rw [next_frame]; exact ho.2.1
  · rw [next_frame]
    intro x hx
    show max (f.events.foldl (Tape.event z factor sinc m) v).now ((f.events.foldl (Tape.event z factor sinc m) v).frame + f.length) ≤ x
    rw [hf]
    have h4 := allStamps_ge fs _ (fun g hg => h.within g (by simp [hg])) x hx
    rcases h3 with e | e
    · have := h.now x (List.mem_append.2 (Or.inr hx))
      omega
    · have := ho.2.2 _ e x hx
      omega

theorem play_past (m : PairEvent → Bool) (h0 : 0 ≤ factor) {k : Int} : ∀ (fs : List Frame) (v : Tape), Timely fs v →
    k < samplesAt factor v.now → (v.play z factor sinc m fs).sound.wave k = v.sound.wave k
  | [], _, _, _ => rfl
  | f :: fs, v, h, hk => by
    obtain ⟨h1, h2, h3⟩ := next_past (z := z) (sinc := sinc) m h0 h hk
    have := play_past m h0 (k := k) fs (next z factor sinc m f v) h3 (by have := samplesAt_mono h0 h2; omega)
    exact this.trans h1

/-- Between frames: all the samples before `K` have been taken. -/
structure Bound (z : Noise) (factor : Int) (sinc : Int → Int → Int) (stereo : Bool) (T : Int) (K : Nat) (iir : Int) (v : Bool → Tape)
    (q : Pair) : Prop where
  desk : Desk factor sinc stereo T K q
  sides : ∀ r, Active stereo r → (v r).frame = T ∧ 0 ≤ (chipOf r q).trailing ∧
    Side z factor sinc (K - (chipOf r q).trailing) (integral iir (v r).sound.wave K) iir (chipOf r q) (v r)
  now : ∀ r, Active stereo r → T ≤ (v r).now

theorem wanted_nonneg : ∀ (es : List PairEvent), (∀ e ∈ es, AfterFrame format e) → 0 ≤ wanted es
  | [], _ => Int.le_refl _
  | e :: es, h => by
    have hr := wanted_nonneg es fun e he => h e (by simp [he])
    have he := h e (by simp)
    cases e with
    | generate b f => have := he.1; show 0 ≤ b + wanted es; omega
    | _ => exact hr

/-- A frame: what is taken of its samples. -/
theorem frame_out (h0 : 0 ≤ factor) {f : Frame} {fs : List Frame} (h : Bound z factor sinc stereo T K iir v q) (h1 : ∀ e ∈ f.events, InFrame e)
    (h2 : ∀ e ∈ f.output, AfterFrame format e) (ht : ∀ r, Active stereo r → Timely (f :: fs) (v r)) :
    XPost (fun _ => True) (fun x => 0 ≤ wanted f.output ∧ (K : Int) = samplesAt factor T ∧
      x.1 = (List.range' K (min (wanted f.output).toNat (samplesAt factor (T + f.length) - samplesAt factor T).toNat)).flatMap (block format stereo iir
        (next z factor sinc (mine stereo false) f (v false)).sound.wave (next z factor sinc (mine stereo true) f (v true)).sound.wave) ∧
      Out z factor sinc stereo (T + f.length) K (samplesAt factor (T + f.length) - samplesAt factor T).toNat iir
        (fun r => next z factor sinc (mine stereo r) f (v r)) (min (wanted f.output).toNat (samplesAt factor (T + f.length) - samplesAt factor T).toNat) x.2) (produce q f.history) := by
  have hf0 := ht false fun x => nomatch x
  have hwi := hf0.within f (by simp)
  have hl := frame_length hwi
  have hmono := samplesAt_mono h0 (show T ≤ T + f.length by omega)
  have hT : ∀ r, Active stereo r → (v r).frame = T := fun r hr => (h.sides r hr).1
  have hwant := wanted_nonneg f.output h2
  have hsplit : f.history = [.start] ++ (f.events ++ ([.finish f.length] ++ f.output)) := by
    unfold Frame.history; simp
  rw [hsplit, produce_append]
  refine XPost.bind (P := fun x => x.1 = [] ∧ Desk factor sinc stereo T K x.2 ∧
    Sides z factor sinc stereo T K (fun r => integral iir (v r).sound.wave K) iir x.2 v) ?_ ?_
  · show XPost _ _ ((q.startFrame >>= fun r => .ok ([], r)) >>= fun r => .ok (r.1 ++ [], r.2))
    refine XPost.bind (P := fun x => x.1 = [] ∧ Desk factor sinc stereo T K x.2 ∧
      Sides z factor sinc stereo T K (fun r => integral iir (v r).sound.wave K) iir x.2 v) ?_ fun x hx => ?_
    · exact XPost.bind (start_sound h.desk h.sides) fun q' hq => ⟨rfl, hq⟩
    · refine ⟨?_, hx.2⟩
      show x.1 ++ [] = []
      rw [hx.1]; rfl
  rintro x ⟨x1, x2, x3⟩
  refine XPost.bind (P := fun y => y.1 = (List.range' K (min (wanted f.output).toNat (samplesAt factor (T + f.length) - samplesAt factor T).toNat)).flatMap (block format stereo iir
        (next z factor sinc (mine stereo false) f (v false)).sound.wave (next z factor sinc (mine stereo true) f (v true)).sound.wave) ∧
      (K : Int) = samplesAt factor T ∧
      Out z factor sinc stereo (T + f.length) K (samplesAt factor (T + f.length) - samplesAt factor T).toNat iir
        (fun r => next z factor sinc (mine stereo r) f (v r)) (min (wanted f.output).toNat (samplesAt factor (T + f.length) - samplesAt factor T).toNat) y.2) ?_ fun y hy => ?_
  rotate_left
  · refine ⟨hwant, hy.2.1, ?_, hy.2.2⟩
    show x.1 ++ y.1 = _
    rw [x1, hy.1]; rfl
  rw [produce_append]
  refine XPost.bind (events_sound f.events x.2 v h1 (fun e he => hwi e (history_events he)) x2 x3 ?_ ?_) ?_
  · intro r hr y hy
    have := (ht r hr).events.1
    rw [hT r hr] at this
    exact this y hy
  · have := hf0.events.2
    rw [hT false fun x => nomatch x] at this
    exact this
  rintro y ⟨y1, y2, y3⟩
  rw [produce_append]
  have hfin := finish_sound (len := f.length) (by omega) h0 y2 y3
  refine XPost.bind (P := fun u => u.1 = (List.range' K (min (wanted f.output).toNat (samplesAt factor (T + f.length) - samplesAt factor T).toNat)).flatMap (block format stereo iir
        (next z factor sinc (mine stereo false) f (v false)).sound.wave (next z factor sinc (mine stereo true) f (v true)).sound.wave) ∧
      (K : Int) = samplesAt factor T ∧
      Out z factor sinc stereo (T + f.length) K (samplesAt factor (T + f.length) - samplesAt factor T).toNat iir
        (fun r => next z factor sinc (mine stereo r) f (v r)) (min (wanted f.output).toNat (samplesAt factor (T + f.length) - samplesAt factor T).toNat) u.2) ?_ fun u hu => ?_
  rotate_left
  · refine ⟨?_, hu.2.1, hu.2.2⟩
    show y.1 ++ u.1 = _
    rw [y1, hu.1]; rfl
  refine XPost.bind (P := fun u => u.1 = [] ∧ (K : Int) = samplesAt factor T ∧ Out z factor sinc stereo (T + f.length) K
    (samplesAt factor (T + f.length) - samplesAt factor T).toNat iir (fun r => next z factor sinc (mine stereo r) f (v r)) 0 u.2) ?_ ?_
  · show XPost _ _ ((y.2.endFrame f.length >>= fun r => .ok ([], r)) >>= fun r => .ok (r.1 ++ [], r.2))
    refine XPost.bind (P := fun u => u.1 = [] ∧ (K : Int) = samplesAt factor T ∧ Out z factor sinc stereo (T + f.length) K
      (samplesAt factor (T + f.length) - samplesAt factor T).toNat iir (fun r => next z factor sinc (mine stereo r) f (v r)) 0 u.2) ?_ fun u hu => ?_
    rotate_left
    · refine ⟨?_, hu.2⟩
      show u.1 ++ [] = []
      rw [hu.1]; rfl
    refine XPost.bind hfin ?_
    rintro u ⟨u1, u2, u3, u4, u5, u6⟩
    refine ⟨rfl, u1, ⟨?_, ?_, ?_, by omega, ⟨u4, ?_⟩, fun h => ?_⟩⟩
    · have : (K : Int) + ((samplesAt factor (T + f.length) - samplesAt factor T).toNat : Int) = samplesAt factor (T + f.length) := by omega
      rw [this]
      exact u2
    · intro r hr
      have e : integral iir (v r).sound.wave K = integral iir (next z factor sinc (mine stereo r) f (v r)).sound.wave (K + 0) := by
        refine integral_congr K fun k hk => ?_
        refine ((next_past (mine stereo r) h0 (ht r hr) ?_).1).symm
        have := samplesAt_mono h0 (h.now r hr)
        omega
      have := u3 r hr
      dsimp only at this
      rw [e] at this
      exact this
    · intro r hr k hk
      exact u6 r hr k (by omega)
    · rw [u5]; omega
    · omega
  rintro u ⟨u1, u2, u3⟩
  obtain ⟨o1, o2⟩ := outputs_sound format f.output u.2 0 h2 u3
  rw [Nat.sub_zero, Nat.zero_add] at o2
  refine XPost.bind o2 ?_
  rintro w ⟨w1, w2⟩
  refine ⟨?_, u2, w2⟩
  show u.1 ++ w.1 = _
  rw [u1, w1]; rfl

/-- A frame, all the samples of which are taken. -/
theorem frame_sound (h0 : 0 ≤ factor) {f : Frame} {fs : List Frame} (h : Bound z factor sinc stereo T K iir v q) (h1 : ∀ e ∈ f.events, InFrame e)
    (h2 : ∀ e ∈ f.output, AfterFrame format e) (ht : ∀ r, Active stereo r → Timely (f :: fs) (v r))
    (hs : 0 < samplesAt factor (T + f.length) - samplesAt factor T) (hw : samplesAt factor (T + f.length) - samplesAt factor T ≤ wanted f.output) :
    XPost (fun _ => True) (fun x => (K : Int) = samplesAt factor T ∧
      x.1 = (List.range' K (samplesAt factor (T + f.length) - samplesAt factor T).toNat).flatMap (block format stereo iir
        (next z factor sinc (mine stereo false) f (v false)).sound.wave (next z factor sinc (mine stereo true) f (v true)).sound.wave) ∧
      Bound z factor sinc stereo (T + f.length) (samplesAt factor (T + f.length)).toNat iir
        (fun r => next z factor sinc (mine stereo r) f (v r)) x.2) (produce q f.history) := by
  refine (frame_out h0 h h1 h2 ht).mono (fun _ x => x) ?_
  rintro x ⟨-, u2, w1, w2⟩
  have hT : ∀ r, Active stereo r → (v r).frame = T := fun r hr => (h.sides r hr).1
  generalize hn : (samplesAt factor (T + f.length) - samplesAt factor T).toNat = n at *
  have hmin : min (wanted f.output).toNat n = n := by omega
  rw [hmin] at w1 w2
  refine ⟨u2, w1, ⟨?_, ?_, ?_⟩⟩
  · have := w2.desk
    rw [show (K : Int) + n = ((samplesAt factor (T + f.length)).toNat : Nat) by omega] at this
    exact this
  · intro r hr
    have ht := w2.trail rfl (by omega) r
    have hsd := w2.sides r hr
    refine ⟨hsd.1, by rw [ht]; omega, ?_⟩
    rw [ht]
    rw [show ((samplesAt factor (T + f.length)).toNat : Int) - n = K by omega, show (samplesAt factor (T + f.length)).toNat = K + n by omega]
    exact hsd.2
  · intro r hr
    rw [← hT r hr]
    exact next_now _ f (v r)

theorem allStamps_append : ∀ (fs gs : List Frame) (T : Int), allStamps T (fs ++ gs) = allStamps T fs ++ allStamps (T + total fs) gs
  | [], gs, T => by rw [show T + total [] = T from Int.add_zero T]; rfl
  | f :: fs, gs, T => by
    show stamps T f.events ++ allStamps (T + f.length) (fs ++ gs) = (stamps T f.events ++ allStamps (T + f.length) fs) ++ allStamps (T + (f.length + total fs)) gs
    rw [allStamps_append fs gs, List.append_assoc, Int.add_assoc]

theorem Timely.left {fs gs : List Frame} {v : Tape} (h : Timely (fs ++ gs) v) : Timely fs v := by
  have ho := h.order
  have hn := h.now
  rw [allStamps_append] at ho hn
  exact ⟨fun f hf => h.within f (by simp [hf]), (List.pairwise_append.1 ho).1, fun x hx => hn x (List.mem_append.2 (Or.inl hx))⟩

theorem play_append (m : PairEvent → Bool) : ∀ (fs gs : List Frame) (v : Tape),
    v.play z factor sinc m (fs ++ gs) = (v.play z factor sinc m fs).play z factor sinc m gs
  | [], _, _ => rfl
  | f :: fs, gs, v => play_append m fs gs (next z factor sinc m f v)

theorem total_append : ∀ (fs gs : List Frame), total (fs ++ gs) = total fs + total gs
  | [], gs => (Int.zero_add _).symm
  | f :: fs, gs => by
    show f.length + total (fs ++ gs) = f.length + total fs + total gs
    rw [total_append fs gs]; omega

/-- A playback. -/
theorem frames_sound (h0 : 0 ≤ factor) (gs : List Frame) : ∀ (fs : List Frame) (q : Pair) (v : Bool → Tape) (T : Int) (K : Nat),
    Bound z factor sinc stereo T K iir v q → (K : Int) = samplesAt factor T → (∀ f ∈ fs, ∀ e ∈ f.events, InFrame e) →
    (∀ f ∈ fs, ∀ e ∈ f.output, AfterFrame format e) → (∀ r, Active stereo r → Timely (fs ++ gs) (v r)) → Served factor T fs →
    XPost (fun _ => True) (fun x => x.1 = (List.range' K ((samplesAt factor (T + total fs)).toNat - K)).flatMap (block format stereo iir
        ((v false).play z factor sinc (mine stereo false) fs).sound.wave ((v true).play z factor sinc (mine stereo true) fs).sound.wave) ∧
      Bound z factor sinc stereo (T + total fs) (samplesAt factor (T + total fs)).toNat iir
        (fun r => (v r).play z factor sinc (mine stereo r) fs) x.2 ∧ (K : Int) ≤ samplesAt factor (T + total fs) ∧
      ∀ r, Active stereo r → Timely gs ((v r).play z factor sinc (mine stereo r) fs)) (produce q (fs.flatMap Frame.history))
  | [], q, v, T, K, h, hK, _, _, ht, _ => by
    have e : T + total [] = T := Int.add_zero T
    rw [e]
    have e2 : (samplesAt factor T).toNat = K := by omega
    rw [e2, Nat.sub_self]
    exact ⟨rfl, h, by omega, ht⟩
  | f :: fs, q, v, T, K, h, hK, h1, h2, ht, hs => by
    obtain ⟨s1, s2, s3⟩ := hs
    have hst := frame_sound h0 h (h1 f (by simp)) (h2 f (by simp)) ht s1 s2
    rw [List.flatMap_cons, produce_append]
    refine XPost.bind hst ?_
    rintro x ⟨x0, x1, x2⟩
    have hT2 : T + total (f :: fs) = T + f.length + total fs := by
      show T + (f.length + total fs) = _
      omega
    rw [hT2]
    have hT : ∀ r, Active stereo r → (v r).frame = T := fun r hr => (h.sides r hr).1
    have hp : ∀ r, Active stereo r → Timely (fs ++ gs) (next z factor sinc (mine stereo r) f (v r)) := by
      intro r hr
      exact (next_past (k := samplesAt factor (v r).now - 1) (mine stereo r) h0 (ht r hr) (by omega)).2.2
    have hrec := frames_sound h0 gs fs x.2 _ (T + f.length) _ x2 (by omega) (fun g hg => h1 g (by simp [hg]))
      (fun g hg => h2 g (by simp [hg])) hp s3
    refine XPost.bind hrec ?_
    rintro y ⟨y1, y2, y3, y4⟩
    refine ⟨?_, y2, by omega, y4⟩
    show x.1 ++ y.1 = _
    have hfirst : x.1 = (List.range' K (samplesAt factor (T + f.length) - samplesAt factor T).toNat).flatMap (block format stereo iir
        ((v false).play z factor sinc (mine stereo false) (f :: fs)).sound.wave ((v true).play z factor sinc (mine stereo true) (f :: fs)).sound.wave) := by
      rw [x1]
      refine flatMap_same _ fun n hn => ?_
      have hn := (List.mem_range'_1.1 hn).2
      refine block_congr (w := fun r => (next z factor sinc (mine stereo r) f (v r)).sound.wave)
        (w' := fun r => ((v r).play z factor sinc (mine stereo r) (f :: fs)).sound.wave) fun r hr k hk => ?_
      refine (play_past (mine stereo r) h0 fs (next z factor sinc (mine stereo r) f (v r)) (hp r hr).left ?_).symm
      have h3 := samplesAt_mono h0 (next_now (z := z) (factor := factor) (sinc := sinc) (mine stereo r) f (v r))
      rw [hT r hr] at h3
      omega
    rw [hfirst, y1]
    show _ ++ List.flatMap (block format stereo iir ((v false).play z factor sinc (mine stereo false) (f :: fs)).sound.wave
      ((v true).play z factor sinc (mine stereo true) (f :: fs)).sound.wave) _ = _
    rw [← List.flatMap_append,
      show (samplesAt factor (T + f.length)).toNat = K + (samplesAt factor (T + f.length) - samplesAt factor T).toNat by omega,
      List.range'_append_1]
    congr 2
    omega

/-- A playback, of the last frame of which any number of samples is taken. -/
theorem frames_heard (h0 : 0 ≤ factor) (fs : List Frame) (q : Pair) (v : Bool → Tape)
    (h : Bound z factor sinc stereo 0 0 iir v q) (h1 : ∀ f ∈ fs, ∀ e ∈ f.events, InFrame e)
    (h2 : ∀ f ∈ fs, ∀ e ∈ f.output, AfterFrame format e) (ht : ∀ r, Active stereo r → Timely fs (v r)) (hs : Served factor 0 fs.dropLast) :
    XPost (fun _ => True) (fun x => x.1 = (List.range (heard factor fs).toNat).flatMap (block format stereo iir
        ((v false).play z factor sinc (mine stereo false) fs).sound.wave ((v true).play z factor sinc (mine stereo true) fs).sound.wave))
      (produce q (fs.flatMap Frame.history)) := by
  rcases List.eq_nil_or_concat fs with rfl | ⟨gs, f, rfl⟩
  · exact rfl
  rw [List.concat_eq_append] at *
  rw [List.dropLast_concat] at hs
  have hz : ((0 : Nat) : Int) = samplesAt factor 0 := by unfold samplesAt; simp
  have hg := frames_sound (format := format) h0 [f] gs q v 0 0 h hz (fun g hg => h1 g (by simp [hg])) (fun g hg => h2 g (by simp [hg])) ht hs
  rw [List.flatMap_append, produce_append]
  refine XPost.bind hg ?_
  rintro x ⟨x1, x2, x3, x4⟩
  rw [Int.zero_add] at x1 x2 x3
  have hf := frame_out (format := format) h0 x2 (h1 f (by simp)) (h2 f (by simp)) x4
  rw [show [f].flatMap Frame.history = f.history by simp]
  refine XPost.bind hf ?_
  rintro y ⟨y0, y1, y2, y3⟩
  show x.1 ++ y.1 = _
  have hl := frame_length (((x4 false fun h => nomatch h).within) f (by simp))
  have hmono := samplesAt_mono h0 (show total gs ≤ total gs + f.length by omega)
  have hh : (heard factor (gs ++ [f])).toNat = (samplesAt factor (total gs)).toNat +
      min (wanted f.output).toNat (samplesAt factor (total gs + f.length) - samplesAt factor (total gs)).toNat := by
    unfold heard
    rw [List.getLast?_concat, List.dropLast_concat, total_append]
    show (min (samplesAt factor (total gs + (f.length + 0))) _).toNat = _
    rw [Int.add_zero]
    omega
  have hp : ∀ r, (v r).play z factor sinc (mine stereo r) (gs ++ [f]) =
      next z factor sinc (mine stereo r) f ((v r).play z factor sinc (mine stereo r) gs) := fun r => play_append _ gs [f] (v r)
  have hx : x.1 = (List.range' 0 (samplesAt factor (total gs)).toNat).flatMap (block format stereo iir
      ((v false).play z factor sinc (mine stereo false) (gs ++ [f])).sound.wave ((v true).play z factor sinc (mine stereo true) (gs ++ [f])).sound.wave) := by
    rw [x1, Nat.sub_zero]
    refine flatMap_same _ fun n hn => ?_
    have hn := (List.mem_range'_1.1 hn).2
    refine block_congr (w := fun r => ((v r).play z factor sinc (mine stereo r) gs).sound.wave)
      (w' := fun r => ((v r).play z factor sinc (mine stereo r) (gs ++ [f])).sound.wave) fun r hr k hk => ?_
    rw [hp]
    refine (next_past (mine stereo r) h0 (x4 r hr) ?_).1.symm
    have := samplesAt_mono h0 (x2.now r hr)
    omega
  rw [hx, y2, hh, List.range_eq_range', ← hp false, ← hp true, ← List.flatMap_append]
  congr 1
  have := List.range'_append_1 (s := 0) (m := (samplesAt factor (total gs)).toNat)
    (n := min (wanted f.output).toNat (samplesAt factor (total gs + f.length) - samplesAt factor (total gs)).toNat)
  rw [Nat.zero_add] at this
  exact this

/-! ### The beginning -/

theorem start_sync {p : Pokey} (rate : Int) (hz : p.sumOut = 0) :
    Sync factor sinc 0 (0 - ((p.initChip rate).muteAll 0).trailing) 0 ((p.initChip rate).muteAll 0) Tape.start.sound := by
  have hb : ∀ k, ((p.initChip rate).muteAll 0).buf k = 0 := by
    intro k
    show (if _ then (0 : Int) else 0) = 0
    split <;> rfl
  have hl : Chip.start.level = 0 := by decide
  have hc : ∀ i, i < 4 → ((p.initChip rate).muteAll 0).ch i = ⟨0, 0, 28, 0, never, 0, 0, 0⟩ := by
    intro i hi
    show (if i < 4 then setMute Channel.fresh (decide (band 0 (shl 1 i) ≠ 0)) muteUser 0 else _) = _
    rw [if_pos hi]
    rcases (by omega : i = 0 ∨ i = 1 ∨ i = 2 ∨ i = 3) with rfl | rfl | rfl | rfl <;> decide
  constructor
  · intro i hi
    rw [hc i hi]
    refine ⟨rfl, ?_, rfl, ?_, rfl, rfl, fun h => (nomatch h), rfl⟩
    · show (0 : Int) ≤ 0 ∧ (0 : Int) < 256; decide
    · show (0 : Int) ≤ 0 ∧ (0 : Int) ≤ 114 * 65536; decide
  · refine ⟨rfl, fun i hi => by rw [hc i hi]; rfl, rfl, fun i hi => ?_, ?_, ?_⟩
    · rw [hc i hi]
      show (28 : Int) = Spec.period 0 0 0 0 0 i
      rcases (by omega : i = 0 ∨ i = 1 ∨ i = 2 ∨ i = 3) with rfl | rfl | rfl | rfl <;> decide
    · show (1 : Int) ≤ 28; decide
    · show (1 : Int) ≤ 28; decide
  · refine ⟨by decide, fun i hi => ?_⟩
    show (0 : Int) ≤ 0 ∧ (0 : Int) < 256; decide
  · intro h; exact absurd h (by decide)
  · intro h; exact absurd h (by decide)
  · rfl
  · decide
  · rfl
  · rfl
  · exact hl.symm
  · show p.sumOut = mix Chip.start.level * 65536
    rw [hz, hl]; decide
  · intro k
    rw [hb]
    show (0 : Int) = 0 + 4 * (mix Chip.start.level - mix Chip.start.level) * _
    rw [Int.sub_self]; simp
  · exact fun k _ => hb k

/-- A pair that has been initialised, with all the channels running. -/
def begun (q : Pair) (ntsc stereo : Bool) (rate : Int) : Pair :=
  { q.initPair ntsc stereo rate with
    base := (q.base.initChip rate).muteAll 0
    extra := (q.extra.initChip rate).muteAll 0 }

theorem begun_bound {q : Pair} {ntsc stereo : Bool} {rate : Int} (hr : 1 ≤ rate) (hz : q.base.sumOut = 0 ∧ q.extra.sumOut = 0) :
    Bound z (begun q ntsc stereo rate).factor q.sinc stereo 0 0 (Int.tdiv (44100 * 6) rate) (fun _ => Tape.start) (begun q ntsc stereo rate) := by
  have one : ∀ p : Pokey, p.sumOut = 0 → Tape.start.frame = 0 ∧ 0 ≤ ((p.initChip rate).muteAll 0).trailing ∧
      Side z (begun q ntsc stereo rate).factor q.sinc (((0 : Nat) : Int) - ((p.initChip rate).muteAll 0).trailing)
        (integral (Int.tdiv (44100 * 6) rate) Tape.start.sound.wave 0) (Int.tdiv (44100 * 6) rate) ((p.initChip rate).muteAll 0) Tape.start := by
    intro p hp
    refine ⟨rfl, ?_, ⟨(start_sync rate hp).lazy, ⟨_, rfl, rfl, rfl⟩, by decide⟩⟩
    show 0 ≤ Int.tdiv (rate * 312 * 114) 1773447 + 32 + 2
    have := Int.tdiv_nonneg (a := rate * 312 * 114) (b := 1773447) (by omega) (by decide)
    omega
  refine ⟨⟨rfl, rfl, rfl, ?_, ?_⟩, ?_, fun _ _ => Int.le_refl _⟩
  · show (0 : Int) + 0 * 2 ^ 18 = 0 * _
    simp
  · show (0 : Int) ≤ 0 ∧ (0 : Int) < 2 ^ 18
    decide
  · intro r _
    cases r
    · exact one q.base hz.1
    · exact one q.extra hz.2

/-- Every sample of a playback. -/
theorem play_sound {q : Pair} {ntsc stereo : Bool} {rate : Int} {fs : List Frame} (hr : 1 ≤ rate) (hz : q.base.sumOut = 0 ∧ q.extra.sumOut = 0)
    (h0 : 0 ≤ (begun q ntsc stereo rate).factor) (h : Orderly (begun q ntsc stereo rate).factor format fs) :
    XPost (fun _ => True) (fun x => x.1 = (List.range (heard (begun q ntsc stereo rate).factor fs).toNat).flatMap
      (block format stereo (Int.tdiv (44100 * 6) rate)
        (Tape.start.play z (begun q ntsc stereo rate).factor q.sinc (mine stereo false) fs).sound.wave
        (Tape.start.play z (begun q ntsc stereo rate).factor q.sinc (mine stereo true) fs).sound.wave))
      (produce (begun q ntsc stereo rate) (fs.flatMap Frame.history)) := by
  have hb : Bound z (begun q ntsc stereo rate).factor q.sinc stereo 0 0 (Int.tdiv (44100 * 6) rate) (fun _ => Tape.start) (begun q ntsc stereo rate) :=
    begun_bound hr hz
  have ht : ∀ r, Active stereo r → Timely fs Tape.start := fun r _ =>
    ⟨h.within, h.order, fun x hx => allStamps_ge fs 0 h.within x hx⟩
  generalize begun q ntsc stereo rate = b at *
  exact frames_heard (format := format) h0 fs b (fun _ => Tape.start) hb h.inFrame h.afterFrame ht h.served

end Asap.Sound
