import Verif.Lemmas.SoundPair
import Verif.Props.Pokey

/-! Playbacks. -/

namespace Asap.Sound
open Asap.Spec Asap.Spec.Sound Asap.Pokey

variable {factor : Int} {sinc : Int → Int → Int} {T S t c : Int} {p : Pokey} {r : Chip}
  {cfg : Cfg} {z : Noise} {s : Sound} {q : Pair} {stereo : Bool} {acc : Bool → Int} {iir : Int} {v : Bool → Tape}

/-! ### The frame -/

theorem event_frame (z : Noise) (m : PairEvent → Bool) (v : Tape) (e : PairEvent) : (v.event z factor sinc m e).frame = v.frame := by
  cases e with
  | write addr data c =>
    show (if m (.write addr data c) then _ else v : Tape).frame = _
    split <;> rfl
  | external side c height =>
    show (if m (.external side c height) then _ else v : Tape).frame = _
    split <;> rfl
  | _ => rfl

theorem event_now (z : Noise) (m : PairEvent → Bool) (v : Tape) (e : PairEvent) :
    (v.event z factor sinc m e).now = v.now ∨ (v.event z factor sinc m e).now ∈ stamps v.frame [e] := by
  cases e with
  | write addr data c =>
    show (if m (.write addr data c) then _ else v : Tape).now = _ ∨ (if m (.write addr data c) then _ else v : Tape).now ∈ _
    split
    · right; simp [stamps]
    · exact Or.inl rfl
  | external side c height =>
    show (if m (.external side c height) then _ else v : Tape).now = _ ∨ _
    left
    split <;> rfl
  | _ => exact Or.inl rfl

theorem stamps_cons (T : Int) (e : PairEvent) (es : List PairEvent) : stamps T (e :: es) = stamps T [e] ++ stamps T es := by
  cases e <;> rfl

/-- The bytes of an event that is not a request for samples. -/
theorem produce_quiet {e : PairEvent} (h : ∀ b f, e ≠ .generate b f) (q : Pair) :
    produceOne q e = (do let r ← stepPair q e; .ok ([], r)) := by
  cases e <;> first | rfl | exact absurd rfl (h _ _)

theorem inFrame_quiet {e : PairEvent} (h : InFrame e) : ∀ b f, e ≠ .generate b f := by
  intro b f he; subst he; exact h

theorem events_sound : ∀ (es : List PairEvent) (q : Pair) (v : Bool → Tape), (∀ e ∈ es, InFrame e) →
    (∀ e ∈ es, e.Within (312 * 114 + 34)) → Desk factor sinc stereo T S q → Sides z factor sinc stereo T S acc iir q v →
    (∀ r, Active stereo r → ∀ x ∈ stamps T es, (v r).now ≤ x) → (stamps T es).Pairwise (· ≤ ·) →
    XPost (fun _ => True) (fun x => x.1 = [] ∧ Desk factor sinc stereo T S x.2 ∧
      Sides z factor sinc stereo T S acc iir x.2 fun r => es.foldl (Tape.event z factor sinc (mine stereo r)) (v r)) (produce q es)
  | [], q, v, _, _, hd, hs, _, _ => ⟨rfl, hd, hs⟩
  | e :: es, q, v, h1, h2, hd, hs, ho, hp => by
    rw [stamps_cons] at ho hp
    show XPost _ _ (produceOne q e >>= fun r => produce r.2 es >>= fun s => .ok (r.1 ++ s.1, s.2))
    rw [produce_quiet (inFrame_quiet (h1 e (by simp)))]
    have hp := List.pairwise_append.1 hp
    refine XPost.bind (P := fun x => x.1 = [] ∧ Desk factor sinc stereo T S x.2 ∧
      Sides z factor sinc stereo T S acc iir x.2 fun r => (v r).event z factor sinc (mine stereo r) e) ?_ ?_
    · refine XPost.bind (inFrame_step (h1 e (by simp)) (h2 e (by simp)) hd hs fun r hr x hx => ho r hr x (by simp [hx])) fun q' hq => ?_
      exact ⟨rfl, hq⟩
    · rintro x ⟨g0, g1, g2⟩
      refine XPost.bind (events_sound es x.2 _ (fun e h => h1 e (by simp [h])) (fun e h => h2 e (by simp [h])) g1 g2 ?_ hp.2.1) ?_
      · intro r hr y hy
        rcases event_now z (mine stereo r) (v r) e (factor := factor) (sinc := sinc) with k | k
        · rw [k]; exact ho r hr y (by simp [hy])
        · rw [(hs r hr).1] at k
          exact hp.2.2 _ k y hy
      · rintro y ⟨e0, e1, e2⟩
        refine ⟨?_, e1, e2⟩
        show x.1 ++ y.1 = []
        rw [g0, e0]; rfl

theorem fold_frame (z : Noise) (m : PairEvent → Bool) : ∀ (es : List PairEvent) (v : Tape),
    (es.foldl (Tape.event z factor sinc m) v).frame = v.frame
  | [], _ => rfl
  | e :: es, v => (fold_frame z m es _).trans (event_frame z m v e)

theorem fold_past (z : Noise) (m : PairEvent → Bool) (h0 : 0 ≤ factor) {k : Int} : ∀ (es : List PairEvent) (v : Tape),
    (∀ x ∈ stamps v.frame es, v.now ≤ x) → (stamps v.frame es).Pairwise (· ≤ ·) → k < samplesAt factor v.now →
    (es.foldl (Tape.event z factor sinc m) v).sound.wave k = v.sound.wave k ∧ v.now ≤ (es.foldl (Tape.event z factor sinc m) v).now ∧
    ((es.foldl (Tape.event z factor sinc m) v).now = v.now ∨ (es.foldl (Tape.event z factor sinc m) v).now ∈ stamps v.frame es)
  | [], v, _, _, _ => ⟨rfl, Int.le_refl _, Or.inl rfl⟩
  | e :: es, v, ho, hp, hk => by
    rw [stamps_cons] at ho hp
    have hp := List.pairwise_append.1 hp
    have h1 := event_past z h0 m (sinc := sinc) hk e fun x hx => ho x (by simp [hx])
    have hf : (v.event z factor sinc m e).frame = v.frame := event_frame z m v e
    have h2 := fold_past z m h0 (k := k) es (v.event z factor sinc m e) (by
      rw [hf]
      intro y hy
      rcases event_now z m v e (factor := factor) (sinc := sinc) with k | k
      · rw [k]; exact ho y (by simp [hy])
      · exact hp.2.2 _ k y hy) (by rw [hf]; exact hp.2.1) (by have := samplesAt_mono h0 h1.2; omega)
    refine ⟨h2.1.trans h1.1, Int.le_trans h1.2 h2.2.1, ?_⟩
    rw [stamps_cons]
    show (es.foldl _ (v.event z factor sinc m e)).now = v.now ∨ (es.foldl _ (v.event z factor sinc m e)).now ∈ _
    rcases h2.2.2 with k2 | k2
    · rw [k2]
      rcases event_now z m v e (factor := factor) (sinc := sinc) with k | k
      · exact Or.inl k
      · right; simp [k]
    · right; rw [hf] at k2; simp [k2]

/-- The frame ends. -/
theorem finish_sound {len : Int} (hl : 0 ≤ len ∧ len < 900000) (h0 : 0 ≤ factor) (hd : Desk factor sinc stereo T S q)
    (hs : Sides z factor sinc stereo T S acc iir q v) :
    XPost (fun _ => True) (fun q' => S = samplesAt factor T ∧ Desk factor sinc stereo (T + len) (samplesAt factor (T + len)) q' ∧
      Sides z factor sinc stereo (T + len) S acc iir q' (fun r => (v r).finish z factor sinc len) ∧
      q'.readyStart = 0 ∧ q'.readyEnd = samplesAt factor (T + len) - S ∧
      ∀ r, Active stereo r → ∀ k, S + k < samplesAt factor (T + len) →
        (chipOf r q').buf k = ((v r).finish z factor sinc len).sound.wave (S + k)) (q.endFrame len) := by
  have ho := hd.offset
  have hr := hd.range
  have p18 : (2 : Int) ^ 18 = 262144 := by decide
  rw [p18] at ho hr
  have hS : S = samplesAt factor T := by
    unfold samplesAt
    rw [p18]; omega
  have hmul : (T + len) * factor = T * factor + len * factor := Int.add_mul _ _ _
  have hS' : samplesAt factor (T + len) = S + (q.offset + len * factor) / 262144 := by
    unfold samplesAt
    rw [p18, hmul]; omega
  have one : ∀ r, Active stereo r → XPost (fun _ => True) (fun p' =>
      (From (T + len) z factor sinc (T + len) S ((v r).finish z factor sinc len).now p' ((v r).finish z factor sinc len).sound) ∧
      ∃ d, Filt (acc r) iir d p') ((chipOf r q).endFrame q.cfg len) := by
    intro r hr
    obtain ⟨hT, hS⟩ := hs r hr
    obtain ⟨d, hf⟩ := hS.filt
    have h1 := hS.lazy.endFrame (cfg := q.cfg) (by rw [hT]; exact hd.origin) hS.late hl.2
    refine (h1.and (filt_endFrame (cfg := q.cfg) hf len)).mono (fun _ _ => trivial) ?_
    rintro p' ⟨g1, g2⟩
    refine ⟨?_, d, g2⟩
    rw [← hT]
    exact g1
  have fin : ∀ r, Active stereo r → ∀ p', From (T + len) z factor sinc (T + len) S ((v r).finish z factor sinc len).now p'
      ((v r).finish z factor sinc len).sound → (∃ d, Filt (acc r) iir d p') →
      (((v r).finish z factor sinc len).frame = T + len ∧ Side z factor sinc S (acc r) iir p' ((v r).finish z factor sinc len)) ∧
      ∀ k, S + k < samplesAt factor (T + len) → p'.buf k = ((v r).finish z factor sinc len).sound.wave (S + k) := by
    intro r hr p' g1 g2
    obtain ⟨hT, hS⟩ := hs r hr
    have hfr : ((v r).finish z factor sinc len).frame = T + len := by
      show (v r).frame + len = _
      rw [hT]
    refine ⟨⟨hfr, ⟨?_, g2, ?_⟩⟩, fun k hk => g1.buf h0 hk⟩
    · rw [hfr]; exact g1.lazy
    · show max (v r).now ((v r).frame + len) - ((v r).frame + len) < 900000
      have := hS.late
      omega
  have tail : ∀ b e, ((From (T + len) z factor sinc (T + len) S ((v false).finish z factor sinc len).now b ((v false).finish z factor sinc len).sound) ∧
      ∃ d, Filt (acc false) iir d b) → (Active stereo true →
      (From (T + len) z factor sinc (T + len) S ((v true).finish z factor sinc len).now e ((v true).finish z factor sinc len).sound) ∧
      ∃ d, Filt (acc true) iir d e) → ∀ q', q' = { q with base := b, extra := e, readyStart := 0, readyEnd := shr (q.offset + len * q.factor) 18, offset := band (q.offset + len * q.factor) ((1 <<< 18) - 1) } →
      (S = samplesAt factor T ∧ Desk factor sinc stereo (T + len) (samplesAt factor (T + len)) q' ∧
      Sides z factor sinc stereo (T + len) S acc iir q' (fun r => (v r).finish z factor sinc len) ∧
      q'.readyStart = 0 ∧ q'.readyEnd = samplesAt factor (T + len) - S ∧
      ∀ r, Active stereo r → ∀ k, S + k < samplesAt factor (T + len) →
        (chipOf r q').buf k = ((v r).finish z factor sinc len).sound.wave (S + k)) := by
    intro b e hb he q' hq
    have hband : band (q.offset + len * factor) ((1 <<< 18) - 1) = (q.offset + len * factor) % 262144 := band_mask 18 _
    refine ⟨hS, ⟨?_, ?_, ?_, ?_, ?_⟩, ?_, ?_, ?_, ?_⟩
    · rw [hq]; exact hd.mask
    · rw [hq]; exact hd.rate
    · rw [hq]; exact hd.table
    · rw [hq]
      show band (q.offset + len * q.factor) ((1 <<< 18) - 1) + _ * 2 ^ 18 = _
      rw [hd.rate, hband, hS', hmul, p18]
      omega
    · rw [hq]
      show 0 ≤ band (q.offset + len * q.factor) ((1 <<< 18) - 1) ∧ band (q.offset + len * q.factor) ((1 <<< 18) - 1) < _
      rw [hd.rate, hband, p18]
      omega
    · intro r hr
      cases r
      · rw [hq]; exact (fin false hr b hb.1 hb.2).1
      · rw [hq]; exact (fin true hr e (he hr).1 (he hr).2).1
    · rw [hq]
    · rw [hq]
      show shr (q.offset + len * q.factor) 18 = _
      rw [hd.rate, hS']
      show (q.offset + len * factor) / 262144 = _
      omega
    · intro r hr
      cases r
      · rw [hq]; exact (fin false hr b hb.1 hb.2).2
      · rw [hq]; exact (fin true hr e (he hr).1 (he hr).2).2
  unfold Pair.endFrame
  refine XPost.bind (one false fun h => nomatch h) fun b hb => ?_
  refine XPost.bind (P := fun e => Active stereo true →
      (From (T + len) z factor sinc (T + len) S ((v true).finish z factor sinc len).now e ((v true).finish z factor sinc len).sound) ∧
      ∃ d, Filt (acc true) iir d e) ?_ fun e he => ?_
  · unfold Pair.endExtra
    refine XPost.ite (fun hm => ?_) fun hm ha => ?_
    · refine (one true fun _ => ?_).mono (fun _ x => x) fun _ x _ => x
      rw [hd.mask] at hm
      cases stereo
      · exact absurd rfl hm
      · rfl
    · rw [hd.mask, ha rfl] at hm
      exact absurd (by decide) hm
  · exact tail b e hb he _ rfl

/-- A frame begins; `acc` is the state of the filter. -/
theorem start_sound (hd : Desk factor sinc stereo T S q)
    (hs : ∀ r, Active stereo r → (v r).frame = T ∧ 0 ≤ (chipOf r q).trailing ∧
      Side z factor sinc (S - (chipOf r q).trailing) (acc r) iir (chipOf r q) (v r)) :
    XPost (fun _ => True) (fun q' => Desk factor sinc stereo T S q' ∧ Sides z factor sinc stereo T S acc iir q' v) q.startFrame := by
  have one : ∀ r, Active stereo r → XPost (fun _ => True) (fun p' => Side z factor sinc S (acc r) iir p' (v r)) (chipOf r q).startFrame := by
    intro r hr
    obtain ⟨-, h1, h2⟩ := hs r hr
    unfold Pokey.startFrame
    refine XPost.ite (fun _ => ?_) fun _ => trivial
    have := h2.lazy.startFrame h1
    rw [show S - (chipOf r q).trailing + (chipOf r q).trailing = S by omega] at this
    exact ⟨this, h2.filt, h2.late⟩
  unfold Pair.startFrame
  refine XPost.bind (one false fun h => nomatch h) fun b hb => ?_
  refine XPost.bind (P := fun e => Active stereo true → Side z factor sinc S (acc true) iir e (v true)) ?_ fun e he => ?_
  · unfold Pair.startExtra
    refine XPost.ite (fun hm => ?_) fun hm ha => ?_
    · refine (one true fun _ => ?_).mono (fun _ x => x) fun _ x _ => x
      rw [hd.mask] at hm
      cases stereo
      · exact absurd rfl hm
      · rfl
    · rw [hd.mask, ha rfl] at hm
      exact absurd (by decide) hm
  · refine ⟨⟨hd.mask, hd.rate, hd.table, hd.offset, hd.range⟩, fun r hr => ⟨(hs r hr).1, ?_⟩⟩
    cases r
    · exact hb
    · exact he hr

end Asap.Sound
