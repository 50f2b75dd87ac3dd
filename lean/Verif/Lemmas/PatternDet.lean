import Verif.Lemmas.Pattern

/-! The songs of the specification are determined, and what the differences between the scans and the players change. -/

namespace Asap.Module.Tracker
open Asap Asap.Module Asap.Spec.Pattern

/-- Reading is determined. -/
def Det (reads : Reader) : Prop := ∀ gap o e e', reads gap o e → reads gap o e' → e = e'

theorem row_det {reads : Reader} (hd : Det reads) {row k : Nat} {vs : Nat → Voice} {t : Nat} {s : Bool} {vs1 vs2 : Nat → Voice} {t1 t2 : Nat} {s1 s2 : Bool}
    (h1 : Row reads row k vs t s vs1 t1 s1) (h2 : Row reads row k vs t s vs2 t2 s2) : vs1 = vs2 ∧ t1 = t2 ∧ s1 = s2 := by
  induction h1 generalizing vs2 t2 s2 with
  | done => cases h2; exact ⟨rfl, rfl, rfl⟩
  | idle hn _ ih =>
    cases h2 with
    | idle _ h => exact ih h
    | event he => exact absurd he hn
  | event he hr _ ih =>
    cases h2 with
    | idle hn => exact absurd he hn
    | event _ hr' h =>
      cases hd _ _ _ _ hr hr'
      exact ih h

theorem rows_det {reads : Reader} (hd : Det reads) {k n row : Nat} {vs : Nat → Voice} {t : Nat} {vs1 vs2 : Nat → Voice} {t1 t2 c1 c2 : Nat}
    (h1 : Rows reads k n row vs t vs1 t1 c1) (h2 : Rows reads k n row vs t vs2 t2 c2) : vs1 = vs2 ∧ t1 = t2 ∧ c1 = c2 := by
  induction h1 generalizing vs2 t2 c2 with
  | all => cases h2; exact ⟨rfl, rfl, rfl⟩
  | stop hr =>
    cases h2 with
    | stop hr' =>
      obtain ⟨rfl, rfl, _⟩ := row_det hd hr hr'
      exact ⟨rfl, rfl, rfl⟩
    | next hr' => cases (row_det hd hr hr').2.2
  | next hr _ ih =>
    cases h2 with
    | stop hr' => cases (row_det hd hr hr').2.2
    | next hr' h =>
      obtain ⟨rfl, rfl, _⟩ := row_det hd hr hr'
      obtain ⟨rfl, rfl, rfl⟩ := ih h
      exact ⟨rfl, rfl, rfl⟩

/-- What a row reads may be read by another reader. -/
theorem row_mono {reads reads' : Reader} (hm : ∀ gap o e, reads gap o e → reads' gap o e) {row k : Nat} {vs : Nat → Voice} {t : Nat} {s : Bool}
    {vs1 : Nat → Voice} {t1 : Nat} {s1 : Bool} (h : Row reads row k vs t s vs1 t1 s1) : Row reads' row k vs t s vs1 t1 s1 := by
  induction h with
  | done => exact .done
  | idle hn _ ih => exact .idle hn ih
  | event he hr _ ih => exact .event he (hm _ _ _ hr) ih

theorem rows_mono {reads reads' : Reader} (hm : ∀ gap o e, reads gap o e → reads' gap o e) {k n row : Nat} {vs : Nat → Voice} {t : Nat}
    {vs1 : Nat → Voice} {t1 c : Nat} (h : Rows reads k n row vs t vs1 t1 c) : Rows reads' k n row vs t vs1 t1 c := by
  induction h with
  | all => exact .all
  | stop hr => exact .stop (row_mono hm hr)
  | next hr _ ih => exact .next (row_mono hm hr) ih

/-! ### TMC -/

theorem tmcReads_inv {m : List Nat} {rest : Option (Nat → Nat)} {gap : Nat} {o : Int} {e : Event} (h : TmcReads m rest gap o e) :
    ∃ b, Has m o b ∧ ((b < 0x40 ∧ e = ⟨o + 2, 1, gap, none, false⟩) ∨
      (b = 0x40 ∧ ∃ j, Has m (o + 1) j ∧ e = ⟨if j < 0x80 then o + 2 else o + 3, 1, gap, Spec.Pattern.tmcTempo j, decide (j % 128 = 0)⟩) ∨
      (0x40 < b ∧ b < 0x80 ∧ ∃ j, Has m (o + 1) j ∧ e = ⟨o + 3, 1, gap, Spec.Pattern.tmcTempo j, decide (j % 128 = 0)⟩) ∨
      (0x80 ≤ b ∧ b < 0xc0 ∧ TmcReads m rest gap (o + 1) e) ∨
      (0xc0 ≤ b ∧ ∃ f, rest = some f ∧ e = ⟨o + 1, f b, gap, none, false⟩)) := by
  cases h with
  | note h1 h2 => exact ⟨_, h1, .inl ⟨h2, rfl⟩⟩
  | command h1 h2 => exact ⟨_, h1, .inr (.inl ⟨rfl, _, h2, rfl⟩)⟩
  | both h1 h2 h3 h4 => exact ⟨_, h1, .inr (.inr (.inl ⟨h2, h3, _, h4, rfl⟩))⟩
  | instrument h1 h2 h3 h4 => exact ⟨_, h1, .inr (.inr (.inr (.inl ⟨h2, h3, h4⟩)))⟩
  | rest h1 h2 h3 => exact ⟨_, h1, .inr (.inr (.inr (.inr ⟨h2, _, h3, rfl⟩)))⟩

theorem tmcReads_det (m : List Nat) (rest : Option (Nat → Nat)) : Det (TmcReads m rest) := by
  intro gap o e e' h h'
  induction h with
  | note h1 h2 =>
    obtain ⟨b, hb, hc⟩ := tmcReads_inv h'
    have := has_fun h1 hb
    rcases hc with ⟨_, hc⟩ | ⟨_, _⟩ | ⟨_, _, _⟩ | ⟨_, _, _⟩ | ⟨_, _⟩ <;> first | omega | exact hc.symm
  | command h1 h2 =>
    obtain ⟨b, hb, hc⟩ := tmcReads_inv h'
    have := has_fun h1 hb
    rcases hc with ⟨_, _⟩ | ⟨_, j', hj, hc⟩ | ⟨_, _, _⟩ | ⟨_, _, _⟩ | ⟨_, _⟩
    case inr.inl => rw [has_fun h2 hj]; exact hc.symm
    all_goals omega
  | both h1 h2 h3 h4 =>
    obtain ⟨b, hb, hc⟩ := tmcReads_inv h'
    have := has_fun h1 hb
    rcases hc with ⟨_, _⟩ | ⟨_, _⟩ | ⟨_, _, j', hj, hc⟩ | ⟨_, _, _⟩ | ⟨_, _⟩
    case inr.inr.inl => rw [has_fun h4 hj]; exact hc.symm
    all_goals omega
  | instrument h1 h2 h3 _ ih =>
    obtain ⟨b, hb, hc⟩ := tmcReads_inv h'
    have := has_fun h1 hb
    rcases hc with ⟨_, _⟩ | ⟨_, _⟩ | ⟨_, _, _⟩ | ⟨_, _, hc⟩ | ⟨_, _⟩
    case inr.inr.inr.inl => exact ih hc
    all_goals omega
  | rest h1 h2 h3 =>
    obtain ⟨b, hb, hc⟩ := tmcReads_inv h'
    have := has_fun h1 hb
    rcases hc with ⟨_, _⟩ | ⟨_, _⟩ | ⟨_, _, _⟩ | ⟨_, _, _⟩ | ⟨_, f, hf, hc⟩
    case inr.inr.inr.inr =>
      subst this
      rw [h3] at hf
      injection hf with hf
      rw [hf]
      exact hc.symm
    all_goals omega

theorem tmcReads_mono {m : List Nat} {rest : Option (Nat → Nat)} {gap : Nat} {o : Int} {e : Event} (h : TmcReads m none gap o e) : TmcReads m rest gap o e := by
  induction h with
  | note h1 h2 => exact .note h1 h2
  | command h1 h2 => exact .command h1 h2
  | both h1 h2 h3 h4 => exact .both h1 h2 h3 h4
  | instrument h1 h2 h3 _ ih => exact .instrument h1 h2 h3 ih
  | rest _ _ h => cases h

theorem tmcPlays_det {m : List Nat} {rest : Option (Nat → Nat)} {l t n n' : Nat} {loop loop' : Bool} (h : TmcPlays m rest l t n loop) (h' : TmcPlays m rest l t n' loop') :
    n = n' ∧ loop = loop' := by
  induction h generalizing n' loop' with
  | over h =>
    cases h' with
    | over => exact ⟨rfl, rfl⟩
    | line h2 => exact absurd h (by omega)
  | line h hr _ ih =>
    cases h' with
    | over h2 => exact absurd h (by omega)
    | line _ hr' h' =>
      obtain ⟨_, rfl, rfl⟩ := rows_det (tmcReads_det m rest) hr hr'
      obtain ⟨rfl, rfl⟩ := ih h'
      exact ⟨rfl, rfl⟩

theorem tmcPlays_mono {m : List Nat} {rest : Option (Nat → Nat)} {l t n : Nat} {loop : Bool} (h : TmcPlays m none l t n loop) : TmcPlays m rest l t n loop := by
  induction h with
  | over h => exact .over h
  | line h hr _ ih => exact .line h (rows_mono (fun _ _ _ => tmcReads_mono) hr) ih

/-! ### TM2 -/

theorem tm2Reads_inv {m : List Nat} {skip : Int} {gap : Nat} {o : Int} {e : Event} (h : Tm2Reads m skip gap o e) :
    ∃ b, Has m o b ∧ ((b = 0 ∧ e = ⟨o + 2, 1, gap, none, false⟩) ∨
      (0 < b ∧ b < 0x40 ∧ ∃ j, Has m (o + 1) j ∧ e = ⟨if j < 0x80 then o + 2 else o + 3, 1, gap, none, false⟩) ∨
      (0x40 ≤ b ∧ b < 0x80 ∧ e = ⟨o + 2, 1, gap, none, false⟩) ∨
      (b = 0x80 ∧ ∃ j, Has m (o + 1) j ∧ e = ⟨o + 2, j + 1, gap, none, false⟩) ∨
      (0x80 < b ∧ b < 0xc0 ∧ e = ⟨o + 1, 1, gap, none, false⟩) ∨
      (0xc0 ≤ b ∧ b < 0xd0 ∧ ∃ e0, Tm2Reads m skip gap (o + 1) e0 ∧ e = ⟨e0.next, e0.wait, e0.gap, some (e0.tempo.getD (b - 0xc0 + 1)), e0.stop⟩) ∨
      (0xd0 ≤ b ∧ b < 0xe0 ∧ e = ⟨o + 2, 1, gap, none, false⟩) ∨
      (0xe0 ≤ b ∧ b < 0xf0 ∧ e = ⟨o + 3, 1, gap, none, false⟩) ∨
      (0xf0 ≤ b ∧ b < 0xff ∧ e = ⟨o + 1, b - 0xf0 + 1, gap, none, false⟩) ∨
      (b = 0xff ∧ e = ⟨o + skip, 65, gap, none, false⟩)) := by
  cases h with
  | volume h1 => exact ⟨_, h1, .inl ⟨rfl, rfl⟩⟩
  | note h1 h2 h3 h4 => exact ⟨_, h1, .inr (.inl ⟨h2, h3, _, h4, rfl⟩)⟩
  | noteVolume h1 h2 h3 => exact ⟨_, h1, .inr (.inr (.inl ⟨h2, h3, rfl⟩))⟩
  | spaces h1 h2 => exact ⟨_, h1, .inr (.inr (.inr (.inl ⟨rfl, _, h2, rfl⟩)))⟩
  | pitch h1 h2 h3 => exact ⟨_, h1, .inr (.inr (.inr (.inr (.inl ⟨h2, h3, rfl⟩))))⟩
  | tempo h1 h2 h3 h4 => exact ⟨_, h1, .inr (.inr (.inr (.inr (.inr (.inl ⟨h2, h3, _, h4, rfl⟩)))))⟩
  | special h1 h2 h3 => exact ⟨_, h1, .inr (.inr (.inr (.inr (.inr (.inr (.inl ⟨h2, h3, rfl⟩))))))⟩
  | specialVolume h1 h2 h3 => exact ⟨_, h1, .inr (.inr (.inr (.inr (.inr (.inr (.inr (.inl ⟨h2, h3, rfl⟩)))))))⟩
  | few h1 h2 h3 => exact ⟨_, h1, .inr (.inr (.inr (.inr (.inr (.inr (.inr (.inr (.inl ⟨h2, h3, rfl⟩))))))))⟩
  | rest h1 => exact ⟨_, h1, .inr (.inr (.inr (.inr (.inr (.inr (.inr (.inr (.inr ⟨rfl, rfl⟩))))))))⟩

theorem tm2Reads_det (m : List Nat) (skip : Int) : Det (Tm2Reads m skip) := by
  intro gap o e e' h h'
  induction h generalizing e' with
  | volume h1 =>
    obtain ⟨b, hb, hc⟩ := tm2Reads_inv h'
    have := has_fun h1 hb
    rcases hc with ⟨_, hc⟩ | ⟨_, _, _⟩ | ⟨_, _, _⟩ | ⟨_, _⟩ | ⟨_, _, _⟩ | ⟨_, _, _⟩ | ⟨_, _, _⟩ | ⟨_, _, _⟩ | ⟨_, _, _⟩ | ⟨_, _⟩ <;> first | omega | exact hc.symm
  | note h1 h2 h3 h4 =>
    obtain ⟨b, hb, hc⟩ := tm2Reads_inv h'
    have := has_fun h1 hb
    rcases hc with ⟨_, _⟩ | ⟨_, _, j, hj, hc⟩ | ⟨_, _, _⟩ | ⟨_, _⟩ | ⟨_, _, _⟩ | ⟨_, _, _⟩ | ⟨_, _, _⟩ | ⟨_, _, _⟩ | ⟨_, _, _⟩ | ⟨_, _⟩ <;>
      first | omega | (rw [has_fun h4 hj]; exact hc.symm)
  | noteVolume h1 h2 h3 =>
    obtain ⟨b, hb, hc⟩ := tm2Reads_inv h'
    have := has_fun h1 hb
    rcases hc with ⟨_, _⟩ | ⟨_, _, _⟩ | ⟨_, _, hc⟩ | ⟨_, _⟩ | ⟨_, _, _⟩ | ⟨_, _, _⟩ | ⟨_, _, _⟩ | ⟨_, _, _⟩ | ⟨_, _, _⟩ | ⟨_, _⟩ <;> first | omega | exact hc.symm
  | spaces h1 h2 =>
    obtain ⟨b, hb, hc⟩ := tm2Reads_inv h'
    have := has_fun h1 hb
    rcases hc with ⟨_, _⟩ | ⟨_, _, _⟩ | ⟨_, _, _⟩ | ⟨_, j, hj, hc⟩ | ⟨_, _, _⟩ | ⟨_, _, _⟩ | ⟨_, _, _⟩ | ⟨_, _, _⟩ | ⟨_, _, _⟩ | ⟨_, _⟩ <;>
      first | omega | (rw [has_fun h2 hj]; exact hc.symm)
  | pitch h1 h2 h3 =>
    obtain ⟨b, hb, hc⟩ := tm2Reads_inv h'
    have := has_fun h1 hb
    rcases hc with ⟨_, _⟩ | ⟨_, _, _⟩ | ⟨_, _, _⟩ | ⟨_, _⟩ | ⟨_, _, hc⟩ | ⟨_, _, _⟩ | ⟨_, _, _⟩ | ⟨_, _, _⟩ | ⟨_, _, _⟩ | ⟨_, _⟩ <;> first | omega | exact hc.symm
  | tempo h1 h2 h3 h4 ih =>
    obtain ⟨b, hb, hc⟩ := tm2Reads_inv h'
    have := has_fun h1 hb
    rcases hc with ⟨_, _⟩ | ⟨_, _, _⟩ | ⟨_, _, _⟩ | ⟨_, _⟩ | ⟨_, _, _⟩ | ⟨_, _, e0, he, hc⟩ | ⟨_, _, _⟩ | ⟨_, _, _⟩ | ⟨_, _, _⟩ | ⟨_, _⟩ <;>
      first | omega | (rw [hc, ih _ he, this])
  | special h1 h2 h3 =>
    obtain ⟨b, hb, hc⟩ := tm2Reads_inv h'
    have := has_fun h1 hb
    rcases hc with ⟨_, _⟩ | ⟨_, _, _⟩ | ⟨_, _, _⟩ | ⟨_, _⟩ | ⟨_, _, _⟩ | ⟨_, _, _⟩ | ⟨_, _, hc⟩ | ⟨_, _, _⟩ | ⟨_, _, _⟩ | ⟨_, _⟩ <;> first | omega | exact hc.symm
  | specialVolume h1 h2 h3 =>
    obtain ⟨b, hb, hc⟩ := tm2Reads_inv h'
    have := has_fun h1 hb
    rcases hc with ⟨_, _⟩ | ⟨_, _, _⟩ | ⟨_, _, _⟩ | ⟨_, _⟩ | ⟨_, _, _⟩ | ⟨_, _, _⟩ | ⟨_, _, _⟩ | ⟨_, _, hc⟩ | ⟨_, _, _⟩ | ⟨_, _⟩ <;> first | omega | exact hc.symm
  | few h1 h2 h3 =>
    obtain ⟨b, hb, hc⟩ := tm2Reads_inv h'
    have := has_fun h1 hb
    rcases hc with ⟨_, _⟩ | ⟨_, _, _⟩ | ⟨_, _, _⟩ | ⟨_, _⟩ | ⟨_, _, _⟩ | ⟨_, _, _⟩ | ⟨_, _, _⟩ | ⟨_, _, _⟩ | ⟨_, _, hc⟩ | ⟨_, _⟩ <;> first | omega | (rw [this]; exact hc.symm)
  | rest h1 =>
    obtain ⟨b, hb, hc⟩ := tm2Reads_inv h'
    have := has_fun h1 hb
    rcases hc with ⟨_, _⟩ | ⟨_, _, _⟩ | ⟨_, _, _⟩ | ⟨_, _⟩ | ⟨_, _, _⟩ | ⟨_, _, _⟩ | ⟨_, _, _⟩ | ⟨_, _, _⟩ | ⟨_, _, _⟩ | ⟨_, hc⟩ <;> first | omega | exact hc.symm

theorem tm2Plays_det {m : List Nat} {skip : Int} {l t n n' : Nat} {loop loop' : Bool} (h : Tm2Plays m skip l t n loop) (h' : Tm2Plays m skip l t n' loop') :
    n = n' ∧ loop = loop' := by
  induction h generalizing n' loop' with
  | over h =>
    cases h' with
    | over => exact ⟨rfl, rfl⟩
    | jump h2 => exact absurd h (by omega)
    | line h2 => exact absurd h (by omega)
  | jump h =>
    cases h' with
    | over h2 => exact absurd h (by omega)
    | jump h2 => exact ⟨rfl, rfl⟩
    | line _ h2 => exact absurd h (by omega)
  | line h1 h2 hr _ ih =>
    cases h' with
    | over h => exact absurd h (by omega)
    | jump h => exact absurd h (by omega)
    | line _ _ hr' h' =>
      obtain ⟨_, rfl, rfl⟩ := rows_det (tm2Reads_det m skip) hr hr'
      obtain ⟨rfl, rfl⟩ := ih h'
      exact ⟨rfl, rfl⟩

/-- Events that differ only in where the next one is, if that is far away. -/
structure Far (e e' : Event) : Prop where
  wait : e.wait = e'.wait
  gap : e.gap = e'.gap
  tempo : e.tempo = e'.tempo
  stop : e.stop = e'.stop
  next : e.next = e'.next ∨ 65 ≤ e.wait

theorem far_refl (e : Event) : Far e e := ⟨rfl, rfl, rfl, rfl, .inl rfl⟩

theorem tm2Reads_far {m : List Nat} {skip skip' : Int} {gap : Nat} {o : Int} {e : Event} (h : Tm2Reads m skip gap o e) : ∃ e', Tm2Reads m skip' gap o e' ∧ Far e e' := by
  induction h with
  | volume h1 => exact ⟨_, .volume h1, far_refl _⟩
  | note h1 h2 h3 h4 => exact ⟨_, .note h1 h2 h3 h4, far_refl _⟩
  | noteVolume h1 h2 h3 => exact ⟨_, .noteVolume h1 h2 h3, far_refl _⟩
  | spaces h1 h2 => exact ⟨_, .spaces h1 h2, far_refl _⟩
  | pitch h1 h2 h3 => exact ⟨_, .pitch h1 h2 h3, far_refl _⟩
  | tempo h1 h2 h3 _ ih =>
    obtain ⟨e', h4, h5⟩ := ih
    exact ⟨_, .tempo h1 h2 h3 h4, h5.wait, h5.gap, by rw [h5.tempo], h5.stop, h5.next⟩
  | special h1 h2 h3 => exact ⟨_, .special h1 h2 h3, far_refl _⟩
  | specialVolume h1 h2 h3 => exact ⟨_, .specialVolume h1 h2 h3, far_refl _⟩
  | few h1 h2 h3 => exact ⟨_, .few h1 h2 h3, far_refl _⟩
  | rest h1 => exact ⟨_, .rest h1, rfl, rfl, rfl, rfl, .inr (Nat.le_refl _)⟩

/-- Voices that differ only in where an event far away is. -/
def FarVoice (v v' : Voice) : Prop := v.due = v'.due ∧ v.gap = v'.gap ∧ (v.off = v'.off ∨ ∀ d, v.due = some d → 65 ≤ d)

theorem row_far {m : List Nat} {skip skip' : Int} {row k : Nat} (hrow : row < 65) {vs vs' : Nat → Voice} {t : Nat} {s : Bool} {vs1 : Nat → Voice} {t1 : Nat} {s1 : Bool}
    (h : Row (Tm2Reads m skip) row k vs t s vs1 t1 s1) (hv : ∀ ch, FarVoice (vs ch) (vs' ch)) :
    ∃ vs2, Row (Tm2Reads m skip') row k vs' t s vs2 t1 s1 ∧ ∀ ch, FarVoice (vs1 ch) (vs2 ch) := by
  induction h generalizing vs' with
  | done => exact ⟨vs', .done, hv⟩
  | @idle k vs _ _ _ _ _ hn _ ih =>
    obtain ⟨vs2, h1, h2⟩ := ih hv
    exact ⟨vs2, .idle (by rw [← (hv k).1]; exact hn) h1, h2⟩
  | @event k vs _ _ e _ _ _ he hr _ ih =>
    obtain ⟨v1, v2, v3⟩ := hv k
    obtain ⟨e', hr', hf⟩ := tm2Reads_far (skip' := skip') hr
    have ho : (vs k).off = (vs' k).off := by
      rcases v3 with v3 | v3
      · exact v3
      · have := v3 _ he
        omega
    obtain ⟨vs2, h1, h2⟩ := ih (vs' := set vs' k ⟨some (row + e'.wait), e'.next, e'.gap⟩) fun ch => by
      by_cases hch : ch = k
      · subst hch
        rw [show set vs ch _ ch = _ from if_pos rfl, show set vs' ch _ ch = _ from if_pos rfl]
        refine ⟨?_, hf.gap, ?_⟩
        · show some _ = some _
          rw [hf.wait]
        · rcases hf.next with h | h
          · exact .inl h
          · refine .inr fun d hd => ?_
            injection hd with hd
            omega
      · rw [show set vs k _ ch = vs ch from if_neg hch, show set vs' k _ ch = vs' ch from if_neg hch]
        exact hv ch
    refine ⟨vs2, .event (e := e') (by rw [← v1]; exact he) (by rw [← v2, ← ho]; exact hr') ?_, h2⟩
    rw [← hf.tempo, ← hf.stop]
    exact h1

theorem rows_far {m : List Nat} {skip skip' : Int} {k n row : Nat} {vs vs' : Nat → Voice} {t : Nat} {vs1 : Nat → Voice} {t1 c : Nat}
    (h : Rows (Tm2Reads m skip) k n row vs t vs1 t1 c) (hn : row + n ≤ 65) (hv : ∀ ch, FarVoice (vs ch) (vs' ch)) :
    ∃ vs2, Rows (Tm2Reads m skip') k n row vs' t vs2 t1 c := by
  induction h generalizing vs' with
  | all => exact ⟨vs', .all⟩
  | stop hr =>
    obtain ⟨vs2, h1, _⟩ := row_far (by omega) hr hv
    exact ⟨vs2, .stop h1⟩
  | next hr _ ih =>
    obtain ⟨vs2, h1, h2⟩ := row_far (by omega) hr hv
    obtain ⟨vs3, h3⟩ := ih (by omega) h2
    exact ⟨vs3, .next h1 h3⟩

theorem tm2Plays_far {m : List Nat} {skip skip' : Int} (hm : ∀ l, tm2Rows m l ≤ 65 ∨ 0x80 ≤ tm2Rows m l) {l t n : Nat} {loop : Bool}
    (h : Tm2Plays m skip l t n loop) : Tm2Plays m skip' l t n loop := by
  induction h with
  | over h => exact .over h
  | jump h => exact .jump h
  | @line l _ _ _ _ _ _ h1 h2 hr _ ih =>
    obtain ⟨vs2, h⟩ := rows_far (skip' := skip') hr (by have := hm l; omega) fun ch => ⟨rfl, rfl, .inl rfl⟩
    exact .line h1 h2 h ih

end Asap.Module.Tracker
