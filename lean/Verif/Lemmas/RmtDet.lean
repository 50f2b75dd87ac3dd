import Verif.Lemmas.RmtSong

/-! The songs of RMT are determined, and what both ASAP and the player can read is read by each of them. -/

namespace Asap.Module.Tracker
open Asap Asap.Module
open Asap.Spec.Pattern (Has byte offset address visit)
open Asap.Spec.Rmt (Reading Reads Event Track Row Rows Plays PlaysFrom Tune Tunes Enters Begins Jumps Kept noTracks zeroPause zeroTempo)

theorem rmtReads_inv {m : List Nat} {rd : Reading} {start o : Int} {t t' : Nat} {e : Option Event} (h : Reads m rd start o t e t') :
    ∃ b, Has m o b ∧ ((b % 64 < 61 ∧ (∃ j, Has m (o + 1) j ∧ e = some ⟨o + 2, 1, some (j / 4), some (b / 64 + 4 * (j % 4))⟩) ∧ t' = t) ∨
      (b % 64 = 61 ∧ (∃ j, Has m (o + 1) j ∧ e = some ⟨o + 2, 1, none, some (b / 64 + 4 * (j % 4))⟩) ∧ t' = t) ∨
      (b = 62 ∧ ∃ j, Has m (o + 1) j ∧ t' = t ∧ ((0 < j ∧ e = some ⟨o + 2, j, none, none⟩) ∨ (j = 0 ∧ ∃ w, zeroPause rd = some w ∧ e = some ⟨o + 2, w, none, none⟩))) ∨
      (b % 64 = 62 ∧ 64 ≤ b ∧ e = some ⟨o + 1, b / 64, none, none⟩ ∧ t' = t) ∨
      ((b = 63 ∨ b = 127) ∧ ∃ j, Has m (o + 1) j ∧ ((0 < j ∧ Reads m rd start (o + 2) j e t') ∨ (j = 0 ∧ ∃ w, zeroTempo rd = some w ∧ Reads m rd start (o + 2) w e t'))) ∨
      (b = 0xbf ∧ ∃ j : Nat, Has m (o + 1) j ∧ Reads m rd start (start + j) t e t') ∨ (b = 0xff ∧ e = none ∧ t' = t)) := by
  cases h with
  | note h1 h2 h3 => exact ⟨_, h1, .inl ⟨h2, ⟨_, h3, rfl⟩, rfl⟩⟩
  | volume h1 h2 h3 => exact ⟨_, h1, .inr (.inl ⟨h2, ⟨_, h3, rfl⟩, rfl⟩)⟩
  | long h1 h2 h3 => exact ⟨_, h1, .inr (.inr (.inl ⟨rfl, _, h2, rfl, .inl ⟨h3, rfl⟩⟩))⟩
  | zero h1 h2 h3 => exact ⟨_, h1, .inr (.inr (.inl ⟨rfl, _, h2, rfl, .inr ⟨rfl, _, h3, rfl⟩⟩))⟩
  | pause h1 h2 h3 => exact ⟨_, h1, .inr (.inr (.inr (.inl ⟨h2, h3, rfl, rfl⟩)))⟩
  | tempo h1 h2 h3 h4 h5 => exact ⟨_, h1, .inr (.inr (.inr (.inr (.inl ⟨h2, _, h3, .inl ⟨h4, h5⟩⟩))))⟩
  | fast h1 h2 h3 h4 h5 => exact ⟨_, h1, .inr (.inr (.inr (.inr (.inl ⟨h2, _, h3, .inr ⟨rfl, _, h4, h5⟩⟩))))⟩
  | jump h1 h2 h3 => exact ⟨_, h1, .inr (.inr (.inr (.inr (.inr (.inl ⟨rfl, _, h2, h3⟩)))))⟩
  | stop h1 => exact ⟨_, h1, .inr (.inr (.inr (.inr (.inr (.inr ⟨rfl, rfl, rfl⟩)))))⟩

theorem rmtReads_det {m : List Nat} {rd : Reading} {start o : Int} {t t1 t2 : Nat} {e1 e2 : Option Event} (h1 : Reads m rd start o t e1 t1) (h2 : Reads m rd start o t e2 t2) :
    e1 = e2 ∧ t1 = t2 := by
  induction h1 generalizing e2 t2 with
  | note h1 h2' h3 =>
    obtain ⟨b, hb, hc⟩ := rmtReads_inv h2
    cases has_fun h1 hb
    rcases hc with ⟨_, ⟨j, hj, hc⟩, ht⟩ | ⟨_, _⟩ | ⟨_, _⟩ | ⟨_, _, _⟩ | ⟨_, _⟩ | ⟨_, _⟩ | ⟨_, _⟩ <;> try omega
    cases has_fun h3 hj
    exact ⟨hc.symm, ht.symm⟩
  | volume h1 h2' h3 =>
    obtain ⟨b, hb, hc⟩ := rmtReads_inv h2
    cases has_fun h1 hb
    rcases hc with ⟨_, _⟩ | ⟨_, ⟨j, hj, hc⟩, ht⟩ | ⟨_, _⟩ | ⟨_, _, _⟩ | ⟨_, _⟩ | ⟨_, _⟩ | ⟨_, _⟩ <;> try omega
    cases has_fun h3 hj
    exact ⟨hc.symm, ht.symm⟩
  | long h1 h2' h3 =>
    obtain ⟨b, hb, hc⟩ := rmtReads_inv h2
    cases has_fun h1 hb
    rcases hc with ⟨_, _⟩ | ⟨_, _⟩ | ⟨_, j, hj, ht, hc⟩ | ⟨_, _, _⟩ | ⟨_, _⟩ | ⟨_, _⟩ | ⟨_, _⟩ <;> try omega
    cases has_fun h2' hj
    rcases hc with ⟨_, hc⟩ | ⟨_, _⟩
    · exact ⟨hc.symm, ht.symm⟩
    · omega
  | zero h1 h2' h3 =>
    obtain ⟨b, hb, hc⟩ := rmtReads_inv h2
    cases has_fun h1 hb
    rcases hc with ⟨_, _⟩ | ⟨_, _⟩ | ⟨_, j, hj, ht, hc⟩ | ⟨_, _, _⟩ | ⟨_, _⟩ | ⟨_, _⟩ | ⟨_, _⟩ <;> try omega
    cases has_fun h2' hj
    rcases hc with ⟨_, hc⟩ | ⟨_, w, hw, hc⟩
    · omega
    · rw [h3] at hw
      injection hw with hw
      rw [hw]
      exact ⟨hc.symm, ht.symm⟩
  | pause h1 h2' h3 =>
    obtain ⟨b, hb, hc⟩ := rmtReads_inv h2
    cases has_fun h1 hb
    rcases hc with ⟨_, _⟩ | ⟨_, _⟩ | ⟨_, _⟩ | ⟨_, _, hc, ht⟩ | ⟨_, _⟩ | ⟨_, _⟩ | ⟨_, _⟩ <;> first | omega | exact ⟨hc.symm, ht.symm⟩
  | tempo h1 h2' h3 h4 _ ih =>
    obtain ⟨b, hb, hc⟩ := rmtReads_inv h2
    cases has_fun h1 hb
    rcases hc with ⟨_, _⟩ | ⟨_, _⟩ | ⟨_, _⟩ | ⟨_, _, _⟩ | ⟨_, j, hj, hc⟩ | ⟨_, _⟩ | ⟨_, _⟩ <;> try omega
    cases has_fun h3 hj
    rcases hc with ⟨_, hc⟩ | ⟨_, _⟩
    · exact ih hc
    · omega
  | fast h1 h2' h3 h4 _ ih =>
    obtain ⟨b, hb, hc⟩ := rmtReads_inv h2
    cases has_fun h1 hb
    rcases hc with ⟨_, _⟩ | ⟨_, _⟩ | ⟨_, _⟩ | ⟨_, _, _⟩ | ⟨_, j, hj, hc⟩ | ⟨_, _⟩ | ⟨_, _⟩ <;> try omega
    cases has_fun h3 hj
    rcases hc with ⟨_, hc⟩ | ⟨_, w, hw, hc⟩
    · omega
    · rw [h4] at hw
      injection hw with hw
      rw [← hw] at hc
      exact ih hc
  | jump h1 h2' _ ih =>
    obtain ⟨b, hb, hc⟩ := rmtReads_inv h2
    cases has_fun h1 hb
    rcases hc with ⟨_, _⟩ | ⟨_, _⟩ | ⟨_, _⟩ | ⟨_, _, _⟩ | ⟨_, _⟩ | ⟨_, j, hj, hc⟩ | ⟨_, _⟩ <;> try omega
    cases has_fun h2' hj
    exact ih hc
  | stop h1 =>
    obtain ⟨b, hb, hc⟩ := rmtReads_inv h2
    cases has_fun h1 hb
    rcases hc with ⟨_, _⟩ | ⟨_, _⟩ | ⟨_, _⟩ | ⟨_, _, _⟩ | ⟨_, _⟩ | ⟨_, _⟩ | ⟨_, hc, ht⟩ <;> first | omega | exact ⟨hc.symm, ht.symm⟩

theorem rmtRow_det {m : List Nat} {rd : Reading} {f row k ch : Nat} {vs vs1 vs2 : Nat → Track} {t t1 t2 : Nat} {s1 s2 : Bool}
    (h1 : Row m rd f row k ch vs t vs1 t1 s1) (h2 : Row m rd f row k ch vs t vs2 t2 s2) : vs1 = vs2 ∧ t1 = t2 ∧ s1 = s2 := by
  induction h1 generalizing vs2 t2 s2 with
  | done => cases h2; exact ⟨rfl, rfl, rfl⟩
  | idle hn _ ih =>
    cases h2 with
    | idle _ h => exact ih h
    | event he => exact absurd he hn
    | stop he => exact absurd he hn
  | event he hr _ ih =>
    cases h2 with
    | idle hn => exact absurd he hn
    | event _ hr' h =>
      obtain ⟨e, rfl⟩ := rmtReads_det hr hr'
      cases e
      exact ih h
    | stop _ hr' => cases (rmtReads_det hr hr').1
  | stop he hr =>
    cases h2 with
    | idle hn => exact absurd he hn
    | event _ hr' => cases (rmtReads_det hr hr').1
    | stop _ hr' => exact ⟨rfl, (rmtReads_det hr hr').2, rfl⟩

theorem kept_det {rd : Reading} {t t1 a b : Nat} (h1 : Kept rd t t1 a) (h2 : Kept rd t t1 b) : a = b := by
  by_cases h : rd = .player
  · subst h
    exact (h1.2 (by decide)).trans (h2.2 (by decide)).symm
  · exact (h1.1 h).trans (h2.1 h).symm

theorem rmtRows_det {m : List Nat} {rd : Reading} {n k row : Nat} {vs vs1 vs2 : Nat → Track} {t f t1 t2 f1 f2 : Nat}
    (h1 : Rows m rd n k row vs t f vs1 t1 f1) (h2 : Rows m rd n k row vs t f vs2 t2 f2) : vs1 = vs2 ∧ t1 = t2 ∧ f1 = f2 := by
  induction h1 generalizing vs2 t2 f2 with
  | all => cases h2; exact ⟨rfl, rfl, rfl⟩
  | stop hr hk =>
    cases h2 with
    | stop hr' hk' =>
      obtain ⟨rfl, rfl, _⟩ := rmtRow_det hr hr'
      exact ⟨rfl, kept_det hk hk', rfl⟩
    | next hr' => cases (rmtRow_det hr hr').2.2
  | next hr _ ih =>
    cases h2 with
    | stop hr' => cases (rmtRow_det hr hr').2.2
    | next hr' h =>
      obtain ⟨rfl, rfl, _⟩ := rmtRow_det hr hr'
      exact ih h

theorem begins_det {m : List Nat} {p : Nat} {a b : Int} (h1 : Begins m p a) (h2 : Begins m p b) : a = b := by
  obtain ⟨lo, hi, h3, h4, h5⟩ := h1
  obtain ⟨lo', hi', h6, h7, h8⟩ := h2
  rw [h5, h8, has_fun h3 h6, has_fun h4 h7]

theorem enters_det {m : List Nat} {rd : Reading} {n l ch : Nat} {v a b : Track} (h1 : Enters m rd n l ch v a) (h2 : Enters m rd n l ch v b) : a = b := by
  rcases h1 with ⟨h1, h3⟩ | ⟨p, o, h1, h3, _, h4, _, h5⟩
  · rcases h2 with ⟨_, h2⟩ | ⟨q, o, h2, h6, _⟩
    · rw [h3, h2]
    · exact absurd (has_fun h2 h1) h6
  · rcases h2 with ⟨h2, _⟩ | ⟨q, o', h2, _, _, h6, _, h7⟩
    · exact absurd (has_fun h1 h2) h3
    · cases has_fun h1 h2
      rw [h5, h7, begins_det h4 h6]

theorem jumps_det {m : List Nat} {rd : Reading} {n l a b : Nat} (hn : 0 < n) (h1 : Jumps m rd n l a) (h2 : Jumps m rd n l b) : a = b := by
  by_cases h : rd = .player
  · subst h
    obtain ⟨lo, hi, h3, h4, h5⟩ := h1.2 (by decide)
    obtain ⟨lo', hi', h6, h7, h8⟩ := h2.2 (by decide)
    rw [has_fun h3 h6, has_fun h4 h7, h8] at h5
    have : (b * n : Int) = a * n := by omega
    have h' : b * n = a * n := by exact_mod_cast this
    exact (Nat.eq_of_mul_eq_mul_right hn h').symm
  · exact has_fun (h1.1 h) (h2.1 h)

theorem rmtPlays_det {m : List Nat} {rd : Reading} {n : Nat} (hn : 0 < n) {len : Int} {seen fresh : Nat → Bool} {l : Nat} {vs : Nat → Track} {t f : Nat} {ok1 ok2 : Bool} {f1 f2 : Nat}
    {loop1 loop2 : Bool} {seen1 seen2 : Nat → Bool} {vs1 vs2 : Nat → Track} (h1 : Plays m rd n len seen fresh l vs t f ok1 f1 loop1 seen1 vs1)
    (h2 : Plays m rd n len seen fresh l vs t f ok2 f2 loop2 seen2 vs2) : ok1 = ok2 ∧ f1 = f2 ∧ loop1 = loop2 ∧ seen1 = seen2 ∧ vs1 = vs2 := by
  induction h1 generalizing ok2 f2 loop2 seen2 vs2 with
  | over h =>
    cases h2 with
    | over => exact ⟨rfl, rfl, rfl, rfl, rfl⟩
    | again h' => omega
    | jump h' => omega
    | broken h' => omega
    | line h' => omega
  | again h hs =>
    cases h2 with
    | over => omega
    | again h' => exact ⟨rfl, rfl, rfl, rfl, rfl⟩
    | jump h' hs' => rw [hs] at hs'; cases hs'
    | broken h' hs' => rw [hs] at hs'; cases hs'
    | line h' hs' => rw [hs] at hs'; cases hs'
  | jump h hs hj ht _ ih =>
    cases h2 with
    | over => omega
    | again h' hs' => rw [hs] at hs'; cases hs'
    | jump h' hs' hj' ht' h2 =>
      cases jumps_det hn ht ht'
      exact ih h2
    | broken h' hs' hj' => exact absurd hj hj'
    | line h' hs' hj' => exact absurd hj hj'
  | broken h hs hj hch he hp hB ho =>
    cases h2 with
    | over => omega
    | again h' hs' => rw [hs] at hs'; cases hs'
    | jump h' hs' hj' => exact absurd hj' hj
    | broken => exact ⟨rfl, rfl, rfl, rfl, rfl⟩
    | line _ _ _ hl =>
      rcases hl _ hch with ⟨h', _⟩ | ⟨q, o', h', _, _, hB', ho', _⟩
      · exact absurd (has_fun he h') hp
      · cases has_fun he h'
        have := begins_det hB hB'
        omega
  | line h hs hj hl hw hr _ ih =>
    cases h2 with
    | over => omega
    | again h' hs' => rw [hs] at hs'; cases hs'
    | jump h' hs' hj' => exact absurd hj' hj
    | broken _ _ _ hch he hp hB ho =>
      rcases hl _ hch with ⟨h', _⟩ | ⟨q, o', h', _, _, hB', ho', _⟩
      · exact absurd (has_fun he h') hp
      · cases has_fun he h'
        have := begins_det hB hB'
        omega
    | @line _ _ _ _ _ _ vs0 _ _ _ _ _ _ _ _ _ _ _ hl' hw' hr' h2 =>
      have hv : vs0 = _ := funext fun ch => by
        by_cases hch : ch < n
        · exact (enters_det (hl' ch hch) (hl ch hch))
        · exact (hw' ch (by omega)).trans (hw ch (by omega)).symm
      rw [hv] at hr'
      obtain ⟨rfl, rfl, rfl⟩ := rmtRows_det hr hr'
      exact ih h2

/-! ### What both read -/

theorem rmtReads_common {m : List Nat} {rd : Reading} {start o : Int} {t t' : Nat} {e : Option Event} (h : Reads m .common start o t e t') : Reads m rd start o t e t' := by
  induction h with
  | note h1 h2 h3 => exact .note h1 h2 h3
  | volume h1 h2 h3 => exact .volume h1 h2 h3
  | long h1 h2 h3 => exact .long h1 h2 h3
  | zero _ _ h => cases h
  | pause h1 h2 h3 => exact .pause h1 h2 h3
  | tempo h1 h2 h3 h4 _ ih => exact .tempo h1 h2 h3 h4 ih
  | fast _ _ _ h => cases h
  | jump h1 h2 _ ih => exact .jump h1 h2 ih
  | stop h1 => exact .stop h1

theorem rmtRow_common {m : List Nat} {rd : Reading} {f row k ch : Nat} {vs vs1 : Nat → Track} {t t1 : Nat} {s1 : Bool}
    (h : Row m .common f row k ch vs t vs1 t1 s1) : Row m rd f row k ch vs t vs1 t1 s1 := by
  induction h with
  | done => exact .done
  | idle hn _ ih => exact .idle hn ih
  | event he hr _ ih => exact .event he (rmtReads_common hr) ih
  | stop he hr => exact .stop he (rmtReads_common hr)

theorem rmtRows_common {m : List Nat} {rd : Reading} {n k row : Nat} {vs vs1 : Nat → Track} {t f t1 f1 : Nat}
    (h : Rows m .common n k row vs t f vs1 t1 f1) : Rows m rd n k row vs t f vs1 t1 f1 := by
  induction h with
  | all => exact .all
  | stop hr hk => exact .stop (rmtRow_common hr) ⟨fun _ => hk.1 (by decide), fun _ => hk.2 (by decide)⟩
  | next hr _ ih => exact .next (rmtRow_common hr) ih

theorem rmtPlays_common {m : List Nat} {rd : Reading} {n : Nat} {len : Int} {seen fresh : Nat → Bool} {l : Nat} {vs : Nat → Track} {t f : Nat} {ok : Bool} {f' : Nat}
    {loop : Bool} {seen' : Nat → Bool} {vs' : Nat → Track} (h : Plays m .common n len seen fresh l vs t f ok f' loop seen' vs') :
    Plays m rd n len seen fresh l vs t f ok f' loop seen' vs' := by
  induction h with
  | over h => exact .over h
  | again h hs => exact .again h hs
  | jump h hs hj ht _ ih => exact .jump h hs hj ⟨fun _ => ht.1 (by decide), fun _ => ht.2 (by decide)⟩ ih
  | broken h hs hj hch he hp hB ho => exact .broken h hs hj hch he hp hB ho
  | line h hs hj hl hw hr _ ih =>
    refine .line h hs hj (fun ch hch => ?_) hw (rmtRows_common hr) ih
    rcases hl ch hch with h | ⟨p, o, h1, h2, h3, h4⟩
    · exact .inl h
    · exact .inr ⟨p, o, h1, h2, fun _ => h3 (by decide), h4⟩

end Asap.Module.Tracker
