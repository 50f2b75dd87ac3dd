import Verif.Spec.RmtSong
import Verif.Lemmas.PatternDet

/-! The scan of RMT follows the specification of the songs. -/

namespace Asap.Module.Tracker
open Asap Asap.Module
open Asap.Spec.Pattern (Has byte offset address visit)
open Asap.Spec.Rmt (Reading Reads Event Voice Track Row Rows Plays PlaysFrom Tune Tunes Enters Begins Jumps Kept noTracks)

/-- What is known of the frames of a channel. -/
structure Timed (frames : Nat) (c : RmtCh) : Prop where
  note : c.instrumentFrame ≤ frames
  volume : c.instrumentFrame ≤ c.volumeFrame

theorem Timed.mono {f g : Nat} {c : RmtCh} (h : Timed f c) (hfg : f ≤ g) : Timed g c := ⟨Nat.le_trans h.note hfg, h.volume⟩

/-- The voice of a channel. -/
def voiceOf (c : RmtCh) : Voice := ⟨c.instrument, c.instrumentFrame, c.volume, c.volumeFrame⟩

/-- What the commands of a channel have read. -/
def Got (frames : Nat) (c : RmtCh) (r : RmtCh × Nat × Bool) : Option Event → Prop
  | none => r.2.2 = true ∧ voiceOf r.1 = voiceOf c
  | some e => r.2.2 = false ∧ r.1.start = c.start ∧ r.1.offset = e.next ∧ (r.1.blank - 1).toNat + 1 = e.wait ∧ (e.note.isSome = true → r.1.instrumentFrame = frames) ∧
      voiceOf r.1 = (voiceOf c).after frames e

theorem rmtCommands_reads {m : List Nat} (hb : AllBytes m) (frames fuel : Nat) (c : RmtCh) (t : Nat) (h0 : c.blank ≤ 0) (ht : Timed frames c) :
    OkP (fun r : RmtCh × Nat × Bool => (∃ e, Reads m .asap c.start c.offset t e r.2.1 ∧ Got frames c r e) ∧ Timed frames r.1 ∧ c.instrumentFrame ≤ r.1.instrumentFrame)
      (rmtCommands m frames fuel c t) := by
  induction fuel generalizing c t with
  | zero => trivial
  | succ fuel ih =>
    unfold rmtCommands
    refine PostE.bind (rdI_okP m _) fun i hi => ?_
    have hi256 : i < 256 := hb _ (List.mem_of_getElem? hi.2)
    refine PostE.ite (fun h1 => ?_) fun h1 => PostE.ite (fun h2 => ?_) fun h2 => PostE.ite (fun h3 => ?_) fun h3 =>
      PostE.ite (fun h4 => ?_) fun h4 => PostE.ite (fun h5 => ?_) fun h5 => ?_
    · refine PostE.bind (rdI_okP m _) fun j hj => ?_
      by_cases h61 : i % 64 = 61
      · dsimp only
        rw [if_neg (fun h => h h61)]
        refine ⟨⟨_, .volume hi h61 hj, rfl, rfl, rfl, ?_, fun h => (nomatch h), ?_⟩, ⟨ht.note, ht.note⟩, Nat.le_refl _⟩
        · show (c.blank - 1).toNat + 1 = 1
          omega
        · show Voice.mk c.instrument c.instrumentFrame ((i + 256 * j) / 64 % 16) frames = ⟨c.instrument, c.instrumentFrame, i / 64 + 4 * (j % 4), frames⟩
          rw [show (i + 256 * j) / 64 % 16 = i / 64 + 4 * (j % 4) by omega]
      · dsimp only
        rw [if_pos h61]
        refine ⟨⟨_, .note hi (by omega) hj, rfl, rfl, rfl, ?_, fun _ => rfl, ?_⟩, ⟨Nat.le_refl _, Nat.le_refl _⟩, ht.note⟩
        · show (c.blank - 1).toNat + 1 = 1
          omega
        · show Voice.mk ((i + 256 * j) / 1024) frames ((i + 256 * j) / 64 % 16) frames = ⟨j / 4, frames, i / 64 + 4 * (j % 4), frames⟩
          rw [show (i + 256 * j) / 64 % 16 = i / 64 + 4 * (j % 4) by omega, show (i + 256 * j) / 1024 = j / 4 by omega]
    · refine PostE.bind (rdI_okP m _) fun j hj => ?_
      rw [h2] at hi
      by_cases hj0 : j = 0
      · subst hj0
        exact ⟨⟨_, .zero hi hj rfl, rfl, rfl, rfl, rfl, fun h => (nomatch h), rfl⟩, ⟨ht.note, ht.volume⟩, Nat.le_refl _⟩
      · refine ⟨⟨_, .long hi hj (by omega), rfl, rfl, rfl, by show ((j : Int) - 1).toNat + 1 = j; omega, fun h => (nomatch h), rfl⟩, ⟨ht.note, ht.volume⟩, Nat.le_refl _⟩
    · refine ⟨⟨_, .pause hi h3 (by omega), rfl, rfl, rfl, by show (((i / 64 : Nat) : Int) - 1).toNat + 1 = i / 64; omega, fun h => (nomatch h), rfl⟩, ⟨ht.note, ht.volume⟩, Nat.le_refl _⟩
    · refine PostE.bind (rdI_okP m _) fun j hj => ?_
      refine (ih { c with offset := c.offset + 2 } j h0 ⟨ht.note, ht.volume⟩).mono (fun _ h => h) ?_
      rintro r ⟨⟨e, e1, e2⟩, e3⟩
      have e2' : Got frames c r e := by
        cases e <;> exact e2
      by_cases hj0 : j = 0
      · subst hj0
        exact ⟨⟨e, .fast hi h4 hj rfl e1, e2'⟩, e3⟩
      · exact ⟨⟨e, .tempo hi h4 hj (by omega) e1, e2'⟩, e3⟩
    · refine PostE.bind (rdI_okP m _) fun j hj => ?_
      rw [h5] at hi
      refine (ih { c with offset := c.start + j } t h0 ⟨ht.note, ht.volume⟩).mono (fun _ h => h) ?_
      rintro r ⟨⟨e, e1, e2⟩, e3⟩
      have e2' : Got frames c r e := by
        cases e <;> exact e2
      exact ⟨⟨e, .jump hi hj e1, e2'⟩, e3⟩
    · have : i = 0xff := by omega
      rw [this] at hi
      exact ⟨⟨none, .stop hi, rfl, rfl⟩, ⟨ht.note, ht.volume⟩, Nat.le_refl _⟩

/-- A channel is at a track. -/
structure AtTrack (row : Nat) (c : RmtCh) (v : Track) : Prop where
  due : v.due = row + (c.blank - 1).toNat
  place : v.due < 255 → v.start = c.start ∧ v.off = c.offset
  note : v.note ≤ c.instrumentFrame
  voice : v.voice = voiceOf c

theorem rmtRow_sim {m : List Nat} (hb : AllBytes m) (fuel frames row k ch : Nat) (hrow : row < 255) (chs : Nat → RmtCh) (vs : Nat → Track) (t : Nat)
    (ht : ∀ x, Timed frames (chs x)) (h1 : ∀ x < ch, AtTrack (row + 1) (chs x) (vs x)) (h2 : ∀ x, ch ≤ x → x < ch + k → AtTrack row (chs x) (vs x)) :
    OkP (fun r => (∃ vs', Row m .asap frames row k ch vs t vs' r.2.1 r.2.2 ∧ (r.2.2 = false → ∀ x < ch + k, AtTrack (row + 1) (r.1 x) (vs' x)) ∧
        ∀ x < ch + k, (vs' x).voice = voiceOf (r.1 x)) ∧
      ∀ x, Timed frames (r.1 x) ∧ (chs x).instrumentFrame ≤ (r.1 x).instrumentFrame) (rmtRow m fuel frames k ch chs t) := by
  induction k generalizing ch chs vs t with
  | zero => exact ⟨⟨vs, .done, fun _ => h1, fun x hx => (h1 x hx).voice⟩, fun x => ⟨ht x, Nat.le_refl _⟩⟩
  | succ k ih =>
    have hv := h2 ch (Nat.le_refl _) (by omega)
    unfold rmtRow
    dsimp only
    refine PostE.ite (fun hbl => ?_) fun hbl => ?_
    · refine (ih (ch + 1) (upd chs ch { chs ch with blank := (chs ch).blank - 1 }) vs t (fun x => ?_) (fun x hx => ?_) fun x hx hx2 => ?_).mono (fun _ h => h) ?_
      · unfold upd
        split
        · rename_i hx
          subst hx
          exact ⟨(ht x).note, (ht x).volume⟩
        · exact ht x
      · by_cases hxc : x = ch
        · subst hxc
          rw [show upd chs x _ x = _ from if_pos rfl]
          refine ⟨?_, hv.place, hv.note, hv.voice⟩
          have := hv.due
          show _ = row + 1 + ((chs x).blank - 1 - 1).toNat
          omega
        · rw [show upd chs ch _ x = chs x from if_neg hxc]
          exact h1 x (by omega)
      · rw [show upd chs ch _ x = chs x from if_neg (by omega)]
        exact h2 x (by omega) (by omega)
      · rintro r ⟨⟨vs', r1, r2, r4⟩, r3⟩
        refine ⟨⟨vs', .idle (by have := hv.due; omega) r1, fun hs x hx => r2 hs x (by omega), fun x hx => r4 x (by omega)⟩, fun x => ⟨(r3 x).1, Nat.le_trans ?_ (r3 x).2⟩⟩
        unfold upd
        split
        · rename_i hx
          subst hx
          exact Nat.le_refl _
        · exact Nat.le_refl _
    · have hdue : (vs ch).due = row := by have := hv.due; omega
      obtain ⟨hst, hof⟩ := hv.place (by omega)
      refine PostE.bind (rmtCommands_reads hb frames fuel { chs ch with blank := (chs ch).blank - 1 } t (by show (chs ch).blank - 1 ≤ 0; omega) ⟨(ht ch).note, (ht ch).volume⟩) ?_
      rintro ⟨c, t1, s1⟩ ⟨⟨e, e1, e2⟩, e3, e4⟩
      dsimp only at e1 e2 e3 e4 ⊢
      rw [← hst, ← hof] at e1
      have hT : ∀ x, Timed frames (upd chs ch c x) := fun x => by
        unfold upd
        split
        · exact e3
        · exact ht x
      have hI : ∀ x, (chs x).instrumentFrame ≤ (upd chs ch c x).instrumentFrame := fun x => by
        unfold upd
        split
        · rename_i hx
          rw [hx]
          exact e4
        · exact Nat.le_refl _
      cases e with
      | none =>
        obtain ⟨g1, g2⟩ := e2
        have : s1 = true := g1
        rw [this, if_pos rfl]
        refine ⟨⟨vs, .stop hdue e1, fun h => (nomatch h), fun x hx => ?_⟩, fun x => ⟨hT x, hI x⟩⟩
        show (vs x).voice = voiceOf (upd chs ch c x)
        by_cases hxc : x = ch
        · rw [show upd chs ch c x = c from if_pos hxc, hxc]
          exact hv.voice.trans g2.symm
        · rw [show upd chs ch c x = chs x from if_neg hxc]
          by_cases hlt : x < ch
          · exact (h1 x hlt).voice
          · exact (h2 x (by omega) hx).voice
      | some e =>
        obtain ⟨g1, g2, g3, g4, g5, g6⟩ := e2
        dsimp only at g1 g2 g3 g4 g5 g6
        rw [g1, if_neg Bool.false_ne_true]
        refine (ih (ch + 1) (upd chs ch c) (Spec.Rmt.set vs ch ⟨row + e.wait, (vs ch).start, e.next, if e.note.isSome then frames else (vs ch).note, (vs ch).voice.after frames e⟩) t1 hT (fun x hx => ?_)
          fun x hx hx2 => ?_).mono (fun _ h => h) ?_
        · by_cases hxc : x = ch
          · subst hxc
            rw [show upd chs x c x = c from if_pos rfl, show Spec.Rmt.set vs x _ x = _ from if_pos rfl]
            refine ⟨?_, fun _ => ⟨?_, g3.symm⟩, ?_, by rw [g6]; show (vs x).voice.after frames e = _; rw [hv.voice]; rfl⟩
            · show row + e.wait = row + 1 + (c.blank - 1).toNat
              omega
            · show (vs x).start = c.start
              rw [hst, g2]
            · show (if e.note.isSome = true then frames else (vs x).note) ≤ c.instrumentFrame
              split
              · rename_i hn
                rw [g5 hn]
                exact Nat.le_refl _
              · exact Nat.le_trans hv.note e4
          · rw [show upd chs ch c x = chs x from if_neg hxc, show Spec.Rmt.set vs ch _ x = vs x from if_neg hxc]
            exact h1 x (by omega)
        · rw [show upd chs ch c x = chs x from if_neg (by omega), show Spec.Rmt.set vs ch _ x = vs x from if_neg (by omega)]
          exact h2 x (by omega) (by omega)
        · rintro r ⟨⟨vs', r1, r2, r4⟩, r3⟩
          exact ⟨⟨vs', .event hdue e1 r1, fun hs x hx => r2 hs x (by omega), fun x hx => r4 x (by omega)⟩, fun x => ⟨(r3 x).1, Nat.le_trans (hI x) (r3 x).2⟩⟩

theorem rmtRows_sim {m : List Nat} (hb : AllBytes m) (fuel n k row : Nat) (hrow : row + k ≤ 255) (chs : Nat → RmtCh) (vs : Nat → Track) (t frames : Nat)
    (ht : ∀ x, Timed frames (chs x)) (h : ∀ x < n, AtTrack row (chs x) (vs x)) :
    OkP (fun r => (∃ vs', Rows m .asap n k row vs t frames vs' r.2.1 r.2.2 ∧
        ∀ x < n, (vs' x).note ≤ (r.1 x).instrumentFrame ∧ (vs' x).voice = voiceOf (r.1 x)) ∧ ∀ x, Timed r.2.2 (r.1 x))
      (rmtRows m fuel n k chs t frames) := by
  induction k generalizing row chs vs t frames with
  | zero => exact ⟨⟨vs, .all, fun x hx => ⟨(h x hx).note, (h x hx).voice⟩⟩, ht⟩
  | succ k ih =>
    unfold rmtRows
    refine PostE.bind (rmtRow_sim hb fuel frames row n 0 (by omega) chs vs t ht (fun x hx => absurd hx (Nat.not_lt_zero x)) fun x _ hx => h x (by omega)) ?_
    rintro ⟨chs', t', s'⟩ ⟨⟨vs', r1, r2, r4⟩, r3⟩
    dsimp only at r1 r2 r3 r4 ⊢
    refine PostE.ite (fun hs => ?_) fun hs => ?_
    · rw [hs] at r1
      exact ⟨⟨_, .stop r1 ⟨fun _ => rfl, fun h => absurd rfl h⟩, fun x hx => ⟨Nat.le_trans (h x hx).note (r3 x).2, r4 x (by omega)⟩⟩, fun x => (r3 x).1⟩
    · have hs' : s' = false := by simpa using hs
      rw [hs'] at r1
      refine (ih (row + 1) (by omega) chs' vs' t' (frames + t') (fun x => (r3 x).1.mono (by omega)) fun x hx => r2 hs' x (by omega)).mono (fun _ h => h) ?_
      rintro r ⟨⟨vs2, q1, q2⟩, q3⟩
      exact ⟨⟨vs2, .next r1 q1, q2⟩, q3⟩

/-- A track at the beginning of a line. -/
def entered (c : RmtCh) (v : Track) : Track := if c.blank = 256 then ⟨255, -1, -1, v.note, v.voice⟩ else ⟨0, c.start, c.offset, v.note, v.voice⟩

theorem rmtLine_enters (m : List Nat) (n l k ch : Nat) (chs : Nat → RmtCh) :
    OkP (fun r : Option (Nat → RmtCh) => match r with
      | none => ∃ x p o, x < ch + k ∧ Has m (Spec.Rmt.song m + l * n + x) p ∧ p ≠ 0xff ∧ Begins m p o ∧ o < 0
      | some chs' => (∀ x, ch ≤ x → x < ch + k → ∀ v : Track, v.note ≤ (chs x).instrumentFrame ∧ v.voice = voiceOf (chs x) → Enters m .asap n l x v (entered (chs' x) v) ∧ AtTrack 0 (chs' x) (entered (chs' x) v)) ∧
        (∀ x < ch, chs' x = chs x) ∧ ∀ x, (chs' x).instrumentFrame = (chs x).instrumentFrame ∧ (chs' x).volumeFrame = (chs x).volumeFrame)
      (rmtLine m (((byte m 2 + 256 * byte m 3 : Nat) : Int) - 6) (Spec.Rmt.song m + l * n) (offset m (address m 0x10 0x11)) (offset m (address m 0x12 0x13)) k ch chs) := by
  induction k generalizing ch chs with
  | zero => exact ⟨fun x h1 h2 => absurd h2 (by omega), fun _ _ => rfl, fun _ => ⟨rfl, rfl⟩⟩
  | succ k ih =>
    unfold rmtLine
    refine PostE.bind (rdI_okP m _) fun p hp => PostE.ite (fun h => ?_) fun h => ?_
    · rw [h] at hp
      refine (ih (ch + 1) (upd chs ch { chs ch with blank := 256 })).mono (fun _ h => h) fun r hr => ?_
      cases r with
      | none =>
        obtain ⟨x, p, o, q1, q2⟩ := hr
        exact ⟨x, p, o, by omega, q2⟩
      | some chs' =>
        obtain ⟨q1, q2, q3⟩ := hr
        refine ⟨fun x hx1 hx2 v hv => ?_, fun x hx => ?_, fun x => ?_⟩
        · by_cases hxc : x = ch
          · subst hxc
            have e := q2 x (by omega)
            rw [show upd chs x _ x = _ from if_pos rfl] at e
            have eb : (chs' x).blank = 256 := by rw [e]
            have ee : entered (chs' x) v = ⟨255, -1, -1, v.note, v.voice⟩ := if_pos eb
            rw [ee]
            refine ⟨.inl ⟨hp, rfl⟩, ?_, fun h => absurd h (Nat.lt_irrefl 255), ?_, by rw [e]; exact hv.2⟩
            · rw [eb]
              rfl
            · rw [e]
              exact hv.1
          · refine q1 x (by omega) (by omega) v ?_
            rw [show upd chs ch _ x = chs x from if_neg hxc]
            exact hv
        · rw [q2 x (by omega)]
          exact if_neg (by omega)
        · obtain ⟨a, b⟩ := q3 x
          rw [a, b]
          unfold upd
          split
          · rename_i hx
            subst hx
            exact ⟨rfl, rfl⟩
          · exact ⟨rfl, rfl⟩
    · have hO : OkP (fun o => Begins m p o) (splitAddr m (offset m (address m 0x10 0x11) + p) (offset m (address m 0x12 0x13) + p) (((byte m 2 + 256 * byte m 3 : Nat) : Int) - 6)) := by
        unfold splitAddr
        refine PostE.bind (rdI_okP m _) fun a ha => PostE.bind (rdI_okP m _) fun b hb => ?_
        refine ⟨a, b, ha, hb, ?_⟩
        unfold offset
        omega
      refine PostE.bind hO fun o ho => PostE.ite (fun hneg => ⟨ch, p, o, by omega, hp, h, ho, hneg⟩) fun hneg => ?_
      refine (ih (ch + 1) (upd chs ch { chs ch with start := o, offset := o, blank := 0 })).mono (fun _ h => h) fun r hr => ?_
      cases r with
      | none =>
        obtain ⟨x, p, o, q1, q2⟩ := hr
        exact ⟨x, p, o, by omega, q2⟩
      | some chs' =>
        obtain ⟨q1, q2, q3⟩ := hr
        refine ⟨fun x hx1 hx2 v hv => ?_, fun x hx => ?_, fun x => ?_⟩
        · by_cases hxc : x = ch
          · subst hxc
            have e := q2 x (by omega)
            rw [show upd chs x _ x = _ from if_pos rfl] at e
            have eb : (chs' x).blank = 0 := by rw [e]
            have es : (chs' x).start = o := by rw [e]
            have eo : (chs' x).offset = o := by rw [e]
            have ee : entered (chs' x) v = ⟨0, o, o, v.note, v.voice⟩ := by
              unfold entered
              rw [if_neg (by rw [eb]; decide), es, eo]
            rw [ee]
            refine ⟨.inr ⟨p, o, hp, h, fun h => absurd rfl h, ho, by omega, rfl⟩, ?_, fun _ => ⟨es.symm, eo.symm⟩, ?_, by rw [e]; exact hv.2⟩
            · rw [eb]
              rfl
            · rw [e]
              exact hv.1
          · refine q1 x (by omega) (by omega) v ?_
            rw [show upd chs ch _ x = chs x from if_neg hxc]
            exact hv
        · rw [q2 x (by omega)]
          exact if_neg (by omega)
        · obtain ⟨a, b⟩ := q3 x
          rw [a, b]
          unfold upd
          split
          · rename_i hx
            subst hx
            exact ⟨rfl, rfl⟩
          · exact ⟨rfl, rfl⟩

theorem rmtLoop_plays {m : List Nat} (hb : AllBytes m) (n : Nat) (len : Int) (g : Nat → Bool) (fuel lines l : Nat) (chs : Nat → RmtCh) (vs : Nat → Track) (t frames : Nat) (v : Visits)
    (seen fresh : Nat → Bool) (ht : ∀ x, Timed frames (chs x)) (hv : ∀ x < n, (vs x).note ≤ (chs x).instrumentFrame ∧ (vs x).voice = voiceOf (chs x)) (hs : ∀ k, seen k = decide (v.seen k ≠ 0))
    (hf : ∀ k : Nat, (k : Int) < len → fresh k = decide (v.seen k = 1)) (hg : ∀ k, v.glob k = (g k || seen k)) (hl : v.loop = false) :
    OkP (fun r : Option (Nat → RmtCh) × Nat × Visits => ∃ loop seen' vs', Plays m .asap n len seen fresh l vs t frames r.1.isSome r.2.1 loop seen' vs' ∧ r.2.2.loop = loop ∧
      (∀ k, r.2.2.glob k = (g k || seen' k)) ∧ (r.1 = none → loop = false) ∧ ∀ chs', r.1 = some chs' → (∀ x, Timed r.2.1 (chs' x)) ∧ ∀ x < n, (vs' x).note ≤ (chs' x).instrumentFrame ∧ (vs' x).voice = voiceOf (chs' x))
      (rmtLoop m ⟨((byte m 2 + 256 * byte m 3 : Nat) : Int) - 6, Spec.Rmt.song m, offset m (address m 0x10 0x11), offset m (address m 0x12 0x13), n, len⟩ lines fuel l chs t frames v) := by
  induction lines generalizing l chs vs t frames v seen fresh with
  | zero => trivial
  | succ lines ih =>
    have visit_seen : ∀ k, visit seen l k = decide ((v.visit l).seen k ≠ 0) := fun k => by
      unfold visit
      show _ = decide (upd v.seen l 1 k ≠ 0)
      unfold upd
      by_cases hk : k = l
      · rw [if_pos hk, if_pos hk]
        rfl
      · rw [if_neg hk, if_neg hk]
        exact hs k
    have visit_glob : ∀ k, (v.visit l).glob k = (g k || visit seen l k) := fun k => by
      unfold visit
      show upd v.glob l true k = _
      unfold upd
      by_cases hk : k = l
      · rw [if_pos hk, if_pos hk]
        simp
      · rw [if_neg hk, if_neg hk]
        exact hg k
    unfold rmtLoop
    refine PostE.ite (fun hlen => PostE.ite (fun _ => trivial) fun _ => PostE.ite (fun hseen => ?_) fun hseen => ?_) fun hlen => ?_
    · refine ⟨!fresh l, seen, vs, .again hlen (by rw [hs]; simpa using hseen), ?_, hg, fun h => (nomatch h), fun chs' h => ?_⟩
      · show (v.loop || decide (v.seen l ≠ 1)) = _
        rw [hf l hlen, hl]
        simp
      · injection h with h
        subst h
        exact ⟨ht, hv⟩
    · have hs0 : seen l = false := by
        rw [hs]
        simpa using hseen
      refine PostE.bind (rdI_okP m _) fun i hi => ?_
      refine PostE.ite (fun h => ?_) fun h => ?_
      · refine PostE.bind (rdI_okP m _) fun p hp => ?_
        refine (ih p chs vs t frames (v.visit l) (visit seen l) (visit fresh l) ht hv visit_seen (fun k hk => ?_) visit_glob hl).mono (fun _ h => h) ?_
        · unfold visit
          show _ = decide (upd v.seen l 1 k = 1)
          unfold upd
          by_cases hkl : k = l
          · rw [if_pos hkl, if_pos hkl]
            rfl
          · rw [if_neg hkl, if_neg hkl]
            exact hf k hk
        · rintro r ⟨loop, seen', vs', h1, h2⟩
          rw [h] at hi
          exact ⟨loop, seen', vs', .jump hlen hs0 hi ⟨fun _ => hp, fun h => absurd rfl h⟩ h1, h2⟩
      · have hn : ¬ Has m (Spec.Rmt.song m + l * n) 0xfe := fun h' => h (has_fun hi h')
        refine PostE.bind (rmtLine_enters m n l n 0 chs) fun line hline => ?_
        cases line with
        | none =>
          obtain ⟨x, p, o, h1, h2, h3, h4, h5⟩ := hline
          refine ⟨false, visit seen l, vs, .broken hlen hs0 hn (by omega) h2 h3 h4 h5, hl, visit_glob, fun _ => rfl, fun _ h => (nomatch h)⟩
        | some chs' =>
          obtain ⟨h1, _, h2⟩ := hline
          refine PostE.bind (rd_okP m _) fun rows hrows => ?_
          have hrows' : rows < 256 := hb _ (List.mem_of_getElem? hrows)
          have hr0 := byte_eq hrows
          have ht' : ∀ x, Timed frames (chs' x) := fun x => by
            obtain ⟨a, b⟩ := h2 x
            exact ⟨by rw [a]; exact (ht x).note, by rw [a, b]; exact (ht x).volume⟩
          refine PostE.bind (rmtRows_sim hb fuel n rows 0 (by omega) chs' (fun x => if x < n then entered (chs' x) (vs x) else vs x) t frames ht' fun x hx => ?_) ?_
          · rw [if_pos hx]
            exact (h1 x (Nat.zero_le _) (by omega) (vs x) (hv x hx)).2
          · rintro ⟨chs2, t2, f2⟩ ⟨⟨vs2, r1, r2⟩, r3⟩
            dsimp only at r1 r2 r3 ⊢
            refine (ih (l + 1) chs2 vs2 t2 f2 ((v.visit l).played len) (visit seen l) (fun _ => false) r3 r2 (fun k => ?_) (fun k hk => ?_) visit_glob hl).mono (fun _ h => h) ?_
            · rw [visit_seen]
              show _ = decide ((if _ then 2 else _) ≠ 0)
              split
              · rename_i hc
                rw [hc.2]
                rfl
              · rfl
            · show false = decide ((if _ then 2 else _) = 1)
              split
              · rfl
              · rename_i hc
                rw [eq_comm, decide_eq_false_iff_not]
                exact fun h => hc ⟨hk, h⟩
            · rintro r ⟨loop, seen', vs', p1, p2⟩
              rw [← hr0] at r1
              refine ⟨loop, seen', vs', .line hlen hs0 hn (fun x hx => ?_) (fun x hx => if_neg (by omega)) r1 p1, p2⟩
              rw [if_pos hx]
              exact (h1 x (Nat.zero_le _) (by omega) (vs x) (hv x hx)).1
    · refine ⟨false, seen, vs, .over (Int.not_lt.mp hlen), hl, hg, fun h => (nomatch h), fun chs' h => ?_⟩
      injection h with h
      subst h
      exact ⟨ht, hv⟩

end Asap.Module.Tracker
