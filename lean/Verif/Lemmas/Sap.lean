import Verif.Model.Sap
import Verif.Spec.Sap
import Verif.Lemmas.Hoare
import Verif.Lemmas.Duration

/-! Memory safety and invariants of `ParseSap`. -/

namespace Asap.Sap
open Asap Asap.Spec

theorem slice_post {m : List Nat} {s n : Nat} (h : s + n ≤ m.length) :
    Post (fun r => r = (m.drop s).take n) (slice m s n) := by
  unfold slice; rw [if_pos h]; rfl

theorem hasStringAt_post {m : List Nat} {s : List Nat} {i : Nat} (h : i + s.length ≤ m.length) :
    Post (fun _ => True) (hasStringAt m i s) := by
  induction s generalizing i with
  | nil => exact trivial
  | cons c s ih =>
    simp only [List.length_cons] at h
    unfold hasStringAt
    refine Post.bind (Post.rd (by omega)) fun b _ => Post.ite (fun _ => trivial) fun _ => ih (by omega)

theorem scanTag_post {m : List Nat} (fuel i : Nat) (hf : m.length ≤ i + fuel) (h : i < m.length) :
    Post (fun j => i ≤ j ∧ j < m.length) (scanTag m fuel i) := by
  induction fuel generalizing i with
  | zero => omega
  | succ fuel ih =>
    unfold scanTag
    refine Post.bind (Post.rd h) fun c _ => Post.ite (fun _ => ?_) (fun _ => ⟨Nat.le_refl _, h⟩)
    refine Post.ite (fun _ => trivial) fun h2 => ?_
    exact (ih (i + 1) (by omega) (by omega)).mono fun j hj => ⟨by omega, hj.2⟩

/-- All bytes of `m` from `a` (inclusive) to `e` (exclusive) are argument characters. -/
def Span (m : List Nat) (a e : Nat) : Prop := ∀ k c, a ≤ k → k < e → m[k]? = some c → TextChar c

theorem scanArg_post {m : List Nat} (i0 fuel i : Nat) (as ae : Option Nat) (hf : m.length ≤ i + fuel) (h : i < m.length) (h0 : i0 ≤ i)
    (has : ∀ a, as = some a → i0 ≤ a ∧ a < i ∧ Span m a i)
    (hae : ∀ e, ae = some e → i0 ≤ e ∧ e ≤ i ∧ ∀ a, as = some a → a < e) :
    Post (fun r : Option Nat × Nat × Nat => i ≤ r.2.2 ∧ r.2.2 < m.length ∧ r.2.1 ≤ r.2.2 ∧
      ∀ a, r.1 = some a → i0 ≤ a ∧ a < r.2.1 ∧ Span m a r.2.1) (scanArg m fuel i as ae) := by
  induction fuel generalizing i as ae with
  | zero => omega
  | succ fuel ih =>
    unfold scanArg
    refine Post.bind (Post.rd h) fun c hc => Post.ite (fun hc32 => ?_) (fun hc32 => ?_)
    · refine Post.ite (fun _ => trivial) fun hv => Post.ite (fun _ => trivial) fun h2 => ?_
      have hct : TextChar c := by
        have : isValidChar c = true := by simpa using hv
        unfold isValidChar at this
        simp at this
        unfold TextChar SapChar
        omega
      refine (ih (i + 1) _ none (by omega) (by omega) (by omega) ?_ (by simp)).mono
        fun r hr => ⟨by omega, hr.2⟩
      intro a ha
      cases as with
      | none =>
        simp at ha; subst ha
        refine ⟨by omega, by omega, ?_⟩
        intro k d hk1 hk2 hd
        have : k = i := by omega
        subst this; rw [hc] at hd; cases hd; exact hct
      | some b =>
        simp at ha; subst ha
        have := has b rfl
        refine ⟨by omega, by omega, ?_⟩
        intro k d hk1 hk2 hd
        by_cases hki : k = i
        · subst hki; rw [hc] at hd; cases hd; exact hct
        · exact this.2.2 k d hk1 (by omega) hd
    · have hg : ae.getD i ≤ i ∧ ∀ a, as = some a → a < ae.getD i := by
        cases ae with
        | none => exact ⟨Nat.le_refl _, fun a ha => (has a ha).2.1⟩
        | some e => exact ⟨(hae e rfl).2.1, (hae e rfl).2.2⟩
      refine Post.ite (fun _ => ?_) fun h10 => Post.ite (fun _ => trivial) fun h2 => ?_
      · refine ⟨Nat.le_refl _, h, hg.1, fun a ha => ⟨(has a ha).1, hg.2 a ha, ?_⟩⟩
        intro k d hk1 hk2 hd
        exact (has a ha).2.2 k d hk1 (by simp only [] at hk2; omega) hd
      · refine (ih (i + 1) _ _ (by omega) (by omega) (by omega) ?_ ?_).mono fun r hr => ⟨by omega, hr.2⟩
        · intro a ha
          have := has a ha
          refine ⟨by omega, by omega, ?_⟩
          intro k d hk1 hk2 hd
          by_cases hki : k = i
          · subst hki; rw [hc] at hd; cases hd
            exact ⟨h10, .inl (by omega)⟩
          · exact this.2.2 k d hk1 (by omega) hd
        · intro e he
          simp at he; subst he
          refine ⟨?_, by omega, hg.2⟩
          cases ae with
          | none => simpa using h0
          | some e => exact (hae e rfl).1

theorem parseDecLoop_post {m : List Nat} {maxVal i r n : Nat} (h : i + n ≤ m.length) (hr : r ≤ maxVal) :
    Post (fun v => v ≤ maxVal) (parseDecLoop m maxVal i r n) := by
  induction n generalizing i r with
  | zero => exact hr
  | succ n ih =>
    unfold parseDecLoop
    refine Post.bind (Post.rd (by omega)) fun c _ => Post.ite (fun _ => trivial) fun _ =>
      Post.ite (fun _ => trivial) fun _ => ih (by omega) (by omega)

theorem parseDec_post {m : List Nat} {i : Option Nat} {e minVal maxVal : Nat}
    (h : e ≤ m.length) (hi : ∀ a, i = some a → a < e) :
    Post (fun v => minVal ≤ v ∧ v ≤ maxVal) (parseDec m i e minVal maxVal) := by
  unfold parseDec
  match i with
  | none => exact trivial
  | some a =>
    have := hi a rfl
    refine Post.bind (parseDecLoop_post (by omega) (Nat.zero_le _)) fun v hv =>
      Post.ite (fun _ => trivial) fun _ => ⟨by omega, hv⟩

theorem hexDigit_lt {c d : Nat} (h : hexDigit c = some d) : d < 16 := by
  unfold hexDigit at h
  split at h
  · simp at h; omega
  · split at h
    · simp at h; omega
    · split at h
      · simp at h; omega
      · cases h

theorem parseHexLoop_post {m : List Nat} {i r n : Nat} (h : i + n ≤ m.length) (hr : r ≤ 0xffff) :
    Post (fun v => v ≤ 0xffff) (parseHexLoop m i r n) := by
  induction n generalizing i r with
  | zero => exact hr
  | succ n ih =>
    unfold parseHexLoop
    refine Post.bind (Post.rd (by omega)) fun c _ => Post.ite (fun _ => trivial) fun _ => ?_
    split
    · exact trivial
    · rename_i hd
      have := hexDigit_lt hd
      exact ih (by omega) (by omega)

theorem parseHex_post {m : List Nat} {i : Option Nat} {e : Nat}
    (h : e ≤ m.length) (hi : ∀ a, i = some a → a < e) :
    Post (fun v => v ≤ 0xffff) (parseHex m i e) := by
  unfold parseHex
  match i with
  | none => exact trivial
  | some a =>
    have := hi a rfl
    exact parseHexLoop_post (by omega) (by omega)

theorem isUnknown_post {m : List Nat} {i : Nat} {len : Int} (h : len = 3 → i + 3 < m.length) :
    Post (fun u => u = false → len = 3 → ¬ (m[i + 1]? = some 60 ∧ m[i + 2]? = some 63 ∧ m[i + 3]? = some 62))
      (isUnknown m i len) := by
  unfold isUnknown
  refine Post.ite (fun h3 => ?_) fun h3 => fun _ h3' => absurd h3' h3
  have := h h3
  refine Post.bind (Post.rd (by omega)) fun c hc => Post.ite (fun hne _ _ hh => ?_) fun _ => ?_
  · rw [hc] at hh; simp at hh; omega
  refine Post.bind (Post.rd (by omega)) fun c hc => Post.ite (fun hne _ _ hh => ?_) fun _ => ?_
  · rw [hc] at hh; simp at hh; omega
  refine Post.bind (Post.rd (by omega)) fun c hc hne _ hh => ?_
  rw [hc] at hh; simp at hh hne; omega

theorem parseText_post {m : List Nat} {i : Option Nat} {e : Nat}
    (h : e ≤ m.length) (hi : ∀ a, i = some a → a < e ∧ Span m a e) :
    Post SapText (parseText m i e) := by
  have nil : SapText [] := ⟨by simp, by decide⟩
  unfold parseText
  match i with
  | none => exact nil
  | some a =>
    have hs := hi a rfl
    simp only []
    refine Post.ite (fun _ => nil) fun hl => ?_
    refine Post.bind (Post.rd (by omega)) fun c _ => Post.ite (fun _ => nil) fun _ => ?_
    refine Post.bind (Post.rdI (by omega) (by omega)) fun c _ => Post.ite (fun _ => nil) fun _ => ?_
    refine Post.bind (isUnknown_post (by omega)) fun u hu => Post.ite (fun _ => nil) fun hu' => ?_
    refine (slice_post (by omega)).mono fun t ht => ⟨?_, ?_⟩
    · intro c hc
      rw [ht] at hc
      obtain ⟨k, hk⟩ := List.mem_iff_getElem?.1 hc
      rw [List.getElem?_take] at hk
      split at hk
      · rw [List.getElem?_drop] at hk
        exact hs.2 _ c (by omega) (by omega) hk
      · cases hk
    · intro hq
      have hq' : t = [60, 63, 62] := hq
      have hlen : ((e : Int) - a - 2) = 3 := by
        have := congrArg List.length (ht.symm.trans hq')
        simp at this; omega
      refine hu (by simpa using hu') hlen ?_
      have hk : ∀ k, k < 3 → m[a + 1 + k]? = t[k]? := by
        intro k hk
        rw [ht, List.getElem?_take, if_pos (by omega), List.getElem?_drop]
      have h0 := hk 0 (by omega); have h1 := hk 1 (by omega); have h2 := hk 2 (by omega)
      rw [hq'] at h0 h1 h2
      exact ⟨h0, h1, h2⟩

/-- What holds of the object while the tags are read. -/
structure Inv (s : St) : Prop where
  author : SapText s.info.author
  title : SapText s.info.title
  date : SapText s.info.date
  songs : 1 ≤ s.info.songs ∧ s.info.songs ≤ 32
  defaultSong : s.info.defaultSong ≤ 31
  channels : s.info.channels = 1 ∨ s.info.channels = 2
  fastplay : s.info.fastplay = -1 ∨ (1 ≤ s.info.fastplay ∧ s.info.fastplay ≤ 32767)
  music : -1 ≤ s.info.music ∧ s.info.music ≤ 0xffff
  init : -1 ≤ s.info.init ∧ s.info.init ≤ 0xffff
  player : -1 ≤ s.info.player ∧ s.info.player ≤ 0xffff
  covox : s.info.covoxAddr = -1 ∨ (s.info.covoxAddr = 0xd600 ∧ s.info.channels = 2)
  dindex : s.durationIndex ≤ 32
  known : ∀ k, k < s.durationIndex → 0 ≤ s.info.durations k ∧ s.info.durations k < 6000000
  unknown : ∀ k, s.durationIndex ≤ k → s.info.durations k = -1
  loops : ∀ k, s.durationIndex ≤ k → s.info.loops k = false

theorem hasLoop_post {m : List Nat} {a e : Nat} (h : e ≤ m.length) :
    Post (fun b => b = true → a + 5 < e) (hasLoop m a e) := by
  unfold hasLoop
  refine Post.ite (fun h3 => ?_) fun _ => by simp [Post]
  exact (hasStringAt_post (by show e - 5 + 5 ≤ _; omega)).mono fun _ _ _ => by omega

theorem parseDuration_post (s : List Nat) : Post (fun d => d < 6000000) (Duration.parseDuration s) := by
  match h : Duration.parseDuration s with
  | .ok ms => exact Duration.parseDuration_lt h
  | .error (.thrown msg) => trivial
  | .error .ub => rw [Duration.parseDuration_eq] at h; exact absurd h (Duration.durationL_noub s).1
  | .error .fuel => rw [Duration.parseDuration_eq] at h; exact absurd h (Duration.durationL_noub s).2

theorem tagTime_post {m : List Nat} {s : St} {a : Option Nat} {e : Nat} (hs : Inv s)
    (h : e ≤ m.length) (ha : ∀ x, a = some x → x < e) : Post Inv (tagTime m s a e) := by
  unfold tagTime
  refine Post.ite (fun _ => trivial) fun hd => ?_
  match a with
  | none => exact trivial
  | some a =>
    have := ha a rfl
    refine Post.bind (hasLoop_post h) fun l hl => ?_
    simp only []
    refine Post.bind (slice_post ?_) fun arg _ => ?_
    · cases l <;> simp <;> omega
    refine Post.bind (parseDuration_post arg) fun d hd' => ?_
    unfold maxSongs at hd
    refine Post.ok ?_
    cases l
    all_goals
      refine ⟨hs.author, hs.title, hs.date, hs.songs, hs.defaultSong, hs.channels, hs.fastplay, hs.music, hs.init, hs.player, hs.covox,
        by simp; omega, ?_, ?_, ?_⟩
      · intro k hk
        simp only [upd, Bool.false_eq_true, if_false, if_true]
        split
        · omega
        · exact hs.known k (by simp at hk; omega)
      · intro k hk
        simp only [upd, Bool.false_eq_true, if_false, if_true]
        simp at hk
        rw [if_neg (by omega)]
        exact hs.unknown k (by omega)
      · intro k hk
        simp only [upd, Bool.false_eq_true, if_false, if_true]
        simp at hk
        first
          | exact hs.loops k (by omega)
          | (rw [if_neg (by omega)]; exact hs.loops k (by omega))

theorem handleTag_post {m : List Nat} {s : St} {tag : List Nat} {a : Option Nat} {e : Nat} (hs : Inv s)
    (h : e ≤ m.length) (ha' : ∀ x, a = some x → x < e ∧ Span m x e) : Post Inv (handleTag m s tag a e) := by
  obtain ⟨t1, t2, t3, i1, i2, i3, i4, i5, i6, i7, i8, i9, i10, i11, i12⟩ := hs
  have ha : ∀ x, a = some x → x < e := fun x hx => (ha' x hx).1
  unfold handleTag
  refine Post.ite (fun _ => Post.bind (parseText_post h ha') fun t ht =>
    ⟨ht, t2, t3, i1, i2, i3, i4, i5, i6, i7, i8, i9, i10, i11, i12⟩) fun _ => ?_
  refine Post.ite (fun _ => Post.bind (parseText_post h ha') fun t ht =>
    ⟨t1, ht, t3, i1, i2, i3, i4, i5, i6, i7, i8, i9, i10, i11, i12⟩) fun _ => ?_
  refine Post.ite (fun _ => Post.bind (parseText_post h ha') fun t ht =>
    ⟨t1, t2, ht, i1, i2, i3, i4, i5, i6, i7, i8, i9, i10, i11, i12⟩) fun _ => ?_
  refine Post.ite (fun _ => tagTime_post ⟨t1, t2, t3, i1, i2, i3, i4, i5, i6, i7, i8, i9, i10, i11, i12⟩ h ha) fun _ => ?_
  refine Post.ite (fun _ => Post.bind (parseDec_post h ha) fun v hv =>
    ⟨t1, t2, t3, hv, i2, i3, i4, i5, i6, i7, i8, i9, i10, i11, i12⟩) fun _ => ?_
  refine Post.ite (fun _ => Post.bind (parseDec_post h ha) fun v hv =>
    ⟨t1, t2, t3, i1, hv.2, i3, i4, i5, i6, i7, i8, i9, i10, i11, i12⟩) fun _ => ?_
  refine Post.ite (fun _ => ?_) fun _ => ?_
  · match a with
    | none => exact trivial
    | some a =>
      have := ha a rfl
      exact Post.bind (Post.rd (by omega)) fun v _ => ⟨t1, t2, t3, i1, i2, i3, i4, i5, i6, i7, i8, i9, i10, i11, i12⟩
  refine Post.ite (fun _ => Post.bind (parseDec_post h ha) fun v hv =>
    ⟨t1, t2, t3, i1, i2, i3, .inr (by simp only []; omega), i5, i6, i7, i8, i9, i10, i11, i12⟩) fun _ => ?_
  refine Post.ite (fun _ => Post.bind (parseHex_post h ha) fun v hv =>
    ⟨t1, t2, t3, i1, i2, i3, i4, by simp only []; omega, i6, i7, i8, i9, i10, i11, i12⟩) fun _ => ?_
  refine Post.ite (fun _ => Post.bind (parseHex_post h ha) fun v hv =>
    ⟨t1, t2, t3, i1, i2, i3, i4, i5, by simp only []; omega, i7, i8, i9, i10, i11, i12⟩) fun _ => ?_
  refine Post.ite (fun _ => Post.bind (parseHex_post h ha) fun v hv =>
    ⟨t1, t2, t3, i1, i2, i3, i4, i5, i6, by simp only []; omega, i8, i9, i10, i11, i12⟩) fun _ => ?_
  refine Post.ite (fun _ => Post.bind (parseHex_post h ha) fun v hv => Post.ite (fun _ => trivial) fun hv' =>
    ⟨t1, t2, t3, i1, i2, .inr rfl, i4, i5, i6, i7, .inr ⟨by simp at hv'; simp [hv'], rfl⟩, i9, i10, i11, i12⟩) fun _ => ?_
  refine Post.ite (fun _ => ⟨t1, t2, t3, i1, i2, .inr rfl, i4, i5, i6, i7, ?_, i9, i10, i11, i12⟩) fun _ => ?_
  · rcases i8 with i8 | i8
    · exact .inl i8
    · exact .inr ⟨i8.1, rfl⟩
  refine Post.ite (fun _ => ⟨t1, t2, t3, i1, i2, i3, i4, i5, i6, i7, i8, i9, i10, i11, i12⟩) fun _ => ?_
  exact ⟨t1, t2, t3, i1, i2, i3, i4, i5, i6, i7, i8, i9, i10, i11, i12⟩

theorem parseLines_post {m : List Nat} (fuel : Nat) {s : St} {i : Nat} (hs : Inv s)
    (hf : m.length ≤ i + fuel) (hi : i + 6 < m.length) :
    Post (fun r : St × Nat => Inv r.1 ∧ r.2 + 6 < m.length) (parseLines m fuel s i) := by
  induction fuel generalizing s i with
  | zero => omega
  | succ fuel ih =>
    unfold parseLines
    refine Post.bind (Post.rd (by omega)) fun c _ => Post.ite (fun _ => ⟨hs, hi⟩) fun _ => ?_
    refine Post.bind (scanTag_post m.length i (by omega) (by omega)) fun j hj => ?_
    refine Post.bind (scanArg_post j m.length j none none (by omega) hj.2 (Nat.le_refl _) (by simp) (by simp)) fun r hr => ?_
    obtain ⟨as, ae, nl⟩ := r
    simp only [] at hr
    refine Post.ite (fun _ => trivial) fun hn => ?_
    refine Post.bind (slice_post (by omega)) fun tag _ => ?_
    refine Post.bind (handleTag_post hs (by omega) fun x hx => ⟨(hr.2.2.2 x hx).2.1, (hr.2.2.2 x hx).2.2⟩) fun s' hs' => ?_
    exact ih hs' (by omega) (by omega)

theorem finishType_post {s : St} (hs : Inv s) (hd : s.info.defaultSong < s.info.songs) :
    Post (fun i => Inv { s with info := i } ∧ i.defaultSong < i.songs ∧ ((i.type = .sapB ∧ 0 ≤ i.player ∧ 0 ≤ i.init) ∨ (i.type = .sapC ∧ 0 ≤ i.player ∧ 0 ≤ i.music) ∨
    (i.type = .sapD ∧ 0 ≤ i.init) ∨ (i.type = .sapS ∧ 0 ≤ i.init))) (finishType s) := by
  obtain ⟨t1, t2, t3, i1, i2, i3, i4, i5, i6, i7, i8, i9, i10, i11, i12⟩ := hs
  unfold finishType
  simp only []
  refine Post.ite (fun _ => Post.ite (fun _ => trivial) fun _ => Post.ite (fun _ => trivial) fun _ =>
    ⟨⟨t1, t2, t3, i1, i2, i3, i4, i5, i6, i7, i8, i9, i10, i11, i12⟩, hd, .inl ⟨rfl, by simp only []; omega, by simp only []; omega⟩⟩) fun _ => ?_
  refine Post.ite (fun _ => Post.ite (fun _ => trivial) fun _ => Post.ite (fun _ => trivial) fun _ =>
    ⟨⟨t1, t2, t3, i1, i2, i3, i4, i5, i6, i7, i8, i9, i10, i11, i12⟩, hd, .inr (.inl ⟨rfl, by simp only []; omega, by simp only []; omega⟩)⟩) fun _ => ?_
  refine Post.ite (fun _ => Post.ite (fun _ => trivial) fun _ =>
    ⟨⟨t1, t2, t3, i1, i2, i3, i4, i5, i6, i7, i8, i9, i10, i11, i12⟩, hd, .inr (.inr (.inl ⟨rfl, by simp only []; omega⟩))⟩) fun _ => ?_
  refine Post.ite (fun _ => Post.ite (fun _ => trivial) fun _ =>
    ⟨⟨t1, t2, t3, i1, i2, i3, ?_, i5, i6, i7, i8, i9, i10, i11, i12⟩, hd, .inr (.inr (.inr ⟨rfl, by simp only []; omega⟩))⟩) fun _ => trivial
  simp only []
  split <;> omega

/-- Starting information: nothing known yet, as `Load` prepares it. -/
structure Fresh (i : Info) : Prop where
  author : i.author = []
  title : i.title = []
  date : i.date = []
  songs : 1 ≤ i.songs ∧ i.songs ≤ 32
  defaultSong : i.defaultSong ≤ 31
  channels : i.channels = 1 ∨ i.channels = 2
  music : -1 ≤ i.music ∧ i.music ≤ 0xffff
  init : -1 ≤ i.init ∧ i.init ≤ 0xffff
  player : -1 ≤ i.player ∧ i.player ≤ 0xffff
  covox : i.covoxAddr = -1 
  unknown : ∀ k, i.durations k = -1
  loops : ∀ k, i.loops k = false

theorem parseSap_post {m : List Nat} {i : Info} (hi : Fresh i) :
    Post (fun r => Sane r ∧ 0 ≤ r.headerLen ∧ r.headerLen + 6 < m.length) (parseSap i m) := by
  unfold parseSap
  refine Post.bind (P := fun b => b = true → 30 ≤ m.length) ?_ fun b hb => ?_
  · unfold validateSap
    exact Post.ite (fun h => (hasStringAt_post (by show 0 + 5 ≤ _; omega)).mono fun _ _ _ => h) fun _ => by simp [Post]
  refine Post.ite (fun _ => trivial) fun hb' => ?_
  have h30 : 30 ≤ m.length := hb (by simpa using hb')
  refine Post.bind (parseLines_post m.length ?_ (by omega) (by omega)) fun r hr => ?_
  · have nil : SapText [] := ⟨by simp, by decide⟩
    exact ⟨by rw [hi.author]; exact nil, by rw [hi.title]; exact nil, by rw [hi.date]; exact nil, hi.songs, hi.defaultSong, hi.channels, .inl rfl, hi.music, hi.init, hi.player, .inl hi.covox,
      by simp, by simp, fun k _ => hi.unknown k, fun k _ => hi.loops k⟩
  obtain ⟨s, idx⟩ := r
  simp only [] at hr ⊢
  refine Post.ite (fun _ => trivial) fun hd => ?_
  refine Post.bind (finishType_post hr.1 (by omega)) fun j hj => ?_
  refine Post.bind (Post.rd (by omega)) fun b _ => Post.ite (fun _ => trivial) fun _ => ?_
  obtain ⟨⟨t1, t2, t3, i1, i2, i3, i4, i5, i6, i7, i8, i9, i10, i11, i12⟩, hds, ht⟩ := hj
  simp only [] at *
  have hr2 := hr.2
  refine Post.ok ⟨?_, by simp only []; omega, by simp only []; omega⟩
  unfold defaultFastplay
  split
  · exact ⟨t1, t2, t3, i1, hds, i3, by simp only []; split <;> omega, i5, i6, i7, i8, ht,
      s.durationIndex, i9, i10, fun k hk => ⟨i11 k hk, i12 k hk⟩⟩
  · exact ⟨t1, t2, t3, i1, hds, i3, by simp only []; omega, i5, i6, i7, i8, ht,
      s.durationIndex, i9, i10, fun k hk => ⟨i11 k hk, i12 k hk⟩⟩

end Asap.Sap
