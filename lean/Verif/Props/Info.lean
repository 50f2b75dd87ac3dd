import Verif.Model.Info
import Verif.Spec.Info

/-! # C04 (setters), C05 (dates), C39 (PAL/NTSC) -/

namespace Asap.Props
open Asap Asap.Spec

theorem isValidChar_iff (c : Nat) : isValidChar c = true ↔ SapChar c := by
  unfold isValidChar SapChar
  simp only [Bool.and_eq_true, decide_eq_true_eq]
  omega

theorem checkValidText_iff (s : List Nat) : checkValidText s = .ok () ↔ ValidText s := by
  unfold checkValidText ValidText maxTextLength
  split
  · simp [raise]; omega
  · split
    · rename_i h1 h2
      simp only [List.all_eq_true, isValidChar_iff] at h2
      simp; exact ⟨by omega, h2⟩
    · rename_i h1 h2
      simp only [List.all_eq_true, isValidChar_iff] at h2
      simp [raise, h2]

theorem checkValidText_err (s : List Nat) (h : ¬ ValidText s) :
    ∃ msg, checkValidText s = .error (.thrown msg) := by
  rw [← checkValidText_iff] at h
  unfold checkValidText raise at *
  split
  · exact ⟨_, rfl⟩
  · split
    · rename_i h1 h2; simp [h1, h2] at h
    · exact ⟨_, rfl⟩

/-- The setter calls of the public API that do not throw away the module. -/
inductive SetCall where
  | author (s : List Nat)
  | title (s : List Nat)
  | date (s : List Nat)
  | defaultSong (song : Int)
  | duration (song ms : Int)
  | loop (song : Int) (b : Bool)

/-- Perform one call. -/
def SetCall.run (i : Info) : SetCall → M Unit × Info
  | .author s => i.setAuthor s
  | .title s => i.setTitle s
  | .date s => i.setDate s
  | .defaultSong n => i.setDefaultSong n
  | .duration n d => i.setDuration n d
  | .loop n b => i.setLoop n b

/-- When a call is supposed to be accepted. -/
def SetCall.Acceptable (i : Info) : SetCall → Prop
  | .author s | .title s | .date s => ValidText s
  | .defaultSong n | .duration n _ | .loop n _ => 0 ≤ n ∧ n < i.songs

/-- C04.  A call succeeds exactly when its argument is acceptable. -/
theorem C04_succeeds_iff (i : Info) (c : SetCall) : (c.run i).1 = .ok () ↔ c.Acceptable i := by
  cases c <;> simp only [SetCall.run, SetCall.Acceptable, Info.setAuthor, Info.setTitle, Info.setDate,
    Info.setDefaultSong, Info.setDuration, Info.setLoop]
  case author s =>
    rw [← checkValidText_iff]; split <;> simp_all
  case title s =>
    rw [← checkValidText_iff]; split <;> simp_all
  case date s =>
    rw [← checkValidText_iff]; split <;> simp_all
  all_goals (split <;> simp [raise] <;> omega)

/-- C04.  A call that fails throws and changes nothing. -/
theorem C04_failure_keeps (i : Info) (c : SetCall) (h : (c.run i).1 ≠ .ok ()) :
    (c.run i).2 = i ∧ ∃ msg, (c.run i).1 = .error (.thrown msg) := by
  rw [ne_eq, C04_succeeds_iff] at h
  cases c <;> simp only [SetCall.run, SetCall.Acceptable, Info.setAuthor, Info.setTitle, Info.setDate,
    Info.setDefaultSong, Info.setDuration, Info.setLoop] at *
  case author s =>
    obtain ⟨msg, hm⟩ := checkValidText_err s h
    simp [hm]
  case title s =>
    obtain ⟨msg, hm⟩ := checkValidText_err s h
    simp [hm]
  case date s =>
    obtain ⟨msg, hm⟩ := checkValidText_err s h
    simp [hm]
  all_goals (rw [if_pos (by omega)]; exact ⟨rfl, _, rfl⟩)

/-- C04.  A successful call changes exactly the addressed field. -/
theorem C04_success_sets (i : Info) :
    (∀ s, ValidText s → (i.setAuthor s).2 = { i with author := s }) ∧
    (∀ s, ValidText s → (i.setTitle s).2 = { i with title := s }) ∧
    (∀ s, ValidText s → (i.setDate s).2 = { i with date := s }) ∧
    (∀ n : Nat, n < i.songs → (i.setDefaultSong n).2 = { i with defaultSong := n }) ∧
    (∀ (n : Nat) d, n < i.songs → (i.setDuration n d).2 =
      { i with durations := fun k => if k = n then d else i.durations k }) ∧
    (∀ (n : Nat) b, n < i.songs → (i.setLoop n b).2 =
      { i with loops := fun k => if k = n then b else i.loops k }) := by
  refine ⟨?_, ?_, ?_, ?_, ?_, ?_⟩
  · intro s h; rw [← checkValidText_iff] at h; simp [Info.setAuthor, h]
  · intro s h; rw [← checkValidText_iff] at h; simp [Info.setTitle, h]
  · intro s h; rw [← checkValidText_iff] at h; simp [Info.setDate, h]
  · intro n h; unfold Info.setDefaultSong; rw [if_neg (by omega)]; simp
  · intro n d h; unfold Info.setDuration; rw [if_neg (by omega)]; rfl
  · intro n b h; unfold Info.setLoop; rw [if_neg (by omega)]; rfl

example : ValidText (ascii "Jakub Husak (Lukasz)") := by
  rw [← checkValidText_iff]; decide
example : ¬ ValidText (ascii "a`b") := by rw [← checkValidText_iff]; decide

/-- Information that can be written to a file. -/
def Writable (i : Info) : Prop :=
  ValidText i.author ∧ ValidText i.title ∧ ValidText i.date ∧ i.defaultSong < i.songs

/-- C04.  Any history of setter calls keeps the information writable, does not change the number of
songs and touches durations and loop flags of existing songs only. -/
theorem C04_history (calls : List SetCall) (i : Info) (h : Writable i) :
    let r := calls.foldl (fun i c => (c.run i).2) i
    Writable r ∧ r.songs = i.songs ∧
      (∀ k, i.songs ≤ k → r.durations k = i.durations k ∧ r.loops k = i.loops k) ∧
      r.channels = i.channels ∧ r.ntsc = i.ntsc ∧ r.type = i.type ∧ r.fastplay = i.fastplay ∧
      r.music = i.music ∧ r.init = i.init ∧ r.player = i.player ∧ r.covoxAddr = i.covoxAddr ∧
      r.headerLen = i.headerLen := by
  induction calls generalizing i with
  | nil => simp [h]
  | cons c cs ih =>
    have step : Writable (c.run i).2 ∧ (c.run i).2.songs = i.songs ∧
        (∀ k, i.songs ≤ k → (c.run i).2.durations k = i.durations k ∧ (c.run i).2.loops k = i.loops k) ∧
        (c.run i).2.channels = i.channels ∧ (c.run i).2.ntsc = i.ntsc ∧ (c.run i).2.type = i.type ∧
        (c.run i).2.fastplay = i.fastplay ∧ (c.run i).2.music = i.music ∧ (c.run i).2.init = i.init ∧
        (c.run i).2.player = i.player ∧ (c.run i).2.covoxAddr = i.covoxAddr ∧
        (c.run i).2.headerLen = i.headerLen := by
      by_cases hs : (c.run i).1 = .ok ()
      · have ha := (C04_succeeds_iff i c).1 hs
        obtain ⟨h1, h2, h3, h4, h5, h6⟩ := C04_success_sets i
        obtain ⟨w1, w2, w3, w4⟩ := h
        cases c with
        | author s => simp only [SetCall.run, h1 s ha]; exact ⟨⟨ha, w2, w3, w4⟩, by simp⟩
        | title s => simp only [SetCall.run, h2 s ha]; exact ⟨⟨w1, ha, w3, w4⟩, by simp⟩
        | date s => simp only [SetCall.run, h3 s ha]; exact ⟨⟨w1, w2, ha, w4⟩, by simp⟩
        | defaultSong n =>
          obtain ⟨m, rfl⟩ := Int.eq_ofNat_of_zero_le ha.1
          have ha : m < i.songs := by have := ha.2; omega
          simp only [SetCall.run, h4 m ha]; exact ⟨⟨w1, w2, w3, ha⟩, by simp⟩
        | duration n d =>
          obtain ⟨m, rfl⟩ := Int.eq_ofNat_of_zero_le ha.1
          have ha : m < i.songs := by have := ha.2; omega
          simp only [SetCall.run, h5 m d ha]
          refine ⟨⟨w1, w2, w3, w4⟩, trivial, ?_, by simp⟩
          intro k hk; simp only [and_true]; rw [if_neg (by omega)]
        | loop n d =>
          obtain ⟨m, rfl⟩ := Int.eq_ofNat_of_zero_le ha.1
          have ha : m < i.songs := by have := ha.2; omega
          simp only [SetCall.run, h6 m d ha]
          refine ⟨⟨w1, w2, w3, w4⟩, trivial, ?_, by simp⟩
          intro k hk; simp only [true_and]; rw [if_neg (by omega)]
      · rw [(C04_failure_keeps i c hs).1]
        exact ⟨h, by simp⟩
    obtain ⟨s1, s2, s3, s4⟩ := step
    have := ih (c.run i).2 s1
    simp only [List.foldl_cons]
    simp only [s2, s4] at this
    refine ⟨this.1, this.2.1, ?_, this.2.2.2⟩
    intro k hk
    have h1 := this.2.2.1 k hk
    have h2 := s3 k hk
    exact ⟨h1.1.trans h2.1, h1.2.trans h2.2⟩

/-! ## Dates -/

theorem digitVal_some {c v : Nat} : digitVal c = some v ↔ (48 ≤ c ∧ c ≤ 57) ∧ v = c - 48 := by
  unfold digitVal; split <;> simp_all <;> omega

theorem checkDate_some (date : List Nat) : (∃ n, checkDate date = some n) →
    ∃ y m d, DateText date y m d := by
  rintro ⟨n, h⟩
  unfold checkDate at h
  simp only [] at h
  split at h
  · rename_i hn
    split at h
    · rename_i hc
      rcases hn with hn | hn | hn
      · match date, hn, hc with
        | [a, b, c, d], _, hc =>
          simp [List.mapIdx_cons, dateCharOk] at hc
          exact ⟨_, _, _, .y (digitVal_some.2 ⟨⟨hc.1.1, hc.1.2⟩, rfl⟩) (digitVal_some.2 ⟨⟨hc.2.1.1, hc.2.1.2⟩, rfl⟩)
            (digitVal_some.2 ⟨⟨hc.2.2.1.1, hc.2.2.1.2⟩, rfl⟩) (digitVal_some.2 ⟨⟨hc.2.2.2.1, hc.2.2.2.2⟩, rfl⟩)⟩
      · match date, hn, hc with
        | [p, q, s, a, b, c, d], _, hc =>
          simp [List.mapIdx_cons, dateCharOk] at hc
          obtain ⟨h1, h2, rfl, h3, h4, h5, h6⟩ := hc
          exact ⟨_, _, _, .my (digitVal_some.2 ⟨h1, rfl⟩) (digitVal_some.2 ⟨h2, rfl⟩) (digitVal_some.2 ⟨h3, rfl⟩)
            (digitVal_some.2 ⟨h4, rfl⟩) (digitVal_some.2 ⟨h5, rfl⟩) (digitVal_some.2 ⟨h6, rfl⟩)⟩
      · match date, hn, hc with
        | [p, q, s, m, n, t, a, b, c, d], _, hc =>
          simp [List.mapIdx_cons, dateCharOk] at hc
          obtain ⟨h1, h2, rfl, h3, h4, rfl, h5, h6, h7, h8⟩ := hc
          exact ⟨_, _, _, .dmy (digitVal_some.2 ⟨h1, rfl⟩) (digitVal_some.2 ⟨h2, rfl⟩) (digitVal_some.2 ⟨h3, rfl⟩)
            (digitVal_some.2 ⟨h4, rfl⟩) (digitVal_some.2 ⟨h5, rfl⟩) (digitVal_some.2 ⟨h6, rfl⟩)
            (digitVal_some.2 ⟨h7, rfl⟩) (digitVal_some.2 ⟨h8, rfl⟩)⟩
    · cases h
  · cases h

/-- C05.  Dates in one of the three formats yield their fields; absent fields are -1. -/
theorem C05_fields (date : List Nat) (y : Nat) (m d : Option Nat) (h : DateText date y m d) :
    getYear date = .ok (y : Int) ∧
    getMonth date = .ok (match m with | some v => (v : Int) | none => -1) ∧
    getDayOfMonth date = .ok (match d with | some v => (v : Int) | none => -1) := by
  cases h with
  | y h1 h2 h3 h4 =>
    rw [digitVal_some] at h1 h2 h3 h4
    obtain ⟨kh1, rfl⟩ := h1; obtain ⟨kh2, rfl⟩ := h2; obtain ⟨kh3, rfl⟩ := h3; obtain ⟨kh4, rfl⟩ := h4
    rename_i a b c d
    have hc : checkDate [a, b, c, d] = some 4 := by
      unfold checkDate
      rw [if_pos (.inl rfl), if_pos]
      · rfl
      simp [List.mapIdx_cons, dateCharOk, kh1, kh2, kh3, kh4]
    unfold getYear getMonth getDayOfMonth
    rw [hc]
    simp [twoDateDigits, rd, bind, Except.bind]
    omega
  | my g1 g2 h1 h2 h3 h4 =>
    rw [digitVal_some] at g1 g2 h1 h2 h3 h4
    obtain ⟨kh1, rfl⟩ := h1; obtain ⟨kh2, rfl⟩ := h2; obtain ⟨kh3, rfl⟩ := h3; obtain ⟨kh4, rfl⟩ := h4
    obtain ⟨kg1, rfl⟩ := g1; obtain ⟨kg2, rfl⟩ := g2
    rename_i m n a b c d
    have hc : checkDate [m, n, 47, a, b, c, d] = some 7 := by
      unfold checkDate
      rw [if_pos (.inr (.inl rfl)), if_pos]
      · rfl
      simp [List.mapIdx_cons, dateCharOk, kh1, kh2, kh3, kh4, kg1, kg2]
    unfold getYear getMonth getDayOfMonth
    rw [hc]
    simp [twoDateDigits, rd, bind, Except.bind]
    omega
  | dmy f1 f2 g1 g2 h1 h2 h3 h4 =>
    rw [digitVal_some] at f1 f2 g1 g2 h1 h2 h3 h4
    obtain ⟨kh1, rfl⟩ := h1; obtain ⟨kh2, rfl⟩ := h2; obtain ⟨kh3, rfl⟩ := h3; obtain ⟨kh4, rfl⟩ := h4
    obtain ⟨kg1, rfl⟩ := g1; obtain ⟨kg2, rfl⟩ := g2; obtain ⟨kf1, rfl⟩ := f1; obtain ⟨kf2, rfl⟩ := f2
    rename_i p q m n a b c d
    have hc : checkDate [p, q, 47, m, n, 47, a, b, c, d] = some 10 := by
      unfold checkDate
      rw [if_pos (.inr (.inr rfl)), if_pos]
      · rfl
      simp [List.mapIdx_cons, dateCharOk, kh1, kh2, kh3, kh4, kg1, kg2, kf1, kf2]
    unfold getYear getMonth getDayOfMonth
    rw [hc]
    simp [twoDateDigits, rd, bind, Except.bind]
    omega

example : DateText (ascii "28/08/1998") 1998 (some 8) (some 28) :=
  .dmy (vp := 2) (vq := 8) (vm := 0) (vn := 8) (va := 1) (vb := 9) (vc := 9) (vd := 8) rfl rfl rfl rfl rfl rfl rfl rfl

/-- C05.  For every other text all three fields are unknown. -/
theorem C05_unknown (date : List Nat) (h : ¬ ∃ y m d, DateText date y m d) :
    getYear date = .ok (-1) ∧ getMonth date = .ok (-1) ∧ getDayOfMonth date = .ok (-1) := by
  have : checkDate date = none := by
    cases hc : checkDate date with
    | none => rfl
    | some n => exact absurd (checkDate_some date ⟨n, hc⟩) h
  simp [getYear, getMonth, getDayOfMonth, this]

example : getYear (ascii "1994-1996") = .ok (-1) := by decide

/-! ## PAL / NTSC -/

/-- C39.  Marking a file as NTSC/PAL sets the flag and the matching player rate, and changes
durations of existing songs only; unknown (negative) and zero durations are kept. -/
theorem C39_setNtsc (i : Info) (b : Bool) :
    (i.setNtsc b).ntsc = b ∧ (i.setNtsc b).fastplay = (if b then 262 else 312) ∧
    (∀ s, i.songs ≤ s → (i.setNtsc b).durations s = i.durations s) ∧
    (∀ s, i.durations s ≤ 0 → (i.setNtsc b).durations s = i.durations s) ∧
    (i.setNtsc b).songs = i.songs ∧ (i.setNtsc b).type = i.type := by
  refine ⟨rfl, rfl, ?_, ?_, rfl, rfl⟩
  · intro s h; simp only [Info.setNtsc]; rw [if_neg (by omega)]
  · intro s h
    simp only [Info.setNtsc, scaleDuration]
    split
    · rw [if_neg (by omega)]
    · rfl

/-- C39.  A positive duration is multiplied by the exact ratio of the frame lengths, rounded down:
a PAL frame is 312*114 cycles of a 1773447 Hz clock, an NTSC frame 262*114 cycles of a
3579545/2 Hz clock.  `ms` and `ms'` satisfy `ms' <= ms * ratio < ms' + 1`. -/
theorem C39_ratio (i : Info) (s : Nat) (h : s < i.songs) (hd : 0 < i.durations s) :
    let d := i.durations s
    let n := (i.setNtsc true).durations s
    let p := (i.setNtsc false).durations s
    -- to NTSC: frames * (262 / (3579545/2)) / (312 / 1773447)
    (n * (3579545 * 312) ≤ d * (2 * 1773447 * 262) ∧ d * (2 * 1773447 * 262) < (n + 1) * (3579545 * 312)) ∧
    -- to PAL: the inverse ratio
    (p * (2 * 1773447 * 262) ≤ d * (3579545 * 312) ∧ d * (3579545 * 312) < (p + 1) * (2 * 1773447 * 262)) := by
  simp only [Info.setNtsc, h, if_true, scaleDuration]
  rw [if_pos hd, if_pos hd]
  generalize i.durations s = d at *
  simp only [Bool.false_eq_true, if_false]
  omega

/-- C39.  Switching to NTSC and back never lengthens a song and loses at most two milliseconds. -/
theorem C39_there_and_back (i : Info) (s : Nat) (h : s < i.songs) (hd : 1 < i.durations s) :
    ((i.setNtsc true).setNtsc false).durations s ≤ i.durations s ∧
    i.durations s ≤ ((i.setNtsc true).setNtsc false).durations s + 2 := by
  simp only [Info.setNtsc, h, if_true, scaleDuration]
  rw [if_pos (by omega)]
  generalize i.durations s = d at *
  simp only [Bool.false_eq_true, if_false]
  rw [if_pos (by omega)]
  omega

/-- C39.  `CanSetNtsc` is true exactly for type B files called once per frame, and stays true after
`SetNtsc`. -/
theorem C39_canSetNtsc (i : Info) (b : Bool) :
    (i.canSetNtsc = true ↔ i.type = .sapB ∧ i.fastplay = if i.ntsc then 262 else 312) ∧
    (i.canSetNtsc = true → (i.setNtsc b).canSetNtsc = true) := by
  have key : ∀ j : Info, j.canSetNtsc = true ↔ j.type = .sapB ∧ j.fastplay = if j.ntsc then 262 else 312 := by
    intro j
    simp only [Info.canSetNtsc, Bool.and_eq_true, decide_eq_true_eq]
  refine ⟨key i, fun h => (key _).2 ⟨((key i).1 h).1, rfl⟩⟩

example : ({ durations := fun _ => 180000 } : Info).canSetNtsc = true := by decide
example : (({ durations := fun _ => 180000 } : Info).setNtsc true).durations 0 = 149775 := by decide

end Asap.Props
