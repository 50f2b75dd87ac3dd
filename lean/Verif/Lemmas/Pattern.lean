import Verif.Spec.Pattern
import Verif.Lemmas.Tracker

/-! The scans of MPT, TMC and TM2 follow the specification of the patterns. -/

namespace Asap.Module.Tracker
open Asap Asap.Module Asap.Spec.Pattern

/-- A claim about results only. -/
abbrev OkP {α : Type} (P : α → Prop) (x : M α) : Prop := PostE (fun _ => True) P x

theorem okP_iff {α : Type} {P : α → Prop} {x : M α} : OkP P x ↔ ∀ a, x = .ok a → P a := by
  cases x with
  | ok a => exact ⟨fun h b hb => by cases hb; exact h, fun h => h a rfl⟩
  | error e => exact ⟨fun _ b hb => (nomatch hb), fun _ => trivial⟩

theorem rd_okP (m : List Nat) (i : Nat) : OkP (fun b => m[i]? = some b) (rd m i) := by
  unfold rd
  rcases h : m[i]? with _ | b
  · trivial
  · exact rfl

theorem rdI_okP (m : List Nat) (i : Int) : OkP (Has m i) (rdI m i) := by
  unfold rdI
  split
  · refine (rd_okP m _).mono (fun _ h => h) fun b h => ⟨‹_›, h⟩
  · trivial

theorem byte_eq {m : List Nat} {i b : Nat} (h : m[i]? = some b) : byte m i = b := by
  unfold byte
  rw [List.getD_eq_getElem?_getD, h]
  rfl

theorem has_nat {m : List Nat} {i : Int} {k b : Nat} (h : Has m i b) (hk : i = k) : byte m k = b := by
  subst hk
  exact byte_eq h.2

theorem has_fun {m : List Nat} {i : Int} {b c : Nat} (h : Has m i b) (h2 : Has m i c) : b = c := by
  have := h.2.symm.trans h2.2
  injection this

theorem getWord_okP (m : List Nat) (i : Nat) : OkP (fun w => w = byte m i + 256 * byte m (i + 1)) (getWord m i) := by
  unfold getWord
  refine PostE.bind (rd_okP m i) fun a ha => PostE.bind (rd_okP m (i + 1)) fun b hb => ?_
  rw [byte_eq ha, byte_eq hb]
  rfl

theorem splitAddr_okP (m : List Nat) (lo hi : Nat) (k : Int) : OkP (fun w => w = (address m lo hi : Int) - k) (splitAddr m lo hi k) := by
  unfold splitAddr
  refine PostE.bind (rdI_okP m _) fun a ha => PostE.bind (rdI_okP m _) fun b hb => ?_
  show _ = _
  unfold address
  rw [has_nat ha rfl, has_nat hb rfl]
  omega

theorem splitAddr_offset (m : List Nat) (lo hi : Nat) : OkP (fun w => w = offset m (address m lo hi))
    (splitAddr m lo hi (((byte m 2 + 256 * byte m 3 : Nat) : Int) - 6)) :=
  (splitAddr_okP m lo hi _).mono (fun _ h => h) fun w hw => by unfold offset; omega

/-! ### Rows of TMC and TM2 -/

/-- The commands follow the reader. -/
def Follows (commands : TmcCh → Nat → Bool → M (TmcCh × Nat × Bool)) (reads : Reader) : Prop :=
  ∀ c t s, c.blank < 0 → OkP (fun r : TmcCh × Nat × Bool => ∃ e, reads 0 c.offset e ∧ r.1.offset = e.next ∧ r.1.blank.toNat + 1 = e.wait ∧ e.gap = 0 ∧
    r.2.1 = e.tempo.getD t ∧ r.2.2 = (s || e.stop)) (commands c t s)

/-- A channel is at a voice. -/
def Sim (row : Nat) (c : TmcCh) (v : Voice) : Prop := v = ⟨some (row + c.blank.toNat), c.offset, 0⟩

theorem tmcRow_sim {commands : TmcCh → Nat → Bool → M (TmcCh × Nat × Bool)} {reads : Reader} (hc : Follows commands reads) (row k : Nat) (chs : Nat → TmcCh)
    (vs : Nat → Voice) (t : Nat) (s : Bool) (h : ∀ ch < k, Sim row (chs ch) (vs ch)) :
    OkP (fun r => ∃ vs', Row reads row k vs t s vs' r.2.1 r.2.2 ∧ (∀ ch < k, Sim (row + 1) (r.1 ch) (vs' ch)) ∧ ∀ ch, k ≤ ch → r.1 ch = chs ch ∧ vs' ch = vs ch)
      (tmcRow commands k chs t s) := by
  induction k generalizing chs vs t s with
  | zero => exact ⟨vs, .done, fun ch hch => absurd hch (Nat.not_lt_zero ch), fun ch _ => ⟨rfl, rfl⟩⟩
  | succ k ih =>
    have hk : vs k = ⟨some (row + (chs k).blank.toNat), (chs k).offset, 0⟩ := h k (by omega)
    unfold tmcRow
    dsimp only
    refine PostE.ite (fun hb => ?_) fun hb => ?_
    · refine (ih (upd chs k { chs k with blank := (chs k).blank - 1 }) vs t s fun ch hch => ?_).mono (fun _ h => h) ?_
      · rw [show upd chs k _ ch = chs ch from if_neg (by omega)]
        exact h ch (by omega)
      · rintro r ⟨vs', h1, h2, h3⟩
        refine ⟨vs', .idle ?_ h1, fun ch hch => ?_, fun ch hch => ?_⟩
        · rw [hk]
          intro e
          injection e with e
          omega
        · by_cases hlt : ch < k
          · exact h2 ch hlt
          · have : ch = k := by omega
            subst this
            obtain ⟨h4, h5⟩ := h3 ch (Nat.le_refl _)
            rw [h4, h5, show upd chs ch _ ch = _ from if_pos rfl, hk]
            unfold Sim
            congr 2
            show _ = row + 1 + ((chs ch).blank - 1).toNat
            omega
        · obtain ⟨h4, h5⟩ := h3 ch (by omega)
          rw [h4, h5]
          exact ⟨if_neg (by omega), rfl⟩
    · refine PostE.bind (hc { chs k with blank := (chs k).blank - 1 } t s (by show (chs k).blank - 1 < 0; omega)) ?_
      rintro ⟨c, t1, s1⟩ ⟨e, e1, e2, e3, e4, e5, e6⟩
      dsimp only at e1 e2 e3 e4 e5 e6 ⊢
      refine (ih (upd chs k c) (set vs k ⟨some (row + e.wait), e.next, e.gap⟩) t1 s1 fun ch hch => ?_).mono (fun _ h => h) ?_
      · rw [show upd chs k c ch = chs ch from if_neg (by omega), show set vs k _ ch = vs ch from if_neg (by omega)]
        exact h ch (by omega)
      · rintro r ⟨vs', h1, h2, h3⟩
        rw [e5, e6] at h1
        refine ⟨vs', .event (e := e) ?_ ?_ h1, fun ch hch => ?_, fun ch hch => ?_⟩
        · rw [hk]
          show some _ = some _
          congr 1
          omega
        · rw [hk]
          exact e1
        · by_cases hlt : ch < k
          · exact h2 ch hlt
          · have : ch = k := by omega
            subst this
            obtain ⟨h4, h5⟩ := h3 ch (Nat.le_refl _)
            rw [h4, h5, show upd chs ch c ch = c from if_pos rfl, show set vs ch _ ch = _ from if_pos rfl]
            unfold Sim
            rw [e2, e4, ← e3]
            congr 2
            omega
        · obtain ⟨h4, h5⟩ := h3 ch (by omega)
          rw [h4, h5]
          exact ⟨if_neg (by omega), if_neg (by omega)⟩

theorem tmcRows_sim {commands : TmcCh → Nat → Bool → M (TmcCh × Nat × Bool)} {reads : Reader} (hc : Follows commands reads) (n row : Nat) (chs : Nat → TmcCh)
    (vs : Nat → Voice) (t frames : Nat) (h : ∀ ch < 8, Sim row (chs ch) (vs ch)) :
    OkP (fun r => ∃ vs' calls, Rows reads 8 n row vs t vs' r.1 calls ∧ r.2 = frames + calls) (tmcRows commands n chs t frames) := by
  induction n generalizing row chs vs t frames with
  | zero => exact ⟨vs, 0, .all, rfl⟩
  | succ n ih =>
    unfold tmcRows
    refine PostE.bind (tmcRow_sim hc row 8 chs vs t false h) ?_
    rintro ⟨chs', t', s'⟩ ⟨vs', h1, h2, _⟩
    dsimp only at h1 h2 ⊢
    refine PostE.ite (fun hs => ?_) fun hs => ?_
    · rw [hs] at h1
      exact ⟨vs', t', .stop h1, rfl⟩
    · rw [show s' = false by simpa using hs] at h1
      refine (ih (row + 1) chs' vs' t' (frames + t') h2).mono (fun _ h => h) ?_
      rintro r ⟨vs'', calls, h3, h4⟩
      exact ⟨vs'', t' + calls, .next h1 h3, by omega⟩

/-- TMC as ASAP reads it: rests are one row longer. -/
def lateRest (b : Nat) : Nat := tmcRest b + 1

theorem tmcTempo_eq (j t : Nat) (s : Bool) : (Module.tmcTempo j t s).1 = (Spec.Pattern.tmcTempo j).getD t ∧ (Module.tmcTempo j t s).2 = (s || decide (j % 128 = 0)) := by
  unfold Module.tmcTempo Spec.Pattern.tmcTempo
  split
  · rename_i h
    rw [h]
    exact ⟨rfl, by simp⟩
  · rename_i h
    exact ⟨rfl, by simp [h]⟩

theorem tmcCommands_follows (m : List Nat) (fuel : Nat) : Follows (tmcCommands m fuel) (TmcReads m (some lateRest)) := by
  induction fuel with
  | zero => exact fun c t s _ => trivial
  | succ fuel ih =>
    intro c t s hneg
    unfold tmcCommands
    refine PostE.bind (rdI_okP m _) fun i hi => PostE.ite (fun h1 => ?_) fun h1 => PostE.ite (fun h2 => ?_) fun h2 => PostE.ite (fun h3 => ?_) fun h3 =>
      PostE.ite (fun h4 => ?_) fun h4 => ?_
    · exact ⟨_, .note hi h1, rfl, by show c.blank.toNat + 1 = 1; omega, rfl, rfl, by simp⟩
    · refine PostE.bind (rdI_okP m _) fun j hj => ?_
      rw [h2] at hi
      refine ⟨_, .command hi hj, ?_, by show c.blank.toNat + 1 = 1; omega, rfl, (tmcTempo_eq j t s).1, (tmcTempo_eq j t s).2⟩
      show (if j ≥ 0x80 then c.offset + 3 else c.offset + 2) = if j < 0x80 then c.offset + 2 else c.offset + 3
      by_cases hj8 : j < 0x80
      · rw [if_neg (by omega), if_pos hj8]
      · rw [if_pos (by omega), if_neg hj8]
    · refine PostE.bind (rdI_okP m _) fun j hj => ?_
      exact ⟨_, .both hi (by omega) h3 hj, rfl, by show c.blank.toNat + 1 = 1; omega, rfl, (tmcTempo_eq j t s).1, (tmcTempo_eq j t s).2⟩
    · refine (ih { c with offset := c.offset + 1 } t s hneg).mono (fun _ h => h) ?_
      rintro r ⟨e, e1, e2⟩
      exact ⟨e, .instrument hi (by omega) h4 e1, e2⟩
    · refine ⟨_, .rest hi (by omega) rfl, rfl, ?_, rfl, rfl, by simp⟩
      show ((i : Int) - 0xbf).toNat + 1 = i - 0xc0 + 1 + 1
      omega

theorem has_byte {m : List Nat} (hb : AllBytes m) {i : Int} {b : Nat} (h : Has m i b) : b < 256 := hb b (List.mem_of_getElem? h.2)

theorem tm2Commands_follows {m : List Nat} (hb : AllBytes m) (fuel : Nat) : Follows (tm2Commands m fuel) (Tm2Reads m 1) := by
  induction fuel with
  | zero => exact fun c t s _ => trivial
  | succ fuel ih =>
    intro c t s hneg
    unfold tm2Commands
    have h0 : c.blank.toNat + 1 = 1 := by omega
    refine PostE.bind (rdI_okP m _) fun i hi => PostE.ite (fun h1 => ?_) fun h1 => PostE.ite (fun h2 => ?_) fun h2 => PostE.ite (fun h3 => ?_) fun h3 =>
      PostE.ite (fun h4 => ?_) fun h4 => PostE.ite (fun h5 => ?_) fun h5 => PostE.ite (fun h6 => ?_) fun h6 => PostE.ite (fun h7 => ?_) fun h7 =>
      PostE.ite (fun h8 => ?_) fun h8 => PostE.ite (fun h9 => ?_) fun h9 => ?_
    · rw [h1] at hi
      exact ⟨_, .volume hi, rfl, h0, rfl, rfl, by simp⟩
    · refine PostE.bind (rdI_okP m _) fun j hj => ?_
      refine ⟨_, .note hi (by omega) h2 hj, ?_, h0, rfl, rfl, by simp⟩
      show (if j ≥ 0x80 then c.offset + 3 else c.offset + 2) = if j < 0x80 then c.offset + 2 else c.offset + 3
      by_cases hj8 : j < 0x80
      · rw [if_neg (by omega), if_pos hj8]
      · rw [if_pos (by omega), if_neg hj8]
    · exact ⟨_, .noteVolume hi (by omega) h3, rfl, h0, rfl, rfl, by simp⟩
    · refine PostE.bind (rdI_okP m _) fun j hj => ?_
      rw [h4] at hi
      exact ⟨_, .spaces hi hj, rfl, rfl, rfl, rfl, by simp⟩
    · exact ⟨_, .pitch hi (by omega) h5, rfl, h0, rfl, rfl, by simp⟩
    · refine (ih { c with offset := c.offset + 1 } (i - 0xbf) s hneg).mono (fun _ h => h) ?_
      rintro r ⟨e, e1, e2, e3, e4, e5, e6⟩
      refine ⟨_, .tempo hi (by omega) h6 e1, e2, e3, e4, ?_, e6⟩
      rw [e5]
      show _ = e.tempo.getD (i - 0xc0 + 1)
      rw [show i - 0xbf = i - 0xc0 + 1 by omega]
    · exact ⟨_, .special hi (by omega) h7, rfl, h0, rfl, rfl, by simp⟩
    · exact ⟨_, .specialVolume hi (by omega) h8, rfl, h0, rfl, rfl, by simp⟩
    · refine ⟨_, .few hi (by omega) h9, rfl, ?_, rfl, rfl, by simp⟩
      show ((i : Int) - 0xf0).toNat + 1 = i - 0xf0 + 1
      omega
    · have hlt := has_byte hb hi
      rw [show i = 0xff by omega] at hi
      exact ⟨_, .rest hi, rfl, rfl, rfl, rfl, by simp⟩

/-! ### Lines -/

theorem tmcLine_voices (m : List Nat) (line lo hi k : Nat) (chs : Nat → TmcCh) (hk : 2 * k ≤ line + 2) :
    OkP (fun r => (∀ ch < k, Sim 0 (r ch) ⟨some 0, offset m (address m (lo + byte m (line - 2 * ch)) (hi + byte m (line - 2 * ch))), 0⟩) ∧ ∀ ch, k ≤ ch → r ch = chs ch)
      (tmcLine m (((byte m 2 + 256 * byte m 3 : Nat) : Int) - 6) line lo hi k chs) := by
  induction k generalizing chs with
  | zero => exact ⟨fun ch h => absurd h (Nat.not_lt_zero ch), fun ch _ => rfl⟩
  | succ k ih =>
    unfold tmcLine
    refine PostE.bind (rdI_okP m _) fun pat hp => PostE.bind (splitAddr_offset m (lo + pat) (hi + pat)) fun off ho => ?_
    have hpb : byte m (line - 2 * k) = pat := has_nat hp (by omega)
    refine (ih _ (by omega)).mono (fun _ h => h) ?_
    rintro r ⟨h1, h2⟩
    refine ⟨fun ch hch => ?_, fun ch hch => ?_⟩
    · by_cases hlt : ch < k
      · exact h1 ch hlt
      · have : ch = k := by omega
        subst this
        rw [h2 ch (Nat.le_refl _), show upd chs ch _ ch = _ from if_pos rfl, hpb, ho]
        rfl
    · rw [h2 ch (by omega)]
      exact if_neg (by omega)

theorem tmcLoop_plays (m : List Nat) (fuel l t frames : Nat) :
    OkP (fun r => ∃ n l', TmcPlays m (some lateRest) l t n (decide (byte m (0x1b4 + 16 * l') < 0x80)) ∧ r.1 = 16 * l' ∧ r.2 = frames + n)
      (tmcLoop m (((byte m 2 + 256 * byte m 3 : Nat) : Int) - 6) fuel (16 * l) t frames) := by
  induction fuel generalizing l t frames with
  | zero => trivial
  | succ fuel ih =>
    unfold tmcLoop
    refine PostE.bind (rd_okP m _) fun x hx => ?_
    have hx' : byte m (0x1b5 + 16 * l) = x := byte_eq hx
    refine PostE.ite (fun h => ?_) fun h => ?_
    · refine PostE.bind (tmcLine_voices m (0x1b5 + 16 * l) 0xa6 0x126 8 _ (by omega)) fun chs hchs => ?_
      refine PostE.bind (tmcRows_sim (tmcCommands_follows m _) 64 0 chs (tmcVoices m l) t frames hchs.1) ?_
      rintro ⟨t', f'⟩ ⟨vs', calls, h1, h2⟩
      dsimp only at h1 h2 ⊢
      rw [show 16 * l + 16 = 16 * (l + 1) by omega]
      refine (ih (l + 1) t' f').mono (fun _ h => h) ?_
      rintro r ⟨n, l', h3, h4, h5⟩
      exact ⟨calls + n, l', .line (by omega) h1 h3, h4, by omega⟩
    · exact ⟨0, l, .over (by omega), rfl, rfl⟩

theorem tm2Loop_plays {m : List Nat} (hb : AllBytes m) (fuel l t frames : Nat) :
    OkP (fun r => ∃ n, Tm2Plays m 1 l t n r.1 ∧ r.2 = frames + n) (tm2Loop m (((byte m 2 + 256 * byte m 3 : Nat) : Int) - 6) fuel (17 * l) t frames) := by
  induction fuel generalizing l t frames with
  | zero => trivial
  | succ fuel ih =>
    unfold tm2Loop
    refine PostE.bind (rd_okP m _) fun x hx => ?_
    have hx' : tm2Rows m l = x := byte_eq hx
    refine PostE.ite (fun h => ?_) fun h => PostE.ite (fun h2 => ?_) fun h2 => ?_
    · exact ⟨0, .over (by omega), rfl⟩
    · exact ⟨0, .jump (by omega), rfl⟩
    · refine PostE.bind (tmcLine_voices m (0x395 + 17 * l) 0x106 0x206 8 _ (by omega)) fun chs hchs => ?_
      refine PostE.bind (tmcRows_sim (tm2Commands_follows hb _) x 0 chs (tm2Voices m l) t frames hchs.1) ?_
      rintro ⟨t', f'⟩ ⟨vs', calls, h3, h4⟩
      dsimp only at h3 h4 ⊢
      rw [show 17 * l + 17 = 17 * (l + 1) by omega]
      refine (ih (l + 1) t' f').mono (fun _ h => h) ?_
      rintro r ⟨n, h5, h6⟩
      exact ⟨calls + n, .line (by omega) (by omega) (by rw [hx']; exact h3) h5, by omega⟩

/-! ### Songs -/

/-- One song has been added. -/
structure One (i r : Info) (calls : Nat) (loop : Bool) : Prop where
  songs : r.songs = i.songs + 1
  max : i.songs < 32
  durations : r.durations = upd i.durations i.songs ((calls : Int) * i.fastplay * 38000 / 591149)
  loops : r.loops = if loop = true then upd i.loops i.songs true else i.loops
  rest : r = { i with songs := r.songs, durations := r.durations, loops := r.loops }

theorem addSong_one (i : Info) (loop : Bool) (calls : Nat) : OkP (fun r => One i r calls loop) (addSong (if loop = true then setLoops i true else i) calls) := by
  unfold addSong
  refine PostE.ite (fun h => ?_) fun _ => trivial
  cases loop
  · exact ⟨rfl, h, rfl, rfl, rfl⟩
  · exact ⟨rfl, h, rfl, rfl, rfl⟩

theorem parseTmcSong_one (m : List Nat) (i : Info) (l : Nat) :
    OkP (fun r => ∃ n loop, TmcPlays m (some lateRest) l (byte m 0x24 + 1) n loop ∧ One i r n loop) (parseTmcSong m i (16 * l)) := by
  unfold parseTmcSong
  refine PostE.bind (getWord_okP m 2) fun a ha => PostE.bind (rd_okP m _) fun tempo ht => ?_
  rw [ha, ← byte_eq ht]
  refine PostE.bind (tmcLoop_plays m _ l _ 0) ?_
  rintro ⟨p, f⟩ ⟨n, l', h1, h2, h3⟩
  dsimp only at h2 h3 ⊢
  subst h2
  subst h3
  refine PostE.bind (rd_okP m _) fun x hx => ?_
  rw [orLoops_prop]
  have hx' : byte m (0x1b4 + 16 * l') = x := byte_eq hx
  rw [hx'] at h1
  refine (addSong_one i (decide (x < 0x80)) (0 + n)).mono (fun _ h => h) fun r hr => ⟨n, _, h1, ?_⟩
  rwa [Nat.zero_add] at hr

theorem parseTm2Song_one {m : List Nat} (hb : AllBytes m) (i : Info) (l : Nat) :
    OkP (fun r => ∃ n loop, Tm2Plays m 1 l (byte m 0x24 + 1) n loop ∧ One i r n loop) (parseTm2Song m i (17 * l)) := by
  unfold parseTm2Song
  refine PostE.bind (getWord_okP m 2) fun a ha => PostE.bind (rd_okP m _) fun tempo ht => ?_
  rw [ha, ← byte_eq ht]
  refine PostE.bind (tm2Loop_plays hb _ l _ 0) ?_
  rintro ⟨loop, f⟩ ⟨n, h1, h2⟩
  dsimp only at h1 h2 ⊢
  subst h2
  refine (addSong_one i loop (0 + n)).mono (fun _ h => h) fun r hr => ⟨n, _, h1, ?_⟩
  rwa [Nat.zero_add] at hr

/-- The lines after the jumps among `n` lines from number `q` on. -/
def jumpsFrom (J : Nat → Bool) : Nat → Nat → List Nat
  | 0, _ => []
  | n + 1, q => if J q = true then (q + 1) :: jumpsFrom J n (q + 1) else jumpsFrom J n (q + 1)

theorem mem_jumpsFrom (J : Nat → Bool) (n q x : Nat) : x ∈ jumpsFrom J n q ↔ ∃ k, q ≤ k ∧ k < q + n ∧ J k = true ∧ x = k + 1 := by
  induction n generalizing q with
  | zero => exact ⟨fun h => (nomatch h), fun ⟨k, h1, h2, _⟩ => by omega⟩
  | succ n ih =>
    unfold jumpsFrom
    split
    · rename_i hJ
      rw [List.mem_cons, ih]
      constructor
      · rintro (rfl | ⟨k, h1, h2, h3, h4⟩)
        · exact ⟨q, Nat.le_refl _, by omega, hJ, rfl⟩
        · exact ⟨k, by omega, by omega, h3, h4⟩
      · rintro ⟨k, h1, h2, h3, h4⟩
        by_cases hk : k = q
        · subst hk; exact .inl h4
        · exact .inr ⟨k, by omega, by omega, h3, h4⟩
    · rename_i hJ
      rw [ih]
      constructor
      · rintro ⟨k, h1, h2, h3, h4⟩
        exact ⟨k, by omega, by omega, h3, h4⟩
      · rintro ⟨k, h1, h2, h3, h4⟩
        by_cases hk : k = q
        · subst hk; exact absurd h3 hJ
        · exact ⟨k, by omega, by omega, h3, h4⟩

theorem jumpsFrom_sorted (J : Nat → Bool) (n q : Nat) : (jumpsFrom J n q).Pairwise (· < ·) := by
  induction n generalizing q with
  | zero => exact .nil
  | succ n ih =>
    unfold jumpsFrom
    split
    · refine List.pairwise_cons.mpr ⟨fun x hx => ?_, ih _⟩
      obtain ⟨k, h1, _, _, h4⟩ := (mem_jumpsFrom J n (q + 1) x).mp hx
      omega
    · exact ih _

/-- The songs of a list have been added, up to 32. -/
structure Many (Plays : Nat → Nat → Bool → Prop) (i r : Info) (starts : List Nat) : Prop where
  songs : r.songs = min 32 (i.songs + starts.length)
  new : ∀ k l, starts[k]? = some l → i.songs + k < 32 → ∃ n, Plays l n (r.loops (i.songs + k)) ∧ r.durations (i.songs + k) = (n : Int) * i.fastplay * 38000 / 591149
  old : ∀ k < i.songs, r.loops k = i.loops k ∧ r.durations k = i.durations k
  behind : ∀ k, r.songs ≤ k → r.loops k = i.loops k ∧ r.durations k = i.durations k
  rest : r = { i with songs := r.songs, durations := r.durations, loops := r.loops }

theorem Many.refl (Plays : Nat → Nat → Bool → Prop) {i : Info} (h : i.songs ≤ 32) : Many Plays i i [] :=
  ⟨by simp; omega, fun k l h => (by simp at h), fun _ _ => ⟨rfl, rfl⟩, fun _ _ => ⟨rfl, rfl⟩, rfl⟩

theorem Many.full (Plays : Nat → Nat → Bool → Prop) {i : Info} (h : i.songs = 32) (l : List Nat) : Many Plays i i l :=
  ⟨by omega, fun k l _ hk => by omega, fun _ _ => ⟨rfl, rfl⟩, fun _ _ => ⟨rfl, rfl⟩, rfl⟩

theorem Many.cons {Plays : Nat → Nat → Bool → Prop} {i j r : Info} {n l : Nat} {loop : Bool} {ls : List Nat} (hl : i.loops i.songs = false)
    (hp : Plays l n loop) (h1 : One i j n loop) (h2 : Many Plays j r ls) : Many Plays i r (l :: ls) := by
  have hs := h1.songs
  have hm := h1.max
  have hf : j.fastplay = i.fastplay := by rw [h1.rest]
  have hloops : ∀ k, j.loops k = if k = i.songs then loop else i.loops k := fun k => by
    rw [h1.loops]
    cases loop
    · rw [if_neg Bool.false_ne_true]
      split
      · rename_i h; rw [h, hl]
      · rfl
    · rw [if_pos rfl]
      rfl
  refine ⟨by rw [h2.songs, hs, List.length_cons]; omega, fun k x hx hk => ?_, fun k hk => ?_, fun k hk => ?_, ?_⟩
  · cases k with
    | zero =>
      injection hx with hx
      subst hx
      obtain ⟨o1, o2⟩ := h2.old i.songs (by omega)
      refine ⟨n, ?_, ?_⟩
      · show Plays l n (r.loops i.songs)
        rw [o1, hloops, if_pos rfl]
        exact hp
      · show r.durations i.songs = _
        rw [o2, h1.durations]
        exact if_pos rfl
    | succ k =>
      have hx' : ls[k]? = some x := by simpa using hx
      have := h2.new k x hx' (by omega)
      rw [hs, hf, show i.songs + 1 + k = i.songs + (k + 1) by omega] at this
      exact this
  · obtain ⟨o1, o2⟩ := h2.old k (by omega)
    rw [o1, o2, hloops, if_neg (by omega), h1.durations]
    exact ⟨rfl, if_neg (by omega)⟩
  · obtain ⟨o1, o2⟩ := h2.behind k hk
    have : i.songs < k := by
      have := h2.songs
      omega
    rw [o1, o2, hloops, if_neg (by omega), h1.durations]
    exact ⟨rfl, if_neg (by omega)⟩
  · have a := h1.rest
    have b := h2.rest
    rw [b, a]

theorem afterJumps_many {jump : Int → M Bool} {step : Nat} (hstep : 0 < step) {J : Nat → Bool} (hj : ∀ q : Nat, OkP (fun b => b = J q) (jump ((step * q : Nat) : Int)))
    {song : Info → Nat → M Info} {Plays : Nat → Nat → Bool → Prop} (hsong : ∀ i l, OkP (fun r => ∃ n loop, Plays l n loop ∧ One i r n loop) (song i (step * l)))
    (last : Int) (fuel q n : Nat) (hn : ∀ k, (((step * (q + k) : Nat) : Int) < last ↔ k < n)) (i : Info) (hi : i.songs ≤ 32) (hl : ∀ k, i.songs ≤ k → i.loops k = false) :
    OkP (fun r => Many Plays i r (jumpsFrom J n q)) (afterJumps jump step song last fuel (step * q) i) := by
  induction fuel generalizing q n i with
  | zero => trivial
  | succ fuel ih =>
    unfold afterJumps
    refine PostE.ite (fun h => ?_) fun h => ?_
    · have h0 : 0 < n := (hn 0).mp h.1
      obtain ⟨n, rfl⟩ : ∃ k, n = k + 1 := ⟨n - 1, by omega⟩
      have hn' : ∀ k, (((step * (q + 1 + k) : Nat) : Int) < last ↔ k < n) := fun k => by
        rw [show q + 1 + k = q + (k + 1) by omega, hn (k + 1)]
        omega
      refine PostE.bind (hj q) fun j hj' => ?_
      rw [show step * q + step = step * (q + 1) by rw [Nat.mul_add, Nat.mul_one]]
      refine PostE.ite (fun hb => ?_) fun hb => ?_
      · refine PostE.bind (hsong i (q + 1)) ?_
        rintro i' ⟨c, loop, h1, h2⟩
        have hs := h2.songs
        have hmx := h2.max
        refine (ih (q + 1) n hn' i' (by omega) fun k hk => ?_).mono (fun _ h => h) fun r hr => ?_
        · rw [h2.loops]
          cases loop
          · rw [if_neg Bool.false_ne_true]
            exact hl k (by omega)
          · rw [if_pos rfl, show upd i.loops i.songs true k = i.loops k from if_neg (by omega)]
            exact hl k (by omega)
        · unfold jumpsFrom
          rw [if_pos (by rw [← hj']; exact hb)]
          exact Many.cons (hl _ (Nat.le_refl _)) h1 h2 hr
      · refine (ih (q + 1) n hn' i hi hl).mono (fun _ h => h) fun r hr => ?_
        unfold jumpsFrom
        rw [if_neg (by rw [← hj']; exact hb)]
        exact hr
    · by_cases hlt : ((step * q : Nat) : Int) < last
      · have : i.songs = 32 := by
          have : ¬ i.songs < 32 := fun h' => h ⟨hlt, h'⟩
          omega
        exact Many.full _ this _
      · have h0 : ¬ 0 < n := fun h' => hlt ((hn 0).mpr h')
        rw [show n = 0 by omega]
        exact Many.refl _ hi

theorem skipJumps_last {jump : Int → M Bool} {step : Int} {A B : Int → Prop} (hj : ∀ p, OkP (fun b => (b = true → A p) ∧ (b = false → B p)) (jump p)) (fuel : Nat) (last : Int) :
    OkP (fun r : Int => ∃ k : Nat, r = last - step * (k + 1) ∧ B r ∧ ∀ j : Nat, j < k → A (last - step * (j + 1))) (skipJumps jump step fuel last) := by
  induction fuel generalizing last with
  | zero => trivial
  | succ fuel ih =>
    unfold skipJumps
    refine PostE.ite (fun _ => trivial) fun _ => PostE.bind (hj _) fun j hj => PostE.ite (fun h => ?_) fun h => ?_
    · refine (ih (last - step)).mono (fun _ h => h) ?_
      rintro r ⟨k, h1, h2, h3⟩
      refine ⟨k + 1, ?_, h2, fun j' hj' => ?_⟩
      · rw [h1, Int.sub_sub]
        congr 1
        rw [Int.natCast_succ, Int.mul_add step ((k : Int) + 1) 1, Int.mul_one, Int.add_comm]
      · cases j' with
        | zero =>
          have := hj.1 h
          simpa using this
        | succ j' =>
          have := h3 j' (by omega)
          rw [Int.sub_sub] at this
          rw [Int.natCast_succ, Int.mul_add step ((j' : Int) + 1) 1, Int.mul_one, Int.add_comm _ step]
          exact this
    · exact ⟨0, by simp, hj.2 (by simpa using h), fun j' hj' => absurd hj' (Nat.not_lt_zero _)⟩

theorem tmcJump_okP (m : List Nat) (p : Int) : OkP (fun b => (b = true → TmcJump m p) ∧ (b = false → ∃ x, Has m (0x1b5 + p) x ∧ x < 0x80)) (Module.tmcJump m p) := by
  unfold Module.tmcJump
  refine PostE.bind (rdI_okP m _) fun x hx => ⟨fun h => ⟨x, hx, of_decide_eq_true h⟩, fun h => ⟨x, hx, ?_⟩⟩
  have := of_decide_eq_false h
  omega

theorem tm2Jump_okP (m : List Nat) (p : Int) : OkP (fun b => (b = true → Tm2Jump m p) ∧ (b = false → ∃ x, Has m (0x396 + p) x ∧ x ≠ 0 ∧ x < 0x80)) (Module.tm2Jump m p) := by
  unfold Module.tm2Jump
  refine PostE.bind (rdI_okP m _) fun x hx => ⟨fun h => ⟨x, hx, of_decide_eq_true h⟩, fun h => ⟨x, hx, ?_⟩⟩
  have := of_decide_eq_false h
  omega

theorem tmcInstrument_first (m : List Nat) (k i : Nat) (hi : ∀ j < i, byte m (0x66 + j) = 0) :
    OkP (fun n => n < i + k ∧ byte m (0x66 + n) ≠ 0 ∧ ∀ j < n, byte m (0x66 + j) = 0) (tmcInstrument m k i) := by
  induction k generalizing i with
  | zero => trivial
  | succ k ih =>
    unfold tmcInstrument
    refine PostE.bind (rd_okP m _) fun x hx => PostE.ite (fun h => ?_) fun h => ?_
    · refine (ih (i + 1) fun j hj => ?_).mono (fun _ h => h) fun n hn => ⟨by omega, hn.2⟩
      by_cases hji : j < i
      · exact hi j hji
      · rw [show j = i by omega, byte_eq hx, h]
    · exact ⟨by omega, by rw [byte_eq hx]; exact h, hi⟩

theorem tm2Least_min (m : List Nat) (lo hi k i least : Nat) :
    OkP (fun r => r ≤ least ∧ (r = least ∨ r ≠ 0 ∧ ∃ j, i ≤ j ∧ j < i + k ∧ r = address m (lo + j) (hi + j)) ∧
      ∀ j, i ≤ j → j < i + k → address m (lo + j) (hi + j) ≠ 0 → r ≤ address m (lo + j) (hi + j)) (tm2Least m lo hi k i least) := by
  induction k generalizing i least with
  | zero => exact ⟨Nat.le_refl _, .inl rfl, fun j h1 h2 => by omega⟩
  | succ k ih =>
    unfold tm2Least
    refine PostE.bind (rd_okP m _) fun l hl => PostE.bind (rd_okP m _) fun h hh => ?_
    have ha : address m (lo + i) (hi + i) = l + 256 * h := by unfold address; rw [byte_eq hl, byte_eq hh]
    refine (ih (i + 1) _).mono (fun _ h => h) ?_
    rintro r ⟨h1, h2, h3⟩
    have hle : r ≤ least := by
      split at h1 <;> omega
    refine ⟨hle, ?_, fun j hj1 hj2 hne => ?_⟩
    · rcases h2 with h2 | ⟨h2, j, j1, j2, j3⟩
      · split at h2
        · exact .inr ⟨by omega, i, Nat.le_refl _, by omega, by rw [ha]; exact h2⟩
        · exact .inl h2
      · exact .inr ⟨h2, j, by omega, by omega, j3⟩
    · by_cases hji : j = i
      · subst hji
        rw [ha] at hne ⊢
        split at h1 <;> omega
      · exact h3 j (by omega) (by omega) hne

/-- The result of a scan: the songs start at line 0 and after each jump before the last line. -/
def Found (step : Nat) (Jump : Int → Prop) (Plays : Nat → Nat → Bool → Prop) (last : Int) (fastplay : Int) (r : Info) : Prop :=
  ∃ starts : List Nat, starts.Pairwise (· < ·) ∧ (∀ l, l ∈ starts ↔ l = 0 ∨ ∃ k : Nat, l = k + 1 ∧ (step * k : Int) < last ∧ Jump (step * k)) ∧
    r.songs = min 32 starts.length ∧ (∀ k l, starts[k]? = some l → k < 32 → ∃ n, Plays l n (r.loops k) ∧ r.durations k = (n : Int) * fastplay * 38000 / 591149) ∧
    ∀ k, r.songs ≤ k → r.durations k = -1

theorem found {step : Nat} {Jump : Int → Prop} {Plays : Nat → Nat → Bool → Prop} {last : Int} {J : Nat → Bool} {n : Nat} {i j r : Info} {c : Nat} {loop : Bool}
    (h1 : One i j c loop) (h2 : Many Plays j r (jumpsFrom J n 0)) (hJ : ∀ k : Nat, k < n → (J k = true ↔ Jump (step * k))) (hn : ∀ k : Nat, (step * k : Int) < last ↔ k < n) (h0 : Plays 0 c loop) (hi : i.songs = 0)
    (hl : i.loops 0 = false) (hd : ∀ k, i.durations k = -1) : Found step Jump Plays last i.fastplay r := by
  have hm := Many.cons (by rw [hi]; exact hl) h0 h1 h2
  refine ⟨0 :: jumpsFrom J n 0, List.pairwise_cons.mpr ⟨fun x hx => ?_, jumpsFrom_sorted J n 0⟩, fun l => ?_, ?_, fun k l hk hk2 => ?_, fun k hk => ?_⟩
  · obtain ⟨k, _, _, _, h⟩ := (mem_jumpsFrom J n 0 x).mp hx
    omega
  · rw [List.mem_cons, mem_jumpsFrom]
    constructor
    · rintro (h | ⟨k, _, h2, h3, h4⟩)
      · exact .inl h
      · exact .inr ⟨k, h4, (hn k).mpr (by omega), (hJ k (by omega)).mp h3⟩
    · rintro (h | ⟨k, h1, h2, h3⟩)
      · exact .inl h
      · have := (hn k).mp h2
        exact .inr ⟨k, Nat.zero_le _, by omega, (hJ k this).mpr h3, h1⟩
  · rw [hm.songs, hi, Nat.zero_add]
  · have := hm.new k l hk (by omega)
    rw [hi, Nat.zero_add] at this
    exact this
  · rw [(hm.behind k hk).2, hd]

theorem getElem?_has {m : List Nat} {k : Nat} (h : k < m.length) : Has m (k : Int) (byte m k) := by
  refine ⟨by omega, ?_⟩
  show m[k]? = _
  unfold byte
  rw [List.getD_eq_getElem?_getD, List.getElem?_eq_getElem h]
  rfl

theorem parseTmc_found {m : List Nat} (i : Info) (hf : i.fastplay = 312) (hl : i.loops 0 = false ∧ ∀ k, i.loops k = false) (hd : ∀ k, i.durations k = -1) :
    OkP (fun r => ∃ last, TmcLast m last ∧ Found 16 (TmcJump m) (fun l => TmcPlays m (some lateRest) l (byte m 0x24 + 1)) last 312 r) (parseTmc i m) := by
  unfold parseTmc
  refine PostE.ite (fun _ => trivial) fun hlen => PostE.bind (okP_iff.mpr fun _ _ => trivial) fun music _ => ?_
  refine PostE.bind (tmcInstrument_first m 64 0 fun j hj => absurd hj (Nat.not_lt_zero j)) fun n hn => PostE.bind (rd_okP m _) fun hi hhi => PostE.bind (rd_okP m _) fun lo hlo => ?_
  refine PostE.bind (getWord_okP m 2) fun a ha => PostE.ite (fun _ => trivial) fun hlast => ?_
  have hE : (hi : Int) * 256 + lo - a - 0x1b0 = offset m (address m (0x26 + n) (0x66 + n)) - 0x1b6 := by
    have e3 : byte m (2 + 1) = byte m 3 := rfl
    unfold offset address
    rw [byte_eq hhi, byte_eq hlo, ha]
    omega
  rw [hE] at hlast ⊢
  refine PostE.bind (skipJumps_last (step := 16) (tmcJump_okP m) _ _) ?_
  rintro last ⟨k, k1, k2, k3⟩
  have hLast : TmcLast m last := ⟨n, by omega, hn.2.1, hn.2.2, k, k1, k2, k3⟩
  refine PostE.bind (parseTmcSong_one m _ 0) ?_
  rintro j ⟨c, loop, p0, h1⟩
  have hJ : ∀ q : Nat, OkP (fun b => b = decide (0x80 ≤ byte m (0x1b5 + 16 * q))) (Module.tmcJump m ((16 * q : Nat) : Int)) := fun q => by
    unfold Module.tmcJump
    refine PostE.bind (rdI_okP m _) fun x hx => ?_
    show decide (x ≥ 0x80) = _
    rw [has_nat (k := 0x1b5 + 16 * q) hx (by omega)]
  refine PostE.bind (afterJumps_many (by decide) hJ (parseTmcSong_one m) last _ 0 ((last + 15) / 16).toNat (fun k => by omega) j
    (by have := h1.songs; have := h1.max; omega) fun k hk => ?_) fun r hr => ?_
  · rw [h1.loops]
    have := h1.songs
    cases loop
    · exact hl.2 k
    · rw [if_pos rfl]
      have : k ≠ 0 := by intro h; rw [h] at hk; omega
      exact (if_neg this).trans (hl.2 k)
  · refine PostE.bind (rd_okP m _) fun rate _ => PostE.ite (fun _ => trivial) fun _ => PostE.bind (okP_iff.mpr fun _ _ => trivial) fun title _ => ?_
    refine ⟨last, hLast, ?_⟩
    have := found (step := 16) (Jump := TmcJump m) (last := last) h1 hr (fun k hk => ?_) (fun k => by omega) p0 rfl hl.1 hd
    · rw [show (312 : Int) = i.fastplay from hf.symm]
      exact this
    · have hin : 0x1b5 + 16 * k < m.length := by omega
      rw [decide_eq_true_eq]
      constructor
      · intro h
        refine ⟨_, ?_, h⟩
        have := getElem?_has hin
        rw [show ((0x1b5 + 16 * k : Nat) : Int) = 0x1b5 + ((16 : Nat) : Int) * (k : Int) by omega] at this
        exact this
      · rintro ⟨b, hb, h⟩
        rw [has_nat (k := 0x1b5 + 16 * k) hb (by omega)]
        exact h

theorem parseTm2_found {m : List Nat} (hb : AllBytes m) (i : Info) (hl : i.loops 0 = false ∧ ∀ k, i.loops k = false) (hd : ∀ k, i.durations k = -1) :
    OkP (fun r => ∃ last, Tm2Last m last ∧ 1 ≤ byte m 0x25 ∧ byte m 0x25 ≤ 4 ∧
      Found 17 (Tm2Jump m) (fun l => Tm2Plays m 1 l (byte m 0x24 + 1)) last (312 / byte m 0x25) r) (parseTm2 i m) := by
  unfold parseTm2
  refine PostE.ite (fun _ => trivial) fun hlen => PostE.bind (okP_iff.mpr fun _ _ => trivial) fun music _ => ?_
  refine PostE.bind (rd_okP m _) fun rate hrate => PostE.ite (fun _ => trivial) fun hr4 => PostE.bind (okP_iff.mpr fun _ _ => trivial) fun stereo _ => ?_
  refine PostE.bind (tm2Least_min m _ _ _ _ _) fun l1 hl1 => PostE.bind (tm2Least_min m _ _ _ _ _) fun least hl2 => ?_
  refine PostE.bind (getWord_okP m 2) fun a ha => PostE.ite (fun _ => trivial) fun hlast => ?_
  have hE : (least : Int) - (a + 0x380) = offset m least - 0x386 := by
    have e3 : byte m (2 + 1) = byte m 3 := rfl
    unfold offset
    rw [ha]
    omega
  rw [hE] at hlast ⊢
  refine PostE.bind (skipJumps_last (step := 17) (tm2Jump_okP m) _ _) ?_
  rintro last ⟨k, k1, k2, k3⟩
  have hLast : Tm2Last m last := by
    refine ⟨least, by omega, ?_, ?_, k, k1, k2, k3⟩
    · rcases hl2.2.1 with h | ⟨h, j, _, j2, j3⟩
      · rcases hl1.2.1 with h' | ⟨h', j, _, j2, j3⟩
        · exact .inl (by omega)
        · exact .inr ⟨by omega, .inl ⟨j, by omega, by omega⟩⟩
      · exact .inr ⟨h, .inr ⟨j, by omega, j3⟩⟩
    · rintro x ⟨hx, ⟨j, j1, j2⟩ | ⟨j, j1, j2⟩⟩
      · have := hl1.2.2 j (Nat.zero_le _) (by omega) (by omega)
        omega
      · have := hl2.2.2 j (Nat.zero_le _) (by omega) (by omega)
        omega
  refine PostE.bind (parseTm2Song_one hb _ 0) ?_
  rintro j ⟨c, loop, p0, h1⟩
  have hJ : ∀ q : Nat, OkP (fun b => b = decide (byte m (0x396 + 17 * q) = 0 ∨ 0x80 ≤ byte m (0x396 + 17 * q))) (Module.tm2Jump m ((17 * q : Nat) : Int)) := fun q => by
    unfold Module.tm2Jump
    refine PostE.bind (rdI_okP m _) fun x hx => ?_
    show decide (x = 0 ∨ x ≥ 0x80) = _
    rw [has_nat (k := 0x396 + 17 * q) hx (by omega)]
  refine PostE.bind (afterJumps_many (by decide) hJ (parseTm2Song_one hb) last _ 0 ((last + 16) / 17).toNat (fun k => by omega) j
    (by have := h1.songs; have := h1.max; omega) fun k hk => ?_) fun r hr => ?_
  · rw [h1.loops]
    have := h1.songs
    cases loop
    · exact hl.2 k
    · rw [if_pos rfl]
      have : k ≠ 0 := by intro h; rw [h] at hk; omega
      exact (if_neg this).trans (hl.2 k)
  · refine PostE.bind (okP_iff.mpr fun _ _ => trivial) fun title _ => ?_
    rw [byte_eq hrate]
    refine ⟨last, hLast, by omega, by omega, ?_⟩
    have := found (step := 17) (Jump := Tm2Jump m) (last := last) h1 hr (fun k hk => ?_) (fun k => by omega) p0 rfl hl.1 hd
    · exact this
    have hin : 0x396 + 17 * k < m.length := by
      have := k2
      obtain ⟨x, ⟨_, hx⟩, _⟩ := k2
      have := (List.getElem?_eq_some_iff.mp hx).1
      omega
    rw [decide_eq_true_eq]
    constructor
    · intro h
      refine ⟨_, ?_, h⟩
      have := getElem?_has hin
      rw [show ((0x396 + 17 * k : Nat) : Int) = 0x396 + ((17 : Nat) : Int) * (k : Int) by omega] at this
      exact this
    · rintro ⟨b, hb, h⟩
      rw [has_nat (k := 0x396 + 17 * k) hb (by omega)]
      exact h

end Asap.Module.Tracker
