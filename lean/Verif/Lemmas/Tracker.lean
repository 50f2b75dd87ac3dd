import Verif.Model.Tracker
import Verif.Lemmas.Dlt

/-! MPT, TMC, TM2 and RMT: the parsers end. -/

namespace Asap.Module.Tracker
open Asap Asap.Module

/-- `Ends`, but with the tables of the program in view: reading outside the module is the only other fault. -/
abbrev PE {α : Type} (P : α → Prop) (x : M α) : Prop := PostE Ends P x

theorem ends_thrown (s : String) : Ends (.thrown s) := fun h => by cases h

theorem ends_ub : Ends .ub := fun h => by cases h

theorem rd_ends {m : List Nat} (hb : AllBytes m) (i : Nat) : PE (fun b => i < m.length ∧ b < 256) (rd m i) := by
  unfold rd
  rcases h : m[i]? with _ | b
  · exact ends_ub
  · exact ⟨(List.getElem?_eq_some_iff.mp h).1, hb b (List.mem_of_getElem? h)⟩

theorem rdI_ends {m : List Nat} (hb : AllBytes m) (i : Int) : PE (fun b => 0 ≤ i ∧ i < m.length ∧ b < 256) (rdI m i) := by
  unfold rdI
  split
  · refine (rd_ends hb _).mono (fun _ h => h) fun b h => ⟨‹_›, by omega, h.2⟩
  · exact ends_ub

theorem getWord_ends {m : List Nat} (hb : AllBytes m) (i : Nat) : PE (fun w => w < 65536) (getWord m i) := by
  unfold getWord
  refine PostE.bind (rd_ends hb i) fun a ha => PostE.bind (rd_ends hb (i + 1)) fun b hb => ?_
  show _ < _
  omega

theorem getWordI_ends {m : List Nat} (hb : AllBytes m) (i : Int) : PE (fun w => w < 65536) (getWordI m i) := by
  unfold getWordI
  refine PostE.bind (rdI_ends hb i) fun a ha => PostE.bind (rdI_ends hb (i + 1)) fun b hb => ?_
  show _ < _
  omega

theorem splitAddr_ends {m : List Nat} (hb : AllBytes m) (lo hi off : Int) : PE (fun _ => True) (splitAddr m lo hi off) :=
  PostE.bind (rdI_ends hb lo) fun _ _ => PostE.bind (rdI_ends hb hi) fun _ _ => trivial

/-- Songs are added, nothing else changes. -/
structure Added (i r : Info) : Prop where
  le : i.songs ≤ r.songs
  max : r.songs ≤ 32
  new : ∀ k, i.songs ≤ k → k < r.songs → 0 ≤ r.durations k
  old : ∀ k, k < i.songs ∨ r.songs ≤ k → r.durations k = i.durations k
  rest : r = { i with songs := r.songs, songPos := r.songPos, loops := r.loops, durations := r.durations }

theorem Added.refl {i : Info} (h : i.songs ≤ 32) : Added i i := ⟨Nat.le_refl _, h, fun _ _ _ => by omega, fun _ _ => rfl, rfl⟩

theorem Added.fastplay {i r : Info} (h : Added i r) : r.fastplay = i.fastplay := by rw [h.rest]

theorem Added.trans {i j r : Info} (h1 : Added i j) (h2 : Added j r) : Added i r := by
  refine ⟨Nat.le_trans h1.le h2.le, h2.max, fun k a b => ?_, fun k a => ?_, ?_⟩
  · by_cases c : k < j.songs
    · rw [h2.old k (.inl c)]; exact h1.new k a c
    · exact h2.new k (by omega) b
  · have := h1.le
    have := h2.le
    rw [h2.old k (by omega), h1.old k (by omega)]
  · have := h2.rest
    rw [h1.rest] at this
    exact this

theorem Added.setLoops {i : Info} (h : i.songs ≤ 32) (b : Bool) : Added i (setLoops i b) :=
  ⟨Nat.le_refl _, h, fun k a c => absurd c (Nat.not_lt.mpr a), fun _ _ => rfl, rfl⟩

theorem Added.setSongPos {i : Info} (h : i.songs ≤ 32) (p : Nat) : Added i (setSongPos i p) :=
  ⟨Nat.le_refl _, h, fun k a c => absurd c (Nat.not_lt.mpr a), fun _ _ => rfl, rfl⟩

theorem addSong_ends {i : Info} (h : i.songs < 32) (hf : 0 ≤ i.fastplay) {calls : Int} (hc : 0 ≤ calls) :
    PE (fun r => Added i r ∧ r.songs = i.songs + 1) (addSong i calls) := by
  refine (addSong_post h ?_).toE ends_thrown
  refine ⟨⟨Nat.le_succ _, h, fun k a b => ?_, fun k a => ?_, rfl⟩, rfl⟩
  · have b : k < i.songs + 1 := b
    have : k = i.songs := by omega
    subst this
    show 0 ≤ upd i.durations i.songs _ i.songs
    rw [upd, if_pos rfl]
    exact Int.ediv_nonneg (Int.mul_nonneg (Int.mul_nonneg hc hf) (by decide)) (by decide)
  · have a : k < i.songs ∨ i.songs + 1 ≤ k := a
    show upd i.durations i.songs _ k = _
    rw [upd, if_neg (by omega)]

theorem orLoops_songs (i : Info) (b c : Bool) : (if b then setLoops i c else i).songs = i.songs := by cases b <;> rfl

theorem orLoops_added {i : Info} (h : i.songs ≤ 32) (b c : Bool) : Added i (if b then setLoops i c else i) := by
  cases b
  · exact Added.refl h
  · exact Added.setLoops h c

theorem addSongLoops_ends {i j : Info} (hj : Added i j) (hs : j.songs = i.songs) (h : i.songs < 32) (hf : 0 ≤ i.fastplay) {calls : Int} (hc : 0 ≤ calls) :
    PE (fun r => Added i r ∧ r.songs = i.songs + 1) (addSong j calls) :=
  (addSong_ends (by omega) (by rw [hj.fastplay]; exact hf) hc).mono (fun _ h => h) fun r hr => ⟨hj.trans hr.1, by rw [hr.2, hs]⟩

theorem addFound_ends {i : Info} (h : i.songs < 32) (hf : 0 ≤ i.fastplay) (loop : Bool) (calls : Nat) :
    PE (Added i) (addFound i loop calls) := by
  have hj := orLoops_added (Nat.le_of_lt h) loop true
  unfold addFound
  refine PostE.ite (fun _ => ?_) fun _ => hj
  exact (addSongLoops_ends hj (orLoops_songs _ _ _) h hf (by omega)).mono (fun _ h => h) fun _ h => h.1

theorem eachSong_ends {E : Fault → Prop} {song : Info → (Nat → Bool) → Nat → M (Info × (Nat → Bool))}
    (hsong : ∀ i seen pos, i.songs < 32 → 0 ≤ i.fastplay → PostE E (fun r => Added i r.1) (song i seen pos)) (k pos : Nat) (i : Info) (seen : Nat → Bool)
    (hs : i.songs ≤ 32) (hf : 0 ≤ i.fastplay) : PostE E (Added i) (eachSong song k pos i seen) := by
  induction k generalizing pos i seen with
  | zero => exact Added.refl hs
  | succ k ih =>
    unfold eachSong
    refine PostE.ite (fun hlt => PostE.ite (fun _ => ih _ _ _ hs hf) fun _ => ?_) fun _ => Added.refl hs
    have h0 := Added.setSongPos hs pos
    refine PostE.bind (hsong (setSongPos i pos) seen pos hlt hf) fun r hr => ?_
    have h1 := h0.trans hr
    exact (ih _ r.1 r.2 hr.max (by rw [h1.fastplay]; exact hf)).mono (fun _ h => h) fun _ h => h1.trans h

/-! ### Visited lines -/

/-- Lines that have not been visited. -/
def left (v : Visits) : Nat := unseen (fun k => decide (v.seen k ≠ 0)) 256

theorem left_le (v : Visits) : left v ≤ 256 := unseen_le _ _

theorem left_visit {v : Visits} {pos : Nat} (hp : pos < 256) (h : v.seen pos = 0) : left (v.visit pos) + 1 = left v := by
  have := unseen_upd (fun k => decide (v.seen k ≠ 0)) pos 256 hp (by simp [h])
  unfold left
  rw [← this]
  congr 2
  funext k
  show decide (upd v.seen pos 1 k ≠ 0) = upd (fun k => decide (v.seen k ≠ 0)) pos true k
  unfold upd
  split <;> simp

theorem left_played (v : Visits) (n : Int) : left (v.played n) = left v := by
  unfold left
  congr 1
  funext k
  show decide ((if (k : Int) < n ∧ v.seen k = 1 then 2 else v.seen k) ≠ 0) = _
  split
  · simp [‹_ ∧ _›.2]
  · rfl

/-! ### MPT -/

theorem mptCommands_ends {m : List Nat} (hb : AllBytes m) (fuel : Nat) (c : MptCh) (tempo : Nat) (stop : Bool)
    (hf : 0 < fuel) (h : 0 ≤ c.offset → (m.length : Int) < c.offset + fuel) : PE (fun _ => True) (mptCommands m fuel c tempo stop) := by
  induction fuel generalizing c tempo stop with
  | zero => omega
  | succ fuel ih =>
    unfold mptCommands
    refine PostE.bind (rdI_ends hb _) fun i hi => ?_
    have hf : 0 < fuel := by have := h hi.1; omega
    have step : ∀ c' : MptCh, c'.offset = c.offset + 1 → ∀ t s, PE (fun _ => True) (mptCommands m fuel c' t s) := by
      intro c' hc t s
      refine ih c' t s hf fun _ => ?_
      have := h hi.1
      omega
    refine PostE.ite (fun _ => trivial) fun _ => PostE.ite (fun _ => step _ rfl _ _) fun _ => PostE.ite (fun _ => step _ rfl _ _) fun _ =>
      PostE.ite (fun _ => step _ rfl _ _) fun _ => PostE.ite (fun _ => step _ rfl _ _) fun _ => step _ rfl _ _

theorem mptChannel_ends {m : List Nat} (hb : AllBytes m) (c : MptCh) (tempo : Nat) (stop : Bool) : PE (fun _ => True) (mptChannel m c tempo stop) := by
  unfold mptChannel
  refine PostE.ite (fun _ => trivial) fun _ => PostE.ite (fun _ => trivial) fun _ => ?_
  refine PostE.bind (mptCommands_ends hb _ _ _ _ (Nat.succ_pos _) fun h => ?_) fun _ _ => trivial
  show (m.length : Int) < c.offset + ((m.length + 1 : Nat) : Int)
  have h : 0 ≤ c.offset := h
  omega

theorem mptRow_ends {m : List Nat} (hb : AllBytes m) (k : Nat) (chs : Nat → MptCh) (tempo : Nat) (stop : Bool) : PE (fun _ => True) (mptRow m k chs tempo stop) := by
  induction k generalizing chs tempo stop with
  | zero => trivial
  | succ k ih => exact PostE.bind (mptChannel_ends hb _ _ _) fun _ _ => ih _ _ _

theorem mptRows_ends {m : List Nat} (hb : AllBytes m) (k : Nat) (chs : Nat → MptCh) (tempo calls : Nat) : PE (fun _ => True) (mptRows m k chs tempo calls) := by
  induction k generalizing chs tempo calls with
  | zero => trivial
  | succ k ih => exact PostE.bind (mptRow_ends hb _ _ _ _) fun _ _ => PostE.ite (fun _ => trivial) fun _ => ih _ _ _

theorem mptLine_ends {m : List Nat} (hb : AllBytes m) (a : Int) (pos k : Nat) (chs : Nat → MptCh) : PE (fun _ => True) (mptLine m a pos k chs) := by
  induction k generalizing chs with
  | zero => trivial
  | succ k ih =>
    refine PostE.bind (splitAddr_ends hb _ _ _) fun _ _ => PostE.bind (rdI_ends hb _) fun _ _ => PostE.ite (fun _ => trivial) fun _ => ?_
    exact PostE.bind (getWord_ends hb _) fun _ _ => ih _

theorem mptLoop_ends {m : List Nat} (hb : AllBytes m) (a songLen : Int) (fuel pos : Nat) (chs : Nat → MptCh) (tempo calls : Nat) (v : Visits)
    (hf : left v < fuel) : PE (fun _ => True) (mptLoop m a songLen fuel pos chs tempo calls v) := by
  induction fuel generalizing pos chs tempo calls v with
  | zero => omega
  | succ fuel ih =>
    unfold mptLoop
    refine PostE.ite (fun _ => PostE.ite (fun _ => ends_ub) fun hp => PostE.ite (fun _ => trivial) fun hs => ?_) fun _ => trivial
    have hl := left_visit (Nat.lt_of_not_le hp) (Decidable.not_not.mp hs)
    refine PostE.bind (rd_ends hb _) fun i _ => PostE.ite (fun _ => ?_) fun _ => ?_
    · exact PostE.bind (rd_ends hb _) fun p _ => ih _ _ _ _ _ (by omega)
    · refine PostE.bind (mptLine_ends hb _ _ _ _) fun line _ => ?_
      cases line with
      | none => trivial
      | some chs =>
        refine PostE.bind (rd_ends hb _) fun rows _ => PostE.bind (mptRows_ends hb _ _ _ _) fun r _ => ?_
        exact ih _ _ _ _ _ (by rw [left_played]; omega)

theorem parseMptSong_ends {m : List Nat} (hb : AllBytes m) (songLen : Int) (i : Info) (glob : Nat → Bool) (pos : Nat) (h : i.songs < 32) (hf : 0 ≤ i.fastplay) :
    PE (fun r => Added i r.1) (parseMptSong m songLen i glob pos) := by
  unfold parseMptSong
  refine PostE.bind (getWord_ends hb _) fun a _ => PostE.bind (rd_ends hb _) fun tempo _ => ?_
  refine PostE.bind (mptLoop_ends hb _ _ _ _ _ _ _ _ (by have := left_le { glob := glob }; omega)) fun r _ => ?_
  exact PostE.bind (addFound_ends h hf _ _) fun _ h => h

theorem parseModule_ends {m : List Nat} (hb : AllBytes m) (r : Bool) : PE (fun music => 0 ≤ music ∧ music < 65536) (parseModule r m) := by
  unfold parseModule
  refine PostE.bind (P := fun _ => True) (PostE.bind (rd_ends hb _) fun _ _ => PostE.bind (rd_ends hb _) fun _ _ => trivial) fun ok _ => ?_
  refine PostE.ite (fun _ => ends_thrown _) fun _ => ?_
  refine PostE.bind (getWord_ends hb _) fun a ha => PostE.bind (getWord_ends hb _) fun b hb' => ?_
  refine PostE.ite (fun _ => ends_thrown _) fun _ => ?_
  refine PostE.bind (P := fun _ => True) ?_ fun _ _ => ⟨by omega, by omega⟩
  unfold checkLength
  refine PostE.ite (fun _ => PostE.ite (fun _ => ends_thrown _) fun _ => ?_) fun _ => trivial
  unfold checkRmtInfo
  refine PostE.bind (getWordI_ends hb _) fun _ _ => PostE.ite (fun _ => ends_thrown _) fun _ => ?_
  exact PostE.bind (getWordI_ends hb _) fun _ _ => PostE.ite (fun _ => ends_thrown _) fun _ => trivial

/-- What a parser of a format leaves in a blank record. -/
structure Accepted (type : ModType) (i r : Info) : Prop where
  type_eq : r.type = type
  songs_pos : 1 ≤ r.songs
  songs_le : r.songs ≤ 32
  durations : ∀ k, k < r.songs → 0 ≤ r.durations k
  beyond : ∀ k, r.songs ≤ k → r.durations k = i.durations k
  title_len : r.title.length ≤ 127
  title_valid : ∀ c ∈ r.title, isValidChar c = true
  fastplay : r.fastplay ∈ [312, 156, 104, 78]
  channels : r.channels = 1 ∨ r.channels = 2
  music : 0 ≤ r.music ∧ r.music < 65536
  rest : r = { i with type := r.type, songs := r.songs, songPos := r.songPos, loops := r.loops, durations := r.durations, title := r.title,
                      fastplay := r.fastplay, channels := r.channels, music := r.music, player := r.player }

theorem parseMpt_ends {m : List Nat} (hb : AllBytes m) (i : Info) (hf : i.fastplay = 312 ∨ i.fastplay = 156) (hc : i.channels = 1) (ht : i.title = []) :
    PE (Accepted .mpt i) (parseMpt i m) := by
  unfold parseMpt
  refine PostE.ite (fun _ => ends_thrown _) fun _ => PostE.bind (parseModule_ends hb _) fun music hmus => ?_
  refine PostE.bind (getWord_ends hb _) fun a _ => PostE.bind (splitAddr_ends hb _ _ _) fun t0 _ => PostE.ite (fun _ => ends_thrown _) fun _ => ?_
  refine PostE.bind (splitAddr_ends hb _ _ _) fun t1 _ => PostE.ite (fun _ => ends_thrown _) fun _ => ?_
  refine PostE.bind (eachSong_ends (fun i seen pos h hf => parseMptSong_ends hb _ i seen pos h hf) _ _ _ _ (Nat.zero_le _) (by show 0 ≤ i.fastplay; omega)) fun r hr => ?_
  refine PostE.ite (fun _ => ends_thrown _) fun hne => ?_
  have hrest := hr.rest
  refine ⟨by rw [hrest], by omega, hr.max, fun k hk => hr.new k (Nat.zero_le _) hk, fun k hk => hr.old k (.inr hk), ?_, ?_, ?_, ?_, ?_, ?_⟩
  · rw [hrest]; show i.title.length ≤ 127; rw [ht]; exact Nat.zero_le _
  · rw [hrest]; show ∀ c ∈ i.title, _; rw [ht]; exact fun c hc => by cases hc
  · rw [hrest]; show i.fastplay ∈ _; rcases hf with hf | hf <;> rw [hf] <;> decide
  · rw [hrest]; exact .inl hc
  · rw [hrest]; exact hmus
  · rw [hrest]

/-! ### TMC and TM2 -/

theorem tmcCommands_ends {m : List Nat} (hb : AllBytes m) (fuel : Nat) (c : TmcCh) (tempo : Nat) (stop : Bool)
    (hf : 0 < fuel) (h : 0 ≤ c.offset → (m.length : Int) < c.offset + fuel) : PE (fun _ => True) (tmcCommands m fuel c tempo stop) := by
  induction fuel generalizing c tempo stop with
  | zero => omega
  | succ fuel ih =>
    unfold tmcCommands
    refine PostE.bind (rdI_ends hb _) fun i hi => ?_
    have hf : 0 < fuel := by have := h hi.1; omega
    refine PostE.ite (fun _ => trivial) fun _ => PostE.ite (fun _ => PostE.bind (rdI_ends hb _) fun _ _ => trivial) fun _ =>
      PostE.ite (fun _ => PostE.bind (rdI_ends hb _) fun _ _ => trivial) fun _ => PostE.ite (fun _ => ?_) fun _ => trivial
    refine ih _ _ _ hf fun _ => ?_
    have := h hi.1
    show (m.length : Int) < c.offset + 1 + fuel
    omega

theorem tm2Commands_ends {m : List Nat} (hb : AllBytes m) (fuel : Nat) (c : TmcCh) (tempo : Nat) (stop : Bool)
    (hf : 0 < fuel) (h : 0 ≤ c.offset → (m.length : Int) < c.offset + fuel) : PE (fun _ => True) (tm2Commands m fuel c tempo stop) := by
  induction fuel generalizing c tempo stop with
  | zero => omega
  | succ fuel ih =>
    unfold tm2Commands
    refine PostE.bind (rdI_ends hb _) fun i hi => ?_
    have hf : 0 < fuel := by have := h hi.1; omega
    refine PostE.ite (fun _ => trivial) fun _ => PostE.ite (fun _ => PostE.bind (rdI_ends hb _) fun _ _ => trivial) fun _ =>
      PostE.ite (fun _ => trivial) fun _ => PostE.ite (fun _ => PostE.bind (rdI_ends hb _) fun _ _ => trivial) fun _ =>
      PostE.ite (fun _ => trivial) fun _ => PostE.ite (fun _ => ?_) fun _ => PostE.ite (fun _ => trivial) fun _ =>
      PostE.ite (fun _ => trivial) fun _ => PostE.ite (fun _ => trivial) fun _ => trivial
    refine ih _ _ _ hf fun _ => ?_
    have := h hi.1
    show (m.length : Int) < c.offset + 1 + fuel
    omega

theorem streamFuel_ok {m : List Nat} {o : Int} (h : 0 ≤ o) : (m.length : Int) < o + (streamFuel m : Nat) := by
  unfold streamFuel
  omega

theorem tmcRow_ends {commands : TmcCh → Nat → Bool → M (TmcCh × Nat × Bool)} (hc : ∀ c t s, PE (fun _ => True) (commands c t s))
    (k : Nat) (chs : Nat → TmcCh) (tempo : Nat) (stop : Bool) : PE (fun _ => True) (tmcRow commands k chs tempo stop) := by
  induction k generalizing chs tempo stop with
  | zero => trivial
  | succ k ih => exact PostE.ite (fun _ => ih _ _ _) fun _ => PostE.bind (hc _ _ _) fun _ _ => ih _ _ _

theorem tmcRows_ends {commands : TmcCh → Nat → Bool → M (TmcCh × Nat × Bool)} (hc : ∀ c t s, PE (fun _ => True) (commands c t s))
    (k : Nat) (chs : Nat → TmcCh) (tempo frames : Nat) : PE (fun _ => True) (tmcRows commands k chs tempo frames) := by
  induction k generalizing chs tempo frames with
  | zero => trivial
  | succ k ih => exact PostE.bind (tmcRow_ends hc _ _ _ _) fun _ _ => PostE.ite (fun _ => trivial) fun _ => ih _ _ _

theorem tmcLine_ends {m : List Nat} (hb : AllBytes m) (a : Int) (line lo hi k : Nat) (chs : Nat → TmcCh) : PE (fun _ => True) (tmcLine m a line lo hi k chs) := by
  induction k generalizing chs with
  | zero => trivial
  | succ k ih => exact PostE.bind (rdI_ends hb _) fun _ _ => PostE.bind (splitAddr_ends hb _ _ _) fun _ _ => ih _

theorem tmcLoop_ends {m : List Nat} (hb : AllBytes m) (a : Int) (fuel pos tempo frames : Nat) (hf : 0 < fuel) (h : m.length < pos + fuel) :
    PE (fun _ => True) (tmcLoop m a fuel pos tempo frames) := by
  induction fuel generalizing pos tempo frames with
  | zero => omega
  | succ fuel ih =>
    unfold tmcLoop
    refine PostE.bind (rd_ends hb _) fun x hx => PostE.ite (fun _ => ?_) fun _ => trivial
    refine PostE.bind (tmcLine_ends hb _ _ _ _ _ _) fun chs _ => ?_
    refine PostE.bind (tmcRows_ends (fun c t s => tmcCommands_ends hb _ c t s (Nat.succ_pos _) streamFuel_ok) _ _ _ _) fun r _ => ?_
    exact ih _ _ _ (by omega) (by omega)

theorem tm2Loop_ends {m : List Nat} (hb : AllBytes m) (a : Int) (fuel pos tempo frames : Nat) (hf : 0 < fuel) (h : m.length < pos + fuel) :
    PE (fun _ => True) (tm2Loop m a fuel pos tempo frames) := by
  induction fuel generalizing pos tempo frames with
  | zero => omega
  | succ fuel ih =>
    unfold tm2Loop
    refine PostE.bind (rd_ends hb _) fun x hx => PostE.ite (fun _ => trivial) fun _ => PostE.ite (fun _ => trivial) fun _ => ?_
    refine PostE.bind (tmcLine_ends hb _ _ _ _ _ _) fun chs _ => ?_
    refine PostE.bind (tmcRows_ends (fun c t s => tm2Commands_ends hb _ c t s (Nat.succ_pos _) streamFuel_ok) _ _ _ _) fun r _ => ?_
    exact ih _ _ _ (by omega) (by omega)

theorem orLoops_prop {i : Info} (p : Prop) [Decidable p] (c : Bool) : (if p then setLoops i c else i) = if decide p then setLoops i c else i := by
  by_cases h : p <;> simp [h]

theorem parseTmcSong_ends {m : List Nat} (hb : AllBytes m) (i : Info) (pos : Nat) (h : i.songs < 32) (hf : 0 ≤ i.fastplay) :
    PE (fun r => Added i r ∧ r.songs = i.songs + 1) (parseTmcSong m i pos) := by
  unfold parseTmcSong
  refine PostE.bind (getWord_ends hb _) fun a _ => PostE.bind (rd_ends hb _) fun tempo _ => ?_
  refine PostE.bind (tmcLoop_ends hb _ _ _ _ _ (Nat.succ_pos _) (by unfold streamFuel; omega)) fun r _ => ?_
  refine PostE.bind (rd_ends hb _) fun x _ => ?_
  rw [orLoops_prop]
  exact addSongLoops_ends (orLoops_added (Nat.le_of_lt h) _ _) (orLoops_songs _ _ _) h hf (by omega)

theorem parseTm2Song_ends {m : List Nat} (hb : AllBytes m) (i : Info) (pos : Nat) (h : i.songs < 32) (hf : 0 ≤ i.fastplay) :
    PE (fun r => Added i r ∧ r.songs = i.songs + 1) (parseTm2Song m i pos) := by
  unfold parseTm2Song
  refine PostE.bind (getWord_ends hb _) fun a _ => PostE.bind (rd_ends hb _) fun tempo _ => ?_
  refine PostE.bind (tm2Loop_ends hb _ _ _ _ _ (Nat.succ_pos _) (by unfold streamFuel; omega)) fun r _ => ?_
  exact addSongLoops_ends (orLoops_added (Nat.le_of_lt h) _ _) (orLoops_songs _ _ _) h hf (by omega)

theorem skipJumps_ends {jump : Int → M Bool} {step : Int} (hs : 0 < step) {bound : Nat} (hj : ∀ p : Int, PE (fun _ => p < bound) (jump p)) (fuel : Nat) (last : Int)
    (hf : 0 < fuel) (h : last < fuel) : PE (fun r : Int => r < bound) (skipJumps jump step fuel last) := by
  induction fuel generalizing last with
  | zero => omega
  | succ fuel ih =>
    unfold skipJumps
    refine PostE.ite (fun _ => ends_thrown _) fun hp => PostE.bind (hj _) fun j hj => PostE.ite (fun _ => ih _ (by omega) (by omega)) fun _ => hj

theorem afterJumps_ends {jump : Int → M Bool} {step : Nat} (hs : 0 < step) (hj : ∀ p, PE (fun _ => True) (jump p)) {song : Info → Nat → M Info}
    (hsong : ∀ i pos, i.songs < 32 → 0 ≤ i.fastplay → PE (fun r => Added i r ∧ r.songs = i.songs + 1) (song i pos)) (last : Int) (fuel pos : Nat) (i : Info)
    (hf : last < pos + fuel) (hf0 : 0 < fuel) (hi : i.songs ≤ 32) (hp : 0 ≤ i.fastplay) : PE (Added i) (afterJumps jump step song last fuel pos i) := by
  induction fuel generalizing pos i with
  | zero => omega
  | succ fuel ih =>
    unfold afterJumps
    refine PostE.ite (fun hlt => PostE.bind (hj _) fun j _ => PostE.ite (fun _ => ?_) fun _ => ?_) fun _ => Added.refl hi
    · refine PostE.bind (hsong i _ hlt.2 hp) fun r hr => ?_
      exact (ih _ r (by omega) (by omega) hr.1.max (by rw [hr.1.fastplay]; exact hp)).mono (fun _ h => h) fun _ h => hr.1.trans h
    · exact ih _ i (by omega) (by omega) hi hp

theorem tmcJump_ends {m : List Nat} (hb : AllBytes m) (p : Int) : PE (fun _ => p < m.length) (tmcJump m p) :=
  PostE.bind (rdI_ends hb _) fun _ h => (by omega : p < m.length)

theorem tm2Jump_ends {m : List Nat} (hb : AllBytes m) (p : Int) : PE (fun _ => p < m.length) (tm2Jump m p) :=
  PostE.bind (rdI_ends hb _) fun _ h => (by omega : p < m.length)

theorem tmcTitleLength_ends {m : List Nat} (hb : AllBytes m) (off k : Nat) : PE (fun n => n ≤ k) (tmcTitleLength m off k) := by
  induction k with
  | zero => exact Nat.le_refl _
  | succ k ih =>
    refine PostE.bind (rd_ends hb _) fun c _ => PostE.ite (fun _ => ih.mono (fun _ h => h) fun _ h => Nat.le_succ_of_le h) fun _ => Nat.le_refl _

theorem tmcChar_valid : ∀ x, isValidChar (tmcChar x) = true := by
  intro x
  unfold tmcChar
  simp only []
  have h := Nat.mod_lt x (show 0 < 128 by decide)
  generalize x % 128 = c at h
  split
  · rfl
  split
  · rename_i h; rcases h with h | h | h | h | h | h | h <;> subst h <;> rfl
  split
  · rfl
  split
  · assumption
  · rfl

theorem tmcChars_ends {m : List Nat} (hb : AllBytes m) (k off : Nat) :
    PE (fun l => l.length = k ∧ ∀ c ∈ l, isValidChar c = true) (tmcChars m k off) := by
  induction k generalizing off with
  | zero => exact ⟨rfl, fun c hc => by cases hc⟩
  | succ k ih =>
    refine PostE.bind (rd_ends hb _) fun c _ => PostE.bind (ih _) fun rest hr => ⟨by rw [List.length_cons, hr.1], fun c hc => ?_⟩
    rcases List.mem_cons.mp hc with h | h
    · rw [h]; exact tmcChar_valid _
    · exact hr.2 c h

/-- A title of at most `n` valid characters. -/
def TitleOk (n : Nat) (t : List Nat) : Prop := t.length ≤ n ∧ ∀ c ∈ t, isValidChar c = true

theorem parseTmcTitle_ends {m : List Nat} (hb : AllBytes m) (title : List Nat) (off n : Nat) (h : TitleOk n title) (hn : n + 33 ≤ 127) :
    PE (TitleOk (n + 33)) (parseTmcTitle title m off) := by
  unfold parseTmcTitle
  refine PostE.bind (tmcTitleLength_ends hb _ _) fun k hk => PostE.ite (fun _ => ⟨by have := h.1; omega, h.2⟩) fun _ => ?_
  refine PostE.bind (tmcChars_ends hb _ _) fun text ht => ?_
  have key : TitleOk (n + 33) ((if title.length > 0 then title ++ [32, 124, 32] else title) ++ text) := by
    refine ⟨?_, fun c hc => ?_⟩
    · have := h.1
      rw [List.length_append, ht.1]
      split
      · rw [List.length_append]
        show title.length + 3 + k ≤ _
        omega
      · omega
    · rcases List.mem_append.mp hc with hc | hc
      · split at hc
        · rcases List.mem_append.mp hc with hc | hc
          · exact h.2 c hc
          · have : ∀ c ∈ [32, 124, 32], isValidChar c = true := by decide
            exact this c hc
        · exact h.2 c hc
      · exact ht.2 c hc
  exact PostE.ite (fun h => absurd h (by have := key.1; show ¬ _ > 127; omega)) fun _ => key

theorem tmcInstrument_ends {m : List Nat} (hb : AllBytes m) (k i : Nat) : PE (fun _ => True) (tmcInstrument m k i) := by
  induction k generalizing i with
  | zero => exact ends_thrown _
  | succ k ih => exact PostE.bind (rd_ends hb _) fun _ _ => PostE.ite (fun _ => ih _) fun _ => trivial

theorem rate_mem {r : Nat} (h : ¬ (r < 1 ∨ r > 4)) : (312 : Int) / r ∈ [(312 : Int), 156, 104, 78] := by
  have : r = 1 ∨ r = 2 ∨ r = 3 ∨ r = 4 := by omega
  rcases this with h | h | h | h <;> subst h <;> decide

theorem parseTmc_ends {m : List Nat} (hb : AllBytes m) (i : Info) (hf : i.fastplay = 312) :
    PE (Accepted .tmc i) (parseTmc i m) := by
  unfold parseTmc
  refine PostE.ite (fun _ => ends_thrown _) fun _ => PostE.bind (parseModule_ends hb _) fun music hmus => ?_
  refine PostE.bind (tmcInstrument_ends hb _ _) fun n _ => PostE.bind (rd_ends hb _) fun hi _ => PostE.bind (rd_ends hb _) fun lo _ => ?_
  refine PostE.bind (getWord_ends hb _) fun a _ => PostE.ite (fun _ => ends_thrown _) fun hl => ?_
  refine PostE.bind (skipJumps_ends (by decide) (tmcJump_ends hb) _ _ (Nat.succ_pos _) (by unfold streamFuel; omega)) fun last hlast => ?_
  refine PostE.bind (parseTmcSong_ends hb _ _ (show 0 < 32 by decide) (by show 0 ≤ i.fastplay; omega)) fun r hr => ?_
  have hfp : 0 ≤ r.fastplay := by rw [hr.1.fastplay]; show 0 ≤ i.fastplay; omega
  refine PostE.bind (afterJumps_ends (by decide) (fun p => (tmcJump_ends hb p).mono (fun _ h => h) fun _ _ => trivial) (fun i pos => parseTmcSong_ends hb i pos) last _ _ r
    (by unfold streamFuel; omega) (Nat.succ_pos _) hr.1.max hfp) fun r' hr' => ?_
  refine PostE.bind (rd_ends hb _) fun rate _ => PostE.ite (fun _ => ends_thrown _) fun hrate => ?_
  refine PostE.bind (parseTmcTitle_ends hb _ _ 0 ⟨Nat.le_refl _, fun c hc => by cases hc⟩ (by decide)) fun title ht => ?_
  have hall := hr.1.trans hr'
  have hrest := hall.rest
  have hpos : 1 ≤ r'.songs := by have := hr'.le; have : r.songs = 0 + 1 := hr.2; omega
  refine ⟨by rw [hrest], hpos, hr'.max, fun k hk => hall.new k (Nat.zero_le _) hk, fun k hk => hall.old k (.inr hk), ?_, ht.2, rate_mem hrate, ?_, ?_, ?_⟩
  · exact Nat.le_trans ht.1 (by decide)
  · rw [hrest]; exact .inr rfl
  · rw [hrest]; exact hmus
  · rw [hrest]

theorem tm2Least_ends {m : List Nat} (hb : AllBytes m) (lo hi k i least : Nat) : PE (fun _ => True) (tm2Least m lo hi k i least) := by
  induction k generalizing i least with
  | zero => trivial
  | succ k ih => exact PostE.bind (rd_ends hb _) fun _ _ => PostE.bind (rd_ends hb _) fun _ _ => ih _ _

theorem parseTm2_ends {m : List Nat} (hb : AllBytes m) (i : Info) (hc : i.channels = 1) :
    PE (Accepted .tm2 i) (parseTm2 i m) := by
  unfold parseTm2
  refine PostE.ite (fun _ => ends_thrown _) fun _ => PostE.bind (parseModule_ends hb _) fun music hmus => ?_
  refine PostE.bind (rd_ends hb _) fun rate _ => PostE.ite (fun _ => ends_thrown _) fun hrate => ?_
  refine PostE.bind (rd_ends hb _) fun stereo _ => PostE.bind (tm2Least_ends hb _ _ _ _ _) fun l1 _ => PostE.bind (tm2Least_ends hb _ _ _ _ _) fun l2 _ => ?_
  refine PostE.bind (getWord_ends hb _) fun a _ => PostE.ite (fun _ => ends_thrown _) fun hl => ?_
  refine PostE.bind (skipJumps_ends (by decide) (tm2Jump_ends hb) _ _ (Nat.succ_pos _) (by unfold streamFuel; omega)) fun last hlast => ?_
  have hmem := rate_mem hrate
  have h0 : (0 : Int) ≤ 312 / (rate : Int) := Int.ediv_nonneg (by decide) (by omega)
  refine PostE.bind (parseTm2Song_ends hb _ _ (show 0 < 32 by decide) h0) fun r hr => ?_
  have hfp : 0 ≤ r.fastplay := by rw [hr.1.fastplay]; exact h0
  refine PostE.bind (afterJumps_ends (by decide) (fun p => (tm2Jump_ends hb p).mono (fun _ h => h) fun _ _ => trivial) (fun i pos => parseTm2Song_ends hb i pos) last _ _ r
    (by unfold streamFuel; omega) (Nat.succ_pos _) hr.1.max hfp) fun r' hr' => ?_
  refine PostE.bind (P := TitleOk 99) ?_ fun title ht => ?_
  · refine PostE.bind (parseTmcTitle_ends hb _ _ 0 ⟨Nat.le_refl _, fun c hc => by cases hc⟩ (by decide)) fun t1 h1 => ?_
    exact PostE.bind (parseTmcTitle_ends hb _ _ 33 h1 (by decide)) fun t2 h2 => parseTmcTitle_ends hb _ _ 66 h2 (by decide)
  have hall := hr.1.trans hr'
  have hrest := hall.rest
  have hpos : 1 ≤ r'.songs := by have := hr'.le; have : r.songs = 0 + 1 := hr.2; omega
  refine ⟨by rw [hrest], hpos, hr'.max, fun k hk => hall.new k (Nat.zero_le _) hk, fun k hk => hall.old k (.inr hk), ?_, ht.2, ?_, ?_, ?_, ?_⟩
  · exact Nat.le_trans ht.1 (by decide)
  · rw [hrest]; exact hmem
  · rw [hrest]
    show (if stereo ≠ 0 then 2 else i.channels) = 1 ∨ (if stereo ≠ 0 then 2 else i.channels) = 2
    split
    · exact .inr rfl
    · exact .inl hc
  · rw [hrest]; exact hmus
  · rw [hrest]

end Asap.Module.Tracker
