import Verif.Lemmas.Rmt
import Verif.Model.InfoLoad
import Verif.Spec.Convert

/-! What the parsers of native modules have checked. -/

namespace Asap.Convert
open Asap Asap.Module Asap.Spec.Convert Asap.Spec.Relocate
open Asap.Module.Tracker (always)

/-- About results only. -/
abbrev Gives {α : Type} (P : α → Prop) (x : M α) : Prop := PostE (fun _ => True) P x

/-- Songs are added, at positions in tables of at most 256 entries. -/
structure Keeps (i r : Info) : Prop where
  type : r.type = i.type
  music : r.music = i.music
  player : r.player = i.player
  positions : (∀ k, i.songPos k < 256) → ∀ k, r.songPos k < 256

theorem Keeps.refl (i : Info) : Keeps i i := ⟨rfl, rfl, rfl, fun h => h⟩

theorem Keeps.trans {i j r : Info} (h1 : Keeps i j) (h2 : Keeps j r) : Keeps i r :=
  ⟨h2.type.trans h1.type, h2.music.trans h1.music, h2.player.trans h1.player, fun h => h2.positions (h1.positions h)⟩

theorem Keeps.setLoops (i : Info) (b : Bool) : Keeps i (setLoops i b) := ⟨rfl, rfl, rfl, fun h => h⟩

theorem Keeps.orLoops (i : Info) (c b : Bool) : Keeps i (if c then Module.setLoops i b else i) := by
  cases c
  · exact Keeps.refl i
  · exact Keeps.setLoops i b

theorem Keeps.setSongPos (i : Info) {p : Nat} (hp : p < 256) : Keeps i (setSongPos i p) := by
  refine ⟨rfl, rfl, rfl, fun h k => ?_⟩
  show (if k = i.songs then p else i.songPos k) < 256
  split
  · exact hp
  · exact h k

theorem addSong_keeps (i : Info) (calls : Int) : Gives (Keeps i) (addSong i calls) := by
  unfold addSong
  exact PostE.ite (fun _ => ⟨rfl, rfl, rfl, fun h => h⟩) fun _ => trivial

theorem addSong_after {i j : Info} (h : Keeps i j) (calls : Int) : Gives (Keeps i) (addSong j calls) :=
  (addSong_keeps j calls).mono (fun _ h => h) fun _ h2 => h.trans h2

theorem gives_rd (m : List Nat) (k : Nat) : Gives (fun b => m[k]? = some b) (rd m k) := by
  unfold rd
  rcases h : m[k]? with _ | b
  · trivial
  · rfl

theorem gives_word (m : List Nat) (k : Nat) : Gives (fun w => w = word m k) (getWord m k) := by
  unfold getWord
  refine PostE.bind (gives_rd m k) fun a ha => PostE.bind (gives_rd m (k + 1)) fun b hb => ?_
  show a + 256 * b = _
  unfold word byteAt
  rw [ha, hb]
  rfl

/-- What `parseModule` has checked. -/
structure Checked (isRmt : Bool) (m : List Nat) (music : Int) : Prop where
  start : m.take 2 = [0xff, 0xff] ∨ m.take 2 = [0, 0]
  music : music = word m 2
  block : isRmt = false → m.length + word m 2 = word m 4 + 7
  rmtBlock : m.length + word m 2 = word m 4 + 7 ∨ word m 4 + 12 ≤ m.length + word m 2

theorem take_two {m : List Nat} {a b : Nat} (ha : m[0]? = some a) (hb : m[1]? = some b) : m.take 2 = [a, b] := by
  match m with
  | [] => cases ha
  | [_] => cases hb
  | x :: y :: t =>
    have : x = a := Option.some.inj ha
    have : y = b := Option.some.inj hb
    subst x y
    rfl

theorem parseModule_checked (isRmt : Bool) (m : List Nat) : Gives (Checked isRmt m) (parseModule isRmt m) := by
  unfold parseModule
  refine PostE.bind (P := fun ok => ok = true → m.take 2 = [0xff, 0xff] ∨ m.take 2 = [0, 0]) ?_ fun ok hok => ?_
  · unfold goodStart
    refine PostE.bind (gives_rd m 0) fun a ha => PostE.bind (gives_rd m 1) fun b hb => ?_
    intro h
    rw [take_two ha hb]
    simp only [Bool.or_eq_true, decide_eq_true_eq] at h
    rcases h with ⟨rfl, rfl⟩ | ⟨rfl, rfl⟩
    · exact .inl rfl
    · exact .inr rfl
  refine PostE.ite (fun _ => trivial) fun hne => ?_
  refine PostE.bind (gives_word m 2) fun music hmus => PostE.bind (gives_word m 4) fun last hlast => ?_
  refine PostE.ite (fun _ => trivial) fun _ => ?_
  refine PostE.bind (P := fun _ => (isRmt = false → (6 + ((last : Int) + 1 - music)) = m.length) ∧
    ((6 + ((last : Int) + 1 - music)) = m.length ∨ 11 + ((last : Int) + 1 - music) ≤ m.length)) ?_ fun _ h => ?_
  · unfold checkLength
    refine PostE.ite (fun h1 => PostE.ite (fun _ => trivial) fun h2 => ?_) fun h1 => ⟨fun _ => by omega, .inl (by omega)⟩
    refine (always _).mono (fun _ h => h) fun _ _ => ⟨fun e => absurd (.inl e) h2, .inr ?_⟩
    have := fun e => h2 (.inr e)
    omega
  · subst hmus hlast
    refine ⟨hok (by simpa using hne), rfl, fun e => ?_, ?_⟩
    · have := h.1 e; omega
    · rcases h.2 with h | h
      · left; omega
      · right; omega

/-- What all formats but FC have in common. -/
theorem isModule_of {type : ModType} {isRmt : Bool} {m : List Nat} {music : Int} {i r : Info} (hb : AllBytes m) (h : Checked isRmt m music)
    (hlen : 0x30 ≤ m.length) (hi : ∀ k, i.songPos k < 256) (hk : Keeps i r) (ht : i.type = type) (hm : i.music = music)
    (hp : i.player = if type = .rmt then 0x600 else if type = .tm2 then 0x800 else if type = .fc then 0x400 else -1)
    (hfc : type ≠ .fc) (hr : type ≠ .rmt → isRmt = false) (hrate : type = .tmc → 1 ≤ byteAt m 0x25 ∧ byteAt m 0x25 ≤ 4)
    (hd : type = .dlt → music = 0x2000 ∧ (m.length = 0x2c06 ∨ m.length = 0x2c07)) : IsModule r m := by
  have e1 := hk.type
  have e2 := hk.music
  have e3 := hk.player
  rw [ht] at e1
  refine ⟨hb, hk.positions hi, fun _ => h.start, fun _ => by rw [e2, hm, h.music], fun _ => hlen, fun _ e => h.block (hr (by rwa [e1] at e)), fun _ => h.rmtBlock,
    fun e => absurd (e1 ▸ e) hfc, fun e => hrate (e1 ▸ e), by rw [e3, hp, e1], fun e => ?_⟩
  rw [e2, hm]
  exact hd (e1 ▸ e)

/-! ### CMC -/

theorem parseCmcSong_keeps (fuel : Nat) (m : List Nat) (i : Info) (pos : Nat) : Gives (Keeps i) (parseCmcSong fuel m i pos) := by
  unfold parseCmcSong
  exact PostE.bind (always _) fun _ _ => PostE.bind (always _) fun s _ => addSong_after (Keeps.orLoops i _ _) _

theorem cmcSongs_keeps (fuel : Nat) (m : List Nat) (k pos : Nat) (i : Info) : Gives (Keeps i) (cmcSongs fuel m k pos i) := by
  induction k generalizing pos i with
  | zero => exact Keeps.refl i
  | succ k ih =>
    unfold cmcSongs
    refine PostE.ite (fun _ => PostE.bind (always _) fun x _ => PostE.ite (fun _ => ?_) fun _ => ih _ _) fun _ => Keeps.refl i
    exact PostE.bind (parseCmcSong_keeps fuel m i _) fun r hr => (ih _ r).mono (fun _ h => h) fun _ h => hr.trans h

theorem parseCmc_module (fuel : Nat) {m : List Nat} (hb : AllBytes m) (i : Info) (type : ModType) (hi : ∀ k, i.songPos k < 256) (hp : i.player = -1)
    (ht : type = .cmc ∨ type = .cm3 ∨ type = .cmr ∨ type = .cms) : Gives (fun r => IsModule r m) (parseCmc fuel i m type) := by
  unfold parseCmc
  refine PostE.ite (fun _ => trivial) fun hlen => PostE.bind (parseModule_checked _ _) fun music hc => PostE.bind (always _) fun last _ => ?_
  refine PostE.bind (parseCmcSong_keeps fuel m _ 0) fun j hj => (cmcSongs_keeps fuel m _ _ j).mono (fun _ h => h) fun r hr => ?_
  refine isModule_of hb hc (by omega) ?_ (hj.trans hr) rfl rfl ?_ ?_ (fun _ => rfl) ?_ ?_
  · exact hi
  · show i.player = _
    rw [hp]
    rcases ht with rfl | rfl | rfl | rfl <;> rfl
  · rcases ht with rfl | rfl | rfl | rfl <;> exact fun e => by cases e
  · rcases ht with rfl | rfl | rfl | rfl <;> exact fun e => by cases e
  · rcases ht with rfl | rfl | rfl | rfl <;> exact fun e => by cases e

/-! ### DLT -/

theorem dltSkip_pos (m : List Nat) (k pos : Nat) (seen : Nat → Bool) : Gives (fun r => r.1 ≤ pos + k) (dltSkip m k pos seen) := by
  induction k generalizing pos seen with
  | zero => exact Nat.le_refl pos
  | succ k ih =>
    unfold dltSkip
    refine PostE.ite (fun _ => ?_) fun _ => PostE.bind (always _) fun e _ => PostE.ite (fun _ => ?_) fun _ => ?_
    · show pos ≤ _; omega
    · exact (ih _ _).mono (fun _ h => h) fun r h => by omega
    · show pos ≤ _; omega

theorem parseDltSong_keeps (m : List Nat) (seen : Nat → Bool) (pos : Nat) (hpos : pos < 128) (i : Info) :
    Gives (fun r => Keeps i r.2) (parseDltSong m seen pos i) := by
  unfold parseDltSong
  refine PostE.bind (dltSkip_pos m _ _ _) fun r hr => ?_
  obtain ⟨p, s⟩ := r
  have hr : p ≤ pos + (128 - pos) := hr
  have h0 := Keeps.setSongPos i (p := p) (by omega)
  refine PostE.bind (always _) fun st _ => PostE.ite (fun _ => ?_) fun _ => h0
  exact PostE.bind (addSong_after (h0.trans (Keeps.setLoops _ _)) _) fun _ h => h

theorem dltSongs_keeps (m : List Nat) (k pos : Nat) (h : pos + k ≤ 128) (seen : Nat → Bool) (i : Info) : Gives (Keeps i) (dltSongs m k pos seen i) := by
  induction k generalizing pos seen i with
  | zero => exact Keeps.refl i
  | succ k ih =>
    unfold dltSongs
    refine PostE.ite (fun _ => PostE.ite (fun _ => ih _ (by omega) _ _) fun _ => ?_) fun _ => Keeps.refl i
    exact PostE.bind (parseDltSong_keeps m seen pos (by omega) i) fun r hr => (ih _ (by omega) r.1 r.2).mono (fun _ h => h) fun _ h => hr.trans h

theorem parseDlt_module {m : List Nat} (hb : AllBytes m) (i : Info) (hi : ∀ k, i.songPos k < 256) (hp : i.player = -1) :
    Gives (fun r => IsModule r m) (parseDlt i m) := by
  unfold parseDlt
  refine PostE.ite (fun _ => trivial) fun hlen => PostE.bind (parseModule_checked _ _) fun music hc => PostE.ite (fun _ => trivial) fun hmus => ?_
  refine PostE.bind (dltSongs_keeps m _ _ (by omega) _ _) fun r hr => PostE.ite (fun _ => trivial) fun _ => ?_
  have hl : m.length = 0x2c06 ∨ m.length = 0x2c07 := by omega
  refine isModule_of (type := .dlt) hb hc (by omega) ?_ hr rfl rfl ?_ (by decide) (fun _ => rfl) (fun e => by cases e) fun _ => ⟨by omega, hl⟩
  · exact hi
  · exact hp

/-! ### MPT -/

theorem eachSong_keeps {song : Info → (Nat → Bool) → Nat → M (Info × (Nat → Bool))} (hs : ∀ i seen pos, Gives (fun r => Keeps i r.1) (song i seen pos))
    (k pos : Nat) (h : pos + k ≤ 256) (i : Info) (seen : Nat → Bool) : Gives (Keeps i) (eachSong song k pos i seen) := by
  induction k generalizing pos i seen with
  | zero => exact Keeps.refl i
  | succ k ih =>
    unfold eachSong
    refine PostE.ite (fun _ => PostE.ite (fun _ => ih _ (by omega) _ _) fun _ => ?_) fun _ => Keeps.refl i
    exact PostE.bind (hs _ seen pos) fun r hr => (ih _ (by omega) r.1 r.2).mono (fun _ h => h) fun _ h =>
      ((Keeps.setSongPos i (by omega)).trans hr).trans h

theorem addFound_keeps (i : Info) (loop : Bool) (calls : Nat) : Gives (Keeps i) (addFound i loop calls) := by
  unfold addFound
  exact PostE.ite (fun _ => addSong_after (Keeps.orLoops i _ _) _) fun _ => Keeps.orLoops i _ _

theorem parseMpt_module {m : List Nat} (hb : AllBytes m) (i : Info) (hi : ∀ k, i.songPos k < 256) (hp : i.player = -1) :
    Gives (fun r => IsModule r m) (parseMpt i m) := by
  unfold parseMpt
  refine PostE.ite (fun _ => trivial) fun hlen => PostE.bind (parseModule_checked _ _) fun music hc => PostE.bind (always _) fun a _ => ?_
  refine PostE.bind (always _) fun t0 _ => PostE.ite (fun _ => trivial) fun _ => PostE.bind (always _) fun t1 _ => PostE.ite (fun _ => trivial) fun hs => ?_
  refine PostE.bind (eachSong_keeps (fun i seen pos => ?_) _ _ (by omega) _ _) fun r hr => PostE.ite (fun _ => trivial) fun _ => ?_
  · unfold parseMptSong
    refine PostE.bind (always _) fun _ _ => PostE.bind (always _) fun _ _ => PostE.bind (always _) fun v _ => ?_
    exact PostE.bind (addFound_keeps i _ _) fun _ h => h
  · refine isModule_of (type := .mpt) hb hc (by omega) ?_ hr rfl rfl ?_ (by decide) (fun _ => rfl) (fun e => by cases e) fun e => by cases e
    · exact hi
    · exact hp

/-! ### RMT -/

theorem keepsIte (i : Info) (c : Prop) [Decidable c] (b : Bool) {j : Info} (h : Keeps i j) : Keeps i (if c then setLoops i b else j) := by
  split
  · exact Keeps.setLoops i b
  · exact h

theorem rmtFinish_keeps (i : Info) (loop : Bool) (frames last : Int) : Gives (Keeps i) (rmtFinish i loop frames last) := by
  unfold rmtFinish
  refine PostE.ite (fun _ => ?_) fun _ => ?_
  · have h := keepsIte i ((loop && decide (¬ frames - last > 100)) = true) true (keepsIte i (frames - last > 100) false (Keeps.refl i))
    exact PostE.ite (fun _ => addSong_after h _) fun _ => h
  · have h := Keeps.orLoops i loop true
    exact PostE.ite (fun _ => addSong_after h _) fun _ => h

theorem parseRmtSong_keeps (fuel : Nat) (m : List Nat) (songLen : Int) (channels : Nat) (i : Info) (seen : Nat → Bool) (pos : Nat) :
    Gives (fun r => Keeps i r.1) (parseRmtSong fuel m songLen channels i seen pos) := by
  unfold parseRmtSong
  refine PostE.bind (always _) fun a _ => PostE.bind (always _) fun tempo _ => PostE.bind (always _) fun song _ => PostE.bind (always _) fun lo _ =>
    PostE.bind (always _) fun hi _ => PostE.bind (always _) fun r _ => ?_
  obtain ⟨chs, frames, v⟩ := r
  cases chs with
  | none => exact Keeps.orLoops i _ _
  | some chs => exact PostE.bind (always _) fun last _ => PostE.bind (rmtFinish_keeps i _ _ _) fun _ h => h

theorem parseRmtBlock_module (fuel : Nat) {m : List Nat} (hb : AllBytes m) (hlen : 0x30 ≤ m.length) (i : Info) (channels : Nat) (hi : ∀ k, i.songPos k < 256) :
    Gives (fun r => IsModule r m) (parseRmtBlock fuel i m channels) := by
  unfold parseRmtBlock
  refine PostE.bind (always _) fun rate _ => PostE.ite (fun _ => trivial) fun _ => PostE.bind (parseModule_checked _ _) fun music hc => ?_
  refine PostE.bind (always _) fun last _ => PostE.bind (always _) fun len _ => PostE.ite (fun _ => trivial) fun hs => ?_
  refine PostE.bind (eachSong_keeps (fun i seen pos => parseRmtSong_keeps fuel m len channels i seen pos) _ _ (by omega) _ _) fun r hr => PostE.ite (fun _ => trivial) fun _ => ?_
  refine PostE.bind (always _) fun title _ => ?_
  refine isModule_of (type := .rmt) (i := { r with player := 0x600 }) hb hc hlen ?_ ⟨rfl, rfl, rfl, fun h => h⟩ hr.type hr.music rfl (by decide) (fun e => absurd rfl e) (fun e => by cases e) fun e => by cases e
  exact hr.positions hi

theorem parseRmt_module (fuel : Nat) {m : List Nat} (hb : AllBytes m) (i : Info) (hi : ∀ k, i.songPos k < 256) :
    Gives (fun r => IsModule r m) (parseRmt fuel i m) := by
  unfold parseRmt
  refine PostE.bind (P := fun ok => ok = true → 0x30 ≤ m.length) ?_ fun ok hok => PostE.ite (fun _ => trivial) fun hne => ?_
  · unfold validateRmt
    refine PostE.ite (fun _ => fun e => by cases e) fun h => ?_
    exact PostE.bind (always _) fun _ _ => PostE.bind (always _) fun _ _ => PostE.bind (always _) fun _ _ => PostE.bind (always _) fun _ _ => fun _ => by omega
  have hlen := hok (by simpa using hne)
  exact PostE.bind (always _) fun x _ => PostE.ite (fun _ => parseRmtBlock_module fuel hb hlen i _ hi) fun _ =>
    PostE.ite (fun _ => parseRmtBlock_module fuel hb hlen i _ hi) fun _ => trivial

/-! ### TMC and TM2 -/

theorem afterJumps_keeps {jump : Int → M Bool} {step : Nat} {song : Info → Nat → M Info} (hs : ∀ i pos, Gives (Keeps i) (song i pos))
    (last : Int) (fuel pos : Nat) (i : Info) : Gives (Keeps i) (afterJumps jump step song last fuel pos i) := by
  induction fuel generalizing pos i with
  | zero => trivial
  | succ k ih =>
    unfold afterJumps
    refine PostE.ite (fun _ => PostE.bind (always _) fun j _ => PostE.ite (fun _ => ?_) fun _ => ih _ _) fun _ => Keeps.refl i
    exact PostE.bind (hs i _) fun r hr => (ih _ r).mono (fun _ h => h) fun _ h => hr.trans h

theorem parseTmcSong_keeps (m : List Nat) (i : Info) (pos : Nat) : Gives (Keeps i) (parseTmcSong m i pos) := by
  unfold parseTmcSong
  refine PostE.bind (always _) fun _ _ => PostE.bind (always _) fun _ _ => PostE.bind (always _) fun v _ => PostE.bind (always _) fun x _ => ?_
  exact addSong_after (keepsIte i _ _ (Keeps.refl i)) _

theorem parseTm2Song_keeps (m : List Nat) (i : Info) (pos : Nat) : Gives (Keeps i) (parseTm2Song m i pos) := by
  unfold parseTm2Song
  refine PostE.bind (always _) fun _ _ => PostE.bind (always _) fun _ _ => PostE.bind (always _) fun v _ => ?_
  exact addSong_after (Keeps.orLoops i _ _) _

theorem parseTmc_module {m : List Nat} (hb : AllBytes m) (i : Info) (hi : ∀ k, i.songPos k < 256) (hp : i.player = -1) :
    Gives (fun r => IsModule r m) (parseTmc i m) := by
  unfold parseTmc
  refine PostE.ite (fun _ => trivial) fun hlen => PostE.bind (parseModule_checked _ _) fun music hc => PostE.bind (always _) fun a _ => ?_
  refine PostE.bind (always _) fun _ _ => PostE.bind (always _) fun _ _ => PostE.bind (always _) fun _ _ => PostE.ite (fun _ => trivial) fun _ => ?_
  refine PostE.bind (always _) fun last _ => PostE.bind (parseTmcSong_keeps m _ 0) fun j hj => ?_
  refine PostE.bind (afterJumps_keeps (parseTmcSong_keeps m) _ _ _ j) fun r hr => PostE.bind (gives_rd m 0x25) fun b hb' => PostE.ite (fun _ => trivial) fun hrate => ?_
  refine PostE.bind (always _) fun title _ => ?_
  have hk := hj.trans hr
  refine isModule_of (type := .tmc) (i := r) hb hc (by omega) ?_ ⟨rfl, rfl, rfl, fun h => h⟩ hk.type hk.music ?_ (by decide) (fun _ => rfl) (fun _ => ?_) fun e => by cases e
  · exact hk.positions hi
  · rw [hk.player]; exact hp
  · unfold byteAt
    rw [hb']
    show 1 ≤ b ∧ b ≤ 4
    omega

theorem parseTm2_module {m : List Nat} (hb : AllBytes m) (i : Info) (hi : ∀ k, i.songPos k < 256) :
    Gives (fun r => IsModule r m) (parseTm2 i m) := by
  unfold parseTm2
  refine PostE.ite (fun _ => trivial) fun hlen => PostE.bind (parseModule_checked _ _) fun music hc => PostE.bind (always _) fun a _ => PostE.ite (fun _ => trivial) fun _ => ?_
  refine PostE.bind (always _) fun _ _ => PostE.bind (always _) fun _ _ => PostE.bind (always _) fun _ _ => PostE.bind (always _) fun _ _ => PostE.ite (fun _ => trivial) fun _ => ?_
  refine PostE.bind (always _) fun last _ => PostE.bind (parseTm2Song_keeps m _ 0) fun j hj => ?_
  refine PostE.bind (afterJumps_keeps (parseTm2Song_keeps m) _ _ _ j) fun r hr => PostE.bind (always _) fun title _ => ?_
  have hk := hj.trans hr
  refine isModule_of (type := .tm2) (i := r) hb hc (by omega) ?_ ⟨rfl, rfl, rfl, fun h => h⟩ hk.type hk.music hk.player (by decide) (fun _ => rfl) (fun e => by cases e) fun e => by cases e
  exact hk.positions hi

/-! ### FC -/

theorem fcSongs_keeps (m patterns : List Nat) (fuel pos : Nat) (i : Info) : Gives (Keeps i) (fcSongs m patterns fuel pos i) := by
  induction fuel generalizing pos i with
  | zero => trivial
  | succ k ih =>
    unfold fcSongs
    refine PostE.ite (fun _ => PostE.bind (always _) fun v _ => PostE.ite (fun _ => ?_) fun _ => ?_) fun _ => Keeps.refl i
    · exact PostE.bind (addSong_after (Keeps.setLoops i _) _) fun r hr => (ih _ r).mono (fun _ h => h) fun _ h => hr.trans h
    · exact (ih _ _).mono (fun _ h => h) fun _ h => (Keeps.setLoops i _).trans h

theorem parseFc_module {m : List Nat} (hb : AllBytes m) (i : Info) (hi : ∀ k, i.songPos k < 256) :
    Gives (fun r => IsModule r m) (parseFc i m) := by
  unfold parseFc
  refine PostE.bind (P := fun ok => ok = true → 0 < m.length) ?_ fun ok hok => PostE.ite (fun _ => trivial) fun hne => ?_
  · unfold validateFc
    refine PostE.ite (fun _ => fun e => by cases e) fun h => ?_
    refine PostE.bind (always _) fun _ _ => PostE.ite (fun _ => fun e => by cases e) fun _ => PostE.bind (always _) fun _ _ => fun _ => by omega
  have hlen := hok (by simpa using hne)
  generalize fcPatterns m 0x40 0x383 = x
  refine PostE.bind (always x) fun p _ => ?_
  obtain ⟨patterns, off⟩ := p
  dsimp only
  generalize fcPatterns m 0x20 off = y
  refine PostE.bind (always y) fun _ _ => ?_
  refine (fcSongs_keeps m patterns 300 0 _).mono (fun _ h => h) fun r hr => ?_
  have e1 : r.type = .fc := hr.type
  refine ⟨hb, hr.positions hi, fun e => absurd e1 e, fun e => absurd e1 e, fun e => absurd e1 e, fun e => absurd e1 e, fun e => ?_, fun _ => ⟨hr.music, hlen⟩, fun e => ?_, ?_, fun e => ?_⟩
  · rw [e1] at e; cases e
  · rw [e1] at e; cases e
  · rw [hr.player, e1]; rfl
  · rw [e1] at e; cases e

theorem parseAs_module (fuel : Nat) {f : Format} (hf : f ≠ .sap) (name : List Nat) {m : List Nat} (hb : AllBytes m) :
    Gives (fun r => IsModule r m) (parseAs fuel f name m) := by
  have hi : ∀ k, (Info.blank name).songPos k < 256 := fun k => by show 0 < 256; decide
  unfold parseAs
  cases f with
  | sap => exact absurd rfl hf
  | cmc => exact parseCmc_module fuel hb _ _ hi rfl (.inl rfl)
  | cm3 => exact parseCmc_module fuel hb _ _ hi rfl (.inr (.inl rfl))
  | cmr => exact parseCmc_module fuel hb _ _ hi rfl (.inr (.inr (.inl rfl)))
  | cms => exact parseCmc_module fuel hb _ _ hi rfl (.inr (.inr (.inr rfl)))
  | dmc => exact parseCmc_module fuel hb _ _ hi rfl (.inl rfl)
  | dlt => exact parseDlt_module hb _ hi rfl
  | mpt => exact parseMpt_module hb _ hi rfl
  | mpd => exact parseMpt_module hb _ hi rfl
  | rmt => exact parseRmt_module fuel hb _ hi
  | tmc => exact parseTmc_module hb _ hi rfl
  | tm8 => exact parseTmc_module hb _ hi rfl
  | tm2 => exact parseTm2_module hb _ hi
  | fc => exact parseFc_module hb _ hi

end Asap.Convert
