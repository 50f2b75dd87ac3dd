import Verif.Lemmas.Tracker
import Verif.Spec.Rmt

/-! Raster Music Tracker: the parser ends if no pattern consists of jumps only. -/

namespace Asap.Module.Tracker
open Asap Asap.Module Asap.Spec.Rmt

/-- At most `n` commands from here. -/
inductive SettlesIn (m : List Nat) (start : Int) : Nat → Int → Prop
  | out {o n} : byteAt m o = none → SettlesIn m start n o
  | row {o b n} : byteAt m o = some b → b ≠ 63 → b ≠ 127 → b ≠ 191 → SettlesIn m start n o
  | tempo {o b n} : byteAt m o = some b → b = 63 ∨ b = 127 → SettlesIn m start n (o + 2) → SettlesIn m start (n + 1) o
  | brokenJump {o n} : byteAt m o = some 191 → byteAt m (o + 1) = none → SettlesIn m start n o
  | jump {o n} {j : Nat} : byteAt m o = some 191 → byteAt m (o + 1) = some j → SettlesIn m start n (start + j) → SettlesIn m start (n + 1) o

theorem SettlesIn.mono {m : List Nat} {start : Int} {n : Nat} {o : Int} (h : SettlesIn m start n o) : ∀ {k}, n ≤ k → SettlesIn m start k o := by
  induction h with
  | out h => exact fun _ => .out h
  | row h a b c => exact fun _ => .row h a b c
  | tempo h a _ ih =>
    intro k hk
    obtain ⟨k, rfl⟩ : ∃ k', k = k' + 1 := ⟨k - 1, by omega⟩
    exact .tempo h a (ih (by omega))
  | brokenJump h a => exact fun _ => .brokenJump h a
  | jump h a _ ih =>
    intro k hk
    obtain ⟨k, rfl⟩ : ∃ k', k = k' + 1 := ⟨k - 1, by omega⟩
    exact .jump h a (ih (by omega))

theorem settlesIn {m : List Nat} {start o : Int} (h : Settles m start o) : ∃ n, SettlesIn m start n o := by
  induction h with
  | out h => exact ⟨0, .out h⟩
  | row h a b c => exact ⟨0, .row h a b c⟩
  | tempo h a _ ih => exact ih.elim fun n ih => ⟨n + 1, .tempo h a ih⟩
  | brokenJump h a => exact ⟨0, .brokenJump h a⟩
  | jump h a _ ih => exact ih.elim fun n ih => ⟨n + 1, .jump h a ih⟩

/-- Finitely many bounds have a maximum. -/
theorem bound_all {P : Nat → Nat → Prop} (hm : ∀ k a b, P k a → a ≤ b → P k b) (n : Nat) (h : ∀ k < n, ∃ a, P k a) : ∃ a, ∀ k < n, P k a := by
  induction n with
  | zero => exact ⟨0, fun k hk => by omega⟩
  | succ n ih =>
    obtain ⟨a, ha⟩ := ih fun k hk => h k (by omega)
    obtain ⟨b, hb⟩ := h n (by omega)
    refine ⟨a + b, fun k hk => ?_⟩
    by_cases e : k = n
    · subst e; exact hm _ _ _ hb (by omega)
    · exact hm _ _ _ (ha k (by omega)) (by omega)

theorem byteAt_some {m : List Nat} {o : Int} {b : Nat} (h : byteAt m o = some b) : 0 ≤ o ∧ o < m.length := by
  unfold byteAt at h
  split at h
  · have := (List.getElem?_eq_some_iff.mp h).1
    exact ⟨‹_›, by omega⟩
  · cases h

theorem uniform {m : List Nat} (h : NoEmptyLoop m) : ∃ n, ∀ start, Pattern m start → ∀ o, Reached m start o → SettlesIn m start n o := by
  have key : ∃ n, ∀ k < m.length, ∀ o : Nat, o < m.length → ∀ p lo hi : Nat, byteAt m k = some p → p ≠ 0xff →
      byteAt m (table m 0x10 + p) = some lo → byteAt m (table m 0x12 + p) = some hi → (table m 0x14 : Int) ≤ k →
      Reached m (offsetOf m lo hi) o → SettlesIn m (offsetOf m lo hi) n o := by
    refine bound_all (fun k a b h hab o ho p lo hi h1 h2 h3 h4 h5 h6 => (h o ho p lo hi h1 h2 h3 h4 h5 h6).mono hab) _ fun k hk => ?_
    refine bound_all (P := fun o n => ∀ p lo hi : Nat, byteAt m k = some p → p ≠ 0xff → byteAt m (table m 0x10 + p) = some lo → byteAt m (table m 0x12 + p) = some hi →
      (table m 0x14 : Int) ≤ k → Reached m (offsetOf m lo hi) o → SettlesIn m (offsetOf m lo hi) n o) (fun o a b h hab p lo hi h1 h2 h3 h4 h5 h6 => (h p lo hi h1 h2 h3 h4 h5 h6).mono hab) _ fun o ho => ?_
    by_cases e : ∃ p lo hi : Nat, byteAt m k = some p ∧ p ≠ 0xff ∧ byteAt m (table m 0x10 + p) = some lo ∧ byteAt m (table m 0x12 + p) = some hi ∧
        (table m 0x14 : Int) ≤ k ∧ Reached m (offsetOf m lo hi) o
    · obtain ⟨p, lo, hi, h1, h2, h3, h4, h5, h6⟩ := e
      have hp : Pattern m (offsetOf m lo hi) := ⟨(k - table m 0x14).toNat, p, lo, hi, by rw [show table m 0x14 + (((k : Int) - table m 0x14).toNat : Int) = k by omega]; exact h1, h2, h3, h4, rfl⟩
      obtain ⟨n, hn⟩ := settlesIn (h _ hp _ h6)
      refine ⟨n, fun p' lo' hi' g1 g2 g3 g4 g5 g6 => ?_⟩
      obtain rfl : p' = p := Option.some.inj (g1.symm.trans h1)
      obtain rfl : lo' = lo := Option.some.inj (g3.symm.trans h3)
      obtain rfl : hi' = hi := Option.some.inj (g4.symm.trans h4)
      exact hn
    · exact ⟨0, fun p lo hi h1 h2 h3 h4 h5 h6 => absurd ⟨p, lo, hi, h1, h2, h3, h4, h5, h6⟩ e⟩
  obtain ⟨n, hn⟩ := key
  refine ⟨n, fun start hp o ho => ?_⟩
  obtain ⟨k, p, lo, hi, h1, h2, h3, h4, rfl⟩ := hp
  rcases hb : byteAt m o with _ | b
  · exact .out hb
  · have hk := byteAt_some h1
    have hoo := byteAt_some hb
    have e : (o.toNat : Int) = o := by omega
    have := hn (table m 0x14 + k).toNat (by omega) o.toNat (by omega) p lo hi
      (by rw [show ((table m 0x14 + (k : Int)).toNat : Int) = table m 0x14 + k by omega]; exact h1) h2 h3 h4 (by omega)
    rw [e] at this
    exact this ho

/-! ### Instruments -/

theorem rmtLoud_ends {m : List Nat} (hb : AllBytes m) (a b c : Int) (e : Bool) : PE (fun _ => True) (rmtLoud m a b c e) :=
  PostE.bind (rdI_ends hb _) fun _ _ => PostE.bind (rdI_ends (m := rmtVolumeSilent) (by unfold AllBytes; decide) _) fun _ _ => trivial

theorem rmtAttack_ends {m : List Nat} (hb : AllBytes m) (ins last vol : Int) (e : Bool) (fuel : Nat) (call calls index : Int) (hf : 0 < fuel)
    (h : last < index + 3 * fuel) : PE (fun _ => True) (rmtAttack m ins last vol e fuel call calls index) := by
  induction fuel generalizing call calls index with
  | zero => omega
  | succ fuel ih =>
    refine PostE.bind (rmtLoud_ends hb _ _ _ _) fun loud _ => PostE.ite (fun _ => ih _ _ _ (by omega) (by omega)) fun _ => trivial

theorem rmtDecay_ends {m : List Nat} (hb : AllBytes m) (ins last loop depth min : Int) (e : Bool) (hd : 1 ≤ depth ∧ depth ≤ 255) (hmin : 0 ≤ min) (fuel : Nat)
    (call calls index vol slide : Int) (silent : Bool) (hs : 0 ≤ slide) (hv : 0 ≤ vol) (h : vol * 256 + slide < fuel) :
    PE (fun _ => True) (rmtDecay m ins last loop depth min e fuel call calls index vol slide silent) := by
  induction fuel generalizing call calls index vol slide silent with
  | zero => omega
  | succ fuel ih =>
    unfold rmtDecay
    refine PostE.ite (fun _ => trivial) fun _ => PostE.bind (rmtLoud_ends hb _ _ _ _) fun loud _ => ?_
    refine PostE.ite (fun _ => PostE.ite (fun _ => trivial) fun _ => ?_) fun _ => ?_
    · exact ih _ _ _ _ _ _ (by omega) (by omega) (by omega)
    · exact ih _ _ _ _ _ _ (by omega) (by omega) (by omega)

theorem rmtFrames_ends {m : List Nat} (hb : AllBytes m) (ins vol frame : Nat) (vf : Int) (hv : vol < 16) (hf : 0 ≤ vf) (e : Bool) :
    PE (fun _ => True) (getRmtInstrumentFrames m ins vol vf e) := by
  unfold getRmtInstrumentFrames
  refine PostE.bind (getWord_ends hb _) fun a _ => PostE.bind (getWord_ends hb _) fun t _ => PostE.bind (rdI_ends hb _) fun hi _ => ?_
  refine PostE.ite (fun _ => trivial) fun _ => PostE.bind (getWordI_ends hb _) fun addr _ => ?_
  refine PostE.bind (rd_ends hb _) fun perFrame _ => PostE.bind (rdI_ends hb _) fun first _ => PostE.bind (rdI_ends hb _) fun last hlast => ?_
  refine PostE.bind (rdI_ends hb _) fun loop _ => PostE.ite (fun _ => trivial) fun _ => ?_
  refine PostE.bind (rdI_ends hb _) fun depth hd => PostE.bind (rdI_ends hb _) fun min _ => ?_
  refine PostE.bind (P := fun _ => True) ?_ fun r _ => PostE.ite (fun _ => trivial) fun hne => ?_
  · unfold rmtFirst
    refine PostE.ite (fun _ => trivial) fun _ => rmtAttack_ends hb _ _ _ _ _ _ _ _ (by decide) ?_
    have h : 0 ≤ vf * (perFrame : Int) := Int.mul_nonneg hf (by omega)
    generalize vf * (perFrame : Int) = q at h
    omega
  · exact PostE.bind (rmtDecay_ends hb _ _ _ _ _ _ ⟨by omega, by omega⟩ (by omega) _ _ _ _ _ _ _ (by decide) (by omega) (by omega)) fun _ _ => trivial

/-! ### Rows -/

/-- Where a channel can be. -/
def ChanAt (m : List Nat) (start o : Int) : Prop := o < 0 ∨ (Pattern m start ∧ Reached m start o)

/-- The notes of a channel. -/
structure Chan (frames : Nat) (c : RmtCh) : Prop where
  ins : c.instrumentFrame ≤ c.volumeFrame
  frame : c.volumeFrame ≤ frames
  vol : c.volume < 16

theorem Chan.mono {f g : Nat} {c : RmtCh} (h : Chan f c) (hfg : f ≤ g) : Chan g c := ⟨h.ins, Nat.le_trans h.frame hfg, h.vol⟩

/-- The channel is not read in the next `rows` rows, or it is in a pattern. -/
def Ready (m : List Nat) (rows : Nat) (c : RmtCh) : Prop := (rows : Int) < c.blank ∨ ChanAt m c.start c.offset

theorem rdI_byteAt {m : List Nat} (hb : AllBytes m) (o : Int) : PE (fun b => byteAt m o = some b ∧ b < 256) (rdI m o) := by
  unfold rdI byteAt
  split
  · unfold rd
    rcases h : m[o.toNat]? with _ | b
    · exact ends_ub
    · exact ⟨rfl, hb b (List.mem_of_getElem? h)⟩
  · exact ends_ub

theorem settled {m : List Nat} {n : Nat} (hn : ∀ start, Pattern m start → ∀ o, Reached m start o → SettlesIn m start n o) {start o : Int} (h : ChanAt m start o) :
    SettlesIn m start n o := by
  rcases h with h | h
  · exact .out (by unfold byteAt; rw [if_neg (by omega)])
  · exact hn _ h.1 _ h.2

theorem chanAt_reached {m : List Nat} {start o : Int} {b : Nat} (h : ChanAt m start o) (hb : byteAt m o = some b) : Pattern m start ∧ Reached m start o := by
  rcases h with h | h
  · have := (byteAt_some hb).1; omega
  · exact h

theorem rmtCommands_ends {m : List Nat} (hb : AllBytes m) (frames fuel : Nat) (c : RmtCh) (tempo n : Nat) (hs : SettlesIn m c.start n c.offset) (hf : n < fuel)
    (hat : ChanAt m c.start c.offset) (hc : Chan frames c) :
    PE (fun r => Chan frames r.1 ∧ (r.2.2 = false → ChanAt m r.1.start r.1.offset)) (rmtCommands m frames fuel c tempo) := by
  induction fuel generalizing c tempo n with
  | zero => omega
  | succ fuel ih =>
    unfold rmtCommands
    refine PostE.bind (rdI_byteAt hb _) fun i hi => ?_
    have hp := chanAt_reached hat hi.1
    refine PostE.ite (fun h1 => ?_) fun h1 => PostE.ite (fun h2 => ?_) fun h2 => PostE.ite (fun h3 => ?_) fun h3 => PostE.ite (fun h4 => ?_) fun h4 =>
      PostE.ite (fun h5 => ?_) fun h5 => ?_
    · refine PostE.bind (rdI_byteAt hb _) fun j _ => ?_
      have hr : ChanAt m c.start (c.offset + 2) := .inr ⟨hp.1, hp.2.note hi.1 h1⟩
      refine ⟨?_, fun _ => ?_⟩
      · show Chan frames (if i % 64 ≠ 61 then _ else _)
        split
        · exact ⟨Nat.le_refl _, Nat.le_refl _, Nat.mod_lt _ (by decide)⟩
        · exact ⟨Nat.le_trans hc.ins hc.frame, Nat.le_refl _, Nat.mod_lt _ (by decide)⟩
      · show ChanAt m (RmtCh.start (if i % 64 ≠ 61 then _ else _)) (RmtCh.offset (if i % 64 ≠ 61 then _ else _))
        split <;> exact hr
    · subst h2
      exact PostE.bind (rdI_byteAt hb _) fun j _ => ⟨⟨hc.ins, hc.frame, hc.vol⟩, fun _ => .inr ⟨hp.1, hp.2.longPause hi.1⟩⟩
    · exact ⟨⟨hc.ins, hc.frame, hc.vol⟩, fun _ => .inr ⟨hp.1, hp.2.pause hi.1 h3 h2⟩⟩
    · refine PostE.bind (rdI_byteAt hb _) fun j _ => ?_
      cases hs with
      | out h => rw [hi.1] at h; cases h
      | row h a b d => rw [hi.1] at h; cases h; omega
      | brokenJump h a => rw [hi.1] at h; cases h; omega
      | jump h a b => rw [hi.1] at h; cases h; omega
      | tempo h a b => exact ih { c with offset := c.offset + 2 } j _ b (by omega) (.inr ⟨hp.1, hp.2.tempo hi.1 h4⟩) ⟨hc.ins, hc.frame, hc.vol⟩
    · subst h5
      refine PostE.bind (rdI_byteAt hb _) fun j hj => ?_
      cases hs with
      | out h => rw [hi.1] at h; cases h
      | row h a b d => rw [hi.1] at h; cases h; omega
      | brokenJump h a => rw [hj.1] at a; cases a
      | tempo h a b => rw [hi.1] at h; cases h; omega
      | jump h a b =>
        rw [hj.1] at a
        cases a
        exact ih { c with offset := c.start + j } tempo _ b (by omega) (.inr ⟨hp.1, hp.2.jump hi.1 hj.1⟩) ⟨hc.ins, hc.frame, hc.vol⟩
    · exact ⟨⟨hc.ins, hc.frame, hc.vol⟩, fun h => by cases h⟩

theorem upd_all {α : Type} {P : Nat → α → Prop} {f : Nat → α} {i : Nat} {v : α} (hv : P i v) (hf : ∀ k, k ≠ i → P k (f k)) (k : Nat) : P k (upd f i v k) := by
  unfold upd
  split
  · rename_i h; rw [h]; exact hv
  · exact hf k ‹_›

section
variable {m : List Nat} (hb : AllBytes m) {n : Nat} (hn : ∀ start, Pattern m start → ∀ o, Reached m start o → SettlesIn m start n o)
include hb hn

theorem rmtRow_ends (fuel frames left k ch : Nat) (chs : Nat → RmtCh) (tempo : Nat) (hf : n < fuel) (hc : ∀ x, Chan frames (chs x))
    (hr : ∀ x, x < ch + k → Ready m (if x < ch then left else left + 1) (chs x)) :
    PE (fun r => (∀ x, Chan frames (r.1 x)) ∧ (r.2.2 = false → ∀ x, x < ch + k → Ready m left (r.1 x))) (rmtRow m fuel frames k ch chs tempo) := by
  induction k generalizing ch chs tempo with
  | zero => exact ⟨hc, fun _ x hx => by have := hr x hx; rwa [if_pos (by omega)] at this⟩
  | succ k ih =>
    unfold rmtRow
    have hcc := hc ch
    have hready := hr ch (by omega)
    rw [if_neg (by omega)] at hready
    have next : ∀ c' : RmtCh, Chan frames c' → Ready m left c' → ∀ t,
        PE (fun r : (Nat → RmtCh) × Nat × Bool => (∀ x, Chan frames (r.1 x)) ∧ (r.2.2 = false → ∀ x, x < ch + (k + 1) → Ready m left (r.1 x)))
          (rmtRow m fuel frames k (ch + 1) (upd chs ch c') t) := by
      intro c' h1 h2 t
      have := ih (ch + 1) (upd chs ch c') t (upd_all h1 fun x _ => hc x) fun x hx =>
        upd_all (P := fun x c => x < ch + 1 + k → Ready m (if x < ch + 1 then left else left + 1) c) (fun _ => by rw [if_pos (by omega)]; exact h2)
          (fun y hy hlt => by
            have := hr y (by omega)
            by_cases hlt' : y < ch
            · rw [if_pos (by omega)]; rwa [if_pos hlt'] at this
            · rw [if_neg (by omega)]; rwa [if_neg hlt'] at this) x hx
      rwa [show ch + 1 + k = ch + (k + 1) by omega] at this
    refine PostE.ite (fun hpos => ?_) fun hpos => ?_
    · refine next { chs ch with blank := (chs ch).blank - 1 } ⟨hcc.ins, hcc.frame, hcc.vol⟩ ?_ _
      rcases hready with h | h
      · exact .inl (by show (left : Int) < (chs ch).blank - 1; omega)
      · exact .inr h
    · have hat : ChanAt m (chs ch).start (chs ch).offset := by
        rcases hready with h | h
        · have hpos : ¬ (chs ch).blank - 1 > 0 := hpos
          omega
        · exact h
      refine PostE.bind (rmtCommands_ends hb frames fuel _ tempo n (settled hn hat) hf hat ⟨hcc.ins, hcc.frame, hcc.vol⟩) fun r hr' => ?_
      obtain ⟨c', t, stop⟩ := r
      cases stop with
      | true => exact ⟨upd_all hr'.1 fun x _ => hc x, fun h => by cases h⟩
      | false => exact next c' hr'.1 (.inr (hr'.2 rfl)) t

theorem rmtRows_ends (fuel channels k : Nat) (chs : Nat → RmtCh) (tempo frames : Nat) (hf : n < fuel) (hc : ∀ x, Chan frames (chs x))
    (hr : ∀ x, x < channels → Ready m k (chs x)) : PE (fun r => ∀ x, Chan r.2.2 (r.1 x)) (rmtRows m fuel channels k chs tempo frames) := by
  induction k generalizing chs tempo frames with
  | zero => exact hc
  | succ k ih =>
    unfold rmtRows
    refine PostE.bind (rmtRow_ends hb hn fuel frames k channels 0 chs tempo hf hc fun x hx => by rw [if_neg (by omega)]; exact hr x (by omega)) fun r hr' => ?_
    obtain ⟨chs', t, stop⟩ := r
    cases stop with
    | true => exact hr'.1
    | false => exact ih chs' t _ (fun x => (hr'.1 x).mono (Nat.le_add_right _ _)) fun x hx => hr'.2 rfl x (by omega)

end

theorem cast_table (a b c d : Nat) : ((a + 256 * b : Nat) : Int) - (((c + 256 * d : Nat) : Int) - 6) = (a : Int) + 256 * b - ((c : Int) + 256 * d - 6) := by omega

theorem cast_word (a b : Nat) : ((a + 256 * b : Nat) : Int) - 6 = (a : Int) + 256 * b - 6 := by omega

theorem splitAddr_byteAt {m : List Nat} (hb : AllBytes m) (lo hi off : Int) :
    PE (fun r => ∃ l h : Nat, byteAt m lo = some l ∧ byteAt m hi = some h ∧ r = (l : Int) + 256 * h - off) (splitAddr m lo hi off) :=
  PostE.bind (rdI_byteAt hb lo) fun l hl => PostE.bind (rdI_byteAt hb hi) fun h hh => ⟨l, h, hl.1, hh.1, rfl⟩

theorem rmtLine_ends {m : List Nat} (hb : AllBytes m) (line off : Int) (hoff : off = (m.getD 2 0 : Int) + 256 * m.getD 3 0 - 6)
    (q : Nat) (hline : line = table m 0x14 + q) (frames k ch : Nat) (chs : Nat → RmtCh) (hc : ∀ x, Chan frames (chs x)) (hr : ∀ x < ch, Ready m 255 (chs x)) :
    PE (fun r => ∀ c, r = some c → (∀ x, Chan frames (c x)) ∧ ∀ x < ch + k, Ready m 255 (c x)) (rmtLine m off line (table m 0x10) (table m 0x12) k ch chs) := by
  induction k generalizing ch chs with
  | zero => exact fun c h => by cases h; exact ⟨hc, hr⟩
  | succ k ih =>
    unfold rmtLine
    refine PostE.bind (rdI_byteAt hb _) fun p hp => ?_
    have hcc := hc ch
    have next : ∀ c' : RmtCh, Chan frames c' → Ready m 255 c' →
        PE (fun r => ∀ c, r = some c → (∀ x, Chan frames (c x)) ∧ ∀ x < ch + (k + 1), Ready m 255 (c x)) (rmtLine m off line (table m 0x10) (table m 0x12) k (ch + 1) (upd chs ch c')) := by
      intro c' h1 h2
      have := ih (ch + 1) (upd chs ch c') (upd_all h1 fun x _ => hc x) fun x hx =>
        upd_all (P := fun x c => x < ch + 1 → Ready m 255 c) (fun _ => h2) (fun y hy hlt => hr y (by omega)) x hx
      rwa [show ch + 1 + k = ch + (k + 1) by omega] at this
    refine PostE.ite (fun _ => next _ ⟨hcc.ins, hcc.frame, hcc.vol⟩ (.inl (by show (255 : Int) < 256; decide))) fun hne => ?_
    refine PostE.bind (splitAddr_byteAt hb _ _ _) fun o ho => PostE.ite (fun _ => fun c h => by cases h) fun _ => ?_
    obtain ⟨l, h, h1, h2, h3⟩ := ho
    refine next _ ⟨hcc.ins, hcc.frame, hcc.vol⟩ (.inr (.inr ⟨?_, .start⟩))
    refine ⟨q + ch, p, l, h, ?_, hne, h1, h2, by rw [h3, hoff]; rfl⟩
    have := hp.1
    rw [hline] at this
    rw [← this]
    congr 1
    omega

section
variable {m : List Nat} (hb : AllBytes m) {n : Nat} (hn : ∀ start, Pattern m start → ∀ o, Reached m start o → SettlesIn m start n o)
include hb hn

theorem rmtLoop_ends (r : RmtSong) (h1 : r.addrToOffset = (m.getD 2 0 : Int) + 256 * m.getD 3 0 - 6) (h2 : r.song = table m 0x14) (h3 : r.lo = table m 0x10)
    (h4 : r.hi = table m 0x12) (lines fuel pos : Nat) (chs : Nat → RmtCh) (tempo frames : Nat) (v : Visits) (hf : n < fuel) (hl : left v < lines)
    (hc : ∀ x, Chan frames (chs x)) :
    PE (fun res => ∀ c, res.1 = some c → ∀ x, Chan res.2.1 (c x)) (rmtLoop m r lines fuel pos chs tempo frames v) := by
  induction lines generalizing pos chs tempo frames v with
  | zero => omega
  | succ lines ih =>
    unfold rmtLoop
    refine PostE.ite (fun _ => PostE.ite (fun _ => ends_ub) fun hp => PostE.ite (fun _ => fun c h => by cases h; exact hc) fun hs => ?_) fun _ => fun c h => by cases h; exact hc
    have hv := left_visit (Nat.lt_of_not_le hp) (Decidable.not_not.mp hs)
    refine PostE.bind (rdI_ends hb _) fun i _ => PostE.ite (fun _ => ?_) fun _ => ?_
    · exact PostE.bind (rdI_ends hb _) fun p _ => ih _ _ _ _ _ (by omega) hc
    · rw [h3, h4]
      refine PostE.bind (rmtLine_ends hb _ _ h1 (pos * r.channels) (by rw [h2]; push_cast; rfl) frames r.channels 0 chs hc fun x hx => by omega) fun line hline => ?_
      cases line with
      | none => exact fun c h => by cases h
      | some chs' =>
        obtain ⟨g1, g2⟩ := hline chs' rfl
        refine PostE.bind (rd_ends hb _) fun rows hrows => ?_
        refine PostE.bind (rmtRows_ends hb hn fuel r.channels rows chs' tempo frames hf g1 fun x hx => ?_) fun res hres => ?_
        · rcases g2 x (by omega) with h | h
          · exact .inl (by omega)
          · exact .inr h
        · exact ih _ _ _ _ _ (by rw [left_played]; omega) hres

omit hn in
theorem rmtLastFrame_ends (chs : Nat → RmtCh) (frames : Nat) (hc : ∀ x, Chan frames (chs x)) (k ch : Nat) (last : Int) : PE (fun _ => True) (rmtLastFrame m chs k ch last) := by
  induction k generalizing ch last with
  | zero => trivial
  | succ k ih =>
    refine PostE.bind (rmtFrames_ends hb _ _ frames _ (hc ch).vol ?_ _) fun _ _ => ih _ _
    have := (hc ch).ins
    omega

omit hb hn in
theorem getWord_getD {m : List Nat} (i : Nat) : PE (fun w => w = m.getD i 0 + 256 * m.getD (i + 1) 0) (getWord m i) := by
  unfold getWord rd
  rcases h : m[i]? with _ | b
  · exact ends_ub
  rcases h' : m[i + 1]? with _ | b'
  · exact ends_ub
  · show _ = _
    rw [List.getD_eq_getElem?_getD, List.getD_eq_getElem?_getD, h, h']
    rfl

omit hb hn in
theorem rmtFinish_ends {i : Info} (h : i.songs < 32) (hf : 0 ≤ i.fastplay) (loop : Bool) (frames last : Int) : PE (Added i) (rmtFinish i loop frames last) := by
  unfold rmtFinish
  refine PostE.ite (fun _ => ?_) fun _ => ?_
  · have hj : ∀ p q : Bool, Added i (if p then setLoops i true else if q then setLoops i false else i) ∧ (if p then setLoops i true else if q then setLoops i false else i).songs = i.songs := by
      intro p q
      cases p
      · exact ⟨orLoops_added (Nat.le_of_lt h) q false, orLoops_songs _ _ _⟩
      · exact ⟨Added.setLoops (Nat.le_of_lt h) true, rfl⟩
    have e : (if (loop && decide ¬(frames - last > 100)) = true then setLoops i true else if frames - last > 100 then setLoops i false else i) =
        (if (loop && decide ¬(frames - last > 100)) = true then setLoops i true else if decide (frames - last > 100) = true then setLoops i false else i) := by
      rw [orLoops_prop]
    have hj := hj (loop && decide ¬(frames - last > 100)) (decide (frames - last > 100))
    rw [← e] at hj
    refine PostE.ite (fun _ => ?_) fun _ => hj.1
    exact (addSongLoops_ends hj.1 hj.2 h hf (by omega)).mono (fun _ h => h) fun _ h => h.1
  · refine PostE.ite (fun _ => ?_) fun _ => orLoops_added (Nat.le_of_lt h) _ _
    exact (addSongLoops_ends (orLoops_added (Nat.le_of_lt h) _ _) (orLoops_songs _ _ _) h hf (by omega)).mono (fun _ h => h) fun _ h => h.1

theorem parseRmtSong_ends (fuel : Nat) (hfuel : n < fuel) (songLen : Int) (channels : Nat) (i : Info) (glob : Nat → Bool) (pos : Nat) (h : i.songs < 32) (hf : 0 ≤ i.fastplay) :
    PE (fun r => Added i r.1) (parseRmtSong fuel m songLen channels i glob pos) := by
  unfold parseRmtSong
  refine PostE.bind (getWord_getD _) fun a ha => PostE.bind (rd_ends hb _) fun tempo _ => PostE.bind (getWord_getD _) fun song hsong => ?_
  refine PostE.bind (getWord_getD _) fun lo hlo => PostE.bind (getWord_getD _) fun hi hhi => ?_
  have tab : ∀ w at_ : Nat, w = m.getD at_ 0 + 256 * m.getD (at_ + 1) 0 → (w : Int) - ((a : Int) - 6) = table m at_ := by
    intro w at_ hw
    unfold table offsetOf
    rw [hw, ha]
    exact cast_table _ _ _ _
  refine PostE.bind (rmtLoop_ends hb hn _ (by show (a : Int) - 6 = _; rw [ha]; exact cast_word _ _) (tab _ _ hsong) (tab _ _ hlo) (tab _ _ hhi) 257 fuel pos _ tempo 0 _ hfuel
    (by have := left_le { glob := glob }; omega) fun x => ⟨Nat.le_refl _, Nat.le_refl _, by decide⟩) fun r hr => ?_
  obtain ⟨chs, frames, v⟩ := r
  cases chs with
  | none => exact orLoops_added (Nat.le_of_lt h) _ _
  | some chs =>
    refine PostE.bind (rmtLastFrame_ends hb chs frames (hr chs rfl) _ _ _) fun last _ => ?_
    exact PostE.bind (rmtFinish_ends h hf _ _ _) fun _ h => h

omit hn in
theorem rmtTitle_ends (blockLen : Int) (k j : Nat) : PE (TitleOk k) (rmtTitle m blockLen k j) := by
  induction k generalizing j with
  | zero => exact ⟨Nat.le_refl _, fun c hc => by cases hc⟩
  | succ k ih =>
    unfold rmtTitle
    refine PostE.ite (fun _ => PostE.bind (rdI_ends hb _) fun c _ => PostE.ite (fun _ => ⟨Nat.zero_le _, fun c hc => by cases hc⟩) fun _ => ?_) fun _ =>
      ⟨Nat.zero_le _, fun c hc => by cases hc⟩
    refine PostE.bind (ih _) fun rest hr => ⟨by rw [List.length_cons]; have := hr.1; omega, fun x hx => ?_⟩
    rcases List.mem_cons.mp hx with h | h
    · rw [h]
      split
      · assumption
      · rfl
    · exact hr.2 x h

omit hn in
theorem parseRmtBlock_of {E : Fault → Prop} (hE : ∀ e, Ends e → E e) (fuel : Nat) (i : Info) (channels : Nat) (hf : i.fastplay = 312) (hc : i.channels = 1)
    (hsong : ∀ songLen i seen pos, i.songs < 32 → 0 ≤ i.fastplay → PostE E (fun r => Added i r.1) (parseRmtSong fuel m songLen channels i seen pos)) :
    PostE E (Accepted .rmt i) (parseRmtBlock fuel i m channels) := by
  have of : ∀ {α : Type} {P : α → Prop} {x : M α}, PE P x → PostE E P x := fun h => h.mono hE fun _ h => h
  unfold parseRmtBlock
  refine PostE.bind (of (rd_ends hb _)) fun rate _ => PostE.ite (fun _ => hE _ (ends_thrown _)) fun hrate => ?_
  refine PostE.bind (of (parseModule_ends hb _)) fun music hmus => PostE.bind (of (getWord_ends hb _)) fun last _ => ?_
  refine PostE.bind (P := fun _ => True) (of ?_) fun songLen _ => PostE.ite (fun _ => hE _ (ends_thrown _)) fun _ => ?_
  · refine PostE.bind (getWord_ends hb _) fun _ _ => PostE.bind (getWord_ends hb _) fun _ _ => ?_
    exact PostE.ite (fun _ => PostE.bind (rdI_ends hb _) fun _ _ => trivial) fun _ => trivial
  refine PostE.bind (eachSong_ends (fun i seen pos h hf => hsong _ i seen pos h hf) _ _ _ _ (Nat.zero_le _) (by show 0 ≤ i.fastplay; omega)) fun r hr => ?_
  refine PostE.ite (fun _ => hE _ (ends_thrown _)) fun hne => PostE.bind (of (rmtTitle_ends hb _ _ _)) fun title ht => ?_
  have hrest := hr.rest
  refine ⟨by rw [hrest], by show 1 ≤ r.songs; omega, hr.max, fun k hk => hr.new k (Nat.zero_le _) hk, fun k hk => hr.old k (.inr hk), ht.1, ht.2, rate_mem hrate, ?_, ?_, ?_⟩
  · rw [hrest]
    show (if channels = 8 then 2 else i.channels) = 1 ∨ (if channels = 8 then 2 else i.channels) = 2
    split
    · exact .inr rfl
    · exact .inl hc
  · rw [hrest]; exact hmus
  · rw [hrest]

omit hn in
theorem parseRmt_of {E : Fault → Prop} (hE : ∀ e, Ends e → E e) (fuel : Nat) (i : Info) (hf : i.fastplay = 312) (hc : i.channels = 1)
    (hsong : ∀ channels songLen i seen pos, i.songs < 32 → 0 ≤ i.fastplay → PostE E (fun r => Added i r.1) (parseRmtSong fuel m songLen channels i seen pos)) :
    PostE E (Accepted .rmt i) (parseRmt fuel i m) := by
  unfold parseRmt
  refine PostE.bind (P := fun _ => True) (PostE.mono (E := Ends) ?_ hE fun _ h => h) fun ok _ => PostE.ite (fun _ => hE _ (ends_thrown _)) fun _ => ?_
  · unfold validateRmt
    refine PostE.ite (fun _ => trivial) fun _ => ?_
    exact PostE.bind (rd_ends hb _) fun _ _ => PostE.bind (rd_ends hb _) fun _ _ => PostE.bind (rd_ends hb _) fun _ _ => PostE.bind (rd_ends hb _) fun _ _ => trivial
  refine PostE.bind (PostE.mono (rd_ends hb _) hE fun _ h => h) fun x _ => PostE.ite (fun _ => parseRmtBlock_of hb hE fuel i 4 hf hc (hsong 4)) fun _ =>
    PostE.ite (fun _ => parseRmtBlock_of hb hE fuel i 8 hf hc (hsong 8)) fun _ => hE _ (ends_thrown _)

theorem parseRmt_ends (fuel : Nat) (hfuel : n < fuel) (i : Info) (hf : i.fastplay = 312) (hc : i.channels = 1) :
    PE (Accepted .rmt i) (parseRmt fuel i m) :=
  parseRmt_of hb (fun _ h => h) fuel i hf hc fun _ _ i seen pos h hf => parseRmtSong_ends hb hn fuel hfuel _ _ i seen pos h hf

omit hb hn in
theorem always {α : Type} (x : M α) : PostE (fun _ => True) (fun _ => True) x := by
  match x with
  | .ok _ => trivial
  | .error _ => trivial

omit hn in
/-- What is accepted is sane, also if the scan could go on forever for other songs. -/
theorem parseRmt_accepted (fuel : Nat) (i : Info) (hf : i.fastplay = 312) (hc : i.channels = 1) :
    PostE (fun _ => True) (Accepted .rmt i) (parseRmt fuel i m) := by
  refine parseRmt_of hb (fun _ _ => trivial) fuel i hf hc fun channels songLen i seen pos h hf => ?_
  unfold parseRmtSong
  refine PostE.bind (always _) fun a _ => PostE.bind (always _) fun tempo _ => PostE.bind (always _) fun song _ => PostE.bind (always _) fun lo _ =>
    PostE.bind (always _) fun hi _ => PostE.bind (always _) fun r _ => ?_
  obtain ⟨chs, frames, v⟩ := r
  cases chs with
  | none => exact orLoops_added (Nat.le_of_lt h) _ _
  | some chs =>
    exact PostE.bind (always _) fun last _ => PostE.bind ((rmtFinish_ends h hf _ _ _).mono (fun _ _ => trivial) fun _ h => h) fun _ h => h

omit hb hn in
theorem parseCmcSong_added (fuel : Nat) (i : Info) (pos : Nat) (h : i.songs < 32) (hf : 0 ≤ i.fastplay) :
    PostE (fun _ => True) (fun r => Added i r ∧ r.songs = i.songs + 1) (parseCmcSong fuel m i pos) := by
  unfold parseCmcSong
  refine PostE.bind (always _) fun tempo _ => PostE.bind (always _) fun s _ => ?_
  exact (addSongLoops_ends (orLoops_added (Nat.le_of_lt h) s.loops true) (orLoops_songs _ _ _) h hf (by omega)).mono (fun _ _ => trivial) fun _ h => h

omit hb hn in
theorem cmcSongs_added (fuel k pos : Nat) (i : Info) (h : i.songs ≤ 32) (hf : 0 ≤ i.fastplay) : PostE (fun _ => True) (Added i) (cmcSongs fuel m k pos i) := by
  induction k generalizing pos i with
  | zero => exact Added.refl h
  | succ k ih =>
    unfold cmcSongs
    refine PostE.ite (fun hlt => PostE.bind (always _) fun x _ => PostE.ite (fun _ => ?_) fun _ => ih _ _ h hf) fun _ => Added.refl h
    refine PostE.bind (parseCmcSong_added fuel i (pos + 1) hlt hf) fun r hr => ?_
    exact (ih _ r hr.1.max (by rw [hr.1.fastplay]; exact hf)).mono (fun _ h => h) fun _ h => hr.1.trans h

omit hn in
theorem parseCmc_accepted (fuel : Nat) (i : Info) (type : ModType) (hf : i.fastplay = 312 ∨ i.fastplay = 156) (hc : i.channels = 1 ∨ i.channels = 2) (ht : i.title = []) :
    PostE (fun _ => True) (Accepted type i) (parseCmc fuel i m type) := by
  unfold parseCmc
  refine PostE.ite (fun _ => trivial) fun _ => PostE.bind ((parseModule_ends hb _).mono (fun _ _ => trivial) fun _ h => h) fun music hmus => PostE.bind (always _) fun last _ => ?_
  have hf0 : 0 ≤ i.fastplay := by omega
  refine PostE.bind (parseCmcSong_added fuel _ 0 (by show 0 < 32; decide) hf0) fun r hr => ?_
  refine (cmcSongs_added fuel _ _ r hr.1.max (by rw [hr.1.fastplay]; exact hf0)).mono (fun _ h => h) fun s hs => ?_
  have h1 := hr.1.trans hs
  have hrest := h1.rest
  have hpos : r.songs = 1 := hr.2
  refine ⟨by rw [hrest], by have := hs.le; omega, h1.max, fun k hk => h1.new k (Nat.zero_le _) hk, fun k hk => h1.old k (.inr hk), ?_, ?_, ?_, ?_, ?_, ?_⟩
  · rw [hrest]; show i.title.length ≤ 127; rw [ht]; exact Nat.zero_le _
  · rw [hrest]; show ∀ c ∈ i.title, _; rw [ht]; exact fun c hc => by cases hc
  · rw [hrest]; show i.fastplay ∈ _; rcases hf with hf | hf <;> rw [hf] <;> decide
  · rw [hrest]; exact hc
  · rw [hrest]; exact hmus
  · rw [hrest]

end

end Asap.Module.Tracker
