import Verif.Lemmas.Dlt
import Verif.Spec.Cmc

/-! Chaos Music Composer: bounds, termination and the durations. -/

namespace Asap.Module
open Asap Asap.Spec.Cmc

/-- The command of the specification, as the model carries it out. -/
def applyCmd (type : ModType) (s : CmcSt) : Cmd → CmcSt
  | .skip => { s with pos := s.pos + 1 }
  | .stop => { s with pos := -1 }
  | .loop => { s with loops := true, pos := -1 }
  | .pause n => { s with playerCalls := s.playerCalls + n, pos := s.pos + 1 }
  | .goto l => { s with pos := l }
  | .tempo t => { s with tempo := t, pos := s.pos + 1 }
  | .replay b c => { s with pos := s.pos + 1, repStart := s.pos + 1, repEnd := s.pos + 1 + b, repTimes := (c : Int) - 1 }
  | .play => cmcPattern type s

theorem cmcCommand_eq (type : ModType) (s : CmcSt) (a b c : Nat) (h : ¬ (a = 0xfe ∨ b = 0xfe ∨ c = 0xfe)) :
    cmcCommand type s a b c = applyCmd type s (decode (decide (type = .cms)) s.pos a b c) := by
  unfold cmcCommand decode cmcCode
  rw [if_neg h]
  by_cases ht : type = .cms
  · simp only [ht, if_true, decide_true]
    by_cases h1 : a / 8 = 0x10
    · simp [h1, applyCmd]
    by_cases h2 : a / 8 = 0x14
    · simp [h2, applyCmd]
    by_cases h3 : a / 8 = 0x11
    · simp [h3, applyCmd]
    by_cases h4 : a / 8 = 0x12
    · simp only [h4, applyCmd, cmcPause]
      simp only [Nat.reduceMul, Nat.reduceAdd, reduceIte, Nat.reduceEqDiff, or_self]
      congr 1
      split
      · split <;> omega
      · rfl
    by_cases h5 : a / 8 = 0x13
    · simp [h5, applyCmd]
    by_cases h6 : a / 8 = 0x15
    · simp [h6, applyCmd]
    by_cases h7 : a / 8 = 0x17
    · simp [h7, applyCmd]
    by_cases h8 : a / 8 = 0x19
    · by_cases hb : b < 128 <;> simp [h8, applyCmd, hb]
    by_cases h9 : a / 8 = 0x1b
    · simp [h9, applyCmd]
    by_cases h10 : a / 8 = 0x1d
    · simp [h10, applyCmd]
    · rw [if_neg (by omega), if_neg (by omega), if_neg (by omega), if_neg (by omega), if_neg (by omega), if_neg (by omega), if_neg (by omega),
        if_neg (by omega), if_neg (by omega), if_neg h1, if_neg h2, if_neg h4, if_neg h3, if_neg h5, if_neg h6, if_neg h7, if_neg h8, if_neg h9, if_neg h10]
      rfl
  · simp only [ht, if_false, decide_false, Bool.false_eq_true]
    by_cases h3 : a / 16 = 8
    · simp [h3, applyCmd]
    by_cases h5 : a / 16 = 9
    · simp [h5, applyCmd]
    by_cases h6 : a / 16 = 10
    · simp [h6, applyCmd]
    by_cases h7 : a / 16 = 11
    · simp [h7, applyCmd]
    by_cases h8 : a / 16 = 12
    · by_cases hb : b < 128 <;> simp [h8, applyCmd, hb]
    by_cases h9 : a / 16 = 13
    · simp [h9, applyCmd]
    by_cases h10 : a / 16 = 14
    · simp [h10, applyCmd]
    · rw [if_neg (by omega), if_neg (by omega), if_neg (by omega), if_neg (by omega), if_neg (by omega), if_neg (by omega), if_neg (by omega),
        if_neg (by omega), if_neg (by omega), if_neg h3, if_neg h5, if_neg h6, if_neg h7, if_neg h8, if_neg h9, if_neg h10]
      rfl

/-- A line does what the specification says. -/
theorem cmcLine_eq {type : ModType} {m : List Nat} {s : CmcSt} {line : Nat} (hl : 0x306 ≤ m.length) (hp : s.pos = line) (hn : line < 85) :
    cmcLine type m s = .ok (applyCmd type s (command (decide (type = .cms)) m line)) := by
  have hr : ∀ k : Nat, k ≤ 0x2b0 → rdI m ((k : Int) + s.pos) = .ok (byte m (k + line)) := by
    intro k hk
    unfold rdI rd byte
    rw [if_pos (by omega), show ((k : Int) + s.pos).toNat = k + line by omega, List.getD_eq_getElem?_getD,
      List.getElem?_eq_getElem (by omega)]
    rfl
  have h1 := hr 0x206 (by omega)
  have h2 := hr 0x25b (by omega)
  have h3 := hr 0x2b0 (by omega)
  unfold cmcLine
  rw [show (0x206 : Int) = ((0x206 : Nat) : Int) from rfl, h1, show (0x25b : Int) = ((0x25b : Nat) : Int) from rfl, h2,
    show (0x2b0 : Int) = ((0x2b0 : Nat) : Int) from rfl, h3]
  simp only [bind, Except.bind]
  unfold command
  generalize byte m (0x206 + line) = a
  generalize byte m (0x25b + line) = b
  generalize byte m (0x2b0 + line) = c
  by_cases h : a = 0xfe ∨ b = 0xfe ∨ c = 0xfe
  · rw [if_pos h]
    unfold decode
    rw [if_pos h]
    rfl
  · rw [if_neg h, cmcCommand_eq _ _ _ _ _ h, hp]

/-- The state before the command of a line. -/
def CmcSt.mark (s : CmcSt) (line : Nat) : CmcSt := { s with seen := upd s.seen line 1 }

/-- One turn of the loop. -/
theorem cmcLoop_step {type : ModType} {m : List Nat} {s : CmcSt} {line : Nat} (hl : 0x306 ≤ m.length) (h0 : 0 ≤ s.pos ∧ s.pos < 85)
    (hp : (cmcRepeat s).pos = line) (hn : line < 85) (fuel : Nat) :
    cmcLoop type m (fuel + 1) s =
      if (cmcRepeat s).seen line ≠ 0 then .ok { cmcRepeat s with loops := (cmcRepeat s).loops || decide ((cmcRepeat s).seen line ≠ 1) }
      else cmcLoop type m fuel (applyCmd type ((cmcRepeat s).mark line) (command (decide (type = .cms)) m line)) := by
  have hq : (cmcRepeat s).pos.toNat = line := by omega
  have hs : cmcSeen (cmcRepeat s) = .ok ((cmcRepeat s).seen line) := by
    unfold cmcSeen
    rw [if_pos (by omega), hq]
  show (if 0 ≤ s.pos ∧ s.pos < 0x55 then (cmcSeen (cmcRepeat s) >>= _) else _) = _
  rw [if_pos h0, hs]
  simp only [bind, Except.bind, hq]
  split
  · rfl
  · have e := cmcLine_eq (type := type) (m := m) (s := (cmcRepeat s).mark line) (line := line) hl hp hn
    unfold CmcSt.mark at e
    rw [e]
    rfl

theorem cmcLoop_out {type : ModType} {m : List Nat} {s : CmcSt} (h0 : ¬ (0 ≤ s.pos ∧ s.pos < 85)) (fuel : Nat) :
    cmcLoop type m (fuel + 1) s = .ok s := by
  show (if 0 ≤ s.pos ∧ s.pos < 0x55 then (cmcSeen (cmcRepeat s) >>= _) else _) = _
  rw [if_neg h0]

theorem cmcRepeat_pos {s : CmcSt} (h0 : 0 ≤ s.pos ∧ s.pos < 85) (hr : 0 ≤ s.repStart ∧ s.repStart ≤ s.repEnd) :
    ∃ line : Nat, (cmcRepeat s).pos = line ∧ line < 85 := by
  unfold cmcRepeat
  split
  · exact ⟨s.repStart.toNat, by show s.repStart = _; omega, by omega⟩
  · exact ⟨s.pos.toNat, by omega, by omega⟩

theorem cmcRepeat_rep (s : CmcSt) : (cmcRepeat s).repStart = s.repStart ∧ (cmcRepeat s).repEnd = s.repEnd := by
  unfold cmcRepeat
  split <;> exact ⟨rfl, rfl⟩

/-- Nothing outside the module or the table of 85 lines is read. -/
theorem cmcLoop_bounds {type : ModType} {m : List Nat} (hl : 0x306 ≤ m.length) (fuel : Nat) (s : CmcSt)
    (hr : 0 ≤ s.repStart ∧ s.repStart ≤ s.repEnd) : PostE InBounds (fun _ => True) (cmcLoop type m fuel s) := by
  induction fuel generalizing s with
  | zero => exact fun h => by cases h
  | succ fuel ih =>
    by_cases h0 : 0 ≤ s.pos ∧ s.pos < 85
    · obtain ⟨line, hp, hn⟩ := cmcRepeat_pos h0 hr
      rw [cmcLoop_step hl h0 hp hn]
      split
      · trivial
      · have hq := cmcRepeat_rep s
        apply ih
        have h1 : ((cmcRepeat s).mark line).repStart = s.repStart := hq.1
        have h2 : ((cmcRepeat s).mark line).repEnd = s.repEnd := hq.2
        have h3 : ((cmcRepeat s).mark line).pos = line := hp
        generalize (cmcRepeat s).mark line = t at h1 h2 h3
        cases command (decide (type = .cms)) m line with
        | replay b c => exact ⟨by show 0 ≤ t.pos + 1; omega, by show t.pos + 1 ≤ t.pos + 1 + b; omega⟩
        | _ => exact ⟨by show 0 ≤ t.repStart; omega, by show t.repStart ≤ t.repEnd; omega⟩
    · rw [cmcLoop_out h0]
      trivial

/-! ## Without REPLAY -/

/-- The values of `seen` stand for the sets of the specification. -/
structure SeenAs (seen : Nat → Nat) (past now : Nat → Bool) : Prop where
  past : ∀ k, past k = true ↔ seen k = 2
  now : ∀ k, now k = true ↔ seen k = 1
  le : ∀ k, seen k ≤ 2

/-- Lines below `n` not yet visited. -/
def fresh (seen : Nat → Nat) (n : Nat) : Nat := unseen (fun k => decide (seen k ≠ 0)) n

theorem fresh_mark {seen : Nat → Nat} {line : Nat} (hn : line < 85) (h : seen line = 0) : fresh (upd seen line 1) 85 + 1 = fresh seen 85 := by
  unfold fresh
  have := unseen_upd (fun k => decide (seen k ≠ 0)) line 85 hn (by simp [h])
  rw [← this]
  congr 2
  funext k
  unfold upd
  split <;> simp

theorem fresh_congr {a b : Nat → Nat} (h : ∀ k, a k = 0 ↔ b k = 0) : fresh a 85 = fresh b 85 := by
  unfold fresh
  congr 1
  funext k
  simp [h k]

/-- Without REPLAY commands the loop ends, and finds the length of the song. -/
theorem cmcLoop_plays {type : ModType} {m : List Nat} (hl : 0x306 ≤ m.length) (hn : NoReplay (decide (type = .cms)) m) (fuel : Nat) (s : CmcSt)
    (hf : fresh s.seen 85 + 1 < fuel) (hr : s.repTimes ≤ 0) (hlp : s.loops = false) (past now : Nat → Bool) (hs : SeenAs s.seen past now) :
    ∃ r d, cmcLoop type m fuel s = .ok r ∧ r.playerCalls = s.playerCalls + d ∧
      Plays (decide (type = .cms)) (if type = .cm3 then 48 else 64) m past now s.pos s.tempo d r.loops := by
  induction fuel generalizing s past now with
  | zero => omega
  | succ fuel ih =>
    by_cases h0 : 0 ≤ s.pos ∧ s.pos < 85
    · have hrep : cmcRepeat s = s := by
        unfold cmcRepeat
        rw [if_neg (by omega)]
      obtain ⟨line, hp⟩ : ∃ line : Nat, s.pos = line := ⟨s.pos.toNat, by omega⟩
      have hln : line < 85 := by omega
      rw [cmcLoop_step hl h0 (line := line) (by rw [hrep]; exact hp) hln, hrep]
      rw [hp]
      split
      · rename_i hv
        refine ⟨_, 0, rfl, rfl, ?_⟩
        show Plays _ _ m past now line s.tempo 0 (s.loops || decide (s.seen line ≠ 1))
        rw [hlp]
        by_cases h1 : s.seen line = 1
        · rw [h1]
          exact .stuck hln ((hs.now line).2 h1)
        · rw [show (false || decide (s.seen line ≠ 1)) = true by simp [h1]]
          exact .again hln ((hs.past line).2 (by have := hs.le line; omega))
      · rename_i hv
        have hv : s.seen line = 0 := Decidable.not_not.mp hv
        have hpast : past line = false := by
          cases e : past line
          · rfl
          · have := (hs.past line).1 e; omega
        have hnow : now line = false := by
          cases e : now line
          · rfl
          · have := (hs.now line).1 e; omega
        have hfr := fresh_mark hln hv
        have hs' : SeenAs (upd s.seen line 1) past (fun l => l = line || now l) := by
          refine ⟨fun k => ?_, fun k => ?_, fun k => ?_⟩
          · unfold upd
            split
            · rename_i e; subst e; rw [hpast]; simp
            · exact hs.past k
          · unfold upd
            split
            · rename_i e; subst e; simp
            · rename_i e; simp [e, hs.now k]
          · unfold upd
            split
            · omega
            · exact hs.le k
        have hc := hn line hln
        generalize hcmd : command (decide (type = .cms)) m line = cmd at hc
        cases cmd with
        | skip =>
          obtain ⟨r, d, h1, h2, h3⟩ := ih (applyCmd type (s.mark line) .skip) (by show fresh (upd s.seen line 1) 85 + 1 < fuel; omega) hr hlp past _ hs'
          refine ⟨r, d, h1, h2, .skip hln hpast hnow hcmd ?_⟩
          rw [← hp]; exact h3
        | stop =>
          obtain ⟨fuel, rfl⟩ : ∃ n, fuel = n + 1 := ⟨fuel - 1, by omega⟩
          refine ⟨_, 0, cmcLoop_out (show ¬ (0 ≤ (-1 : Int) ∧ (-1 : Int) < 85) by omega) fuel, rfl, ?_⟩
          show Plays _ _ m past now line s.tempo 0 s.loops
          rw [hlp]
          exact .stop hln hpast hnow hcmd
        | loop =>
          obtain ⟨fuel, rfl⟩ : ∃ n, fuel = n + 1 := ⟨fuel - 1, by omega⟩
          exact ⟨_, 0, cmcLoop_out (show ¬ (0 ≤ (-1 : Int) ∧ (-1 : Int) < 85) by omega) fuel, rfl, .loop hln hpast hnow hcmd⟩
        | pause n =>
          obtain ⟨r, d, h1, h2, h3⟩ := ih (applyCmd type (s.mark line) (.pause n)) (by show fresh (upd s.seen line 1) 85 + 1 < fuel; omega) hr hlp past _ hs'
          have h2 : r.playerCalls = s.playerCalls + n + d := h2
          refine ⟨r, n + d, h1, by omega, .pause hln hpast hnow hcmd ?_⟩
          rw [← hp]; exact h3
        | goto l =>
          obtain ⟨r, d, h1, h2, h3⟩ := ih (applyCmd type (s.mark line) (.goto l)) (by show fresh (upd s.seen line 1) 85 + 1 < fuel; omega) hr hlp past _ hs'
          exact ⟨r, d, h1, h2, .goto hln hpast hnow hcmd h3⟩
        | tempo t =>
          obtain ⟨r, d, h1, h2, h3⟩ := ih (applyCmd type (s.mark line) (.tempo t)) (by show fresh (upd s.seen line 1) 85 + 1 < fuel; omega) hr hlp past _ hs'
          refine ⟨r, d, h1, h2, .tempo hln hpast hnow hcmd ?_⟩
          rw [← hp]; exact h3
        | replay b c => exact absurd rfl (hc b c)
        | play =>
          have hs'' : SeenAs (applyCmd type (s.mark line) .play).seen (fun l => l = line || now l || past l) (fun _ => false) := by
            have e : ∀ k, (applyCmd type (s.mark line) .play).seen k = if upd s.seen line 1 k = 1 then 2 else upd s.seen line 1 k := by
              intro k
              show (if upd s.seen line 1 k = 1 then (if s.repTimes > 0 then 3 else 2) else upd s.seen line 1 k) = _
              rw [if_neg (show ¬ s.repTimes > 0 by omega)]
            refine ⟨fun k => ?_, fun k => ?_, fun k => ?_⟩
            · rw [e]
              have h1 := hs'.now k
              have h2 := hs'.past k
              rw [Bool.or_eq_true, h1, h2]
              split <;> omega
            · rw [e]
              split <;> simp [*]
            · rw [e]
              have := hs'.le k
              split <;> omega
          have hfr' : fresh (applyCmd type (s.mark line) .play).seen 85 = fresh (upd s.seen line 1) 85 := by
            refine fresh_congr fun k => ?_
            show (if upd s.seen line 1 k = 1 then (if s.repTimes > 0 then 3 else 2) else upd s.seen line 1 k) = 0 ↔ _
            rw [if_neg (show ¬ s.repTimes > 0 by omega)]
            split <;> omega
          obtain ⟨r, d, h1, h2, h3⟩ := ih (applyCmd type (s.mark line) .play) (by rw [hfr']; omega) hr hlp _ _ hs''
          have h2 : r.playerCalls = s.playerCalls + s.tempo * (if type = .cm3 then 48 else 64) + d := h2
          refine ⟨r, s.tempo * (if type = .cm3 then 48 else 64) + d, h1, by omega, .play hln hpast hnow hcmd ?_⟩
          rw [← hp]; exact h3
    · rw [cmcLoop_out h0]
      exact ⟨s, 0, rfl, rfl, by rw [hlp]; exact .off (by omega)⟩

/-! ## Without going back -/

theorem prop_ite {α : Type} {P : α → Prop} {c : Prop} [Decidable c] {x y : α} (hx : P x) (hy : P y) : P (if c then x else y) := by
  split
  · exact hx
  · exact hy

theorem decode_replay {stereo : Bool} {line : Int} {a b c b' c' : Nat} (h : decode stereo line a b c = .replay b' c') : c' = c := by
  have key : ∀ b' c', decode stereo line a b c = .replay b' c' → c' = c := by
    unfold decode
    let P : Cmd → Prop := fun x => ∀ b' c', x = .replay b' c' → c' = c
    show P _
    have n : ∀ x, (∀ b' c', x ≠ .replay b' c') → P x := fun x hx b' c' e => absurd e (hx b' c')
    refine prop_ite (n _ (by intros; simp)) (prop_ite ?_ ?_)
    all_goals repeat' with_reducible apply prop_ite
    all_goals first | exact (fun b' c' e => (Cmd.replay.inj e).2.symm) | exact n _ (by intros; simp)
  exact key _ _ h

theorem byte_lt {m : List Nat} (hb : AllBytes m) (i : Nat) : byte m i < 256 := by
  unfold byte
  rw [List.getD_eq_getElem?_getD]
  cases h : m[i]? with
  | none => decide
  | some b => exact hb b (List.mem_of_getElem? h)

/-- What is left to do: outstanding REPLAY commands, repetitions, lines. -/
def core (s : CmcSt) : Nat := (85 - s.repStart).toNat * 22016 + s.repTimes.toNat * 86 + (85 - s.pos).toNat

/-- Invariant of a song that does not go back. -/
def Ahead (s : CmcSt) : Prop := 0 ≤ s.repStart ∧ s.repStart ≤ s.repEnd ∧ s.repStart ≤ s.pos ∧ s.repTimes ≤ 254

theorem cmcLoop_forward {type : ModType} {m : List Nat} (hl : 0x306 ≤ m.length) (hb : AllBytes m) (hn : Forward (decide (type = .cms)) m)
    (fuel : Nat) (s : CmcSt) (hf : 2 * core s + (if s.seen s.pos.toNat = 0 then 1 else 0) + 1 < fuel) (hs : Ahead s) :
    ∃ r, cmcLoop type m fuel s = .ok r := by
  induction fuel generalizing s with
  | zero => omega
  | succ fuel ih =>
    by_cases h0 : 0 ≤ s.pos ∧ s.pos < 85
    · obtain ⟨a1, a2, a3, a4⟩ := hs
      obtain ⟨line, hp, hln⟩ := cmcRepeat_pos h0 ⟨a1, a2⟩
      rw [cmcLoop_step hl h0 hp hln]
      split
      · exact ⟨_, rfl⟩
      · rename_i hv
        have hv : (cmcRepeat s).seen line = 0 := Decidable.not_not.mp hv
        have key : 2 * core (cmcRepeat s) ≤ 2 * core s + (if s.seen s.pos.toNat = 0 then 1 else 0) - 1 ∧ 1 ≤ 2 * core s + (if s.seen s.pos.toNat = 0 then 1 else 0) ∧ (cmcRepeat s).repTimes ≤ 254 ∧ (cmcRepeat s).repStart ≤ line := by
          by_cases hr : s.pos = s.repEnd ∧ s.repTimes > 0
          · have e : cmcRepeat s = { s with seen := fun k => if s.seen k = 1 ∨ s.seen k = 3 then 0 else s.seen k, repTimes := s.repTimes - 1, pos := s.repStart } := by
              unfold cmcRepeat; rw [if_pos hr]
            have ec : core (cmcRepeat s) = (85 - s.repStart).toNat * 22016 + (s.repTimes - 1).toNat * 86 + (85 - s.repStart).toNat := by rw [e]; rfl
            rw [e] at hp ⊢
            rw [e] at ec
            rw [ec]
            have hp : s.repStart = line := hp
            unfold core
            exact ⟨by omega, by omega, by show s.repTimes - 1 ≤ 254; omega, by show s.repStart ≤ line; omega⟩
          · have e : cmcRepeat s = s := by unfold cmcRepeat; rw [if_neg hr]
            rw [e] at hp hv ⊢
            rw [show s.pos.toNat = line by omega, hv]
            exact ⟨by rw [if_pos rfl]; omega, by rw [if_pos rfl]; omega, a4, by omega⟩
        have hq := cmcRepeat_rep s
        obtain ⟨k1, k2, k3, k4⟩ := key
        have e1 : ((cmcRepeat s).mark line).repStart = s.repStart := hq.1
        have e2 : ((cmcRepeat s).mark line).repEnd = s.repEnd := hq.2
        have e3 : ((cmcRepeat s).mark line).pos = line := hp
        have e4 : ((cmcRepeat s).mark line).repTimes ≤ 254 := k3
        have e5 : core ((cmcRepeat s).mark line) = core (cmcRepeat s) := rfl
        have e6 : ((cmcRepeat s).mark line).seen line = 1 := by show upd _ _ _ _ = _; rw [upd, if_pos rfl]
        rw [hq.1] at k4
        rw [← e5] at k1
        generalize 2 * core s + (if s.seen s.pos.toNat = 0 then 1 else 0) = X at hf k1 k2
        generalize (cmcRepeat s).mark line = t at e1 e2 e3 e4 e6 k1
        have hc := hn line hln
        have hm : ∀ b c, command (decide (type = .cms)) m line = .replay b c → c < 256 := by
          intro b c h
          rw [decode_replay h]
          exact byte_lt hb _
        have hlt : ∀ b : Prop, [Decidable b] → (if b then 1 else 0) ≤ 1 := by intro b _; split <;> omega
        -- one line further
        have next : ∀ u : CmcSt, u.pos = t.pos + 1 → u.repStart = t.repStart → u.repEnd = t.repEnd → u.repTimes = t.repTimes → ∃ r, cmcLoop type m fuel u = .ok r := by
          intro u u1 u2 u3 u4
          refine ih u ?_ ⟨by omega, by omega, by omega, by omega⟩
          have := hlt (u.seen u.pos.toNat = 0)
          have h2 : core u = (85 - t.repStart).toNat * 22016 + t.repTimes.toNat * 86 + (85 - (t.pos + 1)).toNat := by
            unfold core
            rw [u1, u2, u4]
          rw [h2]
          unfold core at k1
          omega
        have halt : ∀ u : CmcSt, u.pos = -1 → ∃ r, cmcLoop type m fuel u = .ok r := by
          intro u hu
          obtain ⟨fuel, rfl⟩ : ∃ n, fuel = n + 1 := ⟨fuel - 1, by omega⟩
          exact ⟨_, cmcLoop_out (by omega) fuel⟩
        generalize hcmd : command (decide (type = .cms)) m line = cmd at hc hm
        cases cmd with
        | skip => exact next _ rfl rfl rfl rfl
        | stop => exact halt _ rfl
        | loop => exact halt _ rfl
        | pause n => exact next _ rfl rfl rfl rfl
        | tempo n => exact next _ rfl rfl rfl rfl
        | play => exact next _ rfl rfl rfl rfl
        | goto l =>
          have hle := hc l rfl
          refine ih (applyCmd type t (.goto l)) ?_ ⟨by show 0 ≤ t.repStart; omega, by show t.repStart ≤ t.repEnd; omega, by show t.repStart ≤ l; omega, e4⟩
          have h1 : core (applyCmd type t (.goto l)) = (85 - t.repStart).toNat * 22016 + t.repTimes.toNat * 86 + (85 - l).toNat := rfl
          have h2 := hlt ((applyCmd type t (.goto l)).seen (applyCmd type t (.goto l)).pos.toNat = 0)
          rw [h1]
          unfold core at k1
          by_cases e : l = line
          · have h3 : (if (applyCmd type t (.goto l)).seen (applyCmd type t (.goto l)).pos.toNat = 0 then 1 else 0) = 0 := by
              rw [show (applyCmd type t (.goto l)).pos = l from rfl, e, show ((line : Int)).toNat = line by omega, show (applyCmd type t (.goto (line : Int))).seen = t.seen from rfl, e6]
              rfl
            rw [h3]
            omega
          · omega
        | replay b c =>
          have hc256 := hm b c rfl
          refine ih (applyCmd type t (.replay b c)) ?_ ⟨by show 0 ≤ t.pos + 1; omega, by show t.pos + 1 ≤ t.pos + 1 + b; omega, by show t.pos + 1 ≤ t.pos + 1; omega, by show (c : Int) - 1 ≤ 254; omega⟩
          have h1 : core (applyCmd type t (.replay b c)) = (85 - (t.pos + 1)).toNat * 22016 + ((c : Int) - 1).toNat * 86 + (85 - (t.pos + 1)).toNat := rfl
          have h2 := hlt ((applyCmd type t (.replay b c)).seen (applyCmd type t (.replay b c)).pos.toNat = 0)
          rw [h1]
          unfold core at k1
          omega
    · rw [cmcLoop_out h0]
      exact ⟨_, rfl⟩

/-! ## The songs of a module -/

theorem byte_rd {m : List Nat} {i : Nat} (h : i < m.length) : rd m i = .ok (byte m i) := by
  unfold rd byte
  rw [List.getD_eq_getElem?_getD, List.getElem?_eq_getElem h]
  rfl

theorem cmcUsed_eq {m : List Nat} {a b c pos : Nat} (ha : a + pos < m.length) (hb : b + pos < m.length) (hc : c + pos < m.length) :
    cmcUsed m a b c pos = .ok (decide (byte m (a + pos) < 0xb0 ∨ byte m (b + pos) < 0x40 ∨ byte m (c + pos) < 0x40)) := by
  unfold cmcUsed Module.orM
  rw [byte_rd ha, byte_rd hb, byte_rd hc]
  simp only [bind, Except.bind]
  by_cases h1 : byte m (a + pos) < 0xb0 <;> by_cases h2 : byte m (b + pos) < 0x40 <;> simp [h1, h2]

/-- The module is long enough for the search of the last line. -/
def LongEnough (stereo : Bool) (m : List Nat) : Prop := 0x306 ≤ m.length ∧ (stereo = true → 0x404 ≤ m.length)

/-- The last line that is used. -/
theorem cmcLastPos_eq {m : List Nat} {stereo : Bool} {channels : Nat} (hc : stereo = decide (channels = 2)) (hl : LongEnough stereo m) (k : Nat) (hk : k ≤ 84) :
    ∃ l, cmcLastPos channels m k = .ok l ∧ -1 ≤ l ∧ l < k ∧ (∀ q : Nat, l < q → q < k → ¬ Used stereo m q) ∧ (0 ≤ l → Used stereo m l.toNat) := by
  induction k with
  | zero => exact ⟨-1, rfl, by omega, by omega, by omega, by omega⟩
  | succ k ih =>
    obtain ⟨h1, h2⟩ := hl
    unfold cmcLastPos
    rw [cmcUsed_eq (by omega) (by omega) (by omega)]
    simp only [bind, Except.bind]
    by_cases h3 : byte m (0x206 + k) < 0xb0 ∨ byte m (0x25b + k) < 0x40 ∨ byte m (0x2b0 + k) < 0x40
    · rw [if_pos (by simpa using h3)]
      refine ⟨k, rfl, by omega, by omega, by omega, fun _ => ?_⟩
      rcases h3 with h | h | h
      · exact .inl h
      · exact .inr (.inl h)
      · exact .inr (.inr (.inl h))
    · rw [if_neg (by simpa using h3)]
      have rest : ¬ Used stereo m k → ∃ l, cmcLastPos channels m k = .ok l ∧ -1 ≤ l ∧ l < (k + 1 : Nat) ∧ (∀ q : Nat, l < q → q < k + 1 → ¬ Used stereo m q) ∧ (0 ≤ l → Used stereo m l.toNat) := by
        intro hu
        obtain ⟨l, i1, i2, i3, i4, i5⟩ := ih (by omega)
        refine ⟨l, i1, i2, by omega, fun q hq hq' => ?_, i5⟩
        by_cases e : q = k
        · rw [e]; exact hu
        · exact i4 q hq (by omega)
      by_cases h4 : channels = 2
      · have hst : stereo = true := by rw [hc]; simp [h4]
        have h404 := h2 hst
        rw [if_pos h4, cmcUsed_eq (by omega) (by omega) (by omega)]
        by_cases h5 : byte m (0x306 + k) < 0xb0 ∨ byte m (0x35b + k) < 0x40 ∨ byte m (0x3b0 + k) < 0x40
        · simp only [h5, decide_true, if_true]
          exact ⟨k, rfl, by omega, by omega, by omega, fun _ => .inr (.inr (.inr ⟨hst, h5⟩))⟩
        · simp only [h5, decide_false]
          refine rest ?_
          rintro (h | h | h | ⟨_, h⟩)
          · exact h3 (.inl h)
          · exact h3 (.inr (.inl h))
          · exact h3 (.inr (.inr h))
          · exact h5 h
      · have hst : stereo = false := by rw [hc]; simp [h4]
        rw [if_neg h4]
        refine rest ?_
        rintro (h | h | h | ⟨h, _⟩)
        · exact h3 (.inl h)
        · exact h3 (.inr (.inl h))
        · exact h3 (.inr (.inr h))
        · rw [hst] at h; cases h

/-- A song has been added whose length and repetition satisfy `R`. -/
def SongAdded (R : Nat → Nat → Bool → Prop) (i : Info) (pos : Nat) (r : Info) : Prop :=
  ∃ calls loop, R pos calls loop ∧ Adds i r ∧ r.songs = i.songs + 1 ∧ r.durations i.songs = (calls : Int) * i.fastplay * 38000 / 591149 ∧
    r.loops i.songs = loop ∧ ∀ k, r.songs ≤ k → r.loops k = false

theorem songAdded {R : Nat → Nat → Bool → Prop} {i : Info} {pos calls : Nat} {loop : Bool} (hs : i.songs < 32) (hf : ∀ k, i.songs ≤ k → i.loops k = false)
    (hR : R pos calls loop) : Post (SongAdded R i pos) (addSong (if loop then setLoops i true else i) calls) := by
  cases loop
  · refine (addSong_adds (i := i) hs).mono fun r hr => ⟨calls, false, hR, hr.1, hr.2.1, hr.2.2.2.2, ?_, fun k hk => ?_⟩
    · rw [hr.2.2.2.1]; exact hf _ (Nat.le_refl _)
    · rw [hr.2.2.2.1]; exact hf _ (by omega)
  · refine (addSong_adds (i := setLoops i true) hs).mono fun r hr => ⟨calls, true, hR, (Adds.setLoops i true).trans hr.1, hr.2.1, hr.2.2.2.2, ?_, fun k hk => ?_⟩
    · rw [hr.2.2.2.1]; show upd _ _ _ _ = _; rw [upd, if_pos rfl]
    · have h1 : r.songs = i.songs + 1 := hr.2.1
      rw [hr.2.2.2.1]; show upd _ _ _ _ = _; rw [upd, if_neg (by omega)]; exact hf _ (by omega)

/-- A command that ends a song. -/
def EndsSong (m : List Nat) (p : Nat) : Prop := byte m (0x206 + p) = 0x8f ∨ byte m (0x206 + p) = 0xef

/-- The songs in the list are in the record from index `n` on. -/
def SongsIn (R : Nat → Nat → Bool → Prop) (fastplay : Int) (n : Nat) (l : List Nat) (r : Info) : Prop :=
  ∀ k x, l[k]? = some x → n + k < 32 → ∃ calls loop, R x calls loop ∧ r.durations (n + k) = (calls : Int) * fastplay * 38000 / 591149 ∧ r.loops (n + k) = loop

theorem cmcSongs_post {E : Fault → Prop} {R : Nat → Nat → Bool → Prop} {fuel : Nat} {m : List Nat} (hl : 0x306 ≤ m.length)
    {Inv : Info → Prop} (hsong : ∀ i pos, pos ≤ 85 → i.songs < 32 → (∀ k, i.songs ≤ k → i.loops k = false) → Inv i → PostE E (fun r => SongAdded R i pos r ∧ Inv r) (parseCmcSong fuel m i pos))
    (k pos : Nat) (hk : pos + k ≤ 84) (i : Info) (hs : i.songs ≤ 32) (hf : ∀ k, i.songs ≤ k → i.loops k = false) (hi : Inv i) :
    PostE E (fun r => Adds i r ∧ (∀ k, r.songs ≤ k → r.loops k = false) ∧ ∃ l : List Nat, l.Pairwise (· < ·) ∧ (∀ x, x ∈ l ↔ ∃ p, pos ≤ p ∧ p < pos + k ∧ x = p + 1 ∧ EndsSong m p) ∧
      r.songs = min 32 (i.songs + l.length) ∧ SongsIn R i.fastplay i.songs l r) (cmcSongs fuel m k pos i) := by
  induction k generalizing pos i with
  | zero =>
    exact ⟨Adds.refl i, hf, [], by simp, fun x => ⟨fun h => by simp at h, fun ⟨p, h1, h2, _⟩ => by omega⟩, by simp; omega, fun k x hx => by simp at hx⟩
  | succ k ih =>
    unfold cmcSongs
    have total : ∃ l : List Nat, l.Pairwise (· < ·) ∧ ∀ x, x ∈ l ↔ ∃ p, pos ≤ p ∧ p < pos + (k + 1) ∧ x = p + 1 ∧ EndsSong m p := by
      have : ∀ n pos, ∃ l : List Nat, l.Pairwise (· < ·) ∧ ∀ x, x ∈ l ↔ ∃ p, pos ≤ p ∧ p < pos + n ∧ x = p + 1 ∧ EndsSong m p := by
        intro n
        induction n with
        | zero => exact fun pos => ⟨[], by simp, fun x => ⟨fun h => by simp at h, fun ⟨p, h1, h2, _⟩ => by omega⟩⟩
        | succ n ih =>
          intro pos
          obtain ⟨l, h1, h2⟩ := ih (pos + 1)
          by_cases h : EndsSong m pos
          · refine ⟨(pos + 1) :: l, List.pairwise_cons.2 ⟨fun x hx => ?_, h1⟩, fun x => ⟨fun hx => ?_, fun ⟨p, h3, h4, h5, h6⟩ => ?_⟩⟩
            · obtain ⟨p, h3, _, h4, _⟩ := (h2 x).1 hx; omega
            · rcases List.mem_cons.1 hx with rfl | hx
              · exact ⟨pos, by omega, by omega, rfl, h⟩
              · obtain ⟨p, h3, h4, h5⟩ := (h2 x).1 hx; exact ⟨p, by omega, by omega, h5⟩
            · by_cases e : p = pos
              · rw [h5, e]; simp
              · exact List.mem_cons_of_mem _ ((h2 x).2 ⟨p, by omega, by omega, h5, h6⟩)
          · refine ⟨l, h1, fun x => (h2 x).trans ⟨fun ⟨p, h3, h4, h5⟩ => ⟨p, by omega, by omega, h5⟩, fun ⟨p, h3, h4, h5, h6⟩ => ?_⟩⟩
            by_cases e : p = pos
            · rw [e] at h6; exact absurd h6 h
            · exact ⟨p, by omega, by omega, h5, h6⟩
      exact this (k + 1) pos
    refine PostE.ite (fun h32 => ?_) fun h32 => ?_
    · rw [byte_rd (by omega)]
      refine PostE.ite (fun hend => ?_) fun hend => ?_
      · refine PostE.bind (hsong i (pos + 1) (by omega) h32 hf hi) fun r hr => ?_
        obtain ⟨⟨calls, loop, r1, r2, r3, r4, r5, r6⟩, r7⟩ := hr
        have hfp : r.fastplay = i.fastplay := by rw [r2.rest]
        have h32 : i.songs < 32 := h32
        refine (ih (pos + 1) (by omega) r (by omega) r6 r7).mono (fun _ h => h) fun q hq => ?_
        obtain ⟨q1, q2, l, q3, q4, q5, q6⟩ := hq
        refine ⟨r2.trans q1, q2, (pos + 1) :: l, List.pairwise_cons.2 ⟨fun x hx => ?_, q3⟩, fun x => ⟨fun hx => ?_, fun ⟨p, h3, h4, h5, h6⟩ => ?_⟩, by rw [q5, r3]; simp; omega, ?_⟩
        · obtain ⟨p, h3, _, h4, _⟩ := (q4 x).1 hx; omega
        · rcases List.mem_cons.1 hx with rfl | hx
          · exact ⟨pos, by omega, by omega, rfl, hend⟩
          · obtain ⟨p, h3, h4, h5⟩ := (q4 x).1 hx; exact ⟨p, by omega, by omega, h5⟩
        · by_cases e : p = pos
          · rw [h5, e]; simp
          · exact List.mem_cons_of_mem _ ((q4 x).2 ⟨p, by omega, by omega, h5, h6⟩)
        · intro k x hx hk
          rcases k with _ | k
          · have hx : pos + 1 = x := by simpa using hx
            subst hx
            exact ⟨calls, loop, r1, by rw [q1.durations _ (by omega)]; exact r4, by rw [q1.loops _ (by omega)]; exact r5⟩
          · have := q6 k x (by simpa using hx) (by omega)
            rw [hfp, r3] at this
            rw [show i.songs + (k + 1) = i.songs + 1 + k by omega]
            exact this
      · refine (ih (pos + 1) (by omega) i hs hf hi).mono (fun _ h => h) fun q hq => ?_
        obtain ⟨q1, q2, l, q3, q4, q5, q6⟩ := hq
        refine ⟨q1, q2, l, q3, fun x => (q4 x).trans ⟨fun ⟨p, h3, h4, h5⟩ => ⟨p, by omega, by omega, h5⟩, fun ⟨p, h3, h4, h5, h6⟩ => ?_⟩, q5, q6⟩
        by_cases e : p = pos
        · rw [e] at h6; exact absurd h6 hend
        · exact ⟨p, by omega, by omega, h5, h6⟩
    · have : i.songs = 32 := by
        have : ¬ i.songs < 32 := h32
        omega
      obtain ⟨l, h1, h2⟩ := total
      exact ⟨Adds.refl i, hf, l, h1, h2, by omega, fun k x _ hk => by omega⟩

/-- The whole module, given what one song is. -/
theorem parseCmc_post {E : Fault → Prop} (hE : ∀ s, E (.thrown s)) {R : Nat → Nat → Bool → Prop} {fuel : Nat} {m : List Nat} (hb : AllBytes m) {type : ModType} {i : Info}
    (hsong : ∀ j pos, j.type = type → pos ≤ 85 → j.songs < 32 → (∀ k, j.songs ≤ k → j.loops k = false) → 0x306 ≤ m.length → PostE E (SongAdded R j pos) (parseCmcSong fuel m j pos))
    (hst : 0x306 ≤ m.length → LongEnough (decide (i.channels = 2)) m) (hf : ∀ k, i.loops k = false) :
    PostE E (fun r => ∃ l : List Nat, l.Pairwise (· < ·) ∧ (∀ x, x ∈ l ↔ Start (decide (i.channels = 2)) m x) ∧ r.songs = min 32 l.length ∧ 1 ≤ l.length ∧
      SongsIn R i.fastplay 0 l r ∧ (∀ k, r.songs ≤ k → r.durations k = i.durations k ∧ r.loops k = false) ∧
      ∃ music : Int, 0 ≤ music ∧ music < 65536 ∧ r = { i with type := type, music := music, songs := r.songs, songPos := r.songPos, loops := r.loops, durations := r.durations })
      (parseCmc fuel i m type) := by
  unfold parseCmc
  refine PostE.ite (fun _ => hE _) fun hl => ?_
  have hl : 0x306 ≤ m.length := by omega
  refine PostE.bind ((parseModule_post hb (by omega)).toE hE) fun music hm => ?_
  obtain ⟨a, _, hm1, hm2, _⟩ := hm
  dsimp only
  obtain ⟨last, l1, l2, l3, l4, l5⟩ := cmcLastPos_eq (channels := i.channels) rfl (hst hl) 84 (Nat.le_refl _)
  refine PostE.bind (x := cmcLastPos i.channels m 0x54) (P := fun x => x = last) (by rw [l1]; exact rfl) fun last' hx => ?_
  rw [hx]
  refine PostE.bind (hsong _ 0 rfl (by omega) (by show 0 < 32; omega) (fun k _ => hf k) hl) fun j hj => ?_
  obtain ⟨calls, loop, j1, j2, j3, j4, j5, j6⟩ := hj
  have j3 : j.songs = 1 := j3
  have hall : ∀ i pos, pos ≤ 85 → i.songs < 32 → (∀ k, i.songs ≤ k → i.loops k = false) → i.type = type →
      PostE E (fun r => SongAdded R i pos r ∧ r.type = type) (parseCmcSong fuel m i pos) := by
    intro i pos h1 h2 h3 h4
    refine (hsong i pos h4 h1 h2 h3 hl).mono (fun _ h => h) fun r hr => ⟨hr, ?_⟩
    obtain ⟨_, _, _, q, _⟩ := hr
    rw [q.rest]; exact h4
  have j7 : j.type = type := by rw [j2.rest]
  refine (cmcSongs_post (Inv := fun j => j.type = type) hl hall last.toNat 0 (by omega) j (by omega) j6 j7).mono (fun _ h => h) fun r hr => ?_
  obtain ⟨r1, r2, l, r3, r4, r5, r6⟩ := hr
  have hfp : j.fastplay = i.fastplay := by rw [j2.rest]
  have hst : ∀ x, x ∈ (0 :: l : List Nat) ↔ Start (decide (i.channels = 2)) m x := by
    intro x
    rw [List.mem_cons, r4]
    refine or_congr Iff.rfl ⟨fun ⟨p, _, h2, h3, h4⟩ => ⟨p, h3, h4, last.toNat, by omega, by omega, l5 (by omega)⟩, fun ⟨p, h1, h2, q, h3, h4, h5⟩ => ⟨p, by omega, ?_, h1, h2⟩⟩
    by_cases e : last < q
    · exact absurd h5 (l4 q e (by omega))
    · omega
  refine ⟨0 :: l, List.pairwise_cons.2 ⟨fun x hx => ?_, r3⟩, hst, by rw [r5, j3]; simp; omega, by simp, ?_, fun k hk => ⟨?_, r2 k hk⟩, music, by omega, by omega, ?_⟩
  · obtain ⟨p, _, _, h, _⟩ := (r4 x).1 hx; omega
  · intro k x hx hk
    rcases k with _ | k
    · have hx : 0 = x := by simpa using hx
      subst hx
      exact ⟨calls, loop, j1, by rw [r1.durations _ (by omega)]; exact j4, by rw [r1.loops _ (by omega)]; exact j5⟩
    · have := r6 k x (by simpa using hx) (by omega)
      rw [hfp, j3] at this
      rw [show 0 + (k + 1) = 1 + k by omega]
      exact this
  · rw [r1.unknown k hk, j2.unknown k (by have := r1.more; omega)]
  · have e := (j2.trans r1).rest
    exact e

end Asap.Module
