import Verif.Lemmas.Seek

/-! What a player that was used before remembers: fields that have no influence once a song is started. -/

namespace Asap

/-- Machines that differ in what they remember of earlier songs: whether COVOX or the speaker was heard in the last frame
(equal if `p`), the times of events (equal if `q`) and the counter of the player of TMC, except for TMC modules. -/
structure Kin (p q : Prop) (m n : Machine) : Prop where
  rest : n = { m with external := n.external, tmc := n.tmc, nextEvent := n.nextEvent, nextScan := n.nextScan }
  ext : p → n.external = m.external
  tmc : m.info.type = .tmc → n.tmc = m.tmc
  event : q → n.nextEvent = m.nextEvent
  scan : q → n.nextScan = m.nextScan

/-- What may differ replaced. -/
def Machine.other (m : Machine) (e : Bool) (t a b : Int) : Machine := { m with external := e, tmc := t, nextEvent := a, nextScan := b }

theorem Kin.mk' {p q : Prop} {m : Machine} {e : Bool} {t a b : Int} (he : p → e = m.external) (ht : m.info.type = .tmc → t = m.tmc)
    (ha : q → a = m.nextEvent) (hb : q → b = m.nextScan) : Kin p q m (m.other e t a b) := ⟨rfl, he, ht, ha, hb⟩

theorem Kin.eq {p q : Prop} {m n : Machine} (h : Kin p q m n) : ∃ e t a b, (p → e = m.external) ∧ (m.info.type = .tmc → t = m.tmc) ∧
    (q → a = m.nextEvent) ∧ (q → b = m.nextScan) ∧ n = m.other e t a b := ⟨_, _, _, _, h.ext, h.tmc, h.event, h.scan, h.rest⟩

theorem Kin.weaken {p q p' q' : Prop} {m n : Machine} (h : Kin p q m n) (hp : p' → p) (hq : q' → q) : Kin p' q' m n :=
  ⟨h.rest, fun x => h.ext (hp x), h.tmc, fun x => h.event (hq x), fun x => h.scan (hq x)⟩

/-- A result and a machine. -/
def KinR {α : Type} (p q : Prop) (a b : α × Machine) : Prop := a.1 = b.1 ∧ Kin p q a.2 b.2

/-- A program that does not look. -/
def Blind {α : Type} (p q : Prop) (f : C α) : Prop := ∀ m n : Machine, Kin p q m n → XLike (KinR p q) (f m) (f n)

/-- One step after another. -/
theorem kin_bind {α β : Type} {p q p' q' : Prop} {f : C α} {g : α → C β} {m n : Machine} (hf : XLike (KinR p q) (f m) (f n))
    (hg : ∀ a m' n', Kin p q m' n' → XLike (KinR p' q') (g a m') (g a n')) : XLike (KinR p' q') ((f >>= g) m) ((f >>= g) n) := by
  show XLike (KinR p' q') (C.bind f g m) (C.bind f g n)
  unfold C.bind
  cases hx : f m with
  | error e =>
    cases hy : f n with
    | error e' => rw [hx, hy] at hf; exact hf
    | ok b => rw [hx, hy] at hf; exact hf.elim
  | ok a =>
    cases hy : f n with
    | error e' => rw [hx, hy] at hf; exact hf.elim
    | ok b =>
      rw [hx, hy] at hf
      obtain ⟨a, m'⟩ := a
      obtain ⟨b, n'⟩ := b
      obtain ⟨h1, h2⟩ := hf
      dsimp only at h1 h2 ⊢
      subst h1
      exact hg a m' n' h2

namespace Blind

variable {α β : Type} {p q : Prop}

theorem run {f : C α} (h : Blind p q f) {m n : Machine} (hl : Kin p q m n) : XLike (KinR p q) (f m) (f n) := h m n hl

theorem bind {f : C α} {g : α → C β} (hf : Blind p q f) (hg : ∀ a, Blind p q (g a)) : Blind p q (f >>= g) :=
  fun m n h => kin_bind (hf m n h) hg

theorem pure (a : α) : Blind p q (Pure.pure a : C α) := fun _ _ h => ⟨rfl, h⟩

theorem fail (e : Hw) : Blind p q (C.fail e : C α) := fun _ _ _ => rfl

theorem ite {c : Prop} [Decidable c] {f g : C α} (hf : Blind p q f) (hg : Blind p q g) : Blind p q (if c then f else g) := by
  by_cases h : c
  · rw [if_pos h]; exact hf
  · rw [if_neg h]; exact hg

theorem when {c : Prop} [Decidable c] {f : C Unit} (hf : Blind p q f) : Blind p q (C.when c f) := ite hf (pure ())

theorem get {f : Machine → α} (h : ∀ (m : Machine) e t a b, f (m.other e t a b) = f m) : Blind p q (C.get f) := by
  intro m n hl
  obtain ⟨e, t, a, b, _, _, _, _, rfl⟩ := hl.eq
  exact ⟨(h m e t a b).symm, hl⟩

theorem reg (f : Cpu → α) : Blind p q (C.reg f) := get (f := fun m => f m.cpu) fun _ _ _ _ _ => rfl

theorem getScan (hq : q) : Blind p q (C.get (·.nextScan)) := fun _ _ hl => ⟨(hl.scan hq).symm, hl⟩

theorem getEvent (hq : q) : Blind p q (C.get (·.nextEvent)) := fun _ _ hl => ⟨(hl.event hq).symm, hl⟩

theorem setCpu (f : Cpu → Cpu) : Blind p q (C.setCpu f) := by
  intro m n hl
  obtain ⟨e, t, a, b, he, ht, ha, hb, rfl⟩ := hl.eq
  exact ⟨rfl, rfl, he, ht, ha, hb⟩

/-- Changes of the rest of the machine. -/
theorem modify' {f : Machine → Machine} (h : ∀ (m : Machine) e t a b, f (m.other e t a b) = (f m).other e t a b)
    (h1 : ∀ m, (f m).external = m.external ∧ (f m).tmc = m.tmc ∧ (f m).info = m.info ∧ (f m).nextEvent = m.nextEvent ∧
      (f m).nextScan = m.nextScan) : Blind p q (C.modify f) := by
  intro m n hl
  obtain ⟨e, t, a, b, he, ht, ha, hb, rfl⟩ := hl.eq
  obtain ⟨k1, k2, k3, k4, k5⟩ := h1 m
  refine ⟨rfl, ?_⟩
  show Kin p q (f m) (f (m.other e t a b))
  rw [h m e t a b]
  exact Kin.mk' (fun x => (he x).trans k1.symm) (fun x => (ht (by rw [← k3]; exact x)).trans k2.symm) (fun x => (ha x).trans k4.symm)
    fun x => (hb x).trans k5.symm

/-- Changes of the rest of the machine, and something is heard. -/
theorem modifyE {f : Machine → Machine} (h : ∀ (m : Machine) e t a b, f (m.other e t a b) = (f m).other (f m).external t a b)
    (h1 : ∀ m, (f m).tmc = m.tmc ∧ (f m).info = m.info ∧ (f m).nextEvent = m.nextEvent ∧ (f m).nextScan = m.nextScan) :
    Blind p q (C.modify f) := by
  intro m n hl
  obtain ⟨e, t, a, b, he, ht, ha, hb, rfl⟩ := hl.eq
  obtain ⟨k2, k3, k4, k5⟩ := h1 m
  refine ⟨rfl, ?_⟩
  show Kin p q (f m) (f (m.other e t a b))
  rw [h m e t a b]
  exact Kin.mk' (fun _ => rfl) (fun x => (ht (by rw [← k3]; exact x)).trans k2.symm) (fun x => (ha x).trans k4.symm)
    fun x => (hb x).trans k5.symm

theorem chips (f : Pair → X (α × Pair)) : Blind p q (C.chips f) := by
  intro m n hl
  obtain ⟨e, t, a, b, he, ht, ha, hb, rfl⟩ := hl.eq
  unfold C.chips Machine.other
  dsimp only
  cases f m.pk with
  | error e => rfl
  | ok a => exact ⟨rfl, rfl, he, ht, ha, hb⟩

end Blind

namespace Machine
variable {p q : Prop}

theorem blind_load (a : Int) : Blind p q (load a) := by
  intro m n hl
  obtain ⟨e, t, a', b', he, ht, ha, hb, rfl⟩ := hl.eq
  exact XLike.ite (fun _ => ⟨rfl, hl⟩) fun _ => rfl

theorem blind_store (a v : Int) : Blind p q (store a v) := by
  intro m n hl
  obtain ⟨e, t, a', b', he, ht, ha, hb, rfl⟩ := hl.eq
  exact XLike.ite (fun _ => ⟨rfl, rfl, he, ht, ha, hb⟩) fun _ => rfl

theorem blind_here : Blind p q here := by
  intro m n hl
  obtain ⟨e, t, a', b', he, ht, ha, hb, rfl⟩ := hl.eq
  exact XLike.ite (fun _ => ⟨rfl, hl⟩) fun _ => rfl

theorem blind_setA (v : Int) : Blind p q (setA v) := Blind.setCpu _
theorem blind_setX (v : Int) : Blind p q (setX v) := Blind.setCpu _
theorem blind_setY (v : Int) : Blind p q (setY v) := Blind.setCpu _
theorem blind_setS (v : Int) : Blind p q (setS v) := Blind.setCpu _
theorem blind_setNz (v : Int) : Blind p q (setNz v) := Blind.setCpu _
theorem blind_setC (v : Int) : Blind p q (setC v) := Blind.setCpu _
theorem blind_setVdi (v : Int) : Blind p q (setVdi v) := Blind.setCpu _
theorem blind_setPc (v : Int) : Blind p q (setPc v) := Blind.setCpu _
theorem blind_setCycle (v : Int) : Blind p q (setCycle v) := Blind.setCpu _
theorem blind_addCycle (v : Int) : Blind p q (addCycle v) := Blind.setCpu _
theorem blind_addPc (v : Int) : Blind p q (addPc v) := Blind.setCpu _
theorem blind_setNzA (v : Int) : Blind p q (setNzA v) := Blind.bind (blind_setA v) fun _ => blind_setNz v
theorem blind_setNzX (v : Int) : Blind p q (setNzX v) := Blind.bind (blind_setX v) fun _ => blind_setNz v
theorem blind_setNzY (v : Int) : Blind p q (setNzY v) := Blind.bind (blind_setY v) fun _ => blind_setNz v
theorem blind_fetch : Blind p q fetch := Blind.bind blind_here fun _ => Blind.bind (blind_addPc 1) fun _ => Blind.pure _

/-- Proves that a program composed of programs that do not listen does not listen. -/
local macro "blind" : tactic => `(tactic| repeat' first
  | with_reducible exact blind_load _
  | with_reducible exact blind_store _ _
  | with_reducible exact blind_here
  | with_reducible exact blind_fetch
  | with_reducible exact blind_setA _
  | with_reducible exact blind_setX _
  | with_reducible exact blind_setY _
  | with_reducible exact blind_setS _
  | with_reducible exact blind_setNz _
  | with_reducible exact blind_setC _
  | with_reducible exact blind_setVdi _
  | with_reducible exact blind_setPc _
  | with_reducible exact blind_setCycle _
  | with_reducible exact blind_addCycle _
  | with_reducible exact blind_addPc _
  | with_reducible exact blind_setNzA _
  | with_reducible exact blind_setNzX _
  | with_reducible exact blind_setNzY _
  | with_reducible exact Blind.pure _
  | with_reducible exact Blind.fail _
  | with_reducible exact Blind.reg _
  | with_reducible assumption
  | with_reducible refine Blind.bind ?_ fun _ => ?_
  | with_reducible refine Blind.ite ?_ ?_
  | with_reducible refine Blind.when ?_)

theorem blind_peekHardware (a : Int) : Blind p q (peekHardware a) := by
  unfold peekHardware
  dsimp only
  refine Blind.ite (Blind.get fun _ _ _ _ _ => rfl) (Blind.ite (Blind.get fun _ _ _ _ _ => rfl) (Blind.ite ?_ (Blind.ite (Blind.pure _)
    (Blind.ite (Blind.get fun _ _ _ _ _ => rfl) (Blind.ite (Blind.get fun _ _ _ _ _ => rfl) (blind_load _))))))
  intro m n hl
  obtain ⟨e, t, a', b', he, ht, ha, hb, rfl⟩ := hl.eq
  unfold other
  dsimp only
  cases m.pk.peek a m.cpu.cycle with
  | error e => rfl
  | ok v => exact ⟨rfl, hl⟩

theorem blind_tell (s : Signal) : Blind p q (tell s) := Blind.modify' (fun _ _ _ _ _ => rfl) fun _ => ⟨rfl, rfl, rfl, rfl, rfl⟩

theorem blind_pokePokey (a v : Int) : Blind p q (pokePokey a v) :=
  Blind.bind (Blind.reg _) fun _ => Blind.bind (Blind.chips _) fun r =>
    Blind.bind (blind_tell _) fun _ => by
      intro m n hl
      obtain ⟨e, t, a', b', he, ht, ha, hb, rfl⟩ := hl.eq
      refine ⟨rfl, rfl, he, ht, fun x => ?_, hb⟩
      show (if a' > r then r else a') = if m.nextEvent > r then r else m.nextEvent
      rw [ha x]

theorem blind_pokeWsync : Blind p q pokeWsync := by
  unfold pokeWsync
  blind

theorem blind_pokeNmires : Blind p q pokeNmires := Blind.modify' (fun _ _ _ _ _ => rfl) fun _ => ⟨rfl, rfl, rfl, rfl, rfl⟩

theorem blind_externalBase (d : Int) : Blind p q (externalBase d) := by
  exact Blind.bind (Blind.reg _) fun c => Blind.bind (Blind.chips _) fun _ => blind_tell _

theorem blind_externalExtra (d : Int) : Blind p q (externalExtra d) := by
  exact Blind.bind (Blind.reg _) fun c => Blind.bind (Blind.chips _) fun _ => blind_tell _

theorem blind_externalCovox (i : Nat) (d : Int) : Blind p q (externalCovox i d) := Blind.ite (blind_externalBase d) (blind_externalExtra d)

theorem blind_pokeCovox (i : Nat) (d : Int) : Blind p q (pokeCovox i d) :=
  Blind.bind (Blind.get fun _ _ _ _ _ => rfl) fun _ => Blind.when (Blind.bind (blind_externalCovox _ _) fun _ => Blind.modifyE (fun _ _ _ _ _ => rfl) fun _ => ⟨rfl, rfl, rfl, rfl⟩)

theorem blind_pokeConsol (d : Int) : Blind p q (pokeConsol d) := by
  refine Blind.bind (Blind.get fun _ _ _ _ _ => rfl) fun _ => ?_
  refine Blind.bind (Blind.when ?_) fun _ => Blind.modify' (fun _ _ _ _ _ => rfl) fun _ => ⟨rfl, rfl, rfl, rfl, rfl⟩
  exact Blind.bind (blind_externalBase _) fun _ => Blind.bind (blind_externalExtra _) fun _ => Blind.modifyE (fun _ _ _ _ _ => rfl) fun _ => ⟨rfl, rfl, rfl, rfl⟩

theorem blind_pokeHardware (a d : Int) : Blind p q (pokeHardware a d) :=
  Blind.bind (Blind.get fun _ _ _ _ _ => rfl) fun _ => Blind.ite (blind_pokePokey _ _) (Blind.ite blind_pokeWsync (Blind.ite blind_pokeNmires
    (Blind.ite (blind_pokeCovox _ _) (Blind.ite (blind_pokeConsol _) (blind_store _ _)))))

theorem blind_isIrq : Blind p q isIrq := Blind.get fun _ _ _ _ _ => rfl

theorem blind_peek (a : Int) : Blind p q (peek a) := Blind.ite (blind_peekHardware a) (blind_load a)
theorem blind_poke (a d : Int) : Blind p q (poke a d) := Blind.ite (blind_pokeHardware a d) (blind_store a d)

theorem blind_peekRmw (a : Int) : Blind p q (peekRmw a) := by
  have h1 := blind_peekHardware (p := p) (q := q) a
  have h2 := fun d => blind_pokeHardware (p := p) (q := q) a d
  unfold peekRmw
  blind
  exact h2 _

theorem blind_pull : Blind p q pull := by unfold pull; blind
theorem blind_pullFlags : Blind p q pullFlags := by have := blind_pull (p := p) (q := q); unfold pullFlags; blind
theorem blind_push (d : Int) : Blind p q (push d) := by unfold push; blind
theorem blind_pushPc : Blind p q pushPc := Blind.bind (Blind.reg _) fun _ => Blind.bind (blind_push _) fun _ => blind_push _
theorem blind_pushFlags (b : Int) : Blind p q (pushFlags b) := Blind.bind (Blind.reg _) fun _ => blind_push _
theorem blind_setAlu (r : Alu) : Blind p q (setAlu r) := by unfold setAlu; blind
theorem blind_addWithCarry (d : Int) : Blind p q (addWithCarry d) := Blind.bind (Blind.reg _) fun _ => blind_setAlu _
theorem blind_subtractWithCarry (d : Int) : Blind p q (subtractWithCarry d) := Blind.bind (Blind.reg _) fun _ => blind_setAlu _

theorem blind_shiftLeft (a : Int) : Blind p q (shiftLeft a) := by
  have h1 := blind_peekRmw (p := p) (q := q) a
  unfold shiftLeft; blind; exact blind_poke _ _
theorem blind_rotateLeft (a : Int) : Blind p q (rotateLeft a) := by
  have h1 := blind_peekRmw (p := p) (q := q) a
  unfold rotateLeft; blind; exact blind_poke _ _
theorem blind_shiftRight (a : Int) : Blind p q (shiftRight a) := by
  have h1 := blind_peekRmw (p := p) (q := q) a
  unfold shiftRight; blind; exact blind_poke _ _
theorem blind_rotateRight (a : Int) : Blind p q (rotateRight a) := by
  have h1 := blind_peekRmw (p := p) (q := q) a
  unfold rotateRight; blind; exact blind_poke _ _
theorem blind_decrement (a : Int) : Blind p q (decrement a) := by
  have h1 := blind_peekRmw (p := p) (q := q) a
  unfold decrement; blind; exact blind_poke _ _
theorem blind_increment (a : Int) : Blind p q (increment a) := by
  have h1 := blind_peekRmw (p := p) (q := q) a
  unfold increment; blind; exact blind_poke _ _

theorem blind_executeIrq (b : Int) : Blind p q (executeIrq b) := by
  have h1 := blind_pushPc (p := p) (q := q)
  have h2 := blind_pushFlags (p := p) (q := q) b
  unfold executeIrq; blind

theorem blind_checkIrq : Blind p q checkIrq := by
  have h1 := blind_isIrq (p := p) (q := q)
  have h2 := blind_executeIrq (p := p) (q := q) 0x20
  unfold checkIrq; blind

theorem blind_storeHigh (a h d : Int) : Blind p q (storeHigh a h d) := blind_poke _ _

theorem blind_shx (a d : Int) : Blind p q (shx a d) :=
  Blind.bind blind_fetch fun _ => Blind.bind blind_fetch fun _ => blind_storeHigh _ _ _

theorem blind_zpWord (a : Int) : Blind p q (zpWord a) := by unfold zpWord; blind
theorem blind_absIndexed (i : Int) (s : Bool) : Blind p q (absIndexed i s) := by unfold absIndexed; blind
theorem blind_indIndexed (s : Bool) : Blind p q (indIndexed s) := by unfold indIndexed; blind

theorem blind_address (mode : Mode) : Blind p q (address mode) := by
  cases mode <;> unfold address <;> blind
  all_goals first
    | exact blind_zpWord _
    | exact blind_absIndexed _ _
    | exact blind_indIndexed _

theorem blind_compare (r d : Int) : Blind p q (compare r d) := by unfold compare; blind
theorem blind_jumpIndirect (a : Int) : Blind p q (jumpIndirect a) := by unfold jumpIndirect; blind

theorem blind_operate (op : Op) (a : Int) : Blind p q (operate op a) := by
  cases op <;> unfold operate <;> blind
  all_goals first
    | with_reducible exact blind_peek _
    | with_reducible exact blind_poke _ _
    | with_reducible exact blind_shiftLeft _
    | with_reducible exact blind_shiftRight _
    | with_reducible exact blind_rotateLeft _
    | with_reducible exact blind_rotateRight _
    | with_reducible exact blind_decrement _
    | with_reducible exact blind_increment _
    | with_reducible exact blind_addWithCarry _
    | with_reducible exact blind_subtractWithCarry _
    | with_reducible exact blind_compare _ _
    | with_reducible exact blind_jumpIndirect _

theorem blind_branch (cond : Cpu → Prop) [DecidablePred cond] : Blind p q (branch cond) := by unfold branch; blind
theorem blind_arrDecimal (a d : Int) : Blind p q (arrDecimal a d) := by unfold arrDecimal; blind
theorem blind_arr : Blind p q arr := by
  have := blind_arrDecimal (p := p) (q := q)
  unfold arr; blind
  exact this _ _

theorem blind_execute (hq : q) (i : Instr) : Blind p q (execute i) := by
  have h1 := blind_pullFlags (p := p) (q := q)
  have h2 := blind_checkIrq (p := p) (q := q)
  have h3 := blind_pull (p := p) (q := q)
  have h4 := blind_pushPc (p := p) (q := q)
  cases i <;> unfold execute <;> blind
  all_goals first
    | with_reducible exact blind_address _
    | with_reducible exact blind_operate _ _
    | with_reducible exact blind_executeIrq _
    | with_reducible exact blind_push _
    | with_reducible exact blind_pushFlags _
    | with_reducible exact blind_branch _
    | with_reducible exact blind_arr
    | with_reducible exact blind_shx _ _
    | with_reducible exact blind_storeHigh _ _ _
    | exact Blind.getEvent hq
    | exact Blind.get fun _ _ _ _ _ => rfl

theorem blind_instruction (hq : q) : Blind p q instruction :=
  Blind.bind blind_fetch fun _ => Blind.bind (blind_addCycle _) fun _ => blind_execute hq _

/-! ### Frames -/

theorem blind_storeCode : ∀ (bs : List Int) (a : Int), Blind p q (storeCode a bs)
  | [], _ => Blind.pure _
  | _ :: bs, _ => Blind.bind (blind_store _ _) fun _ => blind_storeCode bs _

theorem blind_call6502 (a : Int) : Blind p q (call6502 a) := Blind.bind (blind_storeCode _ _) fun _ => blind_setPc _

theorem blind_setTmc (v : Int) : Blind p q (setTmc v) := by
  intro m n hl
  obtain ⟨e, t, a, b, he, ht, ha, hb, rfl⟩ := hl.eq
  exact ⟨rfl, rfl, he, fun _ => rfl, ha, hb⟩

theorem blind_setNextPlayer (v : Int) : Blind p q (setNextPlayer v) := Blind.modify' (fun _ _ _ _ _ => rfl) fun _ => ⟨rfl, rfl, rfl, rfl, rfl⟩

theorem blind_setNextScan (v : Int) : Blind p q (setNextScan v) := by
  intro m n hl
  obtain ⟨e, t, a, b, he, ht, ha, hb, rfl⟩ := hl.eq
  exact ⟨rfl, rfl, he, ht, ha, fun _ => rfl⟩

theorem blind_setNextEvent (v : Int) : Blind p q (setNextEvent v) := by
  intro m n hl
  obtain ⟨e, t, a, b, he, ht, ha, hb, rfl⟩ := hl.eq
  exact ⟨rfl, rfl, he, ht, fun _ => rfl, hb⟩

attribute [local irreducible] storeCode in
theorem blind_callSapD (player : Int) : Blind p q (callSapD player) :=
  Blind.when (Blind.bind blind_pushPc fun _ => Blind.bind (blind_storeCode _ _) fun _ => blind_setPc _)

theorem blind_callSapS : Blind p q callSapS := by unfold callSapS; blind

/-- The rest of `callTmc`. -/
def restTmc (player tmc : Int) : C Unit := do
  setTmc (tmc - 1)
  if tmc - 1 ≤ 0 then do
    let music ← C.get (·.info.music)
    let v ← load (music + 0x1f)
    setTmc v
    call6502 (player + 3)
  else call6502 (player + 6)

theorem blind_restTmc (player tmc : Int) : Blind p q (restTmc player tmc) := by
  refine Blind.bind (blind_setTmc _) fun _ => Blind.ite ?_ (blind_call6502 _)
  exact Blind.bind (Blind.get fun _ _ _ _ _ => rfl) fun _ => Blind.bind (blind_load _) fun _ => Blind.bind (blind_setTmc _) fun _ => blind_call6502 _

/-- The call, for a type. -/
def callType (player : Int) : ModType → C Unit
  | .sapB => call6502 player
  | .sapC | .cmc | .cm3 | .cmr | .cms => call6502 (player + 6)
  | .sapD => callSapD player
  | .sapS => callSapS
  | .dlt => call6502 (player + 0x103)
  | .mpt | .rmt | .tm2 | .fc => call6502 (player + 3)
  | .tmc => callTmc player

theorem callPlayer_eq (m : Machine) : callPlayer m = callType m.info.player m.info.type m := rfl

theorem blind_callPlayer : Blind p q callPlayer := by
  intro m n hl
  have e1 : n.info = m.info := by rw [hl.rest]
  rw [callPlayer_eq, callPlayer_eq, e1]
  cases ht : m.info.type <;> unfold callType <;> dsimp only
  case tmc =>
    have e2 : callTmc m.info.player m = restTmc m.info.player m.tmc m := rfl
    have e3 : callTmc m.info.player n = restTmc m.info.player n.tmc n := rfl
    rw [e2, e3, hl.tmc ht]
    exact blind_restTmc _ _ m n hl
  all_goals first
    | with_reducible exact (blind_callSapD _).run hl
    | with_reducible exact blind_callSapS.run hl
    | with_reducible exact (blind_call6502 _).run hl

theorem blind_handleScanline (hq : q) : Blind p q handleScanline := by
  refine Blind.bind (Blind.reg _) fun _ => Blind.bind (Blind.getScan hq) fun _ => Blind.bind (Blind.when (blind_addCycle _)) fun _ =>
    Blind.bind (blind_setNextScan _) fun _ => Blind.bind (Blind.reg _) fun _ => Blind.bind (Blind.get fun _ _ _ _ _ => rfl) fun _ => Blind.when ?_
  exact Blind.bind blind_callPlayer fun _ => Blind.bind (Blind.get fun _ _ _ _ _ => rfl) fun _ =>
    Blind.bind (Blind.get fun _ _ _ _ _ => rfl) fun _ => blind_setNextPlayer _

theorem blind_checkTimers (cycle next : Int) : Blind p q (checkTimers cycle next) := Blind.chips _

theorem blind_handleEvent (hq : q) : Blind p q handleEvent :=
  Blind.bind (Blind.reg _) fun _ => Blind.bind (Blind.getScan hq) fun _ => Blind.bind (Blind.when (blind_handleScanline hq)) fun _ =>
    Blind.bind (Blind.reg _) fun _ => Blind.bind (Blind.getScan hq) fun _ => Blind.bind (blind_checkTimers _ _) fun _ => blind_setNextEvent _

theorem blind_cpuStep (hq : q) : Blind p q cpuStep :=
  Blind.bind (Blind.reg _) fun _ => Blind.bind (Blind.getEvent hq) fun _ =>
    Blind.bind (Blind.when (Blind.bind (blind_handleEvent hq) fun _ => blind_checkIrq)) fun _ => blind_instruction hq

theorem blind_cpuFrame (hq : q) (limit : Int) : ∀ fuel, Blind p q (cpuFrame limit fuel)
  | 0 => Blind.bind (Blind.reg _) fun _ => Blind.when (Blind.fail _)
  | fuel + 1 => Blind.bind (Blind.reg _) fun _ => Blind.when (Blind.bind (blind_cpuStep hq) fun _ => blind_cpuFrame hq limit fuel)

theorem kin_do6502Frame {m n : Machine} (h : Kin p q m n) : XLike (KinR p True) (do6502Frame m) (do6502Frame n) := by
  refine kin_bind (p := p) (q := True) (f := beginFrame) ?_ ?_
  · obtain ⟨e, t, a, b, he, ht, ha, hb, rfl⟩ := h.eq
    exact ⟨rfl, rfl, he, ht, fun _ => rfl, fun _ => rfl⟩
  · intro _
    exact Blind.bind (Blind.get fun _ _ _ _ _ => rfl) fun ntsc => Blind.bind (blind_cpuFrame trivial _ _) fun _ =>
      Blind.bind (Blind.modify' (fun _ _ _ _ _ => rfl) fun _ => ⟨rfl, rfl, rfl, rfl, rfl⟩) fun _ => Blind.pure _

theorem kin_doFrame {m n : Machine} (h : Kin p q m n) : XLike (KinR True True) (doFrame m) (doFrame n) := by
  refine kin_bind (p := True) (q := q) (f := C.modify fun m => { m with external := false }) ?_ ?_
  · obtain ⟨e, t, a, b, he, ht, ha, hb, rfl⟩ := h.eq
    exact ⟨rfl, rfl, fun _ => rfl, ht, ha, hb⟩
  intro _ m1 n1 h1
  refine kin_bind (p := True) (q := q) (f := startChips) (Blind.chips _ m1 n1 h1) fun _ m2 n2 h2 => ?_
  refine kin_bind (p := True) (q := True) (f := do6502Frame) (kin_do6502Frame h2) fun c m3 n3 h3 => ?_
  exact kin_bind (p := True) (q := True) (f := endChips c) (Blind.chips _ m3 n3 h3) fun _ m4 n4 h4 => ⟨rfl, h4⟩

/-! ### Starting songs -/

/-- Other registers. -/
def regs (m : Machine) (a x y s pc : Int) : Machine := { m with cpu := { m.cpu with a := a, x := x, y := y, s := s, pc := pc } }

/-- What is set before the frames of `Do6502Init`. -/
def setUp (pc a x y : Int) (k : C Unit) : C Unit := do
  setPc pc
  setA (band a 0xff)
  setX (band x 0xff)
  setY (band y 0xff)
  store 0xd200 0xd2
  store 0x1fe (band (0xd200 - 1) 0xff)
  store 0x1ff (shr (0xd200 - 1) 8)
  setS 0xfd
  k

theorem setUp_regs (pc a x y : Int) (k : C Unit) (m : Machine) (a' x' y' s' pc' : Int) :
    setUp pc a x y k (m.regs a' x' y' s' pc') = setUp pc a x y k m := rfl

theorem do6502Init_eq (pc a x y : Int) : do6502Init pc a x y = setUp pc a x y (initFrames 50) := by
  unfold do6502Init setUp
  rfl

theorem do6502Init_regs (pc a x y : Int) (m : Machine) (a' x' y' s' pc' : Int) :
    do6502Init pc a x y (m.regs a' x' y' s' pc') = do6502Init pc a x y m := by
  rw [do6502Init_eq]
  generalize initFrames 50 = k
  exact setUp_regs pc a x y k m a' x' y' s' pc'

theorem blind_initFrames (n : Nat) : Blind p q (initFrames n) := by
  induction n with
  | zero => exact Blind.fail _
  | succ n ih =>
    intro m m' h
    refine kin_bind (f := do6502Frame) (p := p) (q := True) (kin_do6502Frame h) fun _ m1 n1 h1 => ?_
    have h2 : Kin p q m1 n1 := h1.weaken id fun _ => trivial
    exact kin_bind (f := C.reg (·.pc)) (p := p) (q := q) ((Blind.reg _).run h2) fun pc m2 n2 h3 =>
      (show Blind p q (if pc = 0xd200 then Pure.pure () else initFrames n) from Blind.ite (Blind.pure _) ih).run h3

theorem blind_setUp (pc a x y : Int) {k : C Unit} (hk : Blind p q k) : Blind p q (setUp pc a x y k) := by
  unfold setUp
  blind

theorem blind_do6502Init (pc a x y : Int) : Blind p q (do6502Init pc a x y) := by
  rw [do6502Init_eq]
  with_reducible exact blind_setUp pc a x y (blind_initFrames 50)

theorem blind_startProgram (pc song : Int) : Blind p q (startProgram pc song) := by
  unfold startProgram
  blind

theorem bind_same {α β : Type} {f : C α} {g : α → C β} {m n : Machine} (h : f m = f n) : (f >>= g) m = (f >>= g) n := by
  show C.bind f g m = C.bind f g n
  unfold C.bind
  rw [h]

/-- The initialisation, for a type. -/
def initType (song player music init pos : Int) : ModType → C Unit
  | .sapB => do6502Init init song 0 0
  | .sapC | .cmc | .cm3 | .cmr | .cms => do
    do6502Init (player + 3) 0x70 music (shr music 8)
    do6502Init (player + 3) 0 song 0
  | .sapD | .sapS => startProgram init song
  | .dlt => do6502Init (player + 0x100) 0 0 pos
  | .mpt => do
    do6502Init player 0 (shr music 8) music
    do6502Init player 2 pos 0
  | .rmt => do6502Init player pos music (shr music 8)
  | .tmc | .tm2 => do
    do6502Init player 0x70 (shr music 8) music
    do6502Init player 0 song 0
    setTmc 1
  | .fc => do6502Init player song 0 0

theorem initSong_eq (song : Int) (m : Machine) :
    initSong song m = initType song m.info.player m.info.music m.info.init (m.info.songPos song.toNat : Int) m.info.type m := rfl

/-- The initialisation does not look at the registers. -/
theorem initType_regs (song player music init pos : Int) (type : ModType) (m : Machine) (a' x' y' s' pc' : Int) :
    initType song player music init pos type (m.regs a' x' y' s' pc') = initType song player music init pos type m := by
  cases type <;> unfold initType <;> dsimp only
  case sapD => rfl
  case sapS => rfl
  all_goals first
    | with_reducible exact do6502Init_regs _ _ _ _ _ _ _ _ _ _
    | with_reducible exact bind_same (do6502Init_regs _ _ _ _ _ _ _ _ _ _)

theorem blind_initType (song player music init pos : Int) (type : ModType) : Blind p q (initType song player music init pos type) := by
  cases type <;> unfold initType <;> dsimp only <;> blind
  all_goals first
    | with_reducible exact blind_do6502Init _ _ _ _
    | with_reducible exact blind_startProgram _ _
    | with_reducible exact blind_setTmc _

theorem blind_initSong (song : Int) : Blind p q (initSong song) := by
  intro m n hl
  have e1 : n.info = m.info := by rw [hl.rest]
  rw [initSong_eq, initSong_eq, e1]
  with_reducible exact (blind_initType _ _ _ _ _ _).run hl

theorem initSong_regs (song : Int) (m : Machine) (a' x' y' s' pc' : Int) : initSong song (m.regs a' x' y' s' pc') = initSong song m := by
  have e : (m.regs a' x' y' s' pc').info = m.info := rfl
  rw [initSong_eq, initSong_eq, e]
  with_reducible exact initType_regs _ _ _ _ _ _ _ _ _ _ _ _

/-! ### Playing -/

theorem blind_mutePokeyChannels (mask : Int) : Blind p q (mutePokeyChannels mask) :=
  Blind.modify' (fun _ _ _ _ _ => rfl) fun _ => ⟨rfl, rfl, rfl, rfl, rfl⟩

theorem initChip_same {x y : Pokey} (h : y.sumOut = x.sumOut) (rate : Int) : y.initChip rate = x.initChip rate := by
  unfold Pokey.initChip Pokey.shiftBuf
  dsimp only
  rw [h]

theorem initPair_same {x y : Pair} (h : y.sinc = x.sinc) (h1 : y.base.sumOut = x.base.sumOut) (h2 : y.extra.sumOut = x.extra.sumOut)
    (ntsc stereo : Bool) (rate : Int) : y.initPair ntsc stereo rate = x.initPair ntsc stereo rate := by
  unfold Pair.initPair
  rw [initChip_same h1, initChip_same h2, h]

/-- What a song depends on. -/
structure Kept (m n : Machine) : Prop where
  info : n.info = m.info
  mem : n.cpu.mem = m.cpu.mem
  rate : n.rate = m.rate
  silence : n.silence = m.silence
  sinc : n.pk.sinc = m.pk.sinc
  base : n.pk.base.sumOut = m.pk.base.sumOut
  extra : n.pk.extra.sumOut = m.pk.extra.sumOut
  tmc : m.info.type = .tmc → n.tmc = m.tmc

/-- The machine after the beginning of `PlaySong`. -/
def resetTo (m : Machine) (song duration : Int) : Machine :=
  { m with
    song := song, duration := duration, nextPlayer := never, played := 0, silenceLeft := m.silence
    cpu := resetCpu m.cpu, nmist := .onVBlank, consol := 8, covox := fun _ => 0x80
    pk := m.pk.initPair m.info.ntsc (decide (m.info.channels > 1)) m.rate
    told := [] }

theorem resetTo_same {m n : Machine} (h : Kept m n) (song duration : Int) : n.resetTo song duration =
    ((m.resetTo song duration).other n.external n.tmc n.nextEvent n.nextScan).regs n.cpu.a n.cpu.x n.cpu.y n.cpu.s n.cpu.pc := by
  have e1 := initPair_same h.sinc h.base h.extra n.info.ntsc (decide (n.info.channels > 1)) n.rate
  unfold resetTo
  rw [e1, h.rate, h.info, h.silence]
  unfold resetCpu
  rw [h.mem]
  rfl

/-- The rest of `PlaySong`. -/
def start (song : Int) : C Unit := do
  mutePokeyChannels 0xff
  initSong song
  mutePokeyChannels 0
  setNextPlayer 0

theorem blind_start (song : Int) : Blind p q (start song) := by
  unfold start
  blind
  all_goals first
    | with_reducible exact blind_mutePokeyChannels _
    | with_reducible exact blind_initSong _
    | with_reducible exact blind_setNextPlayer _

/-- Muted. -/
def hush (m : Machine) : Machine :=
  { m with pk := { m.pk with base := m.pk.base.muteAll 0xff, extra := m.pk.extra.muteAll (shr 0xff 4) } }

theorem start_regs (song : Int) (m : Machine) (a x y s pc : Int) : start song (m.regs a x y s pc) = start song m := by
  have e (m : Machine) : start song m = (do initSong song; mutePokeyChannels 0; setNextPlayer 0 : C Unit) m.hush := by
    unfold start
    generalize initSong song = f
    rfl
  have e2 : (m.regs a x y s pc).hush = m.hush.regs a x y s pc := rfl
  rw [e, e, e2]
  with_reducible exact bind_same (initSong_regs song m.hush a x y s pc)

theorem playSong_eq (song duration : Int) (m : Machine) : playSong song duration m =
    if song < 0 ∨ song ≥ (m.info.songs : Int) then .error .thrown else start song (m.resetTo song duration) := by
  have e : playSong song duration m = (if song < 0 ∨ song ≥ (m.info.songs : Int) then C.fail .thrown
      else (do resetSong song duration; start song) : C Unit) m := by
    unfold playSong start
    generalize initSong song = f
    rfl
  rw [e]
  by_cases h : song < 0 ∨ song ≥ (m.info.songs : Int)
  · rw [if_pos h, if_pos h]; rfl
  · rw [if_neg h, if_neg h]
    generalize start song = f
    rfl

/-- A song depends on the module, the memory and the settings. -/
theorem kin_playSong {m n : Machine} (h : Kept m n) (song duration : Int) :
    XLike (KinR False False) (playSong song duration m) (playSong song duration n) := by
  rw [playSong_eq, playSong_eq, h.info]
  refine XLike.ite (fun _ => rfl) fun _ => ?_
  rw [resetTo_same h, start_regs]
  exact (blind_start song).run (Kin.mk' (fun x => x.elim) h.tmc (fun x => x.elim) fun x => x.elim)

theorem Kin.kept {m n : Machine} (h : Kin p q m n) : Kept m n := by
  obtain ⟨e, t, a, b, he, ht, ha, hb, rfl⟩ := h.eq
  exact ⟨rfl, rfl, rfl, rfl, rfl, rfl, rfl, ht⟩

theorem blind_playSong (song duration : Int) : Blind False False (playSong song duration) := fun _ _ h => kin_playSong (Kin.kept h) song duration

theorem blind_doFrame : Blind False False doFrame := fun _ _ h =>
  (kin_doFrame h).mono fun _ _ k => ⟨k.1, k.2.weaken (fun x => x.elim) fun x => x.elim⟩

theorem blind_setPlayed (v : Int) : Blind p q (setPlayed v) := Blind.modify' (fun _ _ _ _ _ => rfl) fun _ => ⟨rfl, rfl, rfl, rfl, rfl⟩
theorem blind_setSilenceLeft (v : Int) : Blind p q (setSilenceLeft v) := Blind.modify' (fun _ _ _ _ _ => rfl) fun _ => ⟨rfl, rfl, rfl, rfl, rfl⟩

theorem blind_seekFrames (block : Int) (fuel : Nat) : Blind False False (seekFrames block fuel) := by
  induction fuel with
  | zero => exact Blind.bind (Blind.get fun _ _ _ _ _ => rfl) fun _ => Blind.when (Blind.fail _)
  | succ fuel ih =>
    refine Blind.bind (Blind.get fun _ _ _ _ _ => rfl) fun here => Blind.when ?_
    exact Blind.bind (blind_setPlayed _) fun _ => Blind.bind blind_doFrame fun _ => ih

theorem blind_seekSample (block : Int) : Blind False False (seekSample block) := by
  refine Blind.bind ?_ fun _ => Blind.bind (Blind.get fun _ _ _ _ _ => rfl) fun _ => Blind.bind (blind_seekFrames _ _) fun _ =>
    Blind.modify' (fun _ _ _ _ _ => rfl) fun _ => ⟨rfl, rfl, rfl, rfl, rfl⟩
  exact Blind.bind (Blind.get fun _ _ _ _ _ => rfl) fun _ => Blind.bind (Blind.get fun _ _ _ _ _ => rfl) fun _ =>
    Blind.bind (Blind.get fun _ _ _ _ _ => rfl) fun _ => Blind.when (blind_playSong _ _)

theorem blind_seek (position : Int) : Blind False False (seek position) :=
  Blind.bind (Blind.get fun _ _ _ _ _ => rfl) fun _ => blind_seekSample _

theorem blind_listen (hp : p) (cycles : Int) : Blind p q (listen cycles) := by
  refine Blind.bind (Blind.get fun _ _ _ _ _ => rfl) fun silence => Blind.ite ?_ (Blind.pure _)
  refine Blind.bind ?_ fun quiet => Blind.ite ?_ ?_
  · intro m n h
    refine ⟨?_, h⟩
    show (m.pk.isSilent && !m.external) = (n.pk.isSilent && !n.external)
    rw [h.ext hp, show n.pk = m.pk by rw [h.rest]]
  · exact Blind.bind (Blind.get fun _ _ _ _ _ => rfl) fun _ => Blind.bind (blind_setSilenceLeft _) fun _ => Blind.pure _
  · exact Blind.bind (blind_setSilenceLeft _) fun _ => Blind.pure _

theorem blind_generateBlocks (blocks : Int) (format : SampleFormat) : Blind p q (generateBlocks blocks format) :=
  Blind.bind (Blind.chips _) fun _ => Blind.bind (Blind.get fun _ _ _ _ _ => rfl) fun _ => Blind.bind (blind_setPlayed _) fun _ => Blind.pure _

theorem blind_generateLoop (format : SampleFormat) (fuel : Nat) : ∀ left, Blind False False (generateLoop format fuel left) := by
  induction fuel with
  | zero => exact fun _ => Blind.fail _
  | succ fuel ih =>
    intro left
    refine Blind.bind (blind_generateBlocks _ _) fun r => Blind.ite (Blind.pure _) ?_
    intro m n h
    refine kin_bind (f := doFrame) (kin_doFrame h) fun cycles m1 n1 h1 => ?_
    refine kin_bind (f := listen cycles) ((blind_listen trivial cycles).run h1) fun goOn m2 n2 h2 => ?_
    have h3 : Kin False False m2 n2 := h2.weaken (fun x => x.elim) fun x => x.elim
    refine Blind.run (Blind.ite ?_ (Blind.pure _)) h3
    exact Blind.bind (ih _) fun _ => Blind.pure _

theorem blind_generate (bufferLen : Int) (format : SampleFormat) : Blind False False (generate bufferLen format) := by
  refine Blind.bind (Blind.get fun _ _ _ _ _ => rfl) fun stop => Blind.ite (Blind.pure _) ?_
  exact Blind.bind (Blind.get fun _ _ _ _ _ => rfl) fun _ => Blind.bind (Blind.get fun _ _ _ _ _ => rfl) fun _ =>
    Blind.bind (blind_generateLoop _ _ _) fun _ => Blind.pure _

end Machine

end Asap
