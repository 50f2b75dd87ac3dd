import Verif.Lemmas.ConvWav

/-! # The converter: files changed, whatever happens -/

namespace Asap.Conv
open Asap.Spec (CanPlay)
open Asap.Spec.Conv

/-- Nothing outside is changed, whatever the outcome. -/
def Quiet {α : Type} (p : P α) : Prop := ∀ e, disk (p e).2 = disk e ∧ (p e).2.opts.output = e.opts.output

theorem Quiet.pure {α : Type} (a : α) : Quiet (pure a : P α) := fun _ => ⟨rfl, rfl⟩
theorem Quiet.stop {α : Type} (s : Stop) : Quiet (stop s : P α) := fun _ => ⟨rfl, rfl⟩
theorem Quiet.get {α : Type} (f : Env → α) : Quiet (get f) := fun _ => ⟨rfl, rfl⟩
theorem Quiet.lift {α : Type} (r : M α) : Quiet (lift r) := fun e => by
  unfold Conv.lift
  split <;> exact ⟨rfl, rfl⟩
theorem Quiet.liftX {α : Type} (r : X α) : Quiet (liftX r) := fun e => by
  unfold Conv.liftX
  split <;> exact ⟨rfl, rfl⟩
theorem Quiet.song (f : Env → Int) : Quiet (modify fun e => { e with song := f e }) := fun _ => ⟨rfl, rfl⟩

theorem Quiet.bind {α β : Type} {p : P α} {f : α → P β} (hp : Quiet p) (hf : ∀ a, Quiet (f a)) : Quiet (p >>= f) := fun e => by
  have h := hp e
  rcases hx : p e with ⟨a | a, e1⟩
  · rw [bind_err hx]; rw [hx] at h; exact h
  · rw [bind_ok hx]
    rw [hx] at h
    have h' := hf a e1
    exact ⟨h'.1.trans h.1, h'.2.trans h.2⟩

theorem Quiet.ite {α : Type} {c : Prop} [Decidable c] {p q : P α} (hp : Quiet p) (hq : Quiet q) : Quiet (if c then p else q) := by
  split
  · exact hp
  · exact hq

theorem quiet_putTag : ∀ (t out : List Nat), Quiet (putTag out t)
  | [], _ => Quiet.pure _
  | _ :: rest, _ => by
    unfold putTag
    exact Quiet.ite (Quiet.stop _) (quiet_putTag rest _)

theorem quiet_putStemAt (here : Bool) (input out : List Nat) : Quiet (putStemAt here input out) := by
  unfold putStemAt putStem
  refine Quiet.ite ?_ (Quiet.pure _)
  split
  · exact Quiet.stop _
  · exact Quiet.ite (Quiet.stop _) (Quiet.pure _)

theorem quiet_songTag (info : Info) (allow per : Bool) : Quiet (songTag info allow per) := by
  unfold songTag
  refine Quiet.bind (Quiet.get _) fun e => Quiet.ite (Quiet.pure _) (Quiet.ite (Quiet.stop _) (Quiet.ite (Quiet.stop _) ?_))
  exact Quiet.bind (Quiet.song _) fun _ => Quiet.ite (Quiet.pure _) (Quiet.pure _)

theorem quiet_tagText (info : Info) (m : List Nat) (allow per : Bool) (c : Nat) : Quiet (tagText info m allow per c) := by
  unfold tagText
  refine Quiet.ite (Quiet.pure _) (Quiet.ite (Quiet.pure _) (Quiet.ite (Quiet.pure _) (Quiet.ite ?_ (Quiet.ite (quiet_songTag _ _ _) (Quiet.ite (Quiet.pure _) (Quiet.stop _))))))
  refine Quiet.bind ?_ fun _ => Quiet.pure _
  exact Quiet.bind (Quiet.lift _) fun _ => Quiet.pure _

theorem quiet_fillPattern (info : Info) (m input : List Nat) (allow stem : Bool) : ∀ (n : Nat) (pat : List Nat) (per : Bool) (out : List Nat), pat.length ≤ n →
    Quiet (fillPattern info m input allow stem pat per out) := by
  intro n
  induction n with
  | zero =>
    intro pat per out hn
    obtain rfl : pat = [] := List.length_eq_zero_iff.mp (by omega)
    exact Quiet.pure _
  | succ n ih =>
    intro pat per out hn
    match pat with
    | [] => exact Quiet.pure _
    | c :: rest =>
      simp only [fillPattern]
      refine Quiet.bind (quiet_putStemAt _ _ _) fun out => ?_
      split
      · match rest with
        | [] => exact Quiet.stop _
        | d :: rest =>
          refine Quiet.bind (quiet_tagText _ _ _ _ _) fun tag => ?_
          split
          · exact Quiet.pure _
          · exact Quiet.bind (quiet_putTag _ _) fun out => ih _ _ _ (by simp at hn; omega)
      · exact Quiet.ite (Quiet.stop _) (ih _ _ _ (by simp at hn; omega))

theorem quiet_chooseSong (info : Info) : Quiet (chooseSong info) := by
  unfold chooseSong
  refine Quiet.bind (Quiet.get _) fun e => Quiet.ite (Quiet.pure _) (Quiet.ite ?_ (Quiet.ite (Quiet.stop _) ?_))
  · exact Quiet.bind (Quiet.song _) fun _ => Quiet.pure _
  · exact Quiet.bind (Quiet.song _) fun _ => Quiet.pure _

theorem quiet_applyTag (text : Option (List Nat)) (set : Info → List Nat → M Unit × Info) (i : Info) : Quiet (applyTag text set i) := by
  cases text with
  | none => exact Quiet.pure _
  | some s => exact Quiet.bind (Quiet.lift _) fun _ => Quiet.pure _

theorem quiet_applyTags (i : Info) : Quiet (applyTags i) := by
  unfold applyTags
  refine Quiet.bind (Quiet.get _) fun o => Quiet.bind (quiet_applyTag _ _ _) fun i => Quiet.bind (quiet_applyTag _ _ _) fun i => Quiet.bind ?_ fun _ => quiet_applyTag _ _ _
  exact fun _ => ⟨rfl, rfl⟩

/-- A failure changes nothing outside. -/
def QuietErr {α : Type} (p : P α) : Prop := ∀ e s e1, p e = (.error s, e1) → disk e1 = disk e ∧ e1.opts.output = e.opts.output

theorem Quiet.err {α : Type} {p : P α} (h : Quiet p) : QuietErr p := fun e s e1 he => by
  have := h e
  rw [he] at this
  exact this

theorem QuietErr.bind {α β : Type} {p : P α} {f : α → P β} (hp : Quiet p) (hf : ∀ a, QuietErr (f a)) : QuietErr (p >>= f) := fun e s e2 h => by
  have hq := hp e
  rcases hx : p e with ⟨a | a, e1⟩
  · rw [bind_err hx] at h; rw [hx] at hq
    cases h
    exact hq
  · rw [bind_ok hx] at h
    rw [hx] at hq
    have h' := hf a e1 s e2 h
    exact ⟨h'.1.trans hq.1, h'.2.trans hq.2⟩

theorem openTarget_ok (t : Target) : QuietErr (openTarget t) := fun e s e1 h => by cases h

theorem quietErr_finishOpen (info : Info) (std : Bool) (r : Option (List Nat × Bool)) : QuietErr (finishOpen info std r) := by
  rcases r with _ | ⟨name, _ | _⟩
  · exact (Quiet.pure _).err
  · refine QuietErr.bind (quiet_chooseSong info) fun go => ?_
    split
    · exact openTarget_ok _
    · exact (Quiet.pure _).err
  · exact openTarget_ok _

theorem quietErr_openOutput (input m : List Nat) (info : Info) (allow : Bool) : QuietErr (openOutput input m info allow) := by
  unfold openOutput
  refine QuietErr.bind (Quiet.get _) fun o => ?_
  split
  · exact (Quiet.stop _).err
  · split
    · exact (Quiet.stop _).err
    · split
      · exact QuietErr.bind (quiet_fillPattern _ _ _ _ _ _ _ _ _ (Nat.le_refl _)) fun r => quietErr_finishOpen _ _ _
      · split
        · exact QuietErr.bind (quiet_fillPattern _ _ _ _ _ _ _ _ _ (Nat.le_refl _)) fun r => quietErr_finishOpen _ _ _
        · exact QuietErr.bind (quiet_fillPattern _ _ _ _ _ _ _ _ _ (Nat.le_refl _)) fun r => quietErr_finishOpen _ _ _

/-- Only the output `t` is changed, whatever the outcome. -/
def Onto {α : Type} (t : Target) (d : Disk) (p : P α) : Prop :=
  ∀ e, (∃ a, disk e = save t.stdout t.name a d) → (∃ a, disk (p e).2 = save t.stdout t.name a d) ∧ (p e).2.opts.output = e.opts.output

theorem Quiet.onto {α : Type} {t : Target} {d : Disk} {p : P α} (h : Quiet p) : Onto t d p := fun e ⟨a, ha⟩ =>
  ⟨⟨a, (h e).1.trans ha⟩, (h e).2⟩

theorem Onto.bind {α β : Type} {t : Target} {d : Disk} {p : P α} {f : α → P β} (hp : Onto t d p) (hf : ∀ a, Onto t d (f a)) : Onto t d (p >>= f) := fun e he => by
  have h := hp e he
  rcases hx : p e with ⟨a | a, e1⟩
  · rw [bind_err hx]; rw [hx] at h; exact h
  · rw [bind_ok hx]
    rw [hx] at h
    have h' := hf a e1 h.1
    exact ⟨h'.1, h'.2.trans h.2⟩

theorem onto_writeBytes (t : Target) (d : Disk) (bytes : List Nat) : Onto t d (writeBytes t bytes) := fun e ⟨a, ha⟩ => by
  obtain ⟨h1, h2, _⟩ := writeBytes_inv (t := t) (bytes := bytes) (u := ()) (e1 := (writeBytes t bytes e).2) ha rfl
  exact ⟨⟨_, h1⟩, by rw [h2]⟩

theorem onto_writeSamples (t : Target) (d : Disk) : ∀ (calls : Nat) (m : Machine), Onto t d (writeSamples t calls m)
  | 0, _ => (Quiet.stop _).onto
  | calls + 1, m => by
    unfold writeSamples
    refine Onto.bind (Quiet.get _).onto fun o => Onto.bind (Quiet.liftX _).onto fun r => Onto.bind (onto_writeBytes _ _ _) fun _ => ?_
    split
    · exact onto_writeSamples t d calls _
    · exact (Quiet.pure _).onto

theorem onto_writeSong (t : Target) (d : Disk) (calls : Nat) (header : Bool) (m : Machine) : Onto t d (writeSong calls header t m) := by
  unfold writeSong playSong writeHeader
  refine Onto.bind (Quiet.onto ?_) fun m => Onto.bind ?_ fun _ => onto_writeSamples _ _ _ _
  · exact Quiet.bind (Quiet.get _) fun e => Quiet.bind (Quiet.liftX _) fun r => Quiet.bind (Quiet.liftX _) fun r => Quiet.pure _
  · refine Onto.bind (Quiet.get _).onto fun o => ?_
    split
    · exact Onto.bind (Quiet.lift _).onto fun r => onto_writeBytes _ _ _
    · exact (Quiet.pure _).onto

/-- Files other than those described by `N` are as in `files`. -/
def Others (N : List Nat → Prop) (files : List Nat → Option (List Nat)) (e : Env) : Prop := ∀ n, ¬ N n → e.files n = files n

theorem Others.quiet {N : List Nat → Prop} {files : List Nat → Option (List Nat)} {e e1 : Env} (h : Others N files e) (hd : disk e1 = disk e) : Others N files e1 := fun n hn => by
  have := congrArg Disk.files hd
  rw [show e1.files = e.files from this]
  exact h n hn

theorem Others.save {N : List Nat → Prop} {files : List Nat → Option (List Nat)} {e e1 : Env} {std : Bool} {name a : List Nat} (h : Others N files e)
    (hN : std = true ∨ N name) (hd : disk e1 = save std name a (disk e)) : Others N files e1 := fun n hn => by
  have := congrArg Disk.files hd
  unfold Spec.Conv.save at this
  by_cases hs : std = true
  · rw [if_pos hs] at this
    rw [show e1.files = e.files from this]
    exact h n hn
  · rw [if_neg hs] at this
    rw [show e1.files = put e.files name a from this]
    unfold put
    rw [if_neg (fun hc => hn (by rw [hc]; exact hN.resolve_left hs))]
    exact h n hn

theorem wavLoop_others {calls : Nat} {input contents : List Nat} {header : Bool} {info : Info} {pre ext dir stem x : List Nat} {files : List Nat → Option (List Nat)}
    (hext : 46 ∉ ext) (hin : input = dir ++ (stem ++ 46 :: x)) (hx : 46 ∉ x) (hd : Folder dir)
    (hp : Plain (stem ++ 46 :: x)) (hdur : ∀ k, -1 ≤ info.durations k) : ∀ (fuel : Nat) {m : Machine} {e : Env}, e.opts.output = some (pre ++ 46 :: ext) → CanPlay m → m.silence ≤ 0 →
    m.rate = e.opts.rate → m.info = info → Others (fun n => ∃ song, Named info contents pre ext dir stem song n) files e →
    Others (fun n => ∃ song, Named info contents pre ext dir stem song n) files (wavLoop calls input contents header fuel m e).2
  | 0, _, _, _, _, _, _, _, h => h
  | fuel + 1, m, e, ho, hm, hsil, hr, hi, h => by
    rcases hx1 : openOutput input contents m.info true e with ⟨s | r, e2⟩
    · have : wavLoop calls input contents header (fuel + 1) m e = (.error s, e2) := bind_err hx1
      rw [this]
      exact h.quiet (quietErr_openOutput _ _ _ _ _ _ _ hx1).1
    · have hopen := openOutput_inv ho hext hin hx hd hp hx1
      have he : wavLoop calls input contents header (fuel + 1) m e = _ := bind_ok hx1
      rw [he]
      cases r with
      | none =>
        have := (hopen.2 rfl).1
        refine h.quiet (e1 := e2) ?_
        rw [this]
        rfl
      | some t =>
        obtain ⟨a1, a2, a3, a4, a5, a6⟩ := opened_disk hopen
        rw [hi] at a1
        have ht : t.stdout = true ∨ ∃ song, Named info contents pre ext dir stem song t.name := .inr ⟨_, a1, a2⟩
        show Others _ files ((writeSong calls header t m >>= fun machine => wavLoop calls input contents header fuel machine : P Unit) e2).2
        have honto := onto_writeSong t (disk e) calls header m e2 ⟨[], a5⟩
        rcases hx2 : writeSong calls header t m e2 with ⟨s | m', e3⟩
        · rw [bind_err hx2]
          rw [hx2] at honto
          obtain ⟨a, ha⟩ := honto.1
          exact h.save ht ha
        · rw [bind_ok hx2]
          obtain ⟨b1, b2, b3, b4, b5, b6, bytes, b7, _⟩ := writeSong_inv hm hsil (by rw [a4]; exact hr) (by rw [hi]; exact hdur) a5 hx2
          exact wavLoop_others hext hin hx hd hp hdur fuel (by rw [b5, a4]; exact ho) b1 (by rw [b4]; exact hsil) (by rw [b3, b5, a4]; exact hr) (b2.trans hi) (h.save ht b7)

theorem tags_forSong (o : Opts) (xex : Bool) (song : Int) (i : Info) (m : List Nat) (s : Int) : tags (forSong o xex song i) m s = tags i m s := by
  unfold forSong
  split
  · rfl
  · rfl

theorem moduleLoop_others {fuel : Nat} {input contents : List Nat} {xex : Bool} {info : Info} {pre ext dir stem x : List Nat} {files : List Nat → Option (List Nat)}
    (hext : 46 ∉ ext) (hin : input = dir ++ (stem ++ 46 :: x)) (hx : 46 ∉ x) (hd : Folder dir)
    (hp : Plain (stem ++ 46 :: x)) : ∀ (n : Nat) {i : Info} {e : Env}, e.opts.output = some (pre ++ 46 :: ext) → 
    (∀ s, tags i contents s = tags info contents s) → Others (fun n => ∃ song, Named info contents pre ext dir stem song n) files e →
    Others (fun n => ∃ song, Named info contents pre ext dir stem song n) files (moduleLoop fuel input contents xex n i e).2
  | 0, _, _, _, _, h => h
  | n + 1, i, e, ho, hi, h => by
    rcases hx1 : openOutput input contents i xex e with ⟨s | r, e2⟩
    · have : moduleLoop fuel input contents xex (n + 1) i e = (.error s, e2) := bind_err hx1
      rw [this]
      exact h.quiet (quietErr_openOutput _ _ _ _ _ _ _ hx1).1
    · have hopen := openOutput_inv ho hext hin hx hd hp hx1
      have he : moduleLoop fuel input contents xex (n + 1) i e = _ := bind_ok hx1
      rw [he]
      cases r with
      | none =>
        have := (hopen.2 rfl).1
        refine h.quiet (e1 := e2) ?_
        rw [this]
        rfl
      | some t =>
        obtain ⟨a1, a2, a3, a4, a5, a6⟩ := opened_disk hopen
        rw [hi] at a1
        have ht : t.stdout = true ∨ ∃ song, Named info contents pre ext dir stem song t.name := .inr ⟨_, a1, a2⟩
        have h2 : Others (fun n => ∃ song, Named info contents pre ext dir stem song n) files e2 := h.save ht a5
        show Others _ files ((get id >>= fun e => lift (writerOutput fuel t.name (applySong xex e i) contents e.opts.tag) >>= fun bytes =>
          writeBytes t bytes >>= fun _ => moduleLoop fuel input contents xex n (applySong xex e i) : P Unit) e2).2
        rw [bind_ok (show get id e2 = (.ok e2, e2) from rfl)]
        rcases hx2 : lift (writerOutput fuel t.name (applySong xex e2 i) contents e2.opts.tag) e2 with ⟨s | bytes, e3⟩
        · rw [bind_err hx2]
          have := (Quiet.lift (writerOutput fuel t.name (applySong xex e2 i) contents e2.opts.tag) e2).1
          rw [hx2] at this
          exact h2.quiet this
        · rw [bind_ok hx2]
          obtain ⟨_, e3e⟩ := lift_inv hx2
          rw [e3e]
          obtain ⟨b1, b2, b3⟩ := writeBytes_inv (u := ()) (bytes := bytes) (e1 := (writeBytes t bytes e2).2) a5 rfl
          rw [bind_ok (show writeBytes t bytes e2 = (.ok (), (writeBytes t bytes e2).2) from rfl)]
          exact moduleLoop_others hext hin hx hd hp n (by rw [b2, a4]; exact ho) (fun s => by rw [applySong_eq, tags_forSong]; exact hi s) (h.save ht b1)

end Asap.Conv
