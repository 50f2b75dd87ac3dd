import Mathlib.Tactic.SplitIfs
import Verif.Spec.Bus
import Verif.Lemmas.IsaStep

/-! # Loads and stores at hardware registers -/

namespace Asap.Bus
open Machine C Spec.Bus

/-- The decoding of addresses in one page. -/
def Decodes (page : Nat) (n : Nat) : Prop :=
  band (256 * page + n : Nat) 0xf900 = 0xd000 ∧ shr (256 * page + n : Nat) 8 = page ∧
    band (256 * page + n : Nat) 0xff0f = (256 * page + n % 16 : Nat) ∧ band (256 * page + n : Nat) 0xff00 = (256 * page : Nat) ∧
    band (256 * page + n : Nat) 0xff1f = (256 * page + n % 32 : Nat) ∧ band (256 * page + n : Nat) 3 = (n % 4 : Nat) ∧
    band (256 * page + n : Nat) 16 = (16 * (n / 16 % 2) : Nat)

instance (page n : Nat) : Decidable (Decodes page n) := by unfold Decodes; infer_instance

theorem decodes_d0 : ∀ n < 256, Decodes 0xd0 n := by decide +kernel
theorem decodes_d2 : ∀ n < 256, Decodes 0xd2 n := by decide +kernel
theorem decodes_d4 : ∀ n < 256, Decodes 0xd4 n := by decide +kernel
theorem decodes_d6 : ∀ n < 256, Decodes 0xd6 n := by decide +kernel

theorem decodes {a : Int} (h : Spec.hardwarePage (a / 256)) : band a 0xf900 = 0xd000 ∧ shr a 8 = a / 256 ∧
    band a 0xff0f = a / 256 * 256 + a % 16 ∧ band a 0xff00 = a / 256 * 256 ∧ band a 0xff1f = a / 256 * 256 + a % 32 ∧
    band a 3 = a % 4 ∧ band a 16 = 16 * (a / 16 % 2) := by
  have key : ∀ page : Nat, (page = 0xd0 ∨ page = 0xd2 ∨ page = 0xd4 ∨ page = 0xd6) → ∀ n < 256, Decodes page n := by
    rintro page (rfl | rfl | rfl | rfl)
    · exact decodes_d0
    · exact decodes_d2
    · exact decodes_d4
    · exact decodes_d6
  unfold Spec.hardwarePage at h
  have := key (a / 256).toNat (by omega) (a % 256).toNat (by omega)
  unfold Decodes at this
  rw [show ((256 * (a / 256).toNat + (a % 256).toNat : Nat) : Int) = a by omega] at this
  obtain ⟨h1, h2, h3, h4, h5, h6, h7⟩ := this
  refine ⟨h1, rfl, ?_, ?_, ?_, ?_, ?_⟩
  · rw [h3]; omega
  · rw [h4]; omega
  · rw [h5]; omega
  · rw [h6]; omega
  · rw [h7]; omega

theorem wait {c : Int} (hc : 0 ≤ c) : ∃ t, c + ((if Int.tmod c 114 ≤ 106 then 106 else 106 + 114) - Int.tmod c 114) = t ∧
    c ≤ t ∧ t % 114 = 106 ∧ ∀ d, c ≤ d → d % 114 = 106 → t ≤ d := by
  refine ⟨_, rfl, ?_⟩
  have : Int.tmod c 114 = c % 114 := Int.tmod_eq_emod_of_nonneg hc
  rw [this]
  split <;> refine ⟨by omega, by omega, fun d h1 h2 => by omega⟩

theorem shl_17 (x : Int) : shl x 17 = x * 131072 := rfl

theorem speaker_bit (x : Int) : band x 8 = 8 * speaker x := by
  have : band x 8 = if ibit 3 x then 8 else 0 := band_pow 3 x
  rw [this]
  unfold speaker ibit
  split <;> rename_i h <;> simp at h <;> omega

theorem pokePokey_eq {m m' : Machine} {a v : Int} (h : pokePokey a v m = .ok ((), m')) :
    m'.told = .write a v m.cpu.cycle :: m.told ∧ m' = { m with told := m'.told, pk := m'.pk, nextEvent := m'.nextEvent } ∧
      m'.nextEvent ≤ m.nextEvent := by
  simp only [pokePokey, c_bind, C.reg, C.get, C.chips] at h
  cases hp : m.pk.poke a v m.cpu.cycle with
  | error e => rw [hp] at h; exact nomatch h
  | ok r =>
    rw [hp] at h
    simp only [tell, C.modify] at h
    have h := congrArg Prod.snd (Except.ok.inj h)
    subst h
    refine ⟨rfl, rfl, ?_⟩
    show (if m.nextEvent > r.1 then r.1 else m.nextEvent) ≤ m.nextEvent
    split <;> omega

theorem externalBase_eq {m m' : Machine} {delta : Int} (h : externalBase delta m = .ok ((), m')) :
    m'.told = .step false m.cpu.cycle delta :: m.told ∧ m' = { m with told := m'.told, pk := m'.pk } := by
  simp only [externalBase, c_bind, C.reg, C.get, C.chips] at h
  cases hp : m.pk.base.addExternalDelta m.pk.cfg m.cpu.cycle delta with
  | error e => rw [hp] at h; exact nomatch h
  | ok r =>
    rw [hp] at h
    simp only [tell, C.modify] at h
    have h := congrArg Prod.snd (Except.ok.inj h)
    subst h
    exact ⟨rfl, rfl⟩

theorem externalExtra_eq {m m' : Machine} {delta : Int} (h : externalExtra delta m = .ok ((), m')) :
    m'.told = .step true m.cpu.cycle delta :: m.told ∧ m' = { m with told := m'.told, pk := m'.pk } := by
  simp only [externalExtra, c_bind, C.reg, C.get, C.chips] at h
  cases hp : m.pk.extra.addExternalDelta m.pk.cfg m.cpu.cycle delta with
  | error e => rw [hp] at h; exact nomatch h
  | ok r =>
    rw [hp] at h
    simp only [tell, C.modify] at h
    have h := congrArg Prod.snd (Except.ok.inj h)
    subst h
    exact ⟨rfl, rfl⟩

theorem poke_stores {m m' : Machine} {a v : Int} (ha : 0 ≤ a ∧ a < 65536) (hv : 0 ≤ v ∧ v < 256) (hc : 0 ≤ m.cpu.cycle)
    (h : poke a v m = .ok ((), m')) : Stores m a v m' := by
  by_cases hh : Spec.hardwarePage (a / 256)
  rotate_left
  · have e := c_poke m m.cpu.mem m.cpu.cycle m.cpu.pc m.cpu.a m.cpu.x m.cpu.y m.cpu.s m.cpu.nz m.cpu.c m.cpu.vdi a v ha hh
    have e2 : m.put ⟨m.cpu.mem, m.cpu.cycle, m.cpu.pc, m.cpu.a, m.cpu.x, m.cpu.y, m.cpu.s, m.cpu.nz, m.cpu.c, m.cpu.vdi⟩ = m := rfl
    rw [e2, h] at e
    have e := congrArg Prod.snd (Except.ok.inj e)
    have hd : device m.info.covoxAddr a = .memory := by
      unfold Spec.hardwarePage at hh
      unfold device
      rw [if_neg (by omega), if_neg (by omega), if_neg (by omega), if_neg (fun x => hh x.1), if_neg (by omega)]
    unfold Stores
    rw [hd]
    show m' = _
    rw [show m' = _ from e, stored_same _ _ hv]
    rfl
  obtain ⟨h1, h2, h3, h4, h5, h6, _⟩ := decodes hh
  unfold poke at h
  rw [if_pos h1] at h
  have hp : (pokeHardware a v : C Unit) m = (if shr a 8 = 0xd2 then pokePokey a v
    else if band a 0xff0f = 0xd40a then pokeWsync
    else if band a 0xff0f = 0xd40f then pokeNmires
    else if band a 0xff00 = m.info.covoxAddr then pokeCovox (band a 3).toNat v
    else if band a 0xff1f = 0xd01f then pokeConsol v
    else store a v : C Unit) m := rfl
  rw [hp, h2, h3, h4, h5, h6] at h
  unfold Spec.hardwarePage at hh
  unfold Stores device
  by_cases c1 : a / 256 = 0xd2
  · rw [if_pos c1] at h ⊢
    exact pokePokey_eq h
  rw [if_neg c1] at h ⊢
  by_cases c2 : a / 256 = 0xd4 ∧ a % 16 = 0xa
  · rw [if_pos (by omega)] at h
    rw [if_pos c2]
    obtain ⟨t, ht, h7⟩ := wait hc
    refine ⟨t, ?_, h7⟩
    rw [← ht]
    exact (congrArg Prod.snd (Except.ok.inj h)).symm
  rw [if_neg (by omega)] at h
  rw [if_neg c2]
  by_cases c3 : a / 256 = 0xd4 ∧ a % 16 = 0xf
  · rw [if_pos (by omega)] at h
    rw [if_pos c3]
    have h := congrArg Prod.snd (Except.ok.inj h)
    show m' = _
    have e : (if m.cpu.cycle < 28292 then Nmi.onVBlank else .reset) = if m.cpu.cycle ≤ 28291 then Nmi.onVBlank else .reset := by
      by_cases hx : m.cpu.cycle < 28292
      · rw [if_pos hx, if_pos (by omega)]
      · rw [if_neg hx, if_neg (by omega)]
    rw [← e]
    exact h.symm
  rw [if_neg (by omega)] at h
  rw [if_neg c3]
  by_cases c4 : a / 256 * 256 = m.info.covoxAddr
  · rw [if_pos c4] at h
    rw [if_pos ⟨hh, c4⟩]
    have hi : (a % 4).toNat = 0 ∨ (a % 4).toNat = 1 ∨ (a % 4).toNat = 2 ∨ (a % 4).toNat = 3 := by omega
    generalize (a % 4).toNat = i at h hi ⊢
    dsimp only
    simp only [pokeCovox, c_bind, C.get, C.when] at h
    by_cases c5 : v = m.covox i
    · rw [if_neg (by omega)] at h
      rw [if_pos c5]
      exact (congrArg Prod.snd (Except.ok.inj h)).symm
    · rw [if_pos (by omega)] at h
      rw [if_neg c5]
      simp only [c_bind, externalCovox] at h
      by_cases c6 : i = 0 ∨ i = 3
      · rw [if_pos c6] at h
        cases he : externalBase (shl (v - m.covox i) 17) m with
        | error e => rw [he] at h; exact nomatch h
        | ok r =>
          obtain ⟨⟨⟩, m1⟩ := r
          rw [he] at h
          obtain ⟨h7, h8⟩ := externalBase_eq he
          have h := congrArg Prod.snd (Except.ok.inj h)
          have e : decide (i = 1 ∨ i = 2) = false := by
            rw [decide_eq_false_iff_not]; omega
          rw [e]
          subst h
          refine ⟨h7, ?_⟩
          show ({ m1 with covox := _, external := true } : Machine) = { m with told := m1.told, pk := m1.pk, external := true, covox := _ }
          rw [h8]
          rfl
      · rw [if_neg c6] at h
        cases he : externalExtra (shl (v - m.covox i) 17) m with
        | error e => rw [he] at h; exact nomatch h
        | ok r =>
          obtain ⟨⟨⟩, m1⟩ := r
          rw [he] at h
          obtain ⟨h7, h8⟩ := externalExtra_eq he
          have h := congrArg Prod.snd (Except.ok.inj h)
          have e : decide (i = 1 ∨ i = 2) = true := by
            rw [decide_eq_true_iff]; omega
          rw [e]
          subst h
          refine ⟨h7, ?_⟩
          show ({ m1 with covox := _, external := true } : Machine) = { m with told := m1.told, pk := m1.pk, external := true, covox := _ }
          rw [h8]
          rfl
  rw [if_neg c4] at h
  rw [if_neg (fun x => c4 x.2)]
  by_cases c5 : a / 256 = 0xd0 ∧ a % 32 = 0x1f
  · rw [if_pos (by omega)] at h
    rw [if_pos c5]
    dsimp only
    simp only [pokeConsol, c_bind, C.get, C.when, speaker_bit] at h
    have ed : shl (8 * speaker m.consol - 8 * speaker v) 20 = (speaker m.consol - speaker v) * 8388608 := by
      show (8 * speaker m.consol - 8 * speaker v) * 1048576 = _
      omega
    rw [ed] at h
    by_cases c6 : speaker v = speaker m.consol
    · rw [if_neg (by omega)] at h
      rw [if_pos c6]
      exact (congrArg Prod.snd (Except.ok.inj h)).symm
    · rw [if_pos (by omega)] at h
      rw [if_neg c6]
      generalize (speaker m.consol - speaker v) * 8388608 = delta at h ⊢
      simp only [c_bind] at h
      cases he : externalBase delta m with
      | error e => rw [he] at h; exact nomatch h
      | ok r =>
        obtain ⟨⟨⟩, m1⟩ := r
        rw [he] at h
        dsimp only at h
        cases he2 : externalExtra delta m1 with
        | error e => rw [he2] at h; exact nomatch h
        | ok r =>
          obtain ⟨⟨⟩, m2⟩ := r
          rw [he2] at h
          obtain ⟨h7, h8⟩ := externalBase_eq he
          obtain ⟨h9, h10⟩ := externalExtra_eq he2
          have h := congrArg Prod.snd (Except.ok.inj h)
          subst h
          have hcy : m1.cpu.cycle = m.cpu.cycle := by rw [h8]
          refine ⟨h9.trans (by rw [h7, hcy]), ?_⟩
          show ({ m2 with external := true, consol := v } : Machine) = { m with told := m2.told, pk := m2.pk, external := true, consol := v }
          rw [h10, h8]
  rw [if_neg (by omega)] at h
  rw [if_neg c5]
  dsimp only
  have e := c_store m m.cpu.mem m.cpu.cycle m.cpu.pc m.cpu.a m.cpu.x m.cpu.y m.cpu.s m.cpu.nz m.cpu.c m.cpu.vdi a v ha
  have e2 : m.put ⟨m.cpu.mem, m.cpu.cycle, m.cpu.pc, m.cpu.a, m.cpu.x, m.cpu.y, m.cpu.s, m.cpu.nz, m.cpu.c, m.cpu.vdi⟩ = m := rfl
  rw [e2, h] at e
  have e := congrArg Prod.snd (Except.ok.inj e)
  rw [show m' = _ from e, stored_same _ _ hv]
  rfl

/-! ### Loads -/

theorem not_mod16 (x : Int) : band (bnot x) 0xf = 15 - x % 16 := by
  rw [band_f]
  show (-x - 1) % 16 = _
  omega

theorem c_ite {α : Type} {p : Prop} [Decidable p] {f g : C α} {m : Machine} {x y : X (α × Machine)} (h1 : p → f m = x) (h2 : ¬ p → g m = y) :
    (if p then f else g : C α) m = if p then x else y := by
  by_cases h : p
  · rw [if_pos h, if_pos h, h1 h]
  · rw [if_neg h, if_neg h, h2 h]

theorem peek_loads {m m' : Machine} {a w : Int} (ha : 0 ≤ a ∧ a < 65536) (hs : Sane m)
    (h : peek a m = .ok (w, m')) : m' = m ∧ Loads m a w := by
  have load_eq : load a m = .ok (m.cpu.mem a, m) := by
    show (if 0 ≤ a ∧ a < 65536 then _ else _) = _
    rw [if_pos ha]
  by_cases hh : Spec.hardwarePage (a / 256)
  rotate_left
  · unfold peek at h
    rw [if_neg fun hb => hh (hardware_page ha hb), load_eq] at h
    have h := Except.ok.inj h
    refine ⟨(congrArg Prod.snd h).symm, ?_⟩
    unfold Spec.hardwarePage at hh
    unfold Loads
    rw [if_neg (by omega), if_neg (by omega), if_neg (by omega), if_neg (by omega), if_neg (by omega), if_neg (by omega), if_neg (by omega)]
    exact (congrArg Prod.fst h).symm
  obtain ⟨h1, h2, h3, h4, h5, h6, h7⟩ := decodes hh
  unfold peek at h
  rw [if_pos h1] at h
  have hp : peekHardware a m = if band a 0xff1f = 0xd014 then .ok (if m.info.ntsc then 0xf else 1, m)
      else if band a 0xff1f = 0xd01f then .ok (band (bnot m.consol) 0xf, m)
      else if band a 0xff1f = 0xd20a ∨ band a 0xff1f = 0xd21a ∨ band a 0xff1f = 0xd20e ∨ band a 0xff1f = 0xd21e then
        (m.pk.peek a m.cpu.cycle).map fun v => (v, m)
      else if band a 0xff1f = 0xd20c ∨ band a 0xff1f = 0xd21c ∨ band a 0xff1f = 0xd20f ∨ band a 0xff1f = 0xd21f then .ok (0xff, m)
      else if band a 0xff1f = 0xd40b ∨ band a 0xff1f = 0xd41b then .ok (peekVcount m, m)
      else if band a 0xff1f = 0xd40f ∨ band a 0xff1f = 0xd41f then .ok (peekNmist m, m)
      else .ok (m.cpu.mem a, m) := by
    refine c_ite (fun _ => rfl) fun _ => c_ite (fun _ => rfl) fun _ => c_ite (fun _ => ?_) fun _ => c_ite (fun _ => rfl) fun _ =>
      c_ite (fun _ => rfl) fun _ => c_ite (fun _ => rfl) fun _ => load_eq
    show (m.pk.peek a m.cpu.cycle >>= fun v => _) = _
    cases m.pk.peek a m.cpu.cycle <;> rfl
  rw [hp, h5] at h
  clear hp
  unfold Spec.hardwarePage at hh
  unfold Loads
  by_cases c1 : a / 256 = 0xd0 ∧ a % 32 = 0x14
  · rw [if_pos (by omega)] at h
    rw [if_pos c1]
    have h := Except.ok.inj h
    exact ⟨(congrArg Prod.snd h).symm, (congrArg Prod.fst h).symm⟩
  rw [if_neg (by omega)] at h
  rw [if_neg c1]
  by_cases c2 : a / 256 = 0xd0 ∧ a % 32 = 0x1f
  · rw [if_pos (by omega)] at h
    rw [if_pos c2]
    have h := Except.ok.inj h
    refine ⟨(congrArg Prod.snd h).symm, ?_⟩
    rw [← not_mod16]
    exact (congrArg Prod.fst h).symm
  rw [if_neg (by omega)] at h
  rw [if_neg c2]
  have half : a % 32 = a % 16 ∨ a % 32 = a % 16 + 16 := by omega
  have low : 0 ≤ a % 16 ∧ a % 16 < 16 := by omega
  clear h1 h2 h3 h4 h5 h6
  by_cases c3 : a / 256 = 0xd2 ∧ a % 16 = 0xa
  · rw [if_pos (by omega)] at h
    rw [if_pos c3]
    cases hp : m.pk.peek a m.cpu.cycle with
    | error e => 
      have : (Except.error e : X (Int × Machine)) = .ok (w, m') := by
        rw [← h, hp]; rfl
      exact nomatch this
    | ok v =>
      have : (Except.ok (v, m) : X (Int × Machine)) = .ok (w, m') := by
        rw [← h, hp]; rfl
      have h := Except.ok.inj this
      exact ⟨(congrArg Prod.snd h).symm, congrArg Except.ok (congrArg Prod.fst h)⟩
  rw [if_neg c3]
  by_cases c4 : a / 256 = 0xd2 ∧ a % 16 = 0xe
  · rw [if_pos (by omega)] at h
    rw [if_pos c4]
    have hp : m.pk.peek a m.cpu.cycle = .ok (chip m a).irqst := by
      unfold Pair.peek chip
      dsimp only
      rw [band_f, c4.2, if_neg (by decide), if_pos rfl]
      refine congrArg (fun p : Pokey => Except.ok p.irqst) ?_
      rcases hs.stereo with hm | hm
      · have b0 : band a 0 = 0 := Int.le_antisymm (band_range_right a (b := 0) (by omega)).2 (band_range_right a (b := 0) (by omega)).1
        rw [hm, b0, if_neg (by simp), if_neg (by simp)]
      · rw [hm, h7]
        by_cases hx : a / 16 % 2 = 1
        · rw [hx, if_pos (by decide), if_pos ⟨by decide, rfl⟩]
        · rw [if_neg (by omega), if_neg (fun y => hx y.2)]
    have : (Except.ok ((chip m a).irqst, m) : X (Int × Machine)) = .ok (w, m') := by
      rw [← h, hp]; rfl
    have h := Except.ok.inj this
    exact ⟨(congrArg Prod.snd h).symm, (congrArg Prod.fst h).symm⟩
  rw [if_neg (by omega)] at h
  rw [if_neg c4]
  by_cases c5 : a / 256 = 0xd2 ∧ (a % 16 = 0xc ∨ a % 16 = 0xf)
  · rw [if_pos (by omega)] at h
    rw [if_pos c5]
    have h := Except.ok.inj h
    exact ⟨(congrArg Prod.snd h).symm, (congrArg Prod.fst h).symm⟩
  rw [if_neg (by omega)] at h
  rw [if_neg c5]
  by_cases c6 : a / 256 = 0xd4 ∧ a % 16 = 0xb
  · rw [if_pos (by omega)] at h
    rw [if_pos c6]
    have h := Except.ok.inj h
    refine ⟨(congrArg Prod.snd h).symm, ?_⟩
    have e : peekVcount m = w := congrArg Prod.fst h
    rw [← e]
    unfold peekVcount frameCycles
    rw [Int.tdiv_eq_ediv_of_nonneg hs.clock]
    cases m.info.ntsc <;> rfl
  rw [if_neg (by omega)] at h
  rw [if_neg c6]
  by_cases c7 : a / 256 = 0xd4 ∧ a % 16 = 0xf
  · rw [if_pos (by omega)] at h
    rw [if_pos c7]
    have h := Except.ok.inj h
    refine ⟨(congrArg Prod.snd h).symm, ?_⟩
    have e : peekNmist m = w := congrArg Prod.fst h
    rw [← e]
    unfold peekNmist
    cases m.nmist
    · simp
    · by_cases hx : m.cpu.cycle < 28291
      · simp only [if_pos hx]; rw [if_neg (by simp; omega)]; rfl
      · simp only [if_neg hx]; rw [if_pos (by simp; omega)]; rfl
    · simp
  rw [if_neg (by omega)] at h
  rw [if_neg c7]
  have h := Except.ok.inj h
  exact ⟨(congrArg Prod.snd h).symm, (congrArg Prod.fst h).symm⟩

/-- What is read is a byte. -/
theorem loads_byte {m : Machine} {a w : Int} (hs : Sane m) (hr : Spec.InRange m.cpu) (h : Loads m a w) : 0 ≤ w ∧ w < 256 := by
  have hmem := hr.mem a
  have hb := hs.base
  have he := hs.extra
  have hc := hs.clock
  unfold Loads at h
  split at h
  · split at h <;> omega
  split at h
  · omega
  split at h
  · unfold Pair.peek at h
    dsimp only at h
    generalize (if band a m.pk.extraMask ≠ 0 then m.pk.extra else m.pk.base) = p at h
    split at h
    · split at h
      · have := Except.ok.inj h; omega
      · split at h
        · exact nomatch h
        · split at h
          · have e := Except.ok.inj h
            have : poly9 ((m.cpu.cycle + p.polyIndex) % 511).toNat ≤ 0xff := Nat.and_le_right
            omega
          · have e := Except.ok.inj h
            rw [band_ff] at e
            omega
    · rename_i h1 h2
      rw [band_f] at h2
      exact absurd h1.2 h2
  split at h
  · unfold chip at h
    split at h <;> omega
  split at h
  · omega
  split at h
  · cases hn : m.info.ntsc
    · rw [hn] at h; simp only [Bool.false_eq_true, if_false] at h; split at h <;> omega
    · rw [hn] at h; simp only [if_true] at h; split at h <;> omega
  split at h
  · split at h <;> omega
  omega

/-! ### Instructions -/

/-- Addressing does not depend on what is at the address. -/
theorem instruction_op (m : Machine) (hr : Spec.InRange m.cpu) (mn : Isa.Mn) (k : Isa.Code) (hk : k ∈ Isa.codes mn) (op : Op)
    (ho : opOf mn = some op) (hm : k.mode.memory = true) (hop : m.cpu.mem m.cpu.pc = k.opcode)
    (hpc : 0 ≤ m.cpu.pc ∧ m.cpu.pc + k.mode.size ≤ 65536) :
    instruction m = operate op ((Spec.view m.cpu).effective k.mode) (finishing m k.mode (k.cycles + (Spec.view m.cpu).extra mn k.mode)) := by
  have hsize : 1 ≤ k.mode.size := by cases k.mode <;> decide
  have hr2 : Spec.InRange { m.cpu with cycle := m.cpu.cycle + k.cycles } :=
    ⟨hr.mem, hr.a, hr.x, hr.y, hr.s, hr.nz, hr.c, hr.vdi⟩
  have t := tables mn k hk
  have e : instruction m = (fetch >>= fun data => addCycle (opcodeCycles.getD data.toNat 0) >>= fun _ => execute (decode.getD data.toNat .nop))
      (m.put ⟨m.cpu.mem, m.cpu.cycle, m.cpu.pc, m.cpu.a, m.cpu.x, m.cpu.y, m.cpu.s, m.cpu.nz, m.cpu.c, m.cpu.vdi⟩) := rfl
  rw [e, c_bind, c_fetch _ _ _ _ _ _ _ _ _ _ _ (by omega)]
  simp only [hop, c_bind, t.1, t.2, c_addCycle]
  have hacc : k.mode ≠ .acc := by intro h; rw [h] at hm; exact absurd hm (by decide)
  have hi : instrOf mn k.mode = .op (modeOf mn k.mode) op := by
    unfold instrOf
    rw [ho]
    cases hmode : k.mode <;> first | exact absurd hmode hacc | skip
    all_goals cases op <;> rfl
  rw [hi]
  show (address (modeOf mn k.mode) >>= operate op) _ = _
  have ad := address_ok m { m.cpu with cycle := m.cpu.cycle + k.cycles } hr2 mn k.mode hm hpc _ rfl
  rw [c_bind]
  have ad2 : address (modeOf mn k.mode) (m.put ⟨m.cpu.mem, m.cpu.cycle + k.cycles, m.cpu.pc + 1, m.cpu.a, m.cpu.x, m.cpu.y, m.cpu.s, m.cpu.nz, m.cpu.c, m.cpu.vdi⟩) = _ := ad
  rw [ad2]
  show operate op _ _ = operate op _ _
  refine congrArg (operate op _) ?_
  show ({ m with cpu := _ } : Machine) = { m with cpu := _ }
  rw [← Int.add_assoc]
  rfl

theorem finishing_sane {m : Machine} (hs : Sane m) {mode : Isa.Mode} {n : Int} (hn : 0 ≤ n) : Sane (finishing m mode n) :=
  ⟨by show 0 ≤ m.cpu.cycle + n; have := hs.clock; omega, hs.stereo, hs.base, hs.extra⟩

theorem finishing_range {m : Machine} (hr : Spec.InRange m.cpu) {mode : Isa.Mode} {n : Int} : Spec.InRange (finishing m mode n).cpu :=
  ⟨hr.mem, hr.a, hr.x, hr.y, hr.s, hr.nz, hr.c, hr.vdi⟩

/-- What is done with the byte read. -/
def alu (w : Int) : Isa.Mn → C Unit
  | .adc => addWithCarry w
  | .and => do let a ← reg (·.a); setNzA (band a w)
  | .bit => do
    let vdi ← reg (·.vdi)
    setVdi (band vdi (bor dFlag iFlag) + band w vFlag)
    let a ← reg (·.a)
    setNz (shl (band w 0x80) 1 + band w a)
  | .cmp => do let a ← reg (·.a); compare a w
  | .cpx => do let x ← reg (·.x); compare x w
  | .cpy => do let y ← reg (·.y); compare y w
  | .eor => do let a ← reg (·.a); setNzA (bxor a w)
  | .lda => setNzA w
  | .ldx => setNzX w
  | .ldy => setNzY w
  | .ora => do let a ← reg (·.a); setNzA (bor a w)
  | .sbc => subtractWithCarry w
  | _ => pure ()

theorem operate_alu (mn : Isa.Mn) (op : Op) (ho : opOf mn = some op) (hrd : reads mn = true) (ea : Int) (m : Machine) :
    operate op ea m = (peek ea >>= fun w => alu w mn) m := by
  cases mn <;> simp only [reads, Bool.false_eq_true] at hrd <;> simp only [opOf, Option.some.injEq] at ho <;> subst ho <;> rfl

/-- The memory does not matter for what is done with the byte. -/
theorem alu_mem (mn : Isa.Mn) (hrd : reads mn = true) (w : Int) (m : Machine) (r : Cpu) (mem : Int → Int) :
    alu w mn (m.put { r with mem := mem }) = (alu w mn (m.put r)).map fun p => ((), p.2.put { p.2.cpu with mem := mem }) := by
  cases mn <;> simp only [reads, Bool.false_eq_true] at hrd <;> rfl

theorem exec_mem (mn : Isa.Mn) (hrd : reads mn = true) (st : Isa.State) (mode : Isa.Mode) (ea ea' w : Int) (mem : Int → Int) :
    ({ st with mem := mem } : Isa.State).exec mn mode ea w = { st.exec mn mode ea' w with mem := mem } := by
  obtain ⟨a, x, y, s, pc, n, v, d, i, z, c, mem0⟩ := st
  cases mn <;> simp only [reads, Bool.false_eq_true] at hrd <;> first | rfl | (cases d <;> rfl)

/-- Loads. -/
theorem operate_reads (m : Machine) (hr : Spec.InRange m.cpu) (hs : Sane m) (mn : Isa.Mn) (op : Op) (ho : opOf mn = some op)
    (hrd : reads mn = true) (mode : Isa.Mode) (hacc : mode ≠ .acc) (ea : Int) (hea : 0 ≤ ea ∧ ea < 65536) (m' : Machine) (h : operate op ea m = .ok ((), m')) :
    ∃ w r', Loads m ea w ∧ m' = m.put r' ∧ Spec.view r' = (Spec.view m.cpu).exec mn mode ea w ∧ r'.cycle = m.cpu.cycle ∧ Tidy r' := by
  rw [operate_alu mn op ho hrd, c_bind] at h
  cases hp : peek ea m with
  | error e => rw [hp] at h; exact nomatch h
  | ok p =>
    obtain ⟨w, m1⟩ := p
    obtain ⟨hm1, hl⟩ := peek_loads hea hs hp
    rw [hp, hm1] at h
    have hw := loads_byte hs hr hl
    have hr2 : Spec.InRange { m.cpu with mem := fun b => if b = 0 then w else m.cpu.mem b } :=
      ⟨fun b => by
        show 0 ≤ (if b = 0 then w else m.cpu.mem b) ∧ (if b = 0 then w else m.cpu.mem b) < 256
        split
        · exact hw
        · exact hr.mem b, hr.a, hr.x, hr.y, hr.s, hr.nz, hr.c, hr.vdi⟩
    obtain ⟨r', g1, g2, g3, g4⟩ := works_all m _ hr2 0 (by omega) (by decide) mn op ho mode hacc
    rw [operate_alu mn op ho hrd, c_bind] at g1
    have hp2 : peek 0 (m.put { m.cpu with mem := fun b => if b = 0 then w else m.cpu.mem b }) =
        .ok (w, m.put { m.cpu with mem := fun b => if b = 0 then w else m.cpu.mem b }) := rfl
    rw [hp2] at g1
    dsimp only at h g1
    rw [alu_mem mn hrd] at g1
    have e : m.put m.cpu = m := rfl
    rw [e, h] at g1
    have g1 := congrArg Prod.snd (Except.ok.inj g1)
    have g1 : m'.put { m'.cpu with mem := fun b => if b = 0 then w else m.cpu.mem b } = m.put r' := g1
    have hmem : m'.cpu.mem = m.cpu.mem := by
      have k := alu_mem mn hrd w m m.cpu m.cpu.mem
      have e3 : m.put { m.cpu with mem := m.cpu.mem } = m := rfl
      rw [e3, h] at k
      have k := congrArg Prod.snd (Except.ok.inj k)
      have k2 : m' = m'.put { m'.cpu with mem := m.cpu.mem } := k
      have k3 := congrArg (fun x : Machine => x.cpu.mem) k2
      exact k3
    have hcpu : r' = { m'.cpu with mem := fun b => if b = 0 then w else m.cpu.mem b } := (congrArg (·.cpu) g1).symm
    refine ⟨w, { r' with mem := m.cpu.mem }, hl, ?_, ?_, g3, g4⟩
    · have k := congrArg (fun x : Machine => x.put { x.cpu with mem := m.cpu.mem }) g1
      have k : m'.put { m'.cpu with mem := m.cpu.mem } = m.put { r' with mem := m.cpu.mem } := k
      rw [← k, ← hmem]
      rfl
    · have k : Spec.view { r' with mem := m.cpu.mem } = { Spec.view r' with mem := m.cpu.mem } := rfl
      rw [k, g2]
      have k2 : Spec.view m.cpu = { Spec.view { m.cpu with mem := fun b => if b = 0 then w else m.cpu.mem b } with mem := m.cpu.mem } := rfl
      rw [k2, exec_mem mn hrd _ mode ea 0]
      simp

/-! ### Instructions that change a byte -/

theorem shifted_back (m : Machine) (n : Int) : shifted (shifted m n) (-n) = m := by
  unfold shifted
  have : m.cpu.cycle + n + -n = m.cpu.cycle := by omega
  simp only [this]

theorem peekRmw_loads {m m' : Machine} {a w : Int} (ha : 0 ≤ a ∧ a < 65536) (hr : Spec.InRange m.cpu) (hs : Sane m) (hc : 1 ≤ m.cpu.cycle)
    (h : peekRmw a m = .ok (w, m')) : LoadsToChange m a w m' ∧ 0 ≤ w ∧ w < 256 ∧
      m'.cpu = m.cpu ∧ m'.info = m.info := by
  unfold peekRmw at h
  unfold LoadsToChange
  by_cases hp : a / 256 = 0xd2
  · rw [if_pos (show shr a 8 = 0xd2 from hp)] at h
    rw [if_pos hp]
    obtain ⟨h1, _⟩ := decodes (a := a) (Or.inr (Or.inl hp))
    have hs2 : Sane (shifted m (-1)) := ⟨by show 0 ≤ m.cpu.cycle + -1; omega, hs.stereo, hs.base, hs.extra⟩
    have hr2 : Spec.InRange (shifted m (-1)).cpu := ⟨hr.mem, hr.a, hr.x, hr.y, hr.s, hr.nz, hr.c, hr.vdi⟩
    have e : (addCycle (-1) >>= fun _ => peekHardware a >>= fun data => pokeHardware a data >>= fun _ => addCycle 1 >>= fun _ => pure data : C Int) m =
        (peek a >>= fun data => poke a data >>= fun _ => addCycle 1 >>= fun _ => pure data : C Int) (shifted m (-1)) := by
      have e1 : peek a = peekHardware a := by unfold peek; rw [if_pos h1]
      have e2 : ∀ d, poke a d = pokeHardware a d := fun d => by unfold poke; rw [if_pos h1]
      simp only [e1, e2]
      rfl
    have h : (peek a >>= fun data => poke a data >>= fun _ => addCycle 1 >>= fun _ => pure data : C Int) (shifted m (-1)) = .ok (w, m') := by
      rw [← e]; exact h
    rw [c_bind] at h
    cases h3 : peek a (shifted m (-1)) with
    | error e => rw [h3] at h; exact nomatch h
    | ok p =>
      obtain ⟨v, m1⟩ := p
      obtain ⟨h4, h5⟩ := peek_loads ha hs2 h3
      rw [h3, h4] at h
      dsimp only at h
      rw [c_bind] at h
      cases h6 : poke a v (shifted m (-1)) with
      | error e => rw [h6] at h; exact nomatch h
      | ok p =>
        obtain ⟨⟨⟩, m2⟩ := p
        rw [h6] at h
        have hv := loads_byte hs2 hr2 h5
        have h7 := poke_stores ha hv hs2.clock h6
        have h := Except.ok.inj h
        have hw : v = w := congrArg Prod.fst h
        have hm : shifted m2 1 = m' := congrArg Prod.snd h
        subst hw
        have h8 : m2.cpu = (shifted m (-1)).cpu ∧ m2.info = m.info := by
          unfold Stores device at h7
          rw [if_pos hp] at h7
          exact ⟨congrArg (·.cpu) h7.2.1, congrArg (·.info) h7.2.1⟩
        refine ⟨⟨h5, ?_⟩, hv.1, hv.2, ?_, ?_⟩
        · rw [← hm, shifted_back]; exact h7
        · rw [← hm]
          show ({ m2.cpu with cycle := m2.cpu.cycle + 1 } : Cpu) = m.cpu
          rw [h8.1]
          have : m.cpu.cycle + -1 + 1 = m.cpu.cycle := by omega
          show ({ m.cpu with cycle := m.cpu.cycle + -1 + 1 } : Cpu) = m.cpu
          rw [this]
        · rw [← hm]; exact h8.2
  · rw [if_neg (show ¬ shr a 8 = 0xd2 from hp)] at h
    rw [if_neg hp]
    have e : load a m = .ok (m.cpu.mem a, m) := by
      show (if 0 ≤ a ∧ a < 65536 then _ else _) = _
      rw [if_pos ha]
    rw [e] at h
    have h := Except.ok.inj h
    have hw : m.cpu.mem a = w := congrArg Prod.fst h
    have hm : m = m' := congrArg Prod.snd h
    subst hm
    have := hr.mem a
    exact ⟨⟨hw.symm, rfl⟩, by omega, by omega, rfl, rfl⟩

/-- A store touches no register. -/
theorem Stores.cpu {m m' : Machine} {a v : Int} (h : Stores m a v m') : m'.cpu = { m.cpu with mem := m'.cpu.mem, cycle := m'.cpu.cycle } := by
  unfold Stores at h
  split at h
  · rw [h.2.1]
  · obtain ⟨t, h, _⟩ := h; rw [h]
  · rw [h]
  · split at h
    · rw [h]
    · rw [h.2]
  · split at h
    · rw [h]
    · rw [h.2]
  · rw [h]

/-- A store does not depend on the registers. -/
theorem Stores.outside {m m' : Machine} {a v : Int} (h : Stores m a v m') (r : Cpu) :
    Stores (Spec.Bus.outside m r) a v (Spec.Bus.outside m' r) := by
  unfold Stores at h ⊢
  have e : (Spec.Bus.outside m r).info.covoxAddr = m.info.covoxAddr := rfl
  rw [e]
  split at h
  · refine ⟨h.1, ?_, h.2.2⟩
    exact congrArg (fun x => Spec.Bus.outside x r) h.2.1
  · obtain ⟨t, h1, h2⟩ := h
    refine ⟨t, ?_, h2⟩
    exact congrArg (fun x => Spec.Bus.outside x r) h1
  · exact congrArg (fun x => Spec.Bus.outside x r) h
  · have e2 : (Spec.Bus.outside m r).covox = m.covox := rfl
    rw [e2]
    split at h
    · rename_i hv
      rw [if_pos hv]
      exact congrArg (fun x => Spec.Bus.outside x r) h
    · rename_i hv
      rw [if_neg hv]
      refine ⟨h.1, ?_⟩
      exact congrArg (fun x => Spec.Bus.outside x r) h.2
  · have e2 : (Spec.Bus.outside m r).consol = m.consol := rfl
    rw [e2]
    split at h
    · rename_i hv
      rw [if_pos hv]
      exact congrArg (fun x => Spec.Bus.outside x r) h
    · rename_i hv
      rw [if_neg hv]
      refine ⟨h.1, ?_⟩
      exact congrArg (fun x => Spec.Bus.outside x r) h.2
  · exact congrArg (fun x => Spec.Bus.outside x r) h

/-- The result and the carry, as computed by the emulator. -/
def result (c w : Int) : Isa.Mn → Int
  | .asl => band (shl w 1) 0xff
  | .rol => band (shl w 1 + c) 0xff
  | .lsr => shr w 1
  | .ror => shr (shl c 8 + w) 1
  | .inc => band (w + 1) 0xff
  | _ => band (w - 1) 0xff

def carry (c w : Int) : Isa.Mn → Int
  | .asl => shr w 7
  | .rol => shr (shl w 1 + c) 8
  | .lsr => band w 1
  | .ror => band (shl c 8 + w) 1
  | _ => c

def changes : Isa.Mn → Bool
  | .asl | .rol | .lsr | .ror | .inc | .dec => true
  | _ => false

theorem c_assoc {α β γ : Type} (f : C α) (g : α → C β) (h : β → C γ) : (f >>= g) >>= h = f >>= fun a => g a >>= h := by
  funext m
  rw [c_bind, c_bind, c_bind]
  cases f m <;> rfl

theorem operate_change (mn : Isa.Mn) (op : Op) (ho : opOf mn = some op) (hch : changes mn = true) (ea : Int) :
    operate op ea = (peekRmw ea >>= fun w => reg (·.c) >>= fun c => setC (carry c w mn) >>= fun _ =>
      poke ea (result c w mn) >>= fun _ => setNz (result c w mn)) := by
  cases mn <;> simp only [changes, Bool.false_eq_true] at hch <;> simp only [opOf, Option.some.injEq] at ho <;> subst ho
  all_goals
    simp only [operate, shiftLeft, shiftRight, rotateLeft, rotateRight, increment, decrement, c_assoc]
    refine congrArg (peekRmw ea >>= ·) (funext fun w => funext fun m => ?_)
    rfl

theorem byte_results {mn : Isa.Mn} (hch : changes mn = true) (cf : Bool) {w : Int} (hw : 0 ≤ w ∧ w < 256) :
    changed cf w mn = some (result (flag cf) w mn) ∧ (0 ≤ result (flag cf) w mn ∧ result (flag cf) w mn < 256) ∧
      (carry (flag cf) w mn = 0 ∨ carry (flag cf) w mn = 1) := by
  have hc := flag_range cf
  have e : Isa.State.bit cf = flag cf := rfl
  cases mn <;> simp only [changes, Bool.false_eq_true] at hch <;>
    simp only [changed, result, carry, band_ff, band_1, shl, shr, Int.reducePow, e, Option.some.injEq] <;>
    refine ⟨?_, ⟨?_, ?_⟩, ?_⟩ <;> first | exact hc | omega

/-- What the manual says about these instructions, apart from the memory. -/
theorem exec_change {mn : Isa.Mn} (hch : changes mn = true) (r : Cpu) (hr : Spec.InRange r) (mode : Isa.Mode) (hacc : mode ≠ .acc) (ea : Int) {w : Int}
    (hw : 0 ≤ w ∧ w < 256) (mem : Int → Int) (cycle : Int) :
    Spec.view { r with c := carry r.c w mn, nz := result r.c w mn, mem := mem, cycle := cycle } =
      { (Spec.view r).exec mn mode ea w with mem := mem } := by
  obtain ⟨rmem, rcycle, pc, a, x, y, s, nz, c, vdi⟩ := r
  have hc := hr.c
  dsimp only at hc
  obtain ⟨cf, rfl⟩ : ∃ cf : Bool, c = flag cf := by
    rcases hc with h | h
    · exact ⟨false, h⟩
    · exact ⟨true, h⟩
  have hc := flag_range cf
  have e : Isa.State.bit cf = flag cf := rfl
  cases mn <;> simp only [changes, Bool.false_eq_true] at hch
  all_goals
    simp only [view_mk, Isa.State.exec, Isa.State.putBack, hacc, if_false, Isa.State.write, Isa.State.nz, flag_one, result, carry, band_ff, band_1, shl, shr,
      Int.reducePow, e, Isa.State.mk.injEq, true_and, and_true, decide_eq_decide]
  all_goals refine ⟨?_, ?_⟩ <;> try refine ⟨?_, ?_⟩
  all_goals omega

/-- Instructions that change a byte. -/
theorem operate_changes (m : Machine) (hr : Spec.InRange m.cpu) (hs : Sane m) (hcy : 1 ≤ m.cpu.cycle) (mn : Isa.Mn) (op : Op) (ho : opOf mn = some op)
    (hch : changes mn = true) (mode : Isa.Mode) (hacc : mode ≠ .acc) (ea : Int) (hea : 0 ≤ ea ∧ ea < 65536) (m' : Machine) (h : operate op ea m = .ok ((), m')) :
    ∃ w m1 z, LoadsToChange m ea w m1 ∧ changed (Spec.view m.cpu).c w mn = some z ∧ Stores m1 ea z (Spec.Bus.outside m' m.cpu) ∧
      Spec.view m'.cpu = { (Spec.view m.cpu).exec mn mode ea w with mem := m'.cpu.mem } ∧ Tidy m'.cpu := by
  rw [operate_change mn op ho hch, c_bind] at h
  cases hp : peekRmw ea m with
  | error e => rw [hp] at h; exact nomatch h
  | ok p =>
    obtain ⟨w, m1⟩ := p
    rw [hp] at h
    obtain ⟨h1, h2, h3, h4, h5⟩ := peekRmw_loads hea hr hs hcy hp
    dsimp only at h
    obtain ⟨cf, hcf⟩ : ∃ cf : Bool, m.cpu.c = flag cf := by
      rcases hr.c with h | h
      · exact ⟨false, h⟩
      · exact ⟨true, h⟩
    have hres := byte_results hch cf ⟨h2, h3⟩
    rw [← hcf] at hres
    have h : (poke ea (result m1.cpu.c w mn) >>= fun _ => setNz (result m1.cpu.c w mn)) (m1.put { m1.cpu with c := carry m1.cpu.c w mn }) = .ok ((), m') := h
    rw [h4] at h
    rw [c_bind] at h
    cases hk : poke ea (result m.cpu.c w mn) (m1.put { m.cpu with c := carry m.cpu.c w mn }) with
    | error e => rw [hk] at h; exact nomatch h
    | ok p =>
      obtain ⟨⟨⟩, m2⟩ := p
      rw [hk] at h
      have hst := poke_stores (m := m1.put { m.cpu with c := carry m.cpu.c w mn }) hea hres.2.1 (show 0 ≤ m.cpu.cycle by omega) hk
      have h : m2.put { m2.cpu with nz := result m.cpu.c w mn } = m' := congrArg Prod.snd (Except.ok.inj h)
      have hc2 := Stores.cpu hst
      have hm' : m'.cpu = { m.cpu with c := carry m.cpu.c w mn, nz := result m.cpu.c w mn, mem := m'.cpu.mem, cycle := m'.cpu.cycle } := by
        rw [← h]
        exact congrArg (fun r : Cpu => ({ r with nz := result m.cpu.c w mn } : Cpu)) hc2
      refine ⟨w, m1, result m.cpu.c w mn, h1, ?_, ?_, ?_, ?_⟩
      · have : (Spec.view m.cpu).c = cf := by
          show decide (m.cpu.c = 1) = cf
          rw [hcf]; exact flag_one cf
        rw [this]; exact hres.1
      · have k := Stores.outside hst m.cpu
        have e1 : Spec.Bus.outside (m1.put { m.cpu with c := carry m.cpu.c w mn }) m.cpu = m1.put m.cpu := rfl
        have e2 : m1.put m.cpu = m1 := by rw [← h4]; rfl
        have e3 : Spec.Bus.outside m2 m.cpu = Spec.Bus.outside m' m.cpu := by rw [← h]; rfl
        rw [e1, e2, e3] at k
        exact k
      · have k := exec_change hch m.cpu hr mode hacc ea ⟨h2, h3⟩ m'.cpu.mem m'.cpu.cycle
        rw [← k, ← hm']
      · rw [hm']
        exact ⟨⟨hres.2.1.1, by have := hres.2.1.2; show result m.cpu.c w mn < 512; omega⟩, hres.2.2, hr.vdi⟩

end Asap.Bus
