import Verif.Lemmas.Native
import Verif.Props.Write
import Verif.Props.Tracker
import Mathlib.Tactic.SplitIfs
import Mathlib.Tactic.ByContra

/-! C32: native modules are written, at the same or another address. -/

namespace Asap.Props
open Asap Asap.Spec Asap.Spec.Relocate

theorem moved_length (role : Nat → Role) (diff : Int) (m : List Nat) : (moved role diff m).length = m.length := by simp [moved]

theorem seg_moved (role : Nat → Role) (diff : Int) (m : List Nat) : seg (fun i => movedByte (role i) diff m i) 0 m.length = moved role diff m := by
  unfold seg moved
  rw [List.range_eq_range']

theorem seg_congr {f g : Nat → Nat} {k n : Nat} (h : ∀ i, k ≤ i → i < k + n → f i = g i) : seg f k n = seg g k n := by
  unfold seg
  refine List.map_congr_left fun i hi => ?_
  rw [List.mem_range'_1] at hi
  exact h i hi.1 hi.2

theorem Layout.long {type : ModType} {m : List Nat} {role : Nat → Role} (h : Layout type m role) : 7 ≤ m.length := by
  cases type <;> simp only [Layout] at h
  case rmt =>
    obtain ⟨l, hr, _⟩ := h
    have := hr.after
    have := hr.disjoint
    have := hr.inside
    have := hr.whole
    omega
  all_goals omega

theorem Layout.tables {type : ModType} {src m : List Nat} {so fuel : Nat} {role : Nat → Role} {diff : Int} (hf : 65543 ≤ fuel) (h : Layout type m role) (hs : Source src so m) :
    EmitsAt 0 (Native.writeTables fuel src so diff (word m 2) m.length type >>= fun _ => Native.copy src so m.length) (moved role diff m) := by
  have fin : ∀ {t : W Unit}, Fills (fun i => movedByte (role i) diff m i) 0 m.length t → EmitsAt 0 t (moved role diff m) := by
    intro t ht
    have := ht.2
    rwa [Nat.sub_zero, seg_moved] at this
  have cmcCase : ∀ {t}, t = .cmc ∨ t = .cm3 ∨ t = .cmr ∨ t = .cms → role = cmc ∧ 0x9a ≤ m.length →
      EmitsAt 0 (Native.writeTables fuel src so diff (word m 2) m.length t >>= fun _ => Native.copy src so m.length) (moved role diff m) := by
    rintro t ht ⟨rfl, hl⟩
    exact fin (hs.rest hl (fun i hi => by unfold cmc; rw [if_neg (by omega), if_neg (by omega), if_neg (by omega)]) (tables_cmc hs hl ht))
  cases type <;> simp only [Layout] at h
  case cmc => exact cmcCase (by simp) h
  case cm3 => exact cmcCase (by simp) h
  case cmr => exact cmcCase (by simp) h
  case cms => exact cmcCase (by simp) h
  case dlt =>
    obtain ⟨rfl, hl⟩ := h
    exact fin (hs.rest (k := 6) (by omega) (fun i hi => by unfold dlt; rw [if_neg (by omega)]) (tables_dlt hs (by omega)))
  case mpt =>
    obtain ⟨rfl, hl⟩ := h
    exact fin (hs.rest hl (fun i hi => by unfold mpt; rw [if_neg (by omega), if_neg (by omega), if_neg (by omega)]) (tables_mpt hs hl))
  case tmc =>
    obtain ⟨rfl, hl⟩ := h
    exact fin (hs.rest hl (fun i hi => by unfold tmc; rw [if_neg (by omega), if_neg (by omega), if_neg (by omega), if_neg (by omega), if_neg (by omega)]) (tables_tmc hs hl))
  case tm2 =>
    obtain ⟨rfl, hl⟩ := h
    exact fin (hs.rest hl (fun i hi => by unfold tm2; rw [if_neg (by omega), if_neg (by omega), if_neg (by omega), if_neg (by omega), if_neg (by omega)]) (tables_tm2 hs hl))
  case rmt =>
    obtain ⟨l, hr, rfl, h0, h1⟩ := h
    have a1 := hr.after
    have a2 := hr.disjoint
    have a3 := hr.inside
    have a4 := hr.whole
    have a5 := hr.stop
    have b4 := byteAt_lt hs.bytes 4
    have b5 := byteAt_lt hs.bytes (4 + 1)
    have t := tables_rmt (diff := diff) (fuel := fuel) hs hr (by unfold word at a5; omega)
    have c := hs.copy (f := rmtByte m l diff) (k := if l.stop + 5 ≤ m.length then l.stop + 4 else l.stop) (e := m.length) (by split <;> omega) (Nat.le_refl _)
      (fun i hi _ => rmtByte_plain (by split at hi <;> omega) (by
        have : l.stop ≤ i := by split at hi <;> omega
        unfold rmt
        rw [if_neg (by omega), if_neg (by omega), if_neg (by omega), if_neg (by omega), if_neg (by omega), if_neg (by omega), if_neg (by omega), if_neg (by omega), if_neg]
        rintro ⟨g1, g2⟩
        rw [if_pos g2] at hi
        omega)) rfl
    have := (t.bind c).2
    rw [Nat.sub_zero, seg_congr (g := fun i => movedByte (rmt m l i) diff m i), seg_moved] at this
    · exact this
    · intro i _ _
      unfold rmtByte
      split
      · have : rmt m l i = .plain := by unfold rmt; rw [if_pos (by assumption)]
        rw [movedByte_plain this]
        rcases (by omega : i = 0 ∨ i = 1) with rfl | rfl
        · exact h0.symm
        · exact h1.symm
      · rfl

/-- How far the module is moved. -/
def distance (info : Info) (m : List Nat) : Int := if info.music < 0 then 0 else info.music - (word m 2 : Nat)

theorem native_emits {type : ModType} {src m : List Nat} {so fuel : Nat} {role : Nat → Role} {info : Info} (hf : 65543 ≤ fuel) (h : Layout type m role) (hs : Source src so m)
    (hhigh : (word m 4 : Nat) + distance info m ≤ 0xffff) : EmitsAt 0 (Native.write fuel src so info type m.length) (moved role (distance info m) m) := by
  have hl := Layout.long h
  unfold Native.write
  refine EmitsAt.lift (hs.word (i := 2) (by omega) (by omega)) ?_
  show EmitsAt 0 (W.lift (getWordI src (so + 4)) >>= fun last => if (last : Int) + distance info m > 0xffff then _ else _) _
  refine EmitsAt.lift (hs.word (i := 4) (by omega) (by omega)) ?_
  rw [if_neg (by omega)]
  exact Layout.tables hf h hs

theorem Source.whole {m : List Nat} (hb : AllBytes m) : Source m 0 m := ⟨by simp, by omega, hb⟩

theorem native_type {type : ModType} {m : List Nat} {role : Nat → Role} (h : Layout type m role) : type ≠ .sapB ∧ type ≠ .sapC ∧ type ≠ .sapD ∧ type ≠ .sapS ∧ type ≠ .fc := by
  cases type <;> simp_all [Layout]

theorem write_layout {fuel : Nat} {target ext : List Nat} {info : Info} {m : List Nat} {tag : Bool} {role : Nat → Role} (hl : Layout info.type m role)
    (hn : Named target ext) (he : extOf info info.type = some ext) :
    write fuel target info m tag = (do Native.write fuel m 0 info info.type m.length; outputOffset) := by
  obtain ⟨hm, n1, n2, n3⟩ := extOf_mem he
  obtain ⟨t1, t2, t3, t4, t5⟩ := native_type hl
  have ho : originalType info m = .ok info.type := by
    unfold originalType
    cases h : info.type <;> first | rfl | exact absurd h t1 | exact absurd h t2
  rw [write_native (fun h => n1 (named_unique hn h)) (fun h => n2 (named_unique hn h))]
  have e : writeOther fuel (getPackedExt target) info m = Native.write fuel m 0 info info.type m.length := by
    have hx : originalExt info m = .ok (some ext) := by unfold originalExt; rw [ho]; simp only [bind, Except.bind]; rw [he]
    unfold writeOther
    rw [hx]
    show (if getPackedExt target = packExt ext ∨ _ then writeNative fuel info m else _) = _
    rw [if_pos (Or.inl ((packed_named target ext hm).mpr hn))]
    unfold writeNative
    cases h : info.type <;> first | rfl | exact absurd h t1 | exact absurd h t2 | exact absurd h t5
  rw [e]

/-- C32: a native module is written with all its addresses moved, and nothing else changed.  It is not moved unless an address was set. -/
theorem C32_moved (fuel : Nat) (hf : 65543 ≤ fuel) (target ext : List Nat) (info : Info) (m : List Nat) (tag : Bool) (out : List Nat) (stop : Nat) (role : Nat → Role)
    (hb : AllBytes m) (hl : Layout info.type m role) (hn : Named target ext) (he : extOf info info.type = some ext)
    (hfit : m.length ≤ stop) (hstop : stop ≤ out.length) (hhigh : (word m 4 : Nat) + distance info m ≤ 0xffff) :
    ∃ w', write fuel target info m tag (setOutput out 0 stop) = (.ok m.length, w') ∧ w'.output.take m.length = moved role (distance info m) m := by
  rw [write_layout hl hn he]
  have hv : (setOutput out 0 stop).Valid := ⟨Nat.zero_le _, hstop⟩
  have em := (native_emits (info := info) hf hl (Source.whole hb) hhigh).ok (setOutput out 0 stop) hv rfl (by rw [moved_length, Nat.zero_add]; exact hfit)
  refine ⟨(setOutput out 0 stop).put (moved role (distance info m) m), ?_, ?_⟩
  · show W.bind (Native.write fuel m 0 info info.type m.length) (fun _ => outputOffset) _ = _
    unfold W.bind
    rw [show ((0 : Int)) = ((0 : Nat) : Int) from rfl, em]
    simp only [outputOffset, Writer.put, moved_length]
    simp [setOutput]
  · unfold Writer.put setOutput
    simp [moved_length]

theorem move_zero {a : Nat} (h : a < 65536) : move 0 a = a := by
  unfold move
  split <;> omega

theorem moved_zero (role : Nat → Role) {m : List Nat} (hb : AllBytes m) : moved role 0 m = m := by
  apply List.ext_getElem?
  intro i
  by_cases hi : i < m.length
  · unfold moved
    rw [List.getElem?_map, List.getElem?_range hi]
    have e : m[i]? = some (byteAt m i) := by unfold byteAt; rw [List.getElem?_eq_getElem hi]; rfl
    rw [e, Option.map_some]
    congr 1
    have b1 := byteAt_lt hb i
    unfold movedByte
    split
    · rfl
    · rename_i h _
      have b2 := byteAt_lt hb h
      rw [move_zero (by omega)]; omega
    · rename_i h _
      have b2 := byteAt_lt hb h
      rw [move_zero (by omega)]; omega
  · rw [List.getElem?_eq_none (by rw [moved_length]; omega), List.getElem?_eq_none (by omega)]

/-- C32: without a new address the file is reproduced byte for byte. -/
theorem C32_same (fuel : Nat) (hf : 65543 ≤ fuel) (target ext : List Nat) (info : Info) (m : List Nat) (tag : Bool) (out : List Nat) (stop : Nat) (role : Nat → Role)
    (hb : AllBytes m) (hl : Layout info.type m role) (hn : Named target ext) (he : extOf info info.type = some ext)
    (hfit : m.length ≤ stop) (hstop : stop ≤ out.length) (hmusic : info.music < 0 ∨ info.music = (word m 2 : Nat)) :
    ∃ w', write fuel target info m tag (setOutput out 0 stop) = (.ok m.length, w') ∧ w'.output.take m.length = m := by
  have hd : distance info m = 0 := by unfold distance; split <;> omega
  have b4 := byteAt_lt hb 4
  have b5 := byteAt_lt hb (4 + 1)
  have := C32_moved fuel hf target ext info m tag out stop role hb hl hn he hfit hstop (by rw [hd]; unfold word; omega)
  rwa [hd, moved_zero _ hb] at this

/-! ## Back -/

/-- The two bytes of an address know each other. -/
def Consistent (role : Nat → Role) : Prop := (∀ l h, role l = .low h → role h = .high l) ∧ ∀ l h, role h = .high l → role l = .low h

theorem pair_consistent (l h : Nat) : pair l = .low h ↔ pair h = .high l := by
  unfold pair
  split_ifs <;> simp <;> omega

theorem cmc_consistent : Consistent cmc := by
  constructor <;> intro l h <;> unfold cmc pair <;> split_ifs <;> simp <;> omega
theorem dlt_consistent : Consistent dlt := by
  constructor <;> intro l h <;> unfold dlt pair <;> split_ifs <;> simp <;> omega
theorem mpt_consistent : Consistent mpt := by
  constructor <;> intro l h <;> unfold mpt pair <;> split_ifs <;> simp <;> omega
theorem tmc_consistent : Consistent tmc := by
  constructor <;> intro l h <;> unfold tmc pair <;> split_ifs <;> simp <;> omega
theorem tm2_consistent : Consistent tm2 := by
  constructor <;> intro l h <;> unfold tm2 pair <;> split_ifs <;> simp <;> omega

/-- `rmt` before the song. -/
def rmtBefore (l : RmtLayout) (i : Nat) : Role :=
  if i < 2 then .plain else if i < 6 then pair i else if i < 14 then .plain else if i < l.patterns then pair i
  else if i < l.patterns + l.count then .low (i + l.count) else if i < l.patterns + 2 * l.count then .high (i - l.count) else .plain

theorem rmt_before (m : List Nat) {l : RmtLayout} {i : Nat} (hi : i < l.song) : rmt m l i = rmtBefore l i := by
  unfold rmt rmtBefore
  simp only [if_pos hi]

theorem rmt_behind {m : List Nat} {l : RmtLayout} (hr : IsRmt m l) {i : Nat} (hi : l.stop ≤ i) :
    rmt m l i = if i < l.stop + 4 ∧ l.stop + 5 ≤ m.length then if (i - l.stop) % 2 = 0 then .low (i + 1) else .high (i - 1) else .plain := by
  have a1 := hr.after
  have a2 := hr.disjoint
  have a3 := hr.inside
  unfold rmt
  rw [if_neg (by omega), if_neg (by omega), if_neg (by omega), if_neg (by omega), if_neg (by omega), if_neg (by omega), if_neg (by omega), if_neg (by omega)]

theorem rmtBefore_low {l : RmtLayout} (h1 : 22 ≤ l.patterns) (h2 : l.patterns + 2 * l.count ≤ l.song) (h3 : l.patterns % 2 = 0) {i j : Nat} (h : rmtBefore l i = .low j) : j < l.song ∧ rmtBefore l j = .high i := by
  unfold rmtBefore pair at h
  split_ifs at h <;> simp only [Role.low.injEq, reduceCtorEq] at h <;> subst h <;> refine ⟨by omega, ?_⟩ <;> unfold rmtBefore pair
  · rw [if_neg (by omega), if_pos (by omega), if_neg (by omega)]; exact congrArg Role.high (by omega)
  · rw [if_neg (by omega), if_neg (by omega), if_neg (by omega), if_pos (by omega), if_neg (by omega)]; exact congrArg Role.high (by omega)
  · rw [if_neg (by omega), if_neg (by omega), if_neg (by omega), if_neg (by omega), if_neg (by omega), if_pos (by omega)]; exact congrArg Role.high (by omega)

theorem rmtBefore_high {l : RmtLayout} (h1 : 22 ≤ l.patterns) (h2 : l.patterns + 2 * l.count ≤ l.song) (h3 : l.patterns % 2 = 0) {i j : Nat} (h : rmtBefore l j = .high i) : i < l.song ∧ rmtBefore l i = .low j := by
  unfold rmtBefore pair at h
  split_ifs at h <;> simp only [Role.high.injEq, reduceCtorEq] at h <;> subst h <;> refine ⟨by omega, ?_⟩ <;> unfold rmtBefore pair
  · rw [if_neg (by omega), if_pos (by omega), if_pos (by omega)]; exact congrArg Role.low (by omega)
  · rw [if_neg (by omega), if_neg (by omega), if_neg (by omega), if_pos (by omega), if_pos (by omega)]; exact congrArg Role.low (by omega)
  · rw [if_neg (by omega), if_neg (by omega), if_neg (by omega), if_neg (by omega), if_pos (by omega)]; exact congrArg Role.low (by omega)

theorem rmt_consistent {m : List Nat} {l : RmtLayout} (hr : IsRmt m l) : Consistent (rmt m l) := by
  have a1 := hr.after
  have a2 := hr.disjoint
  have a3 := hr.inside
  have a4 := hr.wide
  have a5 := hr.even
  have line : ∀ i, l.song ≤ i → i < l.stop → ∃ k, l.song ≤ k ∧ (k - l.song) % l.channels = 0 ∧ k ≤ i ∧ i < k + l.channels := by
    intro i h1 h2
    have hm := Nat.mod_lt (i - l.song) (show 0 < l.channels by omega)
    refine ⟨i - (i - l.song) % l.channels, ?_, ?_, by omega, by omega⟩
    · have := Nat.mod_le (i - l.song) l.channels
      omega
    · have := Nat.mod_le (i - l.song) l.channels
      rw [show i - (i - l.song) % l.channels - l.song = (i - l.song) - (i - l.song) % l.channels by omega]
      exact Nat.mod_eq_zero_of_dvd (Nat.dvd_sub_mod _)
  constructor
  · intro i j h
    by_cases h1 : i < l.song
    · rw [rmt_before m h1] at h
      obtain ⟨hj, e⟩ := rmtBefore_low a1 a2 a5 h
      rw [rmt_before m hj, e]
    · by_cases h2 : i < l.stop
      · obtain ⟨k, k1, k2, k3, k4⟩ := line i (by omega) h2
        rw [rmt_line hr k1 k2 k3 k4 h2] at h
        split_ifs at h with c1 c2
        · simp only [Role.low.injEq] at h
          subst h
          rw [rmt_line hr k1 k2 (by omega) (by omega) (by omega), if_pos c1, if_neg (by omega), if_pos (by omega)]
          exact congrArg Role.high (by omega)
      · rw [rmt_behind hr (by omega)] at h
        split_ifs at h with c1 c2
        · simp only [Role.low.injEq] at h
          subst h
          rw [rmt_behind hr (by omega), if_pos (by omega), if_neg (by omega)]
          exact congrArg Role.high (by omega)
  · intro i j h
    by_cases h1 : j < l.song
    · rw [rmt_before m h1] at h
      obtain ⟨hj, e⟩ := rmtBefore_high a1 a2 a5 h
      rw [rmt_before m hj, e]
    · by_cases h2 : j < l.stop
      · obtain ⟨k, k1, k2, k3, k4⟩ := line j (by omega) h2
        rw [rmt_line hr k1 k2 k3 k4 h2] at h
        split_ifs at h with c1 c2 c3
        · simp only [Role.high.injEq] at h
          subst h
          rw [rmt_line hr k1 k2 (by omega) (by omega) (by omega), if_pos c1, if_pos (by omega)]
          exact congrArg Role.low (by omega)
      · rw [rmt_behind hr (by omega)] at h
        split_ifs at h with c1 c2
        · simp only [Role.high.injEq] at h
          subst h
          rw [rmt_behind hr (by omega), if_pos (by omega), if_pos (by omega)]
          exact congrArg Role.low (by omega)

theorem Layout.consistent {type : ModType} {m : List Nat} {role : Nat → Role} (h : Layout type m role) : Consistent role := by
  cases type <;> simp only [Layout] at h
  case rmt => obtain ⟨l, hr, rfl, _⟩ := h; exact rmt_consistent hr
  case dlt => rw [h.1]; exact dlt_consistent
  case mpt => rw [h.1]; exact mpt_consistent
  case tmc => rw [h.1]; exact tmc_consistent
  case tm2 => rw [h.1]; exact tm2_consistent
  all_goals rw [h.1]; exact cmc_consistent

theorem Layout.inside {type : ModType} {m : List Nat} {role : Nat → Role} (hl : Layout type m role) {i : Nat} (h : role i ≠ .plain) : i < m.length := by
  cases type <;> simp only [Layout] at hl
  case rmt =>
    obtain ⟨l, hr, rfl, _⟩ := hl
    have a1 := hr.after
    have a2 := hr.disjoint
    have a3 := hr.inside
    have a4 := hr.whole
    by_contra hc
    apply h
    rw [rmt_behind hr (by omega), if_neg (by omega)]
  case dlt => obtain ⟨rfl, h1⟩ := hl; by_contra hc; apply h; unfold dlt; rw [if_neg (by omega)]
  case mpt => obtain ⟨rfl, h1⟩ := hl; by_contra hc; apply h; unfold mpt; rw [if_neg (by omega), if_neg (by omega), if_neg (by omega)]
  case tmc => obtain ⟨rfl, h1⟩ := hl; by_contra hc; apply h; unfold tmc; rw [if_neg (by omega), if_neg (by omega), if_neg (by omega), if_neg (by omega), if_neg (by omega)]
  case tm2 => obtain ⟨rfl, h1⟩ := hl; by_contra hc; apply h; unfold tm2; rw [if_neg (by omega), if_neg (by omega), if_neg (by omega), if_neg (by omega), if_neg (by omega)]
  all_goals obtain ⟨rfl, h1⟩ := hl; by_contra hc; apply h; unfold cmc; rw [if_neg (by omega), if_neg (by omega), if_neg (by omega)]

theorem Layout.header {type : ModType} {m : List Nat} {role : Nat → Role} (hl : Layout type m role) : role 2 = .low 3 ∧ role 3 = .high 2 ∧ role 4 = .low 5 ∧ role 5 = .high 4 := by
  cases type <;> simp only [Layout] at hl
  case rmt => obtain ⟨l, hr, rfl, _⟩ := hl; exact ⟨rfl, rfl, rfl, rfl⟩
  all_goals obtain ⟨rfl, h1⟩ := hl; exact ⟨rfl, rfl, rfl, rfl⟩

theorem byteAt_moved {role : Nat → Role} {diff : Int} {m : List Nat} {i : Nat} (hi : i < m.length) : byteAt (moved role diff m) i = movedByte (role i) diff m i := by
  unfold byteAt moved
  rw [List.getElem?_map, List.getElem?_range hi]
  rfl

theorem word_moved {role : Nat → Role} {diff : Int} {m : List Nat} {i j : Nat} (hi : i < m.length) (hj : j < m.length) (h1 : role i = .low j) (h2 : role j = .high i) :
    byteAt (moved role diff m) i + 256 * byteAt (moved role diff m) j = move diff (byteAt m i + 256 * byteAt m j) := by
  rw [byteAt_moved hi, byteAt_moved hj]
  unfold movedByte
  simp only [h1, h2]
  omega

theorem move_lt (diff : Int) {a : Nat} (h : a < 65536) : move diff a < 65536 := by unfold move; split <;> omega

/-- No address becomes 0 or 0xFFFF, which would stand for nothing. -/
def Lands (role : Nat → Role) (diff : Int) (m : List Nat) : Prop :=
  ∀ i j, role i = .low j → move diff (byteAt m i + 256 * byteAt m j) = 0 ∨ move diff (byteAt m i + 256 * byteAt m j) = 0xffff →
    byteAt m i + 256 * byteAt m j = 0 ∨ byteAt m i + 256 * byteAt m j = 0xffff

theorem move_back {diff : Int} {a : Nat} (ha : a < 65536) (h : move diff a = 0 ∨ move diff a = 0xffff → a = 0 ∨ a = 0xffff) : move (-diff) (move diff a) = a := by
  by_cases h0 : a = 0 ∨ a = 0xffff
  · have e : move diff a = a := by unfold move; rw [if_pos h0]
    rw [e]; unfold move; rw [if_pos h0]
  · have hn : ¬ (move diff a = 0 ∨ move diff a = 0xffff) := fun hc => h0 (h hc)
    show (if move diff a = 0 ∨ move diff a = 0xffff then _ else _) = a
    rw [if_neg hn]
    unfold move
    rw [if_neg h0]
    omega

theorem moved_back {type : ModType} {m : List Nat} {role : Nat → Role} {diff : Int} (hl : Layout type m role) (hb : AllBytes m) (hland : Lands role diff m) :
    moved role (-diff) (moved role diff m) = m := by
  obtain ⟨c1, c2⟩ := Layout.consistent hl
  apply List.ext_getElem?
  intro i
  by_cases hi : i < m.length
  · have e : m[i]? = some (byteAt m i) := by unfold byteAt; rw [List.getElem?_eq_getElem hi]; rfl
    have hi' : i < (moved role diff m).length := by rw [moved_length]; exact hi
    have e2 : (moved role (-diff) (moved role diff m))[i]? = some (byteAt (moved role (-diff) (moved role diff m)) i) := by
      unfold byteAt; rw [List.getElem?_eq_getElem (by rw [moved_length]; exact hi')]; rfl
    rw [e, e2, byteAt_moved hi']
    congr 1
    have b1 := byteAt_lt hb i
    unfold movedByte
    split
    · rename_i hr
      rw [byteAt_moved hi, movedByte_plain hr]
    · rename_i j hr
      have b2 := byteAt_lt hb j
      have hj : j < m.length := Layout.inside hl (by rw [c1 _ _ hr]; simp)
      rw [word_moved hi hj hr (c1 _ _ hr), move_back (by omega) (hland _ _ hr)]
      omega
    · rename_i j hr
      have b2 := byteAt_lt hb j
      have hj : j < m.length := Layout.inside hl (by rw [c2 _ _ hr]; simp)
      rw [word_moved hj hi (c2 _ _ hr) hr, move_back (by omega) (hland _ _ (c2 _ _ hr))]
      omega
  · rw [List.getElem?_eq_none (by rw [moved_length, moved_length]; omega), List.getElem?_eq_none (by omega)]

theorem moved_bytes {type : ModType} {m : List Nat} {role : Nat → Role} {diff : Int} (_hl : Layout type m role) (hb : AllBytes m) : AllBytes (moved role diff m) := by
  intro b hbm
  obtain ⟨i, hi, rfl⟩ := List.mem_map.mp hbm
  have b1 := byteAt_lt hb i
  unfold movedByte
  split
  · exact b1
  · omega
  · rename_i j _
    have b2 := byteAt_lt hb j
    have := move_lt diff (a := byteAt m j + 256 * byteAt m i) (by omega)
    omega

/-- The moved module has its addresses at the same places. -/
theorem Layout.moved {type : ModType} {m : List Nat} {role : Nat → Role} {diff : Int} (hl : Layout type m role) (hb : AllBytes m) (hland : Lands role diff m)
    (h2 : (word m 2 : Nat) + diff = (move diff (word m 2) : Nat)) (h4 : (word m 4 : Nat) + diff = (move diff (word m 4) : Nat)) : Layout type (Relocate.moved role diff m) role := by
  cases type <;> simp only [Layout, moved_length] at hl ⊢
  case rmt =>
    obtain ⟨l, hr, rfl, hff, hff'⟩ := hl
    have hl : Layout .rmt m (rmt m l) := ⟨l, hr, rfl, hff, hff'⟩
    have a1 := hr.after
    have a2 := hr.disjoint
    have a3 := hr.inside
    have a4 := hr.whole
    have a5 := hr.even
    have a6 := hr.wide
    have plain : ∀ i, i < m.length → rmt m l i = .plain → byteAt (Relocate.moved (rmt m l) diff m) i = byteAt m i := by
      intro i hi h
      rw [byteAt_moved hi, movedByte_plain h]
    have wd : ∀ i, i + 1 < m.length → rmt m l i = .low (i + 1) → word (Relocate.moved (rmt m l) diff m) i = move diff (word m i) := by
      intro i hi h
      exact word_moved (by omega) hi h ((Layout.consistent hl).1 _ _ h)
    have w2 := wd 2 (by omega) rfl
    have w4 := wd 4 (by omega) rfl
    have r10 : rmt m l 0x10 = .low 0x11 := by unfold rmt; rw [if_neg (by omega), if_neg (by omega), if_neg (by omega), if_pos (by omega)]; rfl
    have r12 : rmt m l 0x12 = .low 0x13 := by unfold rmt; rw [if_neg (by omega), if_neg (by omega), if_neg (by omega), if_pos (by omega)]; rfl
    have r14 : rmt m l 0x14 = .low 0x15 := by unfold rmt; rw [if_neg (by omega), if_neg (by omega), if_neg (by omega), if_pos (by omega)]; rfl
    have lt : ∀ i, word m i < 65536 := fun i => by
      have := byteAt_lt hb i
      have := byteAt_lt hb (i + 1)
      unfold word; omega
    have key : ∀ i, word m 2 ≤ word m i → word m i ≤ word m 4 → rmt m l i = .low (i + 1) → (move diff (word m i) : Int) = (word m i : Nat) + diff := by
      intro i g1 g2 hri
      have l4 := move_lt diff (lt 4)
      have li := lt i
      by_cases h0 : word m i = 0 ∨ word m i = 0xffff
      · have hd : diff = 0 := by
          rcases h0 with h0 | h0
          · rw [show word m 2 = 0 by omega] at h2
            have : move diff 0 = 0 := rfl
            omega
          · rw [show word m 4 = 0xffff by have := lt 4; omega] at h4
            have : move diff 0xffff = 0xffff := rfl
            omega
        rw [hd, move_zero li]
        omega
      · unfold move
        rw [if_neg h0]
        omega
    refine ⟨l, ⟨?_, ?_, ?_, ?_, ?_, a5, a1, a2, a3, by rw [moved_length]; exact a4, a6⟩, ?_, ?_, ?_⟩
    · rw [wd 0x10 (by omega) r10, w2]
      have := hr.patterns
      have := hr.stop
      have := key 0x10 (by omega) (by omega) r10
      omega
    · rw [wd 0x12 (by omega) r12, wd 0x10 (by omega) r10]
      have := hr.patterns
      have := hr.count
      have := hr.stop
      have := key 0x10 (by omega) (by omega) r10
      have := key 0x12 (by omega) (by omega) r12
      omega
    · rw [wd 0x14 (by omega) r14, w2]
      have := hr.song
      have := hr.stop
      have := key 0x14 (by omega) (by omega) r14
      omega
    · rw [w4, w2]
      have := hr.stop
      omega
    · rw [plain 9 (by omega) rfl]; exact hr.channels
    · funext i
      by_cases hi : l.song ≤ i ∧ i < l.stop
      · have hm := Nat.mod_le (i - l.song) l.channels
        have hlt := Nat.mod_lt (i - l.song) (show 0 < l.channels by omega)
        have hz : (i - (i - l.song) % l.channels - l.song) % l.channels = 0 := by
          rw [show i - (i - l.song) % l.channels - l.song = (i - l.song) - (i - l.song) % l.channels by omega]
          exact Nat.mod_eq_zero_of_dvd (Nat.dvd_sub_mod _)
        have e := rmt_line hr (k := i - (i - l.song) % l.channels) (i := i - (i - l.song) % l.channels) (by omega) hz (Nat.le_refl _) (by omega) (by omega)
        have hp : rmt m l (i - (i - l.song) % l.channels) = .plain := by
          rw [e]; split
          · rw [if_neg (by omega), if_neg (by omega)]
          · rfl
        have hp := plain _ (by omega) hp
        generalize Relocate.moved (rmt m l) diff m = m' at hp
        unfold rmt
        simp only [if_pos hi.2, hp]
      · by_cases hi' : i < l.song
        · rw [rmt_before _ hi', rmt_before _ hi']
        · have hi' : l.stop ≤ i := by omega
          unfold rmt
          simp only [if_neg (show ¬ i < l.stop by omega), moved_length]
    · rw [plain 0 (by omega) rfl]; exact hff
    · rw [plain 1 (by omega) rfl]; exact hff'
  all_goals exact hl

/-- C32: moving a module back restores it, provided that no address becomes 0 or 0xFFFF, which stand for nothing. -/
theorem C32_back (fuel : Nat) (hf : 65543 ≤ fuel) (target ext : List Nat) (info : Info) (m : List Nat) (tag : Bool) (out : List Nat) (stop : Nat) (role : Nat → Role)
    (hb : AllBytes m) (hl : Layout info.type m role) (hn : Named target ext) (he : extOf info info.type = some ext)
    (hfit : m.length ≤ stop) (hstop : stop ≤ out.length) (hhigh : (word m 4 : Nat) + distance info m ≤ 0xffff)
    (hmusic : 0 ≤ info.music) (hord : word m 2 ≤ word m 4) (hs : word m 2 ≠ 0) (hend : word m 4 ≠ 0xffff) (hland : Lands role (distance info m) m) :
    ∃ w' w'', write fuel target info m tag (setOutput out 0 stop) = (.ok m.length, w') ∧
      write fuel target { info with music := (word m 2 : Nat) } (w'.output.take m.length) tag (setOutput out 0 stop) = (.ok m.length, w'') ∧
      w''.output.take m.length = m := by
  have b2 := byteAt_lt hb 2
  have b3 := byteAt_lt hb (2 + 1)
  have b4 := byteAt_lt hb 4
  have b5 := byteAt_lt hb (4 + 1)
  have l2 : word m 2 < 65536 := by unfold word; omega
  have l4 : word m 4 < 65536 := by unfold word; omega
  obtain ⟨w', h1, h2⟩ := C32_moved fuel hf target ext info m tag out stop role hb hl hn he hfit hstop hhigh
  refine ⟨w', ?_⟩
  rw [h2]
  have hd : distance info m = info.music - (word m 2 : Nat) := by unfold distance; rw [if_neg (by omega)]
  obtain ⟨hh2, hh3, hh4, hh5⟩ := Layout.header hl
  have hlong := Layout.long hl
  have la2 := hland 2 3 hh2
  have la4 := hland 4 5 hh4
  change move (distance info m) (word m 2) = 0 ∨ move (distance info m) (word m 2) = 0xffff → word m 2 = 0 ∨ word m 2 = 0xffff at la2
  change move (distance info m) (word m 4) = 0 ∨ move (distance info m) (word m 4) = 0xffff → word m 4 = 0 ∨ word m 4 = 0xffff at la4
  have w2 : word (Relocate.moved role (distance info m) m) 2 = move (distance info m) (word m 2) := word_moved (by omega) (by omega) hh2 hh3
  have w4 : word (Relocate.moved role (distance info m) m) 4 = move (distance info m) (word m 4) := word_moved (by omega) (by omega) hh4 hh5
  by_cases h0 : distance info m = 0
  · rw [h0, moved_zero _ hb] at *
    obtain ⟨w'', h3, h4⟩ := C32_same fuel hf target ext { info with music := (word m 2 : Nat) } m tag out stop role hb hl hn he hfit hstop (Or.inr rfl)
    exact ⟨w'', h1, h3, h4⟩
  have e2 : (word m 2 : Nat) + distance info m = (move (distance info m) (word m 2) : Nat) := by
    have := la2
    unfold move at this ⊢
    split_ifs at this ⊢ <;> omega
  have e4 : (word m 4 : Nat) + distance info m = (move (distance info m) (word m 4) : Nat) := by
    have := la4
    unfold move at this ⊢
    split_ifs at this ⊢ <;> omega
  have hl' := Layout.moved hl hb hland e2 e4
  have hd' : distance { info with music := (word m 2 : Nat) } (Relocate.moved role (distance info m) m) = -(distance info m) := by
    unfold distance
    simp only
    rw [if_neg (by omega)]
    show (word m 2 : Int) - (word (Relocate.moved role (distance info m) m) 2 : Nat) = - distance info m
    rw [w2]
    omega
  obtain ⟨w'', h3, h4⟩ := C32_moved fuel hf target ext { info with music := (word m 2 : Nat) } (Relocate.moved role (distance info m) m) tag out stop role
    (moved_bytes hl hb) hl' hn he (by rw [moved_length]; exact hfit) hstop (by rw [hd', w4]; omega)
  rw [moved_length] at h3 h4
  rw [hd', moved_back hl hb hland] at h4
  exact ⟨w'', h1, h3, h4⟩

/-- C32 is false of the code if the last byte of the module gets to 0xFFFF: then the address of the last byte stands for nothing, and is not moved back. -/
theorem C32_end_not_restored (type : ModType) (m : List Nat) (role : Nat → Role) (diff : Int) (hl : Layout type m role) (hb : AllBytes m) (h0 : word m 4 ≠ 0)
    (hd : diff ≠ 0) (hend : (word m 4 : Nat) + diff = 0xffff) : moved role (-diff) (moved role diff m) ≠ m := by
  intro hc
  obtain ⟨_, _, h4, h5⟩ := Layout.header hl
  have hlong := Layout.long hl
  have w1 : word (Relocate.moved role diff m) 4 = move diff (word m 4) := word_moved (by omega) (by omega) h4 h5
  have w2 : word (Relocate.moved role (-diff) (Relocate.moved role diff m)) 4 = move (-diff) (word (Relocate.moved role diff m) 4) :=
    word_moved (by rw [moved_length]; omega) (by rw [moved_length]; omega) h4 h5
  rw [hc, w1] at w2
  have b4 := byteAt_lt hb 4
  have b5 := byteAt_lt hb (4 + 1)
  have l4 : word m 4 < 65536 := by unfold word; omega
  have e : move diff (word m 4) = 0xffff := by unfold move; rw [if_neg (by omega)]; omega
  rw [e] at w2
  have : move (-diff) 0xffff = 0xffff := rfl
  omega

/-- C32: an address too high for the module is refused, and nothing is written. -/
theorem C32_too_high (fuel : Nat) (target ext : List Nat) (info : Info) (m : List Nat) (tag : Bool) (w : Writer) (role : Nat → Role)
    (hb : AllBytes m) (hl : Layout info.type m role) (hn : Named target ext) (he : extOf info info.type = some ext) (hhigh : 0xffff < (word m 4 : Nat) + distance info m) :
    write fuel target info m tag w = (.error (.thrown "Address set too high"), w) := by
  rw [write_layout hl hn he]
  have hs := Source.whole hb
  have hlong := Layout.long hl
  show W.bind (W.bind (W.lift (getWordI m (0 + 2))) _) _ w = _
  rw [hs.word (i := 2) (j := 0 + 2) (by omega) rfl]
  show W.bind (W.bind (W.lift (getWordI m (0 + 4))) fun last => if (last : Int) + distance info m > 0xffff then _ else _) _ w = _
  rw [hs.word (i := 4) (j := 0 + 4) (by omega) rfl]
  show W.bind (if (word m 4 : Int) + distance info m > 0xffff then _ else _) _ w = _
  rw [if_pos (by omega)]
  rfl

theorem copy_ends {src : List Nat} {so e : Int} {w w' : Writer} (h : Native.copy src so e w = (.ok (), w')) : (w'.offset : Int) = e := by
  have h : writeBytes src (so + w.offset) (so + e) w = (.ok (), w') := h
  unfold writeBytes at h
  simp only at h
  split at h
  · simp at h
  · split at h
    · simp only [Prod.mk.injEq, true_and] at h
      rw [← h]
      simp only
      omega
    · simp at h

/-- C32 is false of the code in windows that begin later: whatever is written ends at the index which is the length of the module, so less than the module is written.
The module is read from the index at which its bytes are written. -/
theorem C32_other_windows (fuel : Nat) (target ext : List Nat) (info : Info) (m : List Nat) (tag : Bool) (out : List Nat) (start stop : Nat) (role : Nat → Role)
    (hl : Layout info.type m role) (hn : Named target ext) (he : extOf info info.type = some ext) (n : Nat) (w' : Writer)
    (h : write fuel target info m tag (setOutput out start stop) = (.ok n, w')) : n = m.length := by
  rw [write_layout hl hn he] at h
  have hn := ends_outputOffset h
  have last : ∀ {α : Type} {r : W α} {w : Writer} {b : α} {w1 : Writer}, (r >>= fun _ => Native.copy m 0 m.length) w = (.ok (), w1) → w1.offset = m.length := by
    intro α r w b w1 h
    have h : W.bind r (fun _ => Native.copy m 0 m.length) w = (.ok (), w1) := h
    unfold W.bind at h
    rcases hr : r w with ⟨x, w2⟩
    rw [hr] at h
    cases x with
    | error e => simp at h
    | ok a =>
      have := copy_ends h
      omega
  have h : W.bind (Native.write fuel m 0 info info.type m.length) (fun _ => outputOffset) (setOutput out start stop) = (.ok n, w') := h
  unfold W.bind at h
  rcases hr : Native.write fuel m 0 info info.type m.length (setOutput out start stop) with ⟨x, w2⟩
  rw [hr] at h
  cases x with
  | error e => simp at h
  | ok a =>
    simp only [outputOffset, Prod.mk.injEq] at h
    rw [hn, ← h.2]
    clear h hn
    have hr : W.bind (W.lift (getWordI m (0 + 2))) (fun startAddr => W.bind (W.lift (getWordI m (0 + 4))) fun last =>
        if (last : Int) + (if info.music < 0 then 0 else info.music - startAddr) > 0xffff then W.fail (.thrown "Address set too high")
        else (Native.writeTables fuel m 0 (if info.music < 0 then 0 else info.music - startAddr) startAddr m.length info.type >>= fun _ => Native.copy m 0 m.length)) (setOutput out start stop) = (.ok (), w2) := hr
    unfold W.bind W.lift at hr
    cases h2 : getWordI m (0 + 2) with
    | error e => rw [h2] at hr; simp at hr
    | ok s =>
      rw [h2] at hr
      simp only at hr
      cases h4 : getWordI m (0 + 4) with
      | error e => rw [h4] at hr; simp at hr
      | ok l =>
        rw [h4] at hr
        simp only at hr
        generalize (if info.music < 0 then 0 else info.music - (s : Int)) = d at hr
        split at hr
        · simp [W.fail] at hr
        · exact last (b := ()) hr

/-! ## Modules in SAP files -/

theorem take_put {out m : List Nat} {stop : Nat} : ((setOutput out 0 stop).put m).output.take m.length = m := by
  unfold Writer.put setOutput
  simp

theorem emitted {m : W Unit} {bs out : List Nat} {stop : Nat} (h : EmitsAt 0 m bs) (hfit : bs.length ≤ stop) (hstop : stop ≤ out.length) :
    ∃ w', (do m; outputOffset) (setOutput out 0 stop) = (.ok bs.length, w') ∧ w'.output.take bs.length = bs := by
  refine ⟨(setOutput out 0 stop).put bs, ?_, take_put⟩
  show W.bind m (fun _ => outputOffset) _ = _
  unfold W.bind
  rw [h.ok _ ⟨Nat.zero_le _, hstop⟩ rfl (by show 0 + bs.length ≤ stop; omega)]
  simp only [outputOffset, Writer.put]
  simp [setOutput]

theorem write_sapNative {fuel : Nat} {target ext src : List Nat} {info : Info} {tag : Bool} {t : ModType} (hsap : info.type = .sapB ∨ info.type = .sapC)
    (ht : originalType info src = .ok t) (hn : Named target ext) (he : extOf info t = some ext) :
    write fuel target info src tag = (do writeNativeSap fuel info src; outputOffset) := by
  obtain ⟨hm, n1, n2, n3⟩ := extOf_mem he
  rw [write_native (fun h => n1 (named_unique hn h)) (fun h => n2 (named_unique hn h))]
  have e : writeOther fuel (getPackedExt target) info src = writeNativeSap fuel info src := by
    have hx : originalExt info src = .ok (some ext) := by unfold originalExt; rw [ht]; simp only [bind, Except.bind]; rw [he]
    unfold writeOther
    rw [hx]
    show (if getPackedExt target = packExt ext ∨ _ then writeNative fuel info src else _) = _
    rw [if_pos (Or.inl ((packed_named target ext hm).mpr hn))]
    unfold writeNative
    rcases hsap with h | h <;> rw [h]
  rw [e]

/-- C32: a module that is the first block in a SAP file is extracted, with its addresses moved. -/
theorem C32_extracted (fuel : Nat) (hf : 65543 ≤ fuel) (target ext : List Nat) (info : Info) (src m rest : List Nat) (header : Nat) (tag : Bool) (out : List Nat) (stop : Nat) (t : ModType) (role : Nat → Role)
    (hsap : info.type = .sapB ∨ info.type = .sapC) (hrmt : ∃ o, rmtSapOffset info src = .ok o ∧ o ≤ 0) (ht : originalType info src = .ok t)
    (hb : AllBytes m) (hh : info.headerLen = header) (hsrc : src.drop header = m ++ rest) (hrest : rest ≠ []) (hlen : word m 4 + 7 = word m 2 + m.length)
    (hl : Layout t m role) (hn : Named target ext) (he : extOf info t = some ext)
    (hfit : m.length ≤ stop) (hstop : stop ≤ out.length) (hhigh : (word m 4 : Nat) + distance info m ≤ 0xffff) :
    ∃ w', write fuel target info src tag (setOutput out 0 stop) = (.ok m.length, w') ∧ w'.output.take m.length = moved role (distance info m) m := by
  rw [write_sapNative hsap ht hn he]
  have hlong := Layout.long hl
  have hpos := List.length_pos_iff.mpr hrest
  have hlen' : src.length = header + m.length + rest.length := by
    have := congrArg List.length hsrc
    simp only [List.length_drop, List.length_append] at this
    omega
  have hs : Source src header m := ⟨by rw [hsrc]; simp, by omega, hb⟩
  have em : EmitsAt 0 (writeNativeSap fuel info src) (moved role (distance info m) m) := by
    obtain ⟨o, ho, ho'⟩ := hrmt
    unfold writeNativeSap
    refine EmitsAt.lift ho ?_
    rw [if_neg (by omega), hh]
    refine EmitsAt.lift (hs.word (i := 4) (by omega) rfl) (EmitsAt.lift (hs.word (i := 2) (by omega) rfl) ?_)
    have e : ((word m 4 : Nat) : Int) - (word m 2 : Nat) + 7 = (m.length : Nat) := by omega
    simp only [e]
    rw [if_neg (by omega)]
    refine EmitsAt.lift ht ?_
    rw [if_neg (native_type hl).2.2.2.2]
    exact native_emits hf hl hs hhigh
  have := emitted em (by rw [moved_length]; exact hfit) hstop
  rwa [moved_length] at this

/-- C32: when the first block of a SAP file ends before it begins, or nothing follows it in the file, so that there is no player,
an error is reported and nothing is written. -/
theorem C32_not_extracted (fuel : Nat) (target ext : List Nat) (info : Info) (src : List Nat) (header : Nat) (tag : Bool) (w : Writer) (t : ModType)
    (hsap : info.type = .sapB ∨ info.type = .sapC) (hrmt : ∃ o, rmtSapOffset info src = .ok o ∧ o ≤ 0) (ht : originalType info src = .ok t)
    (hb : AllBytes src) (hh : info.headerLen = header) (hlong : header + 6 ≤ src.length) (hn : Named target ext) (he : extOf info t = some ext)
    (hbad : word (src.drop header) 4 < word (src.drop header) 2 ∨ src.length ≤ header + 6 + (word (src.drop header) 4 - word (src.drop header) 2 + 1)) :
    write fuel target info src tag w = (.error (.thrown "Cannot extract module from SAP"), w) := by
  rw [write_sapNative hsap ht hn he]
  have hs : Source src header (src.drop header) := ⟨List.take_of_length_le (Nat.le_refl _), by rw [List.length_drop]; omega, fun b h => hb b (List.mem_of_mem_drop h)⟩
  have hl : (src.drop header).length = src.length - header := List.length_drop
  obtain ⟨o, ho, ho'⟩ := hrmt
  have e : writeNativeSap fuel info src w = (.error (.thrown "Cannot extract module from SAP"), w) := by
    unfold writeNativeSap
    show W.bind (W.lift (rmtSapOffset info src)) _ w = _
    rw [ho]
    show (if o > 0 then _ else W.bind (W.lift (getWordI src (info.headerLen + 4))) _ : W Unit) w = _
    rw [if_neg (by omega), hh, hs.word (i := 4) (j := header + 4) (by omega) rfl]
    show W.bind (W.lift (getWordI src (header + 2))) _ w = _
    rw [hs.word (i := 2) (j := header + 2) (by omega) rfl]
    generalize word (src.drop header) 4 = last at hbad ⊢
    generalize word (src.drop header) 2 = first at hbad ⊢
    show (if (last : Int) - first + 7 < 7 ∨ (header : Int) + ((last : Int) - first + 7) ≥ src.length then _ else _ : W Unit) w = _
    rw [if_pos (by omega)]
    rfl
  show W.bind (writeNativeSap fuel info src) _ w = _
  unfold W.bind
  rw [e]

/-! ## Samples -/

/-- What `Lands` says of one byte. -/
def landsAt (role : Nat → Role) (diff : Int) (m : List Nat) (i : Nat) : Bool :=
  match role i with
  | .low j => decide (move diff (byteAt m i + 256 * byteAt m j) = 0 ∨ move diff (byteAt m i + 256 * byteAt m j) = 0xffff →
      byteAt m i + 256 * byteAt m j = 0 ∨ byteAt m i + 256 * byteAt m j = 0xffff)
  | _ => true

theorem lands_of_check {type : ModType} {m : List Nat} {role : Nat → Role} {diff : Int} (hl : Layout type m role)
    (h : (List.range m.length).all (landsAt role diff m) = true) : Lands role diff m := by
  intro i j hr
  have hi := Layout.inside hl (i := i) (by rw [hr]; simp)
  have := List.all_eq_true.mp h i (List.mem_range.mpr hi)
  unfold landsAt at this
  rw [hr] at this
  exact of_decide_eq_true this

/-- A module with a line and a jump back to it. -/
def jumpingRmt : List Nat :=
  [0xff, 0xff, 0, 0x40, 0x29, 0x40, 82, 77, 84, 52, 4, 6, 1, 1, 0x10, 0x40, 0x12, 0x40, 0x13, 0x40, 0x22, 0x40] ++
    [0x14, 0x40] ++ [0x20, 0x40] ++ ([11, 0, 14, 11] ++ List.replicate 8 0) ++ [0xd0, 3] ++ [0, 0xff, 0xff, 0xff] ++ [0xfe, 0, 0x22, 0x40]

/-- The hypotheses of `C32_moved` and `C32_back` are met by a Music ProTracker module moved from 0x4000 to 0x5008, in which the header, the pattern and the tracks
are at new addresses and nothing else changes; and by a Raster Music Tracker module with a jump. -/
theorem C32_sample :
    (∃ role, Layout .mpt (sampleMpt 0x41da [0x81, 0xd2, 0x10, 0x10]) role ∧ AllBytes (sampleMpt 0x41da [0x81, 0xd2, 0x10, 0x10]) ∧
      Lands role 0x1008 (sampleMpt 0x41da [0x81, 0xd2, 0x10, 0x10]) ∧
      distance { Info.blank [] with type := .mpt, music := 0x5008 } (sampleMpt 0x41da [0x81, 0xd2, 0x10, 0x10]) = 0x1008 ∧
      extOf { Info.blank [] with type := .mpt, music := 0x5008 } .mpt = some (ascii "mpt") ∧ Named (ascii "Tune.MPT") (ascii "mpt") ∧
      moved role 0x1008 (sampleMpt 0x41da [0x81, 0xd2, 0x10, 0x10]) =
        [0xff, 0xff, 8, 0x50, 0xe5, 0x51] ++ List.replicate 0x42 0 ++ [0xe2, 0x51] ++ List.replicate 0x17c 0 ++
          [0xd2, 0xd6, 0xda, 0xde, 0x51, 0x51, 0x51, 0x51, 4, 6] ++ [1, 0, 0xff, 0] ++ List.replicate 12 0 ++ [0x81, 0xd2, 0x10, 0x10]) ∧
    ∃ role, Layout .rmt jumpingRmt role ∧ AllBytes jumpingRmt ∧ Lands role (-0x3fd8) jumpingRmt ∧ moved role (-0x3fd8) jumpingRmt =
      [0xff, 0xff, 0x28, 0, 0x51, 0, 82, 77, 84, 52, 4, 6, 1, 1, 0x38, 0, 0x3a, 0, 0x3b, 0, 0x4a, 0] ++
        [0x3c, 0] ++ [0x48, 0] ++ ([11, 0, 14, 11] ++ List.replicate 8 0) ++ [0xd0, 3] ++ [0, 0xff, 0xff, 0xff] ++ [0xfe, 0, 0x4a, 0] := by
  have l1 : Layout .mpt (sampleMpt 0x41da [0x81, 0xd2, 0x10, 0x10]) Relocate.mpt := ⟨rfl, by decide +kernel⟩
  have l2 : Layout .rmt jumpingRmt (Relocate.rmt jumpingRmt ⟨24, 1, 40, 48, 4⟩) :=
    ⟨_, ⟨by decide, by decide, by decide, by decide, by decide, by decide, by decide, by decide, by decide, by decide, by decide⟩, rfl, by decide, by decide⟩
  refine ⟨⟨_, l1, by unfold AllBytes; decide +kernel, lands_of_check l1 (by decide +kernel), by decide +kernel, by decide +kernel,
    ⟨ascii "MPT", ⟨ascii "Tune", by decide, by decide, by decide⟩, by decide⟩, by decide +kernel⟩,
    ⟨_, l2, by unfold AllBytes; decide +kernel, lands_of_check l2 (by decide +kernel), by decide +kernel⟩⟩

/-- A SAP file of type B with the init address of DLT: seven bytes are the first block, the rest is the player. -/
def sapDlt : List Nat := [83, 65, 80, 13, 10] ++ [0xff, 0xff, 0, 0x20, 0, 0x20, 7] ++ [0, 4, 0, 4, 96]

/-- The hypotheses of `C32_extracted` are met. -/
theorem C32_extracted_sample :
    rmtSapOffset { Info.blank [] with type := .sapB, init := 0x3fb, player := 0x503, headerLen := 5 } sapDlt = .ok (-1) ∧
    originalType { Info.blank [] with type := .sapB, init := 0x3fb, player := 0x503, headerLen := 5 } sapDlt = .ok .dlt ∧
    sapDlt.drop 5 = [0xff, 0xff, 0, 0x20, 0, 0x20, 7] ++ [0, 4, 0, 4, 96] ∧ Layout .dlt [0xff, 0xff, 0, 0x20, 0, 0x20, 7] Relocate.dlt ∧
    word [0xff, 0xff, 0, 0x20, 0, 0x20, 7] 4 + 7 = word [0xff, 0xff, 0, 0x20, 0, 0x20, 7] 2 + 7 := by
  refine ⟨by decide +kernel, by decide +kernel, by decide +kernel, ⟨rfl, by decide⟩, by decide⟩

/-- The hypotheses of `C32_not_extracted` are met: the same file, whose first block now takes all that is left. -/
theorem C32_not_extracted_sample : ∃ last, let src := sapDlt.set 9 last
    rmtSapOffset { Info.blank [] with type := .sapB, init := 0x3fb, player := 0x503, headerLen := 5 } src = .ok (-1) ∧
    originalType { Info.blank [] with type := .sapB, init := 0x3fb, player := 0x503, headerLen := 5 } src = .ok .dlt ∧ AllBytes src ∧
    extOf { Info.blank [] with type := .sapB, init := 0x3fb, player := 0x503, headerLen := 5 } .dlt = some (ascii "dlt") ∧ Named (ascii "a.dlt") (ascii "dlt") ∧
    src.length = 5 + 6 + (word (src.drop 5) 4 - word (src.drop 5) 2 + 1) :=
  ⟨5, by decide +kernel, by decide +kernel, by unfold AllBytes; decide +kernel, by decide +kernel, ⟨ascii "dlt", ⟨ascii "a", by decide, by decide, by decide⟩, by decide⟩, by decide +kernel⟩

end Asap.Props
