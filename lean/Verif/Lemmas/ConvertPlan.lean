import Verif.Lemmas.ConvertWrite

/-! # The memory after loading the SAP files -/

namespace Asap.Convert
open Asap Asap.Spec Asap.Spec.Convert Asap.Props
open Asap.Spec.Relocate (byteAt)

/-- The module in the memory. -/
def ModuleBytes (info : Info) (m : List Nat) (mem : Int → Int) : Prop :=
  ∀ p, InModule info m p → mem p = (m.getD ((if info.type = .fc then 0 else 6) + (p - info.music).toNat) 0 : Nat)

/-- The routine in the memory. -/
def RoutineBytes (info : Info) (r : List Nat) (mem : Int → Int) : Prop :=
  ∀ p, InRoutine info p → mem p = (r.getD (6 + (p - (routineArea info).1).toNat) 0 : Nat)

/-- The code in the file. -/
def Plays (info : Info) (rate : Nat) (calls : Nat → List Spec.Convert.Call) (code : Int → Prop) (init frame : Int) (mem : Int → Int) : Prop :=
  StartsAndPlays info (if info.player < 0 then (routineArea info).1 else info.player) rate calls code init frame mem

/-- What is written, and why it plays. -/
structure Plan (info : Info) (m r : List Nat) (letter : Nat) (init player : Int) (b : Block) (bs : List Block) : Prop where
  sends : Sends (writeExecutable false info m) (init, player) (Sap.headerBytes info letter init player ++ encodeBlocks (b :: bs))
  marked : b.marked = true
  formed : ∀ x ∈ b :: bs, x.WellFormed
  described : Expressible info letter init player
  module : ModuleBytes info m (image (b :: bs))
  routine : RoutineBytes info r (image (b :: bs))

theorem described_b {info : Info} (h : Expressible info 66 0 0) {init player : Int} (h1 : 0 ≤ init ∧ init ≤ 0xffff) (h2 : 0 ≤ player ∧ player ≤ 0xffff) :
    Expressible info 66 init player :=
  ⟨h.author, h.title, h.date, h.songs, h.defaultSong, h.channels, h.fastplay, ⟨by omega, h1.2⟩, ⟨by omega, h2.2⟩, h.covox, Or.inl ⟨rfl, h2.1, h1.1⟩, h.times⟩

theorem described_c {info : Info} (h : Expressible info 66 0 0) {player : Int} (h2 : 0 ≤ player ∧ player ≤ 0xffff) (h3 : 0 ≤ info.music ∧ info.music ≤ 0xffff) :
    Expressible info 67 (-1) player :=
  ⟨h.author, h.title, h.date, h.songs, h.defaultSong, h.channels, h.fastplay, by omega, ⟨by omega, h2.2⟩, h.covox, Or.inr (Or.inl ⟨rfl, h2.1, h3.1, h3.2⟩), h.times⟩

theorem put_in {b : Block} {mem : Int → Int} {p : Int} (h : (b.start : Int) ≤ p ∧ p < b.start + b.bytes.length) : b.put mem p = (b.bytes.getD (p - b.start).toNat 0 : Nat) := if_pos h
theorem put_out {b : Block} {mem : Int → Int} {p : Int} (h : p < b.start ∨ (b.start : Int) + b.bytes.length ≤ p) : b.put mem p = mem p := if_neg (by omega)

theorem holds_put {b : Block} {mem : Int → Int} {i : Nat} {l : List Nat} (h : (b.bytes.drop i).take l.length = l) :
    Holds (b.put mem) (b.start + i) (l.map (Nat.cast (R := Int))) := by
  intro j hj
  rw [List.length_map] at hj
  have hl : i + j < b.bytes.length := by
    have : ((b.bytes.drop i).take l.length).length = l.length := by rw [h]
    simp at this
    omega
  rw [put_in (by omega), show ((b.start : Int) + i + j - b.start).toNat = i + j by omega]
  rw [List.getD_eq_getElem?_getD, List.getD_eq_getElem?_getD, List.getElem?_map, List.getElem?_eq_getElem hj, List.getElem?_eq_getElem hl]
  show ((b.bytes[i + j] : Nat) : Int) = (l[j] : Nat)
  congr 1
  have : l[j]? = b.bytes[i + j]? := by
    rw [← List.getElem?_drop]
    conv => lhs; rw [← h]
    exact List.getElem?_take_of_lt hj
  rw [List.getElem?_eq_getElem hj, List.getElem?_eq_getElem hl] at this
  exact (Option.some.inj this).symm

/-- A header, then blocks. -/
theorem sends_header {info : Info} {letter : Nat} {init player : Int} (h : Expressible info letter init player) :
    Sends (writeExecutableHeader false info letter init player) (init, player) (Sap.headerBytes info letter init player) := by
  unfold writeExecutableHeader
  rw [if_neg (by decide)]
  exact (Sends.of (Sap.Expressible.emits h)).bind (Sends.pure _) (List.append_nil _)

theorem sends_executable {info : Info} {m r : List Nat} {player last : Nat} {v : Int × Int} {bs : List Nat} (hr : playerRoutine info = some r) (h : Routine r player last)
    (hp : player < 65536) (hl : last < 65536) (hm : ¬ info.music ≤ last) (hs : Sends (writeModule false info m r player last) v bs) : Sends (writeExecutable false info m) v bs := by
  unfold writeExecutable
  rw [hr]
  obtain ⟨h1, h2⟩ := getWord_routine h hl hp
  refine (Sends.lift h1).bind ((Sends.lift h2).bind (b := bs) ?_ rfl) rfl
  rw [if_neg hm]
  exact hs

theorem getD_append_left {a b : List Nat} {i : Nat} (h : i < a.length) : (a ++ b).getD i 0 = a.getD i 0 := by
  rw [List.getD_eq_getElem?_getD, List.getD_eq_getElem?_getD, List.getElem?_append_left h]

theorem getD_append_right {a b : List Nat} {i : Nat} (h : a.length ≤ i) : (a ++ b).getD i 0 = b.getD (i - a.length) 0 := by
  rw [List.getD_eq_getElem?_getD, List.getD_eq_getElem?_getD, List.getElem?_append_right h]

theorem getD_drop {a : List Nat} {i n : Nat} : (a.drop n).getD i 0 = a.getD (n + i) 0 := by
  rw [List.getD_eq_getElem?_getD, List.getD_eq_getElem?_getD, List.getElem?_drop]

theorem getD_take {a : List Nat} {i n : Nat} (h : i < n) : (a.take n).getD i 0 = a.getD i 0 := by
  rw [List.getD_eq_getElem?_getD, List.getD_eq_getElem?_getD, List.getElem?_take_of_lt h]

theorem allBytes_drop {a : List Nat} {n : Nat} (h : AllBytes a) : AllBytes (a.drop n) := fun b hb => h b (List.mem_of_mem_drop hb)
theorem allBytes_take {a : List Nat} {n : Nat} (h : AllBytes a) : AllBytes (a.take n) := fun b hb => h b (List.mem_of_mem_take hb)
theorem allBytes_append {a b : List Nat} (h : AllBytes a) (h' : AllBytes b) : AllBytes (a ++ b) := fun x hx => (List.mem_append.mp hx).elim (h x) (h' x)

theorem formed {k : Bool} {start : Nat} {l : List Nat} (h : 0 < l.length) (hb : AllBytes l) (hs : start + l.length ≤ 65536) (hk : k = true ∨ start ≠ 0xffff) :
    (Block.mk k start l).WellFormed :=
  ⟨fun e => absurd (show l = [] from e) (List.ne_nil_of_length_pos h), hb, hs, fun e => hk.resolve_left (Bool.eq_false_iff.mp (show k = false from e))⟩

/-! ## CMC -/

theorem plan_cmc {info : Info} {m r : List Nat} {last : Nat} (hm : IsModule info m) (hc : Convertible info m)
    (ht : info.type = .cmc ∨ info.type = .cm3 ∨ info.type = .cmr ∨ info.type = .cms) (hr : playerRoutine info = some r) (h : Routine r 0x500 last) (hl : 0x500 < last ∧ last < 65536)
    (ha : routineArea info = (0x500, (last : Int))) :
    Plan info m r 67 (-1) 0x500 ⟨true, Relocate.word m 2, m.drop 6⟩ [⟨false, 0x500, r.drop 6⟩] := by
  have hfc : info.type ≠ .fc := by rcases ht with h | h | h | h <;> rw [h] <;> decide
  have hdlt : info.type ≠ .dlt := by rcases ht with h | h | h | h <;> rw [h] <;> decide
  have hrmt : info.type ≠ .rmt := by rcases ht with h | h | h | h <;> rw [h] <;> decide
  have htm2 : info.type ≠ .tm2 := by rcases ht with h | h | h | h <;> rw [h] <;> decide
  have hlow : (last : Int) + 1 ≤ info.music := by
    have := hc.low
    unfold lowest at this
    rw [if_neg hrmt, if_neg htm2, ha] at this
    exact this
  have hmus := hm.music hfc
  have hlen := hm.length hfc
  have hblk := hm.block hfc hrmt
  have hend : moduleEnd info m = Relocate.word m 4 := by unfold moduleEnd; rw [if_neg hfc, if_neg hdlt]
  have hfit := hc.fits
  have hne := hc.nonempty
  rw [hend] at hfit hne
  have hd : Expressible info 67 (-1) 0x500 := described_c hc.described (by decide) (by omega)
  have hr7 : (r.drop 6).length = last - 0x500 + 1 := by rw [List.length_drop, h.length]; omega
  have hm6 : (m.drop 6).length = m.length - 6 := List.length_drop
  refine ⟨?_, rfl, ?_, hd, ?_, ?_⟩
  · refine sends_executable hr h (by decide) hl.2 (by omega) ?_
    have e : ∀ v bs, Sends (writeCmc false info m r 0x500 last) v bs → Sends (writeModule false info m r (0x500 : Nat) last) v bs := by
      intro v bs hh
      unfold writeModule
      rcases ht with h | h | h | h <;> (rw [h]; exact hh)
    refine e _ _ ?_
    unfold writeCmc
    refine (sends_header hd).bind ?_ rfl
    have e1 : m.drop 2 = word (Relocate.word m 2) ++ word (Relocate.word m 4) ++ m.drop 6 := by
      conv => lhs; rw [module_head hm.bytes (by omega)]
      rw [List.append_assoc, List.drop_append_of_le_length (by rw [List.length_take]; omega), List.drop_of_length_le (by rw [List.length_take]; omega)]
      rfl
    refine (Sends.of (emits_word' (v := 0xffff) (by decide))).bind ((Sends.of (emits_rest (i := 2) (i' := 2) (j := m.length) rfl rfl (by omega))).bind
      ((Sends.of (emits_rest (a := r) (i := 2) (i' := 2) rfl (by rw [h.length]; omega) (by rw [h.length]; omega))).bind (Sends.pure _) rfl) rfl) ?_
    rw [e1, routine_rest h (by omega)]
    show _ = (Block.mk true (Relocate.word m 2) (m.drop 6)).encode ++ ((Block.mk false 0x500 (r.drop 6)).encode ++ [])
    conv => rhs; unfold Block.encode
    unfold Block.body
    rw [show (Block.mk true (Relocate.word m 2) (m.drop 6)).start + (Block.mk true (Relocate.word m 2) (m.drop 6)).bytes.length - 1 = Relocate.word m 4 by
      show Relocate.word m 2 + (m.drop 6).length - 1 = _; omega]
    simp [word, Block.encode, Block.body]
  · intro x hx
    simp only [List.mem_cons, List.not_mem_nil, or_false] at hx
    rcases hx with rfl | rfl
    · exact formed (by omega) (allBytes_drop hm.bytes) (by omega) (Or.inl rfl)
    · exact formed (by omega) (allBytes_drop h.bytes) (by omega) (Or.inr (by omega))
  · intro p hp
    unfold InModule at hp
    rw [hend] at hp
    rw [if_neg hfc]
    show Block.put _ (Block.put _ _) p = _
    rw [put_out (Or.inr (by show ((0x500 : Nat) : Int) + (r.drop 6).length ≤ p; omega)),
      put_in ⟨by show ((Relocate.word m 2 : Nat) : Int) ≤ p; omega, by show p < ((Relocate.word m 2 : Nat) : Int) + (m.drop 6).length; omega⟩]
    show (((m.drop 6).getD (p - (Relocate.word m 2 : Nat)).toNat 0 : Nat) : Int) = _
    rw [getD_drop, hmus]
  · intro p hp
    unfold InRoutine at hp
    rw [ha] at hp ⊢
    show Block.put _ _ p = _
    rw [put_in ⟨hp.1, by show p < ((0x500 : Nat) : Int) + (r.drop 6).length; have := hp.2; omega⟩]
    show (((r.drop 6).getD (p - (0x500 : Nat)).toNat 0 : Nat) : Int) = _
    rw [getD_drop]
    rfl

end Asap.Convert
