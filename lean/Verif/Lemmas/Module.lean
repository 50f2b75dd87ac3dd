import Verif.Model.Module
import Verif.Lemmas.Hoare

/-! Safety of the parsers of native formats: CMC, DLT, FC. -/

namespace Asap.Module
open Asap

theorem rdb {m : List Nat} (hb : AllBytes m) {i : Nat} (h : i < m.length) :
    Post (fun b => m[i]? = some b ∧ b < 256) (rd m i) := by
  refine (Post.rd h).mono fun b e => ⟨e, ?_⟩
  exact hb b (List.mem_of_getElem? e)

theorem rdIb {m : List Nat} (hb : AllBytes m) {i : Int} (h0 : 0 ≤ i) (h : i < m.length) :
    Post (fun b => b < 256) (rdI m i) := by
  refine (Post.rdI h0 (by omega)).mono fun b e => ?_
  exact hb b (List.mem_of_getElem? e)

theorem getWordb {m : List Nat} (hb : AllBytes m) {i : Nat} (h : i + 1 < m.length) :
    Post (fun w => w < 65536) (getWord m i) := by
  unfold getWord
  refine Post.bind (rdb hb (by omega)) fun a ha => Post.bind (rdb hb h) fun b hb => ?_
  show _ < _
  omega

theorem Post.andM {P : Bool → Prop} {x y : M Bool} (hx : Post (fun _ => True) x) (hy : Post P y) (hf : P false) :
    Post P (andM x y) :=
  Post.bind hx fun b _ => by cases b; exact hf; exact hy

theorem Post.orM {P : Bool → Prop} {x y : M Bool} (hx : Post (fun _ => True) x) (hy : Post P y) (hf : P true) :
    Post P (orM x y) :=
  Post.bind hx fun b _ => by cases b; exact hy; exact hf

theorem test_post {P : Bool → Prop} {m : List Nat} {i : Nat} (h : i < m.length) (p : Nat → Bool) (hp : ∀ b, P b) :
    Post P (do let x ← rd m i; .ok (p x)) :=
  Post.bind (Post.rd h) fun _ _ => hp _

/-- The header of every format but RMT. -/
theorem parseModule_post {m : List Nat} (hb : AllBytes m) (h : 6 ≤ m.length) :
    Post (fun music => ∃ a b : Nat, music = (a : Int) ∧ a < 65536 ∧ b < 65536 ∧ ¬ (a ≤ 0xd7ff ∧ b ≥ 0xd000) ∧ (m.length : Int) = 6 + (b + 1 - a))
      (parseModule false m) := by
  unfold parseModule
  refine Post.bind (P := fun _ => True) ?_ fun ok _ => Post.ite (fun _ => trivial) fun _ => ?_
  · exact Post.bind (Post.rd (by omega)) fun _ _ => Post.bind (Post.rd (by omega)) fun _ _ => trivial
  refine Post.bind (getWordb hb (by omega)) fun a ha => Post.bind (getWordb hb (by omega)) fun b hb => ?_
  refine Post.ite (fun _ => trivial) fun hc => ?_
  refine Post.bind (P := fun _ => (m.length : Int) = 6 + (b + 1 - a)) ?_ fun _ hl => ?_
  · unfold checkLength
    refine Post.ite (fun _ => ?_) fun h => ?_
    · rw [if_pos (.inl rfl)]; trivial
    · show _ = _; omega
  · exact ⟨a, b, rfl, ha, hb, hc, hl⟩

/-- `addSong` within the limits. -/
theorem addSong_post {i : Info} {calls : Int} (h : i.songs < 32) {P : Info → Prop}
    (hp : P { i with
      durations := upd i.durations i.songs (calls * i.fastplay * (114000 / 3) / (1773447 / 3))
      songs := i.songs + 1 }) : Post P (addSong i calls) := by
  unfold addSong
  rw [if_pos (show i.songs < maxSongs from h)]
  exact hp

end Asap.Module
