import Verif.Model.Wav
import Verif.Spec.Wav

/-! Lemmas about the WAV header. -/

namespace Asap.Wav
open Asap.Spec

/-- The list with `xs` stored at `o`. -/
def splice (b : List Nat) (o : Nat) (xs : List Nat) : List Nat := b.take o ++ xs ++ b.drop (o + xs.length)

theorem splice_length {b : List Nat} {o : Nat} {xs : List Nat} (h : o + xs.length ≤ b.length) : (splice b o xs).length = b.length := by
  unfold splice
  simp only [List.length_append, List.length_take, List.length_drop]
  omega

theorem splice_nil (b : List Nat) (o : Nat) : splice b o [] = b := by
  unfold splice
  simp

theorem splice_take {b : List Nat} {o : Nat} {xs : List Nat} (h : o + xs.length ≤ b.length) :
    (splice b o xs).take (o + xs.length) = b.take o ++ xs := by
  unfold splice
  exact List.take_left' (by simp only [List.length_append, List.length_take]; omega)

theorem splice_drop {b : List Nat} {o : Nat} {xs : List Nat} (h : o + xs.length ≤ b.length) (k : Nat) :
    (splice b o xs).drop (o + xs.length + k) = b.drop (o + xs.length + k) := by
  rw [← List.drop_drop]
  unfold splice
  rw [List.drop_left' (by simp only [List.length_append, List.length_take]; omega), List.drop_drop]

theorem splice_after {b : List Nat} {o : Nat} {xs ys : List Nat} (h : o + xs.length + ys.length ≤ b.length) :
    splice (splice b o xs) (o + xs.length) ys = splice b o (xs ++ ys) := by
  have h1 := splice_take (b := b) (o := o) (xs := xs) (by omega)
  have h2 := splice_drop (b := b) (o := o) (xs := xs) (by omega) ys.length
  rw [splice, h1, h2, splice, List.length_append, Nat.add_assoc]
  simp

theorem splice_before {b : List Nat} {o : Nat} {xs ys : List Nat} (h : o + xs.length + ys.length ≤ b.length) :
    splice (splice b (o + xs.length) ys) o xs = splice b o (xs ++ ys) := by
  have h1 : (splice b (o + xs.length) ys).take o = b.take o := by
    unfold splice
    rw [List.append_assoc, List.take_append_of_le_length (by simp only [List.length_take]; omega), List.take_take, Nat.min_eq_left (by omega)]
  have h2 : (splice b (o + xs.length) ys).drop (o + xs.length) = ys ++ b.drop (o + xs.length + ys.length) := by
    unfold splice
    rw [List.append_assoc]
    exact List.drop_left' (by simp only [List.length_take]; omega)
  rw [splice, h1, h2, splice, List.length_append, ← Nat.add_assoc]
  simp

theorem splice_zero {b : List Nat} {xs : List Nat} (h : xs.length ≤ b.length) : (splice b 0 xs).take xs.length = xs ∧
    (splice b 0 xs).drop xs.length = b.drop xs.length := by
  have h1 := splice_take (b := b) (o := 0) (xs := xs) (by omega)
  have h2 := splice_drop (b := b) (o := 0) (xs := xs) (by omega) 0
  rw [Nat.zero_add] at h1 h2
  exact ⟨h1, h2⟩

/-- The function stores `xs` at `o`, or fails because there is no place. -/
def Puts (f : List Nat → M (List Nat)) (o : Nat) (xs : List Nat) : Prop :=
  ∀ b, o ≤ b.length → f b = if o + xs.length ≤ b.length then .ok (splice b o xs) else .error .ub

/-- The same, and returns the place after `xs`. -/
def PutsN (f : List Nat → M (Nat × List Nat)) (o : Nat) (xs : List Nat) : Prop :=
  ∀ b, o ≤ b.length → f b = if o + xs.length ≤ b.length then .ok (o + xs.length, splice b o xs) else .error .ub

theorem put_eq (i : Nat) (v : Int) (b : List Nat) : put i v b = if i + 1 ≤ b.length then .ok (splice b i [toByte v]) else .error .ub := by
  unfold put
  by_cases h : i < b.length
  · rw [if_pos h, if_pos (by omega)]
    congr 1
    unfold splice
    rw [List.set_eq_take_append_cons_drop, if_pos h]
    simp
  · rw [if_neg h, if_neg (by omega)]

theorem puts_put (i : Nat) (v : Int) : Puts (put i v) i [toByte v] := fun b _ => put_eq i v b

theorem Puts.seq {f g : List Nat → M (List Nat)} {o o' : Nat} {xs ys : List Nat} (hf : Puts f o xs) (hg : Puts g o' ys)
    (ho : o' = o + xs.length) : Puts (fun b => f b >>= g) o (xs ++ ys) := by
  intro b hb
  subst ho
  rw [List.length_append]
  show (f b >>= g) = _
  rw [hf b hb]
  by_cases h : o + xs.length ≤ b.length
  · have hl := splice_length h
    rw [if_pos h]
    show g (splice b o xs) = _
    rw [hg _ (by omega), hl]
    by_cases h2 : o + xs.length + ys.length ≤ b.length
    · rw [if_pos h2, if_pos (by omega), splice_after h2]
    · rw [if_neg h2, if_neg (by omega)]
  · rw [if_neg h, if_neg (by omega)]
    rfl

theorem Puts.congr {f : List Nat → M (List Nat)} {o : Nat} {xs ys : List Nat} (h : Puts f o xs) (e : xs = ys) : Puts f o ys := e ▸ h

theorem Puts.seqN {f : List Nat → M (List Nat)} {g : List Nat → M (Nat × List Nat)} {o o' : Nat} {xs ys : List Nat} (hf : Puts f o xs)
    (hg : PutsN g o' ys) (ho : o' = o + xs.length) : PutsN (fun b => f b >>= g) o (xs ++ ys) := by
  intro b hb
  subst ho
  rw [List.length_append]
  show (f b >>= g) = _
  rw [hf b hb]
  by_cases h : o + xs.length ≤ b.length
  · have hl := splice_length h
    rw [if_pos h]
    show g (splice b o xs) = _
    rw [hg _ (by omega), hl]
    by_cases h2 : o + xs.length + ys.length ≤ b.length
    · rw [if_pos h2, if_pos (by omega), splice_after h2, Nat.add_assoc]
    · rw [if_neg h2, if_neg (by omega)]
  · rw [if_neg h, if_neg (by omega)]
    rfl

/-- Four bytes of a number. -/
def le4 (v : Int) : List Nat := [toByte (v % 256), toByte (v / 256 % 256), toByte (v / 65536 % 256), toByte (v / 16777216 % 256)]

theorem le4_length (v : Int) : (le4 v).length = 4 := rfl

theorem puts_le (o : Nat) (v : Int) : Puts (putLittleEndian o v) o (le4 v) :=
  (puts_put o _).seq ((puts_put (o + 1) _).seq ((puts_put (o + 2) _).seq (puts_put (o + 3) _) rfl) rfl) rfl

theorem puts_les (o : Nat) (v w : Int) : Puts (putLittleEndians o v w) o (le4 v ++ le4 w) := (puts_le o v).seq (puts_le (o + 4) w) rfl

theorem puts_text : ∀ (s : List Nat) (o : Nat), AllBytes s → Puts (putText o s) o s
  | [], o, _ => fun b hb => by
    rw [splice_nil]
    show _ = if o + 0 ≤ b.length then _ else _
    rw [if_pos (by omega)]
    rfl
  | c :: s, o, h => by
    have hc : toByte c = c := by
      have := h c (by simp)
      unfold toByte
      omega
    have := (puts_put o (c : Int)).seq (puts_text s (o + 1) fun x hx => h x (by simp [hx])) rfl
    rw [hc] at this
    exact this

/-- Terminators. -/
def zeros (len : Nat) : List Nat := if len % 2 = 0 then [0, 0] else [0]

theorem putsN_end (o len : Nat) : PutsN (putEnd o len) o (zeros len) := by
  intro b hb
  unfold putEnd zeros
  have h0 : toByte 0 = 0 := rfl
  rw [put_eq, h0]
  by_cases h : o + 1 ≤ b.length
  · rw [if_pos h]
    have hl := splice_length (b := b) (o := o) (xs := [0]) h
    show (if len % 2 = 0 then (put (o + 1) 0 (splice b o [0]) >>= fun b => .ok (o + 2, b)) else .ok (o + 1, splice b o [0])) = _
    by_cases he : len % 2 = 0
    · rw [if_pos he, if_pos he, put_eq, h0, hl]
      show _ = if o + 2 ≤ b.length then _ else _
      by_cases h2 : o + 1 + 1 ≤ b.length
      · rw [if_pos h2, if_pos (show o + 2 ≤ b.length by omega)]
        exact congrArg (fun x => Except.ok (o + 2, x)) (splice_after (b := b) (o := o) (xs := [0]) (ys := [0]) h2)
      · rw [if_neg h2, if_neg (show ¬ o + 2 ≤ b.length by omega)]
        rfl
    · rw [if_neg he, if_neg he]
      exact (if_pos (show o + 1 ≤ b.length from h)).symm
  · rw [if_neg h, if_neg (by split <;> (show ¬ o + _ ≤ _; simp only [List.length_cons, List.length_nil]; omega))]
    rfl

/-- A chunk with a text. -/
def textChunk (id s : List Nat) : List Nat :=
  if s = [] then [] else id ++ le4 (s.length / 2 * 2 + 2 : Nat) ++ (s ++ zeros s.length)

theorem putsN_metadata (o : Nat) {v : Int} {id s : List Nat} (hv : le4 v = id) (h : AllBytes s) :
    PutsN (putWavMetadata o v s) o (textChunk id s) := by
  subst hv
  unfold putWavMetadata textChunk
  cases s with
  | nil =>
    intro b hb
    show Except.ok (o, b) = if o + 0 ≤ b.length then Except.ok (o + 0, splice b o []) else _
    rw [splice_nil, if_pos (by omega)]
    rfl
  | cons c s =>
    rw [if_neg (by simp)]
    simp only [List.length_cons, gt_iff_lt, Nat.zero_lt_succ, if_true]
    exact (puts_les o _ _).seqN ((puts_text (c :: s) (o + 8) h).seqN (putsN_end _ _) rfl) rfl

/-- A number of four digits. -/
def digits4 (y : Int) : List Nat := [48 + y.toNat / 1000, 48 + y.toNat / 100 % 10, 48 + y.toNat / 10 % 10, 48 + y.toNat % 10]

theorem year_digits {y : Int} (h : 0 ≤ y ∧ y ≤ 9999) :
    toByte (48 + Int.tmod y 10) = 48 + y.toNat % 10 ∧ toByte (48 + Int.tmod (Int.tdiv y 10) 10) = 48 + y.toNat / 10 % 10 ∧
    toByte (48 + Int.tmod (Int.tdiv (Int.tdiv y 10) 10) 10) = 48 + y.toNat / 100 % 10 ∧
    toByte (48 + Int.tmod (Int.tdiv (Int.tdiv (Int.tdiv y 10) 10) 10) 10) = 48 + y.toNat / 1000 := by
  have h1 : 0 ≤ y / 10 := by omega
  have h2 : 0 ≤ y / 10 / 10 := by omega
  have h3 : 0 ≤ y / 10 / 10 / 10 := by omega
  rw [Int.tdiv_eq_ediv_of_nonneg h.1, Int.tdiv_eq_ediv_of_nonneg h1, Int.tdiv_eq_ediv_of_nonneg h2, Int.tmod_eq_emod_of_nonneg h.1,
    Int.tmod_eq_emod_of_nonneg h1, Int.tmod_eq_emod_of_nonneg h2, Int.tmod_eq_emod_of_nonneg h3]
  unfold toByte
  omega

/-- Storing before what is stored. -/
theorem put_before {b : List Nat} {i : Nat} {v : Int} {d : Nat} {ys : List Nat} (hd : toByte v = d) (h : i + 1 + ys.length ≤ b.length) :
    put i v (splice b (i + 1) ys) = .ok (splice b i (d :: ys)) := by
  rw [put_eq, splice_length h, if_pos (by omega), hd]
  exact congrArg Except.ok (splice_before (b := b) (o := i) (xs := [d]) (ys := ys) h)

theorem puts_year (i : Nat) {y : Int} (h : 0 ≤ y ∧ y ≤ 9999) : Puts (putYear i y) (i + 8) (digits4 y) := by
  intro b hb
  obtain ⟨d0, d1, d2, d3⟩ := year_digits h
  unfold putYear
  show _ = if i + 8 + 4 ≤ b.length then Except.ok (splice b (i + 8) (digits4 y)) else Except.error Fault.ub
  by_cases h4 : i + 11 + 1 ≤ b.length
  · have e0 : put (i + 11) (48 + Int.tmod y 10) b = .ok (splice b (i + 11) [48 + y.toNat % 10]) := by rw [put_eq, if_pos h4, d0]
    have e1 := put_before (b := b) (i := i + 10) (ys := [48 + y.toNat % 10]) d1 h4
    have e2 := put_before (b := b) (i := i + 9) (ys := [48 + y.toNat / 10 % 10, 48 + y.toNat % 10]) d2 h4
    have e3 := put_before (b := b) (i := i + 8) (ys := [48 + y.toNat / 100 % 10, 48 + y.toNat / 10 % 10, 48 + y.toNat % 10]) d3 h4
    rw [if_pos (by omega), e0]
    show (put (i + 10) (48 + Int.tmod (Int.tdiv y 10) 10) (splice b (i + 10 + 1) _) >>= fun b =>
      put (i + 9) (48 + Int.tmod (Int.tdiv (Int.tdiv y 10) 10) 10) b >>= fun b =>
      put (i + 8) (48 + Int.tmod (Int.tdiv (Int.tdiv (Int.tdiv y 10) 10) 10) 10) b) = _
    rw [e1]
    show (put (i + 9) (48 + Int.tmod (Int.tdiv (Int.tdiv y 10) 10) 10) (splice b (i + 9 + 1) _) >>= fun b =>
      put (i + 8) (48 + Int.tmod (Int.tdiv (Int.tdiv (Int.tdiv y 10) 10) 10) 10) b) = _
    rw [e2]
    exact e3
  · have e0 : put (i + 11) (48 + Int.tmod y 10) b = .error .ub := by rw [put_eq, if_neg h4]
    rw [if_neg (by omega), e0]
    rfl

/-- The chunk with the year. -/
def yearChunk (y : Int) : List Nat := if y > 0 then [73, 67, 82, 68] ++ le4 6 ++ (digits4 y ++ [0, 0]) else []

theorem putsN_date (o : Nat) {y : Int} (h : y ≤ 9999) : PutsN (putDate o y) o (yearChunk y) := by
  unfold putDate yearChunk
  by_cases hy : y > 0
  · rw [if_pos hy]
    simp only [hy, if_true]
    have e : PutsN (fun b => Except.ok (o + 14, b)) (o + 14) [] := fun b hb => by
      rw [splice_nil]
      exact (if_pos (show o + 14 + 0 ≤ b.length by omega)).symm
    have := (puts_les o (fourCC 73 67 82 68) 6).seqN ((puts_year o (y := y) (by omega)).seqN ((puts_put (o + 12) 0).seqN
      ((puts_put (o + 13) 0).seqN e rfl) rfl) rfl) rfl
    exact this
  · rw [if_neg hy]
    simp only [hy, if_false]
    intro b hb
    rw [splice_nil]
    exact (if_pos (show o + 0 ≤ b.length by omega)).symm

theorem PutsN.seq {f : List Nat → M (Nat × List Nat)} {g : Nat → List Nat → M (Nat × List Nat)} {o : Nat} {xs ys : List Nat}
    (hf : PutsN f o xs) (hg : PutsN (g (o + xs.length)) (o + xs.length) ys) : PutsN (fun b => f b >>= fun r => g r.1 r.2) o (xs ++ ys) := by
  intro b hb
  rw [List.length_append]
  show (f b >>= fun r => g r.1 r.2) = _
  rw [hf b hb]
  by_cases h : o + xs.length ≤ b.length
  · have hl := splice_length h
    rw [if_pos h]
    show g (o + xs.length) (splice b o xs) = _
    rw [hg _ (by omega), hl]
    by_cases h2 : o + xs.length + ys.length ≤ b.length
    · rw [if_pos h2, if_pos (by omega), splice_after h2, Nat.add_assoc]
    · rw [if_neg h2, if_neg (by omega)]
  · rw [if_neg h, if_neg (by omega)]
    rfl

/-- The texts. -/
def infoBody (info : Info) (year : Int) : List Nat :=
  [73, 78, 70, 79] ++ (textChunk [73, 78, 65, 77] info.title ++ (textChunk [73, 65, 82, 84] info.author ++ yearChunk year))

/-- The list chunk, if any. -/
def listChunk (info : Info) (year : Int) : List Nat :=
  if info.title.length > 0 ∨ info.author.length > 0 ∨ year > 0 then
    [76, 73, 83, 84] ++ le4 ((infoBody info year).length : Nat) ++ infoBody info year
  else []

theorem putsN_list {info : Info} {year : Int} (hy : getYear info.date = .ok year) (hy' : year ≤ 9999) (ht : AllBytes info.title)
    (ha : AllBytes info.author) : PutsN (putList info) 36 (listChunk info year) := by
  intro b hb
  unfold putList listChunk
  rw [hy]
  show (if info.title.length > 0 ∨ info.author.length > 0 ∨ year > 0 then _ else _) = _
  by_cases hc : info.title.length > 0 ∨ info.author.length > 0 ∨ year > 0
  · rw [if_pos hc, if_pos hc]
    have key : PutsN (fun b => putLittleEndian 44 (fourCC 73 78 70 79) b >>= fun b => putWavMetadata 48 (fourCC 73 78 65 77) info.title b >>=
        fun r => putWavMetadata r.1 (fourCC 73 65 82 84) info.author r.2 >>= fun r => putDate r.1 year r.2) 44 (infoBody info year) :=
      (puts_le 44 (fourCC 73 78 70 79)).seqN
        (PutsN.seq (g := fun o b => putWavMetadata o (fourCC 73 65 82 84) info.author b >>= fun r => putDate r.1 year r.2)
          (putsN_metadata 48 (by decide) ht)
          (PutsN.seq (g := fun o b => putDate o year b) (putsN_metadata _ (by decide) ha) (putsN_date _ hy'))) rfl
    by_cases h44 : 44 ≤ b.length
    · have hk := key b h44
      dsimp only at hk
      have split : ∀ (x : M (List Nat)) (g1 : List Nat → M (Nat × List Nat)) (g2 g3 : Nat × List Nat → M (Nat × List Nat))
          (g4 : Nat × List Nat → M (Nat × List Nat)),
          (x >>= fun b => g1 b >>= fun r => g2 r >>= fun r => g3 r >>= g4) = ((x >>= fun b => g1 b >>= fun r => g2 r >>= g3) >>= g4) := by
        intro x g1 g2 g3 g4
        cases x with
        | error e => rfl
        | ok b =>
          show (g1 b >>= fun r => g2 r >>= fun r => g3 r >>= g4) = ((g1 b >>= fun r => g2 r >>= g3) >>= g4)
          cases g1 b with
          | error e => rfl
          | ok r =>
            show (g2 r >>= fun r => g3 r >>= g4) = ((g2 r >>= g3) >>= g4)
            cases g2 r <;> rfl
      rw [split, hk, List.length_append, List.length_append, le4_length]
      by_cases h2 : 44 + (infoBody info year).length ≤ b.length
      · rw [if_pos h2, if_pos (by simp only [List.length_cons, List.length_nil]; omega)]
        show (putLittleEndians 36 (fourCC 76 73 83 84) (((44 + (infoBody info year).length : Nat) : Int) - 44)
          (splice b 44 (infoBody info year)) >>= fun b => .ok (44 + (infoBody info year).length, b)) = _
        have hp := puts_les 36 (fourCC 76 73 83 84) (((44 + (infoBody info year).length : Nat) : Int) - 44) (splice b 44 (infoBody info year))
          (by rw [splice_length h2]; omega)
        rw [hp, splice_length h2, if_pos (show 36 + (le4 _ ++ le4 _).length ≤ b.length by show 36 + 8 ≤ _; omega)]
        show Except.ok _ = Except.ok _
        rw [show (((44 + (infoBody info year).length : Nat) : Int) - 44) = ((infoBody info year).length : Nat) by omega]
        rw [show (44 : Nat) = 36 + (le4 (fourCC 76 73 83 84) ++ le4 ((infoBody info year).length : Nat)).length from rfl,
          splice_before (b := b) (o := 36) (by show 44 + _ ≤ _; omega)]
        rw [show le4 (fourCC 76 73 83 84) = [76, 73, 83, 84] by decide]
        simp only [List.length_append, List.length_cons, List.length_nil, le4_length, Nat.add_assoc]
      · rw [if_neg h2, if_neg (by simp only [List.length_cons, List.length_nil]; omega)]
        rfl
    · have hp : putLittleEndian 44 (fourCC 73 78 70 79) b = .error .ub := by
        show (put 44 _ b >>= _) = _
        rw [put_eq, if_neg (by omega)]
        rfl
      rw [hp, if_neg (by rw [List.length_append, List.length_append, le4_length]; simp only [List.length_cons, List.length_nil]; omega)]
      rfl
  · rw [if_neg hc, if_neg hc, splice_nil]
    exact (if_pos (show 36 + 0 ≤ b.length by omega)).symm

/-- The format chunk after `WAVE`. -/
def formatChunk (channels : Nat) (rate size bits : Int) : List Nat :=
  [102, 109, 116, 32] ++ le4 16 ++ ([1, 0, toByte channels, 0] ++ le4 rate ++ le4 (rate * size) ++ [toByte size, 0, toByte bits, 0])

theorem puts_format (channels : Nat) (rate size bits : Int) :
    Puts (putFormat channels rate size bits) 8 ([87, 65, 86, 69] ++ formatChunk channels rate size bits) :=
  (puts_le 8 (fourCC 87 65 86 69)).seq ((puts_les 12 (fourCC 102 109 116 32) 16).seq ((puts_put 20 1).seq ((puts_put 21 0).seq
    ((puts_put 22 channels).seq ((puts_put 23 0).seq ((puts_les 24 rate (rate * size)).seq ((puts_put 32 size).seq ((puts_put 33 0).seq
      ((puts_put 34 bits).seq (puts_put 35 0) rfl) rfl) rfl) rfl) rfl) rfl) rfl) rfl) rfl) rfl

/-- The complete header. -/
def header (channels : Nat) (rate size bits bytes : Int) (list : List Nat) : List Nat :=
  [82, 73, 70, 70] ++ le4 (36 + list.length + bytes) ++ ([87, 65, 86, 69] ++ (formatChunk channels rate size bits ++ (list ++
    ([100, 97, 116, 97] ++ le4 bytes))))

theorem header_length (channels : Nat) (rate size bits bytes : Int) (list : List Nat) :
    (header channels rate size bits bytes list).length = 44 + list.length := by
  unfold header
  simp only [List.length_append, List.length_cons, List.length_nil, le4_length, formatChunk]
  omega

/-- The list chunk when metadata is requested. -/
def metadataChunk (metadata : Bool) (info : Info) (year : Int) : List Nat := if metadata = true then listChunk info year else []

theorem putsN_metadataChunk (metadata : Bool) {info : Info} {year : Int} (hy : getYear info.date = .ok year) (hy' : year ≤ 9999)
    (ht : AllBytes info.title) (ha : AllBytes info.author) : PutsN (putMetadata metadata info) 36 (metadataChunk metadata info year) := by
  intro b hb
  unfold putMetadata metadataChunk
  by_cases h : metadata = true
  · rw [if_pos h, if_pos h]
    exact putsN_list hy hy' ht ha b hb
  · rw [if_neg h, if_neg h, splice_nil]
    exact (if_pos (show 36 + 0 ≤ b.length by omega)).symm

theorem getWavHeader_eq (m : Machine) (f : SampleFormat) (metadata : Bool) {year : Int} (hy : getYear m.info.date = .ok year)
    (hy' : year ≤ 9999) (ht : AllBytes m.info.title) (ha : AllBytes m.info.author) (b : List Nat) {h : List Nat}
    (hh : h = header m.info.channels m.rate (blockSize m.info.channels f) (if f = .u8 then 8 else 16)
      ((Machine.millisecondsToBlocks m.rate m.duration - m.played) * blockSize m.info.channels f) (metadataChunk metadata m.info year)) :
    getWavHeader m f metadata b = if h.length ≤ b.length then .ok (h.length, splice b 0 h) else .error .ub := by
  have hlen : h.length = 44 + (metadataChunk metadata m.info year).length := by rw [hh, header_length]
  unfold getWavHeader
  by_cases h8 : 8 ≤ b.length
  · have k1 := puts_format m.info.channels m.rate (blockSize m.info.channels f) (if f = .u8 then 8 else 16) b h8
    simp only
    rw [k1]
    generalize hF : [87, 65, 86, 69] ++ formatChunk m.info.channels m.rate (blockSize m.info.channels f) (if f = .u8 then 8 else 16) = F
    have hFl : F.length = 28 := by rw [← hF]; rfl
    by_cases h36 : 8 + F.length ≤ b.length
    · rw [if_pos h36]
      show (putMetadata metadata m.info (splice b 8 F) >>= _) = _
      have hl := splice_length h36
      rw [putsN_metadataChunk metadata hy hy' ht ha _ (by omega), hl]
      generalize hL : metadataChunk metadata m.info year = L
      rw [hL] at hlen hh
      by_cases hL2 : 36 + L.length ≤ b.length
      · rw [if_pos hL2]
        rw [show splice (splice b 8 F) 36 L = splice b 8 (F ++ L) by
          rw [show (36 : Nat) = 8 + F.length by omega]; exact splice_after (by omega)]
        have hl2 := splice_length (b := b) (o := 8) (xs := F ++ L) (by rw [List.length_append]; omega)
        generalize hB : (Machine.millisecondsToBlocks m.rate m.duration - m.played) * blockSize m.info.channels f = B
        rw [hB] at hh
        show (putLittleEndians 0 (fourCC 82 73 70 70) (((36 + L.length : Nat) : Int) + B) (splice b 8 (F ++ L)) >>= _) = _
        rw [puts_les 0 _ _ _ (by omega), hl2, if_pos (show 0 + (le4 _ ++ le4 _).length ≤ b.length by show 0 + 8 ≤ _; omega)]
        generalize hR : le4 (fourCC 82 73 70 70) ++ le4 (((36 + L.length : Nat) : Int) + B) = R
        have hRl : R.length = 8 := by rw [← hR]; rfl
        rw [show splice (splice b 8 (F ++ L)) 0 R = splice b 0 (R ++ (F ++ L)) by
          rw [show (8 : Nat) = 0 + R.length by omega]; exact splice_before (by rw [List.length_append]; omega)]
        have hl3 := splice_length (b := b) (o := 0) (xs := R ++ (F ++ L)) (by simp only [List.length_append]; omega)
        show (putLittleEndians (36 + L.length) (fourCC 100 97 116 97) B (splice b 0 (R ++ (F ++ L))) >>= _) = _
        rw [puts_les _ _ _ _ (by omega), hl3]
        by_cases hD : 36 + L.length + 8 ≤ b.length
        · rw [if_pos (show 36 + L.length + (le4 _ ++ le4 _).length ≤ b.length from hD), if_pos (by omega)]
          show Except.ok _ = Except.ok _
          generalize hDD : le4 (fourCC 100 97 116 97) ++ le4 B = D
          have hDl : D.length = 8 := by rw [← hDD]; rfl
          rw [show splice (splice b 0 (R ++ (F ++ L))) (36 + L.length) D = splice b 0 (R ++ (F ++ L) ++ D) by
            rw [show 36 + L.length = 0 + (R ++ (F ++ L)).length by simp only [List.length_append]; omega]
            exact splice_after (by simp only [List.length_append]; omega)]
          have e : h = R ++ (F ++ L) ++ D := by
            rw [hh, ← hR, ← hF, ← hDD]
            unfold header
            rw [show le4 (fourCC 82 73 70 70) = [82, 73, 70, 70] by decide, show le4 (fourCC 100 97 116 97) = [100, 97, 116, 97] by decide,
              show ((36 + L.length : Nat) : Int) = 36 + (L.length : Int) by omega]
            simp only [List.append_assoc]
          rw [← e]
          rw [show 36 + L.length + 8 = h.length by omega]
        · rw [if_neg (show ¬ 36 + L.length + (le4 _ ++ le4 _).length ≤ b.length from hD), if_neg (by omega)]
          rfl
      · rw [if_neg hL2, if_neg (by omega)]
        rfl
    · rw [if_neg h36, if_neg (by omega)]
      rfl
  · have hp : ∀ c r s t, putFormat c r s t b = .error .ub := by
      intro c r s t
      have : putLittleEndian 8 (fourCC 87 65 86 69) b = .error .ub := by
        show (put 8 _ b >>= _) = _
        rw [put_eq, if_neg (by omega)]
        rfl
      show (putLittleEndian 8 (fourCC 87 65 86 69) b >>= _) = _
      rw [this]
      rfl
    simp only
    rw [hp, if_neg (by omega)]
    rfl

end Asap.Wav
