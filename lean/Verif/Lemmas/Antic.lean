import Verif.Lemmas.Writer
import Verif.Lemmas.XexInfo
import Verif.Model.Write
import Verif.Spec.Antic

/-! The instructions for the title screen, and what ANTIC makes of them. -/

namespace Asap.Antic
open Asap Asap.Spec.Antic Asap.Spec.FlashPack

/-- The bytes `l` from the address `a` on. -/
def At (mem : Nat → Nat) (a : Nat) (l : List Nat) : Prop := ∀ k b, l[k]? = some b → mem (a + k) = b

theorem At.left {mem : Nat → Nat} {a : Nat} {l m : List Nat} (h : At mem a (l ++ m)) : At mem a l := by
  intro k b hk
  refine h k b ?_
  have : k < l.length := (List.getElem?_eq_some_iff.mp hk).1
  rw [List.getElem?_append_left this, hk]

theorem At.right {mem : Nat → Nat} {a c : Nat} {l m : List Nat} (h : At mem a (l ++ m)) (e : c = a + l.length) : At mem c m := by
  intro k b hk
  subst e
  rw [Nat.add_assoc]
  refine h _ b ?_
  rw [List.getElem?_append_right (by omega), Nat.add_sub_cancel_left, hk]

theorem At.head {mem : Nat → Nat} {a b : Nat} {l : List Nat} (h : At mem a (b :: l)) : mem a = b := h 0 b rfl

theorem At.tail {mem : Nat → Nat} {a b : Nat} {l : List Nat} (h : At mem a (b :: l)) : At mem (a + 1) l := by
  intro k c hk
  have := h (k + 1) c (by simpa using hk)
  rw [show a + 1 + k = a + (k + 1) by omega]
  exact this

theorem bytesAt_eq {mem : Nat → Nat} : ∀ {l : List Nat} {a n : Nat}, At mem a l → n = l.length → bytesAt mem a n = l := by
  intro l a n h e
  subst e
  unfold bytesAt
  refine List.ext_getElem (by simp) fun k h1 h2 => ?_
  rw [List.getElem_map, List.getElem_range]
  exact h k _ (List.getElem?_eq_getElem h2)

/-- In the kilobyte from 0xFC00 on. -/
theorem nextIns_eq {a : Nat} (h1 : 0xfc00 ≤ a) (h2 : a < 0xffff) : nextIns a = a + 1 := by
  unfold nextIns; omega

/-- In the four kilobytes from 0xF000 on. -/
theorem nextRow_eq {a n : Nat} (h1 : 0xf000 ≤ a) (h2 : a + n ≤ 0xffff) : nextRow a n = a + n := by
  unfold nextRow; omega

theorem frame_blanks {mem : Nat → Nat} {scan m again : Nat} {strips : List Strip} (hm : m < 8) : ∀ (n pc pc' : Nat), 0xfc00 ≤ pc → pc + n < 0xffff →
    At mem pc (List.replicate n (16 * m)) → pc' = pc + n → Frame mem pc' scan strips again →
    Frame mem pc scan (List.replicate n (.blank (m + 1)) ++ strips) again
  | 0, pc, pc', _, _, _, e, h => by subst e; exact h
  | n + 1, pc, pc', h1, h2, h3, e, h => by
    rw [List.replicate_succ] at h3
    refine Frame.blank hm h3.head ?_
    rw [nextIns_eq h1 (by omega)]
    exact frame_blanks hm n (pc + 1) pc' (by omega) (by omega) h3.tail (by omega) h

/-- The instructions for `n` lines of text; `last` says if the last of them scrolls. -/
def rows (last : Bool) : Nat → List Nat
  | 0 => []
  | n + 1 => (2 + (if (last && n == 0) = true then 0x20 else 0)) :: rows last n

theorem rows_length (last : Bool) : ∀ n, (rows last n).length = n
  | 0 => rfl
  | n + 1 => by rw [rows, List.length_cons, rows_length last n]

theorem rows_false : ∀ n, rows false n = List.replicate n 2
  | 0 => rfl
  | n + 1 => by rw [rows, rows_false n, List.replicate_succ]; rfl

theorem frame_rows {mem : Nat → Nat} {again : Nat} {strips : List Strip} (last : Bool) : ∀ (n pc pc' scan scan' : Nat) (s : List Nat), 0xfc00 ≤ pc → pc + n < 0xffff →
    0xf000 ≤ scan → scan + s.length ≤ 0xffff → s.length = 32 * n → At mem pc (rows last n) → At mem scan s →
    pc' = pc + n → scan' = scan + s.length → Frame mem pc' scan' strips again → Frame mem pc scan (text last n s ++ strips) again
  | 0, pc, pc', scan, scan', s, _, _, _, _, hl, _, _, e, e', h => by
    subst e e'
    rw [hl] at h
    exact h
  | n + 1, pc, pc', scan, scan', s, h1, h2, h3, h4, hl, h5, h6, e, e', h => by
    have es : s.take 32 ++ s.drop 32 = s := List.take_append_drop 32 s
    have l1 : (s.take 32).length = 32 := by rw [List.length_take]; omega
    have l2 : (s.drop 32).length = 32 * n := by rw [List.length_drop]; omega
    rw [← es] at h6
    have key := Frame.row (mem := mem) (pc := pc) (scan := scan) (mode := 2) (scroll := last && n == 0) (strips := text last n (s.drop 32) ++ strips) (again := again)
      (Or.inl rfl) h5.head (by
        rw [nextIns_eq h1 (by omega), show width 2 = 32 from rfl, nextRow_eq h3 (by omega)]
        exact frame_rows last n (pc + 1) pc' (scan + 32) scan' (s.drop 32) (by omega) (by omega) (by omega) (by omega) l2 h5.tail (h6.right (by omega)) (by omega) (by omega) h)
    rw [show width 2 = 32 from rfl, bytesAt_eq h6.left (by omega)] at key
    exact key

/-- The list of instructions. -/
def list (t a o place : Nat) : List Nat :=
  List.replicate (26 - (t + 1 + a + o)) 0x70 ++ ([0x30] ++ ([if t = 0 then 0x62 else 0x42, place % 256, place / 256] ++ (rows true t ++ ([8, 0] ++ (rows false a ++ ([0x10] ++ rows false o))))))

theorem list_length {t a o place : Nat} (h : t + 1 + a + o ≤ 26) : (list t a o place).length = 32 := by
  simp only [list, List.length_append, List.length_replicate, List.length_cons, List.length_nil, rows_length]
  omega

/-- What ANTIC shows if texts, instructions and the jump at the end follow one another. -/
theorem frame_list {mem : Nat → Nat} {t a o place scan : Nat} {title author date : List Nat} (h : t + 1 + a + o ≤ 26)
    (ht : title.length = 32 * (t + 1)) (ha : author.length = 32 * a) (ho : date.length = 32 * o)
    (hp : place + (title.length + 8 + author.length + date.length) = 0xfc50)
    (hm : At mem place (title ++ (List.replicate 8 0x55 ++ (author ++ (date ++ (list t a o place ++ [0x41, 0x50, 0xfc]))))) ) :
    Frame mem 0xfc50 scan (titleScreen title author date) 0xfc50 := by
  have m1 : At mem place title := hm.left
  have r1 := hm.right (c := place + title.length) rfl
  have m2 : At mem (place + title.length) (List.replicate 8 0x55) := r1.left
  have r2 := r1.right (c := place + title.length + 8) rfl
  have m3 : At mem _ author := r2.left
  have r3 := r2.right (c := place + title.length + 8 + author.length) rfl
  have m4 : At mem _ date := r3.left
  have r4 := r3.right (c := 0xfc50) (by omega)
  have m5 : At mem 0xfc50 (list t a o place) := r4.left
  have m6 : At mem 0xfc70 [0x41, 0x50, 0xfc] := r4.right (by rw [list_length h])
  unfold list at m5
  generalize hn : 26 - (t + 1 + a + o) = n at m5
  have n1 : At mem 0xfc50 (List.replicate n (16 * 7)) := m5.left
  have q1 := m5.right (c := 0xfc50 + n) (by simp)
  have n2 : mem (0xfc50 + n) = 16 * 3 := q1.head
  have q2 := q1.right (c := 0xfc50 + n + 1) rfl
  have n3 := q2.left
  have b1 : mem (0xfc50 + n + 1) = if t = 0 then 0x62 else 0x42 := n3.head
  have b2 : mem (0xfc50 + n + 2) = place % 256 := n3.tail.head
  have b3 : mem (0xfc50 + n + 3) = place / 256 := n3.tail.tail.head
  have q3 := q2.right (c := 0xfc50 + n + 4) rfl
  have n4 : At mem (0xfc50 + n + 4) (rows true t) := q3.left
  have q4 := q3.right (c := 0xfc50 + n + 4 + t) (by rw [rows_length])
  have n5 := q4.left
  have c1 : mem (0xfc50 + n + 4 + t) = 8 := n5.head
  have c2 : mem (0xfc50 + n + 4 + t + 1) = 16 * 0 := n5.tail.head
  have q5 := q4.right (c := 0xfc50 + n + 4 + t + 2) rfl
  have n6 : At mem _ (rows false a) := q5.left
  have q6 := q5.right (c := 0xfc50 + n + 4 + t + 2 + a) (by rw [rows_length])
  have n7 : mem (0xfc50 + n + 4 + t + 2 + a) = 16 * 1 := q6.left.head
  have n8 : At mem (0xfc50 + n + 4 + t + 2 + a + 1) (rows false o) := q6.right rfl
  have j0 : mem 0xfc70 = 0x41 := m6.head
  have j1 : mem 0xfc71 = 0x50 := m6.tail.head
  have j2 : mem 0xfc72 = 0xfc := m6.tail.tail.head
  -- from the end to the beginning
  have f0 : ∀ s, Frame mem 0xfc70 s [] 0xfc50 := by
    intro s
    have := Frame.wait (scan := s) j0
    rw [nextIns_eq (by omega) (by omega), nextIns_eq (by omega) (by omega), j1, j2] at this
    exact this
  have f1 := frame_rows (mem := mem) (again := 0xfc50) (strips := []) false o (0xfc50 + n + 4 + t + 2 + a + 1) 0xfc70 (place + title.length + 8 + author.length) _ date
    (by omega) (by omega) (by omega) (by omega) ho n8 m4 (by omega) rfl (f0 _)
  have f2 := Frame.blank (scan := place + title.length + 8 + author.length) (by omega) n7 (by rw [nextIns_eq (by omega) (by omega)]; exact f1)
  have f3 := frame_rows (mem := mem) (again := 0xfc50) false a (0xfc50 + n + 4 + t + 2) _ (place + title.length + 8) _ author
    (by omega) (by omega) (by omega) (by omega) ha n6 m3 rfl rfl f2
  have f4 := Frame.blank (scan := place + title.length + 8) (by omega) c2 (by rw [nextIns_eq (by omega) (by omega)]; exact f3)
  have f5 := Frame.row (mem := mem) (pc := 0xfc50 + n + 4 + t) (scan := place + title.length) (mode := 8) (scroll := false) (Or.inr rfl) c1 (by
    rw [nextIns_eq (by omega) (by omega), show width 8 = 8 from rfl, nextRow_eq (by omega) (by omega)]; exact f4)
  rw [show width 8 = 8 from rfl, bytesAt_eq (n := 8) m2 (by simp)] at f5
  have es : title.take 32 ++ title.drop 32 = title := List.take_append_drop 32 title
  have l1 : (title.take 32).length = 32 := by rw [List.length_take]; omega
  have l2 : (title.drop 32).length = 32 * t := by rw [List.length_drop]; omega
  rw [← es] at m1
  have f6 := frame_rows (mem := mem) (again := 0xfc50) true t (0xfc50 + n + 4) _ (place + 32) (place + title.length) (title.drop 32)
    (by omega) (by omega) (by omega) (by omega) l2 n4 (m1.right (by omega)) rfl (by omega) f5
  have i1 : nextIns (0xfc50 + n + 1) = 0xfc50 + n + 2 := nextIns_eq (by omega) (by omega)
  have i2 : nextIns (0xfc50 + n + 2) = 0xfc50 + n + 3 := nextIns_eq (by omega) (by omega)
  have i3 : nextIns (0xfc50 + n + 3) = 0xfc50 + n + 4 := nextIns_eq (by omega) (by omega)
  have f7 := Frame.rowFrom (mem := mem) (pc := 0xfc50 + n + 1) (scan := scan) (mode := 2) (scroll := true && t == 0) (place := place) (Or.inl rfl)
    (by
      rw [b1]
      by_cases e : t = 0
      · subst e; rfl
      · simp [e])
    (by rw [i1, i2, b2, b3]; omega)
    (by
      rw [i1, i2, i3, show width 2 = 32 from rfl, nextRow_eq (by omega) (by omega)]
      exact f6)
  rw [show width 2 = 32 from rfl, bytesAt_eq m1.left (by omega)] at f7
  have f8 := Frame.blank (scan := scan) (by omega) n2 (by rw [nextIns_eq (by omega) (by omega)]; exact f7)
  have f9 := frame_blanks (mem := mem) (scan := scan) (m := 7) (again := 0xfc50) (by omega) n 0xfc50 _ (by omega) (by omega) n1 rfl f8
  have e1 : title.length / 32 = t + 1 := by omega
  have e2 : author.length / 32 = a := by omega
  have e3 : date.length / 32 = o := by omega
  unfold titleScreen
  rw [e1, e2, e3, hn, text]
  simpa only [List.append_assoc, List.cons_append, List.nil_append, List.append_nil] using f9

theorem height_append : ∀ s s' : List Strip, height (s ++ s') = height s + height s'
  | [], s' => by simp [height]
  | .blank n :: s, s' => by simp only [List.cons_append, height, height_append s s']; omega
  | .row _ _ _ :: s, s' => by simp only [List.cons_append, height, height_append s s']; omega

theorem characters_append : ∀ s s' : List Strip, characters (s ++ s') = characters s ++ characters s'
  | [], s' => rfl
  | .blank n :: s, s' => by simp only [List.cons_append, characters, characters_append s s']
  | .row _ _ _ :: s, s' => by simp only [List.cons_append, characters, characters_append s s', List.append_assoc]

theorem height_blanks (m : Nat) : ∀ n, height (List.replicate n (.blank m)) = n * m
  | 0 => by simp [height]
  | n + 1 => by rw [List.replicate_succ, height, height_blanks m n, Nat.succ_mul]; omega

theorem height_text (last : Bool) : ∀ n s, height (text last n s) = 8 * n
  | 0, _ => rfl
  | n + 1, s => by rw [text, height, height_text last n]; omega

theorem characters_blanks (m : Nat) : ∀ n, characters (List.replicate n (.blank m)) = []
  | 0 => rfl
  | n + 1 => by rw [List.replicate_succ, characters, characters_blanks m n]

theorem characters_text (last : Bool) : ∀ n s, s.length = 32 * n → characters (text last n s) = s
  | 0, s, h => by
    have : s = [] := List.length_eq_zero_iff.mp (by omega)
    subst this
    rfl
  | n + 1, s, h => by
    rw [text, characters, characters_text last n _ (by rw [List.length_drop]; omega), if_pos rfl, List.take_append_drop]

theorem height_screen {title author date : List Nat} (h : title.length / 32 + author.length / 32 + date.length / 32 ≤ 26) :
    height (titleScreen title author date) = 223 := by
  unfold titleScreen
  simp only [height_append, height_blanks, height_text, height]
  omega

theorem characters_screen {title author date : List Nat} (ht : title.length % 32 = 0) (ha : author.length % 32 = 0) (hd : date.length % 32 = 0) :
    characters (titleScreen title author date) = title ++ author ++ date := by
  unfold titleScreen
  simp only [characters_append, characters_blanks]
  rw [characters_text _ _ _ (by omega), characters_text _ _ _ (by omega), characters_text _ _ _ (by omega)]
  simp [characters]

/-! ## What is written -/

theorem emits_dlLoop : ∀ (n fuel i len : Nat) (scroll : Int), len = i + 32 * n → n < fuel → scroll = (len : Int) - 32 →
    Emits (writeDlLoop fuel i len scroll) (rows true n)
  | 0, fuel + 1, i, len, scroll, h1, _, _ => by
    unfold writeDlLoop
    rw [if_neg (by omega)]
    exact emits_pure
  | n + 1, fuel + 1, i, len, scroll, h1, h2, h3 => by
    unfold writeDlLoop
    rw [if_pos (by omega)]
    refine Emits.seq (a := [2 + (if (true && n == 0) = true then 0x20 else 0)]) ?_ (emits_dlLoop n fuel (i + XexInfo.lineLen) len scroll (by unfold XexInfo.lineLen; omega) (by omega) h3) rfl
    by_cases e : n = 0
    · subst e
      rw [if_pos (by omega)]
      exact emits_byte _
    · rw [if_neg (by omega), if_neg (by simp [e])]
      exact emits_byte _
  | _, 0, _, _, _, _, h, _ => by omega

theorem emits_seq : ∀ l : List Int, Emits (writeSeq l) (l.map toByte)
  | [] => emits_pure
  | v :: l => Emits.seq (emits_byte v) (emits_seq l) rfl

theorem emits_lines {len n : Nat} (h : len = 32 * n) : Emits (writeLines len) (rows false n) := by
  unfold writeLines
  have e : (len + XexInfo.lineLen - 1) / XexInfo.lineLen = n := by unfold XexInfo.lineLen; omega
  rw [e, rows_false]
  have := emits_seq (List.replicate n 2)
  rwa [List.map_replicate, show toByte 2 = 2 from rfl] at this

/-- The part of `xexinfo.obx` that belongs to the first block, after the jump. -/
def program : List Nat := (Obx.xexinfo.drop 9).take 107

/-- The second block of `xexinfo.obx`. -/
def start : List Nat := Obx.xexinfo.drop 120

/-- The data of the first block. -/
def data (t a o place : Nat) (title author date : List Nat) : List Nat :=
  title ++ (List.replicate 8 0x55 ++ (author ++ (date ++ (list t a o place ++ ([0x41, 0x50, 0xfc] ++ program)))))

theorem obx_split : Obx.xexinfo.drop 6 = [0x41, 0x50, 0xfc] ++ program ++ [0x00, 0x01, 0x39, 0x01] ++ start ∧
    (Obx.xexinfo.drop 4).take 2 = [0xdd, 0xfc] ∧ Obx.xexinfo.length = 178 ∧ program.length = 107 ∧ start.length = 58 := by decide +kernel

theorem emits_texts {t a o place : Nat} {title author date : List Nat} (ht : title.length = 32 * (t + 1)) (ha : author.length = 32 * a) (ho : date.length = 32 * o)
    (hp : place + (title.length + 8 + author.length + date.length) = 0xfc50) :
    Emits (writeXexTexts title author date)
      ([place % 256, place / 256, 0xdd, 0xfc] ++ data t a o place title author date ++ [0x00, 0x01, 0x39, 0x01] ++ start) := by
  have e1 : (0xfc50 : Int) - date.length - author.length - 8 - title.length = (place : Nat) := by omega
  have e2 : (title.length + author.length + date.length) / XexInfo.lineLen = t + 1 + a + o := by unfold XexInfo.lineLen; omega
  have hpl : place / 256 % 256 = place / 256 := by omega
  have w : Emits (writeWord (place : Int)) [place % 256, place / 256] := by
    have := emits_word (v := place)
    rwa [hpl] at this
  have all : ∀ l : List Nat, Emits (writeBytes l 0 (l.length : Int)) l := by
    intro l
    have := emits_bytes (a := l) (i := 0) (j := l.length) (by omega) (by omega)
    simpa using this
  obtain ⟨x1, x2, x3, _, _⟩ := obx_split
  unfold writeXexTexts
  dsimp only
  rw [e1, e2]
  refine Emits.seq w (Emits.seq (emits_bytes (a := Obx.xexinfo) (i := 4) (j := 6) (by omega) (by omega)) (Emits.seq (all title) (Emits.seq (emits_seq (List.replicate 8 0x55))
    (Emits.seq (all author) (Emits.seq (all date) (Emits.seq (emits_seq (List.replicate _ 0x70)) (Emits.seq (emits_byte 0x30) (Emits.seq
      (a := [if t = 0 then 0x62 else 0x42] ++ ([place % 256, place / 256] ++ rows true t)) ?_
      (Emits.seq (emits_seq [8, 0]) (Emits.seq (emits_lines ha) (Emits.seq (emits_byte 0x10) (Emits.seq (emits_lines ho)
        (emits_bytes (a := Obx.xexinfo) (i := 6) (j := Obx.xexinfo.length) (by omega) (by omega)) rfl) rfl) rfl) rfl) rfl) rfl) rfl) rfl) rfl) rfl) rfl) rfl) ?_
  · unfold writeXexInfoTextDl
    refine Emits.bind ?_ (Emits.bind w (emits_dlLoop t _ _ _ _ (by unfold XexInfo.lineLen; omega) (by omega) rfl))
    by_cases e : t = 0
    · rw [if_pos (by unfold XexInfo.lineLen; omega), if_pos e]; exact emits_byte _
    · rw [if_neg (by unfold XexInfo.lineLen; omega), if_neg e]; exact emits_byte _
  · rw [show (6 : Nat) - 4 = 2 from rfl, x2, List.take_of_length_le (i := Obx.xexinfo.length - 6) (by rw [List.length_drop]; exact Nat.le_refl _), x1]
    simp only [data, list, List.map_replicate, List.append_assoc, List.cons_append, List.nil_append, show toByte 0x55 = 0x55 from rfl, show toByte 0x70 = 0x70 from rfl,
      show toByte 0x30 = 0x30 from rfl, show toByte 0x10 = 0x10 from rfl, List.map_cons, List.map_nil, show toByte 8 = 8 from rfl, show toByte 0 = 0 from rfl]

/-! ## The texts -/

theorem flow_ne_nil {src : List Nat} (h : src ≠ []) : XexInfo.flow false src [] ≠ [] := by
  intro e
  by_cases hs : ∃ c ∈ src, c ≠ 32
  · obtain ⟨c, hc, h32⟩ := hs
    have f := XexInfo.flow_filter false src []
    rw [e] at f
    have : c ∈ src.filter (· ≠ 32) := List.mem_filter.mpr ⟨hc, by simpa using h32⟩
    simp only [List.filter_nil, List.nil_append] at f
    rw [← f] at this
    cases this
  · cases src with
    | nil => exact h rfl
    | cons c rest =>
      have hc : c = 32 := by
        by_cases g : c = 32
        · exact g
        · exact absurd ⟨c, by simp, g⟩ hs
      have hw : XexInfo.wordLen rest = 0 := by
        cases rest with
        | nil => rfl
        | cons d r =>
          have hd : d = 32 := by
            by_cases g : d = 32
            · exact g
            · exact absurd ⟨d, by simp, g⟩ hs
          subst hd
          simp [XexInfo.wordLen]
      have hst : XexInfo.stepped false c rest [] = [c] := by
        simp [XexInfo.stepped, hw]
      have := XexInfo.flow_le false rest [c]
      rw [XexInfo.flow, hst] at e
      rw [e] at this
      simp at this

theorem format_ok {author : Bool} {column : Nat} (hc : column < 32) {src dest shown : List Nat} (hd : dest.length ≤ 256)
    (h : XexInfo.format dest column src author = .ok shown) : shown = XexInfo.formatted author column src dest ∧ shown.length ≤ 256 ∧ shown.length % 32 = column := by
  rw [XexInfo.format_eq hc src dest hd] at h
  split at h
  · cases h
    exact ⟨rfl, by assumption, XexInfo.formatted_column hc _ _⟩
  · cases h

theorem title_shape {info : Info} {shown : List Nat} (h : XexInfo.title info = .ok shown) : shown.length ≤ 256 ∧ shown.length % 32 = 0 ∧ 0 < shown.length := by
  unfold XexInfo.title at h
  obtain ⟨e, h1, h2⟩ := format_ok (by omega) (by simp) h
  refine ⟨h1, h2, ?_⟩
  rw [e]
  unfold XexInfo.formatted
  rw [XexInfo.length_padded]
  have : XexInfo.flow false (if info.title.length = 0 then ascii "(untitled)" else info.title) [] ≠ [] := by
    refine flow_ne_nil ?_
    split
    · decide
    · rename_i hne
      exact fun g => hne (by rw [g]; rfl)
  have := List.length_pos_iff.mpr this
  omega

theorem author_shape {info : Info} {shown : List Nat} (h : XexInfo.author info = .ok shown) : shown.length ≤ 256 ∧ shown.length % 32 = 0 := by
  unfold XexInfo.author at h
  split at h
  · exact (format_ok (by omega) (by decide) h).2
  · cases h; simp

theorem seconds_length {v : Int} {s : List Nat} (h : Duration.secondsToString v = some s) : s.length = 5 := by
  unfold Duration.secondsToString at h
  split at h
  · cases h
  · simp only [Option.some.injEq] at h
    rw [← h]
    simp [Duration.twoDigits]

/-- The date line ends with the time, if there is one. -/
theorem other_shape {info : Info} {shown : List Nat} (h : XexInfo.other info = .ok shown) : shown.length ≤ 256 ∧ shown.length % 32 = 0 ∧
    ∀ time, 0 < info.durations info.defaultSong → Duration.secondsToString (info.durations info.defaultSong + 999) = some time →
      ∃ d, shown = d ++ time := by
  unfold XexInfo.other at h
  cases h1 : XexInfo.format [] (XexInfo.lineLen - 13) info.date false with
  | error e => rw [h1] at h; cases h
  | ok d1 =>
    obtain ⟨_, l1, _⟩ := format_ok (by decide) (by simp) h1
    rw [h1] at h
    have h : (XexInfo.format d1 (XexInfo.lineLen - 5) (ascii (if info.channels > 1 then " STEREO" else "   MONO")) false >>= fun d => XexInfo.storeTime d (info.durations info.defaultSong)) = .ok shown := h
    cases h2 : XexInfo.format d1 (XexInfo.lineLen - 5) (ascii (if info.channels > 1 then " STEREO" else "   MONO")) false with
    | error e => rw [h2] at h; cases h
    | ok d2 =>
      obtain ⟨_, l2, c2⟩ := format_ok (by decide) l1 h2
      rw [h2] at h
      have h : XexInfo.storeTime d2 (info.durations info.defaultSong) = .ok shown := h
      have c2 : d2.length % 32 = 27 := c2
      have pad : XexInfo.pad d2 0 = .ok shown → shown.length ≤ 256 ∧ shown.length % 32 = 0 := by
        intro hp
        rw [XexInfo.pad_eq (by omega) d2 l2] at hp
        split at hp
        · cases hp
          refine ⟨by assumption, ?_⟩
          rw [XexInfo.length_padded]
          unfold XexInfo.gap
          omega
        · cases hp
      unfold XexInfo.storeTime at h
      split at h
      · rename_i hpos
        cases hs : Duration.secondsToString (info.durations info.defaultSong + 999) with
        | none =>
          rw [hs] at h
          exact ⟨(pad h).1, (pad h).2, fun t _ ht => by cases ht⟩
        | some s =>
          rw [hs] at h
          have l5 := seconds_length hs
          dsimp only at h
          split at h
          · cases h
            refine ⟨by rw [List.length_append]; omega, by rw [List.length_append]; omega, fun t _ ht => ⟨d2, ?_⟩⟩
            cases ht
            rfl
          · cases h
      · rename_i hpos
        exact ⟨(pad h).1, (pad h).2, fun t g _ => absurd g hpos⟩

end Asap.Antic
