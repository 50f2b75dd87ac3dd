import Verif.Lemmas.Writer
import Verif.Lemmas.Sap

/-! The SAP header that is written, as a list of lines, and how `ParseSap` reads such lines. -/

namespace Asap.Sap
open Asap Asap.Spec

/-- A header line: tag and argument. -/
abbrev Line := List Nat × Option (List Nat)

/-- The bytes of the argument, with the separating space. -/
def argBytes : Option (List Nat) → List Nat
  | none => []
  | some a => 32 :: a

/-- The bytes of a line. -/
def lineBytes (l : Line) : List Nat := l.1 ++ argBytes l.2 ++ [13, 10]

/-- Decimal digits, by the recursion of `WriteDec`. -/
def decTextF : Nat → Nat → List Nat
  | 0, _ => []
  | f + 1, v => if v ≥ 10 then decTextF f (v / 10) ++ [48 + v % 10] else [48 + v]

def decText (v : Nat) : List Nat := decTextF (v + 1) v

/-- One hexadecimal digit. -/
def hexChar (d : Nat) : Nat := if d < 10 then 48 + d else 55 + d

/-- Four hexadecimal digits. -/
def hexText (v : Nat) : List Nat :=
  [hexChar (v / 4096 % 16), hexChar (v / 256 % 16), hexChar (v / 16 % 16), hexChar (v % 16)]

/-- A quoted text. -/
def quoted (t : List Nat) : List Nat := 34 :: (if t.length = 0 then ascii "<?>" else t) ++ [34]

def hexLines (tag : List Nat) (v : Int) : List Line :=
  if v < 0 then [] else [(tag, some (hexText v.toNat))]

/-- The `TIME` lines of songs `k`, `k + 1`, ... -/
def timeLines (info : Info) (k : Nat) : Nat → List Line
  | 0 => []
  | n + 1 =>
    if info.durations k < 0 then []
    else (ascii "TIME", some (Duration.durationToString (info.durations k) ++
        (if info.loops k then ascii " LOOP" else []))) :: timeLines info (k + 1) n

/-- All lines after the `SAP` line. -/
def headerLines (info : Info) (type : Nat) (init player : Int) : List Line :=
  [(ascii "AUTHOR", some (quoted info.author)), (ascii "NAME", some (quoted info.title)),
    (ascii "DATE", some (quoted info.date))] ++
  ((if info.songs > 1 then (ascii "SONGS", some (decText info.songs)) ::
      (if info.defaultSong > 0 then [(ascii "DEFSONG", some (decText info.defaultSong))] else [])
    else []) ++
  ((if info.channels > 1 then [(ascii "STEREO", none)] else []) ++
  ((if info.ntsc then [(ascii "NTSC", none)] else []) ++
  ([(ascii "TYPE", some [type])] ++
  ((if info.fastplay ≠ (if type = 83 then 78 else 312) ∨ info.ntsc = true then
      [(ascii "FASTPLAY", some (decText info.fastplay.toNat))] else []) ++
  ((if type = 67 then hexLines (ascii "MUSIC") info.music else []) ++
  (hexLines (ascii "INIT") init ++
  (hexLines (ascii "PLAYER") player ++
  (hexLines (ascii "COVOX") info.covoxAddr ++
  timeLines info 0 info.songs)))))))))

/-- The whole header. -/
def headerBytes (info : Info) (type : Nat) (init player : Int) : List Nat :=
  ascii "SAP\r\n" ++ (headerLines info type init player).flatMap lineBytes

/-! ## Writing -/

theorem emits_crlf : Emits writeCrLf [13, 10] :=
  Emits.seq (emits_byte_nat (by decide)) (emits_byte_nat (by decide)) rfl

theorem emits_decF (f v : Nat) (h : v < f) : Emits (writeDecF f v) (decTextF f v) := by
  induction f generalizing v with
  | zero => omega
  | succ f ih =>
    unfold writeDecF decTextF
    refine emits_ite (fun hv => ?_) fun hv => ?_
    · exact Emits.seq (ih (v / 10) (by omega))
        (by have := emits_byte_nat (v := 48 + v % 10) (by omega); simpa using this) rfl
    · have := emits_byte_nat (v := 48 + v) (by omega); simpa using this

theorem emits_dec (v : Nat) : Emits (writeDec v) (decText v) := emits_decF _ _ (by omega)

theorem allBytes_ascii {s : List Nat} (h : s.all (· < 256) = true) : AllBytes s := by
  intro b hb
  simpa using (List.all_eq_true.1 h) b hb

theorem emits_hexDigit {d : Nat} (h : d < 16) : Emits (writeHexDigit (d : Int)) [hexChar d] := by
  have e : (d : Int) + (if (d : Int) < 10 then 48 else 65 - 10) = (hexChar d : Nat) := by
    unfold hexChar
    split <;> split <;> omega
  have hb : hexChar d < 256 := by unfold hexChar; split <;> omega
  unfold writeHexDigit
  rw [e]
  exact emits_byte_nat hb

theorem emits_hexTag {tag : List Nat} (ht : AllBytes tag) (v : Int) :
    Emits (writeHexSapTag (tag ++ [32]) v) ((hexLines tag v).flatMap lineBytes) := by
  unfold writeHexSapTag hexLines
  split
  · exact emits_pure
  · rename_i h
    obtain ⟨n, rfl⟩ := Int.eq_ofNat_of_zero_le (Int.not_lt.1 h)
    have ht' : AllBytes (tag ++ [32]) := by
      intro b hb; rcases List.mem_append.1 hb with hb | hb
      · exact ht b hb
      · simp at hb; omega
    have e1 : (n : Int) / 4096 % 16 = ((n / 4096 % 16 : Nat) : Int) := by omega
    have e2 : (n : Int) / 256 % 16 = ((n / 256 % 16 : Nat) : Int) := by omega
    have e3 : (n : Int) / 16 % 16 = ((n / 16 % 16 : Nat) : Int) := by omega
    have e4 : (n : Int) % 16 = ((n % 16 : Nat) : Int) := by omega
    rw [e1, e2, e3, e4]
    refine Emits.seq (emits_string ht') (Emits.seq (emits_hexDigit (by omega)) (Emits.seq (emits_hexDigit (by omega))
      (Emits.seq (emits_hexDigit (by omega)) (Emits.seq (emits_hexDigit (by omega)) emits_crlf rfl) rfl) rfl) rfl) ?_
    simp [lineBytes, argBytes, hexText]

theorem emits_textTag {tag t : List Nat} (ht : AllBytes (tag ++ [32])) (hv : AllBytes t) :
    Emits (writeTextSapTag (tag ++ [32]) t) (lineBytes (tag, some (quoted t))) := by
  unfold writeTextSapTag
  have hq : AllBytes (if t.length = 0 then ascii "<?>" else t) := by
    split
    · exact allBytes_ascii rfl
    · exact hv
  refine Emits.seq (emits_string ht) (Emits.seq (emits_byte_nat (by decide)) (Emits.seq (emits_string hq)
    (Emits.seq (emits_byte_nat (by decide)) emits_crlf rfl) rfl) rfl) ?_
  simp [lineBytes, argBytes, quoted]

theorem emits_decTag {tag : List Nat} (ht : AllBytes (tag ++ [32])) (v : Nat) :
    Emits (writeDecSapTag (tag ++ [32]) v) (lineBytes (tag, some (decText v))) := by
  unfold writeDecSapTag
  refine Emits.seq (emits_string ht) (Emits.seq (emits_dec v) emits_crlf rfl) ?_
  simp [lineBytes, argBytes]

theorem emits_times (info : Info) (k n : Nat) :
    Emits (writeTimes info k n) ((timeLines info k n).flatMap lineBytes) := by
  induction n generalizing k with
  | zero => exact emits_pure
  | succ n ih =>
    unfold writeTimes timeLines
    split
    · exact emits_pure
    · have hb := emits_bytes (a := Duration.durationToString (info.durations k)) (Nat.zero_le _) (Nat.le_refl _)
      simp only [List.drop_zero, Nat.sub_zero, List.take_length] at hb
      refine Emits.seq (emits_string (s := ascii "TIME ") (allBytes_ascii rfl)) (Emits.seq hb (Emits.seq
        (emits_when fun _ => emits_string (s := ascii " LOOP") (allBytes_ascii rfl)) (Emits.seq emits_crlf (ih (k + 1)) rfl) rfl) rfl) ?_
      simp [lineBytes, argBytes]
      rfl

theorem emits_header (info : Info) (type : Nat) (init player : Int) (ht : type < 256)
    (ha : AllBytes info.author) (hn : AllBytes info.title) (hd : AllBytes info.date) :
    Emits (writeSapHeader info type init player) (headerBytes info type init player) := by
  unfold writeSapHeader
  have key : ∀ (s : String), (ascii s).all (· < 256) = true → AllBytes (ascii s) := fun s h => allBytes_ascii h
  refine Emits.seq (emits_string (key "SAP\r\n" rfl))
    (Emits.seq (emits_textTag (tag := ascii "AUTHOR") (key "AUTHOR " rfl) ha)
    (Emits.seq (emits_textTag (tag := ascii "NAME") (key "NAME " rfl) hn)
    (Emits.seq (emits_textTag (tag := ascii "DATE") (key "DATE " rfl) hd)
    (Emits.seq (emits_when fun _ => Emits.seq (emits_decTag (tag := ascii "SONGS") (key "SONGS " rfl) _)
      (emits_when fun _ => emits_decTag (tag := ascii "DEFSONG") (key "DEFSONG " rfl) _) rfl)
    (Emits.seq (emits_when fun _ => emits_string (key "STEREO\r\n" rfl))
    (Emits.seq (emits_when fun _ => emits_string (key "NTSC\r\n" rfl))
    (Emits.seq (emits_string (key "TYPE " rfl)) (Emits.seq (emits_byte_nat ht) (Emits.seq emits_crlf
    (Emits.seq (emits_when fun _ => emits_decTag (tag := ascii "FASTPLAY") (key "FASTPLAY " rfl) _)
    (Emits.seq (emits_when fun _ => emits_hexTag (tag := ascii "MUSIC") (key _ rfl) _)
    (Emits.seq (emits_hexTag (tag := ascii "INIT") (key _ rfl) _)
    (Emits.seq (emits_hexTag (tag := ascii "PLAYER") (key _ rfl) _)
    (Emits.seq (emits_hexTag (tag := ascii "COVOX") (key _ rfl) _)
    (emits_times _ _ _) rfl) rfl) rfl) rfl) rfl) rfl) rfl) rfl) rfl) rfl) rfl) rfl) rfl) rfl) ?_
  unfold headerBytes headerLines
  simp only [List.flatMap_append, List.append_assoc, List.flatMap_cons, List.flatMap_nil, List.append_nil]
  have e : ∀ (c : Prop) [Decidable c] (a b : List Line), (if c then a else b).flatMap lineBytes =
      if c then a.flatMap lineBytes else b.flatMap lineBytes := by
    intro c _ a b; split <;> rfl
  simp only [e, List.flatMap_cons, List.flatMap_nil, List.append_nil]
  congr 7

/-! ## Reading -/

theorem ok_bind {α β : Type} (a : α) (f : α → M β) : ((Except.ok a : M α) >>= f) = f a := rfl

theorem rd_mid (p t : List Nat) (c : Nat) : rd (p ++ c :: t) p.length = .ok c := by
  unfold rd; simp

theorem scanTag_run (p tag : List Nat) (c : Nat) (q : List Nat) (fuel : Nat)
    (ht : ∀ x ∈ tag, 32 < x) (hc : c ≤ 32) (hf : tag.length < fuel) :
    scanTag (p ++ tag ++ c :: q) fuel p.length = .ok (p.length + tag.length) := by
  induction tag generalizing p fuel with
  | nil =>
    obtain ⟨f, rfl⟩ : ∃ f, fuel = f + 1 := ⟨fuel - 1, by simp at hf; omega⟩
    simp only [List.append_nil, List.length_nil, Nat.add_zero]
    unfold scanTag
    rw [rd_mid]
    rw [ok_bind]
    rw [if_neg (by omega)]
  | cons x tag ih =>
    obtain ⟨f, rfl⟩ : ∃ f, fuel = f + 1 := ⟨fuel - 1, by simp at hf; omega⟩
    have hx := ht x (by simp)
    unfold scanTag
    rw [List.append_assoc, List.cons_append, rd_mid]
    rw [ok_bind]
    rw [if_pos (by omega), if_neg (by simp)]
    have := ih (p ++ [x]) f (fun y hy => ht y (by simp [hy])) (by simp at hf; omega)
    simp only [List.append_assoc, List.length_append, List.length_singleton, List.cons_append, List.nil_append] at this
    rw [this]
    simp only [List.length_cons, Except.ok.injEq]
    omega

/-- Characters of an argument. -/
def ArgChar (c : Nat) : Prop := c ≠ 10 ∧ (c ≤ 32 ∨ isValidChar c = true)

theorem argChar_valid {c : Nat} (h : ArgChar c) (h2 : 32 < c) : isValidChar c = true := by
  rcases h.2 with h | h
  · omega
  · exact h

/-- Reading the rest of an argument after its first character. -/
theorem scanArg_some (p l q : List Nat) (k a : Nat) (ae : Option Nat) (hl : ∀ x ∈ l, ArgChar x) (hq : q ≠ [])
    (hlast : ∀ x, l.getLast? = some x → 32 < x) :
    ∃ ae', scanArg (p ++ l ++ q) (k + l.length) p.length (some a) ae =
        scanArg (p ++ l ++ q) k (p.length + l.length) (some a) ae' ∧ (l = [] → ae' = ae) ∧ (l ≠ [] → ae' = none) := by
  induction l generalizing p ae with
  | nil => exact ⟨ae, rfl, fun _ => rfl, fun h => absurd rfl h⟩
  | cons x l ih =>
    have hx := hl x (by simp)
    have hlen : ¬ (p.length + 1 ≥ (p ++ x :: (l ++ q)).length) := by
      cases q with
      | nil => exact absurd rfl hq
      | cons => simp
    have step : ∃ ae1, scanArg (p ++ (x :: l) ++ q) (k + (x :: l).length) p.length (some a) ae =
        scanArg (p ++ (x :: l) ++ q) (k + l.length) (p.length + 1) (some a) ae1 ∧ (32 < x → ae1 = none) := by
      rw [List.append_assoc, List.cons_append, List.length_cons, ← Nat.add_assoc]
      by_cases h32 : 32 < x
      · refine ⟨none, ?_, fun _ => rfl⟩
        rw [scanArg, rd_mid]
        rw [ok_bind]
        rw [if_pos h32, if_neg (by simp [argChar_valid hx h32]), if_neg hlen]
        rfl
      · refine ⟨some (ae.getD p.length), ?_, fun h => absurd h h32⟩
        rw [scanArg, rd_mid]
        rw [ok_bind]
        rw [if_neg h32]
        have := hx.1
        rw [if_neg (by omega), if_neg hlen]
    obtain ⟨ae1, e1, n1⟩ := step
    obtain ⟨ae2, e2, n2, n3⟩ := ih (p ++ [x]) ae1 (fun y hy => hl y (by simp [hy])) (by
      intro y hy
      cases l with
      | nil => simp at hy
      | cons z l => exact hlast y (by simpa using hy))
    refine ⟨ae2, ?_, by simp, ?_⟩
    · rw [e1]
      simp only [List.append_assoc, List.length_append, List.length_singleton, List.cons_append, List.nil_append] at e2 ⊢
      rw [e2]
      simp [Nat.add_assoc, Nat.add_comm 1]
    · intro _
      cases l with
      | nil =>
        rw [n2 rfl]
        exact n1 (hlast x (by simp))
      | cons => exact n3 (by simp)

/-- Arguments as they may appear in a line: valid characters, no space at either end. -/
structure ArgOk (a : List Nat) : Prop where
  chars : ∀ x ∈ a, ArgChar x
  first : ∃ c t, a = c :: t ∧ 32 < c
  last : ∀ x, a.getLast? = some x → 32 < x

theorem scanArg_arg (p a q : List Nat) (fuel : Nat) (h : ArgOk a) (hf : a.length + 3 ≤ fuel) (hq : 0 < q.length) :
    scanArg (p ++ 32 :: (a ++ 13 :: 10 :: q)) fuel p.length none none =
      .ok (some (p.length + 1), p.length + 1 + a.length, p.length + 1 + a.length + 1) := by
  obtain ⟨c, t, rfl, hc⟩ := h.first
  simp only [List.length_cons] at hf
  obtain ⟨k, rfl⟩ : ∃ k, fuel = (((k + 2) + t.length) + 1) + 1 := ⟨fuel - t.length - 4, by omega⟩
  -- the space
  rw [scanArg, rd_mid]
  rw [ok_bind]
  rw [if_neg (by omega)]
  simp only []
  rw [if_neg (by omega), if_neg (by simp)]
  -- the first character
  have e : p ++ 32 :: (c :: t ++ 13 :: 10 :: q) = (p ++ [32]) ++ c :: (t ++ 13 :: 10 :: q) := by simp
  rw [e, show p.length + 1 = (p ++ [32]).length by simp, scanArg, rd_mid]
  rw [ok_bind]
  have hcv : ArgChar c := h.chars c (by simp)
  rw [if_pos (by omega), if_neg (by simp [argChar_valid hcv hc]), if_neg (by simp; omega)]
  show scanArg _ _ _ (some (p ++ [32]).length) none = _
  have e2 : (p ++ [32]) ++ c :: (t ++ 13 :: 10 :: q) = (p ++ [32, c]) ++ t ++ (13 :: 10 :: q) := by simp
  have e2' : (p ++ [32]).length + 1 = (p ++ [32, c]).length := by simp
  rw [e2, e2']
  obtain ⟨ae', e3, n1, n2⟩ := scanArg_some (p ++ [32, c]) t (13 :: 10 :: q) (k + 2) (p ++ [32]).length none
    (fun x hx => h.chars x (by simp [hx])) (by simp) (by
      intro x hx
      cases t with
      | nil => simp at hx
      | cons z t => exact h.last x (by simpa using hx))
  have hae : ae' = none := by
    cases t with
    | nil => exact n1 rfl
    | cons => exact n2 (by simp)
  rw [e3, hae]
  -- CR
  rw [show (p ++ [32, c]).length + t.length = (p ++ [32, c] ++ t).length by simp; omega, scanArg, rd_mid]
  rw [ok_bind]
  rw [if_neg (by omega)]
  simp only []
  rw [if_neg (by omega), if_neg (by simp; omega)]
  -- LF
  have e4 : p ++ [32, c] ++ t ++ 13 :: 10 :: q = (p ++ [32, c] ++ t ++ [13]) ++ 10 :: q := by simp
  rw [e4, show (p ++ [32, c] ++ t).length + 1 = (p ++ [32, c] ++ t ++ [13]).length by simp; omega, scanArg, rd_mid]
  rw [ok_bind]
  rw [if_neg (by omega)]
  simp only [if_true]
  simp; omega

theorem scanArg_none (p q : List Nat) (fuel : Nat) (hf : 2 ≤ fuel) :
    scanArg (p ++ 13 :: 10 :: q) fuel p.length none none = .ok (none, p.length, p.length + 1) := by
  obtain ⟨k, rfl⟩ : ∃ k, fuel = (k + 1) + 1 := ⟨fuel - 2, by omega⟩
  rw [scanArg, rd_mid]
  rw [ok_bind]
  rw [if_neg (by omega)]
  simp only []
  rw [if_neg (by omega), if_neg (by simp)]
  have e4 : p ++ 13 :: 10 :: q = (p ++ [13]) ++ 10 :: q := by simp
  rw [e4, show p.length + 1 = (p ++ [13]).length by simp, scanArg, rd_mid]
  rw [ok_bind]
  rw [if_neg (by omega)]
  simp only [if_true]
  simp

/-- Well-formed lines. -/
structure LineOk (l : Line) : Prop where
  tag : ∀ x ∈ l.1, 32 < x ∧ x < 255
  nonempty : l.1 ≠ []
  arg : ∀ a, l.2 = some a → ArgOk a

/-- `argStart` of a line whose tag ends at `n`. -/
def argStart (n : Nat) : Option (List Nat) → Option Nat
  | none => none
  | some _ => some (n + 1)

/-- `argEnd` of such a line. -/
def argStop (n : Nat) : Option (List Nat) → Nat
  | none => n
  | some a => n + 1 + a.length

/-- `handleTag` on this line, wherever it is in the file, turns `s` into `s'`. -/
def Handles (l : Line) (s s' : St) : Prop :=
  ∀ p q : List Nat,
    handleTag (p ++ (lineBytes l ++ q)) s l.1
      (argStart (p.length + l.1.length) l.2) (argStop (p.length + l.1.length) l.2) = .ok s'

/-- A list of lines is read. -/
inductive Runs : List Line → St → St → Prop
  | nil (s) : Runs [] s s
  | cons {l ls s s1 s2} : LineOk l → Handles l s s1 → Runs ls s1 s2 → Runs (l :: ls) s s2

theorem Runs.append {a b s s1 s2} (h1 : Runs a s s1) (h2 : Runs b s1 s2) : Runs (a ++ b) s s2 := by
  induction h1 with
  | nil => exact h2
  | cons hl hh _ ih => exact .cons hl hh (ih h2)

theorem Runs.single {l s s1} (hl : LineOk l) (hh : Handles l s s1) : Runs [l] s s1 :=
  .cons hl hh (.nil _)

theorem slice_mid (p t q : List Nat) : slice (p ++ (t ++ q)) p.length t.length = .ok t := by
  unfold slice
  rw [if_pos (by simp), List.drop_left, List.take_left]

theorem parseLines_cons (p : List Nat) (l : Line) (q : List Nat) (fuel : Nat) (s s1 : St) (hl : LineOk l)
    (hh : Handles l s s1) (hq : 7 ≤ q.length) :
    parseLines (p ++ (lineBytes l ++ q)) (fuel + 1) s p.length =
      parseLines (p ++ (lineBytes l ++ q)) fuel s1 (p.length + (lineBytes l).length) := by
  obtain ⟨tag, arg⟩ := l
  obtain ⟨x, tag', rfl⟩ : ∃ x t, tag = x :: t := by
    cases tag with
    | nil => exact absurd rfl hl.nonempty
    | cons x t => exact ⟨x, t, rfl⟩
  have hx := hl.tag x (by simp)
  have hrd : rd (p ++ (lineBytes (x :: tag', arg) ++ q)) p.length = .ok x := by
    simp only [lineBytes, List.cons_append]; exact rd_mid _ _ _
  rw [parseLines, hrd]
  rw [ok_bind]
  rw [if_neg (by omega)]
  -- the tag
  have htag : scanTag (p ++ (lineBytes (x :: tag', arg) ++ q)) (p ++ (lineBytes (x :: tag', arg) ++ q)).length p.length =
      .ok (p.length + (x :: tag').length) := by
    cases arg with
    | none =>
      have := scanTag_run p (x :: tag') 13 (10 :: q) (p ++ (lineBytes (x :: tag', none) ++ q)).length
        (fun y hy => (hl.tag y hy).1) (by omega) (by simp [lineBytes]; omega)
      rw [← this]; congr 1; simp [lineBytes, argBytes]
    | some a =>
      have := scanTag_run p (x :: tag') 32 (a ++ 13 :: 10 :: q) (p ++ (lineBytes (x :: tag', some a) ++ q)).length
        (fun y hy => (hl.tag y hy).1) (by omega) (by simp [lineBytes]; omega)
      rw [← this]; congr 1; simp [lineBytes, argBytes]
  have harg : scanArg (p ++ (lineBytes (x :: tag', arg) ++ q)) (p ++ (lineBytes (x :: tag', arg) ++ q)).length
      (p.length + (x :: tag').length) none none =
      .ok (argStart (p.length + (x :: tag').length) arg, argStop (p.length + (x :: tag').length) arg, p.length + (lineBytes (x :: tag', arg)).length - 1) := by
    cases arg with
    | none =>
      have := scanArg_none (p ++ (x :: tag')) q (p ++ (lineBytes (x :: tag', none) ++ q)).length (by simp [lineBytes]; omega)
      rw [List.length_append (as := p) (bs := x :: tag')] at this
      have e : p ++ (lineBytes (x :: tag', none) ++ q) = p ++ x :: tag' ++ 13 :: 10 :: q := by simp [lineBytes, argBytes]
      rw [e] at this ⊢
      rw [this]
      simp [lineBytes, argBytes, argStart, argStop]
      omega
    | some a =>
      have ha := hl.arg a rfl
      have := scanArg_arg (p ++ (x :: tag')) a q (p ++ (lineBytes (x :: tag', some a) ++ q)).length ha (by
        simp [lineBytes, argBytes]; omega) (by omega)
      rw [List.length_append (as := p) (bs := x :: tag')] at this
      have e : p ++ (lineBytes (x :: tag', some a) ++ q) = p ++ x :: tag' ++ 32 :: (a ++ 13 :: 10 :: q) := by
        simp [lineBytes, argBytes]
      rw [e] at this ⊢
      rw [this]
      simp [lineBytes, argBytes, argStart, argStop]
      omega
  have hlen : (lineBytes (x :: tag', arg)).length ≥ 2 := by simp [lineBytes]; omega
  rw [htag, ok_bind, harg, ok_bind]
  simp only []
  rw [if_neg (by simp only [List.length_append]; omega)]
  have hsl : slice (p ++ (lineBytes (x :: tag', arg) ++ q)) p.length (p.length + (x :: tag').length - p.length) = .ok (x :: tag') := by
    rw [Nat.add_sub_cancel_left]
    have := slice_mid p (x :: tag') (argBytes arg ++ [13, 10] ++ q)
    rw [← this]; congr 1; simp [lineBytes]
  rw [hsl, ok_bind]
  have := hh p q
  simp only [] at this
  rw [this, ok_bind]
  congr 1

theorem parseLines_runs (p : List Nat) (ls : List Line) (q : List Nat) (fuel : Nat) (s s1 : St)
    (h : Runs ls s s1) (hq : 6 ≤ q.length) (hf : ls.length < fuel) :
    parseLines (p ++ (ls.flatMap lineBytes ++ 0xff :: q)) fuel s p.length =
      .ok (s1, p.length + (ls.flatMap lineBytes).length) := by
  induction h generalizing p fuel with
  | nil =>
    obtain ⟨k, rfl⟩ : ∃ k, fuel = k + 1 := ⟨fuel - 1, by simp at hf; omega⟩
    simp only [List.flatMap_nil, List.nil_append]
    rw [parseLines, rd_mid]
    rfl
  | @cons l ls s s1 s2 hl hh hr ih =>
    obtain ⟨k, rfl⟩ : ∃ k, fuel = k + 1 := ⟨fuel - 1, by simp at hf; omega⟩
    simp only [List.flatMap_cons, List.append_assoc]
    rw [parseLines_cons p l _ k s s1 hl hh (by simp; omega)]
    have := ih (p ++ lineBytes l) k (by simp at hf; omega)
    simp only [List.append_assoc, List.length_append] at this
    rw [this]
    simp [Nat.add_assoc]

end Asap.Sap
