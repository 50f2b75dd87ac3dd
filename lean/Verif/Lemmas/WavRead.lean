import Verif.Lemmas.Wav

/-! Reading the header back. -/

namespace Asap.Wav
open Asap.Spec

theorem le32_le4 {v : Int} (h : 0 ≤ v ∧ v < 4294967296) (r : List Nat) : le32 (le4 v ++ r) = v.toNat := by
  show toByte (v % 256) + 256 * (toByte (v / 256 % 256) + 256 * (toByte (v / 65536 % 256) + 256 * toByte (v / 16777216 % 256))) = _
  unfold toByte
  omega

/-- Reading a chunk of even size. -/
theorem chunks_even {strict : Bool} {n a b c d : Nat} {body rest : List Nat} (he : body.length % 2 = 0) (hl : body.length < 4294967296) :
    chunks strict (n + 1) ([a, b, c, d] ++ le4 (body.length : Nat) ++ (body ++ rest)) =
      (chunks strict n rest).map (([a, b, c, d], body) :: ·) := by
  have h1 : le32 (le4 (body.length : Nat) ++ (body ++ rest)) = body.length := by rw [le32_le4 (by omega)]; omega
  show (if ([a, b, c, d] ++ le4 (body.length : Nat) ++ (body ++ rest)).length < 8 ∨
      (body ++ rest).length < le32 (le4 (body.length : Nat) ++ (body ++ rest)) then none
    else if le32 (le4 (body.length : Nat) ++ (body ++ rest)) % 2 = 1 ∧
      (body ++ rest).length = le32 (le4 (body.length : Nat) ++ (body ++ rest)) ∧ strict = true then none
    else match chunks strict n ((body ++ rest).drop (le32 (le4 (body.length : Nat) ++ (body ++ rest)) +
        le32 (le4 (body.length : Nat) ++ (body ++ rest)) % 2)) with
      | some cs => some (([a, b, c, d], (body ++ rest).take (le32 (le4 (body.length : Nat) ++ (body ++ rest)))) :: cs)
      | none => none) = _
  rw [h1, he, if_neg (by simp only [List.length_append, le4_length, List.length_cons, List.length_nil]; omega), if_neg (by omega),
    Nat.add_zero, List.take_left, List.drop_left]
  cases chunks strict n rest <;> rfl

/-- Reading the last chunk. -/
theorem chunks_last {strict : Bool} {n a b c d : Nat} {body : List Nat} (hl : body.length < 4294967296) :
    chunks strict (n + 1) ([a, b, c, d] ++ le4 (body.length : Nat) ++ body) =
      if body.length % 2 = 1 ∧ strict = true then none else some [([a, b, c, d], body)] := by
  have h1 : le32 (le4 (body.length : Nat) ++ body) = body.length := by rw [le32_le4 (by omega)]; omega
  show (if ([a, b, c, d] ++ le4 (body.length : Nat) ++ body).length < 8 ∨
      body.length < le32 (le4 (body.length : Nat) ++ body) then none
    else if le32 (le4 (body.length : Nat) ++ body) % 2 = 1 ∧
      body.length = le32 (le4 (body.length : Nat) ++ body) ∧ strict = true then none
    else match chunks strict n (body.drop (le32 (le4 (body.length : Nat) ++ body) +
        le32 (le4 (body.length : Nat) ++ body) % 2)) with
      | some cs => some (([a, b, c, d], body.take (le32 (le4 (body.length : Nat) ++ body))) :: cs)
      | none => none) = _
  have h2 : chunks strict n [] = some [] := by cases n <;> rfl
  rw [h1, if_neg (by simp only [List.length_append, le4_length, List.length_cons, List.length_nil]; omega)]
  by_cases hc : body.length % 2 = 1 ∧ strict = true
  · rw [if_pos hc, if_pos ⟨hc.1, rfl, hc.2⟩]
  · rw [if_neg hc, if_neg fun h => hc ⟨h.1, h.2.2⟩, List.drop_eq_nil_of_le (by omega), h2, List.take_length]

/-! ### The list of texts -/

theorem zeros_length (s : List Nat) : (s ++ zeros s.length).length = s.length / 2 * 2 + 2 := by
  unfold zeros
  rw [List.length_append]
  split <;> simp only [List.length_cons, List.length_nil] <;> omega

theorem zText_text {s : List Nat} (h : 0 ∉ s) (r : List Nat) : zText (s ++ 0 :: r) = s := by
  unfold zText
  rw [List.takeWhile_append_of_pos (by intro x hx; simp; intro e; exact h (e ▸ hx))]
  simp

theorem zText_zeros {s : List Nat} (h : 0 ∉ s) : zText (s ++ zeros s.length) = s := by
  unfold zeros
  split <;> exact zText_text h _

theorem zero_mem_zeros (s : List Nat) : 0 ∈ s ++ zeros s.length := by
  unfold zeros
  split <;> simp

/-- Chunks read from a list of chunks. -/
def textChunks (id s : List Nat) : List (List Nat × List Nat) := if s = [] then [] else [(id, s ++ zeros s.length)]

def yearChunks (y : Int) : List (List Nat × List Nat) := if y > 0 then [([73, 67, 82, 68], digits4 y ++ [0, 0])] else []

theorem chunks_text {n a b c d : Nat} {s rest : List Nat} (hl : s.length < 4000000000) :
    ∃ k, k ≤ 1 ∧ chunks true (n + 1) (textChunk [a, b, c, d] s ++ rest) = (chunks true (n + 1 - k) rest).map (textChunks [a, b, c, d] s ++ ·) := by
  unfold textChunk textChunks
  by_cases h : s = []
  · refine ⟨0, by omega, ?_⟩
    rw [if_pos h, if_pos h]
    show chunks true (n + 1) rest = (chunks true (n + 1) rest).map _
    cases chunks true (n + 1) rest <;> rfl
  · refine ⟨1, by omega, ?_⟩
    rw [if_neg h, if_neg h, ← zeros_length s, List.append_assoc]
    exact chunks_even (by rw [zeros_length]; omega) (by rw [zeros_length]; omega)

theorem chunks_year {n : Nat} {y : Int} : chunks true (n + 1) (yearChunk y) = some (yearChunks y) := by
  unfold yearChunk yearChunks
  by_cases h : y > 0
  · rw [if_pos h, if_pos h]
    have := chunks_last (strict := true) (n := n) (a := 73) (b := 67) (c := 82) (d := 68) (body := digits4 y ++ [0, 0])
      (by show 6 < _; decide)
    rw [if_neg (by show ¬(6 % 2 = 1 ∧ _); omega)] at this
    exact this
  · rw [if_neg h, if_neg h]
    rfl

theorem infoTexts_body {info : Info} {year : Int} (hy : year ≤ 9999) (ht : 0 ∉ info.title) (ha : 0 ∉ info.author)
    (hl : info.title.length < 4000000000) (hl' : info.author.length < 4000000000) :
    infoTexts (infoBody info year) = some (expectedInfo info.title info.author year) := by
  unfold infoTexts
  rw [if_pos (show (infoBody info year).take 4 = ascii "INFO" by rw [show ascii "INFO" = [73, 78, 70, 79] by decide]; rfl)]
  have e : ∃ n, (infoBody info year).length = n + 1 + 1 + 1 := ⟨(infoBody info year).length - 3, by
    have : 4 ≤ (infoBody info year).length := by unfold infoBody; rw [List.length_append]; simp only [List.length_cons, List.length_nil]; omega
    omega⟩
  obtain ⟨n, hn⟩ := e
  rw [hn]
  show (match chunks true (n + 1 + 1 + 1) (textChunk [73, 78, 65, 77] info.title ++ (textChunk [73, 65, 82, 84] info.author ++ yearChunk year)) with
    | some cs => if cs.all (fun c => decide (0 ∈ c.2)) = true then some (cs.map fun c : List Nat × List Nat => (c.1, zText c.2)) else none
    | none => none) = _
  obtain ⟨k, hk, h1⟩ := chunks_text (n := n + 1 + 1) (a := 73) (b := 78) (c := 65) (d := 77) (s := info.title)
    (rest := textChunk [73, 65, 82, 84] info.author ++ yearChunk year) hl
  obtain ⟨n2, hn2⟩ : ∃ n2, n + 1 + 1 + 1 - k = n2 + 1 + 1 := ⟨n + 1 - k, by omega⟩
  obtain ⟨k2, hk2, h2⟩ := chunks_text (n := n2 + 1) (a := 73) (b := 65) (c := 82) (d := 84) (s := info.author)
    (rest := yearChunk year) hl'
  obtain ⟨n3, hn3⟩ : ∃ n3, n2 + 1 + 1 - k2 = n3 + 1 := ⟨n2 + 1 - k2, by omega⟩
  rw [h1, hn2, h2, hn3, chunks_year]
  show (if (textChunks [73, 78, 65, 77] info.title ++ (textChunks [73, 65, 82, 84] info.author ++ yearChunks year)).all
      (fun c => decide (0 ∈ c.2)) = true then
    some ((textChunks [73, 78, 65, 77] info.title ++ (textChunks [73, 65, 82, 84] info.author ++ yearChunks year)).map
      fun c => (c.1, zText c.2)) else none) = _
  have all1 : ∀ id s, (textChunks id s).all (fun c => decide (0 ∈ c.2)) = true := by
    intro id s
    unfold textChunks
    split
    · rfl
    · simpa using zero_mem_zeros s
  have all2 : (yearChunks year).all (fun c => decide (0 ∈ c.2)) = true := by
    unfold yearChunks
    split
    · simp
    · rfl
  have map1 : ∀ id s, 0 ∉ s → (textChunks id s).map (fun c => (c.1, zText c.2)) = if s = [] then [] else [(id, s)] := by
    intro id s hs
    unfold textChunks
    by_cases h : s = []
    · rw [if_pos h, if_pos h]; rfl
    · rw [if_neg h, if_neg h]
      show [(id, zText (s ++ zeros s.length))] = _
      rw [zText_zeros hs]
  have map2 : (yearChunks year).map (fun c => (c.1, zText c.2)) = if year > 0 then [([73, 67, 82, 68], digits4 year)] else [] := by
    unfold yearChunks
    by_cases h : year > 0
    · rw [if_pos h, if_pos h]
      show [([73, 67, 82, 68], zText (digits4 year ++ [0, 0]))] = _
      rw [zText_text (by unfold digits4; simp; omega)]
    · rw [if_neg h, if_neg h]; rfl
  rw [List.all_append, List.all_append, all1, all1, all2, if_pos (by rfl), List.map_append, List.map_append, map1 _ _ ht, map1 _ _ ha, map2]
  unfold expectedInfo
  rw [List.append_assoc]
  rfl

/-- Length of the list of texts. -/
theorem infoBody_length (info : Info) (year : Int) : (infoBody info year).length % 2 = 0 ∧
    (infoBody info year).length ≤ info.title.length + info.author.length + 38 ∧
    (info.title.length ≤ 127 → info.author.length ≤ 127 → (infoBody info year).length ≤ 290) := by
  have h1 : ∀ id s, id.length = 4 → (textChunk id s).length % 2 = 0 ∧ (textChunk id s).length ≤ s.length + 10 ∧
      (s.length ≤ 127 → (textChunk id s).length ≤ 136) := by
    intro id s hid
    unfold textChunk
    split
    · simp
    · rw [List.length_append, List.length_append, zeros_length, le4_length, hid]
      omega
  have h2 : (yearChunk year).length % 2 = 0 ∧ (yearChunk year).length ≤ 14 := by
    unfold yearChunk
    split
    · show 14 % 2 = 0 ∧ 14 ≤ 14
      omega
    · simp
  have a1 := h1 [73, 78, 65, 77] info.title rfl
  have a2 := h1 [73, 65, 82, 84] info.author rfl
  unfold infoBody
  simp only [List.length_append, List.length_cons, List.length_nil]
  omega

theorem readWav_riff {strict : Bool} {v : Int} {rest : List Nat} (hv : v = 4 + rest.length) (hl : 4 + rest.length < 4294967296) :
    readWav strict ([82, 73, 70, 70] ++ (le4 v ++ ([87, 65, 86, 69] ++ rest))) = (chunks strict (12 + rest.length) rest).bind wavOf := by
  have hlen : ([82, 73, 70, 70] ++ (le4 v ++ ([87, 65, 86, 69] ++ rest))).length = 12 + rest.length := by
    simp only [List.length_append, List.length_cons, List.length_nil, le4_length]
    omega
  unfold readWav
  rw [hlen, if_neg]
  · rfl
  · rintro (h | h | h | h)
    · omega
    · exact h rfl
    · have h : le32 (le4 v ++ ([87, 65, 86, 69] ++ rest)) + 8 ≠ 12 + rest.length := h
      rw [le32_le4 (by omega)] at h
      omega
    · exact h rfl

/-- The body of the format chunk. -/
def fmtBody (channels : Nat) (rate size bits : Int) : List Nat :=
  [1, 0, toByte channels, 0] ++ le4 rate ++ le4 (rate * size) ++ [toByte size, 0, toByte bits, 0]

theorem pcm_fmt {channels : Nat} {rate size bits : Int} (info : List (List Nat × List Nat)) (data : List Nat)
    (hc : channels < 256) (hr : 0 ≤ rate ∧ rate < 4294967296) (hz : 0 ≤ size ∧ size < 256) (hrz : rate * size < 4294967296)
    (hb : 0 ≤ bits ∧ bits < 256) : pcm (fmtBody channels rate size bits) info data =
      some ⟨channels, rate.toNat, (rate * size).toNat, size.toNat, bits.toNat, info, data⟩ := by
  have tb : ∀ v : Int, 0 ≤ v ∧ v < 256 → toByte v = v.toNat := by intro v hv; unfold toByte; omega
  unfold pcm
  rw [if_pos ⟨rfl, rfl⟩]
  show some (Wav.mk (toByte channels + 256 * 0) (le32 (le4 rate ++ (le4 (rate * size) ++ [toByte size, 0, toByte bits, 0])))
    (le32 (le4 (rate * size) ++ [toByte size, 0, toByte bits, 0])) (toByte size + 256 * 0) (toByte bits + 256 * 0) info data) = _
  rw [le32_le4 hr, le32_le4 ⟨Int.mul_nonneg hr.1 hz.1, hrz⟩, tb size hz, tb bits hb, tb channels (by omega)]
  rfl

/-- The header in front of the data, read back. -/
theorem readWav_header {strict : Bool} {channels : Nat} {rate size bits : Int} {list data : List Nat} {info : List (List Nat × List Nat)}
    (hc : channels < 256) (hr : 0 ≤ rate ∧ rate < 4294967296) (hz : 0 ≤ size ∧ size < 256) (hrz : rate * size < 4294967296)
    (hb : 0 ≤ bits ∧ bits < 256) (hd : 36 + list.length + data.length < 4294967296)
    (hl : (list = [] ∧ info = []) ∨ ∃ body, list = [76, 73, 83, 84] ++ le4 (body.length : Nat) ++ body ∧ body.length % 2 = 0 ∧
      infoTexts body = some info) :
    readWav strict (header channels rate size bits data.length list ++ data) =
      if data.length % 2 = 1 ∧ strict = true then none
      else some ⟨channels, rate.toNat, (rate * size).toNat, size.toNat, bits.toNat, info, data⟩ := by
  have hfmt := pcm_fmt info data hc hr hz hrz hb
  have hsplit : header channels rate size bits data.length list ++ data =
      [82, 73, 70, 70] ++ (le4 (36 + list.length + data.length) ++ ([87, 65, 86, 69] ++ ([102, 109, 116, 32] ++
        le4 ((fmtBody channels rate size bits).length : Nat) ++ (fmtBody channels rate size bits ++
        (list ++ ([100, 97, 116, 97] ++ le4 (data.length : Nat) ++ data)))))) := by
    unfold header formatChunk
    simp only [List.append_assoc]
    rfl
  have hfl : (fmtBody channels rate size bits).length = 16 := rfl
  generalize fmtBody channels rate size bits = fmt at hfmt hsplit hfl
  rw [hsplit, readWav_riff (by
    simp only [List.length_append, List.length_cons, List.length_nil, le4_length]; omega) (by
    simp only [List.length_append, List.length_cons, List.length_nil, le4_length]; omega)]
  generalize hn : 12 + _ = k
  obtain ⟨n, rfl⟩ : ∃ n, k = n + 1 + 1 + 1 := ⟨k - 3, by omega⟩
  rw [chunks_even (by omega) (by omega)]
  rcases hl with ⟨rfl, rfl⟩ | ⟨body, rfl, he, hi⟩
  · rw [List.nil_append, chunks_last (by omega)]
    by_cases ho : data.length % 2 = 1 ∧ strict = true
    · rw [if_pos ho, if_pos ho]; rfl
    · rw [if_neg ho, if_neg ho]
      exact hfmt
  · rw [List.append_assoc, chunks_even he (by
      simp only [List.length_append, List.length_cons, List.length_nil, le4_length] at hd
      omega), chunks_last (by omega)]
    by_cases ho : data.length % 2 = 1 ∧ strict = true
    · rw [if_pos ho, if_pos ho]; rfl
    · rw [if_neg ho, if_neg ho]
      show (infoTexts body).bind (fun info => pcm fmt info data) = _
      rw [hi]
      exact hfmt

end Asap.Wav
