import Verif.Lemmas.Rmt
import Verif.Model.InfoLoad

/-!
# C13: Raster Music Tracker modules; C45, C46: Music ProTracker, Theta Music Composer
-/

namespace Asap.Props
open Asap Asap.Module Asap.Spec.Rmt

/-! ## What an accepted module looks like -/

/-- The information about an accepted module: the format, 1 to 32 songs, with a duration each and none beyond, a title of at most 127
characters that can be displayed, one to four calls of the player in a frame (312 scan lines), mono or stereo; author, date, default song and
TV system are the defaults. -/
def LoadedAs (type : ModType) (name : List Nat) (i : Info) : Prop :=
  i.type = type ∧ 1 ≤ i.songs ∧ i.songs ≤ 32 ∧ (∀ k < i.songs, 0 ≤ i.durations k) ∧ (∀ k, i.songs ≤ k → i.durations k = -1) ∧
  i.title.length ≤ 127 ∧ (∀ c ∈ i.title, 32 ≤ c ∧ c ≤ 124 ∧ c ≠ 96 ∧ c ≠ 123) ∧ i.fastplay ∈ [312, 156, 104, 78] ∧ (i.channels = 1 ∨ i.channels = 2) ∧
  i.filename = name ∧ i.author = [] ∧ i.date = [] ∧ i.defaultSong = 0 ∧ i.ntsc = false

theorem loadedAs {type : ModType} {name : List Nat} {i : Info} (h : Tracker.Accepted type (Info.blank name) i) : LoadedAs type name i := by
  refine ⟨h.type_eq, h.songs_pos, h.songs_le, h.durations, h.beyond, h.title_len, fun c hc => ?_, h.fastplay, h.channels, ?_⟩
  · have := h.title_valid c hc
    simp only [isValidChar, Bool.and_eq_true, decide_eq_true_eq] at this
    exact ⟨this.1.1.1, this.1.1.2, this.1.2, this.2⟩
  · rw [h.rest]
    exact ⟨rfl, rfl, rfl, rfl, rfl⟩

/-- The formats whose patterns have no jumps, with their types. -/
def plainType : Format → Option ModType
  | .mpt => some .mpt | .mpd => some .mpt | .tmc => some .tmc | .tm8 => some .tmc | .tm2 => some .tm2 | _ => none

theorem plain_accepted {fuel : Nat} {f : Format} {type : ModType} (ht : plainType f = some type) {name m : List Nat} (hb : AllBytes m) :
    PostE Ends (LoadedAs type name) (parseAs fuel f name m) := by
  cases f <;> cases ht
  · exact (Tracker.parseMpt_ends hb (Info.blank name) (.inl rfl) rfl rfl).mono (fun _ h => h) fun _ => loadedAs
  · refine (Tracker.parseMpt_ends hb { Info.blank name with fastplay := 156 } (.inr rfl) rfl rfl).mono (fun _ h => h) fun i h => ?_
    exact loadedAs ⟨h.type_eq, h.songs_pos, h.songs_le, h.durations, h.beyond, h.title_len, h.title_valid, h.fastplay, h.channels, h.music, h.rest⟩
  · exact (Tracker.parseTmc_ends hb (Info.blank name) rfl).mono (fun _ h => h) fun _ => loadedAs
  · exact (Tracker.parseTmc_ends hb (Info.blank name) rfl).mono (fun _ h => h) fun _ => loadedAs
  · exact (Tracker.parseTm2_ends hb (Info.blank name) rfl).mono (fun _ h => h) fun _ => loadedAs

/-- C45.  For every file contents, loading an MPT, MPD, TMC, TM8 or TM2 module ends, and the information about an accepted one is sane. -/
theorem C45_ends (f : Format) (type : ModType) (ht : plainType f = some type) (fuel : Nat) (name m : List Nat) (hb : AllBytes m) :
    parseAs fuel f name m ≠ .error .fuel ∧ ∀ i, parseAs fuel f name m = .ok i → LoadedAs type name i := by
  have key := plain_accepted (fuel := fuel) ht (name := name) hb
  match hx : parseAs fuel f name m with
  | .ok i => rw [hx] at key; exact ⟨(fun h => by cases h), fun j hj => by cases hj; exact key⟩
  | .error e => rw [hx] at key; exact ⟨(fun h => by cases h; exact key rfl), fun j hj => by cases hj⟩

/-- C13.  Loading an RMT module ends, and the information about an accepted one is sane, if no pattern of the song can run through jumps and
changes of the tempo forever.  Missing for the full claim: it is false, see `C13_hangs`. -/
theorem C13_ends_partial (m : List Nat) (hb : AllBytes m) (hn : NoEmptyLoop m) :
    ∃ steps, ∀ fuel ≥ steps, ∀ name, parseRmt fuel (Info.blank name) m ≠ .error .fuel ∧
      ∀ i, parseRmt fuel (Info.blank name) m = .ok i → LoadedAs .rmt name i := by
  obtain ⟨n, hn⟩ := Tracker.uniform hn
  refine ⟨n + 1, fun fuel hf name => ?_⟩
  have key := Tracker.parseRmt_ends hb hn fuel hf (Info.blank name) rfl rfl
  match hx : parseRmt fuel (Info.blank name) m with
  | .ok i => rw [hx] at key; exact ⟨(fun h => by cases h), fun j hj => by cases hj; exact loadedAs key⟩
  | .error e => rw [hx] at key; exact ⟨(fun h => by cases h; exact key rfl), fun j hj => by cases hj⟩

/-! ## RMT samples -/

/-- A module with one line that plays the given pattern of four rows, six frames each, in the first channel. -/
def sampleRmt (pattern : List Nat) : List Nat :=
  let last := 0x4000 + 0x32 + pattern.length + 4 - 7
  [0xff, 0xff, 0, 0x40, last % 256, last / 256, 82, 77, 84, 52, 4, 6, 1, 1, 0x10, 0x40, 0x2a, 0x40, 0x2b, 0x40, 0x2c + pattern.length, 0x40] ++
    [0x12, 0x40] ++ ([11, 0, 14, 11] ++ List.replicate 8 0 ++ List.replicate 12 0xff) ++ [0x2c, 0x40] ++ pattern ++ [0, 0xff, 0xff, 0xff]

/-- A jump to itself. -/
def hangingRmt : List Nat := sampleRmt [0xbf, 0]

theorem hangingRmt_commands (frames fuel : Nat) (c : RmtCh) (tempo : Nat) (h1 : c.start = 0x32) (h2 : c.offset = 0x32) :
    rmtCommands hangingRmt frames fuel c tempo = .error .fuel := by
  induction fuel generalizing c with
  | zero => rfl
  | succ fuel ih =>
    unfold rmtCommands
    rw [h2]
    show rmtCommands hangingRmt frames fuel { c with offset := c.start + (0 : Nat) } tempo = _
    exact ih _ h1 (by show c.start + ((0 : Nat) : Int) = _; rw [h1]; rfl)

/-- C13.  The claim is false: no number of steps suffices for this module of 56 bytes, whose only pattern is a jump to itself. -/
theorem C13_hangs : AllBytes hangingRmt ∧ hangingRmt.length = 56 ∧ ∀ fuel name, parseRmt fuel (Info.blank name) hangingRmt = .error .fuel := by
  refine ⟨by unfold AllBytes; decide +kernel, by decide +kernel, fun fuel name => ?_⟩
  have row : ∀ (chs : Nat → RmtCh) t f, (chs 0).start = 0x32 → (chs 0).offset = 0x32 → (chs 0).blank = 0 →
      rmtRow hangingRmt fuel f 4 0 chs t = .error .fuel := by
    intro chs t f h1 h2 h3
    unfold rmtRow
    dsimp only
    rw [if_neg (by rw [h3]; decide), hangingRmt_commands f fuel { chs 0 with blank := (chs 0).blank - 1 } t h1 h2]
    rfl
  have key : PostE (fun e => e = .fuel) (fun _ => False) (parseRmt fuel (Info.blank name) hangingRmt) := by
    unfold parseRmt
    refine PostE.bind (P := fun x => x = true) rfl fun ok hok => ?_
    subst hok
    rw [if_neg (by decide)]
    refine PostE.bind (P := fun x => x = 52) rfl fun x hx => ?_
    subst hx
    show PostE _ _ (parseRmtBlock fuel (Info.blank name) hangingRmt 4)
    unfold parseRmtBlock
    refine PostE.bind (P := fun x => x = 1) rfl fun x hx => ?_
    subst hx
    rw [if_neg (by decide)]
    refine PostE.bind (P := fun x => x = 0x4000) rfl fun x hx => ?_
    subst hx
    refine PostE.bind (P := fun x => x = 0x4031) rfl fun x hx => ?_
    subst hx
    refine PostE.bind (P := fun x => x = 1) rfl fun x hx => ?_
    subst hx
    rw [if_neg (by decide)]
    refine PostE.bind (P := fun _ => False) ?_ fun _ h => h.elim
    show PostE _ _ (parseRmtSong fuel hangingRmt 1 4 _ _ 0 >>= _)
    refine PostE.bind (P := fun _ => False) ?_ fun _ h => h.elim
    unfold parseRmtSong
    refine PostE.bind (P := fun x => x = 0x4000) rfl fun x hx => ?_
    subst hx
    refine PostE.bind (P := fun x => x = 6) rfl fun x hx => ?_
    subst hx
    refine PostE.bind (P := fun x => x = 0x402e) rfl fun x hx => ?_
    subst hx
    refine PostE.bind (P := fun x => x = 0x402a) rfl fun x hx => ?_
    subst hx
    refine PostE.bind (P := fun x => x = 0x402b) rfl fun x hx => ?_
    subst hx
    refine PostE.bind (P := fun _ => False) ?_ fun _ h => h.elim
    unfold rmtLoop
    rw [if_pos (by decide), if_neg (by decide), if_neg (by decide)]
    refine PostE.bind (P := fun x => x = 0) rfl fun x hx => ?_
    subst hx
    rw [if_neg (by decide)]
    refine PostE.bind (P := fun r => ∃ c, r = some c ∧ (c 0).start = 0x32 ∧ (c 0).offset = 0x32 ∧ (c 0).blank = 0) ⟨_, rfl, rfl, rfl, rfl⟩ fun r hr => ?_
    obtain ⟨c, rfl, h1, h2, h3⟩ := hr
    refine PostE.bind (P := fun x => x = 4) rfl fun x hx => ?_
    subst hx
    refine PostE.bind (P := fun _ => False) ?_ fun _ h => h.elim
    unfold rmtRows
    rw [row c 6 0 h1 h2 h3]
    rfl
  match hx : parseRmt fuel (Info.blank name) hangingRmt with
  | .ok i => rw [hx] at key; exact key.elim
  | .error e => rw [hx] at key; rw [show e = .fuel from key]

/-- A note, and a jump back to it. -/
def loopingRmt : List Nat := sampleRmt [0xd0, 3, 0xbf, 0]

/-- The hypotheses of `C13_ends_partial` are met by a module that jumps: its only pattern plays a note in every row; the song
lasts until the end of the last note, 20 frames. -/
theorem loopingRmt_ok : AllBytes loopingRmt ∧ NoEmptyLoop loopingRmt ∧ ∃ i, parseRmt 10 (Info.blank []) loopingRmt = .ok i ∧ i.songs = 1 ∧
    i.durations 0 = 20 * 312 * 38000 / 591149 := by
  refine ⟨by unfold AllBytes; decide +kernel, ?_, ?_⟩
  · intro start hp
    have hs : start = 0x32 := by
      obtain ⟨k, p, lo, hi, h1, h2, h3, h4, rfl⟩ := hp
      have hk : k = 0 := by
        have hlt := Tracker.byteAt_some h1
        have e : (table loopingRmt 0x14) + 4 = loopingRmt.length := by decide +kernel
        have : k < 4 := by omega
        rcases k with _ | _ | _ | _ | k
        · rfl
        · exact absurd (Option.some.inj ((show byteAt loopingRmt (table loopingRmt 0x14 + 1) = some 0xff by decide +kernel).symm.trans h1)).symm h2
        · exact absurd (Option.some.inj ((show byteAt loopingRmt (table loopingRmt 0x14 + 2) = some 0xff by decide +kernel).symm.trans h1)).symm h2
        · exact absurd (Option.some.inj ((show byteAt loopingRmt (table loopingRmt 0x14 + 3) = some 0xff by decide +kernel).symm.trans h1)).symm h2
        · omega
      subst hk
      obtain rfl : p = 0 := Option.some.inj (h1.symm.trans (by decide +kernel))
      obtain rfl : lo = 0x2c := Option.some.inj (h3.symm.trans (by decide +kernel))
      obtain rfl : hi = 0x40 := Option.some.inj (h4.symm.trans (by decide +kernel))
      decide +kernel
    subst hs
    have b0 : byteAt loopingRmt 0x32 = some 0xd0 := by decide +kernel
    have b2 : byteAt loopingRmt 0x34 = some 191 := by decide +kernel
    have b3 : byteAt loopingRmt 0x35 = some 0 := by decide +kernel
    intro o ho
    have hcase : o = 0x32 ∨ o = 0x34 := by
      induction ho with
      | start => exact .inl rfl
      | note _ h1 h2 ih =>
        rcases ih with ih | ih
        · exact .inr (by omega)
        · rw [ih, b2] at h1; cases h1; omega
      | longPause _ h1 ih =>
        rcases ih with ih | ih
        · rw [ih, b0] at h1; cases h1
        · rw [ih, b2] at h1; cases h1
      | pause _ h1 h2 h3 ih =>
        rcases ih with ih | ih
        · rw [ih, b0] at h1; cases h1; omega
        · rw [ih, b2] at h1; cases h1; omega
      | tempo _ h1 h2 ih =>
        rcases ih with ih | ih
        · rw [ih, b0] at h1; cases h1; omega
        · rw [ih, b2] at h1; cases h1; omega
      | jump _ h1 h2 ih =>
        rcases ih with ih | ih
        · rw [ih, b0] at h1; cases h1
        · rw [ih] at h2
          rw [show (0x34 : Int) + 1 = 0x35 from rfl, b3] at h2
          cases h2
          exact .inl rfl
    have s0 : Settles loopingRmt 0x32 0x32 := .row b0 (by decide) (by decide) (by decide)
    rcases hcase with h | h <;> subst h
    · exact s0
    · exact .jump b2 b3 s0
  · have h : (match parseRmt 10 (Info.blank []) loopingRmt with
      | .ok i => decide (i.songs = 1 ∧ i.durations 0 = 20 * 312 * 38000 / 591149)
      | .error _ => false) = true := by decide +kernel
    generalize parseRmt 10 (Info.blank []) loopingRmt = x at h
    cases x with
    | error e => cases h
    | ok i => exact ⟨i, rfl, of_decide_eq_true h⟩

/-! ## Samples of the other formats -/

/-- An MPT module at 0x4000 with two lines: the first channel plays pattern 1, given by its address and bytes, then everything is repeated. -/
def sampleMpt (address : Nat) (pattern : List Nat) : List Nat :=
  let last := 0x4000 + 0x1e0 + pattern.length - 7
  [0xff, 0xff, 0, 0x40, last % 256, last / 256] ++ List.replicate 0x42 0 ++ [address % 256, address / 256] ++ List.replicate 0x17c 0 ++
    [0xca, 0xce, 0xd2, 0xd6, 0x41, 0x41, 0x41, 0x41, 4, 6] ++ [1, 0, 0xff, 0] ++ List.replicate 12 0 ++ pattern

/-- A TMC module at 0x4000 with four lines: patterns, a jump, patterns, the end; the last channel plays pattern 1 and the other ones pattern 0, given
by its bytes. -/
def sampleTmc (address : Nat) (pattern : List Nat) : List Nat :=
  let last := 0x4000 + 0x1f8 + pattern.length - 7
  [0xff, 0xff, 0, 0x40, last % 256, last / 256] ++ [72, 105, 3] ++ List.replicate 27 32 ++ [4, 2] ++ [0xf0] ++ List.replicate 63 0 ++ [0x41] ++ List.replicate 63 0 ++
    [address % 256, 0xf0] ++ List.replicate 126 0 ++ [address / 256, 0x41] ++ List.replicate 126 0 ++
    ([0, 1] ++ List.replicate 14 0) ++ (List.replicate 15 0 ++ [0x80]) ++ ([0, 1] ++ List.replicate 14 0) ++ (List.replicate 14 0 ++ [0x80, 0x80]) ++
    List.replicate 16 0 ++ [0x40, 0] ++ pattern

/-- A TM2 module at 0x4000 with two lines: 16 rows of pattern 0, and a jump. -/
def sampleTm2 (address : Nat) (pattern : List Nat) : List Nat :=
  let last := 0x4000 + 0x3a8 + pattern.length - 7
  [0xff, 0xff, 0, 0x40, last % 256, last / 256] ++ List.replicate 25 0 ++ [1, 0, 0, 0, 0, 5, 1, 0] ++ [72, 105] ++ List.replicate 93 32 ++ List.replicate 127 0 ++ [0xa2] ++
    ([address % 256] ++ List.replicate 255 0) ++ ([address / 256] ++ List.replicate 255 0) ++ (List.replicate 127 0 ++ [0x43]) ++
    (List.replicate 16 0 ++ [16]) ++ (List.replicate 16 0 ++ [0x80]) ++ pattern

/-- The modules are accepted, with the durations one computes by hand: 12 calls, as the pattern sets the tempo 3, and a loop; two songs of 5 calls, as
the last channel ends the pattern after a row, the first one with a loop; 16 rows of 6 calls and a loop. -/
theorem samples_ok :
    (AllBytes (sampleMpt 0x41da [0x81, 0xd2, 0x10, 0x10]) ∧ ∃ i, parseAs 0 .mpt [] (sampleMpt 0x41da [0x81, 0xd2, 0x10, 0x10]) = .ok i ∧ i.songs = 1 ∧
      i.durations 0 = 12 * 312 * 38000 / 591149 ∧ i.loops 0 = true) ∧
    (AllBytes (sampleTmc 0x41f2 [0xff]) ∧ ∃ i, parseAs 0 .tmc [] (sampleTmc 0x41f2 [0xff]) = .ok i ∧ i.songs = 2 ∧ i.fastplay = 156 ∧ i.title = ascii "Hic" ∧
      i.durations 0 = 5 * 312 * 38000 / 591149 ∧ i.loops 0 = true ∧ i.durations 1 = 5 * 312 * 38000 / 591149 ∧ i.loops 1 = false) ∧
    (AllBytes (sampleTm2 0x43a2 [0xff]) ∧ ∃ i, parseAs 0 .tm2 [] (sampleTm2 0x43a2 [0xff]) = .ok i ∧ i.songs = 1 ∧ i.channels = 2 ∧ i.title = ascii "Hi" ∧
      i.durations 0 = 96 * 312 * 38000 / 591149 ∧ i.loops 0 = true) := by
  refine ⟨⟨by unfold AllBytes; decide +kernel, ?_⟩, ⟨by unfold AllBytes; decide +kernel, ?_⟩, by unfold AllBytes; decide +kernel, ?_⟩
  · have h : (match parseAs 0 .mpt [] (sampleMpt 0x41da [0x81, 0xd2, 0x10, 0x10]) with
      | .ok i => decide (i.songs = 1 ∧ i.durations 0 = 12 * 312 * 38000 / 591149 ∧ i.loops 0 = true)
      | .error _ => false) = true := by decide +kernel
    generalize parseAs 0 .mpt [] (sampleMpt 0x41da [0x81, 0xd2, 0x10, 0x10]) = x at h
    cases x with
    | error e => cases h
    | ok i => exact ⟨i, rfl, of_decide_eq_true h⟩
  · have h : (match parseAs 0 .tmc [] (sampleTmc 0x41f2 [0xff]) with
      | .ok i => decide (i.songs = 2 ∧ i.fastplay = 156 ∧ i.title = ascii "Hic" ∧
          i.durations 0 = 5 * 312 * 38000 / 591149 ∧ i.loops 0 = true ∧ i.durations 1 = 5 * 312 * 38000 / 591149 ∧ i.loops 1 = false)
      | .error _ => false) = true := by decide +kernel
    generalize parseAs 0 .tmc [] (sampleTmc 0x41f2 [0xff]) = x at h
    cases x with
    | error e => cases h
    | ok i => exact ⟨i, rfl, of_decide_eq_true h⟩
  · have h : (match parseAs 0 .tm2 [] (sampleTm2 0x43a2 [0xff]) with
      | .ok i => decide (i.songs = 1 ∧ i.channels = 2 ∧ i.title = ascii "Hi" ∧ i.durations 0 = 96 * 312 * 38000 / 591149 ∧ i.loops 0 = true)
      | .error _ => false) = true := by decide +kernel
    generalize parseAs 0 .tm2 [] (sampleTm2 0x43a2 [0xff]) = x at h
    cases x with
    | error e => cases h
    | ok i => exact ⟨i, rfl, of_decide_eq_true h⟩

/-! ## All formats -/

/-- C46.  The claim that nothing outside the module is read is false for all four formats with patterns: a pattern that is not ended before the end of
the module, or whose address is not in the module, is read there. -/
theorem C46_out_of_bounds :
    (∃ m, AllBytes m ∧ parseAs 0 .mpt [] m = .error .ub) ∧ (∃ m, AllBytes m ∧ parseAs 0 .tmc [] m = .error .ub) ∧
    (∃ m, AllBytes m ∧ parseAs 0 .tm2 [] m = .error .ub) ∧ ∃ m, AllBytes m ∧ parseAs 10 .rmt [] m = .error .ub := by
  have aux : ∀ {x : M Info}, (match x with | .error .ub => true | _ => false) = true → x = .error .ub := by
    intro x h
    match x, h with
    | .error .ub, _ => rfl
  refine ⟨⟨sampleMpt 0x41da [0x81, 0x10], by unfold AllBytes; decide +kernel, aux (by decide +kernel)⟩,
    ⟨sampleTmc 0x41f2 [0x40], by unfold AllBytes; decide +kernel, aux (by decide +kernel)⟩,
    ⟨sampleTm2 0xff00 [0xff], by unfold AllBytes; decide +kernel, aux (by decide +kernel)⟩,
    ⟨sampleRmt [0xd0, 3], by unfold AllBytes; decide +kernel, aux (by decide +kernel)⟩⟩

end Asap.Props
