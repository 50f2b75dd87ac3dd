import Verif.Lemmas.Player
import Verif.Props.Load
import Verif.Props.Pokey

/-! # C20, C22, C23: the emulated machine stays in range and frames end -/

namespace Asap.Props
open Asap Asap.Spec Asap.Loader

/-- Loading a SAP file makes the player ready (the hypotheses of the theorems below), whatever it did before. -/
theorem loaded_canPlay (filename buf : List Nat) (len : Nat) (m m' : Machine) (hl : len ≤ buf.length) (hb : AllBytes buf)
    (hm : InRange m.cpu) (hr : 100 ≤ m.rate ∧ m.rate ≤ 48000) (h : loadSap filename buf len m = .ok m') : CanPlay m' := by
  have key := loadSap_post filename hl hb m
  rw [h] at key
  have e : m'.rate = m.rate ∧ m'.cpu = { m.cpu with mem := m'.cpu.mem } := by
    unfold loadSap at h
    simp only [bind, Except.bind] at h
    split at h
    · cases h
    · split at h
      · split at h
        · cases h
        · split at h
          · cases h
          · injection h with h; rw [← h]; exact ⟨rfl, rfl⟩
      · cases h
  refine ⟨?_, by rw [e.1]; exact hr, key.2.songs.2, key.2.channels, fun ht => ?_⟩
  · rw [e.2]
    exact ⟨key.1, hm.a, hm.x, hm.y, hm.s, hm.nz, hm.c, hm.vdi⟩
  · rcases key.2.type with ⟨h, _⟩ | ⟨h, _⟩ | ⟨h, _⟩ | ⟨h, _⟩ <;> rw [h] at ht <;> cases ht

/-- C20, C22, C23.  For every module, every program in the emulated memory and every history of calls that begins with
`PlaySong`: the calls return, with all registers and the memory in range, or throw, or end with one of the two known defects.
They never hang and never access anything else out of range. -/
theorem C23_histories (m : Machine) (h : CanPlay m) (song duration : Int) (cs : List Call) (hv : ∀ c ∈ cs, c.Valid) :
    SafeExcept (fun _ m' => InRange m'.cpu ∧ m'.info = m.info) (runCalls (.play song duration :: cs) m) :=
  safe_of_xpost (fun _ x => x) ((loaded_calls h.loaded song duration cs hv).mono (fun _ x => x) fun _ hr => ⟨hr.1.ready.cpu.inRange, hr.2⟩)

/-- C23.  No call hangs. -/
theorem C23_calls_end (m : Machine) (h : CanPlay m) (song duration : Int) (cs : List Call) (hv : ∀ c ∈ cs, c.Valid) :
    runCalls (.play song duration :: cs) m ≠ .error .fuel := fun hx => by
  have := C23_histories m h song duration cs hv
  rw [hx] at this
  rcases this with h | h | h <;> cases h

/-- C20.  After any history of calls and any number of instructions of the following frame, the registers, the flags and the
memory are in range. -/
theorem C20_in_range (m : Machine) (h : CanPlay m) (song duration : Int) (cs : List Call) (hv : ∀ c ∈ cs, c.Valid) (m' : Machine)
    (hx : runCalls (.play song duration :: cs) m = .ok ((), m')) (n : Nat) :
    SafeExcept (fun _ m'' => InRange m''.cpu) (partOfFrame n m') := by
  have key := loaded_calls h.loaded song duration cs hv
  rw [hx] at key
  exact safe_of_xpost (fun _ x => x) ((ready_partOfFrame key.1.ready n).mono (fun _ x => x) fun _ hr => hr.inRange)

/-- C22, the part that holds.  No history of calls makes an instruction, a player call or an interrupt read or write data
outside the 65536 bytes of the memory.  Missing (and false, see `C22_code_outside`): instructions are fetched inside the
memory. -/
theorem C22_data_partial (m : Machine) (h : CanPlay m) (song duration : Int) (cs : List Call) (hv : ∀ c ∈ cs, c.Valid) :
    runCalls (.play song duration :: cs) m ≠ .error .mem := fun hx => by
  have := C23_histories m h song duration cs hv
  rw [hx] at this
  rcases this with h | h | h <;> cases h

/-! ### Concrete cases -/

/-- A player nothing was loaded into. -/
def newPlayer : Machine where
  cpu := ⟨fun _ => 0, 0, 0, 0, 0, 0, 0, 0, 0, 0⟩
  nextEvent := 0
  nextScan := 0
  nmist := .reset
  consol := 0
  covox := fun _ => 0
  pk := ⟨0, junk, junk, 0, 0, 0, 0, 0, fun _ _ => 1⟩
  info := {}
  nextPlayer := 0
  tmc := 0
  song := 0
  duration := 0
  played := 0
  silence := 0
  silenceLeft := 0
  external := false
  rate := 44100

theorem newPlayer_inRange : InRange newPlayer.cpu :=
  ⟨fun _ => ⟨Int.le_refl 0, show (0 : Int) < 256 by decide⟩, by decide, by decide, by decide, by decide, by decide, by decide, false, false, false, rfl⟩

/-- Loads a file into a new player and calls it: how did it end? -/
def outcome (file : List Nat) (calls : List Call) : Option Hw :=
  match loadSap sampleName file file.length newPlayer with
  | .ok m => match runCalls calls m with
    | .ok _ => none
    | .error e => some e
  | .error _ => some .delta

theorem outcome_some {file : List Nat} {calls : List Call} {e : Hw} (he : e ≠ .delta) (h : outcome file calls = some e) :
    ∃ m, loadSap sampleName file file.length newPlayer = .ok m ∧ runCalls calls m = .error e := by
  unfold outcome at h
  cases hl : loadSap sampleName file file.length newPlayer with
  | error _ => rw [hl] at h; injection h with h; exact absurd h.symm he
  | ok m =>
    rw [hl] at h
    refine ⟨m, rfl, ?_⟩
    dsimp only at h
    cases hr : runCalls calls m with
    | ok _ => rw [hr] at h; cases h
    | error e' => rw [hr] at h; injection h with h; rw [h]

/-- Code: `RTS` at 1000 and 1001. -/
def quiet : List Nat := ascii "SAP\r\nTYPE B\r\nINIT 1000\r\nPLAYER 1001\r\n" ++ encodeBlocks [⟨true, 0x1000, [0x60, 0x60]⟩]

/-- A case of C20 to C23: this file can be played. -/
example : outcome quiet [.play 0 0] = none := by decide +kernel

/-- A file whose code is one NOP in the last byte of the memory. -/
def nopAtEnd : List Nat := ascii "SAP\r\nTYPE B\r\nINIT FFFF\r\nPLAYER 1003\r\n" ++ encodeBlocks [⟨true, 0xffff, [0xea]⟩]

/-- C22 fails for instructions: there is a file, accepted by `Load`, for which `PlaySong` reads an instruction from outside the
memory. -/
theorem C22_code_outside : ∃ file, AllBytes file ∧ ∃ m, loadSap sampleName file file.length newPlayer = .ok m ∧
    runCalls [.play 0 0] m = .error .pc :=
  ⟨nopAtEnd, by unfold AllBytes; decide +kernel, outcome_some (by decide) (by decide +kernel)⟩

/-- Code: the initialisation sets AUDC1 to volume only (at 1000), the player sets it to a pure tone (at 1010). -/
def click : List Nat := ascii "SAP\r\nTYPE B\r\nINIT 1000\r\nPLAYER 1010\r\n" ++
  encodeBlocks [⟨true, 0x1000, [0xa9, 0x1f, 0x8d, 0x01, 0xd2, 0x60]⟩, ⟨false, 0x1010, [0xa9, 0xa8, 0x8d, 0x01, 0xd2, 0x60]⟩]

/-- C26 fails in ordinary playback: `PlaySong` mutes the chips during the initialisation of a song, so there is a file,
accepted by `Load`, for which `Generate` reads the DAC table at a negative index. -/
theorem C26_playback_breaks_mixer : ∃ file, AllBytes file ∧ ∃ m, loadSap sampleName file file.length newPlayer = .ok m ∧
    runCalls [.play 0 0, .generate 100 .u8] m = .error .dac :=
  ⟨click, by unfold AllBytes; decide +kernel, outcome_some (by decide) (by decide +kernel)⟩

end Asap.Props
