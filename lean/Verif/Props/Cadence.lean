import Verif.Lemmas.Cadence
import Verif.Props.Playback

/-! # C40: the hardware registers for timing, and the calls of the player routine -/

namespace Asap.Props
open Asap.Spec Asap.Machine Asap.Loader

/-! ### WSYNC and VCOUNT -/

/-- Registers of the ANTIC chip repeat every 16 addresses. -/
theorem antic_register {addr k : Int} (ha : 0xd400 ≤ addr ∧ addr ≤ 0xd4ff) (hk : addr % 16 = k) :
    band addr 0xf900 = 0xd000 ∧ shr addr 8 = 0xd4 ∧ band addr 0xff0f = 0xd400 + k ∧
      (band addr 0xff1f = 0xd400 + k ∨ band addr 0xff1f = 0xd410 + k) := by
  have key : ∀ n < 256, band (0xd400 + (n : Nat)) 0xf900 = 0xd000 ∧ shr (0xd400 + (n : Nat)) 8 = 0xd4 ∧
      band (0xd400 + (n : Nat)) 0xff0f = 0xd400 + (0xd400 + (n : Nat) : Int) % 16 ∧
      (band (0xd400 + (n : Nat)) 0xff1f = 0xd400 + (0xd400 + (n : Nat) : Int) % 16 ∨
        band (0xd400 + (n : Nat)) 0xff1f = 0xd410 + (0xd400 + (n : Nat) : Int) % 16) := by decide +kernel
  have := key (addr - 0xd400).toNat (by omega)
  rw [show (0xd400 + ((addr - 0xd400).toNat : Int) : Int) = addr by omega, hk] at this
  exact this

/-- C40.  A write to WSYNC (D40A, or any address of ANTIC that ends with A) does nothing but advance the clock to the first
cycle, now or later, at horizontal position 106 of a scan line of 114 cycles. -/
theorem C40_wsync (m : Machine) (addr data : Int) (ha : 0xd400 ≤ addr ∧ addr ≤ 0xd4ff ∧ addr % 16 = 0xa) (hc : 0 ≤ m.cpu.cycle) :
    ∃ c, poke addr data m = .ok ((), { m with cpu := { m.cpu with cycle := c } }) ∧
      m.cpu.cycle ≤ c ∧ c % 114 = 106 ∧ ∀ d, m.cpu.cycle ≤ d → d % 114 = 106 → c ≤ d := by
  obtain ⟨h1, h2, h3, _⟩ := antic_register (k := 0xa) ⟨ha.1, ha.2.1⟩ ha.2.2
  refine ⟨m.cpu.cycle + ((if Int.tmod m.cpu.cycle 114 ≤ 106 then 106 else 106 + 114) - Int.tmod m.cpu.cycle 114), ?_, ?_⟩
  · unfold poke
    rw [if_pos h1]
    show (if shr addr 8 = 0xd2 then pokePokey addr data else _ : C Unit) m = _
    rw [if_neg (by rw [h2]; decide), if_pos (h3.trans (by decide))]
    rfl
  · rw [Int.tmod_eq_emod_of_nonneg hc]
    refine ⟨?_, ?_, fun d h1 h2 => ?_⟩ <;> split <;> omega

/-- C40.  VCOUNT (D40B, or any address of ANTIC that ends with B) is half of the number of the scan line, in a frame of 262
(NTSC) or 312 (PAL) scan lines of 114 cycles.  The only exception is the first cycle of the next frame. -/
theorem C40_vcount (m : Machine) (addr : Int) (ha : 0xd400 ≤ addr ∧ addr ≤ 0xd4ff ∧ addr % 16 = 0xb)
    (hc : 0 ≤ m.cpu.cycle ∧ m.cpu.cycle < 114 * (scanLines m.info.ntsc : Int) + 228) :
    peek addr m = .ok (if m.cpu.cycle = 114 * (scanLines m.info.ntsc : Int) then (scanLines m.info.ntsc : Int) / 2
      else m.cpu.cycle / 114 % (scanLines m.info.ntsc : Int) / 2, m) := by
  obtain ⟨h1, _, _, h3⟩ := antic_register (k := 0xb) ⟨ha.1, ha.2.1⟩ ha.2.2
  have e : peek addr m = .ok (peekVcount m, m) := by
    unfold peek peekHardware
    rw [if_pos h1]
    rcases h3 with h3 | h3
    all_goals
      rw [h3]
      rfl
  rw [e]
  refine congrArg (fun v => Except.ok (v, m)) ?_
  unfold peekVcount
  have hl := frameCycles_lines m.info.ntsc
  have hs : (scanLines m.info.ntsc : Int) = 262 ∨ (scanLines m.info.ntsc : Int) = 312 := by cases m.info.ntsc <;> simp [scanLines]
  rw [Int.tdiv_eq_ediv_of_nonneg hc.1]
  rcases hs with hs | hs <;> rw [hs] at hl hc ⊢ <;> repeat' split
  all_goals omega

/-! ### The player routine -/

/-- C40.  The programs that log calls of the player routine are the programs of the model, except for what they return. -/
theorem C40_observed (m : Machine) (song duration : Int) (f : SampleFormat) (lens : List Int) :
    playSong song duration m = (logPlaySong song duration m).map (fun r => ((), r.2)) ∧
    generateEach f lens m = (logEach f lens m).map (fun r => (r.1.1, r.2)) := by
  constructor
  · rw [obs_playSong song duration m]
    cases logPlaySong song duration m <;> rfl
  · rw [obs_each f lens m]
    cases logEach f lens m <;> rfl

/-- C40.  `PlaySong` does not call the player routine, in none of the scan lines it emulates. -/
theorem C40_not_in_init (m m' : Machine) (h : CanPlay m) (song duration : Int) (log : Log) (hx : logPlaySong song duration m = .ok (log, m')) :
    ∀ x ∈ log, x = none := by
  have := idle_playSong h.loaded song duration
  rw [hx] at this
  exact this.2

/-- C40.  After `PlaySong`, however many calls of `Generate` there are, the player routine is called exactly once in every
`FASTPLAY`-th scan line, beginning with the first, and within this scan line.  Whole frames are emulated. -/
theorem C40_player (m0 m m' : Machine) (h0 : CanPlay m0) (hf : 1 ≤ m0.info.fastplay ∧ m0.info.fastplay ≤ 32767) (song duration : Int)
    (hx : playSong song duration m0 = .ok ((), m)) (f : SampleFormat) (lens : List Int) (rs : List (List Int × Int)) (log : Log)
    (hg : logEach f lens m = .ok ((rs, log), m')) :
    EveryFastplay m0.info.fastplay (scanLines m0.info.ntsc) log ∧ log.length % scanLines m0.info.ntsc = 0 := by
  obtain ⟨_, h1, _⟩ := (obs_playSong song duration).ok hx
  have h2 := idle_playSong h0.loaded song duration
  rw [h1] at h2
  have h3 := loaded_playSong h0.loaded song duration
  rw [hx] at h3
  have hi : m.info = m0.info := h3.1.keeps.info
  have hn : m.nextPlayer = 0 := h2.1
  have hat : AtLine 0 m := ⟨h3.1.playing h0.loaded, by rw [hi]; exact hf, Nat.zero_mod _, by rw [hn]; rfl, by rw [hn]; decide,
    by rw [hi, hn]; omega, by rw [hn]; exact Int.dvd_zero _⟩
  have h4 := log_each f lens 0 m hat
  rw [hg] at h4
  obtain ⟨k1, k2, k3⟩ := h4
  have k4 := k1.frame
  rw [show m'.info = m.info from k2, hi] at k4
  rw [hi] at k3
  refine ⟨fun i x hx => ?_, by simpa using k4⟩
  have := k3 i x hx
  rw [Nat.zero_add] at this
  exact this

/-! ### Concrete cases -/

/-- Code: stop the sound at 1000, `RTS` at 1006.  The player is called every 100 scan lines. -/
def quick : List Nat := ascii "SAP\r\nTYPE B\r\nINIT 1000\r\nPLAYER 1006\r\nFASTPLAY 100\r\n" ++ encodeBlocks [⟨true, 0x1000, [0xa9, 0, 0x8d, 0x0f, 0xd2, 0x60, 0x60]⟩]

/-- Loads a file into a new player and plays it: the interval of the player, and the scan lines and times of its calls. -/
def callsOf (file : List Nat) (lens : List Int) : Option (Int × Nat × List (Int × Nat)) :=
  match loadSap sampleName file file.length newPlayer with
  | .ok m => match playSong 0 0 m with
    | .ok r => match logEach .u8 lens r.2 with
      | .ok t => some (m.info.fastplay, t.1.2.length, (t.1.2.zip (List.range t.1.2.length)).filterMap fun x => x.1.map fun c => (c, x.2))
      | .error _ => none
    | .error _ => none
  | .error _ => none

/-- A case of `C40_player`: the calls in a frame. -/
example : callsOf quick [5] = some (100, 312, [(9, 0), (11409, 100), (22809, 200), (34209, 300)]) := by decide +kernel

end Asap.Props
