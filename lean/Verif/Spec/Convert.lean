import Verif.Spec.Processor
import Verif.Model.Info
import Verif.Spec.Relocate
import Verif.Spec.Sap

/-!
# How songs are started and played

What the authors of the trackers say about their player routines, and what it means that a 6502 program makes calls.
-/

namespace Asap.Spec.Convert
open Asap.Isa

/-- A call of a routine: its address and the values it expects in the registers; `none` where it expects nothing. -/
structure Call where
  addr : Int
  a : Option Int
  x : Option Int
  y : Option Int
  deriving DecidableEq

/-- The calls that start a song of a module at `music`: `pos` is the position of the song in the module. -/
def starts (type : ModType) (player music : Int) (song pos : Nat) : List Call :=
  match type with
  | .sapC | .cmc | .cm3 | .cmr | .cms =>
    [⟨player + 3, some 0x70, some (music % 256), some (music / 256)⟩, ⟨player + 3, some 0, some song, none⟩]
  | .dlt => [⟨player + 0x100, none, none, some pos⟩]
  | .mpt => [⟨player, some 0, some (music / 256), some (music % 256)⟩, ⟨player, some 2, some pos, none⟩]
  | .rmt => [⟨player, some pos, some (music % 256), some (music / 256)⟩]
  | .tmc | .tm2 => [⟨player, some 0x70, some (music / 256), some (music % 256)⟩, ⟨player, some 0, some song, none⟩]
  | .fc => [⟨player, some song, none, none⟩]
  | _ => []

/-- The entry of the player routine for its `k`-th call: TMC plays lines once every `rate` calls. -/
def entry (type : ModType) (player : Int) (rate k : Nat) : Int :=
  match type with
  | .sapC | .cmc | .cm3 | .cmr | .cms => player + 6
  | .dlt => player + 0x103
  | .tmc => if k % rate = 0 then player + 3 else player + 6
  | _ => player + 3

/-- The processor is about to execute the routine as expected. -/
structure At (st : State) (c : Call) : Prop where
  pc : st.pc = c.addr
  a : ∀ v, c.a = some v → st.a = v
  x : ∀ v, c.x = some v → st.x = v
  y : ∀ v, c.y = some v → st.y = v

/-- Executing instructions as the manual says leads from `st` to `st'`. -/
def Runs (st st' : State) : Prop := ∃ n t, Manual false st n st' t

/-- The only bytes changed are byte 0, if `zero`, and the stack up to the pointer `s`. -/
def OnlyStack (zero : Bool) (s : Int) (st st' : State) : Prop :=
  ∀ p, st'.mem p ≠ st.mem p → (zero = true ∧ p = 0) ∨ (256 ≤ p ∧ p ≤ 256 + s)

/-- A routine called in `st` has returned in `back`: it did not change the bytes in `keep` nor the stack above its return address, and it
may have changed anything else. -/
structure Returned (keep : Int → Prop) (st back : State) : Prop where
  pc : back.pc = (st.top 1 + 256 * st.top 2 + 1) % 65536
  s : back.s = (st.s + 2) % 256
  keep : ∀ p, keep p → back.mem p = st.mem p
  stack : ∀ p, 256 + (st.s + 2) < p → p < 512 → back.mem p = st.mem p

/-- From `st` on, the program makes exactly the given calls, each after the previous one has returned, the last one with the stack pointer `s`
of its own caller, so that it returns there, and in a state with `P`. -/
inductive Makes (keep : Int → Prop) (zero : Bool) (s : Int) (P : State → Prop) : State → List Call → Prop
  | last {st st' : State} {c : Call} (runs : Runs st st') (only : OnlyStack zero s st st') (arrives : At st' c) (stack : st'.s = s) (post : P st') :
      Makes keep zero s P st [c]
  | call {st st' : State} {c : Call} {cs : List Call} (runs : Runs st st') (only : OnlyStack zero s st st') (arrives : At st' c)
      (rest : ∀ back, Returned keep st' back → Makes keep zero s P back cs) : Makes keep zero s P st (c :: cs)

/-- If `player` is called again and again, each time after the previous call has returned, with anything changed except for the bytes in `keep`
and byte 0, then the routines entered are `entries`. -/
def Enters (keep : Int → Prop) (player : Int) : List Int → State → Prop
  | [], _ => True
  | e :: entries, st => ∃ st', Runs { st with pc := player } st' ∧ st'.pc = e ∧ OnlyStack true (-1) st st' ∧ st'.s = st.s ∧
    ∀ back, (∀ p, keep p ∨ p = 0 → back.mem p = st'.mem p) → Enters keep player entries back

/-! ## Modules -/

/-- `info` describes the module `m` as the program found it when it loaded the file: everything but the texts and durations, which users
may change. -/
structure IsModule (info : Info) (m : List Nat) : Prop where
  bytes : AllBytes m
  positions : ∀ k, info.songPos k < 256
  start : info.type ≠ .fc → m.take 2 = [0xff, 0xff] ∨ m.take 2 = [0, 0]
  music : info.type ≠ .fc → info.music = Relocate.word m 2
  length : info.type ≠ .fc → 0x30 ≤ m.length
  block : info.type ≠ .fc → info.type ≠ .rmt → m.length + Relocate.word m 2 = Relocate.word m 4 + 7
  rmtBlock : info.type = .rmt → m.length + Relocate.word m 2 = Relocate.word m 4 + 7 ∨ Relocate.word m 4 + 12 ≤ m.length + Relocate.word m 2
  fc : info.type = .fc → info.music = 0xa00 ∧ 0 < m.length
  rate : info.type = .tmc → 1 ≤ Relocate.byteAt m 0x25 ∧ Relocate.byteAt m 0x25 ≤ 4
  player : info.player = if info.type = .rmt then 0x600 else if info.type = .tm2 then 0x800 else if info.type = .fc then 0x400 else -1
  dlt : info.type = .dlt → info.music = 0x2000 ∧ (m.length = 0x2c06 ∨ m.length = 0x2c07)

/-- Where a module ends.  DLT modules have 0x2c01 bytes, but the last one may be missing, it is zero then. -/
def moduleEnd (info : Info) (m : List Nat) : Int :=
  if info.type = .fc then 0xa00 + m.length - 1 else if info.type = .dlt then 0x4c00 else Relocate.word m 4

/-- The addresses of a module. -/
def InModule (info : Info) (m : List Nat) (p : Int) : Prop := info.music ≤ p ∧ p ≤ moduleEnd info m

/-- The addresses of the player routine for a module: from where to where. -/
def routineArea (info : Info) : Int × Int :=
  match info.type with
  | .cmc | .cmr => (0x500, 0xcdc)
  | .cm3 => (0x500, 0xcdf)
  | .cms => (0x500, 0xfbe)
  | .dlt => (0x400, 0xc46)
  | .mpt => (0x500, 0xdb2)
  | .rmt => if info.channels = 1 then (0x390, 0xb60) else (0x390, 0xc6c)
  | .tmc => (0x500, 0xf68)
  | .tm2 => (0x500, 0x136b)
  | .fc => (0x400, 0x8bd)
  | _ => (0, -1)

/-- The addresses of the player routine for a module. -/
def InRoutine (info : Info) (p : Int) : Prop := (routineArea info).1 ≤ p ∧ p ≤ (routineArea info).2

/-- Types with a leading `FF FF` or `00 00` that gets into the SAP file. -/
def Copied (type : ModType) : Prop := type = .dlt ∨ type = .mpt ∨ type = .rmt ∨ type = .tmc ∨ type = .tm2

/-- Types with songs that start at positions. -/
def Positioned (type : ModType) : Prop := type = .dlt ∨ type = .mpt ∨ type = .rmt

/-- The first address that a module may have: the player routine, and for some types the code that starts songs, are below. -/
def lowest (info : Info) : Int :=
  if info.type = .rmt then 0xc80 + 11 + info.songs else if info.type = .tm2 then 0x1391 else (routineArea info).2 + 1

/-- The modules that keep playing the same as SAP files, see C48: their texts and durations can be written; they do not begin with `00 00`; if they have one
song, it starts at position 0; they are not too low in the memory, not too long,
and not empty. -/
structure Convertible (info : Info) (m : List Nat) : Prop where
  described : Expressible info 66 0 0
  marked : Copied info.type → m.take 2 = [0xff, 0xff]
  single : Positioned info.type → info.songs = 1 → info.songPos 0 = 0
  low : lowest info ≤ info.music
  nonempty : info.music ≤ moduleEnd info m
  fits : moduleEnd info m ≤ 0xffff
  room : info.type = .rmt → info.music + m.length ≤ 0x10006

/-! ## SAP files -/

/-- The code in the area `code` of the memory `mem`, called at `init` with a song number in A, starts the song with `calls`, and then
calling `frame` again and again enters the player routine at `player` where it should be.  This holds as long as nothing stores to the code
and, for TMC, to byte 0, whatever happens to all other bytes. -/
def StartsAndPlays (info : Info) (player : Int) (rate : Nat) (calls : Nat → List Call) (code : Int → Prop) (init frame : Int) (mem : Int → Int) : Prop :=
  ∀ song, song < info.songs → ∀ st : State, (∀ p, code p → st.mem p = mem p) → st.pc = init → st.a = song → 3 ≤ st.s → st.s ≤ 255 →
    Makes code (decide (info.type = .tmc)) st.s
      (fun st' => ∀ back : State, (∀ p, code p ∨ p = 0 → back.mem p = st'.mem p) → ∀ n, Enters code frame ((List.range n).map (entry info.type player rate)) back)
      st (calls song)

/-- The SAP file loaded into `sap` plays the same as the module `m` loaded into `nat`: songs are started with `calls`. -/
structure PlaysSame (info : Info) (m : List Nat) (calls : Nat → List Call) (nat sap : Machine) : Prop where
  /-- The module and the player routine are in the same memory. -/
  memory : ∀ p, InModule info m p ∨ InRoutine info p → sap.cpu.mem p = nat.cpu.mem p
  texts : sap.info.author = info.author ∧ sap.info.title = info.title ∧ sap.info.date = info.date
  songs : sap.info.songs = info.songs ∧ sap.info.defaultSong = info.defaultSong ∧ sap.info.durations = info.durations ∧ sap.info.loops = info.loops
  hardware : sap.info.channels = info.channels ∧ sap.info.ntsc = info.ntsc ∧ sap.info.fastplay = info.fastplay ∧ sap.info.covoxAddr = info.covoxAddr
  /-- The player routine is called by the program for type C, and by code in the file, that is not in the module nor in the routine, for type B. -/
  plays : (sap.info.type = .sapC ∧ (∀ song pos, starts .sapC sap.info.player sap.info.music song pos = calls song) ∧
      ∀ rate k, entry .sapC sap.info.player rate k = entry info.type nat.info.player rate k) ∨
    (sap.info.type = .sapB ∧ ∃ lo hi : Int, 0x200 ≤ lo ∧ hi ≤ 0xd000 ∧ (∀ p, lo ≤ p → p < hi → ¬ InModule info m p ∧ ¬ InRoutine info p) ∧
      StartsAndPlays info nat.info.player (Relocate.byteAt m 0x25) calls (fun p => lo ≤ p ∧ p < hi) sap.info.init sap.info.player sap.cpu.mem)

end Asap.Spec.Convert
