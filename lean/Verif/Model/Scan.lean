import Verif.Model.Asap

/-!
# The music analyzer: asapscan.c

Detection of silence and loops, fingerprints, POKEY features, disassembly.  Floating point numbers are exact fractions: the products are
exact in `double` and the quotients are too far from integers for a rounding error to matter.
-/

namespace Asap.Scan

/-- Ways to stop: the emulator (`Hw`), undefined behaviour, a loop that does not end.  asapscan.c:404-423 -/
inductive Stop where
  | emulator (h : Hw)
  | ub
  | hang
  deriving DecidableEq, Repr

/-- Parts of the program, e.g. asapscan.c:345-350. -/
abbrev S := Except Stop

/-- `CYCLES_PER_FRAME`, asapscan.c:73. -/
def cyclesPerFrame (ntsc : Bool) : Nat := if ntsc = true then 262 * 114 else 312 * 114

/-- `MAIN_CLOCK`, asapscan.c:74. -/
def mainClock (ntsc : Bool) : Nat := if ntsc = true then 1789772 else 1773447

/-- `seconds_to_frames`, asapscan.c:76-79. -/
def secondsToFrames (ntsc : Bool) (seconds : Nat) : Nat := seconds * mainClock ntsc / cyclesPerFrame ntsc

/-- `frames_to_milliseconds`, asapscan.c:81-84, with `ceil`. -/
def framesToMilliseconds (ntsc : Bool) (frames : Nat) : Nat := (frames * 1000 * cyclesPerFrame ntsc + mainClock ntsc - 1) / mainClock ntsc

/-- The variables set by `main`, asapscan.c:541-544: `scan_frames`, also the sizes of the arrays, `silence_frames`, `loop_check_frames`
and `loop_min_frames`; `ENTROPHY_LEN`, asapscan.c:309. -/
structure Params where
  scan : Nat
  silence : Nat
  check : Nat
  minimum : Nat
  window : Nat

/-- asapscan.c:309, 484-487 and 541-544. -/
def params (ntsc : Bool) : Params :=
  ⟨secondsToFrames ntsc (15 * 60), secondsToFrames ntsc 5, secondsToFrames ntsc (3 * 60), secondsToFrames ntsc 5, 32⟩

/-- The arrays and variables of `scan_song`, asapscan.c:35-45 and 351-352: `registers_dump` by frames, `silence_run`, `running_hash`,
`hash_first`, `hash_last` and `hash_next`. -/
structure State where
  rows : Nat → List Nat
  run : Nat
  hash : Int
  first : Nat → Int
  last : Nat → Int
  next : Nat → Int

/-- A store into an array of `unsigned char`, asapscan.c:243-244. -/
def toByte (v : Int) : Nat := (v % 256).toNat

/-- One channel in `store_pokey`, asapscan.c:240-250. -/
def storeChannel (c : Channel) : List Nat := if band c.audc 0xf ≠ 0 then [toByte c.audf, toByte c.audc] else [0, 0]

/-- `store_pokey`, asapscan.c:237-253: the bytes. -/
def storePokey (p : Pokey) : List Nat := ((List.range 4).flatMap fun i => storeChannel (p.ch i)) ++ [toByte p.audctl]

/-- `store_pokey`, asapscan.c:237-253: the result. -/
def silentPokey (p : Pokey) : Bool := (List.range 4).all fun i => decide (band (p.ch i).audc 0xf = 0)

/-- `store_pokeys`, asapscan.c:255-261: the bytes. -/
def storePokeys (m : Machine) : List Nat := storePokey m.pk.base ++ storePokey m.pk.extra

/-- `store_pokeys`, asapscan.c:255-261: the result. -/
def silentPokeys (m : Machine) : Bool := silentPokey m.pk.base && silentPokey m.pk.extra

/-- The beginning of `get_hash`, asapscan.c:271-274: a byte of an AUDC. -/
def cleanByte (b : Nat) : Nat := if b &&& 0xe0 = 0xe0 then b &&& 0xbf else b

/-- The loop of `get_hash`, asapscan.c:270-275. -/
def cleanRow (row : List Nat) : List Nat :=
  [1, 3, 5, 7].foldl (fun r i => (r.modify i cleanByte).modify (i + 9) cleanByte) row

/-- `get_hash`, asapscan.c:268-280: changes the row and adds its bytes. -/
def getHash (c : Params) (i : Nat) (s : State) : S (Nat × State) :=
  if i < c.scan then .ok ((cleanRow (s.rows i)).sum, { s with rows := fun k => if k = i then cleanRow (s.rows i) else s.rows k })
  else .error .ub

/-- `has_loop_at`, asapscan.c:263-266. -/
def hasLoopAt (c : Params) (a b : Nat) (s : State) : S Bool :=
  if a + c.check ≤ c.scan ∧ b + c.check ≤ c.scan then .ok ((List.range c.check).all fun k => decide (s.rows (a + k) = s.rows (b + k)))
  else .error .ub

/-- What is found: the number of frames and whether it is a loop.  asapscan.c:86-90 (`print_time`) -/
abbrev Found := Option (Nat × Bool)

/-- What `scan_song` does with equal frames, asapscan.c:406-421. -/
def judge (c : Params) (a b : Nat) : Found :=
  if b - a ≥ c.minimum then some (b, true) else if b - a = 1 then some (a, false) else none

/-- The search in the list of frames with the same hash, asapscan.c:404-423.  The first argument limits the number of steps. -/
def search (c : Params) (s : State) (second : Nat) : Nat → Int → S Found
  | 0, _ => .error .hang
  | fuel + 1, i =>
    if i < 0 then .ok none
    else do
      let same ← hasLoopAt c i.toNat second s
      match (if same = true then judge c i.toNat second else none) with
      | some r => .ok (some r)
      | none => if i.toNat < c.scan then search c s second fuel (s.next i.toNat) else .error .ub

/-- The link from the last entry, asapscan.c:425-428. -/
def link (c : Params) (h second : Nat) (s : State) : S State :=
  if s.first h ≥ 0 then
    if 0 ≤ s.last h ∧ s.last h < c.scan then .ok { s with next := fun k => if k = (s.last h).toNat then second else s.next k } else .error .ub
  else .ok { s with first := fun k => if k = h then second else s.first k }

/-- The end of the list, asapscan.c:429-430. -/
def endList (c : Params) (h second : Nat) (s : State) : S State :=
  if second < c.scan then
    .ok { s with next := fun k => if k = second then -1 else s.next k, last := fun k => if k = h then second else s.last k }
  else .error .ub

/-- The end of the frame, asapscan.c:432: the hash of `second` leaves. -/
def leave (c : Params) (second : Nat) (s : State) : S State := do
  let r ← getHash c second s
  .ok { r.2 with hash := r.2.hash - r.1 }

/-- The hash of `frame` enters, asapscan.c:434. -/
def enter (c : Params) (frame : Nat) (s : State) : S State := do
  let r ← getHash c frame s
  .ok { r.2 with hash := r.2.hash + r.1 }

/-- `running_hash &= (1 << HASH_BITS) - 1`, asapscan.c:402. -/
def bucket (s : State) : Nat := (s.hash % 256).toNat

/-- The search and the insertion, asapscan.c:400-433. -/
def checkLoop (c : Params) (frame : Nat) (s : State) : S (Found × State) := do
  let s := { s with hash := bucket s }
  let found ← search c s (frame - c.check) (c.scan + 1) (s.first (bucket s))
  match found with
  | some r => .ok (some r, s)
  | none => do
    let s1 ← link c (bucket s) (frame - c.check) s
    let s2 ← endList c (bucket s) (frame - c.check) s1
    let s3 ← leave c (frame - c.check) s2
    .ok (none, s3)

/-- Silence or loop, asapscan.c:400-434, after the registers were stored. -/
def afterStore (c : Params) (frame : Nat) (s : State) : S (Found × State) :=
  if frame ≥ c.check then do
    let r ← checkLoop c frame s
    match r.1 with
    | some x => .ok (some x, r.2)
    | none => do
      let s ← enter c frame r.2
      .ok (none, s)
  else do
    let s ← enter c frame s
    .ok (none, s)

/-- One frame of the detection, asapscan.c:387-435. -/
def detect (c : Params) (frame : Nat) (row : List Nat) (silent : Bool) (s : State) : S (Found × State) :=
  if frame < c.scan then
    let s := { s with rows := fun k => if k = frame then row else s.rows k }
    if silent = true then
      let s := { s with run := s.run + 1 }
      if s.run ≥ c.silence ∧ s.run < frame then .ok (some (frame + 1 - s.run, false), s) else afterStore c frame s
    else afterStore c frame { s with run := 0 }
  else .error .ub

/-- A step of the emulator, asapscan.c:358. -/
def emulate (m : Machine) : S Machine :=
  match Machine.do6502Frame m with
  | .ok r => .ok r.2
  | .error h => .error (.emulator h)

/-- The loop of `scan_song`, asapscan.c:357-436, without the dump and the features: the result, the value of `frame`, and the arrays. -/
def scanLoop (c : Params) : Nat → Nat → State → Machine → S (Found × Nat × State)
  | 0, frame, s, _ => .ok (none, frame, s)
  | n + 1, frame, s, m => do
    let m ← emulate m
    let r ← detect c frame (storePokeys m) (silentPokeys m) s
    match r.1 with
    | some x => .ok (some x, frame, r.2)
    | none => scanLoop c n (frame + 1) r.2 m

/-- The start of `scan_song`, asapscan.c:351-356, with arrays that are not initialised. -/
def begin (rows : Nat → List Nat) (last next : Nat → Int) : State := ⟨rows, 0, 0, fun _ => -1, last, next⟩

/-- `scan_song` with `detect_time`, asapscan.c:345-442.  `s` has the arrays as they are. -/
def scanSong (c : Params) (song : Int) (m : Machine) (s : State) : S (Found × Nat × State) :=
  match Machine.playSong song (-1) m with
  | .ok r => scanLoop c c.scan 0 (begin s.rows s.last s.next) r.2
  | .error h => .error (.emulator h)

/-- Two decimal digits: `%02d` for numbers less than 100, asapscan.c:89. -/
def two (n : Nat) : List Nat := [48 + n / 10 % 10, 48 + n % 10]

/-- `print_time`, asapscan.c:86-90, for less than 100 minutes, without the end of the line. -/
def timeText (ntsc : Bool) (frames : Nat) (loop : Bool) : List Nat :=
  ascii "TIME " ++ two (framesToMilliseconds ntsc frames / 60000) ++ [58] ++ two (framesToMilliseconds ntsc frames / 1000 % 60) ++ [46] ++
    two (framesToMilliseconds ntsc frames / 10 % 100) ++ if loop = true then ascii " LOOP" else []

/-- The end of `get_byte_hash`, asapscan.c:285-286. -/
def fold (n : Nat) : Nat := (n &&& 0xff) + (n >>> 8)

/-- `get_byte_hash`, asapscan.c:282-288. -/
def byteHash (c : Params) (i : Nat) (s : State) : S (Nat × State) := do
  let r ← getHash c i s
  .ok (fold (fold r.1), r.2)

/-- The hashes of `n` frames from `i`, asapscan.c:293-294 and 323-324. -/
def hashes (c : Params) : Nat → Nat → State → S (List Nat × State)
  | 0, _, s => .ok ([], s)
  | n + 1, i, s => do
    let r ← byteHash c i s
    let rest ← hashes c n (i + 1) r.2
    .ok (r.1 :: rest.1, rest.2)

/-- The variables of `compute_entrophy`, asapscan.c:298-301. -/
structure Entropy where
  counters : Nat → Int
  maxValue : Int
  maxFrame : Nat
  value : Int

/-- A hash enters, asapscan.c:304-307.  The counters are an array of 256. -/
def Entropy.add (v : Nat) (e : Entropy) : S Entropy :=
  if v < 256 then
    .ok { e with value := if e.counters v = 0 then e.value + 1 else e.value, counters := fun k => if k = v then e.counters v + 1 else e.counters k }
  else .error .ub

/-- A hash leaves, asapscan.c:311-314. -/
def Entropy.sub (v : Nat) (e : Entropy) : S Entropy :=
  if v < 256 then
    .ok { e with value := if e.counters v - 1 = 0 then e.value - 1 else e.value, counters := fun k => if k = v then e.counters v - 1 else e.counters k }
  else .error .ub

/-- A new maximum, asapscan.c:316-319. -/
def Entropy.best (c : Params) (i : Nat) (e : Entropy) : Entropy :=
  if e.maxValue < e.value then { e with maxValue := e.value, maxFrame := i - c.window } else e

/-- One frame of `compute_entrophy`, asapscan.c:303-321. -/
def entropyFrame (c : Params) (i : Nat) (e : Entropy) (s : State) : S (Entropy × State) := do
  let r ← byteHash c i s
  let e ← e.add r.1
  if i ≥ c.window then do
    let q ← byteHash c (i - c.window) r.2
    let e ← e.sub q.1
    .ok (e.best c i, q.2)
  else .ok (e, r.2)

/-- The loop of `compute_entrophy`, asapscan.c:303-321. -/
def entropyLoop (c : Params) : Nat → Nat → Entropy → State → S (Entropy × State)
  | 0, _, e, s => .ok (e, s)
  | n + 1, i, e, s => do
    let r ← entropyFrame c i e s
    entropyLoop c n (i + 1) r.1 r.2

/-- `compute_entrophy` for `-l`, asapscan.c:292-296: the bytes printed.  `frame` is the variable. -/
def longFingerprint (c : Params) (frame : Nat) (s : State) : S (List Nat) := do
  let r ← hashes c frame 0 s
  .ok r.1

/-- `compute_entrophy` for `-p`, asapscan.c:297-326. -/
def shortFingerprint (c : Params) (frames : Nat) (s : State) : S (List Nat) := do
  let r ← entropyLoop c frames 0 ⟨fun _ => 0, 0, 0, 0⟩ s
  let h ← hashes c c.window r.1.maxFrame r.2
  .ok h.1

/-- The argument of `compute_entrophy`, asapscan.c:392, 409, 417 and 439. -/
def fingerprintFrames (c : Params) (found : Found) : Nat :=
  match found with
  | some r => r.1
  | none => c.check

/-- `scan_song` with `-p` or `-l`, asapscan.c:345-442: the bytes printed. -/
def fingerprint (c : Params) (long : Bool) (song : Int) (m : Machine) (s : State) : S (List Nat) := do
  let r ← scanSong c song m s
  if long = true then longFingerprint c r.2.1 r.2.2 else shortFingerprint c (fingerprintFrames c r.1) r.2.2

end Asap.Scan
