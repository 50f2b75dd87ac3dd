# Formal model of ASAP (Another Slight Atari Player) in Lean 4

## 1. What is verified

ASAP's core is written in Fusion (`*.fu`) and shipped as transpiled C
(`asap.c`).  The two agree line for line in the parts that were modelled; every
definition in the model cites the `.fu` lines (and, where useful, `asap.c`).

`lean/Verif/` is laid out in three layers:

* `Model/*.lean`  – executable Lean functions, one per function of the code.
* `Spec/*.lean`   – small specifications written without looking at the code's
  algorithms (grammars, a RIFF reader, architectural 6502 arithmetic, ...).
* `Props/*.lean`  – the property theorems (`C01_...`), which mention only the
  model's entry points and the specs, plus examples showing that the hypotheses
  are met by concrete cases.
* `Lemmas/*.lean` – everything else.

## 2. Conventions of the model

* Bytes are natural numbers; "is a byte" (`< 256`) is an explicit hypothesis or
  is established by the stores, which truncate like the `(uint8_t)` casts.
* `int` is modelled by unbounded `Int`/`Nat`.  32-bit overflow is treated as a
  separate range property where it can matter (C27, C60); otherwise it is listed as
  not modelled.
* Undefined behaviour is an outcome, not a default value: functions that index
  arrays live in `Except Fault`, where `Fault.thrown` is a Fusion/C failure
  return and `Fault.ub` is an out-of-bounds access.  Potentially
  non-terminating loops take fuel and report `Fault.fuel`; termination theorems
  say that some fuel suffices, non-termination theorems say that none does.
* Strings are lists of character codes (C `char` arrays without the final NUL).
* Floating point (the sinc table of `PokeyPair`) is not modelled; the table is a
  parameter of the POKEY model.

## 3. Plan per property

| id | model | proof |
|----|-------|-------|
| C01 | `DurationToString`, `ParseDuration` | arithmetic on digits, case split on trailing zeros |
| C02 | `ParseDuration` | equivalence with a grammar given as an inductive/explicit relation |
| C03 | `GetPackedExt`, `IsOurPackedExt` (32-bit wrap-around kept) | base-256 digit injectivity |
| C04 | setters over an `Info` record | invariant by induction over call lists |
| C05 | `CheckDate`, `GetYear`... | equivalence with explicit date formats |
| C06 | `WriteSapHeader`, `ParseSap` | line-by-line parser lemmas, composition |
| C07 | `ParseSap` in `Except Fault` | induction on remaining length |
| C08 | `ParseSap` | loop invariant |
| C09 | `ASAP.Load` block loop | induction over blocks; negation witness for the over-read |
| C10 | `ParseCmc` with fuel | in-bounds invariant; without REPLAY, or without going back, a measure; songs against `Spec/Cmc`; witness of non-termination by a repeating state |
| C11 | `ParseDlt` | in-bounds invariant; `seen` grows; songs against `Spec/Dlt` |
| C12 | `ParseFc` | in-bounds from sentinels; simulation of the calls of the player by the time lines of `Spec/Fc` |
| C13 | `ParseRmt`, `ParseRmtSong`, `GetRmtInstrumentFrames` | every line is visited once; between rows, commands settle by hypothesis (`Spec/Rmt.NoEmptyLoop`); witness of the hang: repeating state |
| C14 | `GenerateAt` with the emulated machine | induction on the number of frames: a loop for `a + b` samples is the loop for `a`, then for `b` |
| C15 | the same | counting invariant |
| C16 | `GetWavHeader` | evaluation of an independent RIFF parser on the output |
| C17 | `SeekSample`, `Generate` | noninterference (nothing depends on what is heard), then a simulation of playing by seeking; witness in the middle of a frame |
| C18 | arithmetic | omega |
| C19 | `AddWithCarry`, `SubtractWithCarry` | arithmetic against integer spec |
| C20 | whole instruction decoder | invariant over one step, induction over steps |
| C21 | `Push`, `Pull`, ... | computation |
| C22 | whole decoder | bounds; witness |
| C23 | `GenerateUntilCycle`, `Cpu6502.DoFrame` | decreasing measures |
| C24 | table construction, `Peek` | shift-register induction |
| C25 | `Poke` | invariant over write lists |
| C26 | `Poke`, ticks | invariant; witness with muting |
| C27 | `AddDelta` index | integer arithmetic |
| C28 | `StoreSample`, `PokeyPair.Generate` | arithmetic |
| C29 | `PokeyPair.Poke` | computation lifted to sequences |
| C30 | `FlashPack.Compress` | the items put so far determine the steps of a depacker given as a relation (`Spec/FlashPack`); invariant over runs: the memory below the current address is restored; the emitted 6502 depacker is executed symbolically on a flat-memory 6502 (`Spec/Flat`: the instruction semantics of `Spec/Isa`, every address plain memory, no interrupts) and simulates each step of the relation (`Lemmas/Depacker*`); hypothesis: no byte of the original lies in the stream, the code, the two stack bytes used or $fc-$ff |
| C31 | `Write` with everything it calls | a predicate on writer computations (`Stays`) closed under sequencing; witness theorem for executables |
| C32 | `ASAPNativeModuleWriter`, `WriteNative`, `Write` | where addresses are is given as data (`Spec/Relocate`); a predicate on computations that fill consecutive indices; equality of lists |
| C33 | `GetSaveExts`, `Write` with everything it calls | case analysis; predicates `Possible` and `Refused` closed under sequencing |
| C34 | `FormatXexInfoText` | potential function on line breaks |
| C35 | `AATR.Open`, `ReadSector`, `AATRFileStream` over the bytes of the image | refinement to the contents given by an inductive chain of sectors (`Spec/Atr`) |
| C36 | the same | witness; well-founded induction on the links of empty sectors |
| C37 | `AATRDirectory`, `AATRRecursiveLister` | refinement to the list of entries (`Spec/Atr`); stack invariant with a cost for the lister |
| C38 | `astil.c`: everything but the getters, over the bytes of the file and the array for a line | refinement to relations on the list of lines (`Spec/Stil`); bounds follow from the relations; witnesses |
| C39 | `SetNtsc` | arithmetic |
| C40 | `PokeHardware`, `PeekHardware`, `HandleEvent`; the programs of `Model/Asap` with a log of the player calls (`Spec/Cadence`) | arithmetic for the registers; an invariant of the frame loop (the clock is less than a scan line behind the next scan line, the next call is the first multiple of FASTPLAY) |
| C41 | `JMP (abcd)` | computation; witness at the end of a page |
| C42 | whole decoder, 151 documented opcodes | simulation: each instruction against `Spec/Isa` (written from the 6502 manual), induction over runs |
| C43 | `Pokey.Poke`, `GenerateUntilCycle`, `StartFrame`, `EndFrame`, `PokeyPair.Generate`, `AddExternalDelta`; for songs also `PlaySong`, `ASAP.Generate` and the processor | refinement: the emulator in a frame is related to a chip that works cycle by cycle (`Spec/Sound`, `Spec/SoundPlay`) and may lag behind it; induction over cycles, events, requests and frames.  The machine of the model records what its processor tells the chips (`Machine.told`, which nothing in the model reads); the record is what the reference chips hear (`Spec/SoundSong`) |
| C44 | `PokeHardware`, `PeekHardware`, `PeekReadModifyWrite`, `PokeyPair.Poke`, `PokeyPair.Peek` | address decoding by arithmetic against `Spec/Bus`; each instruction is split into its address and its operation |
| C45 | `ParseMpt`, `ParseTmc`, `ParseTm2` and their song scans | lines are visited once, commands advance through the stream and every index is at most 255 beyond an address, so out of bounds comes before fuel |
| C46 | `Load`, `GuessPackedExt`, all parsers | Hoare logic per format; witnesses for the formats that violate it |
| C47 | as C46 | Hoare logic per format, result only |
| C48 | `WriteExecutable` for native modules, `ASAP.Load` for native modules, `Spec/Convert` (calls documented by the trackers, what it means that a program makes calls) | the written blocks are computed for each format; the 6502 code in them is executed symbolically by the manual (`Spec/Isa`) from any state; the routines it calls are arbitrary apart from keeping the code |
| C49 | asapconv.c without MP3 (`Model/Conv`): a state of options, files by name and standard output; stops are outcomes, written bytes stay | names by induction over the pattern; every step of the program changes only the output it opened |
| C50 | as C49 and the whole player | the loop over buffers is one large `Generate` by C14 and C15, the header by C16 |
| C51 | as C49 and `ASAPWriter.Write` | induction over the songs |
| C52 | `main` of asapconv.c | `strtol` of decimal and hexadecimal texts by induction; evaluation of the option names |
| C53 | `scan_song` of asapscan.c (`Model/Scan`): the arrays as functions, their bounds checked, the chains of the hash table as they are linked; the emulator of the other properties | invariant on the rows, the running hash and the chains, which hold exactly the frames with the same hash in ascending order; the specification (`Spec/Scan`) speaks of the machines after each frame only |
| C54 | `compute_entrophy` of asapscan.c | the bytes as a function of the machines after each frame; two songs compared by congruence |
| C55 | sap2txt.c (`Model/Txt`): files as lists of bytes, `crc32` of zlib as a parameter, the part of the buffer that was not read as a parameter | induction over the blocks, over the lines of the header |
| C56 | whole decoder, the 93 undocumented opcodes and the 12 that stop the processor | simulation against `Spec/Unofficial` (written from descriptions of the chip): two documented instructions at once, bit arithmetic for `ARR` and the stores with the high byte of the address; complete table of opcodes |
| C57 | `show_instruction`, `trace_cpu`, `print_unofficial_mnemonic` and the two tables of asapscan; the loop of the emulator with calls of `trace_cpu` | the table of 256 texts against the meanings of C56 and a small notation in `Spec/Trace`; induction over instructions for the trace |
| C58 | the scans of songs of MPT, TMC and TM2 (`Model/Tracker`) | relations for events, rows, lines and songs written from the source of the players (`Spec/Pattern`, 8-bit pattern indexes are not modelled); simulation of channels by voices, determinism of the relations, and what the two differences from the players change |
| C59 | the scan of songs of RMT (`Model/Tracker`) | relations for events, rows, lines and songs written from rmt.asx (`Spec/RmtSong`), with three readings: ASAP's, the player's, and the one common to both; simulation of `parseRmtSong` by the first, determinism of all, and the common one included in the others; the last sound by a closed form (entry, volume and last counted call that is loud) against the two loops of `GetRmtInstrumentFrames`.  8-bit pattern indexes are not modelled |
| C60 | the same functions of asap.fu with every operation on `int` checked (`Model/Int32`) | simulation: under invariants on the position, the duration and the silence counter each checked function is the unchecked one; `GetPosition` characterised exactly |
| C61 | `Load`, `PlaySong` and all calls of the player, from two arbitrary previous states | simulation: two machines that differ in what no reset initialises (registers, event times, the flag of external sound, the counter of TMC) stay so related through every instruction, frame and call; the output level of the chips is the exception, with a witness |
| C62 | `WriteXexInfo`, and the executable it is part of | the bytes written are computed; an inductive specification of ANTIC's display lists (blank lines, modes 2 and 8, load memory scan, wrapping counters) is run over them by induction on the lines of each text.  That the program at 0xFC73 points ANTIC to 0xFC50 is `C63_screen_on`; that the one at 0x100 calls it is read from `xexinfo.asx`, not proved |
| C63 | the bytes of `6502/xexinfo.asx` from 0xFC73 on, run by the 6502 of C02 on flat memory | each instruction is executed for all values (fraction, digits, borrow through the colon); one frame (`C63_frame`) is lifted to any number of frames, with a caller that may do anything in between outside 0xFC4B to 0xFCDD, by induction; `C63_accurate` relates the fractions to the clocks.  `C63_loaded`, `C63_title_time` join this with C62.  Hardware registers are plain memory here.  That the interrupt calls 0xFC98 with the TV standard in X is C65; `main` at 0x100 with its copy of the font is C68 |
| C64 | the bytes of `6502/xexb.asx` from 0x13A on, run by the 6502 of C02 on flat memory, and the five bytes about FASTPLAY that `Write` appends | each instruction of the plan (0x190 to 0x1B9) is executed for all values; one call (`C64_next`) is lifted to any number of calls, with a player and interrupts that may do anything else, by induction (`C64_schedule`); the two tests of the waiting loop are `C64_other_frame`, `C64_this_frame`, `C64_other_line`, `C64_this_line`; `C64_executable` joins this with the file written, with and without the title screen (C62).  Hardware registers are plain memory here: how VCOUNT moves and that the interrupt counts frames at VCOUNT 124 are not modelled.  The program of type D is C66.  That the TV standard is at 0x191 is C65 |
| C65 | the bytes of `6502/xexb.asx`: the two interrupt routines (0x1C2, 0x1CE), and the start from 0x15D to 0x188, run by the 6502 of C02 on flat memory | the interrupt (`nmi`: pushes and the vector) is taken in an arbitrary state, the routine is executed through the countdown of C63, and RTI is shown to restore the very state but for the memory; `C65_plan_kept` discharges what C64 supposes about interrupts.  The stack pointer must be high enough, because the program is itself in the page of the stack: with a deeper stack the claim is false.  An interrupt in an interrupt cannot be (they are a frame apart).  Hardware registers are plain memory: that VCOUNT is 0 three lines after VCOUNT 130 on NTSC only is hardware, the wait for VCOUNT 130 before it is `C65_line` and `C65_other_line`; the reset of POKEY before that is C67 |
| C66 | the bytes of `6502/xexd.asx` from 0x150 on, run by the 6502 of C02 on flat memory, and the block that `Write` writes | as C65; the player is any state that returns to the caller with the stack and the program (`Returned`), so the theorem is in two parts around it.  Other interrupts (IRQ, which the routine lets happen) are not modelled; the reset of POKEY is C67.  Read from the code: without a player no interrupts are switched on, so the time displayed stays what it is at the beginning; `C66_start` proves the first half |
| C67 | the bytes of both programs between 0x13A and 0x14D (type D: 0x150), run by the 6502 of C02 on flat memory | the loop by induction on the register; the result is stated for each register (`Started`), and the full claim (`Fresh` of both chips) is refuted for every run (`C67_not_fresh`, `C67_skctl_stays`).  Hardware registers are plain memory, so a register 'has' the value last written |
| C68 | the bytes of `6502/xexinfo.asx` at 0x100 and 0xFC73 and of `6502/xexb.asx`, `6502/xexd.asx` at 0x124, run by the 6502 of C02 on flat memory | the loops that clear GTIA and copy the font by induction on the number of bytes left; `C68_executable` (C62) and `C68_plain_executable` join this with the files written, `C68_goes_on` with C67.  Flat memory: ROM at 0xE000 is memory that the program does not write, and the memory under ROM at 0xFD00 is plain memory; `C68_rom`, `C68_rom_plain` and `C68_rom_executable` say the same of a machine with ROM (`Spec/Banks.lean`: PORTB selects what is read, writes to ROM do nothing), where the font comes from ROM; `C68_rom_off`: after that ROM makes no difference.  `C67_start_rom_partial` and `C67_digital_rom_partial` go on from there, with ROM; `C68_rom_start_partial` joins both.  How a loader gets the blocks into the memory under ROM is not modelled.  VCOUNT is 0 when it is waited for; `C68_wait` is the other case |

## 4. Trusted base

* Lean's kernel (4.33.0) and the three standard axioms `propext`,
  `Classical.choice`, `Quot.sound`; no other axiom, no `sorry`, no
  `native_decide`/`bv_decide`.
* The reading of the Fusion/C source that the comments in `Model/` document.
  The code was not executed.

### Modelled

| code | model |
|------|-------|
| asapinfo.fu: durations, file names, setters, dates, `SetNtsc`, `ParseSap` | `Model/Duration`, `Ext`, `Info`, `Sap` |
| asapwriter.fu: byte and text primitives, durations, `WriteSapHeader` | `Model/Writer` |
| asapwriter.fu: title screen text | `Model/XexInfo` |
| asapwriter.fu: `Write` (SAP, XEX, native), relocation, `GetSaveExts` | `Model/Write` |
| asapinfo.fu: `GetOriginalModuleExt`; player routines and other binary resources as bytes | `Model/Write`, `Model/Obx` |
| pokey.fu: both chips, mixer, sample output (sinc table abstract) | `Model/Pokey` |
| cpu6502.fu: all 256 opcodes; asap.fu: hardware registers | `Model/Cpu` |
| asap.fu: frames, players, `PlaySong`, `Seek`, `Generate`, position | `Model/Asap` |
| asap.fu: `Load` for SAP files | `Model/Load` |
| asap.fu: `Load` for native modules | `Model/LoadAny` |
| asap.fu: `GetWavHeader` | `Model/Wav` |
| asapinfo.fu: `ParseModule`, CMC family, DLT, FC | `Model/Module` |
| asapinfo.fu: MPT, RMT, TMC, TM2 | `Model/Tracker` |
| asapinfo.fu: `GuessPackedExt`, `Load` | `Model/InfoLoad` |
| flashpack.fu: whole file | `Model/FlashPack` |
| aatr.fu: whole file; aatr-stdio.c: `Read` | `Model/Atr` |
| astil.c: `ASTIL_Load` with everything it calls; the file system is a function from names to contents | `Model/Stil` |
| asapconv.c: whole file without MP3 output and messages | `Model/Conv` |
| asapscan.c: `scan_song` with detection of time, `compute_entrophy`, `print_time` and the functions they call; traces and disassembly; not the command line, dumps, features and the acid test | `Model/Scan`, `Model/Trace` |
| asap.fu: `SeekSample`, `Generate`, `GetPosition`, `DetectSilence`, `GetWavHeader` again, with checked 32-bit integers | `Model/Int32` |
| sap2txt.c: everything but opening the files and `main` | `Model/Txt` |

### Not modelled

* Floating point (contents of the sinc table).
* 32-bit overflow, except where a theorem says so (C27, C60).  In particular sums in
  the sample buffer are unbounded integers.  So are the
  numbers of calls of the player in the song scans (for DLT they are proved to fit).
* Uninitialised fields: a `Machine` starts with arbitrary values in range.
* The state after an exception.
* What the 6502 player routines (`*.obx`) do: they are in the model as bytes only.
* User interfaces, plug-ins.  File input and output: files are opened and written
  without errors (C49 to C51).

## 5. Disagreements between the code and the properties

Proved as theorems (negation witnesses):

* C02: any text after a third fraction digit is accepted as a duration.
* C03: `IsOurExt` accepts some texts that are no extension.
* C06: a duration of 100 minutes or more is written but cannot be loaded
  (`C06_neg_long_duration`); a text `<?>` is lost (`C06_neg_unknown_text`).
* C09: the length of a block is checked before its header is skipped, so up to
  four bytes behind the module are read (`C09_reads_outside`).
* C22: the program counter is not wrapped, so a program can fetch instructions
  from outside the 64 KB (`C22_code_outside`).
* C41: `JMP ($xxFF)` takes the high byte from `$xx01`, the chip from `$xx00`
  (`C41_page_end`).
* C26: writing AUDC of a muted channel breaks the sum of the volumes
  (`C26_muted_write_breaks_mixer`).  `PlaySong` mutes the channels while a song
  is initialised, so an ordinary SAP file makes `Generate` read the DAC table at
  a negative index (`C26_playback_breaks_mixer`).
* C17: `SeekSample` counts a complete frame from the current position, also when
  part of the frame was already taken, so a forward seek from the middle of a
  frame lands too early in the music (`C17_forward_wrong`).  Seeking also skips
  the output filters, so the first milliseconds after a seek are not bit for bit
  those of playing.
* C18: at sample rates that are not multiples of 100 Hz, `GetPosition` runs
  ahead by up to 0.5 % (`C18_other_rates`).
* C16: a data chunk of odd size is not padded (`C16_odd_unpadded`).  The texts of
  a SAP file are not limited to 127 characters when loaded, so `GetWavHeader`
  writes outside any buffer for some file (`C16_long_title`).
* C10: a CMS file of 774 to 1027 bytes is read beyond its end
  (`C10_short_stereo`); loading a module with a REPLAY and a JUMP back to it
  never ends (`C10_hangs`).
* C13: a pattern that jumps to itself hangs the loading of an RMT module
  (`C13_hangs`).
* C46: patterns of MPT, RMT, TMC and TM2 modules are read beyond the end of the
  file (`C46_out_of_bounds`).
* C12: an FC module can be accepted with no song (`C12_no_song`); then song 0
  does not exist.
* C30: `FlashPack.Compress` checks that the original leaves $fc-$ff alone and finds
  1024 free bytes for the depacker, but the stream may be longer than
  the rest of this hole and then covers addresses of the original. Data is unpacked in ascending order, so long
  runs are safe, but every fragment costs 3 more bytes of the stream: an original of hundreds of
  tiny fragments just below the hole overwrites the unread stream. It also does not
  check page 1, where the depacker's JSR stores return addresses. `C30_depacker` excludes these originals by hypothesis.
* C31: `FlashPack.Compress` starts at index 0 of the array, whatever `SetOutput`
  said, so an executable overwrites bytes before the window
  (`C31_executable_ignores_start`).
* C32: a module whose last byte is moved to 0xFFFF cannot be moved back
  (`C32_end_not_restored`); with a window that does not begin at index 0,
  whatever is written ends at the index equal to the length of the module, so
  less than the module is written (`C32_other_windows`).
* C34: an author text with three credits of exactly 32 characters is laid out
  beyond the 256-byte buffer (`C34_overflow`).
* C35: `Read` looks at the last byte of the sector buffer before it reads the
  first sector.  If a value greater than the size of sectors is left there (the
  buffer is not initialised in C, or has a sector of another file), the first
  `Read` of the file returns -1 (`C35_stale`).
* C36: an empty sector linked to itself makes `Read` hang (`C36_hangs`, met by
  the image in `C36_sample`).
* C37: a name may have an extension only, such as ".SAP".  With directories that
  contain themselves, listing ends (`C37_files`), but gives each file once for
  every way to it, up to 64 to the power of 19.
* C38: the title of a cover that fills the line and ends in an unclosed
  parenthesis with a number makes the code read past the end of its array
  (`C38_overrun`).  For a shorter one, the result depends on what is left in the
  array from previous lines (`C38_leftover`).  A text such as "(80s)" at the end
  of a title is dropped (`C38_lost`).
* C43: a write to STIMER does not generate the sound up to its cycle first, so
  the changes of the output since the last register write are lost
  (`C43_stimer_loses_sound`).  The theorem excludes STIMER, SKCTL writes that
  reset the chip or select serial input, channels muted by the user, and frames so
  short that they have no sample (below about 50 Hz).  The output of the converter
  is not initialised by the code, and assumed to be 0.  The reference follows the
  code where it simplifies the hardware: writing the same value to AUDC again does
  nothing, a channel at volume 0 is low, and the position of the noise is counted
  back by a period of the sequence selected at the end of a frame.  During the INIT
  routine of a song all channels are muted (`C43_song_partial`): STIMER and a reset
  are allowed there, but no volume-only AUDC value with a non-zero volume (that is
  the bug of C26); the reference starts to count when the channels are unmuted.
  `C43_playback_partial` says it of the whole player; the exclusions are conditions
  on the record of what the program stored.
* C44: an instruction that changes a byte (`INC` and so on) at a hardware register
  other than POKEY reads the memory under the register and stores once; the
  hardware reads the register and is written twice.  The reference follows the code.
* C48: the SAP file for a DLT, MPT or RMT module with one song starts it at
  position 0, wherever the song is (`C48_first_position`).  The SAP file for a TMC
  module with one song calls the player routine with 60 instead of 0
  (`C48_tmc_single`).  A module may begin with `00 00`, which is copied to the SAP
  file, and makes it unloadable (`C48_unmarked`, shown for TMC; DLT, MPT, RMT and
  TM2 are copied the same way).  The code for RMT at 0C80 and for TM2 at 1380 can
  overlap a module that is loaded between the player routine and the end of this
  code; this is excluded by `Convertible.low` and not shown.
* C49: dots are not replaced, so a placeholder that is a whole folder name, as in
  `out/%a/x.sap`, leads to the parent of `out` if the author is `..` (`C49_dots`).
* C50: a song with the duration 0 is converted forever (`C50_endless`,
  `C50_endless_case`).  Rates above 48000 Hz are accepted by the program; the player
  is not proved for them.  Files are read up to 65000 bytes.
* C51: the output is opened before the conversion, so a conversion that fails leaves
  it empty, also if it is the input (`C51_input_lost`).  `--address=FFFF` is ignored.
  The name given with `-n` is used for the first file only.
* C52: `--sample-rate=RATE` is always rejected (`C52_sample_rate_rejected`): the
  comparison leaves out the equals sign.  A missing value is a null pointer
  (`C52_missing_value`).
* C53: silence that begins with the second frame is ignored as well as silence from the start, as the program compares the
  number of silent frames with the number of the frame (`silence_run < frame`); `SilenceAt` says so.
* C54: the number of different hashes is counted in frames i-31 to i, but the fingerprint begins at frame i-32, one too early.
  Floating point numbers of asapscan are exact fractions in the model.
* C56: an interrupt takes the emulated processor out of a stopping opcode (it is served as in `C42_irq` and returns to the
  opcode); the chip stays stopped until it is reset.  The chip's `ANE`, `ANX`, `SHA`, `SHS`, `SHX` and `SHY` depend on analogue
  effects; the specification has the variant the emulator uses (constant EF in `ANE`, none in `ANX`).
* C57: opcode B7 (`LAX` of page zero indexed by Y) is shown and listed as indexed by X (`C57_lax_index`).  An instruction that does
  not end before the end of memory is read from outside the array (`C57_end_ub`).  `C57_used_partial` is about programs without
  B7.  Opcodes at D200 and D203 are not counted, as the player puts its own code there.
* C58: TMC rests (bytes C0 to FF) last one row longer in ASAP's durations than in the player, so songs with rests are shorter than ASAP
  says (`C58_tmc_rest`; the player routine, run in the model of the emulator, agrees with the specification there).  In TM2 patterns
  the player stays at the byte FF, ASAP goes on behind it after 65 rows (`C58_tm2_long`).  In MPT a silent song that loops
  marks the next song as looping (`C58_mpt_stale_loop`).
* C60: `GetPosition` multiplies the number of samples by 10 in an `int`, which overflows after 81 minutes at 44100 Hz
  (`C60_late_position`); a song may be 99:59.999 long.  `DetectSilence` overflows from 1211 seconds (`C60_limits`).
* C61: `SumDACOutputs` is initialised neither by the constructor of `Pokey` nor by `Initialize` (in C the object comes from
  `malloc`, so the first read is of an indeterminate `int`).  The first change of the output of a song is relative to the level
  at the end of the previous song: `C61_played_before` is a file that sounds when played first and is silent when loaded and
  played again.  The theorems of C43 assume level 0.  `Load` of native modules does not clear the memory either
  (`C61_module_partial` assumes equal memories); SAP files clear it.
* C59: where an RMT line ends (FF) in a row that sets the tempo, the player forgets the tempo and ASAP keeps it, so the song can be much
  shorter than ASAP says (`C59_cut_tempo`).  A silent song that loops marks the next song as looping (`C59_stale_loop`).  Other
  differences, excluded by the reading `common`: a pause of zero rows (256 in the player, 1 in ASAP), a tempo of zero frames (256 in the
  player, 0 in ASAP), a jump in the song (the player goes to the address, ASAP to the number of the line) and FE in another track than
  the first (a jump in the player, a pattern in ASAP).  The last sound is specified as ASAP defines it (`Spec.Rmt.Fades`); the player goes
  on with looped envelopes, compares the minimum of the volume with sixteen times the volume, and stays at the minimum.
* C67: the programs in executables write 3 to 0xD200 instead of 0xD20F (`xexb.asx:24`, `xexd.asx:25`), so the first POKEY starts with
  period 3 in its first channel (`C67_not_fresh`) and with whatever SKCTL was left before (`C67_skctl_stays`).  `C67_start_partial` and
  `C67_digital_partial` prove the rest of the claim: the second POKEY and registers 1 to 8 of the first one.
* C55: if the FF FF before the first block is doubled, writing an unedited dump back puts the first line about blocks into the
  header (`C55_doubled_marker`).  Texts of 65533 to 65535 bytes are accepted but may be read past the buffer
  (`C55_long_text_ub`).  A text that ends in a part of `LOAD ` is compared with uninitialised memory (`C55_uninitialised`).
