{
 "claims": [
  {
   "property": "C01",
   "status": "proved",
   "theorems": [
    "Asap.Props.C01_duration_roundtrip",
    "Asap.Props.C01_duration_text",
    "Asap.Props.C01_out_of_range"
   ],
   "note": "Every int: round trip in range, exact text, empty text out of range."
  },
  {
   "property": "C02",
   "status": "proved",
   "theorems": [
    "Asap.Props.C02_accepts_grammar",
    "Asap.Props.C02_parse_iff",
    "Asap.Props.C02_rejects_without_full_fraction",
    "Asap.Props.C02_parse_range",
    "Asap.Props.C02_otherwise_throws",
    "Asap.Props.C02_trailing_garbage_accepted"
   ],
   "note": "Grammar equivalence, except that text after a third fraction digit is accepted by the code; that deviation is stated and proved separately (C02_trailing_garbage_accepted)."
  },
  {
   "property": "C03",
   "status": "proved",
   "theorems": [
    "Asap.Props.C03_isOurFile_iff",
    "Asap.Props.C03_case_insensitive",
    "Asap.Props.C03_load_knows_extension",
    "Asap.Props.C03_isOurExt_accepts_junk",
    "Asap.Props.C03_isOurExt_iff"
   ],
   "note": "IsOurFile is characterised exactly for every name. IsOurExt additionally accepts some junk ('fc ', control characters), proved as a separate theorem."
  },
  {
   "property": "C04",
   "status": "proved",
   "theorems": [
    "Asap.Props.C04_succeeds_iff",
    "Asap.Props.C04_failure_keeps",
    "Asap.Props.C04_success_sets",
    "Asap.Props.C04_history"
   ],
   "note": "Setters: success condition, frame conditions, histories."
  },
  {
   "property": "C05",
   "status": "proved",
   "theorems": [
    "Asap.Props.C05_fields",
    "Asap.Props.C05_unknown"
   ],
   "note": "The three date formats and everything else."
  },
  {
   "property": "C06",
   "status": "proved",
   "theorems": [
    "Asap.Props.C06_header_roundtrip",
    "Asap.Props.C06_header_room",
    "Asap.Props.C06_loaded_expressible",
    "Asap.Props.C06_neg_long_duration",
    "Asap.Props.C06_neg_unknown_text"
   ],
   "note": "Round trip of the header for all information a SAP header can express, any window, any binary part; room bound; everything loaded from a SAP file (with no surplus TIME tags) is expressible; witnesses for 100-minute durations and the text '<?>'."
  },
  {
   "property": "C07",
   "status": "proved",
   "theorems": [
    "Asap.Props.C07_load_safe_total"
   ],
   "note": "Every byte string: returns or throws, no out-of-bounds read, terminates."
  },
  {
   "property": "C08",
   "status": "proved",
   "theorems": [
    "Asap.Props.C08_loaded_sane"
   ],
   "note": "All loaded fields in range for every accepted file."
  },
  {
   "property": "C09",
   "status": "partial",
   "theorems": [
    "Asap.Props.C09_faithful",
    "Asap.Props.C09_safe_partial",
    "Asap.Props.C09_ends",
    "Asap.Props.C09_written_header",
    "Asap.Props.C09_reads_outside"
   ],
   "note": "Faithful loading proved for all headers and block lists (also for headers written by WriteSapHeader); loading always ends and never writes outside 64 KB. Reads stay inside the array only if it has four bytes behind the module: C09_reads_outside is the counterexample for the unrestricted claim. SAP files only."
  },
  {
   "property": "C10",
   "status": "partial",
   "theorems": [
    "Asap.Props.C10_in_bounds",
    "Asap.Props.C10_short_stereo",
    "Asap.Props.C10_ends_partial",
    "Asap.Props.C10_songs_partial",
    "Asap.Props.C10_hangs"
   ],
   "note": "In bounds for every file (CMS: from 1028 bytes on, shorter ones refuted by C10_short_stereo). Ends for modules without REPLAY or without backward commands; refuted in general by C10_hangs. Songs and durations proved for modules without REPLAY."
  },
  {
   "property": "C11",
   "status": "proved",
   "theorems": [
    "Asap.Props.C11_safe",
    "Asap.Props.C11_songs"
   ],
   "note": "Safe for every byte string; the songs are exactly those of Spec/Dlt."
  },
  {
   "property": "C12",
   "status": "proved",
   "theorems": [
    "Asap.Props.C12_safe",
    "Asap.Props.C12_songs",
    "Asap.Props.C12_no_song"
   ],
   "note": "Safe for every byte string; the songs are exactly those of Spec/Fc. C12_no_song shows that there can be none."
  },
  {
   "property": "C13",
   "status": "partial",
   "theorems": [
    "Asap.Props.C13_ends_partial",
    "Asap.Props.C13_hangs"
   ],
   "note": "Loading an RMT module ends and yields sane information when no pattern can run through jumps and tempo changes forever (C13_ends_partial, with a concrete module that has a jump and meets the hypothesis); C13_hangs exhibits a 54-byte module for which the loader never ends."
  },
  {
   "property": "C14",
   "status": "proved",
   "theorems": [
    "Asap.Props.C14_split"
   ],
   "note": "Equality of outcomes, including final player state and failures, for every machine reachable by calls; lengths in whole samples."
  },
  {
   "property": "C15",
   "status": "proved",
   "theorems": [
    "Asap.Props.C15_served",
    "Asap.Props.C15_total"
   ],
   "note": "Every call in every sequence returns exactly what is due; totals right after PlaySong. 32-bit overflow of milliseconds*rate not modelled."
  },
  {
   "property": "C16",
   "status": "proved",
   "theorems": [
    "Asap.Props.C16_header",
    "Asap.Props.C16_file",
    "Asap.Props.C16_odd_unpadded",
    "Asap.Props.C16_long_title"
   ],
   "note": "Against the reader in Spec/Wav, combined with Generate (C16_file). Witnesses: odd sizes are not padded, unlimited texts overflow the buffer."
  },
  {
   "property": "C17",
   "status": "partial",
   "theorems": [
    "Asap.Props.C17_from_start_partial",
    "Asap.Props.C17_back",
    "Asap.Props.C17_count",
    "Asap.Props.C17_forward_wrong"
   ],
   "note": "Holds from the beginning of a song and for backward seeks; false (witness) for forward seeks from inside a frame. Equality up to the contents of sample buffers and output filters."
  },
  {
   "property": "C18",
   "status": "proved",
   "theorems": [
    "Asap.Props.C18_position",
    "Asap.Props.C18_monotone",
    "Asap.Props.C18_other_rates"
   ],
   "note": "For rates that are multiples of 100, as stated; witness for 22050 Hz."
  },
  {
   "property": "C19",
   "status": "proved",
   "theorems": [
    "Asap.Props.C19_adc",
    "Asap.Props.C19_sbc",
    "Asap.Props.C19_adc_decimal",
    "Asap.Props.C19_sbc_decimal"
   ],
   "note": "All accumulators, operands, carries and addressing modes: binary result with C, V, N, Z, and decimal sum and difference with carry for valid decimal operands."
  },
  {
   "property": "C20",
   "status": "proved",
   "theorems": [
    "Asap.Props.C20_in_range"
   ],
   "note": "All 256 opcodes, all hardware registers, interrupts and player calls; after any history of API calls and any number of instructions inside the next frame."
  },
  {
   "property": "C21",
   "status": "proved",
   "theorems": [
    "Asap.Props.C21_pha_pla",
    "Asap.Props.C21_php_plp",
    "Asap.Props.C21_jsr_rts",
    "Asap.Props.C21_brk_rti",
    "Asap.Props.C21_irq_rti"
   ],
   "note": "PHA/PLA, PHP/PLP, JSR/RTS, BRK/RTI and IRQ/RTI for every stack pointer, with arbitrary code in between that keeps the pushed bytes."
  },
  {
   "property": "C22",
   "status": "partial",
   "theorems": [
    "Asap.Props.C22_data_partial",
    "Asap.Props.C22_code_outside"
   ],
   "note": "Data accesses never leave the memory, for all programs and histories. Instruction fetches can: C22_code_outside."
  },
  {
   "property": "C23",
   "status": "proved",
   "theorems": [
    "Asap.Props.C23_any_file",
    "Asap.Props.C23_histories",
    "Asap.Props.C23_calls_end"
   ],
   "note": "Every history of PlaySong, Seek, SeekSample, Generate, MutePokeyChannels, DetectSilence, SetSampleRate with sample rates 100..48000 and non-negative positions ends: bounds on the iterations of all loops (POKEY, processor, initialisation, seeking, generation) are proved sufficient. Ends include exceptions and the two known defects (C22, C26)."
  },
  {
   "property": "C24",
   "status": "proved",
   "theorems": [
    "Asap.Props.C24_sequence_exists",
    "Asap.Props.C24_table9",
    "Asap.Props.C24_table17",
    "Asap.Props.C24_period9",
    "Asap.Props.C24_period17",
    "Asap.Props.C24_random_after_start",
    "Asap.Props.C24_random_after_reset",
    "Asap.Props.C24_random_in_reset",
    "Asap.Props.C24_noise_bit",
    "Asap.Props.C24_short_patterns"
   ],
   "note": "Shift-register sequences of the 9- and 17-bit noise tables, exact periods 511 and 131071, and RANDOM reads as a function of cycles since reset."
  },
  {
   "property": "C25",
   "status": "proved",
   "theorems": [
    "Asap.Props.C25_periods",
    "Asap.Props.C25_terminates",
    "Asap.Props.C25_tick_spacing"
   ],
   "note": "Periods after any history of writes; tick spacing for independent channels; termination."
  },
  {
   "property": "C26",
   "status": "proved",
   "theorems": [
    "Asap.Props.C26_playback_breaks_mixer",
    "Asap.Props.C26_mixer",
    "Asap.Props.C26_song",
    "Asap.Props.C26_muted_write_breaks_mixer"
   ],
   "note": "Mixer sum equals the loudness of audible channels after any history in which muted channels' AUDC are not written; C26_muted_write_breaks_mixer is the witness that the restriction is needed."
  },
  {
   "property": "C27",
   "status": "proved",
   "theorems": [
    "Asap.Props.C27_bounds",
    "Asap.Props.C27_no_fault",
    "Asap.Props.C27_ready",
    "Asap.Props.C27_int32",
    "Asap.Props.C27_sharp"
   ],
   "note": "The theorems hold up to 34 cycles after the end of a PAL frame. Accumulation inside a buffer cell is not bounded to 32 bits by the theorems."
  },
  {
   "property": "C28",
   "status": "proved",
   "theorems": [
    "Asap.Props.C28_encoding",
    "Asap.Props.C28_amplitudes",
    "Asap.Props.C28_generate"
   ],
   "note": ""
  },
  {
   "property": "C29",
   "status": "proved",
   "theorems": [
    "Asap.Props.C29_stereo",
    "Asap.Props.C29_mono",
    "Asap.Props.C29_mirrors",
    "Asap.Props.C29_reads"
   ],
   "note": ""
  },
  {
   "property": "C30",
   "status": "proved",
   "theorems": [
    "Asap.Props.C30_depacker",
    "Asap.Props.C30_depacker_sample",
    "Asap.Props.C30_lossless",
    "Asap.Props.C30_ends",
    "Asap.Props.C30_sample"
   ],
   "note": "C30_lossless: the emitted stream decodes (as a relation given independently) to the original image, touching no address outside it and five registers. C30_depacker: the emitted 6502 code, on a flat-memory 6502, gets from the start address of the compressed file to the run address of the original with the original's bytes in memory; originals that lie in the depacker's workspace (stream, code, two stack bytes) are excluded by hypothesis."
  },
  {
   "property": "C31",
   "status": "partial",
   "theorems": [
    "Asap.Props.C31_window",
    "Asap.Props.C31_executable_partial",
    "Asap.Props.C31_executable_ignores_start"
   ],
   "note": "SAP and native files for every window; executables for windows from index 0. C31_executable_ignores_start shows that the code violates the property for other windows."
  },
  {
   "property": "C32",
   "status": "proved",
   "theorems": [
    "Asap.Props.C32_moved",
    "Asap.Props.C32_same",
    "Asap.Props.C32_back",
    "Asap.Props.C32_end_not_restored",
    "Asap.Props.C32_too_high",
    "Asap.Props.C32_other_windows",
    "Asap.Props.C32_extracted",
    "Asap.Props.C32_not_extracted",
    "Asap.Props.C32_sample",
    "Asap.Props.C32_extracted_sample",
    "Asap.Props.C32_not_extracted_sample"
   ],
   "note": "C32_moved, C32_same, C32_back and C32_too_high for Write of all nine relocatable types, C32_extracted for SAP files; the exceptions named in the statement are shown to be real by C32_end_not_restored and C32_other_windows. FC modules hold no addresses. RMT modules stored after the player in SAP files are modelled, but C32_extracted does not cover them."
  },
  {
   "property": "C33",
   "status": "proved",
   "theorems": [
    "Asap.Props.C33_offered",
    "Asap.Props.C33_others",
    "Asap.Props.C33_sample"
   ],
   "note": "Offered formats are never refused as impossible, and no others are ever written."
  },
  {
   "property": "C34",
   "status": "partial",
   "theorems": [
    "Asap.Props.C34_title",
    "Asap.Props.C34_words",
    "Asap.Props.C34_date",
    "Asap.Props.C34_author_partial",
    "Asap.Props.C34_author_short",
    "Asap.Props.C34_overflow",
    "Asap.Props.C34_sample"
   ],
   "note": "Title and date in full; author without credits of exactly 32 characters, as C34_overflow shows that the code violates the property there."
  },
  {
   "property": "C35",
   "status": "partial",
   "theorems": [
    "Asap.Props.C35_open_disk",
    "Asap.Props.C35_open_partial",
    "Asap.Props.C35_stale",
    "Asap.Props.C35_read",
    "Asap.Props.C35_reads",
    "Asap.Props.C35_set_position",
    "Asap.Props.C35_length",
    "Asap.Props.C35_file_partial",
    "Asap.Props.C35_sample"
   ],
   "note": "Path to contents, any reads, seeks and length proved for every image. The first read fails if a stale byte greater than the sector size is in the stream's buffer: C35_stale shows it, C35_open_partial and C35_file_partial assume it is not."
  },
  {
   "property": "C36",
   "status": "partial",
   "theorems": [
    "Asap.Props.C36_hangs",
    "Asap.Props.C36_ends_partial",
    "Asap.Props.C36_sample",
    "Asap.Props.C36_acyclic_sample"
   ],
   "note": "False of the code (C36_hangs, C36_sample). C36_ends_partial proves it for every image with no cycle of empty sectors."
  },
  {
   "property": "C37",
   "status": "proved",
   "theorems": [
    "Asap.Props.C37_names",
    "Asap.Props.C37_root",
    "Asap.Props.C37_subdirectory",
    "Asap.Props.C37_files",
    "Asap.Props.C37_paths",
    "Asap.Props.C37_find",
    "Asap.Props.C37_find_path",
    "Asap.Props.C37_sample",
    "Asap.Props.C37_sample_path"
   ],
   "note": "Names, order, lookup, recursive listing and memory safety, for every image."
  },
  {
   "property": "C38",
   "status": "partial",
   "theorems": [
    "Asap.Props.C38_load_partial",
    "Asap.Props.C38_bounds_partial",
    "Asap.Props.C38_room",
    "Asap.Props.C38_sample",
    "Asap.Props.C38_overrun",
    "Asap.Props.C38_leftover",
    "Asap.Props.C38_lost"
   ],
   "note": "C38_load_partial: whatever the files are, loading ends without overrun and reports what the lines of the nearest STIL.txt say (Spec/Stil). Missing: titles of covers longer than 98 characters per line, where the code may read past its array (C38_overrun); texts in parentheses that begin with a number but are not times are unspecified (C38_leftover, C38_lost); song numbers are not negative. C38_bounds_partial: limits of lengths."
  },
  {
   "property": "C39",
   "status": "proved",
   "theorems": [
    "Asap.Props.C39_setNtsc",
    "Asap.Props.C39_ratio",
    "Asap.Props.C39_there_and_back",
    "Asap.Props.C39_canSetNtsc"
   ],
   "note": "Flag, rate, exact ratio rounded down, unknown durations kept, CanSetNtsc."
  },
  {
   "property": "C40",
   "status": "proved",
   "theorems": [
    "Asap.Props.C40_wsync",
    "Asap.Props.C40_vcount",
    "Asap.Props.C40_observed",
    "Asap.Props.C40_not_in_init",
    "Asap.Props.C40_player"
   ],
   "note": "C40_player: in what calls of Generate emulate after PlaySong, the player routine is called exactly in the scan lines whose number is divisible by FASTPLAY (Spec/Cadence logs calls; C40_observed shows that logging changes nothing). C40_not_in_init: no calls in PlaySong. C40_wsync, C40_vcount: the registers."
  },
  {
   "property": "C41",
   "status": "partial",
   "theorems": [
    "Asap.Props.C41_indirect_jump_partial",
    "Asap.Props.C41_page_end"
   ],
   "note": "Holds for pointers that are not the last byte of a page; for those the emulator is wrong (C41_page_end)."
  },
  {
   "property": "C42",
   "status": "proved",
   "theorems": [
    "Asap.Props.C42_instructions",
    "Asap.Props.C42_programs",
    "Asap.Props.C42_irq"
   ],
   "note": "All 151 documented opcodes against an independent specification of the NMOS 6502 (Spec/Isa), including decimal mode and cycle counts; runs of any length between hardware events; interrupt entry. Hardware registers, wrap of the program counter, JMP (xxFF) (see C41) and interrupts pending at CLI/PLP/RTI are excluded by the hypothesis Ordinary."
  },
  {
   "property": "C45",
   "status": "proved",
   "theorems": [
    "Asap.Props.C45_ends"
   ],
   "note": "For every byte string; sample modules of all three formats are accepted with durations computed by hand (samples_ok)."
  },
  {
   "property": "C46",
   "status": "partial",
   "theorems": [
    "Asap.Props.C46_in_bounds_partial",
    "Asap.Props.C46_out_of_bounds"
   ],
   "note": "In bounds for SAP, CMC, CM3, CMR, DMC, DLT, FC, unknown formats, and CMS from 1028 bytes on, with or without a file name; C46_out_of_bounds gives witnesses for MPT, TMC, TM2 and RMT, C10_short_stereo for short CMS files."
  },
  {
   "property": "C47",
   "status": "proved",
   "theorems": [
    "Asap.Props.C47_loaded_sane",
    "Asap.Props.C47_cases"
   ],
   "note": "All formats, every name and contents; concrete cases in C47_cases."
  },
  {
   "property": "C48",
   "status": "partial",
   "theorems": [
    "Asap.Props.C48_saves",
    "Asap.Props.C48_saved_partial",
    "Asap.Props.C48_tmc_single",
    "Asap.Props.C48_case",
    "Asap.Props.C48_loaded",
    "Asap.Props.C48_start",
    "Asap.Props.C48_call",
    "Asap.Props.C48_first_position",
    "Asap.Props.C48_first_position_case",
    "Asap.Props.C48_unmarked",
    "Asap.Props.C48_unmarked_case"
   ],
   "note": "Proved for convertible modules (C48_saved_partial; C48_case shows one as loaded; C48_start and C48_call tie the specified calls to what the program does with the native module). Exceptions shown: one song not at position 0 (C48_first_position), TMC with one song (C48_tmc_single), modules beginning with 00 00 (C48_unmarked). Missing: modules that overlap the code of RMT or TM2, modules too near the top of the memory, where the claim fails."
  },
  {
   "property": "C43",
   "status": "partial",
   "theorems": [
    "Asap.Props.C43_sound_partial",
    "Asap.Props.C43_song_partial",
    "Asap.Props.C43_wrap",
    "Asap.Props.C43_stimer_loses_sound",
    "Asap.Props.C43_playback_partial"
   ],
   "note": "The bytes handed out by Generate are proved equal to the samples of a cycle-by-cycle chip (Spec/Sound, Spec/SoundPlay) for any frames, writes, COVOX and speaker steps and requests (C43_sound_partial), also for a song started with all channels muted during its INIT routine, where STIMER and a reset that is ended are allowed (C43_song_partial), and for the whole player: any loaded song, with the reference chips hearing exactly what the emulated processor stored (C43_playback_partial). Excluded in frames: STIMER, for which the claim is false (C43_stimer_loses_sound), reset and serial input by SKCTL, muting by the user; in INIT: a volume-only AUDC value with a non-zero volume. Success is part of the statement of the first two; in the third, success of PlaySong and Generate is a hypothesis (see C22, C26)."
  },
  {
   "property": "C44",
   "status": "proved",
   "theorems": [
    "Asap.Props.C44_stores",
    "Asap.Props.C44_loads",
    "Asap.Props.C44_changes",
    "Asap.Props.C44_nmist"
   ],
   "note": "Stores, loads and read-modify-write instructions at all addresses and addressing modes against Spec/Bus. RANDOM is left to C24, the effect of a heard write on the sound to C43."
  },
  {
   "property": "C49",
   "status": "proved",
   "theorems": [
    "Asap.Props.C49_only_outputs",
    "Asap.Props.C49_folder",
    "Asap.Props.C49_dots"
   ],
   "note": "C49_only_outputs: any outcome of processFile, every changed file has a name made from the pattern; C49_folder: it is in the folder; C49_dots: witness for placeholders as folder names. asapconv without MP3, file operations succeed."
  },
  {
   "property": "C50",
   "status": "proved",
   "theorems": [
    "Asap.Props.C50_sound",
    "Asap.Props.C50_endless",
    "Asap.Props.C50_case",
    "Asap.Props.C50_endless_case"
   ],
   "note": "C50_sound for finished conversions, C50_endless for duration 0; concrete case C50_case. Sample rates 100 to 48000. Needs the player of C14/C15 and the reader of C16."
  },
  {
   "property": "C51",
   "status": "proved",
   "theorems": [
    "Asap.Props.C51_module",
    "Asap.Props.C51_case",
    "Asap.Props.C51_input_lost"
   ],
   "note": "C51_module for finished conversions; C51_case; C51_input_lost shows that a failing conversion can destroy the input."
  },
  {
   "property": "C52",
   "status": "partial",
   "theorems": [
    "Asap.Props.C52_short",
    "Asap.Props.C52_long_partial",
    "Asap.Props.C52_sample_rate_rejected",
    "Asap.Props.C52_too_large",
    "Asap.Props.C52_address",
    "Asap.Props.C52_flags",
    "Asap.Props.C52_missing_value"
   ],
   "note": "C52_short and C52_long_partial: all options but the long form of the sample rate, which is always rejected (C52_sample_rate_rejected). C52_missing_value: undefined behaviour for a missing number. The constants 31 and 256000 are those of the program."
  },
  {
   "property": "C53",
   "status": "proved",
   "theorems": [
    "Asap.Props.C53_detects",
    "Asap.Props.C53_safe",
    "Asap.Props.C53_any_file",
    "Asap.Props.C53_time",
    "Asap.Props.C53_case"
   ],
   "note": "C53_detects (soundness and completeness of the detection), C53_safe, C53_any_file (with the known emulator defects), C53_time; C53_case."
  },
  {
   "property": "C54",
   "status": "proved",
   "theorems": [
    "Asap.Props.C54_substring",
    "Asap.Props.C54_long",
    "Asap.Props.C54_same",
    "Asap.Props.C54_case"
   ],
   "note": "C54_substring, C54_long, C54_same; C54_case. ENTROPHY_LEN is a parameter of the model, 32 in params."
  },
  {
   "property": "C55",
   "status": "proved",
   "theorems": [
    "Asap.Props.C55_dump",
    "Asap.Props.C55_hex",
    "Asap.Props.C55_dump_any",
    "Asap.Props.C55_keeps_binary",
    "Asap.Props.C55_edit",
    "Asap.Props.C55_roundtrip",
    "Asap.Props.C55_doubled_marker",
    "Asap.Props.C55_uninitialised",
    "Asap.Props.C55_long_text_ub",
    "Asap.Props.C55_case"
   ],
   "note": "sap2txt.c.  The cycle of dumping, editing and replacing (C55_roundtrip); C55_keeps_binary for all texts and files.  Negative witnesses: C55_doubled_marker, C55_long_text_ub, C55_uninitialised."
  },
  {
   "property": "C56",
   "status": "proved",
   "theorems": [
    "Asap.Props.C56_instructions",
    "Asap.Props.C56_programs",
    "Asap.Props.C56_stop",
    "Asap.Props.C56_complete"
   ],
   "note": "Every undocumented opcode in every mode against a specification written from descriptions of the chip, mixed programs of any length, the stopping opcodes, and that the three tables cover every byte exactly once. Accesses to hardware registers and wrap around FFFF are excluded, as in C42."
  },
  {
   "property": "C57",
   "status": "partial",
   "theorems": [
    "Asap.Props.C57_line_partial",
    "Asap.Props.C57_target",
    "Asap.Props.C57_lax_index",
    "Asap.Props.C57_end_ub",
    "Asap.Props.C57_registers",
    "Asap.Props.C57_trace",
    "Asap.Props.C57_used_partial",
    "Asap.Props.C57_trace_line_partial"
   ],
   "note": "All opcodes but B7, which asapscan shows with the wrong index register (C57_lax_index), and instructions that end before the end of memory (C57_end_ub). The trace is the emulator's loop with the registers it passes to trace_cpu; printf is modelled as text."
  },
  {
   "property": "C58",
   "status": "partial",
   "theorems": [
    "Asap.Props.C58_tmc_late",
    "Asap.Props.C58_tmc_partial",
    "Asap.Props.C58_tm2_skip",
    "Asap.Props.C58_tm2_partial",
    "Asap.Props.C58_mpt_partial",
    "Asap.Props.C58_tmc_rest",
    "Asap.Props.C58_tm2_long",
    "Asap.Props.C58_mpt_stale_loop"
   ],
   "note": "For TMC without rests, TM2 with lines of at most 65 rows and MPT with nonzero tempo and rows the songs, durations and loops are those of the specification written from the players. C58_tmc_rest: a TMC rest counts one row more than the player takes. C58_tm2_long: ASAP reads behind the byte FF. C58_mpt_stale_loop: a silent looping song marks the next one."
  },
  {
   "property": "C59",
   "status": "partial",
   "theorems": [
    "Asap.Props.C59_songs_partial",
    "Asap.Props.C59_player_partial",
    "Asap.Props.C59_cut_tempo",
    "Asap.Props.C59_stale_loop"
   ],
   "note": "C59_songs_partial: the songs, their starts, durations and loops are those of the patterns in ASAP's reading, for all accepted modules, with the last sound given by the closed form LastSound. C59_player_partial: a song that ASAP and the player read in the same way takes the player at least the reported duration, the duration is the minimum of the patterns and the last sound, the last note of every track is within it, and a loop is reported. Missing: the claim is false where a line is cut in a row that sets the tempo (C59_cut_tempo) and after a silent looping song (C59_stale_loop). The last sound is ASAP's definition, not what the player emits. rmt_loops meets the hypotheses of both theorems."
  },
  {
   "property": "C60",
   "status": "partial",
   "theorems": [
    "Asap.Props.C60_calls",
    "Asap.Props.C60_generate",
    "Asap.Props.C60_header",
    "Asap.Props.C60_position_partial",
    "Asap.Props.C60_late_position",
    "Asap.Props.C60_limits"
   ],
   "note": "Proved for all histories of ordinary calls: no overflow in seeking, generating, silence detection and the header, hence the same results as with unbounded integers. GetPosition is right exactly up to 214748364 samples (81 minutes at 44100 Hz); the code overflows after that."
  },
  {
   "property": "C61",
   "status": "partial",
   "theorems": [
    "Asap.Props.C61_song_partial",
    "Asap.Props.C61_sap_partial",
    "Asap.Props.C61_module_partial",
    "Asap.Props.C61_played_before"
   ],
   "note": "Any SAP file, any two previous states of the player with the same rate, silence setting, table and output level, any song and history of calls: everything seen is the same. The output level is never initialised by the code: C61_played_before is a file that sounds different the second time. For native modules the memory before Load (not cleared by the code) and the counter of TMC are assumed equal."
  },
  {
   "property": "C62",
   "status": "proved",
   "theorems": [
    "Asap.Props.C62_title_screen",
    "Asap.Props.C62_written",
    "Asap.Props.C62_sample"
   ],
   "note": "C62_title_screen says what ANTIC shows; C62_written relates it to Write and compression (C30). That the program tells ANTIC the address 0xFC50 is C63_screen_on."
  },
  {
   "property": "C63",
   "status": "proved",
   "theorems": [
    "Asap.Props.C63_frame",
    "Asap.Props.C63_frame_empty",
    "Asap.Props.C63_countdown",
    "Asap.Props.C63_no_time",
    "Asap.Props.C63_accurate",
    "Asap.Props.C63_loaded",
    "Asap.Props.C63_title_time",
    "Asap.Props.C63_screen_on",
    "Asap.Props.C63_sample",
    "Asap.Props.C63_screen_sample",
    "Asap.Props.C63_title_sample",
    "Asap.Props.C63_sample_empty"
   ],
   "note": "C63_title_time is the whole claim for executables, from C63_countdown (any number of frames), C63_frame (one call), C63_no_time and C63_loaded; C63_accurate relates frames to seconds; C63_screen_on is the routine that shows the screen. That the player calls the routine once per frame is an assumption of the statement (Caller)."
  },
  {
   "property": "C64",
   "status": "proved",
   "theorems": [
    "Asap.Props.C64_next",
    "Asap.Props.C64_schedule",
    "Asap.Props.C64_other_frame",
    "Asap.Props.C64_this_frame",
    "Asap.Props.C64_other_line",
    "Asap.Props.C64_this_line",
    "Asap.Props.C64_executable",
    "Asap.Props.C64_sample"
   ],
   "note": "The plan of the calls and the two tests of the waiting loop are proved on the 6502 program; how VCOUNT and the frame interrupt move in real time is hardware and not modelled. Type D has another program (C66)."
  },
  {
   "property": "C65",
   "status": "proved",
   "theorems": [
    "Asap.Props.C65_interrupt",
    "Asap.Props.C65_interrupt_time",
    "Asap.Props.C65_interrupt_empty",
    "Asap.Props.C65_plan_kept",
    "Asap.Props.C65_kind_of_tv",
    "Asap.Props.C65_first_call",
    "Asap.Props.C65_sample",
    "Asap.Props.C65_sample_plain",
    "Asap.Props.C65_sample_start",
    "Asap.Props.C65_line",
    "Asap.Props.C65_other_line",
    "Asap.Props.C65_sample_line",
    "Asap.Props.C65_sample_empty"
   ],
   "note": "The interrupt routines and the code between 0x14D and 0x188 are proved on the 6502 program; timing of the hardware (VCOUNT, when interrupts come) is not modelled. Type D has another program (C66)."
  },
  {
   "property": "C66",
   "status": "proved",
   "theorems": [
    "Asap.Props.C66_interrupt",
    "Asap.Props.C66_interrupt_time",
    "Asap.Props.C66_interrupt_empty",
    "Asap.Props.C66_start",
    "Asap.Props.C66_executable",
    "Asap.Props.C66_sample",
    "Asap.Props.C66_sample_start",
    "Asap.Props.C66_sample_written",
    "Asap.Props.C66_sample_empty"
   ],
   "note": "The interrupt routine, the start from 0x150 and the block written are proved; the player itself is arbitrary. Hardware timing and IRQs are not modelled."
  },
  {
   "property": "C67",
   "status": "partial",
   "theorems": [
    "Asap.Props.C67_start_rom_partial",
    "Asap.Props.C67_digital_rom_partial",
    "Asap.Props.C67_sample_rom",
    "Asap.Props.C67_sample_digital_rom",
    "Asap.Props.C67_asap",
    "Asap.Props.C67_start_partial",
    "Asap.Props.C67_digital_partial",
    "Asap.Props.C67_not_fresh",
    "Asap.Props.C67_skctl_stays",
    "Asap.Props.C67_sample",
    "Asap.Props.C67_sample_digital"
   ],
   "note": "False as stated for the first POKEY: 3 is written to 0xD200 instead of 0xD20F (C67_not_fresh, C67_skctl_stays). Proved: the second POKEY is fresh, registers 1 to 8 of the first one are 0, nothing else is changed. That 0x13A is reached with 0 in A is C68."
  },
  {
   "property": "C68",
   "status": "proved",
   "theorems": [
    "Asap.Props.C68_rom",
    "Asap.Props.C68_rom_plain",
    "Asap.Props.C68_rom_executable",
    "Asap.Props.C68_rom_off",
    "Asap.Props.C68_rom_goes_on",
    "Asap.Props.C68_rom_start_partial",
    "Asap.Props.C68_sample_rom",
    "Asap.Props.C68_sample_rom_plain",
    "Asap.Props.C68_sample_rom_start",
    "Asap.Props.C68_same_start",
    "Asap.Props.C68_plain",
    "Asap.Props.C68_title",
    "Asap.Props.C68_wait",
    "Asap.Props.C68_goes_on",
    "Asap.Props.C68_executable",
    "Asap.Props.C68_plain_executable",
    "Asap.Props.C68_sample",
    "Asap.Props.C68_sample_plain"
   ],
   "note": "On flat memory: hardware registers, ROM and the memory under ROM are plain memory, and VCOUNT is 0 when it is waited for (C68_wait is the other case). C68_rom and C68_rom_executable: the same on a machine with ROM, selected by PORTB, where the font is copied from ROM to the memory under it; C68_rom_off: after that ROM makes no difference. C68_executable and C68_plain_executable are about the files written."
  }
 ]
}
