{"id": "C01", "title": "Duration text round trip", "statement": "For every duration v with 0 <= v < 6000000 ms, DurationToString(v) yields a non-empty ASCII text of at most 9 characters which ParseDuration accepts and maps back to exactly v; for every other integer DurationToString yields the empty text.", "quantifier": "every integer number of milliseconds", "why_tests_cant": "Six million valid values and all invalid ones; tests sample a handful and miss carries between minutes, seconds and the optional 1-3 fraction digits.", "anchors": ["asapinfo.fu:ASAPWriter.DurationToString", "asapinfo.fu:ASAPInfo.ParseDuration", "asapinfo.fu:DurationParser", "asap.c:ASAPWriter_DurationToString", "asap.c:ASAPInfo_ParseDuration"]}
{"id": "C02", "title": "Duration parser accepts exactly the documented grammar", "statement": "ParseDuration(s) succeeds exactly on [m]m:ss or s/ss optionally followed by .f, .ff or .fff (m,s,f digits, ss at most 59 when it follows minutes); the result is the denoted number of milliseconds, always in 0..5999999, and anything else throws. (The code additionally accepts any text after a third fraction digit; see DESIGN.md.)", "quantifier": "every string", "why_tests_cant": "Unbounded set of input strings, including all malformed ones.", "anchors": ["asapinfo.fu:ASAPInfo.ParseDuration", "asapinfo.fu:DurationParser.ParseDigit", "asap.c:ASAPInfo_ParseDuration"]}
{"id": "C03", "title": "File name recognition", "statement": "IsOurFile(name) is true exactly when the text after the last dot (which is not the first character) equals one of the supported extensions ignoring ASCII letter case, for every file name whatsoever; and then Load with the same name never fails with 'Unknown filename extension'.", "quantifier": "every file name (sequence of bytes)", "why_tests_cant": "The extension is hashed into a 32-bit integer with |0x202020; only a proof excludes collisions among all names of all lengths.", "anchors": ["asapinfo.fu:ASAPInfo.GetPackedExt", "asapinfo.fu:ASAPInfo.IsOurPackedExt", "asapinfo.fu:ASAPInfo.IsOurFile", "asapinfo.fu:ASAPInfo.PackExt", "asapinfo.fu:ASAPInfo.Load"]}
{"id": "C04", "title": "Metadata setters keep text writable", "statement": "SetAuthor, SetTitle and SetDate succeed exactly when the text has at most 127 characters, all of which may appear in a SAP header; on success the getter returns exactly the text, on failure the module information is unchanged. After any history of setter calls author, title and date are valid, the default song is below the song count and durations/loop flags are only changed for existing songs.", "quantifier": "every text and every sequence of setter calls on any starting information", "why_tests_cant": "Ranges over all call histories.", "anchors": ["asapinfo.fu:ASAPInfo.CheckValidText", "asapinfo.fu:ASAPInfo.SetAuthor", "asapinfo.fu:ASAPInfo.SetTitle", "asapinfo.fu:ASAPInfo.SetDate", "asapinfo.fu:ASAPInfo.SetDefaultSong", "asapinfo.fu:ASAPInfo.SetDuration", "asapinfo.fu:ASAPInfo.SetLoop"]}
{"id": "C05", "title": "Date fields", "statement": "GetYear, GetMonth and GetDayOfMonth return the year, month and day exactly for dates written YYYY, MM/YYYY or DD/MM/YYYY with digits in every digit position, and -1 whenever the field is absent or the text is in another format.", "quantifier": "every date text", "why_tests_cant": "Every string of any length.", "anchors": ["asapinfo.fu:ASAPInfo.CheckDate", "asapinfo.fu:ASAPInfo.GetYear", "asapinfo.fu:ASAPInfo.GetMonth", "asapinfo.fu:ASAPInfo.GetDayOfMonth", "asapinfo.fu:ASAPInfo.GetTwoDateDigits"]}
{"id": "C06", "title": "SAP header write/load round trip", "statement": "Writing module information as a SAP file and loading that file back gives the same author, title, date, song count, default song, stereo flag, NTSC flag, type, player rate (FASTPLAY), music/init/player/Covox addresses, song durations and loop flags.", "quantifier": "every well-formed module information (texts valid and not literally '<?>', durations below 100 minutes and given for a prefix of the songs) and every continuation of the file", "why_tests_cant": "The product of all texts, numbers and flags; a boundary slip in any tag corrupts some file only.", "anchors": ["asapwriter.fu:ASAPWriter.WriteSapHeader", "asapwriter.fu:ASAPWriter.WriteTextSapTag", "asapwriter.fu:ASAPWriter.WriteDec", "asapwriter.fu:ASAPWriter.WriteHexSapTag", "asapinfo.fu:ASAPInfo.ParseSap", "asap.c:ASAPInfo_ParseSap", "asap.c:ASAPWriter_WriteSapHeader"]}
{"id": "C07", "title": "SAP header loading is memory-safe and total", "statement": "For every byte string passed as a .sap file, loading the header terminates, reads only bytes inside the supplied module, and either throws or returns.", "quantifier": "every byte string of every length", "why_tests_cant": "Out-of-bounds reads only show on crafted truncations.", "anchors": ["asapinfo.fu:ASAPInfo.ParseSap", "asapinfo.fu:ASAPInfo.ParseText", "asapinfo.fu:ASAPInfo.HasStringAt", "asapinfo.fu:ASAPInfo.ParseDec", "asapinfo.fu:ASAPInfo.ParseHex"]}
{"id": "C08", "title": "Loaded information is sane", "statement": "After every successful SAP load the song count is in 1..32, the default song is in 0..songs-1, channels is 1 or 2, FASTPLAY is in 1..32767 and every numeric tag value is in its documented range; every index written while loading is inside the fixed 32-entry tables.", "quantifier": "every byte string accepted by the loader", "why_tests_cant": "Ranges over all accepted files.", "anchors": ["asapinfo.fu:ASAPInfo.ParseSap", "asapinfo.fu:ASAPInfo.AddSong", "asapinfo.fu:ASAPInfo.Load"]}
{"id": "C09", "title": "Binary blocks are loaded faithfully and in bounds", "statement": "ASAP.Load on a SAP file whose binary part is a list of well-formed blocks puts exactly these bytes at the stated addresses (later blocks win) and leaves all other bytes zero; for no file does it write outside the 64 KB of emulated memory or read outside the module. (The read half is false of the code: up to 4 bytes past the end are read.)", "quantifier": "every file", "why_tests_cant": "Needs all block lists, overlaps and truncations.", "anchors": ["asap.fu:ASAP.Load", "asap.c:ASAP_Load"]}
{"id": "C10", "title": "CMC song scan is in bounds, ends, and finds the songs", "statement": "Loading a CMC/CM3/CMR/CMS/DMC module examines only bytes inside the module, ends, and finds the songs of the module with their durations and whether they loop. (Reads are out of bounds for CMS files shorter than 1028 bytes; loading never ends for a module with a REPLAY command that is followed by a JUMP back to it.)", "quantifier": "every module of every length", "why_tests_cant": "Hangs need adversarial command sequences; absence of hangs cannot be tested.", "anchors": ["asapinfo.fu:ASAPInfo.ParseCmc", "asapinfo.fu:ASAPInfo.ParseCmcSong", "asap.c:ASAPInfo_ParseCmcSong"]}
{"id": "C11", "title": "DLT song scan is in bounds, ends, and finds the songs", "statement": "Loading a Delta Music Composer module ends for every byte string, reads only bytes inside the module, and finds exactly the songs of the module, with their start positions, durations and whether they loop.", "quantifier": "every byte string", "why_tests_cant": "Any track-jump graph must be covered.", "anchors": ["asapinfo.fu:ASAPInfo.ParseDlt", "asapinfo.fu:ASAPInfo.ParseDltSong", "asapinfo.fu:ASAPInfo.IsDltTrackEmpty", "asapinfo.fu:ASAPInfo.IsDltPatternEnd"]}
{"id": "C12", "title": "FC song scan is in bounds, ends, and finds the songs", "statement": "Loading a Future Composer module ends for every byte string, reads only bytes inside the module, and finds the songs of the module with their durations and whether they loop. (A module can be accepted with no song at all.)", "quantifier": "every byte string", "why_tests_cant": "The in-bounds argument depends on sentinel bytes in every pattern and on all track command streams.", "anchors": ["asapinfo.fu:ASAPInfo.ParseFc", "asapinfo.fu:ASAPInfo.AfterFF", "asapinfo.fu:ASAPInfo.IsFcSongEnd", "asapinfo.fu:ASAPInfo.GetFcTrackCommand"]}
{"id": "C13", "title": "RMT song scan terminates", "statement": "Loading a Raster Music Tracker module terminates, and the information about an accepted one is sane. (False of the code: a pattern whose 0xBF command jumps to itself hangs the loader. Proved for modules none of whose patterns can run through jumps and tempo changes forever without a row.)", "quantifier": "every byte string", "why_tests_cant": "A hang needs a self-referential pattern; the set of modules is unbounded.", "anchors": ["asapinfo.fu:ASAPInfo.ParseRmt", "asapinfo.fu:ASAPInfo.ParseRmtSong", "asapinfo.fu:ASAPInfo.GetRmtInstrumentFrames"]}
{"id": "C14", "title": "Generation does not depend on buffer sizes", "statement": "Splitting a Generate call into any sequence of smaller block-aligned calls produces the same bytes and leaves the same player state as the single call, whatever the emulated machine does.", "quantifier": "every player state, every frame behaviour of the emulated machine, every partition of the requested length", "why_tests_cant": "All partitions of all lengths across frame boundaries.", "anchors": ["asap.fu:ASAP.GenerateAt", "asap.fu:ASAP.Generate", "pokey.fu:PokeyPair.Generate", "asap.c:ASAP_GenerateAt"]}
{"id": "C15", "title": "Generate stops exactly at the duration", "statement": "With a positive duration and no silence detection, the total number of bytes returned by successive Generate calls after PlaySong is exactly MillisecondsToBlocks(duration) times the block size, every call returns at most the requested number of bytes and a multiple of the block size, and afterwards Generate returns 0 forever.", "quantifier": "every duration, sample rate, format, and sequence of buffer lengths", "why_tests_cant": "All call sequences.", "anchors": ["asap.fu:ASAP.GenerateAt", "asap.fu:ASAP.MillisecondsToBlocks", "asap.fu:ASAP.PlaySong"]}
{"id": "C16", "title": "WAV header is well-formed and agrees with playback", "statement": "With texts of at most 127 characters GetWavHeader changes only the number of bytes it returns, at most 342, and an independent RIFF reader parses the header followed by what Generate then delivers: sizes nest exactly, the fmt chunk states the actual channels, sample rate, byte rate, block alignment and bits, the LIST INFO chunk carries title, author and year, and the data chunk is exactly the rest of the song. (An odd number of data bytes is not padded, which a strict reader rejects; longer texts, which SAP files may contain, overflow any fixed buffer.)", "quantifier": "every position, duration, sample format, title, author and date", "why_tests_cant": "Sizes depend on text parity and playback position.", "anchors": ["asap.fu:ASAP.GetWavHeader", "asap.fu:ASAP.PutWavMetadata", "asap.fu:ASAP.PutLittleEndian", "asap.fu:ASAP.PutLittleEndians"]}
{"id": "C17", "title": "Seeking lands on the requested sample", "statement": "After SeekSample(n) the number of samples played is n, and the emulated machine, the position inside the frame and everything that determines what is played next are those of playing n samples from the beginning of the song; a backward seek is a restart followed by a seek. (True right after PlaySong and for a backward seek; false for a forward seek from the middle of a frame. The state of the output filters is excluded: seeking skips them.)", "quantifier": "every program in the emulated machine, every target, every history of calls", "why_tests_cant": "The fault depends on how far inside a frame playback stopped.", "anchors": ["asap.fu:ASAP.SeekSample", "asap.fu:ASAP.Seek", "asap.c:ASAP_SeekSample"]}
{"id": "C18", "title": "Position and block arithmetic agree", "statement": "For sample rates that are multiples of 100 the position reported after Seek(ms) never exceeds ms and is less than one millisecond plus one sample behind it; block counts are monotone in milliseconds.", "quantifier": "every position and sample rate", "why_tests_cant": "Integer rounding for all pairs.", "anchors": ["asap.fu:ASAP.GetPosition", "asap.fu:ASAP.MillisecondsToBlocks", "asap.fu:ASAP.Seek"]}
{"id": "C19", "title": "6502 addition and subtraction are right", "statement": "ADC and SBC compute, for all operands and carries, the 8-bit sum/difference with the architectural N, V, Z, C flags in binary mode, and the decimal sum/difference and carry in decimal mode for valid BCD operands.", "quantifier": "all accumulators, operands, carry and flag states", "why_tests_cant": "The C code keeps flags in a lazy packed form; errors are at corner values.", "anchors": ["cpu6502.fu:Cpu6502.AddWithCarry", "cpu6502.fu:Cpu6502.SubtractWithCarry", "asap.c:Cpu6502_AddWithCarry"]}
{"id": "C20", "title": "6502 registers stay in range", "statement": "After any number of executed instructions of any program A, X, Y, S are bytes, C is 0 or 1, the packed N/Z value and the packed V/D/I value stay in their ranges, no instruction falls outside the decoder, and every byte of emulated memory stays a byte.", "quantifier": "every program, memory contents and number of instructions", "why_tests_cant": "All programs.", "anchors": ["cpu6502.fu:Cpu6502.DoFrame", "cpu6502.fu:Cpu6502.PullFlags", "cpu6502.fu:Cpu6502.Shx"]}
{"id": "C21", "title": "6502 stack discipline", "statement": "Pull after Push returns the pushed byte and restores the stack pointer for every stack pointer (with wrap-around inside page one); PLP after PHP restores all flags; RTS after JSR continues after the JSR; RTI after BRK/IRQ restores flags and return address.", "quantifier": "every register and memory state", "why_tests_cant": "Wrap-around cases and all flag combinations.", "anchors": ["cpu6502.fu:Cpu6502.Push", "cpu6502.fu:Cpu6502.Pull", "cpu6502.fu:Cpu6502.PushPc", "cpu6502.fu:Cpu6502.PushFlags", "cpu6502.fu:Cpu6502.PullFlags"]}
{"id": "C22", "title": "6502 never touches memory outside 64 KB", "statement": "No instruction reads or writes outside the 65536 bytes of emulated memory. (False of the code: the program counter is not wrapped, so code at 0xFFFF or a branch below 0 reads outside; true while the program counter and branch targets stay in range.)", "quantifier": "every program and state", "why_tests_cant": "Only crafted programs reach it.", "anchors": ["cpu6502.fu:Cpu6502.DoFrame", "asap.c:Cpu6502_DoFrame"]}
{"id": "C23", "title": "Emulation of a frame always terminates", "statement": "Emulating POKEY up to any cycle and running the 6502 for one video frame terminates for every program and register contents.", "quantifier": "every program, every register write history", "why_tests_cant": "Hang-freedom over all programs.", "anchors": ["cpu6502.fu:Cpu6502.DoFrame", "pokey.fu:Pokey.GenerateUntilCycle", "asap.fu:ASAP.DoFrame", "asap.fu:ASAP.HandleEvent"]}
{"id": "C24", "title": "POKEY random generator is the documented LFSR", "statement": "The 9-bit and 17-bit noise tables contain the maximal-length shift-register sequences (periods 511 and 131071), and the RANDOM register read at any time is the 8-bit window of that sequence at the elapsed cycle count.", "quantifier": "every table index and every cycle", "why_tests_cant": "131071 positions and a lookup spanning byte boundaries.", "anchors": ["pokey.fu:PokeyPair.PokeyPair", "pokey.fu:Pokey.Peek", "pokey.fu:PokeyPair.Peek", "pokey.fu:Pokey.EndFrame"]}
{"id": "C25", "title": "POKEY timer periods depend only on the registers", "statement": "After any sequence of register writes, the period of each of the four channels is the one the hardware manual prescribes for the current AUDF1-4 and AUDCTL, irrespective of the order of the writes.", "quantifier": "every sequence of register writes at any cycles", "why_tests_cant": "All write orders, including mode changes between joined and separate channels.", "anchors": ["pokey.fu:Pokey.Poke", "pokey.fu:Pokey.InitMute"]}
{"id": "C26", "title": "POKEY mixer input stays in range", "statement": "The sum of the channel volumes used to index the 61-entry DAC table is always in 0..60 and equals the sum of the volumes of channels whose output is high. (True as long as channels are not user-muted while AUDC is written; false otherwise.)", "quantifier": "every register write history, every number of generated cycles, every mute history", "why_tests_cant": "Needs particular interleavings of mute/unmute and volume-only writes.", "anchors": ["pokey.fu:Pokey.AddDelta", "pokey.fu:PokeyChannel.SetAudc", "pokey.fu:PokeyChannel.Slope", "asap.fu:ASAP.MutePokeyChannels"]}
{"id": "C27", "title": "Sample buffer writes stay in range", "statement": "For every supported sample rate, and whatever happens at any cycle within a frame (plus the possible overshoot), every access to the sample buffer and to the noise tables is in range, and the 32-bit computation of the sample position does not overflow.", "quantifier": "every sample rate up to 48000 Hz, PAL or NTSC, mono or stereo, and every history of writes, reads, frames, external sounds, interrupts, muting and output", "why_tests_cant": "Fixed-point rounding for every rate/cycle pair.", "anchors": ["pokey.fu:Pokey.AddDelta", "pokey.fu:Pokey.AddExternalDelta", "pokey.fu:PokeyPair.Initialize", "pokey.fu:PokeyPair.GetSampleFactor", "pokey.fu:PokeyPair.StartFrame"]}
{"id": "C28", "title": "Sample formats carry the same signal", "statement": "Every generated sample is clamped to -32767..32767; 16-bit little- and big-endian outputs are byte-swapped images of each other and the unsigned 8-bit output is the high byte plus 128; stereo interleaves the two chips, mono copies the first.", "quantifier": "every internal signal value and every buffer", "why_tests_cant": "All 2^32 accumulator values.", "anchors": ["pokey.fu:Pokey.StoreSample", "pokey.fu:PokeyPair.Generate"]}
{"id": "C29", "title": "Stereo routing", "statement": "A write to 0xD2xx affects only the left chip, or only the right chip, depending on address bit 4 when stereo is enabled; with stereo disabled every POKEY register mirror reaches the left chip.", "quantifier": "every register write sequence", "why_tests_cant": "All sequences and mirrors.", "anchors": ["pokey.fu:PokeyPair.Poke", "pokey.fu:PokeyPair.Peek", "asap.fu:ASAP.PokeHardware"]}
{"id": "C30", "title": "XEX compression is lossless", "statement": "Decompressing the byte stream produced by FlashPack with the emitted depacker's algorithm reproduces exactly the bytes of the original executable, for every executable FlashPack accepts. The 6502 code emitted into the compressed executable really does this: started on a 6502 with the compressed file loaded, it reaches the run address of the original with the original's bytes in memory, the stack pointer unchanged, and nothing else changed except five registers and the depacker's own workspace.", "quantifier": "every executable; every state of the 6502 that starts it with decimal mode off, provided that the original needs no byte of the depacker's workspace", "why_tests_cant": "Matches, distances, group boundaries and end marks for all data.", "anchors": ["flashpack.fu:FlashPack.Compress", "flashpack.fu:FlashPack.CompressMemoryArea", "flashpack.fu:FlashPack.PutItems", "flashpack.fu:FlashPack.PutPoke", "flashpack.fu:FlashPack.FindHole"]}
{"id": "C31", "title": "Writer stays inside its output window", "statement": "Whatever is written, and also when writing throws, ASAPWriter leaves every byte outside the window given by SetOutput untouched; on success it returns the end of what was written, inside the window. (The code violates this for XEX files in windows that do not start at index 0: the file is then written to the beginning of the array.)", "quantifier": "every window, target file name, module information and module, successful or not", "why_tests_cant": "All sizes around the limit.", "anchors": ["asapwriter.fu:ASAPWriter.WriteByte", "asapwriter.fu:ASAPWriter.WriteBytes", "asapwriter.fu:ASAPWriter.SetOutput"]}
{"id": "C32", "title": "Native modules are relocated correctly", "statement": "Writing a native module into a window from the beginning of the array, without changing its address, reproduces it byte for byte; with a new address every address in it is moved by the difference, the markers 0x0000 and 0xFFFF and all other bytes are kept, and moving back restores the module unless an address of it became one of the markers. An address too high for the module is refused and nothing is written. A module that is the first block of a SAP file is extracted the same way.", "quantifier": "every module of every relocatable type (CMC, CM3, CMR, CMS, DLT, MPT, RMT with any tables, TMC, TM2), every target address and every large enough array", "why_tests_cant": "All pointer tables and addresses.", "anchors": ["asapwriter.fu:ASAPNativeModuleWriter", "asapwriter.fu:ASAPWriter.WriteNative", "asapwriter.fu:ASAPWriter.Write"]}
{"id": "C33", "title": "Offered save formats are accepted", "statement": "GetSaveExts returns at most three extensions, each once; Write never refuses one of them with 'Impossible conversion'; and Write never succeeds for any other file name (except TM8, which stands for TMC). Refusals caused by the data (e.g. a module address in conflict with the player) remain possible.", "quantifier": "every module information, module, file name and output window", "why_tests_cant": "All module types and flags.", "anchors": ["asapwriter.fu:ASAPWriter.GetSaveExts", "asapwriter.fu:ASAPWriter.Write", "asapwriter.fu:ASAPWriter.WriteExecutable"]}
{"id": "C34", "title": "XEX title screen text fits", "statement": "Title, author and date texts of at most 127 characters are laid out in whole 32-column lines inside the 256-byte buffers, showing every non-space character in order and no title word of up to 32 characters broken. (The code violates this for authors with credits of exactly 32 characters.)", "quantifier": "every valid title, author and date", "why_tests_cant": "Word-wrap worst cases over all texts.", "anchors": ["asapwriter.fu:ASAPWriter.FormatXexInfoText", "asapwriter.fu:ASAPWriter.PadXexInfo", "asapwriter.fu:ASAPWriter.WriteXexInfo"]}
{"id": "C35", "title": "Disk image file contents", "statement": "If a path leads to a file on an ATR image whose chain of sectors ends, the file is found, and reading it returns the concatenation of its sectors' payloads, independent of the sizes of the Read calls; SetPosition(n) followed by reading gives the content from n on; GetLength returns the content length without moving the position. (As far as the code goes: unless it is a DOS 1 file, the last byte left in the stream's sector buffer by its previous use must not exceed the sector size, otherwise the first Read returns -1.)", "quantifier": "every disk image, path, file with a sector chain that ends, and sequence of reads and seeks", "why_tests_cant": "All partitions and all chains; the failure needs a reused or uninitialised stream.", "anchors": ["aatr.fu:AATRFileStream.Read", "aatr.fu:AATRFileStream.SetPosition", "aatr.fu:AATRFileStream.GetLength", "aatr.fu:AATR.ReadSector"]}
{"id": "C36", "title": "Disk image reading terminates", "statement": "Reading from any ATR image terminates. (False of the code: an empty sector linked to itself makes Read loop forever. True if no cycle of empty sectors exists, even if sectors with data form a cycle.)", "quantifier": "every disk image, stream and length", "why_tests_cant": "Needs a cyclic chain of empty sectors.", "anchors": ["aatr.fu:AATRFileStream.Read"]}
{"id": "C37", "title": "Directory listing", "statement": "NextEntry gives exactly the names in the directory, in order, and every one of them is a base of at most 8 and an extension of at most 3 characters from A-Z, 0-9 and underscore, not both empty, with one dot if there is an extension, so at most 12 characters. FindEntry and FindEntryRecursively find the first entry of each name of the path, if there is one. The recursive lister ends and gives the paths of all files in directories up to 19 levels deep, also when directories contain themselves. All accesses are inside the sector buffers and the array of directories.", "quantifier": "every disk image, directory, path and number of calls", "why_tests_cant": "All 16-byte entries, all nestings, cycles of directories.", "anchors": ["aatr.fu:AATRDirectory.NextEntry", "aatr.fu:AATRDirectory.FindEntry", "aatr.fu:AATRDirectory.FindEntryRecursively", "aatr.fu:AATRRecursiveLister.NextFile"]}
{"id": "C38", "title": "STIL.txt is reported as written", "statement": "Loading the STIL information for a song of a file uses the nearest Docs/STIL.txt or STIL.txt above the file, ends for any contents without overrunning a buffer, and reports the comments of the directory, the file and the song, the last name and author, and up to 10 covers with title, artist, comment and start and end time, exactly as the lines of STIL.txt say. Comments have at most 1000 characters and other texts at most 100.", "quantifier": "every file system, file name, song number and contents of STIL.txt (titles of covers up to 98 characters per line)", "why_tests_cant": "Arbitrary, binary or truncated text files; buffers are overrun only for particular combinations of lengths and characters.", "anchors": ["astil.c:ASTIL_Load", "astil.c:ASTIL_ReadLine", "astil.c:ASTIL_ReadComment", "astil.c:ASTIL_ReadStilBlock", "astil.c:ASTILCover_Load", "astil.c:ASTILCover_ParseTimestamp", "astil.c:ASTIL_MatchFilename"]}
{"id": "C39", "title": "Switching between PAL and NTSC", "statement": "SetNtsc rescales every known duration by the ratio of the frame rates, keeps unknown durations unknown, and is refused for formats that cannot be changed without altering anything.", "quantifier": "every module information", "why_tests_cant": "All durations and rounding.", "anchors": ["asapinfo.fu:ASAPInfo.SetNtsc", "asapinfo.fu:ASAPInfo.CanSetNtsc"]}
{"id": "C40", "title": "Hardware timing and the cadence of the player routine", "statement": "A write to WSYNC does nothing but advance the clock to the next horizontal position 106; VCOUNT reads as half of the number of the scan line for both TV systems; PlaySong does not call the player routine, and afterwards Generate calls it exactly once in every FASTPLAY-th scan line, beginning with the first, whatever the sizes of the buffers are and whatever the 6502 program does.", "quantifier": "every cycle position; every loaded module, 6502 program, FASTPLAY from 1 to 32767 and list of buffer sizes", "why_tests_cant": "The clock may be late by any number of cycles because of WSYNC, interrupts and slow instructions; a lost or doubled scan line would depend on the program.", "anchors": ["asap.fu:ASAP.PokeHardware", "asap.fu:ASAP.PeekHardware", "asap.fu:ASAP.HandleEvent", "asap.fu:ASAP.Do6502Frame", "cpu6502.fu:Cpu6502.DoFrame"]}
{"id": "C41", "title": "Indirect jumps go where the 6502 goes", "statement": "JMP (p) continues at the address stored at p and p+1; if p is the last byte of a page, the high byte is taken from the first byte of the same page, as on the NMOS chip.", "quantifier": "every pointer and every memory contents", "why_tests_cant": "65536 pointers times all memory contents; the page-end case never appears in ordinary programs.", "anchors": ["cpu6502.fu:Cpu6502.DoFrame", "asap.c:Cpu6502_DoFrame"]}
{"id": "C42", "title": "The emulated processor is an NMOS 6502", "statement": "Every documented instruction in every addressing mode changes A, X, Y, S, PC, the flags and the memory exactly as the 6502 programming manual says and takes the documented number of cycles, including page-crossing and branch penalties; a run of such instructions goes through the states of the manual; a pending interrupt is served as documented when enabled.", "quantifier": "all 151 documented opcodes, all register, flag and memory states in range, runs of any length", "why_tests_cant": "The state space (registers, flags, 64 KB of memory, program) cannot be enumerated; programs are arbitrary.", "anchors": ["cpu6502.fu:Cpu6502.DoFrame", "cpu6502.fu:Cpu6502.CheckIrq", "cpu6502.fu:Cpu6502.ExecuteIrq", "asap.c:Cpu6502_DoFrame"]}
{"id": "C45", "title": "MPT, TMC and TM2 song scans terminate", "statement": "Loading a file as MPT, MPD, TMC, TM8 or TM2 always comes to an end, whatever the file contains, and if it is accepted then there are 1 to 32 songs of known duration, a printable title of at most 127 characters, one or two POKEYs and 1 to 4 player calls per frame.", "quantifier": "every byte string of any length", "why_tests_cant": "The pattern interpreters follow pointers found in the file, so termination depends on every byte.", "anchors": ["asapinfo.fu:ASAPInfo.ParseMpt", "asapinfo.fu:ASAPInfo.ParseMptSong", "asapinfo.fu:ASAPInfo.ParseTmc", "asapinfo.fu:ASAPInfo.ParseTmcSong", "asapinfo.fu:ASAPInfo.ParseTm2", "asapinfo.fu:ASAPInfo.ParseTm2Song"]}
{"id": "C46", "title": "Loading reads only the file", "statement": "ASAPInfo.Load reads no byte outside the given module and indexes no table of the program out of range, whatever the file name and contents. (False of the code for MPT, RMT, TMC and TM2, whose unterminated patterns are read beyond the end, and for CMS modules of 774 to 1027 bytes.)", "quantifier": "every file name or none, every byte string of any length", "why_tests_cant": "An over-read shows only for particular truncated or corrupted files, and usually not even as a crash.", "anchors": ["asapinfo.fu:ASAPInfo.Load", "asapinfo.fu:ASAPInfo.GuessPackedExt"]}
{"id": "C47", "title": "Whatever Load accepts is sane", "statement": "After a successful ASAPInfo.Load of any file of any format there are at most 32 songs, the default song exists (unless a Future Composer file has no song), there are one or two POKEYs, the player is called every 1 to 32767 scanlines, durations are -1 or nonnegative (and known for all songs of native modules), addresses are in the 64 KB, and no text contains a line feed or a character that SAP files cannot express.", "quantifier": "every file name or none, every byte string of any length, all fourteen formats", "why_tests_cant": "Fourteen parsers of unbounded inputs.", "anchors": ["asapinfo.fu:ASAPInfo.Load"]}
{"id": "C48", "title": "A native module saved as a SAP file plays the same", "statement": "Saving a loaded CMC, CM3, CMR, CMS, DLT, MPT, RMT, TMC, TM2 or FC module as SAP succeeds given room, and playing the SAP file does what playing the module does: with the file loaded, the module and the player routine are in the memory at the same addresses as with the module loaded; starting a song makes the same calls of the player routine with the same registers (in the native case by the program, in the SAP case by the 6502 code in the file); then every call of the player enters the routine at the same entry; title, author, date, songs, durations, loops, number of POKEYs, TV system and player rate are the same.", "quantifier": "every native module (all ten player routines) and its description, every song number, every initial memory and processor state, any number of player calls, whatever the player routine itself does to other memory", "why_tests_cant": "The generated 6502 code depends on the song count, positions and addresses of the module; it has to work from every memory state and for every behaviour of the routines it calls, any number of times.", "anchors": ["asapwriter.fu:ASAPWriter.Write", "asapwriter.fu:WriteExecutable", "asap.fu:ASAP.Load", "asap.fu:ASAP.PlaySong", "asapinfo.fu:ASAPInfo.Load"]}
{"id": "C43", "title": "Samples are those of a cycle-by-cycle POKEY", "statement": "Whatever registers a song writes and when, the bytes returned by Generate, with buffers of any sizes, are exactly the samples, from the first to the current position, of the sound of one or two POKEY chips simulated cycle by cycle that hear what the emulated processor stored: every channel counts down its period, its flip-flop follows the noise generators, the pure-tone and gating bits, joined channels, high-pass filters and two-tone mode act as documented, the sum of the volumes goes through the converter table, each change (also one of COVOX or the speaker) is added as a band-limited step at its cycle, and the result is integrated and clipped. In particular it does not matter how the events are scheduled internally, where the frames end, how the samples are requested, or how the buffer is moved between frames. (False of the code after a write to STIMER, which forgets what happened since the last register write.)", "quantifier": "every list of frames, every list of register writes at any cycles in time order, every splitting of the requests, mono and stereo, PAL and NTSC, all sample formats, rates 1 to 48000 Hz, every interpolation table; every loaded song and every sequence of requests", "why_tests_cant": "The emulator jumps from event to event with several lists of pending times, buffers that are shifted, and noise positions that are wrapped; differences show only for particular register values and timings.", "anchors": ["pokey.fu:Pokey.GenerateUntilCycle", "pokey.fu:Pokey.Poke", "pokey.fu:Pokey.StartFrame", "pokey.fu:Pokey.EndFrame", "pokey.fu:Pokey.StoreSample", "pokey.fu:PokeyPair.Generate", "pokey.fu:PokeyChannel.DoTick", "asap.fu:ASAP.Generate", "asap.fu:ASAP.DoFrame"]}
{"id": "C44", "title": "Loads and stores reach the hardware registers", "statement": "A program stores to a sound register, and the chip at that address hears exactly this value at the cycle the instruction ends; a store to COVOX or CONSOL makes a step of the sound on the proper side of exactly the change of the value; a store to WSYNC makes the processor wait until cycle 106 of the first scan line that has not passed it; a store to NMIRES clears NMIST; a load reads PAL, CONSOL, RANDOM, IRQST, VCOUNT, NMIST as documented at the cycle the instruction ends; an instruction that changes a byte writes POKEY twice, one cycle apart. All other addresses are memory. Nothing else in the player changes.", "quantifier": "every documented instruction that stores, loads or changes a byte, every addressing mode, all 65536 addresses, every state of the processor and of the player", "why_tests_cant": "Addresses come from indexing by register contents, values and times are arbitrary, and mirrored registers overlap with COVOX at a page chosen by the file.", "anchors": ["asap.fu:ASAP.PokeHardware", "asap.fu:ASAP.PeekHardware", "cpu6502.fu:Cpu6502.Poke", "cpu6502.fu:Cpu6502.PeekReadModifyWrite", "pokey.fu:PokeyPair.Poke", "pokey.fu:PokeyPair.Peek", "asap.c:ASAP_PokeHardware"]}
{"id": "C49", "title": "asapconv changes no files but the outputs", "statement": "Whether a conversion succeeds, fails or is stopped, asapconv changes no files but those whose names result from the pattern given with -o, with the placeholders %a %n %d %e %s replaced by the author, name, date, original extension and the song number, in which < > : / \\ | ? * are underscores. If the folder in the pattern has no placeholders, all of them are directly in this folder (or in that of the input for '-o .EXT'), whatever texts the music file contains. (Placeholders as names of folders can lead to the parent folder, as dots are kept.)", "quantifier": "every input file of any bytes, every pattern with an extension, every command line, every outcome, at any number of written buffers", "why_tests_cant": "The names come from texts in untrusted files and from the command line, and the effect on the file system must hold for all of them and at every point where the program may stop.", "anchors": ["asapconv.c:open_output_file", "asapconv.c:process_file", "asapconv.c:convert_to_wav", "asapconv.c:convert_to_module"]}
{"id": "C50", "title": "asapconv records songs completely", "statement": "If a conversion to WAV or RAW finishes, its outputs are recordings: for a pattern with %s one for each song, otherwise one of the song selected or the default song. Each holds exactly the samples that one call of Generate with a large enough buffer delivers for the duration given with -t, known from the file, or 3 minutes, with the channels muted that were selected, at the sample rate selected; a WAV file is read back by a RIFF reader as these samples with the right rate, channels, sample size and tags. Nothing else is changed. A song with duration 0 never finishes.", "quantifier": "every loadable file, every pattern, all options, sample rates 100 to 48000 Hz, every song", "why_tests_cant": "The samples are delivered in pieces of 8192 bytes by a stateful emulator, over several songs in one player; the equality with one large request must hold for all songs and durations.", "anchors": ["asapconv.c:convert_to_wav", "asapconv.c:play_song", "asapconv.c:open_output_file", "asapconv.c:apply_tags"]}
{"id": "C51", "title": "asapconv writes modules as ASAPWriter does", "statement": "If a conversion to SAP, XEX or a native format finishes, its outputs are exactly what ASAPWriter.Write gives for the module with the options applied: tags, PAL/NTSC, address, and per song the duration and, for executables, the default song; for a pattern with %s one executable for each song. The names are as told, nothing else is changed. (A conversion that fails may have emptied the output, which can be the input.)", "quantifier": "every loadable file, every pattern, all options", "why_tests_cant": "Options, formats, numbers of songs and placeholders combine freely.", "anchors": ["asapconv.c:convert_to_module", "asapconv.c:write_byte", "asapconv.c:apply_tags", "asapconv.c:open_output_file"]}
{"id": "C52", "title": "Options of asapconv mean what --help tells", "statement": "Each option sets what --help describes, for all values in its range: texts verbatim, decimal song numbers 0 to 31, durations in the documented syntax, rates up to 256000, channels in any list, hexadecimal addresses with or without $. The short and the long form are equivalent; numbers out of range are rejected and nothing is converted. (False for --sample-rate=RATE, which is always rejected, and for -s -t -R -m at the end of the command line, which dereference a null pointer.)", "quantifier": "all options, all values, any rest of the command line, any state", "why_tests_cant": "The values are arbitrary texts and numbers; prefixes of option names are compared by lengths.", "anchors": ["asapconv.c:main", "asapconv.c:parse_int", "asapconv.c:set_time", "asapconv.c:set_mute_mask", "asapconv.c:set_music_address", "asapconv.c:set_sample_rate"]}
{"id": "C53", "title": "asapscan finds the first silence or loop", "statement": "asapscan -t plays a song frame by frame and reports the time at which 5 seconds of silence began, or at which music that was heard at least 5 seconds earlier began to repeat for 3 minutes, or at which the sound stopped changing for 3 minutes, whichever is known first within 15 minutes; if it reports nothing, none of these happened. Two frames count as the same exactly if the audible registers of both chips are the same. Collisions of its hashes and the previous contents of its arrays do not matter, no search is endless and no array is accessed out of bounds. The printed TIME is a valid duration within 10 ms of the frame.", "quantifier": "all files, songs, programs run by the emulated computer, contents of uninitialised arrays, and all values of the four times", "why_tests_cant": "The music is the behaviour of an arbitrary program over tens of thousands of frames, and errors would show only for particular collisions in a table of 256 chains.", "anchors": ["asapscan.c:scan_song", "asapscan.c:get_hash", "asapscan.c:has_loop_at", "asapscan.c:store_pokeys", "asapscan.c:print_time"]}
{"id": "C54", "title": "Fingerprints depend on the sound only", "statement": "The fingerprint printed with asapscan -p is a substring of the one printed with -l, as --help says; that one has one byte for each frame played, a hash of the audible registers. Two songs that sound the same in every frame have the same fingerprints and the same time, whatever else their programs do.", "quantifier": "all pairs of programs and songs, all contents of uninitialised arrays", "why_tests_cant": "It relates two arbitrary programs over all frames.", "anchors": ["asapscan.c:compute_entrophy", "asapscan.c:get_byte_hash", "asapscan.c:scan_song"]}
{"id": "C55", "title": "Editing the header of a SAP file as text", "statement": "sap2txt prints the header of a SAP file and one line for each block with its addresses and checksum in hexadecimal. When a text is written back, the binary part of the file is never changed: the new file is a beginning of the text followed by the old file from its first FF byte. If the text is the dump with an edited header, then the new file has exactly this header and the old blocks, its dump is the edited text, and nothing is written if the header was not edited. Dumping ends for every file.", "quantifier": "all headers of complete lines, all lists of blocks, all texts and files, all contents of uninitialised memory", "why_tests_cant": "The cycle must hold for every header and every list of blocks, and the binary part must survive every text.", "anchors": ["sap2txt.c:sap2txt", "sap2txt.c:txt2sap", "sap2txt.c:slurp", "sap2txt.c:get_word"]}
{"id": "C56", "title": "Undocumented instructions of the 6502", "statement": "Every undocumented instruction (ASO, RLA, LSE, RRA, DCM, INS, LAX, SAX, LAS, ANC, ALR, ARR, SBX, SBC, ANE, ANX, SHA, SHS, SHX, SHY and the variants of NOP) in every addressing mode changes A, X, Y, S, PC, the flags and the memory as descriptions of the chip say and takes the time they say, also in decimal mode; programs that mix documented and undocumented instructions go through the described states; the opcodes that stop the processor change nothing but the clock; every byte is exactly one of the three.", "quantifier": "all 93 undocumented opcodes and 12 stopping ones, all register, flag and memory states in range, mixed runs of any length", "why_tests_cant": "The state space (registers, flags, 64 KB of memory, program) cannot be enumerated; some instructions are only wrong for particular flags, digits or page crossings.", "anchors": ["cpu6502.fu:Cpu6502.DoFrame", "cpu6502.fu:Cpu6502.Shx", "asap.c:Cpu6502_DoFrame"]}
{"id": "C57", "title": "Traces and disassembly of the music program", "statement": "asapscan -c prints a line for each instruction executed, in order, with the time in the frame, the registers and flags before the instruction, its address and bytes, its mnemonic and its operand in the notation of its addressing mode; the target shown for a jump or a taken branch is where the processor goes. Tracing does not change the emulation. asapscan -u lists exactly the undocumented and stopping instructions and BRK that were executed, in the order of opcodes.", "quantifier": "all opcodes, all contents of memory, all states of the registers, all programs and numbers of instructions", "why_tests_cant": "Each line depends on the whole state of the processor, and the table of 256 instructions has to agree with what the processor does with each of them.", "anchors": ["asapscan.c:show_instruction", "asapscan.c:trace_cpu", "asapscan.c:print_unofficial_mnemonic", "asapscan.c:cpu_mnemonics", "asapscan.c:cpu_opcodes", "cpu6502.fu:Cpu6502.DoFrame"]}
{"id": "C58", "title": "Songs and durations of MPT, TMC and TM2 modules are those of their player routines", "statement": "When ASAPInfo_Load accepts an MPT, MPD, TMC, TM8 or TM2 module, GetSongs counts the songs of the module and, for every song, GetDuration is the time that the Atari player routine shipped with ASAP takes from the start of the song until it ends or jumps back, and GetLoop tells whether it jumps back. A song starts at the first line and after every jump or end that is followed by lines (TMC, TM2), or at every line that no song before it visits (MPT); 32 songs at most.", "quantifier": "all modules of these formats that are accepted, of any length and contents (any order of lines, any stream of events)", "why_tests_cant": "A test compares a duration with a known module. The claim is about an interpreter of byte streams with eight channels, waiting times, tempo changes and jumps, and has to hold for every stream and every order of lines.", "anchors": ["asapinfo.fu:ParseMptSong", "asapinfo.fu:ParseMpt", "asapinfo.fu:ParseTmcSong", "asapinfo.fu:ParseTmc", "asapinfo.fu:ParseTm2Song", "asapinfo.fu:ParseTm2", "6502/mpt.asx", "6502/tmc.asx", "6502/tm2.asx"]}
{"id": "C59", "title": "Songs and durations of RMT modules are those of the player routine", "statement": "When ASAPInfo_Load accepts an RMT module, GetSongs counts the songs with something to hear; a song starts at every line that no song before it visits, 32 songs at most. For every song, GetDuration is the time of the patterns as the Atari player routine plays them, or the time until the last sound if that is earlier: the last call of the player, in the first pass of the envelope of an instrument or until its volume slide comes to the minimum, in which volume times level is not rounded to zero. It is never less than the time of the last note. GetLoop tells whether the song jumps back, unless the patterns go on for more than 100 frames of silence.", "quantifier": "all RMT modules of four and eight tracks that are accepted, of any length and contents (any order of lines, any stream of events)", "why_tests_cant": "A test compares a duration with a known module. The claim is about an interpreter of byte streams with four or eight tracks, pauses, tempo changes, jumps inside patterns and jumps between lines, and has to hold for every stream and every order of lines.", "anchors": ["asapinfo.fu:ParseRmtSong", "asapinfo.fu:ParseRmt", "asapinfo.fu:GetRmtInstrumentFrames", "6502/rmt.asx"]}
{"id": "C60", "title": "Counting samples does not overflow", "statement": "Over any history of ordinary calls (songs of up to 99:59.999, the longest duration a file can state, positions of up to two hours, 100 to 48000 Hz, buffers of any length, up to 20 minutes of silence detection) no 32-bit sum, difference or product in SeekSample, Seek, Generate, DetectSilence and GetWavHeader overflows, so they do what is proved of them with unbounded integers. (False of GetPosition: ten times the number of samples overflows after 214748364 samples, about 81 minutes at 44100 Hz.)", "quantifier": "every module, program, history of calls and buffer length", "why_tests_cant": "An overflow shows only after an hour of playback, at the boundary of some combination of rate, duration, position and format.", "anchors": ["asap.fu:ASAP.GetPosition", "asap.fu:ASAP.MillisecondsToBlocks", "asap.fu:ASAP.SeekSample", "asap.fu:ASAP.GenerateAt", "asap.fu:ASAP.DetectSilence", "asap.fu:ASAP.GetWavHeader", "asap.c:ASAP_GetPosition"]}
{"id": "C61", "title": "Songs do not depend on what was played before", "statement": "After Load of a SAP file and PlaySong, everything seen and heard (the bytes and lengths of every Generate, positions, channel volumes, failures) over any further history of calls is determined by the file and the settings (sample rate, silence detection), whatever the player was used for before: other modules, songs, muting, seeking. For modules of other formats the memory before Load must be the same too, because it is not cleared. (False of the output level: it is not initialised, so the first change of the output is relative to where the previous song ended.)", "quantifier": "every file, pair of previous states of the player, song, duration and history of calls", "why_tests_cant": "State left from one song shows in another only for particular pairs of songs; tests start with a new player.", "anchors": ["asap.fu:ASAP.Load", "asap.fu:ASAP.PlaySong", "asap.fu:ASAP.Do6502Init", "asap.fu:ASAP.DoFrame", "pokey.fu:Pokey.Initialize", "pokey.fu:PokeyPair.Initialize", "cpu6502.fu:Cpu6502.Reset"]}
{"id": "C62", "title": "Title screen of executables", "statement": "An executable written with the information displayed starts with its own program and, after decompression, shows in every frame exactly the title, a bar, the authors and the date line, all of their characters in order, on 223 scan lines whatever their lengths; the display list, the program and the time that is counted down are at fixed addresses; the rest of the file is what is written without the information.", "quantifier": "every module, texts of all lengths that can be laid out, duration and output buffer that the executable fits in", "why_tests_cant": "The number of lines of the three texts and their addresses vary with the metadata; tests look at a few files, if any, on an emulator.", "anchors": ["asapwriter.fu:ASAPWriter.WriteXexInfo", "asapwriter.fu:ASAPWriter.WriteXexInfoTextDl", "asapwriter.fu:ASAPWriter.Write", "6502/xexinfo.asx"]}
{"id": "C63", "title": "Countdown on the title screen", "statement": "In an executable written with the information displayed, the time on the title screen starts with the duration of the default song rounded up to full seconds. With the countdown routine called once per frame, from any processor state, each call returns and changes only the time and its fraction; after n frames the time is lower by the whole seconds in n frames of the TV standard, stops at 00:00, never runs ahead of real time and lags by less than 0.1% and one second. If there is no time, the place stays empty. The routine that switches the screen on points ANTIC to the display list of the title screen and sets nothing but display registers.", "quantifier": "every module and duration that fits in 99:59, PAL and NTSC, every number of frames, every processor state at each call and everything else in memory", "why_tests_cant": "There are 6000 times, 65536 fractions and unboundedly many frames; an error in a borrow or in the fraction shows only after minutes of playback.", "anchors": ["6502/xexinfo.asx:countdown", "6502/xexinfo.asx:show_info", "asapwriter.fu:ASAPWriter.WriteXexInfo"]}
{"id": "C64", "title": "When executables call the player", "statement": "An executable (of any type but D) calls the player of its song at planned times: call k is at scan line 250 + k*FASTPLAY, rounded down to the pairs of lines that VCOUNT counts, on PAL and on NTSC, with no drift however long it plays, for even and odd FASTPLAY. It does not call the player while the number of frames or VCOUNT differ from the planned ones, and does when they match. The FASTPLAY of the song is what is written to the file.", "quantifier": "every module, FASTPLAY up to 65535, TV standard, number of calls, processor state after each call and everything else in memory", "why_tests_cant": "A rounding error in the plan of an odd FASTPLAY or a carry from VCOUNT to frames adds up over thousands of calls and depends on the FASTPLAY and the TV standard.", "anchors": ["6502/xexb.asx", "asapwriter.fu:ASAPWriter.Write", "asapwriter.fu:ASAPWriter.WriteExecutable"]}
{"id": "C65", "title": "Interrupts and start of executables", "statement": "In an executable (of any type but D), an interrupt at any moment of the player, in any state of the processor, is not noticed by it: all registers and flags (decimal mode too) and the program counter are as before, and the memory is, too, except for the number of frames, which is one more, at most 7 free bytes of the stack and, if the information is displayed, the time, which is counted down. Before the first call of the player, the program tells NTSC from PAL, initialises the song with its number in A, installs the interrupt routine with the countdown exactly if the information is displayed, switches interrupts on and waits for the first planned VCOUNT.", "quantifier": "every module, processor state at the interrupt with the stack pointer at 0xE6 or above (0xE2 without the information), TV standard, time and everything else in memory", "why_tests_cant": "Interrupts come at any instruction of the player; a register or flag that is not restored spoils the music only if it is live at that instruction.", "anchors": ["6502/xexb.asx:nmi", "6502/xexb.asx:nmi_info", "6502/xexb.asx:main", "6502/xexinfo.asx:countdown"]}
{"id": "C66", "title": "Executables of type D", "statement": "In an executable of type D, whose song has its own program, an interrupt at any moment of this program, in any state of the processor, calls the player of the song exactly once, with nothing changed but free bytes of the stack; when the player has returned, whatever it has done elsewhere, the program goes on where it was, with all registers and flags and with the memory as the player left it, except for the time, which is counted down if the information is displayed. At the beginning, interrupts are installed and switched on exactly if the song has a player, and the program of the song is started with its number in A. The addresses and the number are those of the song.", "quantifier": "every module of type D, processor state at the interrupt with the stack pointer at 0xA1 or above, behaviour of the player that returns, time and everything else in memory", "why_tests_cant": "The interrupt comes at any instruction of the program of the song, and what the player does to registers, flags and memory is up to the song.", "anchors": ["6502/xexd.asx:nmi", "6502/xexd.asx:main", "6502/xexinfo.asx:countdown", "asapwriter.fu:ASAPWriter.Write"]}
{"id": "C67", "title": "POKEYs at the start of executables", "statement": "When an executable initialises its song, both POKEYs have the register values with which ASAP itself starts the song: all periods, controls and AUDCTL are 0 and SKCTL is 3, whatever they were before, and nothing else in memory is changed except that type D switches POKEY interrupts off.", "quantifier": "every executable of each type, every content of memory and registers of the hardware when it is started", "why_tests_cant": "It must hold for every state the computer is left in by what ran before and by loading, and every song.", "anchors": ["6502/xexb.asx:init_pokey_1", "6502/xexd.asx:init_pokey_1", "pokey.fu:Pokey.Initialize"]}
{"id": "C68", "title": "Start of executables", "statement": "An executable, started at the address in its header, switches interrupts and graphics off and gets to the program that resets POKEYs and plays, with the stack, 0 in A and that program as they must be. With information about the music, before that, the font is copied from ROM so that characters have ASCII codes, and ANTIC shows the display list of the title screen in this font; other memory is changed only in two free bytes of the stack. Without information, only hardware registers are changed.", "quantifier": "every executable with and without information, every state of the processor in binary mode with the stack pointer at 0xE2 or above, every font and everything else in memory", "why_tests_cant": "It must hold for every content of memory, ROM and registers when the executable is started; a copy that misses one byte or overwrites the title is seen in some texts only.", "anchors": ["6502/xexinfo.asx:main", "6502/xexinfo.asx:show_info", "6502/xexb.asx:main", "6502/xexd.asx:main", "asapwriter.fu:ASAPWriter.Write"]}
