# Formal model of ii-vision in Lean 4 — design and trusted base

The model, the specifications and the theorems are in `lean/Verif`:

| directory | contents |
|-----------|----------|
| `Model/`  | the model, function by function; every definition cites the `/repo` lines it models and says where it simplifies |
| `Data/`   | generated data: the symbol lines of `player/iivision.dbg` (`scripts/gen_symbols.py`) and the bytes of the player (`scripts/gen_image.lean.txt`); that the bytes are those of the assembled model is *proved* (`Proofs/PlayerImage`), so the second file is not trusted |
| `Spec/`   | small independent vocabulary used in the statements (dot rule of the hardware, ideal player, decoding of streams, what a client receives, …) |
| `Proofs/` | helper lemmas |
| `Props/`  | the property theorems, one file per area, each area ending in examples that concrete cases meet the hypotheses |

`properties.jsonl` has the English claims, `MANIFEST.json` maps them to theorems, `seeded/LOG.jsonl`
records the attempts to break theorems with wrong programs.

## 1. Trusted base

1. **Lean's kernel** (4.33.0). No axioms are added; no `native_decide`, no `bv_decide`. Every theorem of
   `MANIFEST.json` depends on a subset of `propext`, `Classical.choice`, `Quot.sound`; the appendix lists which. `decide +kernel` is used for facts
   about genuinely finite tables (e.g. all 2^k windows, the bytes of the player, the 1030 symbols);
   it is evaluated by the kernel.
2. **The reading of the code.** The code is not executed here. The tie between model and code is
   the citation on each definition.
3. **The behaviour of what is not in the repository**, as described in section 3.

## 2. What is modelled

| file in /repo | model | not modelled |
|---|---|---|
| `transcoder/screen.py` | `Model/Screen` (address maps, flat/paged memory, numpy indexing), `Model/Bitmap` (packing, headers/footers, `apply`, masks, `diff_weights`, `compute_delta`, `edit_distances`) | `lru_cache` on pure functions of immutable arguments (`byte_offset` etc.; the one with object arguments is C69), type annotations |
| `transcoder/colours.py`, `palette.py` | `Model/Colours` (rotations, dots to pixels, names; RGB values) | – |
| `transcoder/make_data_tables.py` | `Model/Colours` (substitution costs), `Model/Tables` (the generator's loops, its assertion, file names) | progress bar; the CIE2000 formula (arbitrary function `deltaE` with stated bounds); `dam_lev` is third party: its documented recurrence |
| `transcoder/video.py` | `Model/Video` (`encode_frame`, `_index_changes`, priorities, heap, padding, random nonces) | `np.random` is an arbitrary tape; `heapq` and `lru_cache` are library code, modelled after CPython's sources in `Model/Heapq`, `Model/Machinery` and proved transparent (C69) |
| `transcoder/movie.py`, `machine.py`, `opcodes.py`, `video_mode.py` | `Model/Movie`, `Model/Opcodes` | `print` |
| `transcoder/audio.py` | `Model/Audio` (normalisation, quantisation, clipping), `Model/Pcm` (frames, channels, buffers, the part analysed) | file formats (audioread) and the resampler's arithmetic (librosa): the buffers are inputs, the resampler an arbitrary function |
| `transcoder/symbol_table.py` | `Model/Symbols` (on strings) | – |
| `transcoder/frame_grabber.py` | `Model/Grabber` (naming, caching, the two threads and their queue, a file system) | reading the video (skvideo), resizing and saving (PIL), what bmp2dhr computes (arbitrary function on the file system); `os.makedirs` is taken to succeed except in `Model/Folder` (C89) |
| `transcoder/main.py` | `Model/Program`: the whole transcoder, main and conversion thread interleaved arbitrarily; `Model/Disk`: its output as a file; `Model/Buffered`: that file with its buffer and a disk that may be full; `Model/Interrupt`: Ctrl-C; `Model/Beside`: other programs on the disk; `Model/Crowd`: any number of transcoders, one file operation at a time; output file name in `Model/Grabber`; `Model/Entire`: all of it from the words of the command line to the files; `Model/CommandLine`: the declared options and what CPython 3.11's `argparse` makes of the words (compared with the real one on random command lines) | `float`, `int` (arbitrary), error texts, `print`, overflow of the output limit |
| `player/main.s`, `apple2-asm-hgr.cfg`, `iivision.dbg` | `Model/Player`: all instructions of the source as data, assembled in Lean at the addresses of the debug file | the executable header; the loader |
| `server/server.py` | `Model/Server` with the parts of `socketserver` it uses; `Model/Serving`: with a file that changes while it is read | the listen backlog limit |
| `simulator/*.py` | `Model/Simulator` with py65's `ObservableMemory` | logging; the 6502 core of py65 (arbitrary step function); `trace` |
| `*_test.py`, `player/make/*`, `README.md` | – | not code a user's result depends on |

## 3. Assumptions about the environment

* **Python/numpy.** `np.uint8`/`uint64` arithmetic wraps; numpy indexing accepts negative indices;
  exceptions and failed assertions are values (`Except PyErr α`); generators are suspended states with a
  `next` function. `heapq` pops a least element (proved of its array algorithm: C69). `np.savez`/`np.load` are lossless.
* **Floating point.** `ticks_per_frame * n` enters only through integer thresholds (`thr : Nat → Nat`,
  with `C29_float_thresholds` linking them to any rounding of the product, and C73 to the rates and double precision). Audio samples are rationals,
  infinities or NaN; every operation is exact followed by an arbitrary monotone rounding.
* **6502** (`Model/Cpu`): the instructions the player uses, their cycles (including page crossing), memory below
  $C000 in RAM. Decimal mode is off, there are no interrupts, the stack is not modelled (`JSR` occurs only to ROM and
  ProDOS). ROM `HCLR` clears the selected page; `COUT` prints a character and may clobber X, flags, zero page $20–$4F and text
  page 1 with arbitrary values. BRK and the call of ProDOS stop the model.
* **Apple II**: speaker at $C030 toggles on any access; keyboard latch with strobe; soft switches; with
  80STORE and HIRES, PAGE2 steers $2000–$3FFF to auxiliary memory.
* **W5100** (`Model/Cpu`): indirect mode, auto-increment wrapping at the end of the 8K receive and transmit
  buffers (main.s:416-417 relies on it); bit 7 of the mode register resets (all registers 0); OPEN, CONNECT, RECV and the
  status register of socket 0; received size and read pointer registers; TCP flow control (never more than 8K
  unacknowledged). The network is an arbitrary schedule: before each instruction any number of bytes may arrive,
  the status may change, a key may be pressed.
* **Threads**: each thread of the grabber is atomic between operations on the queue, the only thing they share. (That the conversion of a picture may be taken as one step is proved in C93, where every file operation is one.)
* **The transcoder as a whole**: in C60 to C76 the output is a list of bytes; C78 puts it on the disk, as a file that is none of
  those of the pictures (proved for the default name; paths are compared as texts) and that bmp2dhr leaves alone. In C60 the audio stream does
  not fail after it has been opened; C72 is about streams that do.
* **Sockets**: `sendall` hands over at least one byte per `send`, blocks, or raises.

## 4. Policy

Where a natural claim turned out to be false of the code, its statement in `properties.jsonl` has been reworded to
what is true, with the defect spelled out, and the manifest note says "Defect". The theorems then prove the true part and the
defect (usually named `…_refuted`, `…_defects`, or with a universally quantified failure). No
theorem in the manifest is partial with respect to its (reworded) statement.

## 5. Properties: how they are modelled and proved

| id | about | proof |
|----|-------|-------|
| C01, C02 | `Screen.populateMappings` = the double loop as a fold over (y,x) | fold lemma; arithmetic |
| C03 | `FlatMemoryMap`, `MemoryMap` with numpy negative indexing | case analysis, div/mod |
| C04, C05 | `apply`, `_fix_scalar_neighbours`, `_pack` of both classes | invariant "packed = pack mem" over any list of stores |
| C06, C07 | headers, bodies, footers, `mask_and_shift_data` | bit extensionality |
| C08 | `to_dots` against `Spec/Dots` (7 dots per byte, delayed half a dot by the palette bit) | bit reasoning, whole finite tables |
| C09, C10 | `rol`/`ror`, `dots_to_nominal_colour_pixels` | induction on the number of dots |
| C11 | substitution costs for any colour difference | characterisation; witness for DHGR |
| C12, C57 | generator loops, triangular array, symmetrisation, `dam_lev` against cheapest edit scripts (`Spec/EditDist`) | induction over the loops; optimality by induction over scripts; kernel check of the 2^13 / 2^14 windows for "looks the same" |
| C13, C14 | `_diff_weights`, `compute_delta_page`, `byte_pair_difference` | bit reasoning on masks |
| C15–C22 | the encoder generator, any history of calls (`Legal`), any table, any nonces | invariants over `next`; measure on non-zero weights |
| C23–C26 | `emit_stream`, `done` for any source of operations | induction, arithmetic mod 2048 |
| C27–C30 | `encode` coupled with `emit_stream` | invariant relating the coder to a history of the encoder |
| C31, C32, C52 | quantiser, percentiles | order reasoning over rationals |
| C33–C35, C50 | symbol table, opcodes, decoding | kernel check of the finite table; induction |
| C36, C37, C53 | symbolic execution of the assembled player: a sound executor over partial states (`SymExec`, `SymSound`), run by the kernel per macro, lifted to all pages and contents; C53 with a network of finite rate (`Env.KeepsUp`): an invariant bounds what has arrived by what was offered since the block began | reflection; induction over the opcodes |
| C38–C40 | invariant over every interleaving of player and network (`Hop`, `Phase`, `Whole`) | induction over instructions; well-founded progress argument |
| C41 | transcoder ∘ wire format ∘ player | refinement; `C41_from_start` from the first instruction |
| C42–C44, C54 | transition system of two threads, queue and file system | invariants over all interleavings; bounded number of steps |
| C45 | string functions | list reasoning |
| C46–C49, C55, C56 | simulator objects, histories of accesses | induction; case analysis over the memory map |
| C51 | server as a transition system | invariants over all histories |
| C58, C59 | start-up and exit of the player over any network (`BootExec`: a second sound executor for code that talks to the card) | reflection; induction over polling |
| C60 | `Model/Program`, two threads, any interleaving | invariant relating the state to the stream of a sequential run (the frames already fetched plus those to come are the sequential ones); a weight that every step lowers |
| C61 | composition of C60, C51, C58, C41, C31 | – |
| C62 | `Spec/Picture`: the 192 x 560 dots of the monitor; player memory after any legal history and one finished frame | C20, C17, C57: a zero distance means windows that look alike, hence equal, or alternating in opposite phase; HGR windows never alternate throughout |
| C63 | any history of calls on the encoder; `Spec/Fair`: frames begun in a bank, operations ranked by them | potential: upper bounds for the pending priorities whose sum falls by the priority of the chosen byte at every operation (C19) and grows by at most 7680 W per frame; the starving byte's priority is at least w times the frames begun |
| C64 | `Spec/Movie`: `movieCalls`, the calls on the encoder, from the frames, their due times and the banks alone | C27_exact_history: while no frame becomes due and the bank does not change the generator is only advanced, so after 7681 `next()` C62 applies; on the machine by C41 after every tick. DHGR: see C67 (the generator is restarted at every ACK that changes the bank) |
| C65 | as C16-C22; `Step.gain` from the table, the frame-start screen and the target | the candidates are popped from a heap that holds exactly the offsets with a gain in order of error; C21_refuted: witness `threeFrame` with the loaded IIGS table, distances computed as cheapest rewritings |
| C66 | the keyboard latch of the machine: the environment may set it before any instruction, any access to $C010 clears it; `Spec/Connect`: `KeyWaits`, `NextBlock` | every `Hop` between two phases of the player keeps the latch except at the four strobe instructions; induction on the number of instructions for waiting, on the distance to the next key for going on |
| C67 | `Spec/Quick`: `wrongBytes`, the bytes in which two screens differ; otherwise as C64 | a byte is worth a store only if it or a neighbour in the line is wrong, so `w` wrong bytes make at most 3w+3 stores (the encoder may take one byte more to be wrong than is, C17), and C62 needs one operation for each; C26_tick_bank: blocks of 292 operations for one bank, so two blocks treat both banks; repaired bytes stay repaired while the target is the same |
| C68 | two runs of `Movie.stream` on inputs with a common beginning; the history of the encoder (C27) is a function of the calls, which are determined by the frames fetched so far | the call lists of the two runs have a common prefix; determinism of `run` |
| C69 | `Model/Heapq`: the array algorithms of CPython's heapq; `Model/Machinery`: the LRU cache and the encoder written with both (`Real.*`), over the same helper functions as `Model/Video` | data refinement: heap array ~ permutation of the bag and heap-ordered; `_siftdown`/`_siftup` keep the order away from a hole; a linear order has one least tuple; every cached price equals a recomputation because the price uses nothing of the bitmap but its class and palette |
| C70 | `Model/Grabber`; specification of the converter in `Spec/Convert` (command line spelled out, effect on files) | invariant of all interleavings: the files after `k` pictures are the old ones except those of the pictures converted so far; frames through the sequential loop of C42 |
| C71 | `Model/Pcm`; 16 bit frames as bytes in `Spec/Pcm` | byte lists in both directions; Fortran reshape as index arithmetic; induction over the buffers; ceilings |
| C72 | `Model/SoundFail`: the main thread raises when the samples are used up, else as in C60 | an execution is an ordinary one (C60) or ended by the exception; invariant of C60 and a lemma on ending while sound is left |
| C73 | `Model/Pace` (ffprobe's rate as text, `ticks_per_frame`, the comparison of `tick`); `Spec/Pace` | relative error of seven roundings; the thresholds equal paced ones (C29) up to 2^48 ticks; movie facts (C27) |
| C74 | `Model/Program`, with the option values concerned | invariant over the steps of both threads; weight |
| C75 | `Model/Program`; `Spec/Plain`: the program as a single-threaded loop | invariant over the steps of both threads (bytes so far ++ what the loop still writes is constant); weight |
| C76 | `Model/Video`, `Model/Program`; `Spec/PaletteBits`: frames without palette bits, operations alike | simulation between the runs on a frame and on the frame without palette bits, call by call; then C75 |
| C77 | `Model/CommandLine`; `Spec/CommandLine`: spellings, plain words, the parts of a command line and their meaning | characterisation of `_parse_optional` word by word; induction over the words in both directions; last-wins by induction over the parts |
| C78 | `Model/Disk`: as C60, with the output file on the disk of the pictures, and `bytearray` rejecting numbers above 255; `Spec/Disk` | writing the output file commutes with every step (bisimulation with C60); C75; the pictures' files by an invariant on the worker's index; file names by their last dot |
| C79 | `Model/TableLoad`: as `Model/Program`, reading the table from its file when a frame is started; `Spec/TableLoad` | step by step equality with `Model/Program` when the file is there; otherwise an invariant on both threads up to the first tick |
| C80 | `Model/Entire`: `launch` (command line, normalisation, frame rate, ticks per frame, table, opening the output file) and the steps of both threads with failing sound, missing table and the output file; `Spec/Entire` | as C75, for an arbitrary encoder step that treats frames alike (`NextLike`); bisimulation with the output file as in C78; then C28, C77, C79; for failing sound (`Spec/Hoarse`) the loop against the one with sound that ends |
| C81 | `Model/Entire`, `Model/Server`, `Model/Player*`; `Spec/Entire`, `Spec/Convert`, `Spec/Pace` | composition of C80, C51, C41, C73 and the conversion of single pictures |
| C82 | `Model/Entire`; `Spec/Rerun`: what a kill can leave, histories of killed runs | the files of the pictures as an invariant of the conversion thread's index (as C70); a relation between disks that is preserved by a killed run and transitive; then C80 |
| C83 | `Model/Entire`, `Model/Tables`, `Model/Player`; `Spec/Seen`: what a picture has been converted to, as screens | the thresholds with rounding are replaced by strictly monotonic ones that the stream cannot tell apart (induction over the loop of the encoder; C29, C73); then C80, C51, C41, C64, C67 for that movie |
| C84 | `Model/Buffered`: `Model/Entire` with CPython's `BufferedWriter` for the output file, byte by byte and `write` by `write`; the operating system may take part of a buffer or refuse it | invariant: file ++ buffer ++ bytes about to be written = bytes of `Model/Entire`'s program, whose invariant is that of C80; a measure for the number of steps |
| C85 | `Model/Player` (machine code and network chip as in C36–C41) with a file that is a proper beginning of a playable stream, and `Model/Buffered` for the files a killed transcoder leaves | invariants for the player's two polling loops with too little data (a round of 9 instructions), a variant of C40's induction that ends inside the stream, and C84's prefix invariant |
| C86 | `Model/Serving`: the server as in `Model/Server`, but reading the file call by call through a handle while contents and names change; interleaved with the transcoder of `Model/Buffered` | invariants over all runs of the server for one client (what has been read is a beginning of the open file), the transcoder's file only grows, C84, C85; an explicit run for the defect |
| C87 | `Model/Interrupt`: Ctrl-C, at any moment and any number of times, in the program of `Model/Buffered` | the invariant of C84 up to the first Ctrl-C, an invariant of closing the file afterwards; C85 |
| C88 | `Model/Beside`: the program of `Model/Buffered` while other programs change files of their own between any two steps, also inside the conversion of a picture; two transcoders on one disk | simulation by the program alone on its disk: the two disks agree on the files of the transcoder; C84 |
| C89 | `Model/Folder`: the program of `Model/Buffered` where `os.makedirs`, at the first picture asked for, may raise | if it does not, step by step equality with C84; if it does, an invariant with a measure (17 steps at most) |
| C90 | `Model/Buffered` | invariant: index of the conversion thread <= pictures taken + length of the queue; pictures are taken only when due, and then all bytes so far are in the file or its buffer |
| C91 | `Model/Audio`, `Model/Pcm`; `Spec/Heard` (level of a frame of sound, what a pulse should be) | propagation of relative and absolute rounding errors through the three operations on a sample; then C71, C81 |
| C92 | `Model/Main`, `Model/Movie`, `Model/Server`, the player; `Spec/Tempo` (samples per second on a machine of given clock, how many times longer than the original) | the cycle counts of C53 divided by the clock frequency; the whole way by C80, C51; the frames by C91 |
| C93 | `Model/Crowd` (any number of transcoders on one disk, one file operation at a time; writing a bitmap and running bmp2dhr take time); `Spec/Crowd` (a state amounts to another, jobs apart) | simulation both ways between a transcoder in the crowd and one alone with atomic conversions: what is left of a conversion is the same function of the picture's files; then C84, C45, C88 |
| C94 | nothing new modelled: the way of C81 with the clock of C92 (`Spec/Tempo`, `Spec/Pace`) | every opcode takes its time exactly (`Proofs/Timely`), so that the ticks of C81 have the times of C53; with C73 for the frame due |
| C95 | nothing new modelled; `Spec/Waits` (stays between blocks, times and clicks with them) | as C53, but following the loops of main.s:399-433 with their cycles and clicks for any network and keyboard (`Proofs/Waits`); every instruction takes at least two cycles |
| C96 | nothing new modelled | C64 restated without assumptions on the pace (`hgr_settled`: the picture has been current for 7681 ticks), with C73 for the times of frames (binary64) and C94's `timed_from_start` for cycles; `Spec/Settled` has the statement about one dot |
| C97 | nothing new modelled; `Spec/Reserve` (when the player looks for a block) | `Proofs/Waits` also records, for every look in vain, the state in which it happens and how much had arrived; runs are deterministic, every instruction takes time and the chip is not reset while playing, so what has arrived stays there; `Proofs/Reserve` finds the ACKs of a movie |
| C98 | nothing new modelled; `Spec/Reserve` (when a block is due, in time, too late) | induction on the blocks, from C97: while what has been lost is less than the lateness the player looks until it is reached, and then not at all |
| C99 | nothing new modelled; `Spec/Reserve` (a network that supplies, or is throttled to, a rate) | from C97: at the last look in vain the block has not arrived, so by the rate it is early enough; at the successful look it has, so by the rate it is late enough |
| C100 | nothing new modelled | as C95, but for any part of the stream and with the steps of the encoder fixed before the machine is chosen (`show_from_start`); then twice |

## 6. Findings

Defects of the code as it stands, each part of a theorem:

* C11: DHGR distances are priced with colours rotated by one (the pixel strings use the nominal value, the costs the enum).
* C57: with the NTSC palette, GREY1 and GREY2 have the same RGB, so DHGR patterns of the two have distance 0: the
  project's own table test cannot pass, and the encoder may leave such bytes alone.
* C18: padding operations may store (0,0) although it is not what the encoder thinks; one byte may stay out of date.
* C32: silence is normalised with an infinite factor; NaN becomes a machine-dependent duty. An input sample of -16 is encoded as -15.
* C36: `op_tick_40` has its second click after 39 cycles (22 after 21); the comment at main.s:837 says 41.
* C43: an exception in the conversion thread is lost and the consumer waits forever.
* C54: the frame cache is keyed by the file name only: another video under the same name yields the old frames.
* C45: input names without a dot, or with a dot only in a directory, give surprising names.
* C46: soft switch status is `0x80 & True = 0`.
* C48: WADRL before WADRH loses bit 7 of the pointer; the pointer wraps from $7FFF to 0, not $6000, and always increments.
* C49: hires page regions are 4K only; hires page 2 is read-only, which the player's self-modifying code at $407E needs
  to write; write protection stays when a later region covers the address.
* C55: RECV raises `NotImplementedError`, so the shipped player cannot be run in the simulator.
* C56: ROM slices are one byte short ($C6FF and $FFFF are 0).
* C51: one client at a time; a client that does not read blocks everyone else.
* C58: if the whole file fits the receive buffer and the server closes before the player polls, the player waits forever;
  it also waits forever if the network never answers. Gateway and subnet mask are never set.
* C60: if a picture that is needed cannot be read or converted the transcoder waits forever; the file lacks exactly
  TERMINATE and padding (the player then waits for more data forever, C40).
* C59 is free of defects, but `CLOSECONN` (main.s:1362) is unreachable: the connection is never closed by the player.
* C62: in HGR a leftmost dot can stay wrong (first column 7f/ff), and in DHGR with the NTSC palette an area of grey can stay in the opposite
  phase, with a seam of another colour where it meets redrawn bytes (witness: all of one grey replaced by all of the other).
* C65: the loop that should find three more offsets per operation stops at two: the fourth store of every operation repeats the first.
* C21: an additional store can replace a byte by one further from the target (the gain is measured against the start of the frame).
* C03: a negative page or offset of `MemoryMap.write` is not an error but wraps as Python indices do.
* C55: reset of the simulated card resets nothing.
* C71: every buffer of sound is resampled by itself with the number of samples rounded up, so sound slowly falls behind; sound with a
  number of channels that is not a power of two (5.1) is refused with ValueError at the first buffer of a power of two of bytes.
* C72: when the sound fails in the middle, the program ends with the exception and leaves a playable looking file without TERMINATE.
* C74: a negative `max_output_mb` gives a file without header; `every_n_video_frames 0` is not rejected but ends in a ZeroDivisionError after the header.
* C76: a DHGR picture with palette bits is not rejected when it is loaded (the bits are ignored by the comparison of pictures), but stops the transcoder with an AssertionError as soon as a byte with the bit is chosen for a store (video.py:134-136); padding operations store it without any check.
* C77: `--palette UNKNOWN` is accepted although UNKNOWN is only a placeholder (palette.py:21): there are no distance tables for it, so the run stops when they are loaded.
* C78 (and C45): an input called `….a2m` is emptied and overwritten by its own default output.
* C79: a missing table, and `--palette UNKNOWN` (which never has one), is only noticed after the header has been written and a picture converted: FileNotFoundError.
* C82: a result file cut short by a kill makes every later run fail; a `.BIN` (or `.AUX`) left from elsewhere can, after a kill, be shown together with the other half of the new picture.
* C88: two transcoders of the same video share the picture files: if one removes a temporary `.bmp` before the other does, the conversion thread of the other dies with FileNotFoundError and that transcoder hangs (as in C43).
* C89: `--output clip clip.mp4` cannot work: the output file `clip` is opened before the directory `clip/DHGR/NTSC` is made, so `os.makedirs` raises, after the 7 bytes of the header.
* C91: samples are rounded towards zero, so sound below 1/16 of the full level (24 dB down) is not quiet but silent, and two of the 32 pulses are a cycle short.
* C92: the default rate of 14700 samples per second plays at least 5.6 % *slower* than the original on any 1 MHz Apple II; audio.py:14-20 has it less than 2 % *faster* (it takes 2^20 for the clock, neglects the slow path of the ACKs and mistakes the direction). The rate that plays in real time is 2/147 of the clock: 13884 for NTSC.

## 7. Wrong programs

`seeded/LOG.jsonl`: one line per edit of the model, with the theorems that no longer check (directly failing lemmas in
`first_failures`, and through dependencies the property theorems in `theorems_failed`).
Edits marked "probe" were expected to be equivalent on reachable states.

## Appendix: axioms

From `#print axioms` on every theorem of the manifest:

* **none** (1): Sim.C49_trap

* **propext** (5): C30_stride, Sim.C49_entries, Sim.C49_handlers, Sim.C49_handled, C51_one_at_a_time

* **propext, Quot.sound** (27): C01_tables, C02_screen_holes, C02_hole_count, C03_flat_paged_flat, C03_paged_flat_paged, C03_rejects, C08_store_local, C08_store_colours, C09_rotations, C12_table_symmetric, C12_symmetric_spec, C33_distinct, Player.C36_widths, Player.C53_duration, Sim.C47_register, Sim.C49_entry_points, C51_verbatim, C51_unchanged, C51_progress, Sim.C56_loaded, Pcm.C71_analysed, Player.C85_padding, C86_growing, C86_replaced, C86_mixture, C95_blocks, C99_slow

* **propext, Classical.choice, Quot.sound** (231): C01_addresses, C03_write_commutes, C03_paged_write, C04_hgr_packed_is_fresh, C05_dhgr_packed_is_fresh, C06_hgr_lossless, C06_dhgr_lossless, C07_masked_window, C08_dots, C08_window_colours, C09_sliding_window, C09_depends_only, C09_shift, C10_colour_tables, C11_hgr_priced_right, C11_dhgr_actual, C11_dhgr_refuted, C13_diff_weights, C13_zero_weights, C13_zero_iff_looks_same, C14_delta_is_own_error, C15_encoder_total, C16_operation_shape, C17_player_agrees, C17_iigs_dhgr_exact, C18_padding_effect, C18_refuted, C18_refuted_shipped, C19_greedy, C20_converges, C21_secondary_stores, C21_refuted, C22_no_overflow, C23_ack_blocks, C23_no_assertion, C24_terminated, C25_limit, C25_unlimited, C26_ack_banks, C26_tick_bank, C27_stream_is_history, C27_exact_history, C28_audio, C29_no_drift, C29_float_thresholds, C31_range, C31_monotone, C31_exact, C32_silence_distorts, C32_zero_is_silent, C52_clipping, C33_addresses, C34_decodes, C34_unique, C34_movie, C35_parse, C35_addresses, C35_bad_value, C35_bad_line, C50_equality, C50_bytes, C50_ticks, Player.C36_tick, Player.C37_slow_path, Player.C38_own_code, Player.C38_playing, Player.C39_reads_file, Player.C40_never_stuck, Player.C40_progress, Player.C40_transcoder, Player.C41_end_to_end, Player.C41_from_start, Player.C41_screen, Player.C53_timing, Player.C53_movie, Player.C53_rate, C42_frames, C42_complete, C43_failure_is_lost, C43_dead_worker, C44_complete_files, C44_truncated, C45_names, C45_apart, C45_numbers, C45_no_extension, C54_cache, Sim.C46_status, Sim.C47_dispatch, Sim.C47_only_addressed, Sim.C48_pointer, Sim.C48_reads, Sim.C48_writes, Sim.C48_defects, Sim.C49_read_only, Sim.C49_plain, Sim.C49_regions, Sim.C49_computer, Sim.C49_rom_routines, Sim.C55_commands, Sim.C55_mode, Sim.C55_socket_mode, Sim.C55_nothing_arrives, C57_cheapest_rewriting, C57_zero_iff_looks_same, C57_iigs_dhgr_separates, C57_ntsc_dhgr_confuses, C57_hgr_confuses, Player.C58_outcomes, Player.C58_connects, Player.C58_refused, Player.C58_missed, Player.C59_vector, Player.C59_key, Player.C59_waits, Player.C59_exit, C60_schedule, C60_completes, C60_size, Player.C61_chain, C62_hgr_finished, C62_hgr_left_edge, C62_dhgr_finished, C62_iigs_finished, C62_ntsc_seam, C63_no_starvation, C63_turns, C63_round, C64_hgr_shown, Player.C64_machine, C65_best_use, Player.C66_latched, Player.C66_pause, C67_dhgr_small, C67_hgr_small, Player.C67_machine, Player.C67_machine_hgr, C68_causal, C69_encoder, C69_cache, C69_movie, C70_frames, C70_files, C70_complete, Pcm.C71_mono, Pcm.C71_same_rate, Pcm.C71_count, Pcm.C71_misaligned, Pcm.C71_surround, Pcm.C71_normalization, Pcm.C71_is_audioStream, C72_sound_fails, C72_never_silent, C72_where, C73_rate, C73_pace, C73_sync, C74_negative_limit, C74_stride_zero, C75_simple_loop, C76_encoder, C76_palette_bits, C77_command_line, C77_help, C77_helped, C78_names, C78_same, C78_disk, C79_loaded, C79_missing, C79_made, C80_limit, C80_program, C80_starts, C80_good, C80_sound_fails, C80_never_silent, C80_unreadable, C80_unknown, C81_journey, C82_pictures, C82_rerun, C82_torn, C82_mixed, C83_hgr, C83_hgr_small, C83_dhgr, C84_buffered, C84_blocks, C84_good, C84_hang, Player.C85_cut, C85_killed, C86_broadcast, C87_interrupt, C87_saved, C87_played, C88_beside, C88_result, C88_two, C88_disjoint, C88_shared, C89_makedirs, C89_made, C89_unmade, C89_in_the_way, C89_default, C90_untouched, C90_times, C90_limit, C90_sharp, C91_sample, C91_heard, C91_sharp, C92_tempo, C92_frames, C92_default, C92_real_time, C93_alone, C93_result, C93_names, C94_together, C95_stream, C95_waits, C96_settled, C97_stream, C97_movie, C97_reserve, C98_lateness, C99_throughput, C100_same
