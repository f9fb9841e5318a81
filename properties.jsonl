{"id": "C01", "title": "Screen address map is a bijection onto visible bytes", "statement": "For both hi-res pages, y_to_base_addr plus the x column sends the 192x40 visible screen bytes to pairwise distinct addresses inside that page's 8K window, and the tables built at import time (PAGE_OFFSET_TO_X/Y, X_Y_TO_PAGE/OFFSET, ADDR_TO_COORDS) are mutually inverse: looking up the coordinates of the byte displayed at (x, y) gives back (x, y), and the address dictionary knows exactly the visible addresses.", "quantifier": "every y in 0..191, x in 0..39, screen page 0/1, and every address (including those that are not visible)", "why_tests_cant": "unit tests sample a few coordinates; a collision or a wrong row anywhere corrupts one screen location silently", "anchors": ["transcoder/screen.py:y_to_base_addr", "transcoder/screen.py:_populate_mappings"]}
{"id": "C02", "title": "Screen holes are exactly the undisplayed bytes", "statement": "A (page, offset) cell is marked as a screen hole iff no visible byte of the screen maps to it; equivalently iff offset mod 128 >= 120. There are 512 holes.", "quantifier": "every page 0..31 and offset 0..255", "why_tests_cant": "tests never enumerate the mask; a wrong mask lets the encoder clobber screen-hole RAM (peripheral scratch memory) or skip visible bytes", "anchors": ["transcoder/screen.py:SCREEN_HOLES", "transcoder/screen.py:_populate_mappings"]}
{"id": "C03", "title": "Flat and paged memory maps are two views of the same 8K", "statement": "Converting a FlatMemoryMap to a MemoryMap and back is the identity in both directions; writing val at an in-range address in the flat view corresponds to writing (addr>>8, addr&0xff) in the paged view; out-of-range addresses of the flat view, wrong sizes and screen pages other than 1/2 are rejected with ValueError and change nothing. The paged view's write is laxer: a page up to 32 below the screen page, and an offset from -256 to -1, is silently taken 32 pages, respectively 256 bytes, higher (the encoder relies on it: it passes pages 0..31); other pages and offsets raise IndexError and change nothing.", "quantifier": "every 8K contents, every address and every byte value, both screen pages, every (possibly out of range) page and offset argument of MemoryMap.write", "why_tests_cant": "the memory has 2^65536 states; page arithmetic (including the negative numpy index that Bitmap.apply relies on) must be right for all of them", "anchors": ["transcoder/screen.py:FlatMemoryMap", "transcoder/screen.py:MemoryMap.write", "transcoder/screen.py:Bitmap.apply"]}
{"id": "C04", "title": "HGR packed bitmap always equals a fresh pack of memory", "statement": "Starting from an HGR bitmap built on any memory contents, after any sequence of byte stores through apply() the packed array equals what packing the current main memory from scratch would give, and main memory equals the initial memory with exactly those stores performed in order.", "quantifier": "every initial memory, every finite sequence of (page, offset, value) stores", "why_tests_cant": "incremental header/footer patching can go wrong only for particular neighbouring-byte histories; tests try a handful", "anchors": ["transcoder/screen.py:Bitmap.apply", "transcoder/screen.py:Bitmap._pack", "transcoder/screen.py:HGRBitmap"]}
{"id": "C05", "title": "DHGR packed bitmap always equals a fresh pack of main+aux memory", "statement": "Starting from a DHGR bitmap built on any main/aux contents, after any interleaving of main and aux byte stores the packed array equals a fresh pack of the two memories, and the memories equal the initial ones with exactly those stores performed in order in the named bank.", "quantifier": "every initial main and aux memory, every finite sequence of (page, offset, bank, value) stores", "why_tests_cant": "four byte positions and two banks interact through shared headers/footers; only an invariant over histories settles it", "anchors": ["transcoder/screen.py:Bitmap.apply", "transcoder/screen.py:Bitmap._fix_scalar_neighbours", "transcoder/screen.py:DHGRBitmap"]}
{"id": "C06", "title": "Packing is lossless", "statement": "Two HGR memories with the same packed array are equal byte for byte; two DHGR memory pairs with the same packed array agree on the low 7 bits of every byte of both banks (the palette bit is the only thing dropped).", "quantifier": "every pair of memory contents", "why_tests_cant": "injectivity is a statement about pairs of 64 Kbit states", "anchors": ["transcoder/screen.py:HGRBitmap._body", "transcoder/screen.py:DHGRBitmap._body", "transcoder/screen.py:Bitmap._pack"]}
{"id": "C07", "title": "Masked window contains exactly the byte and its three neighbouring bits", "statement": "For a packed screen, the masked value used to index the edit-distance table at a byte is below 2^MASKED_BITS (so the table lookup is always in range) and is made of the stored byte's own display bits, the 3 trailing bits of the byte displayed to its left and the 3 leading bits of the byte displayed to its right (zero past the ends of a 256-byte page).", "quantifier": "every memory contents, every page, offset and bank, both modes", "why_tests_cant": "a single wrong mask or shift bit is visible only for particular bit patterns", "anchors": ["transcoder/screen.py:Bitmap.mask_and_shift_data", "transcoder/screen.py:HGRBitmap.BYTE_MASKS", "transcoder/screen.py:DHGRBitmap.BYTE_MASKS"]}
{"id": "C08", "title": "HGR dot expansion matches the hardware rule", "statement": "The 21 display dots computed for a masked HGR value are those of the hi-res rule: each data bit lights two dots, a set palette bit delays the byte by one dot, and the last dot of a byte persists into the gap left by a delayed successor. Consequently storing a byte changes dots only inside the window the encoder looks at.", "quantifier": "every 14-bit masked value at both byte parities", "why_tests_cant": "32768 cases against an independently stated dot rule; the tests check about a dozen", "anchors": ["transcoder/screen.py:HGRBitmap.to_dots", "transcoder/screen.py:HGRBitmap._double_pixels"]}
{"id": "C09", "title": "Colour model is a phase-rotating 4-dot sliding window", "statement": "dots_to_nominal_colour_pixels returns exactly num_bits colours; colour i depends only on dots i..i+3 and on (init_phase+i) mod 4; dropping k dots and advancing the phase by k gives the same colours as dropping the first k colours; rol and ror are inverse rotations of period 4, and the lookup never raises.", "quantifier": "every number of dots, every dot pattern of any width, every initial phase, both colour tables", "why_tests_cant": "dot patterns and lengths are unbounded; tests fix two", "anchors": ["transcoder/colours.py:dots_to_nominal_colour_pixels", "transcoder/colours.py:rol", "transcoder/colours.py:ror"]}
{"id": "C10", "title": "HGR and DHGR colour tables name every 4-dot pattern once and differ by one rotation", "statement": "Each colour table is a bijection between the 16 colour names and 0..15, and the DHGR pattern of every colour is the HGR pattern rotated right once.", "quantifier": "all 16 colours in both tables", "why_tests_cant": "finite, but a duplicate or missing value only shows up as a ValueError (or a wrong colour) for particular images", "anchors": ["transcoder/colours.py:HGRColours", "transcoder/colours.py:DHGRColours"]}
{"id": "C11", "title": "HGR edit distances are priced with the right colours; DHGR ones are not", "statement": "For HGR the substitution cost the table generator charges for replacing colour X by colour Y is the perceptual difference between the palette's RGB values of X and Y. For DHGR this is FALSE of the code, for both shipped palettes (defect): the cost matrix is indexed by HGRColours values but DHGR pixel strings carry DHGRColours values, so X is priced with the RGB value of the colour whose HGR pattern equals X's DHGR pattern; only BLACK and WHITE are priced as themselves.", "quantifier": "every pair of colours, every palette", "why_tests_cant": "the generated tables are plausible-looking integers; nothing in the tests connects them back to colour names", "anchors": ["transcoder/make_data_tables.py:compute_diff_matrix", "transcoder/make_data_tables.py:compute_substitute_costs", "transcoder/palette.py"]}
{"id": "C12", "title": "Loaded edit distance is a symmetric function with zero diagonal", "statement": "Whatever pairwise distance the generator used, the matrix loaded by edit_distances gives distance(a,b)=distance(b,a), distance(a,a)=0, and for a>b exactly the generated value (nothing is double counted or overflows 16 bits).", "quantifier": "every generator distance function with 16-bit results, every byte offset, every pair of masked values", "why_tests_cant": "2^26..2^28 entries per offset; the existing test needs hours and checks only one generated file", "anchors": ["transcoder/screen.py:Bitmap.edit_distances", "transcoder/make_data_tables.py:compute_edit_distance"]}
{"id": "C13", "title": "Diff weights are zero exactly where nothing visible changes", "statement": "diff_weights(source) is everywhere zero when source and target memories are equal. With the table generated for either shipped palette a cell's weight is zero exactly if every colour shown in the byte's window (from three dots before the byte) has the same RGB value in source and target. With a distance table that is zero only on the diagonal, a cell's weight is zero iff the source and target windows at that byte coincide, and for DHGR a zero weight implies the stored byte's 7 display bits are equal.", "quantifier": "every pair of source/target screens, every cell, both banks, both palettes, every colour-difference function separating different RGB values", "why_tests_cant": "quantifies over pairs of whole screens", "anchors": ["transcoder/screen.py:Bitmap.diff_weights", "transcoder/screen.py:Bitmap._diff_weights", "transcoder/make_data_tables.py"]}
{"id": "C14", "title": "Candidate evaluation prices a store by its own error", "statement": "The delta that decides whether to reuse a content byte at another offset equals (error that byte would have against the target byte at that offset) minus (recorded diff weight): patching all neighbouring headers/footers in the vectorised code never influences the result, and the same error value is what byte_pair_difference then records as remaining priority.", "quantifier": "every target screen, page, offset, content byte, bank, diff weights, symmetric table", "why_tests_cant": "two differently written vectorised/scalar computations must agree on every screen", "anchors": ["transcoder/screen.py:Bitmap.compute_delta_page", "transcoder/screen.py:Bitmap._fix_array_neighbours", "transcoder/screen.py:Bitmap.byte_pair_difference"]}
{"id": "C15", "title": "Encoder never raises and never stores into a screen hole", "statement": "From any history of frames, bank flips and partially consumed frame encoders, pulling the next operation from encode_frame never trips one of its assertions (screen-hole assertions, o != offset, pri < 0, non-negative priorities), and no emitted store addresses a screen hole.", "quantifier": "every mode, table, random nonces, frame sequence (DHGR frames without palette bits), bank schedule and number of operations pulled", "why_tests_cant": "the assertions guard states reachable only through long histories of heap operations with random tie-breaks", "anchors": ["transcoder/video.py:Video.encode_frame", "transcoder/video.py:Video._index_changes"]}
{"id": "C16", "title": "Shape of an emitted video operation", "statement": "Every operation is (page in 32..63, content, exactly 4 offsets); the content is the target frame's byte at the first offset; before padding the offsets are pairwise distinct, at most 3 in number, and the remaining slots repeat the first offset.", "quantifier": "every operation emitted in any history before the encoder runs out of work", "why_tests_cant": "depends on heap order and random nonces", "anchors": ["transcoder/video.py:Video._index_changes"]}
{"id": "C17", "title": "Encoder's picture of memory equals what a player that executes the operations has", "statement": "After any history of frame starts in either bank, operations and resets, the transcoder's own main/aux memory maps equal the memory of a player that started from the same blank screen and stored each operation's content byte at its 4 offsets in the active bank - except possibly the single byte (page 0, offset 0) of a bank for which a padding operation was emitted (padding operations store the target byte there without recording it); in DHGR with a table that is zero only on the diagonal (the IIGS tables are, see C57) and palette-bit-free frames the agreement is exact.", "quantifier": "every history of frames, bank flips, abandoned frame encoders and operations", "why_tests_cant": "drift between the two memories accumulates over hours of video and is invisible to the transcoder", "anchors": ["transcoder/video.py:Video._index_changes", "transcoder/screen.py:Bitmap.apply", "transcoder/movie.py:Movie.encode"]}
{"id": "C18", "title": "Padding operations can desynchronise one byte (defect)", "statement": "An operation emitted after the encoder has run out of work leaves the encoder's memory alone and makes the player store the target's byte at (page 0, offset 0) of the active bank, and nothing else. The stronger claim that padding never changes player memory behind the transcoder's back is FALSE: for every HGR distance table generated by the project, a black frame whose first byte is 0x80 makes the player hold 0x80 while the transcoder keeps believing 0x00.", "quantifier": "every history that reaches out-of-work", "why_tests_cant": "needs a visually-equal-but-different byte at one specific address at the moment the queue drains", "anchors": ["transcoder/video.py:Video._index_changes"]}
{"id": "C19", "title": "Greedy order: highest frame-start priority first", "statement": "Each emitted operation is for a pending cell whose priority at the start of the frame (accumulated priority plus the new frame's weight) is the largest among all cells of that bank still pending at that moment; padding operations are emitted exactly when no cell is pending. (It is the frame-start priority that counts, not the current one: a cell that received an approximate store keeps its place in the queue, because the lowered priority is pushed with an unsigned-negated, hence positive, key.)", "quantifier": "every history, table and random nonces", "why_tests_cant": "depends on heap order and re-insertions", "anchors": ["transcoder/video.py:Video._heapify_priorities", "transcoder/video.py:Video._index_changes"]}
{"id": "C20", "title": "Frame encoding terminates in bounded work and converges", "statement": "Pulled often enough, the encoder of a frame runs out of work after at most as many operations as there were differing cells (<= 7680); at that point every visible cell either already looked identical when the frame started and was not touched, or holds a byte at distance zero from the target byte; with a diagonal-only DHGR table the bank's memory then equals the target frame's bank on all visible bytes (low 7 bits).", "quantifier": "every target frame, starting memory, accumulated priorities, table, nonces", "why_tests_cant": "termination and convergence for all screens and all random choices", "anchors": ["transcoder/video.py:Video._index_changes"]}
{"id": "C21", "title": "Secondary stores improve on the frame-start error", "statement": "Whenever the encoder stores a content byte at an additional offset, that byte's error against the target there is strictly smaller than the cell's diff weight at the start of the frame, the cell was still pending, and its remaining priority is set to exactly that error. (The stronger claim that such a store never makes a cell worse than it currently is, is FALSE: weights are not refreshed after an approximate store.)", "quantifier": "every operation in every history", "why_tests_cant": "depends on interleavings of approximate stores", "anchors": ["transcoder/video.py:Video._index_changes", "transcoder/video.py:Video._compute_error"]}
{"id": "C22", "title": "Accumulated priorities never overflow", "statement": "Priorities kept in 32-bit integers stay non-negative and at most 16383*65535, which is below 2^31, for histories of any length, because every frame start adds at most 65535 to a cell and is followed by clearing a cell of largest priority; so accumulation equals unbounded integer arithmetic and the encoder's non-negativity assertion can never fire.", "quantifier": "every sequence of frame starts (any number) in either bank, whatever is emitted in between", "why_tests_cant": "a naive bound fails after 32768 frame starts (about 20 minutes of video); whether the greedy choice keeps sums bounded is a global invariant over unbounded histories", "anchors": ["transcoder/video.py:Video._index_changes", "transcoder/video.py:Video.__init__"]}
{"id": "C23", "title": "ACK opcodes terminate every 2K block of the stream", "statement": "In the byte stream emitted for any sequence of header/tick operations, an ACK opcode occupies exactly the last 4 bytes of every complete 2048-byte block, nothing else is an ACK, no opcode straddles a block boundary, and the internal alignment assertion never fires.", "quantifier": "every operation sequence of any length in either mode", "why_tests_cant": "alignment must hold for streams of arbitrary length", "anchors": ["transcoder/movie.py:Movie.emit_stream", "transcoder/opcodes.py:Ack"]}
{"id": "C24", "title": "Stream length is a whole number of 2K blocks ending in TERMINATE", "statement": "The emitted stream's length is a positive multiple of 2048; it ends with a TERMINATE opcode followed only by zero padding inside the same block.", "quantifier": "every operation sequence, with or without a byte limit", "why_tests_cant": "the player waits for a full 2K; a short final block hangs playback, and lengths are unbounded", "anchors": ["transcoder/movie.py:Movie.emit_stream", "transcoder/movie.py:Movie.done"]}
{"id": "C25", "title": "Output size limit", "statement": "With a limit of m > 0 bytes, no header/tick operation starts at or after byte m; if anything is cut the opcodes emitted before TERMINATE already fill m bytes; the whole stream has fewer than m+2059 bytes; and up to its TERMINATE it is a prefix of the unlimited stream. With limit 0 nothing is cut: the stream is all operations in order plus ACKs and TERMINATE.", "quantifier": "every operation sequence and every limit", "why_tests_cant": "boundary behaviour for all lengths and limits", "anchors": ["transcoder/movie.py:Movie.emit_stream"]}
{"id": "C26", "title": "ACK steers banks: alternating in DHGR, constant in HGR", "statement": "The soft-switch byte of the k-th ACK (counting from 0) selects AUX iff the mode is DHGR and k is even; in HGR every ACK selects MAIN. The stores of the i-th video operation (counting from 0) of the stream go to AUX iff the mode is DHGR and (i+1)/292, rounded down, is odd.", "quantifier": "every stream, every k", "why_tests_cant": "unbounded streams", "anchors": ["transcoder/movie.py:Movie.emit_stream", "transcoder/opcodes.py:Ack"]}
{"id": "C27", "title": "Operations are encoded for the bank the player is writing", "statement": "Producing the stream of a movie (legal frames, quantised audio, at least one tick per frame) raises no exception; its tick operations in order are exactly those of a legal history of the frame encoder (so C15-C22 hold of them); each was computed against the main/aux bank selected by the most recent ACK preceding it (MAIN before the first), for the encoded frame current at that time. The history is known exactly: at each tick the encoder is asked for one operation, after it has been given a frame at the ticks where a frame that is a multiple of the stride becomes due (a new target) and at the ticks where the bank has changed (the same target for the other bank), and at no other ticks.", "quantifier": "every movie: audio, frames, mode, limit", "why_tests_cant": "the bank variable is flipped by the consumer coroutine between two resumptions of the producer coroutine", "anchors": ["transcoder/movie.py:Movie.encode", "transcoder/movie.py:Movie.emit_stream"]}
{"id": "C28", "title": "One tick per audio sample, in order, with the sample's duty cycle", "statement": "The n-th tick operation of the stream has speaker duty 2*s+34 where s is the n-th audio sample; no sample is dropped, duplicated or reordered until the stream ends, and it ends only when the audio is used up, when a frame is due at the next tick but the video has ended, or when the byte limit has been reached.", "quantifier": "every audio stream and video input", "why_tests_cant": "unbounded inputs", "anchors": ["transcoder/movie.py:Movie.encode"]}
{"id": "C29", "title": "Video frames are paced without drift", "statement": "Frame k is fetched exactly at tick max(k+1, T_k), where T_k is its threshold (ticks per frame times k, rounded up), for every k, independently of history (no accumulated error), and never two frames on one tick. With at least two ticks per frame, and products rounded by at most half a tick, every frame but the first is fetched at the first tick not before its product; the first at tick 1.", "quantifier": "every tick count, frame index, sample rate and frame rate with ticks-per-frame >= 1; any monotone rounding of the thresholds", "why_tests_cant": "drift appears only after many thousands of ticks", "anchors": ["transcoder/video.py:Video.tick", "transcoder/movie.py:Movie.encode"]}
{"id": "C30", "title": "Frame skipping", "statement": "With every_n_video_frames = n != 0, the encoding target of every tick is the frame with the largest index divisible by n among the frames fetched so far; frame 0 is such a frame from the first tick on, so an operation source and a target always exist when a tick is encoded.", "quantifier": "every n, every frame count", "why_tests_cant": "use-before-assignment can only be excluded for all inputs by an invariant", "anchors": ["transcoder/movie.py:Movie.encode"]}
{"id": "C31", "title": "Audio quantisation always selects an existing opcode", "statement": "Every decoded sample, however large, negative or non-finite, is quantised to an integer in -15..16 (one per sample, in order); 2*s+34 is then one of the even duties 4..66, and together with any page 32..63 it names an existing tick opcode class. With a positive finite normalisation quantisation is monotone in the sample as long as the scaled values fit into 64 bits, and in exact arithmetic the result is 16*N*x/16384 rounded towards zero and clipped.", "quantifier": "every real sample value (and NaN/infinities), every normalisation factor", "why_tests_cant": "floating point samples are a continuum", "anchors": ["transcoder/audio.py:Audio.audio_stream", "transcoder/movie.py:Movie.encode", "transcoder/opcodes.py:TICK_OPCODES"]}
{"id": "C32", "title": "Silent input distorts the audio (defect)", "statement": "Whenever the normalisation is a finite number, zero samples are encoded as 0. But if the analysed part of the input is silent and no normalisation is given, the computed normalisation is infinite, 0*inf is NaN, and on x86-64 every sample of the whole stream (zero or not) is encoded as -15, the shortest speaker duty: the naive claim that silence is encoded as silence is FALSE.", "quantifier": "inputs whose analysed prefix has zero percentile amplitude", "why_tests_cant": "needs non-finite arithmetic; tests never use silence", "anchors": ["transcoder/audio.py:Audio._normalization", "transcoder/audio.py:Audio.audio_stream"]}
{"id": "C33", "title": "Player addresses in the stream are unique and complete", "statement": "The symbol table shipped with the repository gives every one of the 1028 player opcodes a non-zero 16-bit entry address, all distinct; so emitting an opcode's address and looking it up recovers the opcode.", "quantifier": "all opcodes of the shipped debug file", "why_tests_cant": "finite but large; a wrong address crashes the player", "anchors": ["player/iivision.dbg", "transcoder/opcodes.py:_fill_opcode_addresses"]}
{"id": "C34", "title": "Opcode stream is uniquely decodable", "statement": "Given the address table, the byte stream of any header followed by any sequence of tick/ack/nop opcodes and a terminate decodes back to exactly that sequence of opcodes with their arguments; different sequences give different streams.", "quantifier": "every sequence of opcodes with byte arguments", "why_tests_cant": "unbounded sequences", "anchors": ["transcoder/opcodes.py", "transcoder/machine.py:Machine.emit"]}
{"id": "C35", "title": "Symbol table parsing", "statement": "Parsing a debug file maps each symbol name to the attributes of its last sym line and ignores all other lines; opcode addresses are taken from the symbols named op_<command>; if any command has no (non-zero) address the transcoder refuses to start with ValueError. It also refuses malformed files: if an op_ symbol has no value or one that is not a hexadecimal number, with KeyError or ValueError; at the first malformed sym line with IndexError (no attributes), ValueError (an attribute without exactly one =) or KeyError (no name).", "quantifier": "every text input of well-formed lines; every file that is well formed up to a malformed sym line; every non-hexadecimal value", "why_tests_cant": "arbitrary text input", "anchors": ["transcoder/symbol_table.py:SymbolTable.parse", "transcoder/opcodes.py:_parse_symbol_table", "transcoder/opcodes.py:_fill_opcode_addresses"]}
{"id": "C36", "title": "Every tick opcode of the player does what the transcoder assumes", "statement": "Executing player opcode op_tick_T_page_P from its symbol-table address, for any stream bytes, takes exactly 73 cycles, toggles the speaker exactly twice T cycles apart (one cycle less for T = 22 and T = 40; the comment in the source announces 41 for the latter), reads exactly 7 stream bytes, stores the first at the four following offsets of page P in the active bank in order, leaves X=0, and continues at the address given by the last two bytes.", "quantifier": "all 1024 opcodes, all register/memory contents, all stream bytes", "why_tests_cant": "1024 hand-scheduled self-modifying code fragments with shared tails times 2^56 inputs", "anchors": ["player/main.s:op_tick_*", "player/iivision.dbg"]}
{"id": "C37", "title": "Player slow path", "statement": "Executing op_ack when the next 2K are available performs the soft-switch access named by the stream, consumes the last two bytes of the block, advances the receive pointer by 2048 modulo 65536, issues RECV, restores the read position to the start of the next block, costs exactly 2x73 cycles with 34-cycle duty pulses, restores X=0 and dispatches to the address in the next two stream bytes.", "quantifier": "all register/memory contents, all stream bytes, all receive-pointer values, all ring positions", "why_tests_cant": "pointer wrap-around happens only every 32nd/4th block", "anchors": ["player/main.s:op_ack", "player/main.s:checkrecv", "player/main.s:recv", "player/main.s:op_nop"]}
{"id": "C38", "title": "Player never overwrites its own code", "statement": "During playback of any stream of valid opcodes, the only RAM the player writes is screen page 1 ($2000-$3FFF, main or aux), one scratch zero-page byte and the operand bytes of its own dispatch jumps/soft-switch store; its instruction bytes are never modified.", "quantifier": "every stream of valid opcodes, any length", "why_tests_cant": "self-modifying code: safety depends on every reachable store", "anchors": ["player/main.s"]}
{"id": "C39", "title": "Player reads exactly the streamed bytes under every network schedule", "statement": "For every TCP delivery schedule that respects the receive window, the n-th data byte the player reads is the n-th byte of the served file: no byte is read before it has arrived, none is overwritten before it is read, across all buffer wrap-arounds.", "quantifier": "every delivery schedule, any stream length", "why_tests_cant": "asynchronous arrivals; wrap-around only after 8K/64K", "anchors": ["player/main.s:checkrecv", "player/main.s:op_ack", "server/server.py"]}
{"id": "C40", "title": "Player never stalls on a well-formed stream", "statement": "On a stream produced by the transcoder (or any stream laid out like one), whatever the network and keyboard do, the player never runs into an illegal state before it exits; if the network keeps delivering what the receive window has room for, the player executes all opcodes and comes to TERMINATE - unless a key was pressed and it waits for a second one that never comes.", "quantifier": "every transcoder stream, every delivery schedule that eventually delivers what the window allows", "why_tests_cant": "liveness over all schedules", "anchors": ["player/main.s:checkrecv", "transcoder/movie.py:Movie.done"]}
{"id": "C41", "title": "End to end: playing the produced stream reproduces the encoder's screen and audio", "statement": "Running the player on the bytes produced for any movie - with nobody touching the keyboard, or pausing it any number of times and every pause being ended by another key - starts in the right display mode, executes exactly the encoded operations in order, produces speaker duties equal to those of the audio samples, ends in TERMINATE, and leaves screen memory (both banks) equal to the transcoder's own memory maps (up to the documented padding byte). After every single tick, too, the player's screen memory is what the operations so far make of a blank screen.", "quantifier": "every movie (audio, frames, mode, limit, nonces, table)", "why_tests_cant": "composition of transcoder, wire format and player for unbounded inputs", "anchors": ["transcoder/movie.py", "transcoder/video.py", "transcoder/opcodes.py", "player/main.s"]}
{"id": "C42", "title": "Background frame conversion preserves order and loses nothing", "statement": "Under every interleaving of the conversion thread and the consumer with the bounded queue, the frames generator yields exactly the frames a simple sequential loop over the pictures would yield, in input order, each once; the queue never exceeds 10 entries; every execution is finite (at most 4 steps per picture plus 4); if no conversion fails, the generator ends after one frame per picture with both threads finished, and no thread is ever stuck before that.", "quantifier": "every thread interleaving, every number of frames, every behaviour of the external converter, every initial file system", "why_tests_cant": "interleavings", "anchors": ["transcoder/frame_grabber.py:FileFrameGrabber.frames"]}
{"id": "C43", "title": "A failing frame conversion is never reported to the consumer (defect)", "statement": "If converting (or reading) a picture raises in the worker thread, the consumer gets exactly the frames before it and then waits forever: in no interleaving does it ever see an exception or the end of the frames. (The natural claim, that the consumer is told, is false: no sentinel is queued on failure.)", "quantifier": "every frame index at which conversion fails, every interleaving", "why_tests_cant": "crash points and interleavings", "anchors": ["transcoder/frame_grabber.py:FileFrameGrabber.frames"]}
{"id": "C44", "title": "Interrupted conversions never put a truncated frame on screen", "statement": "Whatever files a crashed or interrupted earlier run left behind and whatever the external converter does, every frame yielded shows the exact contents that the files of its own picture had at some moment of this run, and these files had exactly 8192 bytes. A leftover file of any other size is never shown, but it is not regenerated either: the frames before it are delivered and the consumer gets a ValueError (finding: every later run fails the same way until the file is deleted).", "quantifier": "every initial file system (hence every crash point of an earlier run), every behaviour of the converter, every interleaving", "why_tests_cant": "crash points", "anchors": ["transcoder/frame_grabber.py:FileFrameGrabber.frames", "transcoder/screen.py:FlatMemoryMap"]}
{"id": "C45", "title": "Output naming keeps different inputs apart", "statement": "The default output file replaces the input's extension by .a2m; the frame cache directory is the input name without extension plus mode and palette; the files in it are named by the eight-digit number of the picture; two inputs with extensions that differ other than in the extension, or different modes or palettes, never share a cache directory, a cached file or a temporary file, nor (for different names) a default output. Findings, also proved: inputs differing only in the extension share both; a name without a dot gives the output 'a2m' and a cache directory at the file system root whatever the name; an input ending in .a2m is its own default output (it is overwritten).", "quantifier": "every pair of file names, modes, palettes", "why_tests_cant": "arbitrary strings", "anchors": ["transcoder/main.py:main", "transcoder/frame_grabber.py:FileFrameGrabber._output_dir"]}
{"id": "C46", "title": "Simulator soft switches remember the last command but always report 'off'", "statement": "After every series of memory accesses each soft switch of the simulated computer is where the last allowed access to its on or off address put it; but (defect) reading its status address returns 0 in every state, because 0x80 & True is 0, where bit 7 should show the state.", "quantifier": "every history of reads and writes of any addresses, every switch", "why_tests_cant": "ranges over all access histories", "anchors": ["simulator/machine.py:SoftSwitch", "simulator/apple2.py:AppleII"]}
{"id": "C47", "title": "Simulator I/O dispatch", "statement": "An access to the I/O page succeeds only if the address is one the simulator knows, in that direction; otherwise it raises TrapException and changes nothing. Six switches ($C000-$C00B) raise NotImplementedError instead. No access changes a switch other than the one addressed, memory other than the byte written, or the network card other than through its four ports. Registering any list of switches with different addresses gives each exactly its three entries.", "quantifier": "every state, address, direction, value; every list of switches", "why_tests_cant": "all addresses, values, states and switch lists", "anchors": ["simulator/machine.py:Machine.io_interceptor", "simulator/machine.py:SoftSwitch.register", "simulator/apple2.py:AppleII"]}
{"id": "C48", "title": "Simulated Uthernet address pointer", "statement": "After writing h to WADRH and then l to WADRL the pointer is (h mod 128)*256+l; n reads of the data port return n consecutive bytes modulo 32K (if no unimplemented register is among them), and writes store consecutive bytes. Defects: low byte before high byte loses bit 7 of the low byte; after $7FFF comes 0 instead of the start of the receive buffer $6000; the pointer advances also when auto-increment is off.", "quantifier": "every h, l, n, list of values, previous pointer and memory contents", "why_tests_cant": "wrap-around and write-order dependence over all values", "anchors": ["simulator/apple2.py:AppleII", "simulator/uthernet.py:Uthernet"]}
{"id": "C49", "title": "Simulated memory protection and entry points", "statement": "After the memory map is enabled, every write to an address of a read-only region raises an exception - also if a later region covers the address - and, if there is no interceptor, the exception is WriteProtectedException and nothing has changed; writes elsewhere outside intercepted regions change exactly that byte; an address belongs to the last region of the map that contains it. In every run two instructions executed one after the other are in the same region, or the second is reached by RTS or is a declared entry point; any other entry raises UndefinedEntryPointException before an instruction of that region is executed. Before an instruction at an entry point is executed, all functions declared for it, in all regions, have been called in order; the simulated computer has exactly four entry points (HGR, WAIT, COUT, IN#0), with one function each.", "quantifier": "every memory map, address, value, interceptors, processor and number of steps", "why_tests_cant": "all addresses, region layouts and programs", "anchors": ["simulator/memory.py:MemoryManager", "simulator/apple2.py:AppleII.Run"]}
{"id": "C50", "title": "Opcode construction and equality", "statement": "Two opcodes compare equal iff they are of the same class and carry the same arguments; equality is an equivalence relation and equal opcodes emit identical bytes. A tick opcode can be made exactly for the even duties 4 to 66 and the pages 32 to 63 (any other combination raises KeyError) and with exactly four offsets (any other number raises ValueError), and carries what it was made with.", "quantifier": "every pair of opcodes; every duty, page, content byte and list of offsets", "why_tests_cant": "all argument values", "anchors": ["transcoder/opcodes.py:Opcode.__eq__", "transcoder/opcodes.py:BaseTick.__init__", "transcoder/opcodes.py:_make_tick_opcodes"]}
{"id": "C51", "title": "Server delivers the file verbatim to every client", "statement": "Whatever clients connect and when, however sends are split, whichever connections break and however the file is replaced meanwhile: each client has at any time received the beginning of one version of the file, and all of it when its connection is closed normally. A broken connection or missing file does not stop the server. (Defect: one client at a time - a client that stops reading blocks all others.)", "quantifier": "every file content, every number and order of connections, sends, failures and edits", "why_tests_cant": "histories of connections", "anchors": ["server/server.py:main", "server/server.py:ChunkHandler"]}
{"id": "C52", "title": "Normalisation clips at most one percent of the analysed samples", "statement": "If the normalisation is computed from n samples, at most 2*ceil((n-1)/200) of them are scaled beyond +-16 (and may be clipped); every other sample is encoded as its scaled value rounded towards zero, except that -16 is encoded as -15 (the range is asymmetric).", "quantifier": "all non-empty sample sequences with non-zero percentiles", "why_tests_cant": "ranges over all audio inputs of any length", "anchors": ["transcoder/audio.py: Audio._normalization, Audio.audio_stream"]}
{"id": "C53", "title": "Playback timing is exact", "statement": "If the network keeps up (in every stretch of 5000 instructions, fewer than the player needs for a block, it offers at least 2048 bytes) and no key is pressed, playing any stream takes exactly 73 cycles per tick and 146 per ACK from the first opcode to TERMINATE, and the speaker is toggled exactly at the times determined by the opcodes: twice per tick, the given pulse width apart, four times per ACK (two 34-cycle pulses in phase with the ticks), and never otherwise. For a movie, from loading the program to the end: the i-th sample is heard exactly 73 (i + 2 floor((i+1)/292)) + 4 cycles after the first opcode starts, so that the sound runs at a constant rate of 292 samples in 294 x 73 cycles and never drifts by more than two ticks.", "quantifier": "every stream laid out like the transcoder's, every movie, every machine state at the start, every delivery schedule that keeps up", "why_tests_cant": "Needs all streams, all opcode sequences and all block boundaries; cycle errors would accumulate unnoticed in short tests.", "anchors": ["player/main.s: ticks_*, op_ack, checkrecv, recv"]}
{"id": "C54", "title": "The frame cache is transparent, and keyed by name only", "statement": "After a run of the frames generator that came to its end, any later run for the same name stem, mode and palette, with at most as many pictures, changes no file, never needs the external converter and yields the first run's frames - provided the converter only touches the files of the picture it converts. (Defect, part of the theorem: this holds whatever the new video's pictures are, so a different video with the same stem silently gets the old frames.)", "quantifier": "every pair of runs, every picture contents, every interleaving of both, every converter behaviour in the second run", "why_tests_cant": "histories of runs and interleavings", "anchors": ["transcoder/frame_grabber.py:FileFrameGrabber.frames", "transcoder/frame_grabber.py:FileFrameGrabber._output_dir"]}
{"id": "C55", "title": "Simulated socket commands", "statement": "OPEN and CONNECT written to the command register of socket 0 of the simulated card set the socket status to SOCK_INIT and SOCK_ESTABLISHED whatever it was before; other commands have no effect, except RECV, which raises NotImplementedError and changes nothing (defect: the player issues it after each received block, so no stream can be played in the simulator). The card's mode register accepts exactly the values made of bits 0, 1 and 7, and they set the two flags and change nothing else (defect: reset resets nothing); the socket's mode register accepts exactly $21. And (defect) nothing ever arrives: after any accesses, a byte of the card's memory other than the socket's status is 0 or one that the program itself has put there, so the received size stays 0.", "quantifier": "every command or mode byte, every state of computer and card; every history of accesses to a new computer", "why_tests_cant": "all states", "anchors": ["simulator/uthernet.py:Uthernet.__init__"]}
{"id": "C56", "title": "What the simulator loads", "statement": "For every 32K ROM image and every program, at the start of the simulation memory holds the program at $8000, the ROM's parts at $C600 and $D000, $FDF0 at $36/$37 and 0 elsewhere; but (defect) the last byte of both ROM parts, $C6FF and $FFFF, is 0 whatever the image has.", "quantifier": "every ROM image, program and address", "why_tests_cant": "all images", "anchors": ["simulator/simulator.py:main"]}
{"id": "C57", "title": "Generated distance tables price the cheapest recolouring", "statement": "Running the table generator succeeds for every colour-difference function in range (its own 16-bit assertion never fires), the encoder finds a table for both modes and both palettes, and the loaded distance of two masked byte values is exactly the price of the cheapest way to turn one's row of pixel colours into the other's by recolouring pixels (at the palette difference of the colours they are priced as, see C11) and swapping neighbouring pixels (price 1); insertions and deletions never pay. The distance is zero exactly if the two rows look the same (equal RGB, pixel by pixel). For the IIGS palette in DHGR this separates all values; for NTSC in DHGR (the default) it does not (defect): both greys have the same RGB value, so opposite dot patterns have distance 0, contradicting the project's own table test; in HGR palette bits of black bytes are invisible.", "quantifier": "every colour-difference function (symmetric, 0..3640), every mode, shipped palette, byte offset and pair of masked values", "why_tests_cant": "2^26..2^28 pairs per offset and an unbounded family of edit scripts per pair; the shipped test needs hours and samples one generated file", "anchors": ["transcoder/make_data_tables.py:compute_edit_distance", "transcoder/make_data_tables.py:edit_distance", "transcoder/make_data_tables.py:compute_substitute_costs", "transcoder/make_data_tables.py:main", "transcoder/screen.py:Bitmap.edit_distances", "transcoder/palette.py"]}
{"id": "C58", "title": "The player connects, gives up with a message, or polls forever only in the stated cases", "statement": "Entered at its first byte with the network card in any state, over any network: if the card obeys the OPEN command, the player either comes to wait for the header, connected, with the card configured with the addresses, ports and buffer sizes the source announces, after one dot per failed attempt (at most five); or stops at a BRK after six failed attempts, having printed five dots and 'SOCKET COULD NOT CONNECT - CHECK REMOTE HOST'; or polls forever in silence. The last happens exactly through a network that never answers again, or (defect) when the file fits the 8K receive buffer and the server has sent it all and closed the connection before the player looked (it only accepts status ESTABLISHED, not CLOSE_WAIT). If the card does not obey OPEN, it stops at a BRK having printed 'UTHERNET II: COULD NOT OPEN SOCKET!'. Over a network that answers and never refuses, with a server that keeps the connection open or a file too large for the receive buffer, the player always connects; over one that answers and always refuses it always gives up.", "quantifier": "every initial state of the card and the registers, every schedule of network answers, arrivals and key presses", "why_tests_cant": "the card's initial state and the timing of network events relative to the polling loop are unbounded; the hang needs a race with the server", "anchors": ["player/main.s:bootstrap", "player/main.s:reset_w5100", "player/main.s:CHECKTEST", "player/main.s:FAILED", "player/main.s:OPENED"]}
{"id": "C59", "title": "RESET and a key at the end lead to ProDOS", "statement": "When the player has connected, and at every later moment of playing any stream, the reset vector points to the player's exit routine with a correct check byte. At TERMINATE the player waits, with memory, switches and speaker untouched, as long as no key is pressed (keys pressed earlier do not count), and the next key leads to the exit routine. The exit routine makes the check byte wrong, so that the next RESET restarts the machine, changes no other memory, and calls ProDOS QUIT with a well-formed parameter table.", "quantifier": "every stream, every machine state met while playing, every schedule of key presses and network events", "why_tests_cant": "must hold at every instruction of every run", "anchors": ["player/main.s:bootstrap", "player/main.s:op_terminate", "player/main.s:exit", "player/main.s:exit_parmtable"]}
{"id": "C60", "title": "The output file does not depend on the schedule of the threads", "statement": "Run with a non-zero frame stride, a size limit that is not negative and input the converter turns into pictures without palette bits, the transcoder, for every interleaving of the main thread and the conversion thread: writes at every moment (hence also when killed) a prefix of one and the same file, which is the stream obtained from the audio and the pictures converted one after the other by a simple loop; takes a bounded number of steps (4 per picture, 1 per sample, plus 7); when it ends normally the file is complete, a whole number of 2K blocks, and less than 2059 bytes over --max_output_mb. It ends normally if every picture can be converted, or those that cannot are not needed (no audio left when they are due, or the size limit reached before). (Defects:) if a needed picture cannot be read or converted, the program waits forever instead of ending, and if the converter's output is not a picture it ends with the exception; in both cases the file lacks exactly TERMINATE and the padding after it.", "quantifier": "all command lines, inputs, converters and random choices within the stated conditions; all interleavings; all moments", "why_tests_cant": "the number of interleavings is unbounded, a test sees one; the hang depends on where in the input the failure is relative to audio and limit", "anchors": ["transcoder/main.py:main", "transcoder/movie.py:Movie.encode", "transcoder/movie.py:Movie.emit_stream", "transcoder/frame_grabber.py:FileFrameGrabber.frames"]}
{"id": "C61", "title": "From the input file to the screen and the speaker", "statement": "If the transcoder (given the addresses of the shipped player's listing) has ended normally on an input, the server serves the file it wrote and sends it all to a client, and that client is the player binary, started on an Apple II with a working card in any state, over a network that answers, delivers and does not refuse, with nobody touching the keyboard, or every pause (C66) being ended by another key: then the player plays to the end and halts at its TERMINATE; each of its ticks takes 73 cycles, toggles the speaker twice at a distance determined by the corresponding decoded audio sample after normalization, rounding and clipping; makes the four stores of the corresponding operation of a legal history of the frame encoder, whose target at that tick is the converted picture due then (by frame rate and stride); the switches select the mode of the command line; and after every tick, and at the end, the screen is what these stores make of a blank screen, at the end equal to the encoder's own memory except possibly at the first byte (see C17).", "quantifier": "all command lines and inputs as in C60, all thread schedules of the transcoder, all histories of the server, all arrival times and network schedules, all initial states of card, registers and remaining memory", "why_tests_cant": "it is a statement about the composition of four programs over all inputs and schedules; there is no Apple II in a unit test", "anchors": ["transcoder/main.py:main", "server/server.py:ChunkHandler.handle", "player/main.s:bootstrap", "player/main.s:op_terminate"]}
{"id": "C62", "title": "A finished frame looks right", "statement": "When an operation stream has been drawn from a frame until the encoder is out of work (more operations than there are bytes that look different, at most 7680), the player's screen shows that frame. HGR, both palettes: every one of the 192 x 560 dots is the target's, except (defect) that the leftmost dot of a line can be wrong where the first column should have 7f and has ff or vice versa: the encoder takes the byte before it in memory for its left neighbour, although that byte is shown elsewhere. DHGR, after both banks have been finished: with the IIGS palette every dot is the target's; with the NTSC palette every byte is the target's, or (defect) a byte of alternating dots is left in the opposite phase (55 for 2a or vice versa), because the two greys have the same colour; next to bytes that were redrawn this shows as a seam of another colour.", "quantifier": "all legal histories of the encoder before, all targets, all random choices, all numbers of operations beyond the threshold, all colour differences that vanish only on equal colours", "why_tests_cant": "it is about the fixed point of the encoder after every history; the exceptions need particular neighbours", "anchors": ["transcoder/video.py:Video.encode_frame", "transcoder/video.py:Video._index_changes", "transcoder/screen.py:Bitmap.diff_weights", "transcoder/screen.py:HGRBitmap", "transcoder/screen.py:DHGRBitmap", "transcoder/make_data_tables.py:compute_substitute_costs", "transcoder/colours.py", "transcoder/palette.py"]}
{"id": "C63", "title": "No byte starves", "statement": "However frames and operations are interleaved, a byte that looks wrong by at least w at the beginning of every frame for its bank cannot be passed over forever: as long as it is not stored to, w times the sum, over the operations for the bank, of the number of frames begun so far is at most 8192*8192*65535 plus 7680 times the largest distance per frame. In particular, with at least m operations for each of n >= 8192 frames of the bank and n*m*w >= 2^31, every byte of the bank has been stored to, or was off by less than w at the beginning of one of these frames.", "quantifier": "all earlier histories, all sequences of legal frames for both banks with any numbers of operations, all symmetric distance tables, all random choices, all bytes", "why_tests_cant": "a liveness bound over unboundedly long histories; the byte competes with 7679 others whose priorities keep growing", "anchors": ["transcoder/video.py:Video.encode_frame", "transcoder/video.py:Video._index_changes", "transcoder/video.py:Video._heapify_priorities", "transcoder/movie.py:Movie.encode"]}
{"id": "C64", "title": "A picture that stays for half a second is shown completely", "statement": "In an HGR movie encoded with a generated table, take a frame whose number is a multiple of the stride and a time at least 7681 ticks (0.52 s at 14.7 kHz) after it became due, before the next such frame becomes due. After the operations of the stream up to that time the screen shows that frame: every one of the 192 x 560 dots is right, except the leftmost dots described in C62; whatever was shown before and however much of it had been left unfinished. The same holds of the screen of the Apple II when the player, started as in C41, has executed that tick.", "quantifier": "all HGR movies (frames, audio, frame rates, strides, size limits), both palettes, all colour differences that vanish only on equal colours, all random choices, all frames and times as described; for the player all network schedules and initial states as in C41", "why_tests_cant": "convergence within a fixed time from every earlier history of the encoder", "anchors": ["transcoder/movie.py:Movie.encode", "transcoder/movie.py:Movie.emit_stream", "transcoder/video.py:Video.encode_frame", "transcoder/video.py:Video._index_changes", "player/main.s"]}
{"id": "C65", "title": "The additional stores of an operation are the best available", "statement": "Call an offset of an operation's page (other than the first one) useful if it is still pending and storing the operation's content there too would be closer to the target than the byte was at the start of the frame. With a symmetric table the additional offsets of a (non-padding) operation are useful ones, at most two; and if a useful offset is left out there are two, and neither has a smaller gain. Defect: the fourth store of every operation just repeats the first one (the loop meant to find three more offsets stops at two), so a quarter of the video bandwidth is never used.", "quantifier": "every non-padding operation of every legal history of calls, every symmetric distance table, every random tape", "why_tests_cant": "optimality over all candidate offsets in every reachable state", "anchors": ["transcoder/video.py:Video._index_changes", "transcoder/video.py:Video._compute_error"]}
{"id": "C66", "title": "Pausing with the keyboard", "statement": "A key struck at any moment while opcodes are played stays latched - no opcode touches the keyboard - until the player looks at the keyboard, which it does only between two blocks (and at the end of the stream). At the end of a block (ACK), once the next block has arrived: with no key waiting the player goes on with that block; with one, three instructions later it is stopped, the key taken, memory, switches and speaker untouched and nothing read. It stays stopped as long as no key is struck, and the next key, whenever it comes, makes it go on at the first opcode of the next block with memory, bank, read position, released bytes and receive pointer exactly as without the pause.", "quantifier": "all streams of the shipped format, all ACKs, all stream contents, all moments of key presses, all pause lengths, all network schedules that keep delivering, all machine states at the ACK", "why_tests_cant": "ranges over every moment a key can be struck, relative to every instruction, and over unbounded waiting", "anchors": ["player/main.s:checkrecv", "player/main.s:recv", "player/main.s:op_ack", "player/main.s:op_terminate"]}
{"id": "C67", "title": "Small changes appear quickly", "statement": "Take a movie encoded with a generated table and a frame whose number is a multiple of the stride. In HGR, if the screen differs from the frame in w bytes when it becomes due, then after the 3w+3 following operations, and until the next such frame becomes due, the screen shows the frame, dot for dot, except for the leftmost dots of C62. In DHGR, if the frame is due by the first operation after an ACK, the screen then differs from it in at most 144 bytes (of both banks together), and no other such frame becomes due in the two following blocks of 292 operations, then after these two blocks (40 ms) the screen shows the frame, dot for dot, except that with the NTSC palette a byte of alternating dots may be left in the opposite phase (C62). Bytes that are not displayed (screen holes) count as differing bytes too. The same holds of the screen of the Apple II when the player, started as in C41, has executed the operations. Nothing is claimed of larger changes in DHGR, where the encoder starts over at every change of bank.", "quantifier": "all movies (frames, audio, frame rates, strides, size limits), both palettes, all colour differences that vanish only on equal colours, all random choices, all frames, ACKs and times as described, whatever was encoded before; for the player all network schedules and initial states as in C41", "why_tests_cant": "a bound on the time of convergence in terms of the amount of change, from every earlier history of the encoder", "anchors": ["transcoder/movie.py:Movie.encode", "transcoder/movie.py:Movie.emit_stream", "transcoder/video.py:Video.encode_frame", "transcoder/video.py:Video._index_changes", "player/main.s"]}
{"id": "C68", "title": "The stream is causal", "statement": "The stream of a movie up to and including its n-th tick (with the ACKs before the next one) depends only on the first n audio samples and on the frames fetched by that tick: two inputs that agree so far yield streams that agree so far, opcode by opcode and byte by byte, whatever follows, however long it is, and whatever the size limits (if both streams get that far). So a longer recording, a cut at the end or a different ending never changes what has been encoded before.", "quantifier": "all pairs of movies with the same settings (but any size limits) and random choices, all audio and frames, all n", "why_tests_cant": "Ranges over pairs of inputs with arbitrary continuations and over all cut points; the encoder is a chain of suspended generators with state carried from frame to frame.", "anchors": ["transcoder/movie.py: Movie.encode, Movie.emit_stream", "transcoder/video.py: Video.encode_frame", "transcoder/audio.py: Audio.audio_stream"]}
{"id": "C69", "title": "Heaps and caches cannot be observed", "statement": "The frame encoder keeps pending stores in binary heaps laid out in arrays (heapify, heappush, heappop) and memoises the price of a store per bitmap object, byte position, old pixels and content byte in a least-recently-used cache of 10**6 entries that is shared by all frames. None of this influences the output: for every history of frames and next() calls, every random tape, every cache size and every assignment of identities to bitmap objects, the emitted operations, the simulated screens and any exception are the same as for an encoder that always takes a least pending tuple from a bag and recomputes every price. The cache never holds more than its size, never two prices for the same arguments, and never a price that recomputing would not give, however the screens have changed since. For whole movies, the ticks of the stream carry exactly the operations of that encoder.", "quantifier": "all histories of calls of an encoder, legal or not, all distance tables, tapes, cache sizes and object identities; all movies", "why_tests_cant": "A stale or displaced cache entry, or a heap that is out of order after some interleaving of pushes and pops, shows only after particular long histories; tests run a few frames.", "anchors": ["transcoder/screen.py: byte_pair_difference (lru_cache)", "transcoder/video.py: _index_changes, _heapify_priorities, _compute_error (heapq)"]}
{"id": "C70", "title": "Every frame shows its own picture", "statement": "Suppose the external converter, called with the documented arguments (mode hgr or dhgr, palette P0 or P5, A for double hi-res, D9) on a picture's bitmap file, writes the conversion of that file into the picture's result files. Then, whatever files earlier or interrupted runs have left behind, each frame delivered for picture i shows the conversion of picture i of this video - never of a stale bitmap, of half of an old result, or of another picture - unless all result files of picture i were already there, in which case it shows these. When the frames have come to their end, each newly converted picture has its conversion in the result files and no bitmap file is left of it, and no other file has changed. If the reader does not fail and all results have the size of a screen, every run delivers one frame per picture and ends.", "quantifier": "every file system at the start (hence every crash point of earlier runs), every video, every converter function, every interleaving of the two threads", "why_tests_cant": "Which leftovers exist depends on where an earlier run crashed and which picture is being converted while the caller reads frames depends on the schedule; tests see one of each.", "anchors": ["transcoder/frame_grabber.py: FileFrameGrabber.frames, _hgr_decode, _dhgr_decode, _palette_arg, worker"]}
{"id": "C71", "title": "Decoding of sound: one sample per frame, the mean of its channels", "statement": "From a buffer of whole frames of 16 bit sound, any number of channels, exactly one mono sample per frame is made, in order: the mean of the channels. If the file has the rate of the stream, the stream has one sample per frame of the file, each depending on its own frame only, however the file was cut into buffers. Else every buffer is resampled by itself and its number of samples rounded up (defect: the stream is up to one sample per buffer longer than the sound, 10923 instead of 10922 2/3 samples per 128 KiB buffer of CD stereo, so sound falls behind the picture, the more so the smaller the buffers). A buffer that is not whole frames ends the stream with ValueError, after the samples of the buffers before it (defect: if buffers have a power of two of bytes, that is every file of more than one buffer whose number of channels is not a power of two, such as 5.1). The normalisation given is used if it is not 0; else it is computed from the file's beginning: the whole file up to 10 MiB, else 10 MiB and at most one buffer more.", "quantifier": "every sequence of buffers of any contents and sizes, every number of channels, every resampler with the documented number of samples, every rounding", "why_tests_cant": "Buffer boundaries, channel counts and sample values are unbounded; tests decode one file.", "anchors": ["transcoder/audio.py: Audio.__init__, _decode, _normalization, audio_stream"]}
{"id": "C72", "title": "Sound that fails in the middle never gives a file that looks complete", "statement": "If decoding the sound raises an exception after some samples (with undecodable buffers: the exception of the first of them, after the samples of all buffers before it), then for every interleaving of the two threads: the bytes written are at every moment a prefix of one file, the complete stream of these samples and the pictures; the program takes a bounded number of steps; it ends normally only if the size limit or the end of the pictures was reached while there were samples left, and then the file is complete; if all samples are used up, it ends with the exception of the sound (even if the size limit is reached at that moment) and the file is the stream up to and without TERMINATE and padding. Without a size limit and with pictures for all of the sound it cannot end in any other way.", "quantifier": "all command lines, inputs, points of failure, exceptions, converters and random choices as in C60; all interleavings; all moments", "why_tests_cant": "where the sound fails relative to the pictures, the limit and the other thread is unbounded", "anchors": ["transcoder/audio.py: Audio.audio_stream", "transcoder/movie.py: Movie.encode, Movie.emit_stream", "transcoder/main.py: main"]}
{"id": "C73", "title": "Sound and picture stay together", "statement": "With the frame rate n/d that ffprobe reports (32 bit numbers) and any audio bit rate of at least two samples per frame, at every sample of a movie of up to 2^48 samples, the operation sent with it is computed for the frame that belongs to that moment of the sound: the last fetched frame is one whose time in the input has come and the next one's has not, up to one part in 2^49, in double precision with all its rounding errors, however long the movie is; the first frame is used from the first sample on. (With every_n_video_frames, for the last multiple of it among the frames so far.) A rate without denominator is an IndexError, one with denominator 0 a ZeroDivisionError.", "quantifier": "every frame rate, bit rate, rounding in double precision, sample number, movie", "why_tests_cant": "drift shows after arbitrarily long movies and for particular rates only", "anchors": ["transcoder/frame_grabber.py: FileFrameGrabber.__init__", "transcoder/video.py: Video.__init__, Video.tick", "transcoder/audio.py: Audio.__init__", "transcoder/movie.py: Movie.encode"]}
{"id": "C74", "title": "Options that make no sense are not rejected", "statement": "With a negative size limit the transcoder converts no picture at all, finishes normally after one step of the main thread, and its file consists of TERMINATE and padding only, without even the header. With every_n_video_frames 0 (and some sound, and a first picture that can be converted) it stops with ZeroDivisionError as soon as the first frame is due, in a bounded number of steps, whatever the threads' schedule: nothing but the header has been written by then, and no schedule makes it finish. (A negative stride works like the positive one: C30.)", "quantifier": "every input, option values, frame cache, schedule of the two threads", "why_tests_cant": "depends on the interleaving of the threads and on every input", "anchors": ["transcoder/main.py: main", "transcoder/movie.py: Movie.encode, Movie.emit_stream, Movie.done", "transcoder/frame_grabber.py: FileFrameGrabber.frames"]}
{"id": "C75", "title": "The threads never make a difference", "statement": "For every command line and input whatsoever (good or bad) the transcoder does what a simple single-threaded loop does: open the sound, convert the frames one after the other, then ask the encoder for one operation after the other and write it. In every interleaving of the converting thread and the main thread, what has been written at any moment is a prefix of the loop's bytes; the number of steps is bounded by the length of the input; the run finishes, or raises an exception, only if the loop does, with the same exception and exactly the loop's bytes; and when neither thread can go on, the program has finished, raised the loop's exception, or waits for ever for a frame, exactly as the loop says.", "quantifier": "every command line, input, frame cache on disk, schedule of the two threads, moment", "why_tests_cant": "ranges over all schedules and all inputs, including those that fail", "anchors": ["transcoder/main.py: main", "transcoder/movie.py: Movie.encode, Movie.emit_stream", "transcoder/frame_grabber.py: FileFrameGrabber.frames"]}
{"id": "C76", "title": "Palette bits in double hi-res pictures are ignored or rejected", "statement": "In DHGR the palette bit (bit 7) of a byte is not displayed. Whatever frames the encoder is given, with palette bits or without, and however it is called, it does exactly what it does for the same frames with the palette bits removed (same operations in the same order, same idea of the screen; only the byte of padding operations may have the bit), until an operation would store, first of all, a byte which has a palette bit in the frame: there it raises AssertionError. The encoder never fails on the frames without palette bits. Accordingly the program, in every interleaving of its threads, writes the file it would write for the pictures without palette bits, but for bit 7 of padding bytes, or a beginning of it and then stops with AssertionError.", "quantifier": "every history of encoder calls with valid frames, distance table, random choices; every command line in DHGR, input, schedule", "why_tests_cant": "ranges over all frames, histories and schedules", "anchors": ["transcoder/video.py: Video._index_changes", "transcoder/screen.py: DHGRBitmap", "transcoder/movie.py: Movie.encode", "transcoder/main.py: main"]}
{"id": "C77", "title": "The command line", "statement": "The program goes to work if and only if its words are one input and options with values, in any order: an option may be shortened to a beginning of its name that no other option has, and its value is the next word or follows a '='; a word that begins with '-' is a value or the input only if it is '-' alone, or a negative number or a word with a blank that does not look like an option, or if '--' precedes the last word (or follows the input at the end). Every value given for an option must be readable (also those overridden later); the last one counts, and a missing option has the documented default (output derived from the input, no size limit, detected normalization, 14700 Hz, every second frame, DHGR, NTSC). Anything else ends in the usage message, or in the help text if a word asks for it. -h, or --help or a beginning of it that no other option has, after words that are not options and before words that are none or are spellings of options, ends in the help text whatever the other words are. (A defect: UNKNOWN, a placeholder, is an accepted palette.)", "quantifier": "all lists of words; all functions float and int", "why_tests_cant": "ranges over all command lines", "anchors": ["transcoder/main.py: parser", "transcoder/palette.py: Palette", "transcoder/video_mode.py: VideoMode"]}
{"id": "C78", "title": "The output file and the disk", "statement": "Whatever the command line, the input and the disk are, and however the threads are interleaved: once the program has started, the output file exists, what it held before is gone, and at every moment it holds, together with its buffer in memory (see C84), exactly the bytes written so far, a prefix of those of the simple loop of C75; all of them when the program has finished, and exactly those written before the exception or the endless wait otherwise. No file changes except the output file and the files of the pictures of the input (their bitmaps and converted screens). This needs that the output file is none of the latter, which the default name never is, whatever the input is called; neither is the input. (A defect: an input whose name ends in .a2m, or is a2m, is its own default output and is overwritten; exactly these are.)", "quantifier": "all command lines, inputs, disks, converters that only touch the files of the picture they are called for, interleavings and crash points", "why_tests_cant": "ranges over all inputs, disks and schedules of two threads", "anchors": ["transcoder/main.py: main", "transcoder/frame_grabber.py: FileFrameGrabber", "transcoder/movie.py: Movie.emit_stream"]}
{"id": "C79", "title": "The edit distance tables are loaded", "statement": "If the data directory has the file for the selected mode and palette, the transcoder behaves, in every interleaving and for every input, exactly as one that has had the (mirrored) table of that file from the beginning: C60 to C78 apply. The table generator makes these files for both modes and for the palettes IIGS and NTSC, and not for UNKNOWN, which the command line accepts too. If the file is missing, this is not noticed before the output file has been created, the header written and the first picture converted: given some sound and a convertible first picture, the program then ends with FileNotFoundError, in every interleaving, leaving a file with only a header (a defect).", "quantifier": "all command lines, inputs, contents of the data directory, colour difference functions and interleavings", "why_tests_cant": "ranges over all inputs, data directories and schedules of two threads", "anchors": ["transcoder/screen.py: Bitmap.edit_distances, Bitmap.diff_weights", "transcoder/video.py: Video.encode_frame", "transcoder/make_data_tables.py: main", "transcoder/main.py: main"]}
{"id": "C80", "title": "The transcoder as a whole, from command line to disk", "statement": "Started with any words on any disk, the transcoder gets to work exactly if the words have a meaning (C77), the normalisation is given or can be computed (if the sound cannot be opened, or read as far as it is analysed, the program ends with that exception and leaves the output file alone), ffprobe's frame rate is usable and the output file can be opened. From then on, for every interleaving of its two threads, and whatever fails (sound, pictures, converter, data file), the output file, with its buffer (see C84), has at every moment a prefix of the bytes of a simple loop that first converts all pictures and then writes; it has all of them when the program ends; this happens after a bounded number of steps; its previous content is gone and no other file changes but those of the pictures of this input. With a good input the program never fails and writes exactly the stream of the selected mode, stride, limit, bitrate, palette. If only the sound fails, the program ends with that exception, and a file without end marker, exactly if all samples before the failure have been used up; otherwise it finishes. A limit of 0, infinity or NaN is no limit. With the palette UNKNOWN and the generated data files a run that has sound and a convertible first picture always ends with FileNotFoundError and a file that has only a header (a defect).", "quantifier": "all command lines, inputs, rounding functions, converters, data directories, disks and interleavings", "why_tests_cant": "ranges over all inputs and all schedules of two threads", "anchors": ["transcoder/main.py: main", "transcoder/movie.py: Movie.__init__, Movie.encode, Movie.emit_stream", "transcoder/frame_grabber.py: FileFrameGrabber", "transcoder/audio.py: Audio", "transcoder/make_data_tables.py: main"]}
{"id": "C81", "title": "From the words of the command line to speaker and screen", "statement": "If a good input is transcoded with any command line that selects it, the finished output file is served, and the player receives it over a network that delivers, the player plays to the end; in its i-th tick it clicks the speaker twice at the distance that stands for the i-th sample of the sound; the screen then shows what the first i + 1 operations of a legal history of the encoder make of a black one; and each operation has as its target a picture of the video, converted as bmp2dhr does it, that is due at the time of that tick by the frame rate and the bitrate.", "quantifier": "all command lines, inputs, interleavings of the transcoder, server runs and deliveries of the network", "why_tests_cant": "ranges over all inputs, schedules and network behaviours of three programs", "anchors": ["transcoder/main.py: main", "transcoder/movie.py: Movie", "server/server.py: ChunkHandler.handle", "player/main.s:bootstrap"]}
{"id": "C82", "title": "Killed and started again", "statement": "If the transcoder is killed any number of times, at any moment, also in the middle of converting a picture (its bitmap may be anything, some result files written and others not), by runs with any options but the same pictures, then a further run comes to the same end and leaves byte for byte the same output file as one undisturbed run on the first disk; completely converted pictures are kept. This presumes that a result file appears at once and that no picture has one half of its results from elsewhere. (Defects:) if a kill leaves a cut-off result file, every later run fails at this picture until the file is deleted; and if one of the two result files of a double hi-res picture was there from elsewhere, a kill can make every later run show a mixture of both.", "quantifier": "all command lines, inputs, disks, crash points and numbers of crashes, and interleavings of all runs", "why_tests_cant": "ranges over all crash points and histories of crashes", "anchors": ["transcoder/frame_grabber.py: FileFrameGrabber.frames", "transcoder/main.py: main"]}
{"id": "C83", "title": "From the command line to the dots on the screen", "statement": "A video is transcoded (any command line, any interleaving), the file is served and played by the player, with tables from the generator, a converter that does its job, a frame rate n/d and an accepted network. The player plays a tick for every sample of the sound as long as there are pictures (without size limit). In hi-res, at every sample that is at least 7681 samples after the time of a picture that is not skipped, and before the time of the next one, the monitor shows what bmp2dhr has made of this picture, dot for dot, except that a leftmost dot may differ between $7f and $ff bytes; if the screen differed from it in only w bytes, this is so after 3w+4 samples. In double hi-res, if a picture stays current for two blocks of 292 samples before which the screen differs from it in at most 144 bytes, the monitor shows it after them, dot for dot, except, with the NTSC palette, bytes of alternating dots in opposite phase. All times are by the frame rate and the bit rate, up to one part in 2^49.", "quantifier": "all command lines, inputs, disks, interleavings, random choices, network and keyboard behaviours (that let it play), pictures and samples", "why_tests_cant": "ranges over all videos, floating point frame rates, schedules and moments of playback, and composes the transcoder with the server and the 6502 program", "anchors": ["transcoder/main.py: main", "transcoder/movie.py: Movie", "transcoder/video.py: Video", "transcoder/make_data_tables.py", "player/main.s"]}
{"id": "C84", "title": "Killed while writing, and full disks", "statement": "Whatever the command line, the input, the size of the output buffer, the interleaving of the threads and the answers of the operating system to each write (part of the buffer taken, or an error) are: at every moment the output file has a prefix of the bytes of the simple loop of C80, at most one buffer and the bytes just being written behind what has been made. If the program ends normally the file has all bytes; if a write fails, also the one when the file is closed, the program never ends normally but with the exception of a failed write (so a full disk never gives a silently truncated file). If another exception ends the program, the buffer is still written. If the system takes whole buffers, a program that is killed leaves a whole number of buffers. (A defect:) if the program waits forever because a conversion has failed (C43), the bytes in the buffer never get into the file: if it is the first picture, the file stays empty, without even a header.", "quantifier": "all command lines, inputs, buffer sizes, interleavings, moments of a kill and sequences of partial or failing writes", "why_tests_cant": "the moments of kills and the answers of the operating system are unbounded in number and combine with all interleavings", "anchors": ["transcoder/main.py: main", "transcoder/movie.py: Movie.emit_stream", "transcoder/frame_grabber.py: FrameGrabber"]}
{"id": "C85", "title": "A stream that has been cut off", "statement": "If the file the server sends is the beginning of a stream and ends before the block with TERMINATE is complete, the player never exits, whatever the network and the keyboard do; it changes no memory but screen page 1 and its own scratch bytes, and reads only a beginning of what has arrived. Of fewer than 256 bytes it takes no notice: it waits forever for a header. With 256 to 2047 bytes it reads the header, selects the display mode, clears the screen, and then waits forever. With more it executes exactly the opcodes of the complete blocks, so the screen is the one the stream describes up to there, and then waits forever for the rest of the block, toggling the speaker every 25 cycles (a tone of about 20 kHz), and ignores the keyboard. If only whole blocks of padding are missing, the file is played to its end. This holds for every file left by a transcoder that is killed, or fails, at any moment (C84); if the operating system takes whole buffers of a multiple of 2048 bytes, such a file has whole blocks.", "quantifier": "all streams, all lengths of the part that is left, all timings of network and keyboard, all moments of a kill", "why_tests_cant": "the player runs forever, and the lengths, timings and moments are unbounded in number", "anchors": ["player/main.s: checkrecv", "player/main.s: wait_read_header", "transcoder/main.py: main", "transcoder/movie.py: Movie.emit_stream"]}
{"id": "C86", "title": "A file that is written while it is served", "statement": "The server reads the file in several parts, while other programs change it. If files only grow, or are replaced by other files of the same name, each client is sent, at every moment, a beginning of one file, and if its connection is closed normally all that file had at one moment after the client was last seen waiting. In particular, a server that runs while the transcoder writes the file (any interleaving, buffer size, partial and failing writes, kills) sends every client accepted after the transcoder opened the file a beginning of the stream: the player plays all of it, or does with the part what C85 says; a client accepted after the transcoder has ended without an error gets the whole stream. (A defect:) if an existing file is overwritten in place, as the transcoder does when it is run again, a client that is just being served may get a mixture, the beginning of the old file followed by the rest of the new one.", "quantifier": "all interleavings of server, clients, transcoder and other programs, all sizes of the single reads, sends and writes, all moments of a kill", "why_tests_cant": "it is about races between programs; their interleavings are unbounded in number", "anchors": ["server/server.py: ChunkHandler.handle", "transcoder/main.py: main", "transcoder/movie.py: Movie.emit_stream", "player/main.s: checkrecv"]}
{"id": "C87", "title": "Ctrl-C", "statement": "Whenever and however often Ctrl-C is pressed while the transcoder writes its output, and whatever the disk does, the file is at every moment a beginning of the stream that would have been written; after the first Ctrl-C the main thread waits for nothing any more - not even if the transcoder was hanging because a frame conversion had failed (C43) - and closes the file after at most one write for each byte in the buffer. If Ctrl-C is pressed once, while the loop is running or waiting, and the disk does not fail, the file has in the end every byte that had been written into the buffer or the file; for a hanging transcoder that is everything it could compute. The player does with the file what C85 says.", "quantifier": "all moments of Ctrl-C and all numbers of them, all interleavings of the two threads, all buffer sizes, partial and failing writes, inputs and command lines", "why_tests_cant": "the moments at which Ctrl-C can arrive, and the interleavings, are unbounded in number", "anchors": ["transcoder/main.py: main", "transcoder/frame_grabber.py: FileFrameGrabber.frames", "player/main.s: checkrecv"]}
{"id": "C88", "title": "Several transcoders at once", "statement": "While other programs change files that are not the transcoder's own, at any moment, even in the middle of the conversion of a picture, the transcoder does what it would do with the disk for itself: every state it can be in is, but for those files, one it can be in alone, and it can go on exactly when it can alone; so its file is always a beginning of the stream and in the end all of it (C84). Two transcoders, the second started at any moment of the first, on inputs with different names before the extension and without --output, have no file in common, and in any interleaving of their threads (with the conversion of one picture as one step) each gets what it would get alone. Two transcoders of the same input, mode and palette share their picture files: if one removes the temporary .bmp of a picture before the other does, the conversion thread of the other dies with FileNotFoundError, although the converter has worked, and that transcoder hangs as in C43.", "quantifier": "all inputs and command lines, all interleavings of the threads of the transcoders and of other programs' changes, all buffer sizes, partial and failing writes; all converters whose effect on the files of a picture depends only on them", "why_tests_cant": "the interleavings of two processes and of arbitrary other programs are unbounded in number", "anchors": ["transcoder/main.py: main", "transcoder/frame_grabber.py: FileFrameGrabber.frames, _hgr_decode, _dhgr_decode, _output_dir"]}
{"id": "C89", "title": "The directory of the converted pictures", "statement": "The directory for the converted pictures is made when the first picture is asked for, after the output file has been opened. Making it fails exactly if a file has its name or the name of a directory it is in. If it does not fail, the program does exactly what C84 says. If it fails, then in every interleaving the program ends with that exception after at most 17 steps, no file but the output file has changed, and the output file has exactly the 7 bytes of the header (a beginning of them if a write fails first). The default output file never makes it fail; but with --output set to the name of the input without its extension the output file is itself in the way, and the program always fails in this manner.", "quantifier": "all inputs with some sound, command lines (size limit not negative), disks, interleavings, buffer sizes and partial or failing writes", "why_tests_cant": "ranges over all names, all disk contents and all schedules", "anchors": ["transcoder/frame_grabber.py: FileFrameGrabber.frames, _output_dir", "transcoder/main.py: main"]}
{"id": "C90", "title": "Pictures are converted at most eleven ahead", "statement": "At every moment of a run, however the threads interleave and whatever the disk does, the conversion is at most eleven pictures ahead of the sound: while the output file has d bytes and its buffer room for s, no file of picture k has been created, changed or removed if the time of picture k - 11 is later than that of sample (d + s) / 7. With a size limit, however long the video is, no file of picture k is ever touched if picture k - 11 is due after the samples that fit into the limit and ten more bytes. Eleven is sharp: if nothing fails, the first eleven pictures can be converted before the first one is used.", "quantifier": "all inputs, command lines, disks, interleavings, buffer sizes, partial and failing writes, moments and pictures (bmp2dhr touching only the files of the picture it converts)", "why_tests_cant": "the bound must hold for every schedule of the two threads at every moment", "anchors": ["transcoder/frame_grabber.py: FileFrameGrabber.frames", "transcoder/movie.py: Movie.encode, emit_stream", "transcoder/main.py: main"]}
{"id": "C91", "title": "The speaker follows the sound", "statement": "Let the sound of the input be 16 bit frames at the rate of the stream, with any number of channels, and the normalisation N at most 2^39 in absolute value; call N * (mean of the channels) / 16384 the level of a frame. On the whole way from the command line to the Apple II (C81), the i-th tick of the player makes a speaker pulse for the i-th frame of the input that differs from 34 + 32 * level cycles by at most three cycles too short and two too long (plus 2^-15 for rounding in single precision) while the level is between -1 and 1; it is the longest pulse (66) above and the shortest (4) below that. Levels below 1/16 in absolute value are all played as silence (a defect: rounding towards zero). The bounds are sharp.", "quantifier": "all 16 bit frames, cuts into buffers, normalisations, single precision roundings, command lines, inputs, interleavings, networks and ticks", "why_tests_cant": "ranges over all samples and normalisations, with the rounding errors of every operation, and over the whole path to the speaker", "anchors": ["transcoder/audio.py: Audio._decode, Audio.audio_stream", "transcoder/movie.py: Movie.encode", "transcoder/opcodes.py: TICK_OPCODES", "player/main.s: ticks"]}
{"id": "C92", "title": "The speed of playing", "statement": "On a machine with f clock cycles per second, over a network that keeps up and with nobody at the keyboard, a movie transcoded with --audio_bitrate=b plays at a constant speed from beginning to end: the pulse for the i-th sample begins (147 b / (2 f)) * (i / b) seconds after playing starts (4 cycles aside), up to 145 clock cycles, however long the movie is, and the movie as a whole takes 147 b / (2 f) times the length of its sound, to 145 cycles; there is no drift. If the input's sound has rate b, its i-th frame is heard at that time as a pulse that follows its level. The movie plays in real time exactly if b is 2/147 of f. With the default b = 14700 it takes at least 5.6 % longer than the original on any Apple II of at most 1.023 MHz (the documentation says less than 2 % faster: a defect).", "quantifier": "all command lines, inputs, sounds, normalisations, interleavings of the processes, networks that keep up, clock frequencies, lengths and ticks", "why_tests_cant": "the absence of drift ranges over movies of any length, and the path leads from the command line to the cycle counts of the 6502", "anchors": ["transcoder/audio.py: Audio (docstring), Audio.audio_stream", "transcoder/movie.py: Movie.emit_stream", "transcoder/main.py: --audio_bitrate", "player/main.s: ticks, op_ack, slow path"]}
{"id": "C93", "title": "Any number of transcoders at once", "statement": "Any number of transcoders on the same disk, each started at any moment (also after others have finished), with no file in common, in any interleaving of the single file operations of all their threads and of other programs on other files - the writing of a bitmap and the run of the external converter take time, in which that picture's files may contain anything - do not disturb each other: every state one of them gets into amounts to a state it can get into alone on the original disk (apart from files of others and, during a conversion, those of this picture), it can go on exactly when it can alone, and wherever it can get alone it can get among the others. So its file is always a beginning of its stream, and all of it when it has closed it without error. Inputs whose names differ before the extension, without --output, have no file in common.", "quantifier": "all families of command lines and computers (any number), all starting times, interleavings of single file operations, contents of files under construction, other programs, and disks", "why_tests_cant": "ranges over all interleavings at the granularity of file operations, for any number of processes", "anchors": ["transcoder/frame_grabber.py: FileFrameGrabber.frames, _hgr_decode, _dhgr_decode, worker", "transcoder/main.py: main", "transcoder/frame_grabber.py: FileFrameGrabber._output_dir"]}
{"id": "C94", "title": "Sound and picture together on the Apple II", "statement": "On the whole way from the command line to an Apple II of f cycles per second (network that keeps up, nobody touches the keyboard), sound and picture are slowed down by the same factor, bitrate * 294 * 73 / (292 f), and do not drift apart however long the movie (up to 2^48 samples): the pulse for the i-th sample begins that factor times as late as the sample comes in the sound, to 145 cycles; and every operation on the screen is computed for that picture of the video, converted as bmp2dhr does it, whose time in the video times that factor has come when the operation has been executed, while that of the next one has not, to 146 cycles and one part in 2^49.", "quantifier": "all command lines, inputs, frame rates, bitrates, clock frequencies, interleavings of the transcoder, server runs, networks that keep up, and ticks", "why_tests_cant": "drift between sound and picture shows only after arbitrarily long movies, and depends on rates, roundings, block boundaries and the cycles of every opcode", "anchors": ["transcoder/movie.py: Movie.encode", "transcoder/video.py: Video.tick", "transcoder/frame_grabber.py: FileFrameGrabber", "player/main.s: ticks, op_ack, checkrecv"]}
{"id": "C95", "title": "A slow network and pauses delay, but do not distort", "statement": "Over any network that goes on delivering, with any pauses that end, the player loses time only between blocks (after 291 operations, then after every 292): 25 cycles for every time it finds less than a block received, each with a click of the speaker, and the length of a pause, without clicks. Apart from that every opcode takes its exact time: the i-th tick begins exactly 73 (i + 2 floor((i+1)/292)) cycles after the first opcode plus what has been lost before, the speaker is toggled exactly at the times given by the opcodes and these stays and never otherwise, and screen and target of each operation are those of C81; so sound and picture lose the same time at the same places, nothing is ever played too early, and the delay is the same for all ticks of a block.", "quantifier": "all streams, command lines, inputs, networks that deliver, keyboards without an endless pause, and ticks", "why_tests_cant": "ranges over all delivery schedules and key presses, and needs exact cycle counts on every path", "anchors": ["player/main.s: checkrecv, recv, op_ack, ticks"]}
{"id": "C96", "title": "In a slide show every picture is complete on the Apple II within 0.56 seconds of its time", "statement": "An HGR movie is transcoded with generated data tables, served, and played on an Apple II with f cycles per second over a network that keeps up, with nobody touching the keyboard. Take a picture of the video whose number is a multiple of the stride, and any tick that ends at least 564700 cycles (0.56 s at 1.02 MHz) after the time of this picture and before the time of the next such picture (both slowed down as the sound is, up to 146 cycles and one part in 2^49). At the end of that tick every one of the 192 x 560 dots of the screen is that of this picture as bmp2dhr converted it (or as read from results already there), except for the leftmost dots described in C62, whatever was shown before.", "quantifier": "all videos, sounds, command lines with HGR, frame rates and bitrates, both palettes, all colour differences that vanish only on equal colours, random choices, schedules of the programs, networks that keep up, machines, pictures and ticks", "why_tests_cant": "relates wall-clock time on the Apple II to completeness of a picture for every earlier history of encoder and player", "anchors": ["transcoder/movie.py:Movie.encode", "transcoder/video.py:Video.encode_frame", "transcoder/main.py", "server/server.py", "player/main.s"]}
{"id": "C97", "title": "The player waits exactly as long as the network makes it, and the 8K buffer bridges gaps of 63 ms", "statement": "While a movie is played over any network that delivers, with any pauses that end, the player loses time to the network only if a block it is about to play has not arrived, and never plays on before it has: after the m-th ACK (m from 0; at 73*(294*m+291)+87 cycles from the first opcode, and what has been lost before) it looks, every 25 cycles, whether block m+1 is there; at each look in vain less than m+2 blocks have arrived, and at the last look they have. So if m+2 blocks have arrived by its k-th look it looks in vain at most k times, and if they have not, more than k times. In particular, if the 8K receive buffer is full at some time before such a look, no time is lost to the network at this look and the next two, whatever the network does: it may be silent until the fourth, at least 64386 cycles (63 ms) later, without being heard.", "quantifier": "all streams the player can play, in particular those of all movies, all networks that deliver, pauses that end, ACKs and moments at which the buffer is full", "why_tests_cant": "must hold for every timing of the network relative to the player, at every block", "anchors": ["player/main.s:checkrecv", "player/main.s:op_ack", "transcoder/movie.py:Movie.emit_stream"]}
{"id": "C98", "title": "Delays of the network do not accumulate: the movie is late by its latest block only", "statement": "Say that block m+1 of a movie is due 73*(294*m+291)+87 cycles after the first opcode, when the player would look for it if it never waited. Over any network that delivers, with any pauses that end: if every block so far has arrived at most d cycles after it was due, then at most d+24 cycles have been lost to the network so far, however many blocks were late; if some block had not arrived d cycles after it was due, more than d cycles have been lost; and every block has arrived within what has been lost. So sound and picture are behind by the greatest lateness of a block so far, up to the 25 cycles between two looks, and with no key pressed the whole movie ends that much later than C53 says.", "quantifier": "all movies, random choices, networks that deliver, pauses that end, numbers of blocks played and delays", "why_tests_cant": "a bound on an accumulated quantity, for every history of network delays and any length of movie", "anchors": ["player/main.s:checkrecv", "player/main.s:op_ack", "transcoder/movie.py:Movie.emit_stream"]}
{"id": "C99", "title": "A network with 97.4 kB/s is enough for a movie of any length, and with less the delay grows", "statement": "While a movie is played over any network that delivers, with any pauses that end: if the network delivers, on average since the first opcode, at least 2048 bytes in 21462 cycles (97.4 kB/s at 1.0205 MHz) whenever less than three blocks are waiting in the buffer, then less than 21619 cycles (21 ms) are lost to the network in the whole movie, however long it is. If instead it delivers at most b + r*t bytes in t cycles, then when m+1 ACKs have been executed, so many cycles have been lost that b + r*(73*(294*m+291)+87+lost) is at least 2048*(m+2): for any rate r below 2048/21462 the delay grows without bound with the length of the movie.", "quantifier": "all movies, random choices, networks that deliver, rates, pauses that end, lengths", "why_tests_cant": "a bound independent of the length of the movie, for all timings of the network", "anchors": ["player/main.s:checkrecv", "player/main.s:op_ack", "transcoder/movie.py:Movie.emit_stream"]}
{"id": "C100", "title": "Every viewer sees the same movie", "statement": "Two Apple IIs play the same movie, with different contents of memory before, over different networks that deliver, with different pauses that end. Both execute the same opcodes in the same order to the end, so both hear the same pulses in the same order, and after each opcode both screens have the same bytes: in both banks for DHGR, in the main bank for HGR. Network and pauses change only when things happen.", "quantifier": "all movies, random choices, pairs of machines, of networks and of key presses, and numbers of opcodes executed", "why_tests_cant": "relates two executions with arbitrary and different schedules at every point", "anchors": ["player/main.s", "transcoder/movie.py:Movie.emit_stream", "transcoder/opcodes.py"]}
