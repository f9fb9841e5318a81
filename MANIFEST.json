{
 "claims": [
  {
   "property": "C01",
   "status": "proved",
   "theorems": [
    "IIVision.C01_addresses",
    "IIVision.C01_tables"
   ],
   "note": ""
  },
  {
   "property": "C02",
   "status": "proved",
   "theorems": [
    "IIVision.C02_screen_holes",
    "IIVision.C02_hole_count"
   ],
   "note": ""
  },
  {
   "property": "C03",
   "status": "proved",
   "theorems": [
    "IIVision.C03_flat_paged_flat",
    "IIVision.C03_paged_flat_paged",
    "IIVision.C03_write_commutes",
    "IIVision.C03_rejects",
    "IIVision.C03_paged_write"
   ],
   "note": ""
  },
  {
   "property": "C04",
   "status": "proved",
   "theorems": [
    "IIVision.C04_hgr_packed_is_fresh"
   ],
   "note": ""
  },
  {
   "property": "C05",
   "status": "proved",
   "theorems": [
    "IIVision.C05_dhgr_packed_is_fresh"
   ],
   "note": ""
  },
  {
   "property": "C06",
   "status": "proved",
   "theorems": [
    "IIVision.C06_hgr_lossless",
    "IIVision.C06_dhgr_lossless"
   ],
   "note": ""
  },
  {
   "property": "C07",
   "status": "proved",
   "theorems": [
    "IIVision.C07_masked_window"
   ],
   "note": ""
  },
  {
   "property": "C08",
   "status": "proved",
   "theorems": [
    "IIVision.C08_dots",
    "IIVision.C08_window_colours",
    "IIVision.C08_store_local",
    "IIVision.C08_store_colours"
   ],
   "note": "Stated for both modes; the dot rule is Spec/Dots.lean."
  },
  {
   "property": "C09",
   "status": "proved",
   "theorems": [
    "IIVision.C09_sliding_window",
    "IIVision.C09_depends_only",
    "IIVision.C09_shift",
    "IIVision.C09_rotations"
   ],
   "note": ""
  },
  {
   "property": "C10",
   "status": "proved",
   "theorems": [
    "IIVision.C10_colour_tables"
   ],
   "note": ""
  },
  {
   "property": "C11",
   "status": "proved",
   "theorems": [
    "IIVision.C11_hgr_priced_right",
    "IIVision.C11_dhgr_actual",
    "IIVision.C11_dhgr_refuted"
   ],
   "note": "Defect: the DHGR half of the naive claim is refuted; the exact mispricing is proved."
  },
  {
   "property": "C12",
   "status": "proved",
   "theorems": [
    "IIVision.C12_table_symmetric",
    "IIVision.C12_symmetric_spec"
   ],
   "note": ""
  },
  {
   "property": "C13",
   "status": "proved",
   "theorems": [
    "IIVision.C13_diff_weights",
    "IIVision.C13_zero_weights",
    "IIVision.C13_zero_iff_looks_same"
   ],
   "note": "C13_zero_iff_looks_same is about the tables the generator really produces."
  },
  {
   "property": "C14",
   "status": "proved",
   "theorems": [
    "IIVision.C14_delta_is_own_error"
   ],
   "note": ""
  },
  {
   "property": "C15",
   "status": "proved",
   "theorems": [
    "IIVision.C15_encoder_total"
   ],
   "note": "Any history of calls, any distance table, any random choices."
  },
  {
   "property": "C16",
   "status": "proved",
   "theorems": [
    "IIVision.C16_operation_shape"
   ],
   "note": ""
  },
  {
   "property": "C17",
   "status": "proved",
   "theorems": [
    "IIVision.C17_player_agrees",
    "IIVision.C17_iigs_dhgr_exact"
   ],
   "note": "Exact agreement in DHGR holds for the IIGS tables; the NTSC tables do not meet the diagonal-only hypothesis (C57)."
  },
  {
   "property": "C18",
   "status": "proved",
   "theorems": [
    "IIVision.C18_padding_effect",
    "IIVision.C18_refuted",
    "IIVision.C18_refuted_shipped"
   ],
   "note": "Defect: the naive claim is refuted."
  },
  {
   "property": "C19",
   "status": "proved",
   "theorems": [
    "IIVision.C19_greedy"
   ],
   "note": ""
  },
  {
   "property": "C20",
   "status": "proved",
   "theorems": [
    "IIVision.C20_converges"
   ],
   "note": ""
  },
  {
   "property": "C21",
   "status": "proved",
   "theorems": [
    "IIVision.C21_secondary_stores",
    "IIVision.C21_refuted"
   ],
   "note": "The stronger claim is refuted for a loaded table."
  },
  {
   "property": "C22",
   "status": "proved",
   "theorems": [
    "IIVision.C22_no_overflow"
   ],
   "note": ""
  },
  {
   "property": "C23",
   "status": "proved",
   "theorems": [
    "IIVision.C23_ack_blocks",
    "IIVision.C23_no_assertion"
   ],
   "note": "Any source of header/tick operations."
  },
  {
   "property": "C24",
   "status": "proved",
   "theorems": [
    "IIVision.C24_terminated"
   ],
   "note": ""
  },
  {
   "property": "C25",
   "status": "proved",
   "theorems": [
    "IIVision.C25_limit",
    "IIVision.C25_unlimited"
   ],
   "note": ""
  },
  {
   "property": "C26",
   "status": "proved",
   "theorems": [
    "IIVision.C26_ack_banks",
    "IIVision.C26_tick_bank"
   ],
   "note": ""
  },
  {
   "property": "C27",
   "status": "proved",
   "theorems": [
    "IIVision.C27_stream_is_history",
    "IIVision.C27_exact_history"
   ],
   "note": ""
  },
  {
   "property": "C28",
   "status": "proved",
   "theorems": [
    "IIVision.C28_audio"
   ],
   "note": ""
  },
  {
   "property": "C29",
   "status": "proved",
   "theorems": [
    "IIVision.C29_no_drift",
    "IIVision.C29_float_thresholds"
   ],
   "note": ""
  },
  {
   "property": "C30",
   "status": "proved",
   "theorems": [
    "IIVision.C27_stream_is_history",
    "IIVision.C30_stride"
   ],
   "note": "C27 relates targets to shown; C30 characterises shown."
  },
  {
   "property": "C31",
   "status": "proved",
   "theorems": [
    "IIVision.C31_range",
    "IIVision.C31_monotone",
    "IIVision.C31_exact"
   ],
   "note": "Floating point: exact operations followed by an arbitrary rounding."
  },
  {
   "property": "C32",
   "status": "proved",
   "theorems": [
    "IIVision.C32_silence_distorts",
    "IIVision.C32_zero_is_silent"
   ],
   "note": "Defect: the naive claim is refuted for every silent input."
  },
  {
   "property": "C52",
   "status": "proved",
   "theorems": [
    "IIVision.C52_clipping"
   ],
   "note": "Exact arithmetic."
  },
  {
   "property": "C33",
   "status": "proved",
   "theorems": [
    "IIVision.C33_addresses",
    "IIVision.C33_distinct"
   ],
   "note": "sym lines of player/iivision.dbg are embedded as data (scripts/gen_symbols.py)."
  },
  {
   "property": "C34",
   "status": "proved",
   "theorems": [
    "IIVision.C34_decodes",
    "IIVision.C34_unique",
    "IIVision.C34_movie"
   ],
   "note": ""
  },
  {
   "property": "C35",
   "status": "proved",
   "theorems": [
    "IIVision.C35_parse",
    "IIVision.C35_addresses",
    "IIVision.C35_bad_value",
    "IIVision.C35_bad_line"
   ],
   "note": "int(s,16) is modelled for unsigned ASCII numbers without underscores."
  },
  {
   "property": "C50",
   "status": "proved",
   "theorems": [
    "IIVision.C50_equality",
    "IIVision.C50_bytes",
    "IIVision.C50_ticks"
   ],
   "note": ""
  },
  {
   "property": "C36",
   "status": "proved",
   "theorems": [
    "IIVision.Player.C36_tick",
    "IIVision.Player.C36_widths"
   ],
   "note": "About the assembled player/main.s (Model/Player.lean, Model/Cpu.lean), byte-identical to the shipped object's symbols. Finding: op_tick_40 is 39 cycles, the comment says 41."
  },
  {
   "property": "C37",
   "status": "proved",
   "theorems": [
    "IIVision.Player.C37_slow_path"
   ],
   "note": ""
  },
  {
   "property": "C38",
   "status": "proved",
   "theorems": [
    "IIVision.Player.C38_own_code",
    "IIVision.Player.C38_playing"
   ],
   "note": ""
  },
  {
   "property": "C39",
   "status": "proved",
   "theorems": [
    "IIVision.Player.C39_reads_file"
   ],
   "note": "W5100 auto-increment wrap-around in the RX buffer is part of the hardware model."
  },
  {
   "property": "C40",
   "status": "proved",
   "theorems": [
    "IIVision.Player.C40_never_stuck",
    "IIVision.Player.C40_progress",
    "IIVision.Player.C40_transcoder"
   ],
   "note": ""
  },
  {
   "property": "C41",
   "status": "proved",
   "theorems": [
    "IIVision.Player.C41_end_to_end",
    "IIVision.Player.C41_from_start",
    "IIVision.Player.C41_screen"
   ],
   "note": "C41_from_start starts at the first instruction of the player."
  },
  {
   "property": "C53",
   "status": "proved",
   "theorems": [
    "IIVision.Player.C53_timing",
    "IIVision.Player.C53_duration",
    "IIVision.Player.C53_movie",
    "IIVision.Player.C53_rate"
   ],
   "note": ""
  },
  {
   "property": "C42",
   "status": "proved",
   "theorems": [
    "IIVision.C42_frames",
    "IIVision.C42_complete"
   ],
   "note": "Interleaving semantics: each thread runs atomically between queue operations."
  },
  {
   "property": "C43",
   "status": "proved",
   "theorems": [
    "IIVision.C43_failure_is_lost",
    "IIVision.C43_dead_worker"
   ],
   "note": "Defect: the naive claim (the consumer is told) is refuted for every failing picture."
  },
  {
   "property": "C44",
   "status": "proved",
   "theorems": [
    "IIVision.C44_complete_files",
    "IIVision.C44_truncated"
   ],
   "note": ""
  },
  {
   "property": "C45",
   "status": "proved",
   "theorems": [
    "IIVision.C45_names",
    "IIVision.C45_apart",
    "IIVision.C45_numbers",
    "IIVision.C45_no_extension"
   ],
   "note": ""
  },
  {
   "property": "C54",
   "status": "proved",
   "theorems": [
    "IIVision.C54_cache"
   ],
   "note": ""
  },
  {
   "property": "C46",
   "status": "proved",
   "theorems": [
    "IIVision.Sim.C46_status"
   ],
   "note": "Defect: 0x80 & True is 0."
  },
  {
   "property": "C47",
   "status": "proved",
   "theorems": [
    "IIVision.Sim.C47_dispatch",
    "IIVision.Sim.C47_only_addressed",
    "IIVision.Sim.C47_register"
   ],
   "note": ""
  },
  {
   "property": "C48",
   "status": "proved",
   "theorems": [
    "IIVision.Sim.C48_pointer",
    "IIVision.Sim.C48_reads",
    "IIVision.Sim.C48_writes",
    "IIVision.Sim.C48_defects"
   ],
   "note": "Defects: byte order, wrap-around."
  },
  {
   "property": "C49",
   "status": "proved",
   "theorems": [
    "IIVision.Sim.C49_read_only",
    "IIVision.Sim.C49_plain",
    "IIVision.Sim.C49_regions",
    "IIVision.Sim.C49_computer",
    "IIVision.Sim.C49_entries",
    "IIVision.Sim.C49_trap",
    "IIVision.Sim.C49_entry_points",
    "IIVision.Sim.C49_handlers",
    "IIVision.Sim.C49_handled",
    "IIVision.Sim.C49_rom_routines"
   ],
   "note": ""
  },
  {
   "property": "C51",
   "status": "proved",
   "theorems": [
    "IIVision.C51_verbatim",
    "IIVision.C51_unchanged",
    "IIVision.C51_progress",
    "IIVision.C51_one_at_a_time"
   ],
   "note": "Defect: one client at a time, without time-out."
  },
  {
   "property": "C55",
   "status": "proved",
   "theorems": [
    "IIVision.Sim.C55_commands",
    "IIVision.Sim.C55_mode",
    "IIVision.Sim.C55_socket_mode",
    "IIVision.Sim.C55_nothing_arrives"
   ],
   "note": "Defects: RECV is not implemented, and no data ever arrives."
  },
  {
   "property": "C56",
   "status": "proved",
   "theorems": [
    "IIVision.Sim.C56_loaded"
   ],
   "note": "Defect: ROM images one byte short."
  },
  {
   "property": "C57",
   "status": "proved",
   "theorems": [
    "IIVision.C57_cheapest_rewriting",
    "IIVision.C57_zero_iff_looks_same",
    "IIVision.C57_iigs_dhgr_separates",
    "IIVision.C57_ntsc_dhgr_confuses",
    "IIVision.C57_hgr_confuses"
   ],
   "note": "dam_lev is third party and modelled from its documented recurrence; the CIE2000 difference is an arbitrary function with stated bounds. Defect: NTSC greys."
  },
  {
   "property": "C58",
   "status": "proved",
   "theorems": [
    "IIVision.Player.C58_outcomes",
    "IIVision.Player.C58_connects",
    "IIVision.Player.C58_refused",
    "IIVision.Player.C58_missed"
   ],
   "note": "Defect: a server that sends a short file and closes early is waited for forever."
  },
  {
   "property": "C59",
   "status": "proved",
   "theorems": [
    "IIVision.Player.C59_vector",
    "IIVision.Player.C59_key",
    "IIVision.Player.C59_waits",
    "IIVision.Player.C59_exit"
   ],
   "note": "The vector is set by the start-up code: C58_outcomes, C58_connects."
  },
  {
   "property": "C60",
   "status": "proved",
   "theorems": [
    "IIVision.C60_schedule",
    "IIVision.C60_completes",
    "IIVision.C60_size"
   ],
   "note": "The output file is taken to be none of the frame grabber's files; the audio stream does not fail after it has been opened. Defect: waits forever on a failed conversion."
  },
  {
   "property": "C61",
   "status": "proved",
   "theorems": [
    "IIVision.Player.C61_chain"
   ],
   "note": "Composition of C60, C51, C58, C41 and C31."
  },
  {
   "property": "C62",
   "status": "proved",
   "theorems": [
    "IIVision.C62_hgr_finished",
    "IIVision.C62_hgr_left_edge",
    "IIVision.C62_dhgr_finished",
    "IIVision.C62_iigs_finished",
    "IIVision.C62_ntsc_seam"
   ],
   "note": "Defects: left edge in HGR, seams between greys with the NTSC palette."
  },
  {
   "property": "C63",
   "status": "proved",
   "theorems": [
    "IIVision.C63_no_starvation",
    "IIVision.C63_turns",
    "IIVision.C63_round"
   ],
   "note": "Potential argument: the sum of pending priorities drops by at least the largest one at every operation."
  },
  {
   "property": "C64",
   "status": "proved",
   "theorems": [
    "IIVision.C64_hgr_shown",
    "IIVision.Player.C64_machine"
   ],
   "note": "HGR only: in DHGR the encoder is restarted at every change of bank."
  },
  {
   "property": "C65",
   "status": "proved",
   "theorems": [
    "IIVision.C65_best_use"
   ],
   "note": "Defect: the fourth store always repeats the first."
  },
  {
   "property": "C66",
   "status": "proved",
   "theorems": [
    "IIVision.Player.C66_latched",
    "IIVision.Player.C66_pause"
   ],
   "note": "The latch is the machine's: set by the environment at any instruction, cleared by any access to $C010."
  },
  {
   "property": "C67",
   "status": "proved",
   "theorems": [
    "IIVision.C67_dhgr_small",
    "IIVision.C67_hgr_small",
    "IIVision.Player.C67_machine",
    "IIVision.Player.C67_machine_hgr"
   ],
   "note": "Bytes of the screen holes count as wrong bytes like any others; nothing is claimed about larger changes in DHGR."
  },
  {
   "property": "C68",
   "status": "proved",
   "theorems": [
    "IIVision.C68_causal"
   ],
   "note": ""
  },
  {
   "property": "C69",
   "status": "proved",
   "theorems": [
    "IIVision.C69_encoder",
    "IIVision.C69_cache",
    "IIVision.C69_movie"
   ],
   "note": "heapq's and lru_cache's algorithms are those of CPython's Lib/heapq.py and Lib/functools.py."
  },
  {
   "property": "C70",
   "status": "proved",
   "theorems": [
    "IIVision.C70_frames",
    "IIVision.C70_files",
    "IIVision.C70_complete"
   ],
   "note": "The converter is any function of the bitmap file that writes the result files; decoding and resizing of the video are not modelled."
  },
  {
   "property": "C71",
   "status": "proved",
   "theorems": [
    "IIVision.Pcm.C71_mono",
    "IIVision.Pcm.C71_same_rate",
    "IIVision.Pcm.C71_count",
    "IIVision.Pcm.C71_misaligned",
    "IIVision.Pcm.C71_surround",
    "IIVision.Pcm.C71_analysed",
    "IIVision.Pcm.C71_normalization",
    "IIVision.Pcm.C71_is_audioStream"
   ],
   "note": "The file format (audioread) and the arithmetic of the resampler (librosa) are not modelled; the resampler is any function giving ceil(n * target / orig) samples."
  },
  {
   "property": "C72",
   "status": "proved",
   "theorems": [
    "IIVision.C72_sound_fails",
    "IIVision.C72_never_silent",
    "IIVision.C72_where"
   ],
   "note": "As C60; the exception is arbitrary, C72_where derives it from the buffers of C71."
  },
  {
   "property": "C73",
   "status": "proved",
   "theorems": [
    "IIVision.C73_rate",
    "IIVision.C73_pace",
    "IIVision.C73_sync"
   ],
   "note": "Double precision is any rounding with a relative error of at most 2^-53 and no over- or underflow; of the texts Python's float accepts only decimal digits are modelled."
  },
  {
   "property": "C74",
   "status": "proved",
   "theorems": [
    "IIVision.C74_negative_limit",
    "IIVision.C74_stride_zero"
   ],
   "note": "As C60."
  },
  {
   "property": "C75",
   "status": "proved",
   "theorems": [
    "IIVision.C75_simple_loop"
   ],
   "note": "As C60. The loop (Spec/Plain) uses the model of the encoder (Coder.next), whose own behaviour is the subject of C12-C29 and others."
  },
  {
   "property": "C76",
   "status": "proved",
   "theorems": [
    "IIVision.C76_encoder",
    "IIVision.C76_palette_bits"
   ],
   "note": "As C15 and C60. The reference for the program is the simple loop of C75 applied to the pictures without palette bits."
  },
  {
   "property": "C77",
   "status": "proved",
   "theorems": [
    "IIVision.C77_command_line",
    "IIVision.C77_help",
    "IIVision.C77_helped"
   ],
   "note": "argparse as in CPython 3.11 (the model was compared with it on random command lines); float and int are arbitrary functions; ASCII digits in the test for negative numbers."
  },
  {
   "property": "C78",
   "status": "proved",
   "theorems": [
    "IIVision.C78_names",
    "IIVision.C78_same",
    "IIVision.C78_disk"
   ],
   "note": "Paths are compared as texts; a byte written is on the disk at once (C84 is about the buffer); opening the output file is taken to succeed. C78_same carries C60 to C76 over to the disk. Blind (the converter neither reads nor writes the output file) is assumed of bmp2dhr."
  },
  {
   "property": "C79",
   "status": "proved",
   "theorems": [
    "IIVision.C79_loaded",
    "IIVision.C79_missing",
    "IIVision.C79_made"
   ],
   "note": "np.savez_compressed followed by np.load is lossless; the files do not change during the run (lru_cache makes the first load decide)."
  },
  {
   "property": "C80",
   "status": "proved",
   "theorems": [
    "IIVision.C80_limit",
    "IIVision.C80_program",
    "IIVision.C80_starts",
    "IIVision.C80_good",
    "IIVision.C80_sound_fails",
    "IIVision.C80_never_silent",
    "IIVision.C80_unreadable",
    "IIVision.C80_unknown"
   ],
   "note": "The loop Setup.plain uses the model of the encoder. The converter is assumed not to touch the output file (C78). Overflow of the limit is not modelled."
  },
  {
   "property": "C81",
   "status": "proved",
   "theorems": [
    "IIVision.C81_journey"
   ],
   "note": "The sum of the assumptions of C80, C51, C41 and C73: cooperating network and keyboard, at most 2^48 samples, bmp2dhr writes its two files."
  },
  {
   "property": "C82",
   "status": "proved",
   "theorems": [
    "IIVision.C82_pictures",
    "IIVision.C82_rerun",
    "IIVision.C82_torn",
    "IIVision.C82_mixed"
   ],
   "note": "The converter does its job (Converts) and its result files appear at once; what happens otherwise is C82_torn and C44."
  },
  {
   "property": "C83",
   "status": "proved",
   "theorems": [
    "IIVision.C83_hgr",
    "IIVision.C83_hgr_small",
    "IIVision.C83_dhgr"
   ],
   "note": "The hypotheses are those of C81 plus: the data files are those of the generator, with any symmetric colour difference in range that is zero exactly for equal colours; sound of at most 2^48 samples. For double hi-res only small changes (the encoder starts anew with every block, so there is no bound for large ones)."
  },
  {
   "property": "C84",
   "status": "proved",
   "theorems": [
    "IIVision.C84_buffered",
    "IIVision.C84_blocks",
    "IIVision.C84_good",
    "IIVision.C84_hang"
   ],
   "note": "io.BufferedWriter is library code, modelled after CPython's bufferedio.c. The buffer size is arbitrary. A write that takes nothing without failing is not modelled."
  },
  {
   "property": "C85",
   "status": "proved",
   "theorems": [
    "IIVision.Player.C85_cut",
    "IIVision.Player.C85_padding",
    "IIVision.C85_killed"
   ],
   "note": "C85_killed joins C84 (the file a killed or failing transcoder leaves) and C85_cut."
  },
  {
   "property": "C86",
   "status": "proved",
   "theorems": [
    "IIVision.C86_growing",
    "IIVision.C86_replaced",
    "IIVision.C86_mixture",
    "IIVision.C86_broadcast"
   ],
   "note": "C51's model reads the file at one moment; here reading takes any number of steps."
  },
  {
   "property": "C87",
   "status": "proved",
   "theorems": [
    "IIVision.C87_interrupt",
    "IIVision.C87_saved",
    "IIVision.C87_played"
   ],
   "note": ""
  },
  {
   "property": "C88",
   "status": "proved",
   "theorems": [
    "IIVision.C88_beside",
    "IIVision.C88_result",
    "IIVision.C88_two",
    "IIVision.C88_disjoint",
    "IIVision.C88_shared"
   ],
   "note": "C88_shared is the defect named in the statement"
  },
  {
   "property": "C89",
   "status": "proved",
   "theorems": [
    "IIVision.C89_makedirs",
    "IIVision.C89_made",
    "IIVision.C89_unmade",
    "IIVision.C89_in_the_way",
    "IIVision.C89_default"
   ],
   "note": "C89_in_the_way is the defect named in the statement"
  },
  {
   "property": "C90",
   "status": "proved",
   "theorems": [
    "IIVision.C90_untouched",
    "IIVision.C90_times",
    "IIVision.C90_limit",
    "IIVision.C90_sharp"
   ],
   "note": "bmp2dhr touches only the files of its picture; the output file is none of these"
  },
  {
   "property": "C91",
   "status": "proved",
   "theorems": [
    "IIVision.C91_sample",
    "IIVision.C91_heard",
    "IIVision.C91_sharp"
   ],
   "note": "The sound of the input has the rate of the stream (else the resampler, which is not modelled, decides). The normalisation is taken as it is after numpy has rounded it to single precision."
  },
  {
   "property": "C92",
   "status": "proved",
   "theorems": [
    "IIVision.C92_tempo",
    "IIVision.C92_frames",
    "IIVision.C92_default",
    "IIVision.C92_real_time"
   ],
   "note": "For a network that keeps up and nobody at the keyboard, as in C53; C92_frames for sound that needs no resampling, as in C91."
  },
  {
   "property": "C93",
   "status": "proved",
   "theorems": [
    "IIVision.C93_alone",
    "IIVision.C93_result",
    "IIVision.C93_names"
   ],
   "note": "Each operation on a file is a step of its own, and bmp2dhr may leave its picture's files in any state while it runs; this also justifies the atomic conversions of the other claims. Reading a file, and a write of the operating system to the output file, take no time."
  },
  {
   "property": "C94",
   "status": "proved",
   "theorems": [
    "IIVision.C94_together"
   ],
   "note": "For a network that keeps up (C53) and an untouched keyboard; with pauses or a slow network both sound and picture wait (C66, C81). The operation is computed for the picture due; how much of that picture is on the screen then is the subject of C64 and C67."
  },
  {
   "property": "C95",
   "status": "proved",
   "theorems": [
    "IIVision.C95_stream",
    "IIVision.C95_waits",
    "IIVision.C95_blocks"
   ],
   "note": "The length of a pause is not computed (it depends on the keys), only that it is silent and delays everything after it. That the speaker is toggled while the player waits for the network is a property of the loop at main.s:399-412 (a tone of 20 kHz on a 1 MHz machine)."
  },
  {
   "property": "C96",
   "status": "proved",
   "theorems": [
    "IIVision.C96_settled"
   ],
   "note": "C83_hgr with the cycles of the machine: C83 counts ticks. HGR only, as C64: in DHGR the work list is rebuilt at each change of bank, so only small changes are shown to finish (C67). The state is observed at the end of each tick, 73 cycles after its start; between the stores of one tick is not looked at."
  },
  {
   "property": "C97",
   "status": "proved",
   "theorems": [
    "IIVision.C97_stream",
    "IIVision.C97_movie",
    "IIVision.C97_reserve"
   ],
   "note": "How much the network has to deliver for the buffer to be full is C53's and C58's subject; here any way of having it full counts. Pauses are not waiting: they may delay a look, but add no looks in vain."
  },
  {
   "property": "C98",
   "status": "proved",
   "theorems": [
    "IIVision.C98_lateness"
   ],
   "note": "Lateness is measured by when the bytes are in the chip of the card; a network that stops sending because the buffer is full is not late by this measure, as the buffer holds more than the next block."
  },
  {
   "property": "C99",
   "status": "proved",
   "theorems": [
    "IIVision.C99_throughput",
    "IIVision.C99_slow"
   ],
   "note": "Rates are of bytes in the chip of the card against cycles of the 6502 since the first opcode of the movie; that some network supplies the rate is shown by example only."
  },
  {
   "property": "C100",
   "status": "proved",
   "theorems": [
    "IIVision.C100_same"
   ],
   "note": "In HGR the auxiliary bank is neither shown nor cleared, so nothing is said of it."
  }
 ]
}