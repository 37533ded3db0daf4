{
 "claims": [
  {
   "property": "C01",
   "status": "proved",
   "theorems": [
    "Verif.ChaCha.C01_ietf",
    "Verif.ChaCha.C01_legacy"
   ],
   "note": ""
  },
  {
   "property": "C02",
   "status": "proved",
   "theorems": [
    "Verif.ChaCha.C02_backends"
   ],
   "note": ""
  },
  {
   "property": "C03",
   "status": "proved",
   "theorems": [
    "Verif.ChaCha.C03_selection"
   ],
   "note": ""
  },
  {
   "property": "C04",
   "status": "proved",
   "theorems": [
    "Verif.C04_seekable",
    "Verif.C04_plain"
   ],
   "note": "For every history of calls in which a seek targets a byte inside the usable stream or beyond the last block; targets inside the one block after it are excluded (finding F5)."
  },
  {
   "property": "C05",
   "status": "proved",
   "theorems": [
    "Verif.C05_seekable",
    "Verif.C05_plain"
   ],
   "note": "For every history of calls in which a seek targets a byte inside the usable stream or beyond the last block; targets inside the one block after it are excluded (finding F5)."
  },
  {
   "property": "C06",
   "status": "proved",
   "theorems": [
    "Verif.C06_seekable",
    "Verif.C06_seekable_xor",
    "Verif.C06_plain",
    "Verif.C06_plain_xor"
   ],
   "note": "For every history of calls in which a seek targets a byte inside the usable stream or beyond the last block; targets inside the one block after it are excluded (finding F5)."
  },
  {
   "property": "C07",
   "status": "proved",
   "theorems": [
    "Verif.C07_seek"
   ],
   "note": "For every history of calls in which a seek targets a byte inside the usable stream or beyond the last block; targets inside the one block after it are excluded (finding F5)."
  },
  {
   "property": "C08",
   "status": "proved",
   "theorems": [
    "Verif.C08_current_pos"
   ],
   "note": "For every history of calls in which a seek targets a byte inside the usable stream or beyond the last block; targets inside the one block after it are excluded (finding F5)."
  },
  {
   "property": "C09",
   "status": "proved",
   "theorems": [
    "Verif.C09_exhaustion"
   ],
   "note": "For every history of calls in which a seek targets a byte inside the usable stream or beyond the last block; targets inside the one block after it are excluded (finding F5)."
  },
  {
   "property": "C10",
   "status": "proved",
   "theorems": [
    "Verif.C10_counter",
    "Verif.C10_bytes",
    "Verif.C10_distinct"
   ],
   "note": "For every history of calls in which a seek targets a byte inside the usable stream or beyond the last block; targets inside the one block after it are excluded (finding F5)."
  },
  {
   "property": "C100",
   "status": "proved",
   "theorems": [
    "Verif.C100_longer",
    "Verif.C100_exact",
    "Verif.C100_blocks",
    "Verif.C100_keystream",
    "Verif.C100_rabbit",
    "Verif.C100_hc256"
   ],
   "note": ""
  },
  {
   "property": "C101",
   "status": "proved",
   "theorems": [
    "Verif.C101_requests",
    "Verif.C101_keystream",
    "Verif.C101_rabbit",
    "Verif.C101_hc256",
    "Verif.C101_hc256_key",
    "Verif.C101_hc256_keys"
   ],
   "note": ""
  },
  {
   "property": "C11",
   "status": "proved",
   "theorems": [
    "Verif.C11_remaining",
    "Verif.C11_width"
   ],
   "note": "For every history of calls in which a seek targets a byte inside the usable stream or beyond the last block; targets inside the one block after it are excluded (finding F5)."
  },
  {
   "property": "C12",
   "status": "proved",
   "theorems": [
    "Verif.C12_frame",
    "Verif.C12_input"
   ],
   "note": ""
  },
  {
   "property": "C13",
   "status": "proved",
   "theorems": [
    "Verif.C13_legacy"
   ],
   "note": ""
  },
  {
   "property": "C14",
   "status": "proved",
   "theorems": [
    "Verif.C14_blocks",
    "Verif.C14_cores",
    "Verif.C14_history"
   ],
   "note": ""
  },
  {
   "property": "C15",
   "status": "proved",
   "theorems": [
    "Verif.C15_hchacha"
   ],
   "note": ""
  },
  {
   "property": "C16",
   "status": "proved",
   "theorems": [
    "Verif.C16_xchacha"
   ],
   "note": ""
  },
  {
   "property": "C17",
   "status": "proved",
   "theorems": [
    "Verif.C17_constructors",
    "Verif.C17_from_seed"
   ],
   "note": ""
  },
  {
   "property": "C18",
   "status": "proved",
   "theorems": [
    "Verif.C18_cursor"
   ],
   "note": "rand_core::block::BlockRng (external crate) is modelled from its published source; it belongs to the trusted base. With overflow checks on, statements about whole histories leave out calls of get_block_pos, whose panics C20 describes."
  },
  {
   "property": "C19",
   "status": "proved",
   "theorems": [
    "Verif.C19_set_get",
    "Verif.C19_advance"
   ],
   "note": "rand_core::block::BlockRng (external crate) is modelled from its published source; it belongs to the trusted base."
  },
  {
   "property": "C20",
   "status": "proved",
   "theorems": [
    "Verif.C20_block_pos",
    "Verif.C20_panic"
   ],
   "note": "rand_core::block::BlockRng (external crate) is modelled from its published source; it belongs to the trusted base."
  },
  {
   "property": "C21",
   "status": "proved",
   "theorems": [
    "Verif.C21_round_trip"
   ],
   "note": "rand_core::block::BlockRng (external crate) is modelled from its published source; it belongs to the trusted base. With overflow checks on, statements about whole histories leave out calls of get_block_pos, whose panics C20 describes."
  },
  {
   "property": "C22",
   "status": "proved",
   "theorems": [
    "Verif.C22_format",
    "Verif.C22_any_string"
   ],
   "note": "rand_core::block::BlockRng (external crate) is modelled from its published source; it belongs to the trusted base."
  },
  {
   "property": "C23",
   "status": "proved",
   "theorems": [
    "Verif.C23_equivalence",
    "Verif.C23_equality"
   ],
   "note": "rand_core::block::BlockRng (external crate) is modelled from its published source; it belongs to the trusted base. With overflow checks on, statements about whole histories leave out calls of get_block_pos, whose panics C20 describes."
  },
  {
   "property": "C24",
   "status": "proved",
   "theorems": [
    "Verif.C24_set_stream",
    "Verif.C24_seed"
   ],
   "note": "rand_core::block::BlockRng (external crate) is modelled from its published source; it belongs to the trusted base. With overflow checks on, statements about whole histories leave out calls of get_block_pos, whose panics C20 describes."
  },
  {
   "property": "C25",
   "status": "proved",
   "theorems": [
    "Verif.C25_next_u64",
    "Verif.C25_fill",
    "Verif.C25_word"
   ],
   "note": "rand_core::block::BlockRng (external crate) is modelled from its published source; it belongs to the trusted base."
  },
  {
   "property": "C26",
   "status": "proved",
   "theorems": [
    "Verif.C26_legacy"
   ],
   "note": "rand_core::block::BlockRng (external crate) is modelled from its published source; it belongs to the trusted base."
  },
  {
   "property": "C27",
   "status": "proved",
   "theorems": [
    "Verif.C27_refill",
    "Verif.C27_successor"
   ],
   "note": ""
  },
  {
   "property": "C28",
   "status": "proved",
   "theorems": [
    "Verif.C28_agree",
    "Verif.C28_successors",
    "Verif.C28_words"
   ],
   "note": ""
  },
  {
   "property": "C29",
   "status": "proved",
   "theorems": [
    "Verif.C29_salsa"
   ],
   "note": ""
  },
  {
   "property": "C30",
   "status": "proved",
   "theorems": [
    "Verif.C30_hsalsa"
   ],
   "note": ""
  },
  {
   "property": "C31",
   "status": "proved",
   "theorems": [
    "Verif.C31_xsalsa"
   ],
   "note": ""
  },
  {
   "property": "C32",
   "status": "proved",
   "theorems": [
    "Verif.C32_raw"
   ],
   "note": ""
  },
  {
   "property": "C33",
   "status": "proved",
   "theorems": [
    "Verif.C33_hc256"
   ],
   "note": "usize is assumed to have at least 16 bits, as Rust guarantees."
  },
  {
   "property": "C34",
   "status": "proved",
   "theorems": [
    "Verif.C34_no_panic"
   ],
   "note": "usize is assumed to have at least 16 bits, as Rust guarantees."
  },
  {
   "property": "C35",
   "status": "proved",
   "theorems": [
    "Verif.C35_keyOnly",
    "Verif.C35_rabbit"
   ],
   "note": ""
  },
  {
   "property": "C36",
   "status": "proved",
   "theorems": [
    "Verif.C36_no_cycle"
   ],
   "note": ""
  },
  {
   "property": "C37",
   "status": "proved",
   "theorems": [
    "Verif.C37_step",
    "Verif.C37_fresh",
    "Verif.C37_blocks"
   ],
   "note": ""
  },
  {
   "property": "C38",
   "status": "proved",
   "theorems": [
    "Verif.C38_rc4"
   ],
   "note": ""
  },
  {
   "property": "C39",
   "status": "proved",
   "theorems": [
    "Verif.C39_length"
   ],
   "note": ""
  },
  {
   "property": "C40",
   "status": "proved",
   "theorems": [
    "Verif.C40_permutation",
    "Verif.C40_no_merge"
   ],
   "note": ""
  },
  {
   "property": "C41",
   "status": "proved",
   "theorems": [
    "Verif.C41_finney"
   ],
   "note": ""
  },
  {
   "property": "C42",
   "status": "proved",
   "theorems": [
    "Verif.ChaCha.C42_coherent",
    "Verif.ChaCha.C42_forgotten",
    "Verif.ChaCha.C42_dispatch"
   ],
   "note": ""
  },
  {
   "property": "C43",
   "status": "proved",
   "theorems": [
    "Verif.ChaCha.C43_cipher",
    "Verif.ChaCha.C43_rng",
    "Verif.ChaCha.C43_sse41",
    "Verif.ChaCha.C43_illegal"
   ],
   "note": "The table from intrinsics to CPU features (Model/Isa) is transcribed from the Intel and Arm documentation and belongs to the trusted base."
  },
  {
   "property": "C44",
   "status": "proved",
   "theorems": [
    "Verif.C44_chacha",
    "Verif.C44_salsa",
    "Verif.C44_rabbit",
    "Verif.C44_rc4",
    "Verif.C44_hc256",
    "Verif.C44_rng",
    "Verif.C44_indistinguishable",
    "Verif.C44_without"
   ],
   "note": "The zeroize crate's element-wise overwrite is modelled; that the compiler keeps volatile writes, and the buffer of the wrapper (cleared by the cipher crate, not by this repository), are trusted."
  },
  {
   "property": "C45",
   "status": "proved",
   "theorems": [
    "Verif.C45_debug",
    "Verif.C45_texts"
   ],
   "note": ""
  },
  {
   "property": "C46",
   "status": "proved",
   "theorems": [
    "Verif.C46_chacha",
    "Verif.C46_hchacha",
    "Verif.C46_salsa",
    "Verif.C46_hsalsa",
    "Verif.C46_rabbit",
    "Verif.C46_rc4",
    "Verif.C46_hc256"
   ],
   "note": "Accesses recorded are array indices in source order; nothing is claimed about compiled code or caches."
  },
  {
   "property": "C47",
   "status": "proved",
   "theorems": [
    "Verif.C47_ietf",
    "Verif.C13_legacy",
    "Verif.C47_salsa"
   ],
   "note": ""
  },
  {
   "property": "C48",
   "status": "proved",
   "theorems": [
    "Verif.C48_chacha",
    "Verif.C48_salsa",
    "Verif.C48_ietf_inputs",
    "Verif.C48_legacy_inputs",
    "Verif.C48_salsa_inputs"
   ],
   "note": ""
  },
  {
   "property": "C49",
   "status": "proved",
   "theorems": [
    "Verif.C49_process",
    "Verif.C49_generate",
    "Verif.C49_in_bounds",
    "Verif.C49_fresh"
   ],
   "note": "Pointers are modelled as an offset with the bounds of the object they were derived from; alignment is not modelled because only unaligned intrinsics are used; little-endian memory."
  },
  {
   "property": "C50",
   "status": "proved",
   "theorems": [
    "Verif.C50_step",
    "Verif.C50_no_merge"
   ],
   "note": ""
  },
  {
   "property": "C51",
   "status": "proved",
   "theorems": [
    "Verif.C51_all_seeks",
    "Verif.C51_reuse",
    "Verif.C51_salsa_panics"
   ],
   "note": ""
  },
  {
   "property": "C52",
   "status": "proved",
   "theorems": [
    "Verif.C52_blocks",
    "Verif.C52_stream",
    "Verif.C52_reads"
   ],
   "note": ""
  },
  {
   "property": "C53",
   "status": "proved",
   "theorems": [
    "Verif.C53_equivalent_keys",
    "Verif.C53_repeated_key"
   ],
   "note": ""
  },
  {
   "property": "C54",
   "status": "proved",
   "theorems": [
    "Verif.C54_hchacha",
    "Verif.C54_hsalsa"
   ],
   "note": ""
  },
  {
   "property": "C55",
   "status": "proved",
   "theorems": [
    "Verif.C55_seekable",
    "Verif.C55_plain",
    "Verif.C55_rng"
   ],
   "note": "The provided slice constructors of the cipher crate are modelled. Rc4 has its own constructor, see C39."
  },
  {
   "property": "C56",
   "status": "proved",
   "theorems": [
    "Verif.C56_collision",
    "Verif.C56_unreachable"
   ],
   "note": ""
  },
  {
   "property": "C57",
   "status": "proved",
   "theorems": [
    "Verif.C57_second_byte"
   ],
   "note": ""
  },
  {
   "property": "C58",
   "status": "proved",
   "theorems": [
    "Verif.C58_rc4",
    "Verif.C58_hc256"
   ],
   "note": ""
  },
  {
   "property": "C59",
   "status": "proved",
   "theorems": [
    "Verif.C59_seekable",
    "Verif.C59_no_panic",
    "Verif.C59_tail",
    "Verif.C59_hc256",
    "Verif.C59_rabbit"
   ],
   "note": "The provided methods of the cipher crate's traits are modelled from its published source; they belong to the trusted base."
  },
  {
   "property": "C60",
   "status": "proved",
   "theorems": [
    "Verif.C60_same",
    "Verif.C60_instructions",
    "Verif.C60_faithful",
    "Verif.C60_hc256",
    "Verif.C60_rabbit",
    "Verif.C60_log"
   ],
   "note": "The provided methods of the cipher crate's traits are modelled from its published source; they belong to the trusted base. Requests and instruction sequences are compared; table indices are the subject of C46."
  },
  {
   "property": "C61",
   "status": "proved",
   "theorems": [
    "Verif.C61_seekable",
    "Verif.C61_plain",
    "Verif.C61_b2b",
    "Verif.C61_b2b_plain",
    "Verif.C61_overlap"
   ],
   "note": "The provided methods of the cipher crate's traits are modelled from its published source; they belong to the trusted base. InOutBuf of the inout crate is modelled as two regions of one memory, likewise from its published source."
  },
  {
   "property": "C62",
   "status": "proved",
   "theorems": [
    "Verif.C62_setup",
    "Verif.C62_zero_iv"
   ],
   "note": ""
  },
  {
   "property": "C63",
   "status": "proved",
   "theorems": [
    "Verif.C63_meet",
    "Verif.C63_separation"
   ],
   "note": ""
  },
  {
   "property": "C64",
   "status": "proved",
   "theorems": [
    "Verif.C64_determined",
    "Verif.C64_m128",
    "Verif.C64_m256",
    "Verif.C64_m512",
    "Verif.C64_neon",
    "Verif.C64_memory",
    "Verif.C64_extract"
   ],
   "note": "The right-hand sides are the Intel and Arm descriptions, written from memory; they stay in the trusted base."
  },
  {
   "property": "C65",
   "status": "proved",
   "theorems": [
    "Verif.C65_from_rng",
    "Verif.C65_family",
    "Verif.C65_isolated"
   ],
   "note": "rand_core::block::BlockRng (external crate) is modelled from its published source; it belongs to the trusted base. SeedableRng::from_rng is a provided method of rand_core, modelled as: fill a seed, call from_seed."
  },
  {
   "property": "C66",
   "status": "proved",
   "theorems": [
    "Verif.C66_faithful",
    "Verif.C66_same",
    "Verif.C66_instructions"
   ],
   "note": "rand_core::block::BlockRng (external crate) is modelled from its published source; it belongs to the trusted base. == is not covered: it compares seeds and may stop early."
  },
  {
   "property": "C67",
   "status": "proved",
   "theorems": [
    "Verif.C67_checkerboard",
    "Verif.C67_unreachable"
   ],
   "note": ""
  },
  {
   "property": "C68",
   "status": "proved",
   "theorems": [
    "Verif.C68_period"
   ],
   "note": "rand_core::block::BlockRng (external crate) is modelled from its published source; it belongs to the trusted base."
  },
  {
   "property": "C69",
   "status": "proved",
   "theorems": [
    "Verif.C69_seekable",
    "Verif.C69_plain"
   ],
   "note": ""
  },
  {
   "property": "C70",
   "status": "proved",
   "theorems": [
    "Verif.C70_objects",
    "Verif.C70_layouts"
   ],
   "note": ""
  },
  {
   "property": "C71",
   "status": "proved",
   "theorems": [
    "Verif.ChaCha.C71_little",
    "Verif.ChaCha.C71_ietf",
    "Verif.ChaCha.C71_exchanged",
    "Verif.ChaCha.C71_legacy",
    "Verif.ChaCha.C71_refill",
    "Verif.ChaCha.C71_state_iff"
   ],
   "note": "Intrinsics on big-endian targets follow the Arm C Language Extensions (element-wise transfers, lanes numbered from the least significant end)."
  },
  {
   "property": "C72",
   "status": "proved",
   "theorems": [
    "Verif.C72_seekable",
    "Verif.C72_plain",
    "Verif.C72_reachable",
    "Verif.C72_limit",
    "Verif.C72_ciphers",
    "Verif.ChaCha.C72_rng",
    "Verif.ChaCha.C72_rng_index"
   ],
   "note": "The buffers follow the published sources of block-buffer and rand_core."
  },
  {
   "property": "C73",
   "status": "proved",
   "theorems": [
    "Verif.C73_rc4",
    "Verif.C73_rc4_return",
    "Verif.C73_hc256",
    "Verif.C73_hc256_return"
   ],
   "note": ""
  },
  {
   "property": "C74",
   "status": "proved",
   "theorems": [
    "Verif.C74_chacha",
    "Verif.C74_salsa",
    "Verif.C74_fixed",
    "Verif.C74_raw",
    "Verif.C74_unreachable"
   ],
   "note": ""
  },
  {
   "property": "C75",
   "status": "proved",
   "theorems": [
    "Verif.C75_seek",
    "Verif.C75_reads",
    "Verif.C75_call",
    "Verif.C75_hc256",
    "Verif.C75_rabbit"
   ],
   "note": ""
  },
  {
   "property": "C76",
   "status": "proved",
   "theorems": [
    "Verif.C76_resolution",
    "Verif.C76_cleared",
    "Verif.C76_left",
    "Verif.C76_chacha"
   ],
   "note": ""
  },
  {
   "property": "C77",
   "status": "proved",
   "theorems": [
    "Verif.ChaCha.Items.C77_resolves",
    "Verif.ChaCha.Items.C77_cargo",
    "Verif.ChaCha.Items.C77_needed",
    "Verif.ChaCha.Items.C77_additive",
    "Verif.ChaCha.Items.C77_dispatch",
    "Verif.ChaCha.Items.C77_unused"
   ],
   "note": ""
  },
  {
   "property": "C78",
   "status": "proved",
   "theorems": [
    "Verif.C78_rc4",
    "Verif.C78_rc4_buffers"
   ],
   "note": ""
  },
  {
   "property": "C79",
   "status": "proved",
   "theorems": [
    "Verif.C79_keyOnly",
    "Verif.C79_rabbit",
    "Verif.C79_block"
   ],
   "note": ""
  },
  {
   "property": "C80",
   "status": "proved",
   "theorems": [
    "Verif.C80_hc256",
    "Verif.C80_block"
   ],
   "note": ""
  },
  {
   "property": "C81",
   "status": "proved",
   "theorems": [
    "Verif.C81_salsa",
    "Verif.C81_xsalsa",
    "Verif.C81_hsalsa",
    "Verif.C81_block",
    "Verif.C81_counter"
   ],
   "note": ""
  },
  {
   "property": "C82",
   "status": "proved",
   "theorems": [
    "Verif.C82_ietf",
    "Verif.C82_legacy",
    "Verif.C82_xchacha",
    "Verif.C82_hchacha",
    "Verif.C82_new",
    "Verif.C82_block",
    "Verif.C82_counter",
    "Verif.C82_refill"
   ],
   "note": ""
  },
  {
   "property": "C83",
   "status": "proved",
   "theorems": [
    "Verif.C83_cursor",
    "Verif.C83_soft",
    "Verif.C83_fill",
    "Verif.C83_eq",
    "Verif.C83_block_pos",
    "Verif.C83_core"
   ],
   "note": ""
  },
  {
   "property": "C84",
   "status": "proved",
   "theorems": [
    "Verif.C84_ciphers",
    "Verif.C84_refill",
    "Verif.C84_portable"
   ],
   "note": ""
  },
  {
   "property": "C85",
   "status": "proved",
   "theorems": [
    "Verif.C85_ciphers",
    "Verif.C85_refill",
    "Verif.C85_portable"
   ],
   "note": ""
  },
  {
   "property": "C86",
   "status": "proved",
   "theorems": [
    "Verif.C86_ciphers",
    "Verif.C86_refill",
    "Verif.C86_portable"
   ],
   "note": ""
  },
  {
   "property": "C87",
   "status": "proved",
   "theorems": [
    "Verif.C87_ciphers",
    "Verif.C87_portable"
   ],
   "note": ""
  },
  {
   "property": "C88",
   "status": "proved",
   "theorems": [
    "Verif.C88_ciphers",
    "Verif.C88_refill",
    "Verif.C88_portable",
    "Verif.C88_chosen",
    "Verif.C88_coherent",
    "Verif.C88_error",
    "Verif.C88_detect"
   ],
   "note": ""
  },
  {
   "property": "C89",
   "status": "proved",
   "theorems": [
    "Verif.C89_seekable",
    "Verif.C89_plain",
    "Verif.C89_core",
    "Verif.C89_all_seeks",
    "Verif.C89_backend",
    "Verif.C89_salsa_panics"
   ],
   "note": ""
  },
  {
   "property": "C90",
   "status": "proved",
   "theorems": [
    "Verif.C90_sse2",
    "Verif.C90_sse2_ietf",
    "Verif.C90_avx2",
    "Verif.C90_avx512",
    "Verif.C90_neon",
    "Verif.C90_soft",
    "Verif.C90_messages",
    "Verif.C90_chacha_new",
    "Verif.C90_legacy_new",
    "Verif.C90_hchacha",
    "Verif.C90_xchacha_new",
    "Verif.C90_hsalsa",
    "Verif.C90_salsa_new",
    "Verif.C90_xsalsa_new",
    "Verif.C90_rabbit_key",
    "Verif.C90_rabbit_iv",
    "Verif.C90_rabbit_block",
    "Verif.C90_sse2_refill",
    "Verif.C90_avx2_refill",
    "Verif.C90_neon_refill",
    "Verif.C90_soft_refill",
    "Verif.C90_salsa_block",
    "Verif.C90_rounds",
    "Verif.C90_sse41",
    "Verif.C90_rc4",
    "Verif.C90_hc256"
   ],
   "note": ""
  },
  {
   "property": "C91",
   "status": "proved",
   "theorems": [
    "Verif.C91_process",
    "Verif.C91_generate",
    "Verif.C91_sse41"
   ],
   "note": ""
  },
  {
   "property": "C92",
   "status": "proved",
   "theorems": [
    "Verif.C92_process",
    "Verif.C92_salsa",
    "Verif.C92_xchacha",
    "Verif.C92_seek",
    "Verif.C92_debug",
    "Verif.C92_blind",
    "Verif.C92_drop"
   ],
   "note": ""
  },
  {
   "property": "C93",
   "status": "proved",
   "theorems": [
    "Verif.C93_machine",
    "Verif.C93_builds",
    "Verif.C93_cursor",
    "Verif.C93_reload",
    "Verif.C93_any_state"
   ],
   "note": ""
  },
  {
   "property": "C94",
   "status": "proved",
   "theorems": [
    "Verif.C94_erase",
    "Verif.C94_blind",
    "Verif.C94_same",
    "Verif.C94_instructions",
    "Verif.C94_eq"
   ],
   "note": ""
  },
  {
   "property": "C95",
   "status": "proved",
   "theorems": [
    "Verif.C95_erase",
    "Verif.C95_blind",
    "Verif.C95_same",
    "Verif.C95_instructions",
    "Verif.C95_salsa"
   ],
   "note": ""
  },
  {
   "property": "C96",
   "status": "proved",
   "theorems": [
    "Verif.C96_rc4_key",
    "Verif.C96_rc4_key_length",
    "Verif.C96_rc4_state",
    "Verif.C96_rc4_apply",
    "Verif.C96_hc256_key",
    "Verif.C96_hc256_state"
   ],
   "note": ""
  },
  {
   "property": "C97",
   "status": "proved",
   "theorems": [
    "Verif.C97_erase",
    "Verif.C97_rabbit",
    "Verif.C97_data",
    "Verif.C97_rc4",
    "Verif.C97_hc256"
   ],
   "note": ""
  },
  {
   "property": "C98",
   "status": "proved",
   "theorems": [
    "Verif.C98_machine",
    "Verif.C98_provided",
    "Verif.C98_keystream",
    "Verif.C98_erase",
    "Verif.C98_blind",
    "Verif.C98_instructions",
    "Verif.C98_rabbit",
    "Verif.C98_hc256"
   ],
   "note": ""
  },
  {
   "property": "C99",
   "status": "proved",
   "theorems": [
    "Verif.C99_asked",
    "Verif.C99_requests",
    "Verif.C99_blind",
    "Verif.C99_keystream",
    "Verif.C99_instructions",
    "Verif.C99_rabbit",
    "Verif.C99_hc256"
   ],
   "note": ""
  }
 ]
}