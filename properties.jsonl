{"id": "C01", "title": "ChaCha keystream is the published ChaCha function", "statement": "The byte at stream offset i produced by ChaCha8/12/20 (and by the 64-bit-nonce legacy type) under a key and nonce is byte i mod 64 of the published ChaCha block function (RFC 8439 matrix form, counter = i div 64) for that key, nonce and number of double rounds.", "quantifier": "every 32-byte key, every 12-byte (IETF) or 8-byte (legacy) nonce, every double-round count, every stream offset below the stream limit", "why_tests_cant": "The vectors cover a handful of keys and offsets; an index slip or wrong carry at another counter value passes them.", "anchors": ["chacha20/src/lib.rs: ChaChaCore::new_internal, quarter_round", "chacha20/src/backends/soft.rs: run_rounds, gen_ks_block", "chacha20/src/chacha.rs", "chacha20/src/legacy.rs"]}
{"id": "C02", "title": "All ChaCha backends compute the same keystream", "statement": "For one and the same cipher state, the portable, SSE2, AVX2, AVX-512 and NEON backends return the same keystream bytes and leave the same state, for whatever sequence of single-block, parallel and tail requests the caller's closure makes.", "quantifier": "every 16-word state (including counters about to wrap), both counter widths, every round count, every finite sequence of backend requests with tail sizes below the parallel width", "why_tests_cant": "A test machine runs one or two backends; the wrap of a 32-bit or 64-bit counter inside a parallel batch happens at a few states out of 2^512.", "anchors": ["chacha20/src/backends/soft.rs", "chacha20/src/backends/sse2.rs", "chacha20/src/backends/avx2.rs", "chacha20/src/backends/avx512.rs", "chacha20/src/backends/neon.rs"]}
{"id": "C03", "title": "Backend selection is not observable", "statement": "Whatever compile-time backend flag, target and runtime CPU detection results are in force, and even if they differ from one call to the next, a ChaCha cipher object returns the same results from the same call history.", "quantifier": "every configuration of backend flag, target, AVX-512 opt-in and detection results, chosen independently for every call; every call history", "why_tests_cant": "CI exercises a few configurations, each fixed for the whole process.", "anchors": ["chacha20/src/lib.rs: StreamCipherCore::process_with_backend", "chacha20/src/backends.rs"]}
{"id": "C04", "title": "Decryption inverts encryption", "statement": "Applying the keystream twice from the same stream position gives back the original data, no matter how either pass is cut into calls.", "quantifier": "every key and nonce of every cipher in the repository, every start position, every message, every pair of chunkings, as long as the stream limit is not exceeded", "why_tests_cant": "Unbounded messages and chunkings.", "anchors": ["chacha20/src/lib.rs", "salsa20/src/lib.rs", "hc-256/src/lib.rs", "rabbit/src/lib.rs", "rc4/src/lib.rs: unchecked_apply_keystream_inout"]}
{"id": "C05", "title": "Chunking independence", "statement": "Feeding a message to apply_keystream in pieces produces the concatenation that a single call on the whole message would produce, and leaves the cipher at the same position.", "quantifier": "every cipher, key, nonce, start position, message and way of cutting it (including empty pieces and pieces that straddle block and parallel-batch borders)", "why_tests_cant": "The tests try fixed chunk sizes on short messages; the interaction of leftover buffer, whole blocks, parallel batches and tail is combinatorial.", "anchors": ["chacha20/src/lib.rs: process_with_backend", "salsa20/src/backends/soft.rs", "hc-256/src/lib.rs: gen_word", "rabbit/src/lib.rs: next_block", "rc4/src/lib.rs: prga"]}
{"id": "C06", "title": "write_keystream equals apply_keystream on zeros", "statement": "write_keystream overwrites the buffer with exactly the bytes apply_keystream would XOR into it, whatever the buffer held, and moves the cipher identically.", "quantifier": "every cipher, state, and buffer content and length", "why_tests_cant": "Two separate code paths over all states and lengths.", "anchors": ["rc4/src/lib.rs: unchecked_write_keystream, unchecked_apply_keystream_inout", "chacha20/src/lib.rs: process_with_backend"]}
{"id": "C07", "title": "Seek is random access into the stream", "statement": "After any history, a successful seek to byte p makes the following output the keystream from byte p of the stream of that key and nonce, exactly as if a fresh cipher had been advanced by p bytes.", "quantifier": "every history of apply/write/seek calls, every target p up to the stream limit, for ChaCha (IETF, legacy, X) and Salsa (and X)", "why_tests_cant": "The seek tests visit a few offsets; leftover buffered bytes from an arbitrary earlier history can poison the result.", "anchors": ["chacha20/src/variants.rs: set_block_pos", "chacha20/src/lib.rs: set_block_pos, get_block_pos", "salsa20/src/lib.rs: set_block_pos, get_block_pos"]}
{"id": "C08", "title": "current_pos tracks bytes", "statement": "After any history the reported position equals the last seek target (or 0) plus the number of bytes processed since, whenever the position type can hold the end of the current block; it is never a wrong number.", "quantifier": "every history, every position integer width, all seekable ciphers", "why_tests_cant": "All histories and all widths.", "anchors": ["chacha20/src/variants.rs: get_block_pos", "salsa20/src/lib.rs: get_block_pos"]}
{"id": "C09", "title": "Stream exhaustion is an error without side effects", "statement": "A checked request of n bytes at position p succeeds iff p + n is at most 64*(2^32-1) bytes (IETF ChaCha, XChaCha) or 64*(2^64-1) bytes (legacy ChaCha, Salsa, XSalsa); when it fails the data and the cipher are unchanged.", "quantifier": "every reachable cipher state and request length representable on the target", "why_tests_cant": "Reaching the boundary takes 256 GiB or 2^70 bytes of keystream; tests only approach it by seeking.", "anchors": ["chacha20/src/variants.rs: remaining_blocks", "salsa20/src/lib.rs: remaining_blocks"]}
{"id": "C10", "title": "The block counter never wraps or repeats in checked use", "statement": "In any history of checked calls (with seeks inside the stream limit), every keystream byte handed out at stream offset i comes from block counter i div 64 which is below 2^32-1 (resp. 2^64-1), so two different offsets never come from the same counter and byte index.", "quantifier": "every history of checked calls, all seekable ciphers", "why_tests_cant": "Requires all histories up to the limit.", "anchors": ["chacha20/src/variants.rs: remaining_blocks", "chacha20/src/backends/soft.rs: gen_ks_block", "salsa20/src/backends/soft.rs: gen_ks_block"]}
{"id": "C11", "title": "Remaining-blocks check is sound on every pointer width", "statement": "When the number of remaining blocks does not fit usize the cipher reports no limit; even then no request that fits in memory can pass the end of the stream, so behaviour is the same on 16-, 32- and 64-bit targets.", "quantifier": "every usize width, every counter value, every request length that is a usize", "why_tests_cant": "Tests run on one pointer width.", "anchors": ["chacha20/src/variants.rs: remaining_blocks", "salsa20/src/lib.rs: remaining_blocks"]}
{"id": "C12", "title": "Only the block counter ever changes", "statement": "No sequence of cipher calls changes constants, key words or nonce words of a ChaCha/XChaCha/Salsa cipher; the IETF counter never carries into the nonce on any backend.", "quantifier": "every key, nonce, history, backend choice", "why_tests_cant": "The carry happens only at the wrap of the counter.", "anchors": ["chacha20/src/backends/soft.rs: gen_ks_block", "chacha20/src/backends/sse2.rs: inner", "chacha20/src/backends/avx2.rs: inner", "chacha20/src/backends/avx512.rs: inner", "chacha20/src/backends/neon.rs: inner", "salsa20/src/lib.rs: set_block_pos"]}
{"id": "C13", "title": "Legacy counter is a true 64-bit counter", "statement": "The legacy (8-byte nonce) ChaCha cipher uses a 64-bit block counter: blocks past 2^32 use the carry into the high word, on every backend, including when a parallel batch straddles 2^32.", "quantifier": "every key, nonce, 64-bit block position, backend, batch shape", "why_tests_cant": "README still says 32-bit; only positions near multiples of 2^32 tell.", "anchors": ["chacha20/src/variants.rs: Legacy", "chacha20/src/legacy.rs", "chacha20/src/backends"]}
{"id": "C14", "title": "Legacy and IETF ChaCha agree on their common domain", "statement": "Below 64*2^32 bytes, the legacy cipher with 8-byte nonce n yields the keystream of the IETF cipher with nonce 0000 || n.", "quantifier": "every key, 8-byte nonce, round count, offset below the common limit", "why_tests_cant": "All keys, nonces, offsets.", "anchors": ["chacha20/src/lib.rs: new_internal", "chacha20/src/legacy.rs", "chacha20/src/chacha.rs"]}
{"id": "C15", "title": "hchacha is the published HChaCha function", "statement": "hchacha(key, input) returns words 0..3 and 12..15 of the ChaCha rounds (no final addition) applied to constants || key || input, little-endian.", "quantifier": "every key, 16-byte input, round count", "why_tests_cant": "One vector exists.", "anchors": ["chacha20/src/xchacha.rs: hchacha"]}
{"id": "C16", "title": "XChaCha is ChaCha under the derived subkey", "statement": "XChaCha with a 24-byte nonce behaves, for any call history, as IETF ChaCha keyed with hchacha(key, nonce[0..16]) and nonce 00000000 || nonce[16..24].", "quantifier": "every key, 24-byte nonce, round count, call history", "why_tests_cant": "Two vectors exist.", "anchors": ["chacha20/src/xchacha.rs: XChaChaCore::new"]}
{"id": "C17", "title": "Constructors never panic except on the mismatched seed path", "statement": "Creating any cipher from correctly sized key and nonce never panics, and creating an RNG from a seed never panics; but seeding the bare IETF ChaCha core through the RNG seeding trait always panics.", "quantifier": "every key, nonce, seed", "why_tests_cant": "Absence of panics over all inputs; the panicking combination is public API but has no test.", "anchors": ["chacha20/src/lib.rs: new_internal", "chacha20/src/rng.rs: SeedableRng for ChaChaCore", "rc4/src/lib.rs: new", "hc-256/src/lib.rs: new", "rabbit/src/lib.rs: setup_key"]}
{"id": "C18", "title": "RNG refines a cursor over the ChaCha word stream", "statement": "For any history of next_u32, next_u64, fill_bytes, set_word_pos, set_block_pos, set_stream, serialisation round trips and reads, every value returned by ChaCha8/12/20Rng is what an abstract cursor (seed, stream, 68-bit word position) over the published ChaCha word stream returns.", "quantifier": "every seed, every history of operations, every round count, every backend choice per refill", "why_tests_cant": "Buffer refills, skipped words and wrap-around interact; tests check a few fixed scripts.", "anchors": ["chacha20/src/rng.rs: impl_chacha_rng, Generator::generate"]}
{"id": "C19", "title": "Word position round trip", "statement": "After set_word_pos(p), get_word_pos() returns p mod 2^68, after any earlier history; each next_u32 advances it by 1, next_u64 by 2 and fill_bytes(n) by ceil(n/4), modulo 2^68.", "quantifier": "every history, every 128-bit p, every n", "why_tests_cant": "The wrap at 2^68 and the counter-minus-buffer correction fail only at special positions.", "anchors": ["chacha20/src/rng.rs: get_word_pos, set_word_pos"]}
{"id": "C20", "title": "Block position of the RNG", "statement": "get_block_pos() equals get_word_pos() div 16 when it returns; with overflow checks on it panics exactly when the 64-bit counter has wrapped inside the current buffer (counter below 4 with a partly consumed buffer), and with overflow checks off it never panics.", "quantifier": "every history, both overflow-check modes", "why_tests_cant": "The panic needs a set_block_pos near 2^64 followed by a read; the existing wrap test happens to step over it.", "anchors": ["chacha20/src/rng.rs: get_block_pos"]}
{"id": "C21", "title": "RNG state serialisation round trip", "statement": "deserialize_state(serialize_state(rng)) equals rng and returns the same values as rng under every subsequent history.", "quantifier": "every reachable RNG state, every subsequent history", "why_tests_cant": "Tests skip 0..100 words at position near 0 only.", "anchors": ["chacha20/src/rng.rs: serialize_state, deserialize_state"]}
{"id": "C22", "title": "Serialised format", "statement": "The 49 bytes are seed || little-endian stream || 9 little-endian bytes of the word position whose top 4 bits are zero; deserialisation accepts every 49-byte string, ignores the top 4 bits of the last byte, and re-serialising gives the same string with those bits cleared. The internal debug assertion never fires.", "quantifier": "every reachable state, every 49-byte string", "why_tests_cant": "2^392 strings.", "anchors": ["chacha20/src/rng.rs: serialize_state, deserialize_state"]}
{"id": "C23", "title": "RNG equality is meaningful", "statement": "The == of RNGs is an equivalence that holds iff seed, stream and word position agree; RNGs that compare equal return equal values under every subsequent history, even if their internal buffers differ.", "quantifier": "every pair of reachable RNGs, every subsequent history", "why_tests_cant": "Quantifies over pairs of histories and futures.", "anchors": ["chacha20/src/rng.rs: PartialEq"]}
{"id": "C24", "title": "Streams: set_stream and get_stream", "statement": "set_stream(s) moves to word 0 of stream s of the same seed whatever happened before; get_stream returns s until the next set_stream; get_seed always returns the seed.", "quantifier": "every history, every 64-bit s", "why_tests_cant": "All histories.", "anchors": ["chacha20/src/rng.rs: set_stream, get_stream, get_seed"]}
{"id": "C25", "title": "RNG reads compose", "statement": "next_u64 is the two next next_u32 words (low first) even across a refill; fill_bytes of n1 then n2 bytes with n1 a multiple of 4 equals fill_bytes of n1+n2; with n1 not a multiple of 4 the rest of the last word is discarded.", "quantifier": "every reachable state and every n1, n2", "why_tests_cant": "All buffer offsets and lengths.", "anchors": ["chacha20/src/rng.rs: try_next_u32, try_next_u64, try_fill_bytes"]}
{"id": "C26", "title": "RNG output equals the legacy cipher keystream", "statement": "The bytes fill_bytes returns after set_stream(s) are the keystream of the legacy ChaCha cipher under key = seed and nonce = s in little-endian.", "quantifier": "every seed, stream, round count, length", "why_tests_cant": "Cross-checks two independent APIs for all inputs.", "anchors": ["chacha20/src/rng.rs", "chacha20/src/legacy.rs"]}
{"id": "C27", "title": "RNG refill is backend independent and wraps at 2^64 blocks", "statement": "For the 64-bit counter variant the refill returns the same 64 words and leaves the same state on the portable, SSE2, AVX2 and NEON code, at every counter value, wrapping modulo 2^64 without touching the stream id.", "quantifier": "every state with 64-bit counter, every round count, every backend", "why_tests_cant": "Wrap inside a 4-block batch occurs at 7 of 2^64 counters and each backend has its own carry logic.", "anchors": ["chacha20/src/rng.rs: generate", "chacha20/src/backends/soft.rs: gen_ks_blocks", "chacha20/src/backends/sse2.rs: rng_inner", "chacha20/src/backends/avx2.rs: rng_inner", "chacha20/src/backends/neon.rs: rng_inner, write_par_ks_blocks"]}
{"id": "C28", "title": "Refill of a 32-bit-counter core", "statement": "Using the public generator trait on an IETF (32-bit counter) core: as long as the counter does not pass 2^32 within the batch all backends agree and the nonce is preserved; when it does pass, the portable, SSE2/AVX2 and NEON code give different words or different successor states (so the backend becomes observable).", "quantifier": "every state and backend for the positive part; a concrete state for the disagreement", "why_tests_cant": "No test runs the generator on an IETF core, and only the last 4 counters differ.", "anchors": ["chacha20/src/rng.rs: Generator for ChaChaCore", "chacha20/src/backends/soft.rs: gen_ks_blocks", "chacha20/src/backends/sse2.rs: rng_inner, rounds", "chacha20/src/backends/neon.rs: write_par_ks_blocks"]}
{"id": "C29", "title": "Salsa keystream is the published Salsa20 function", "statement": "The byte at offset i of Salsa8/12/20 is byte i mod 64 of the published Salsa20 hash of the expanded key, nonce and 64-bit counter i div 64.", "quantifier": "every key, nonce, double-round count, offset below the stream limit", "why_tests_cant": "Vectors cover few keys and offsets.", "anchors": ["salsa20/src/lib.rs: SalsaCore::new", "salsa20/src/backends/soft.rs: run_rounds, quarter_round, gen_ks_block"]}
{"id": "C30", "title": "hsalsa is the published HSalsa20 function", "statement": "hsalsa(key, input) returns words 0,5,10,15,6,7,8,9 of the Salsa double rounds applied to the expanded key and 16-byte input, little-endian, without the final addition.", "quantifier": "every key, input, round count", "why_tests_cant": "No direct vector exists.", "anchors": ["salsa20/src/xsalsa.rs: hsalsa"]}
{"id": "C31", "title": "XSalsa is Salsa under the derived subkey", "statement": "XSalsa with 24-byte nonce behaves, for any history, as Salsa keyed with hsalsa(key, nonce[0..16]) and nonce nonce[16..24].", "quantifier": "every key, 24-byte nonce, round count, history", "why_tests_cant": "Two vectors exist.", "anchors": ["salsa20/src/xsalsa.rs: XSalsaCore::new"]}
{"id": "C32", "title": "Salsa raw-state block", "statement": "from_raw_state(s) followed by one keystream block returns the Salsa core hash of s and advances the 64-bit counter in words 8 and 9 by one; with overflow checks on it panics exactly when that counter is 2^64-1, otherwise never.", "quantifier": "every 16-word state, every round count, both overflow-check modes", "why_tests_cant": "scrypt feeds arbitrary states; the panicking counter is 1 in 2^64.", "anchors": ["salsa20/src/lib.rs: from_raw_state", "salsa20/src/backends/soft.rs: gen_ks_block"]}
{"id": "C33", "title": "HC-256 keystream is the published HC-256", "statement": "The keystream words of Hc256 are those of the published HC-256 (expansion to 2660 words, tables, 4096 discarded steps, then the step function), serialised little-endian.", "quantifier": "every key, IV, offset (unbounded)", "why_tests_cant": "Three vectors of 64 bytes never even leave the first table half after warm-up.", "anchors": ["hc-256/src/lib.rs: Hc256Core::new, gen_word, g1, g2, h1, h2"]}
{"id": "C34", "title": "HC-256 never panics", "statement": "Neither construction nor any amount of output indexes a table out of bounds or overflows: the internal step index stays below 2048.", "quantifier": "every key, IV, number of steps", "why_tests_cant": "Unbounded steps.", "anchors": ["hc-256/src/lib.rs: gen_word"]}
{"id": "C35", "title": "Rabbit keystream is RFC 4503", "statement": "The keystream of RabbitKeyOnly and Rabbit equals the RFC 4503 definition (key setup, optional IV setup, counter system, next-state, extraction).", "quantifier": "every key, IV, offset (unbounded)", "why_tests_cant": "Six vectors.", "anchors": ["rabbit/src/lib.rs: State::setup_key, setup_iv, counter_update, next_state, extract"]}
{"id": "C36", "title": "Rabbit state never cycles in practice", "statement": "Starting from any key (and IV) the internal state of Rabbit does not repeat within 2^256 - 2 blocks; in particular not within the 2^64 blocks the code comment promises.", "quantifier": "every key, IV, every pair of block indices below 2^256-1", "why_tests_cant": "2^64 steps cannot be run.", "anchors": ["rabbit/src/lib.rs: counter_update, remaining_blocks"]}
{"id": "C37", "title": "Rabbit arithmetic never overflows", "statement": "The unsuffixed 64-bit additions and the 64-bit squaring in the Rabbit step never overflow, and the carry stays 0 or 1, so the step behaves identically with and without overflow checks.", "quantifier": "every reachable state, unbounded steps", "why_tests_cant": "All operand values.", "anchors": ["rabbit/src/lib.rs: counter_update, next_state"]}
{"id": "C38", "title": "RC4 keystream is the published RC4", "statement": "The keystream of Rc4 is the standard RC4 (KSA with key repeated cyclically, then PRGA).", "quantifier": "every key of 1 to 256 bytes, every offset (unbounded)", "why_tests_cant": "Vectors cover 14 keys.", "anchors": ["rc4/src/lib.rs: new_from_slice, prga"]}
{"id": "C39", "title": "RC4 key length gate", "statement": "Constructing Rc4 from a slice fails with an error iff its length is 0 or more than 256, and the fixed 32-byte constructor never fails.", "quantifier": "every byte slice", "why_tests_cant": "All lengths.", "anchors": ["rc4/src/lib.rs: new_from_slice, new"]}
{"id": "C40", "title": "RC4 state stays a permutation and never merges", "statement": "After any history the 256-entry table is a permutation of 0..255, and two different RC4 states never step to the same state (so no keystream ever runs into another one's state).", "quantifier": "every key, every number of steps, every pair of states", "why_tests_cant": "256! states.", "anchors": ["rc4/src/lib.rs: prga, new_from_slice"]}
{"id": "C41", "title": "RC4 never enters a Finney cycle", "statement": "No key leads RC4 into the short 'Finney' cycle (j = i+1 and S[j] = 1).", "quantifier": "every key, every number of steps", "why_tests_cant": "All keys and steps.", "anchors": ["rc4/src/lib.rs: prga"]}
{"id": "C42", "title": "Configuration coherence", "statement": "In every combination of backend flag, AVX-512 opt-in and target, the CPU-detection token type, its initialiser and the dispatchers agree and dispatch only to compiled backends - except that forcing the avx512 backend on x86 without the AVX-512 opt-in flag gives a token initialiser of the wrong type (the crate cannot compile).", "quantifier": "all combinations of cfg flags and targets", "why_tests_cant": "CI compiles a few combinations.", "anchors": ["chacha20/src/lib.rs: Tokens, new_internal, process_with_backend", "chacha20/src/backends.rs", "chacha20/src/rng.rs: generate"]}
{"id": "C43", "title": "Only detected CPU features are executed", "statement": "A backend chosen by runtime detection executes only instructions of the CPU features that detection established - true for AVX-512, AVX2 and the 32-bit-counter SSE2 path, false for the SSE2 path with a 64-bit counter and for the SSE2 RNG refill, which use an SSE4.1 instruction on a CPU only known to have SSE2.", "quantifier": "every detection result and every dispatch path", "why_tests_cant": "Test machines all have SSE4.1.", "anchors": ["chacha20/src/backends/sse2.rs: inner, rng_inner (_mm_extract_epi32)", "chacha20/src/lib.rs: process_with_backend"]}
{"id": "C44", "title": "Dropping a cipher clears its secrets", "statement": "With zeroisation enabled, after drop every field of the cipher core that depends on key, nonce or position is zero, for ChaCha, Salsa, HC-256, Rabbit, RC4 and the RNG buffer.", "quantifier": "every state", "why_tests_cant": "All states.", "anchors": ["chacha20/src/lib.rs: Drop", "salsa20/src/lib.rs: Drop", "hc-256/src/lib.rs: Drop", "rabbit/src/lib.rs: Drop", "rc4/src/lib.rs: Drop", "chacha20/src/rng.rs: Generator::drop"]}
{"id": "C45", "title": "Debug output leaks nothing", "statement": "The Debug text of cipher cores and RNGs depends only on the type, never on key, nonce, position or buffer.", "quantifier": "every pair of states", "why_tests_cant": "All states.", "anchors": ["chacha20/src/lib.rs: fmt::Debug", "chacha20/src/rng.rs: fmt::Debug", "hc-256/src/lib.rs: fmt::Debug"]}
{"id": "C46", "title": "Data-independent access pattern of ChaCha and Salsa", "statement": "The sequence of array indices touched by the portable ChaCha and Salsa block functions (and hchacha/hsalsa) is the same for all keys, nonces and counters; RC4 and HC-256 do not have this property.", "quantifier": "every pair of states and round counts", "why_tests_cant": "Timing tests sample inputs; this is a statement about all of them.", "anchors": ["chacha20/src/lib.rs: quarter_round", "chacha20/src/backends/soft.rs: run_rounds", "salsa20/src/backends/soft.rs", "rc4/src/lib.rs", "hc-256/src/lib.rs"]}
{"id": "C47", "title": "Core block positions", "statement": "At the core (block-level) API: after set_block_pos(b), get_block_pos() is b and the next k blocks are blocks b, b+1, ..., b+k-1 modulo the counter width; key and nonce are unaffected.", "quantifier": "every state, every counter value, every k, every backend", "why_tests_cant": "All counter values including wraps.", "anchors": ["chacha20/src/lib.rs: set_block_pos, get_block_pos", "chacha20/src/variants.rs", "salsa20/src/lib.rs"]}
{"id": "C48", "title": "Round functions are permutations", "statement": "The ChaCha and Salsa rounds map distinct 16-word states to distinct states for any number of rounds, so distinct (key, nonce, counter) inputs are never merged before the final addition.", "quantifier": "every pair of states, every round count", "why_tests_cant": "2^512 states.", "anchors": ["chacha20/src/lib.rs: quarter_round", "chacha20/src/backends/soft.rs: run_rounds", "salsa20/src/backends/soft.rs: quarter_round"]}
{"id": "C49", "title": "Memory safety of the unsafe SIMD code", "statement": "Every raw-pointer load and store of the SSE2, AVX2, AVX-512 and NEON backends (cipher and RNG paths) stays inside the object its pointer was derived from, every byte of the destination buffers is written, and the memory effect is the value effect used by the other properties.", "quantifier": "every backend and build configuration, every client of the backend, every state, every number of tail blocks, every previous contents of the buffers", "why_tests_cant": "Out-of-bounds accesses by a few bytes usually go unnoticed, and each tail length, backend and buffer content is a separate case.", "anchors": ["chacha20/src/backends/sse2.rs", "chacha20/src/backends/avx2.rs", "chacha20/src/backends/avx512.rs", "chacha20/src/backends/neon.rs", "chacha20/src/rng.rs: Generator::generate"]}
{"id": "C50", "title": "HC-256 states never merge", "statement": "One HC-256 step is injective on internal states, and two HC-256 objects that have the same internal state after the same number of blocks were created with the same key and IV.", "quantifier": "every pair of states; every two (key, IV) pairs and every number of blocks", "why_tests_cant": "The state has 65547 bits; a merge of two trajectories would never be met by chance.", "anchors": ["hc-256/src/lib.rs: gen_word", "hc-256/src/lib.rs: KeyIvInit::new"]}
{"id": "C51", "title": "Seeking into the last block", "statement": "For every seek target, including those in the block whose counter is the largest: a seek to byte r (0<r<64) of that block is accepted, the next 64-r bytes are the rest of the block, and the bytes after that are the keystream from offset 0 again; the complete behaviour of an object under unrestricted seeks is that of a cursor with one extra block in front. Salsa and XSalsa panic on such a seek when overflow checks are on.", "quantifier": "every cipher type, key, nonce, backend, history with unrestricted seeks", "why_tests_cant": "The last block lies 256 GiB (or 2^70 bytes) into the stream; reaching the case takes one particular 1-in-2^32 seek target.", "anchors": ["chacha20/src/lib.rs: remaining_blocks, set_block_pos", "salsa20/src/lib.rs: remaining_blocks", "salsa20/src/backends/soft.rs: gen_ks_block"]}
{"id": "C52", "title": "Legacy stream as IETF streams", "statement": "Block 2^32*e+i of the legacy cipher with nonce n is block i of the IETF cipher with nonce le32(e)||n; reads of the two objects at corresponding positions give the same bytes.", "quantifier": "every round count, key, nonce, epoch e, block index, history and backend", "why_tests_cant": "Epochs e>0 begin 256 GiB into the stream and are not reached by test vectors.", "anchors": ["chacha20/src/legacy.rs", "chacha20/src/lib.rs: set_block_pos"]}
{"id": "C53", "title": "Equivalent RC4 keys", "statement": "RC4 keys whose cyclic repetitions agree on 256 bytes give the same object; in particular a key and its m-fold repetition (total length at most 256) are interchangeable.", "quantifier": "every two keys of 1..256 bytes", "why_tests_cant": "Relates pairs of keys of different lengths; vectors exercise single keys.", "anchors": ["rc4/src/lib.rs: KeyInit::new_from_slice"]}
{"id": "C54", "title": "HChaCha and HSalsa from one keystream block", "statement": "For every 16-byte input the hchacha (hsalsa) output is obtained, without the key, from the one keystream block of the ChaCha (Salsa) cipher whose counter and nonce are that input, by subtracting public constants and the input from eight of its words.", "quantifier": "every round count, key, input, backend", "why_tests_cant": "Relates two different functions of the crate for all keys and inputs.", "anchors": ["chacha20/src/xchacha.rs: hchacha", "salsa20/src/xsalsa.rs: hsalsa"]}
{"id": "C55", "title": "Exported types keep the promises of their names", "statement": "For each of the 16 exported cipher types, construction from slices never panics and fails exactly when a length differs from the documented key or nonce size; otherwise the object is a cursor over the published keystream with the round count in its name, the documented nonce size and the documented limit. The three generators produce ChaCha words with the round count in their names.", "quantifier": "every exported type, every pair of byte slices of any length, every history", "why_tests_cant": "Vectors exercise correct lengths and one or two round counts only.", "anchors": ["chacha20/src/chacha.rs", "chacha20/src/legacy.rs", "chacha20/src/xchacha.rs", "chacha20/src/lib.rs: Rounds", "chacha20/src/rng.rs: impl_chacha_rng", "salsa20/src/lib.rs", "salsa20/src/xsalsa.rs", "hc-256/src/lib.rs", "rabbit/src/lib.rs"]}
{"id": "C56", "title": "Salsa raw-state collisions", "statement": "SalsaCore objects made by from_raw_state from a state and from the same state with the top bit of all 16 words inverted give the same keystream while the low counter word does not pass a multiple of 2^31; no two (key, nonce) pairs lead to such a pair of states.", "quantifier": "every raw state, round count, number of blocks within the bound; every two (key, nonce, counter) triples", "why_tests_cant": "Relates pairs among 2^512 states.", "anchors": ["salsa20/src/lib.rs: from_raw_state", "salsa20/src/backends/soft.rs: quarter_round, run_rounds"]}
{"id": "C57", "title": "RC4 second byte", "statement": "If the key schedule leaves 0 in entry 2 and a value other than 2 in entry 1 of the table, the second keystream byte is 0 (the Mantin-Shamir event).", "quantifier": "every key, every data", "why_tests_cant": "Only about one key in 256 has the property.", "anchors": ["rc4/src/lib.rs: prga"]}
{"id": "C58", "title": "Pure periodicity of RC4 and HC-256", "statement": "From every RC4 state, and from every HC-256 state with the index in range, some positive number of keystream steps leads back to that same state: no state is transient.", "quantifier": "every state", "why_tests_cant": "Periods are astronomically long.", "anchors": ["rc4/src/lib.rs: prga", "hc-256/src/lib.rs: gen_word"]}
{"id": "C59", "title": "Core-level API of the block ciphers", "statement": "Driving a core directly (write_keystream_block(s), apply_keystream_block(s), remaining_blocks, get/set_block_pos in any order) yields the keystream blocks at the counter positions a plain counter machine predicts, without panicking as long as the machine does not leave the counter range; apply_keystream_partial XORs a prefix of the stream and refuses exactly when too few blocks remain.", "quantifier": "every exported seekable cipher, every key and nonce, every CPU dispatch sequence, every sequence of core calls; HC-256 and Rabbit without seeking", "why_tests_cant": "Call sequences are unbounded and the result must not depend on how requests are cut into blocks or which backend serves them.", "anchors": ["chacha20/src/lib.rs: impl StreamCipherCore, StreamCipherSeekCore for ChaChaCore", "salsa20/src/lib.rs: impl StreamCipherCore, StreamCipherSeekCore for SalsaCore", "hc-256/src/lib.rs: impl StreamCipherCore", "rabbit/src/lib.rs: impl StreamCipherCore"]}
{"id": "C60", "title": "Backend requests depend only on public information", "statement": "Two objects of one cipher with different keys and nonces, called alike with data of equal lengths, make exactly the same requests to their backends in the same order, fail, panic and report positions alike, and execute the same vector instructions; recording the requests does not change what the caller sees.", "quantifier": "every exported cipher, every two (key, nonce) pairs, every two histories that agree up to buffer contents", "why_tests_cant": "It is a relation between pairs of runs over all keys and all histories.", "anchors": ["chacha20/src/lib.rs: process_with_backend", "salsa20/src/lib.rs: process_with_backend", "hc-256/src/lib.rs: process_with_backend", "rabbit/src/lib.rs: process_with_backend"]}
{"id": "C61", "title": "Encryption in place and from buffer to buffer", "statement": "With the buffers placed in one flat byte memory, any history of in-place calls, buffer-to-buffer calls, keystream writes, seeks and unrelated stores gives the results and the whole final memory of a cursor that XORs the keystream onto the input as it was before each call. In-place and buffer-to-buffer calls on equal data give equal bytes; the latter leaves its input and everything outside its output untouched; a length mismatch touches nothing.", "quantifier": "every exported cipher, key and nonce, every memory content, every history whose buffers are either identical or disjoint, every backend choice per call", "why_tests_cant": "The loops read and write the same memory; that no read ever sees an already written byte has to hold for all lengths, buffer positions, leftover positions and batch sizes.", "anchors": ["rc4/src/lib.rs: StreamCipher for Rc4, try_apply_keystream_inout", "chacha20/src/lib.rs: process_with_backend", "salsa20/src/lib.rs: process_with_backend", "hc-256/src/lib.rs: process_with_backend", "rabbit/src/lib.rs: process_with_backend"]}
{"id": "C62", "title": "Rabbit with the zero IV is the key-only stream shifted", "statement": "IV set-up with the all-zero IV is four plain iterations of the generator. Hence a Rabbit object with the zero IV at byte position p cannot be told apart from a RabbitKeyOnly object of the same key at position p + 64: the two exported types share keystream under one key.", "quantifier": "every key, every history of calls on either object, both build modes", "why_tests_cant": "The coincidence is between two infinite streams, for all keys.", "anchors": ["rabbit/src/lib.rs: State::setup_iv", "rabbit/src/lib.rs: InnerIvInit for RabbitCore"]}
{"id": "C63", "title": "Rabbit IV separation", "statement": "Under one key, two different IVs that are not bitwise complements of each other never give the same internal state after the same number of blocks. For complementary IVs this can only happen if the counters left by key set-up spell out one of the two IVs.", "quantifier": "every key (and every start state with carry 0 or 1), every pair of IVs, every number of blocks", "why_tests_cant": "2^128 keys times 2^128 pairs of IVs times unboundedly many blocks.", "anchors": ["rabbit/src/lib.rs: State::setup_iv", "rabbit/src/lib.rs: State::counter_update"]}
{"id": "C64", "title": "SIMD intrinsics on flat registers", "statement": "Every vector intrinsic used by the ChaCha backends, as modelled on lanes, computes what the vendor manual says about flat 128-, 256- and 512-bit registers cut into 8-, 16-, 32-, 64- or 128-bit elements: element-wise add (carry confined to the element), xor, or, shifts, rotate, the shuffles and permutes with their control bytes, byte table look-ups, element extraction, and little-endian loads and stores.", "quantifier": "every register content, every immediate and every index vector", "why_tests_cant": "Up to 2^1024 operand pairs per intrinsic; a wrong lane order or a carry across an element shows up only on particular contents.", "anchors": ["chacha20/src/backends/sse2.rs", "chacha20/src/backends/avx2.rs", "chacha20/src/backends/avx512.rs", "chacha20/src/backends/neon.rs"]}
{"id": "C65", "title": "Generators seeded from each other", "statement": "from_rng on a ChaCha generator never panics, gives exactly the generator that from_seed makes of the next 32 bytes of the other one, and moves the other one by eight words. A family of generators (of 8, 12 and 20 rounds) that grows in this way shows what a family of independent cursors over published keystreams shows, on every backend, and what becomes of one member depends only on the calls addressed to it.", "quantifier": "every seed, every history of calls and forks of any length and shape, every assignment of backends to refills", "why_tests_cant": "The repository tests one fork of one fresh generator; families are unbounded trees of histories with 2^256 root seeds.", "anchors": ["chacha20/src/rng.rs: impl_chacha_rng (SeedableRng)", "chacha20/tests/rng.rs: test_chacha_construction"]}
{"id": "C66", "title": "Generators leak nothing through control flow", "statement": "When a ChaCha generator refills its buffer, which words of the buffer it reads, whether and where it panics, and the positions it reports depend only on the sequence of calls (lengths, positions), never on the seed, the stream number or the output.", "quantifier": "every pair of seeds, every pair of histories with the same calls, every build, both overflow-check modes", "why_tests_cant": "A statement about pairs of executions over 2^512 pairs of seeds; tests only see results.", "anchors": ["chacha20/src/rng.rs: set_word_pos", "chacha20/src/rng.rs: get_word_pos", "chacha20/src/rng.rs: serialize_state", "chacha20/src/rng.rs: deserialize_state", "chacha20/src/rng.rs: Generator::generate"]}
{"id": "C67", "title": "Salsa checkerboard states", "statement": "A raw Salsa state with z and -z in checkerboard order is left unchanged by any number of rounds, so the first block of a core made from it by from_raw_state is the state doubled word by word (all zeros for the zero state), and producing it never overflows. No key, nonce and block position lead to such a state.", "quantifier": "every 32-bit z, every number of rounds, both overflow-check modes, every key, nonce and 64-bit position", "why_tests_cant": "2^32 states times unboundedly many round counts, and a non-reachability claim over 2^384 inputs; the repository has no test of from_raw_state on special states.", "anchors": ["salsa20/src/lib.rs: from_raw_state", "salsa20/src/backends/soft.rs: quarter_round", "salsa20/src/backends/soft.rs: run_rounds", "salsa20/src/lib.rs: new"]}
{"id": "C68", "title": "Period of the generators", "statement": "After draws (next_u32, next_u64, fill_bytes) that take n words in all, a ChaCha generator compares equal to what it was before, and cannot be told from it by any calls, exactly if 2^68 divides n.", "quantifier": "every generator reached by any history, every series of draws of any lengths, every backend of every refill", "why_tests_cant": "The smallest interesting n is 2^68 words.", "anchors": ["chacha20/src/rng.rs: get_word_pos", "chacha20/src/rng.rs: PartialEq", "chacha20/src/rng.rs: Generator::generate"]}
{"id": "C69", "title": "Keystream reuse and malleability", "statement": "If two objects of one cipher with one key and nonce stand at the same position, the outputs of encrypting two messages of equal length (in any pieces, on any backends) differ exactly by the difference of the messages: if one encryption succeeds so does the other, and out1 xor out2 = in1 xor in2.", "quantifier": "every cipher type, key, nonce, pair of histories, position, pair of messages and chunkings", "why_tests_cant": "A statement about pairs of executions over unbounded messages and histories.", "anchors": ["chacha20/src/lib.rs: process_with_backend", "salsa20/src/lib.rs: process_with_backend", "hc-256/src/lib.rs: process_with_backend", "rabbit/src/lib.rs: process_with_backend", "rc4/src/lib.rs: try_apply_keystream_inout"]}
{"id": "C70", "title": "States belong to one key and nonce", "statement": "Two cipher objects with the same state layout are never in the same core state, whatever calls were made on them, unless their cores hold the same key and nonce (for the extended-nonce types: the same derived key and nonce tail); objects of the two ChaCha layouts can only meet under one key.", "quantifier": "every pair of seekable cipher types, keys, nonces, numbers of rounds and histories, without restriction on calls", "why_tests_cant": "A statement about all pairs of keys and nonces (2^704 and more) and all pairs of histories.", "anchors": ["chacha20/src/lib.rs: new_internal", "chacha20/src/xchacha.rs: new", "chacha20/src/legacy.rs: new", "salsa20/src/lib.rs: new", "salsa20/src/xsalsa.rs: new", "chacha20/src/variants.rs: set_block_pos"]}
{"id": "C71", "title": "NEON backend and byte order", "statement": "The NEON backend is selected on AArch64 of either byte order. On little-endian targets it is the backend of the other properties. On big-endian targets the ciphers with a 32-bit counter still give the RFC 8439 keystream; with the 64-bit counter every call leaves the two counter words and the two nonce words exchanged, so that the second of two 64-byte calls on a fresh ChaCha20Legacy returns block 2^32 for another nonce instead of block 1; every refill of a generator returns each word with its bytes reversed and leaves the portable state only if the exchanged words happen to be equal.", "quantifier": "both byte orders, every key, nonce, state, client closure and number of rounds", "why_tests_cant": "The tests of the repository run on little-endian targets; the statement is about all states and calls.", "anchors": ["chacha20/src/backends/neon.rs: inner", "chacha20/src/backends/neon.rs: rng_inner", "chacha20/src/backends/neon.rs: write_par_ks_blocks", "chacha20/src/backends.rs: mod neon", "chacha20/src/lib.rs: process_with_backend", "chacha20/src/rng.rs: generate"]}
{"id": "C72", "title": "Read position stored inside the buffer", "statement": "The ciphers keep the read position in the first byte of their one-block buffer, and the generators keep their index in the first word of their 64-word buffer. This never loses an unread byte or word: to every caller, panics included, such an object behaves as one with a separate position field; the stored position stays between 1 and the buffer size (so the branch declared unreachable is unreachable); and a block of 256 bytes would break it.", "quantifier": "every core (arbitrary function) with blocks of 1 to 255 bytes, every cipher of the repository, every seed, every history of calls", "why_tests_cant": "The overwritten byte matters only for particular positions and call sequences; the statement is about all of them.", "anchors": ["chacha20/src/chacha.rs: ChaCha20", "chacha20/src/legacy.rs: ChaCha20Legacy", "chacha20/src/xchacha.rs: XChaCha20", "salsa20/src/lib.rs: Salsa20", "salsa20/src/xsalsa.rs: XSalsa20", "hc-256/src/lib.rs: Hc256", "rabbit/src/lib.rs: Rabbit", "chacha20/src/rng.rs: BlockRng"]}
{"id": "C73", "title": "RC4 and HC-256 run backwards", "statement": "The memory of an RC4 object, together with the number of bytes used, determines all earlier keystream and the state made by the key schedule, by an explicit computation without the key. The memory of an HC-256 object, together with the number of bytes used, determines key and IV by an explicit computation. The number of bytes after which an RC4 state recurs is a multiple of 256; the number of words after which an HC-256 state recurs is a multiple of 2048.", "quantifier": "every key, IV, width of usize, overflow mode and history of calls; for the recurrences every state", "why_tests_cant": "Tests do not show that nothing is lost over arbitrarily long histories, nor anything about recurrences.", "anchors": ["rc4/src/lib.rs: prga", "rc4/src/lib.rs: unchecked_apply_keystream_inout", "hc-256/src/lib.rs: gen_word", "hc-256/src/lib.rs: new"]}
{"id": "C74", "title": "Symmetries of the rounds", "statement": "Turning all rows of a ChaCha state by the same number of columns turns the output of the rounds and final addition in the same way, for any number of double rounds; the same holds for Salsa with turns along the diagonals, also at the interface of from_raw_state. The constants exclude the symmetry: the states of two objects of one family, whatever their keys and nonces and after any calls, are never turns of each other.", "quantifier": "every state, number of double rounds and turn; every pair of keys and nonces and every pair of histories", "why_tests_cant": "Metamorphic relation over all 512-bit states; a wrong index in one quarter round breaks it only on generic states.", "anchors": ["chacha20/src/backends/soft.rs: run_rounds", "salsa20/src/backends/soft.rs: run_rounds", "salsa20/src/lib.rs: from_raw_state", "chacha20/src/lib.rs: new"]}
{"id": "C75", "title": "Every block is generated once and only when needed", "statement": "Over any history of calls a cipher object makes its backend generate exactly the blocks that begin inside the bytes read, plus one for each jump into the middle of a block; refused calls and position enquiries generate none. Without jumps the number depends only on the position reached; a call never generates more blocks than its buffer fills, rounded up.", "quantifier": "every cipher with a block core, key, nonce, width of usize, backend chosen anew at each call, and history of allowed calls", "why_tests_cant": "Tests observe output, not how often the block function runs; group sizes, tails and buffered rests combine in unboundedly many ways.", "anchors": ["chacha20/src/lib.rs: process_with_backend", "salsa20/src/lib.rs: process_with_backend", "hc-256/src/lib.rs: process_with_backend", "rabbit/src/lib.rs: process_with_backend"]}
{"id": "C76", "title": "What a dropped cipher object leaves behind", "statement": "Cargo turns on the feature of the cipher crate that clears key-stream buffers iff somebody asks for it or for the feature zeroize of salsa20, hc-256, rabbit or rc4; zeroize of chacha20 does not. Hence an object of the other families with its zeroize feature on leaves no unread keystream when dropped, while a ChaCha object with only chacha20/zeroize leaves exactly the unread rest of its current block of keystream in memory, although its state is cleared.", "quantifier": "every program (set of crates used and features asked for), cipher, key, nonce, history of allowed calls", "why_tests_cant": "Memory after drop is not observable by safe tests, and the feature sets of programs are unbounded.", "anchors": ["chacha20/Cargo.toml: zeroize", "salsa20/Cargo.toml: zeroize", "chacha20/src/lib.rs: drop", "salsa20/src/lib.rs: drop", "rabbit/src/lib.rs: drop", "hc-256/src/lib.rs: drop"]}
{"id": "C77", "title": "Every feature set compiles", "statement": "For every feature set that respects chacha20/Cargo.toml, every target and every backend flag, each item that exists names only items that exist; Cargo only produces such sets, and both lines of the table that imply cipher are needed. Features are additive: switching one on never removes an item, except the stand-in declaration of Counter, which is then replaced. The function avx2::inner is unused exactly when the attribute expect(unused) says so.", "quantifier": "every set of features, target architecture, set of target CPU features, backend flag and opt-in; every pair of items", "why_tests_cant": "CI builds a handful of the feature and flag combinations; the property is about all of them.", "anchors": ["chacha20/Cargo.toml: features", "chacha20/src/lib.rs: cfg_if", "chacha20/src/variants.rs: Counter", "chacha20/src/backends.rs: modules", "chacha20/src/backends/avx2.rs: inner", "chacha20/src/rng.rs: generate"]}
{"id": "C78", "title": "The text of rc4 is RC4", "statement": "The source text of rc4 itself (translated to Lean statement by statement by a macro, not by hand) computes RC4: new_from_slice refuses exactly the keys that are empty or longer than 256 bytes, new accepts what it accepts, and the object cannot be told from a cursor over the published keystream by any sequence of calls; input and output buffers may be different and what the output held is of no consequence. Nothing panics.", "quantifier": "every target (usize of 16 bits or more, with and without overflow checks), every key, every history of calls, every pair of buffers", "why_tests_cant": "Tests compare a few keys and lengths on one target; the hand translation of the other claims is not machine-checked.", "anchors": ["rc4/src/lib.rs: prga", "rc4/src/lib.rs: new_from_slice", "rc4/src/lib.rs: unchecked_apply_keystream_inout", "rc4/src/lib.rs: unchecked_write_keystream"]}
{"id": "C79", "title": "The text of rabbit is Rabbit", "statement": "The source text of rabbit itself (translated to Lean statement by statement by a macro) computes Rabbit: RabbitKeyOnlyCore::new and RabbitCore::inner_iv_init never panic, and the wrapped objects cannot be told from a cursor over the keystream of RFC 4503, without and with IV; gen_ks_block overwrites the whole block whatever it held; the drop code overwrites the whole state with zeros.", "quantifier": "every target (usize of 16 bits or more, with and without overflow checks), every key, IV, state, block and history of calls", "why_tests_cant": "Tests compare the RFC vectors on one target; the hand translation behind the other claims is not machine-checked.", "anchors": ["rabbit/src/lib.rs: setup_key", "rabbit/src/lib.rs: setup_iv", "rabbit/src/lib.rs: next_state", "rabbit/src/lib.rs: extract", "rabbit/src/lib.rs: gen_ks_block", "rabbit/src/lib.rs: drop"]}
{"id": "C80", "title": "The text of hc-256 is HC-256", "statement": "The source text of hc-256 itself (translated to Lean statement by statement by a macro) computes HC-256: Hc256Core::new never panics, and the wrapped object cannot be told from a cursor over the published keystream; gen_ks_block overwrites the whole block whatever it held, in every state with an index below 2048; the drop code overwrites both tables and the index with zeros.", "quantifier": "every target (usize of 16 bits or more, with and without overflow checks), every key, IV, state, block and history of calls", "why_tests_cant": "Tests compare a few vectors on one target; the hand translation behind the other claims is not machine-checked.", "anchors": ["hc-256/src/lib.rs: new", "hc-256/src/lib.rs: gen_word", "hc-256/src/lib.rs: g1", "hc-256/src/lib.rs: h1", "hc-256/src/lib.rs: gen_ks_block", "hc-256/src/lib.rs: drop"]}
{"id": "C81", "title": "The text of salsa20 is Salsa20 and XSalsa20", "statement": "The source text of salsa20 itself (translated to Lean statement by statement by a macro) computes Salsa20 and XSalsa20 for every number of double rounds: construction never panics, the wrapped objects cannot be told from cursors over the published keystreams under every history of calls and seeks, hsalsa is the published HSalsa20, the counter functions never panic, gen_ks_block overwrites the whole block whatever it held and panics only on incrementing the last counter with overflow checks on, the drop code overwrites the state with zeros.", "quantifier": "every target (usize of 16 bits or more, with and without overflow checks), every round parameter, key, nonce, raw state, block and history of calls and seeks", "why_tests_cant": "Tests compare a few vectors on one target; the hand translation behind the other claims is not machine-checked.", "anchors": ["salsa20/src/lib.rs: new", "salsa20/src/lib.rs: get_block_pos", "salsa20/src/lib.rs: set_block_pos", "salsa20/src/lib.rs: remaining_blocks", "salsa20/src/backends/soft.rs: run_rounds", "salsa20/src/backends/soft.rs: gen_ks_block", "salsa20/src/xsalsa.rs: hsalsa", "salsa20/src/xsalsa.rs: new"]}
{"id": "C82", "title": "The text of chacha20 (portable backend) is ChaCha, XChaCha and HChaCha", "statement": "The source text of chacha20 with the portable backend itself (translated to Lean statement by statement by a macro) computes ChaCha for every number of double rounds: new_internal builds the published matrix for a nonce of the right length and fails an assertion for every other length, construction of ChaCha, legacy ChaCha20 and XChaCha never panics, the wrapped objects cannot be told from cursors over the published keystreams under every history of calls and seeks, hchacha is the published HChaCha, the counter functions never panic, gen_ks_block and gen_ks_blocks overwrite the whole block or buffer whatever it held, never panic and advance the counter modulo its size, the drop code overwrites the state with zeros.", "quantifier": "every target (usize of any width for the ciphers, 16 bits or more for the refill, with and without overflow checks), every round parameter, key, nonce, raw state, block and history of calls and seeks", "why_tests_cant": "Tests compare a few vectors on one target; the hand translation behind the other claims is not machine-checked.", "anchors": ["chacha20/src/lib.rs: new_internal", "chacha20/src/lib.rs: get_block_pos", "chacha20/src/lib.rs: set_block_pos", "chacha20/src/lib.rs: remaining_blocks", "chacha20/src/lib.rs: quarter_round", "chacha20/src/variants.rs: Ietf, Legacy", "chacha20/src/chacha.rs: new", "chacha20/src/legacy.rs: new", "chacha20/src/xchacha.rs: new", "chacha20/src/xchacha.rs: hchacha", "chacha20/src/backends/soft.rs: run_rounds", "chacha20/src/backends/soft.rs: gen_ks_block", "chacha20/src/backends/soft.rs: gen_ks_blocks"]}
{"id": "C83", "title": "The text of the chacha20 generators is a cursor over the ChaCha word stream", "statement": "The source text of chacha20/src/rng.rs itself (translated to Lean statement by statement by a macro, over a model of rand_core's BlockRng) implements the generator for every number of double rounds: in every build whose refill is four ChaCha blocks with consecutive 64-bit counters - and the refill of the portable build is - every history of draws, jumps, stream changes, queries, serialisations and restorations shows what the abstract cursor over the published word stream shows and never panics, except that get_block_pos may with overflow checks, which it does in every generator after a jump to one of the last four blocks and one draw; fill_bytes does not depend on what the destination held; == never panics and is equality of seed, stream and position; from_seed of the block function fails an assertion for every seed with the 32-bit counter; the drop code of the generator overwrites the buffer.", "quantifier": "every target (usize of 16 bits or more, with and without overflow checks), every round parameter, seed, history of calls, destination buffer and 49-byte state", "why_tests_cant": "Tests draw a few words on one target; the hand translation behind the other claims is not machine-checked.", "anchors": ["chacha20/src/rng.rs: generate", "chacha20/src/rng.rs: from_seed", "chacha20/src/rng.rs: try_next_u32", "chacha20/src/rng.rs: try_next_u64", "chacha20/src/rng.rs: try_fill_bytes", "chacha20/src/rng.rs: eq", "chacha20/src/rng.rs: get_word_pos", "chacha20/src/rng.rs: set_word_pos", "chacha20/src/rng.rs: set_block_pos", "chacha20/src/rng.rs: get_block_pos", "chacha20/src/rng.rs: set_stream", "chacha20/src/rng.rs: get_stream", "chacha20/src/rng.rs: get_seed", "chacha20/src/rng.rs: serialize_state", "chacha20/src/rng.rs: deserialize_state"]}
{"id": "C84", "title": "The text of the SSE2 backend of chacha20 is ChaCha", "statement": "The source text of chacha20/src/backends/sse2.rs itself (translated to Lean statement by statement by a macro, with its raw pointers, casts, loads, stores and intrinsics) implements ChaCha: with its inner as process_with_backend, construction succeeds for every key and nonce, and under every history of calls and seeks the IETF ciphers with any number of rounds, the legacy cipher and the XChaCha ciphers cannot be told from cursors over the published keystreams; no load, store or pointer step leaves its object; whatever client code asks of the backend it gets the blocks, the panics and the final counter that it gets from the portable backend's text four blocks at a time; and rng_inner refills any buffer with four ChaCha blocks with consecutive 64-bit counters, so that all of C83 holds with it.", "quantifier": "every target (usize of 16 bits or more, with and without overflow checks), every round parameter, key, nonce, state, client closure and history of calls", "why_tests_cant": "Tests run a few lengths on one machine; whether an unsafe access is in bounds is not observed by a test at all.", "anchors": ["chacha20/src/backends/sse2.rs: inner", "chacha20/src/backends/sse2.rs: rng_inner", "chacha20/src/backends/sse2.rs: gen_ks_block", "chacha20/src/backends/sse2.rs: gen_par_ks_blocks", "chacha20/src/backends/sse2.rs: gen_ks_blocks", "chacha20/src/backends/sse2.rs: rounds", "chacha20/src/backends/sse2.rs: double_quarter_round", "chacha20/src/backends/sse2.rs: add_xor_rot", "chacha20/src/backends/sse2.rs: rows_to_cols", "chacha20/src/backends/sse2.rs: cols_to_rows"]}
{"id": "C85", "title": "The text of the AVX2 backend of chacha20 is ChaCha", "statement": "The source text of chacha20/src/backends/avx2.rs itself (translated to Lean statement by statement by a macro, with its raw pointers, casts, loads, stores, transmutes and 256-bit intrinsics) implements ChaCha: with its inner as process_with_backend, construction succeeds for every key and nonce, and under every history of calls and seeks the IETF ciphers with any number of rounds, the legacy cipher and the XChaCha ciphers cannot be told from cursors over the published keystreams; no load, store or pointer step leaves its object; whatever client code asks of the backend it gets the blocks, the panics and the final counter that it gets from the portable backend's text four blocks at a time; and rng_inner refills any buffer with four ChaCha blocks with consecutive 64-bit counters, so that all of C83 holds with it.", "quantifier": "every target (usize of 16 bits or more, with and without overflow checks), every round parameter, key, nonce, state, client closure and history of calls", "why_tests_cant": "Tests run a few lengths on one machine; whether an unsafe access is in bounds is not observed by a test at all.", "anchors": ["chacha20/src/backends/avx2.rs: inner", "chacha20/src/backends/avx2.rs: rng_inner", "chacha20/src/backends/avx2.rs: gen_ks_block", "chacha20/src/backends/avx2.rs: gen_par_ks_blocks", "chacha20/src/backends/avx2.rs: rng_gen_par_ks_blocks", "chacha20/src/backends/avx2.rs: rounds", "chacha20/src/backends/avx2.rs: double_quarter_round", "chacha20/src/backends/avx2.rs: add_xor_rot", "chacha20/src/backends/avx2.rs: rows_to_cols", "chacha20/src/backends/avx2.rs: cols_to_rows"]}
{"id": "C86", "title": "The text of the NEON backend of chacha20 is ChaCha", "statement": "The source text of chacha20/src/backends/neon.rs itself (translated to Lean statement by statement by a macro, with its raw pointers, casts, loads, stores, macros and 128-bit intrinsics, on a little-endian target) implements ChaCha: with its inner as process_with_backend, construction succeeds for every key and nonce, and under every history of calls and seeks the IETF ciphers with any number of rounds, the legacy cipher and the XChaCha ciphers cannot be told from cursors over the published keystreams; no load, store or pointer step leaves its object; whatever client code asks of the backend it gets the blocks, the panics and the final counter that it gets from the portable backend's text eight blocks at a time; and rng_inner refills any buffer with four ChaCha blocks with consecutive 64-bit counters, so that all of C83 holds with it.", "quantifier": "every target (usize of 16 bits or more, with and without overflow checks), every round parameter, key, nonce, state, client closure and history of calls", "why_tests_cant": "Tests run a few lengths on one machine; whether an unsafe access is in bounds is not observed by a test at all.", "anchors": ["chacha20/src/backends/neon.rs: inner", "chacha20/src/backends/neon.rs: rng_inner", "chacha20/src/backends/neon.rs: gen_ks_block", "chacha20/src/backends/neon.rs: gen_par_ks_blocks", "chacha20/src/backends/neon.rs: write_par_ks_blocks", "chacha20/src/backends/neon.rs: double_quarter_round", "chacha20/src/backends/neon.rs: add_xor_rot", "chacha20/src/backends/neon.rs: rows_to_cols", "chacha20/src/backends/neon.rs: cols_to_rows"]}
{"id": "C87", "title": "The text of the AVX-512 backend of chacha20 is ChaCha", "statement": "The source text of chacha20/src/backends/avx512.rs itself (translated to Lean statement by statement by a macro, with its raw pointers, casts, loads, stores, transmutes and 128-, 256- and 512-bit intrinsics, and with its wide, half-wide and quarter-wide paths) implements ChaCha: with its inner as process_with_backend, construction succeeds for every key and nonce, and under every history of calls and seeks the IETF ciphers with any number of rounds, the legacy cipher and the XChaCha ciphers cannot be told from cursors over the published keystreams; no load, store or pointer step leaves its object; and whatever client code asks of the backend - single blocks, sixteen at once, tails of any length - it gets the blocks, the panics and the final counter that it gets from the portable backend's text sixteen blocks at a time.", "quantifier": "every target (usize of 16 bits or more, with and without overflow checks), every round parameter, key, nonce, state, client closure and history of calls", "why_tests_cant": "Few machines run this code at all, it has five different paths by number of blocks, and whether an unsafe access is in bounds is not observed by a test.", "anchors": ["chacha20/src/backends/avx512.rs: inner", "chacha20/src/backends/avx512.rs: gen_ks_block", "chacha20/src/backends/avx512.rs: gen_par_ks_blocks", "chacha20/src/backends/avx512.rs: gen_tail_blocks", "chacha20/src/backends/avx512.rs: gen_blocks_fullwidth", "chacha20/src/backends/avx512.rs: gen_blocks_halfwidth", "chacha20/src/backends/avx512.rs: increment_ctr", "chacha20/src/backends/avx512.rs: rounds", "chacha20/src/backends/avx512.rs: double_quarter_round", "chacha20/src/backends/avx512.rs: add_xor_rot", "chacha20/src/backends/avx512.rs: rounds_halfwide", "chacha20/src/backends/avx512.rs: rounds_quarterwide"]}
{"id": "C88", "title": "The text of the dispatchers of chacha20, in every configuration", "statement": "The source text of process_with_backend and of Generator::generate itself, with its cfg_if! and #[cfg] and its CPU feature tokens (translated to Lean statement by statement for every configuration), is right in every build on every processor: the ciphers are cursors over the published keystreams under every history of calls and seeks; a refill of the generators is four blocks of ChaCha; client code gets from it what it gets from the portable text one, four, eight or sixteen blocks at a time, panics included; and the text hands over to the module that the configuration model says. Under every combination of flags, target and features except chacha20_backend=\"avx512\" without chacha20_avx512 on x86, the text that is left has one type of the tokens and one initialiser of that type, patterns of that size, a detection for every token and no name of a module that is not compiled; it stops the compiler with a message exactly if a vector backend is forced for an x86 target without its features.", "quantifier": "every configuration (flags, architecture, target features, crate features), every result of CPU detection, every target (usize of 16 bits or more, with and without overflow checks), every round parameter, key, nonce, state, client closure and history of calls", "why_tests_cant": "A test run compiles one configuration and runs on one processor; most branches of the dispatchers are absent from any given test binary.", "anchors": ["chacha20/src/lib.rs: ChaChaCore::process_with_backend", "chacha20/src/rng.rs: ChaChaCore::generate", "chacha20/src/backends.rs", "chacha20/src/lib.rs: Tokens", "chacha20/src/lib.rs: ChaChaCore::new_internal"]}
{"id": "C89", "title": "The text and the model are the same machine", "statement": "An object made and driven by the translated source text of any cipher of the repository shows its caller exactly what the object of the model shows, under every history of calls, with no condition on the calls: the same data, errors, positions and panics, for calls of the wrapper with seeks in and out of range, and for calls on the seekable cores without the wrapper. So under every history of calls and seeks, the block at the top of the counter range included, the text of the ChaCha family (and of Salsa and XSalsa without overflow checks) is a cursor over the published keystream; with overflow checks the text of Salsa panics on a seek into the middle of that block; and two histories of the same calls show the same whatever build and processor each call runs in.", "quantifier": "every cipher, round parameter, key and nonce, every history of calls, every build and CPU detection result per call, every target (usize of 16 bits or more, with and without overflow checks)", "why_tests_cant": "Tests run a few histories in one build; that two descriptions of a program agree on all histories cannot be sampled.", "anchors": ["chacha20/src/lib.rs", "chacha20/src/xchacha.rs", "chacha20/src/legacy.rs", "salsa20/src/lib.rs", "salsa20/src/xsalsa.rs", "hc-256/src/lib.rs", "rabbit/src/lib.rs", "rc4/src/lib.rs"]}
{"id": "C90", "title": "The text is constant time, and uses the instructions of its processor", "statement": "What somebody who watches the machine sees of a run of the translated text - the outcome of every condition, the number of rounds of every loop, the place of every access to an array or through a pointer, the operands of every division that is not a shift, and every vector instruction - does not depend on keys, nonces, counters or the data: not in ChaCha on any of its five backends (for callers that ask for as many blocks, which the encryption of messages of equal length does), not in the construction of ChaCha, XChaCha, Salsa, XSalsa, HChaCha, HSalsa and Rabbit, not in the refills of the generators, nor in the blocks of Salsa and Rabbit. The vector instructions seen belong to the feature of the backend - except that the SSE2 backend executes one instruction of SSE4.1 whenever the counter has 64 bits, and in every refill of a generator. RC4 and HC-256 are different: exactly which places they touch is given, and from it the arguments of the table functions of HC-256 and the two exchanged places of RC4 can be read off. Recording does not change what the text computes.", "quantifier": "every state, key, nonce, buffer, message, round parameter, counter type and target (usize of 16 bits or more, with and without overflow checks)", "why_tests_cant": "Timing tests compare averages for a few inputs on one machine; that no access or branch depends on any of the secret bits is a statement about pairs of runs for all pairs of secrets.", "anchors": ["chacha20/src/backends/soft.rs", "chacha20/src/backends/sse2.rs", "chacha20/src/backends/avx2.rs", "chacha20/src/backends/avx512.rs", "chacha20/src/backends/neon.rs", "chacha20/src/lib.rs", "chacha20/src/xchacha.rs", "chacha20/src/legacy.rs", "salsa20/src/lib.rs", "salsa20/src/xsalsa.rs", "rabbit/src/lib.rs", "rc4/src/lib.rs", "hc-256/src/lib.rs"]}
{"id": "C91", "title": "In every build, on every processor, the text of the dispatchers runs without a trace of the secrets on instructions that are there", "statement": "For every way of compiling chacha20 that does not stop with a message and is coherent, and every processor with at least the features that the target promises, the translated text of `process_with_backend` and `generate` - the tokens asked, the module chosen, and the whole of that module - does not panic, lets the same conditions, places and instructions be seen for all keys, nonces, counters and contents of buffers (and all callers that make the same requests), and executes only vector instructions that the processor has. There is one exception, and it is real: on every x86 processor with SSE2 and without SSE4.1, a program built without flags executes `_mm_extract_epi32` in every call of a cipher with a 64-bit counter and in every refill of a generator.", "quantifier": "every build (arch, flags, target features, rng), every lawful processor, every state, buffer, caller, round parameter, counter type and target (usize of 16 bits or more, with and without overflow checks)", "why_tests_cant": "The choice of the module depends on the build and on the processor; tests run a few of these pairs, on machines that have all the instructions, where an instruction that the tests for features do not cover is not noticed.", "anchors": ["chacha20/src/lib.rs", "chacha20/src/rng.rs", "chacha20/src/backends.rs", "chacha20/src/backends/soft.rs", "chacha20/src/backends/sse2.rs", "chacha20/src/backends/avx2.rs", "chacha20/src/backends/avx512.rs", "chacha20/src/backends/neon.rs"]}
{"id": "C92", "title": "The functions of the text that only hand on do so: every function of the repository with a body is translated", "statement": "The translated text of the functions that were left: `process_with_backend` of both Rabbit cores, HC-256, Salsa20, XSalsa20 and XChaCha20 (the last in every build on every processor) runs the client's code exactly once, on the backend around the core's own state, and keeps the state it left, with the same panics; `get_block_pos` and `set_block_pos` of the trait are the inherent ones; `Debug` of the ChaCha core, of the generators and of HC-256 and the name of the algorithm write exactly the documented text, whatever the object holds, and also a formatter that refuses in the middle learns nothing of the object; `Drop` of RC4 overwrites the permutation and both indices.", "quantifier": "all states, all client code (any number of requests depending on what was received), all round parameters, both counter types, all builds and processors, all formatters, both overflow modes, usize of 16 bits or more", "why_tests_cant": "Forwarding functions are compiled for every type but called for few; what `Debug` prints of a secret, and what is left after drop, no functional test looks at.", "anchors": ["chacha20/src/lib.rs", "chacha20/src/rng.rs", "chacha20/src/xchacha.rs", "hc-256/src/lib.rs", "rabbit/src/lib.rs", "rc4/src/lib.rs", "salsa20/src/lib.rs", "salsa20/src/xsalsa.rs"]}
{"id": "C93", "title": "The text of the generators and the model are the same machine, in circumstances that may change with every call", "statement": "For every seed, every history of calls on a generator (words, bytes, jumps, streams, saving, loading) and every way of compiling and every processor for each single call, the translated text of `rng.rs` together with the text of the dispatcher and of the chosen module shows what the model shows, panics at the same call in the same way, and is left in the same state; so builds and processors have no influence at all, panics included. A generator saved on one machine and loaded on another, with other overflow checks, another size of usize and another backend, compares equal to the first and cannot be told apart from it by calls other than `get_block_pos` under overflow checks; any 49 bytes can be loaded and are written back unchanged but for four bits.", "quantifier": "all seeds, histories of any length, builds, processors (per call), round parameters, targets (usize of 16 bits or more, both overflow modes, also two different ones)", "why_tests_cant": "Saved states move between machines with different backends; a test runs on one machine with one build, and a refill that differs in one backend only, or an index that is kept differently, shows up only in such a change.", "anchors": ["chacha20/src/rng.rs", "chacha20/src/lib.rs", "chacha20/src/backends.rs", "chacha20/src/backends/soft.rs", "chacha20/src/backends/sse2.rs", "chacha20/src/backends/avx2.rs", "chacha20/src/backends/neon.rs", "chacha20/src/variants.rs"]}
{"id": "C94", "title": "What can be seen of a run of the text of the generators", "statement": "Recording every condition, every index and slice bound, every loop count, every division and every vector instruction of the translated text of `rng.rs`, of `BlockRng` and of the chosen module: two histories of the same calls in the same circumstances show the same record, unless one of them panics, whatever the seeds, the streams, the block positions, the saved seeds and streams and the words drawn; of a word position only its remainder modulo 16 matters. Nothing panics without `get_block_pos` or without overflow checks. Every instruction in the record is one of the processor, if the processor has what the builds promise, but for `_mm_extract_epi32` without SSE4.1. The exception is `==`: its record tells whether the seeds agree, and if they do whether the streams agree, and nothing else.", "quantifier": "all pairs of seeds, histories of any length, builds, processors (per call), round parameters, targets (usize of 16 bits or more, both overflow modes)", "why_tests_cant": "What a program shows to its surroundings does not appear in its output; a branch on a key word or a secret-dependent index gives correct results, and a test that measures times sees only the inputs that were tried.", "anchors": ["chacha20/src/rng.rs", "chacha20/src/lib.rs", "chacha20/src/backends/soft.rs", "chacha20/src/backends/sse2.rs", "chacha20/src/backends/avx2.rs", "chacha20/src/backends/neon.rs", "chacha20/src/variants.rs"]}
{"id": "C95", "title": "What can be seen of a whole history of calls on a seekable cipher of the text", "statement": "Recording every condition, every index and slice bound, every loop count, every division and every vector instruction of the translated text of `ChaCha`, `ChaCha20Legacy`, `XChaCha`, `Salsa` and `XSalsa`, and every condition and place of the buffering wrapper around them: two histories of the same calls (`apply_keystream`, `write_keystream`, `seek`, `current_pos`) in the same circumstances, on two ciphers of one type with any keys and nonces and on any data of the same lengths, panic both for the same reason or return both, with answers of the same shape, and if they return the record is the same. Nothing panics if the counter wraps. Every instruction in the record is one of the processor, if the processor has what the builds promise, but for `_mm_extract_epi32` of `ChaCha20Legacy` without SSE4.1; Salsa and XSalsa execute no vector instruction.", "quantifier": "all keys, nonces and data, histories of any length, builds, processors (per call), round parameters, targets (usize of 16 bits or more, both overflow modes)", "why_tests_cant": "Secret-dependent branches and indices do not show in outputs; a test that measures times sees only the inputs that were tried, and only one machine.", "anchors": ["chacha20/src/lib.rs", "chacha20/src/legacy.rs", "chacha20/src/xchacha.rs", "salsa20/src/lib.rs", "salsa20/src/xsalsa.rs", "chacha20/src/backends/soft.rs", "chacha20/src/backends/sse2.rs", "chacha20/src/backends/avx2.rs", "chacha20/src/backends/avx512.rs", "chacha20/src/backends/neon.rs"]}
{"id": "C96", "title": "What can be seen of RC4 and HC-256 tells their keys and states", "statement": "Recording which places of their tables the translated text of `rc4` and `hc-256` looks at (and every condition, bound and loop count): `Rc4::new_from_slice` is seen to do the same for two valid keys exactly if the keys, each repeated up to 256 bytes, agree, so keys of one length are told apart by the record; two RC4 ciphers, in any states, that are seen to do the same over 257 bytes or more of keystream or of encryption were in the same state. `Hc256Core::new` is seen to do the same only for the same key and nonce; two HC-256 cores, in any states with an index below 2048, that are seen to do the same over 5132 words or more were in the same state. So these two ciphers do not have the property of C90, C94 and C95, and what is lost is everything.", "quantifier": "all keys and nonces, all table contents and indices, data of any length from the bound on, targets (usize of 16 bits or more, both overflow modes)", "why_tests_cant": "That the places of accesses tell the whole key is a statement about all pairs of keys; no output shows where a table was read.", "anchors": ["rc4/src/lib.rs", "hc-256/src/lib.rs"]}
{"id": "C97", "title": "What can be seen of whole histories of calls on Rabbit, HC-256 and RC4", "statement": "Recording every condition, place and loop count of the translated text of `rabbit`, `hc-256` and `rc4` from the creation of the cipher through any history of `try_apply_keystream` and `try_write_keystream` (with the record of the buffering wrapper around the first two): without the record, these lives are those of C89. Of Rabbit, with or without initialisation vector, the same is seen for any two keys, initialisation vectors and data of the same lengths. Of HC-256 and RC4 the same is seen for one key and any data of the same lengths. But two lives of RC4 of which the same is seen, with whatever calls and data, have the same key up to repetition, and two such lives of HC-256 have the same key and initialisation vector. Data that fit in memory never panic.", "quantifier": "all keys and initialisation vectors, all histories of calls with any data, targets (usize of 16 bits or more, both overflow modes)", "why_tests_cant": "A test that compares outputs sees neither branches nor places of accesses; the statement is about all pairs of keys and histories.", "anchors": ["rabbit/src/lib.rs", "hc-256/src/lib.rs", "rc4/src/lib.rs"]}
{"id": "C98", "title": "Any client code on the cores of the text", "statement": "`process_with_backend` takes any closure. For every history of calls on a core of the translated text of ChaCha, legacy ChaCha20, XChaCha, Salsa or XSalsa - each call running any terminating client code that asks for blocks, groups and tails, adaptively if it likes, or `remaining_blocks`, `get_block_pos`, `set_block_pos` - the text answers as the model does, panics included; the provided methods of the traits are such client code; client code whose result does not depend on the size of groups gets the blocks of the published keystream from the position on, and is told the truth about the position, as long as it stays inside the keystream. Recording conditions, places, loop counts and instructions: two histories of client code that makes the same requests, on cores of one type with any two keys and nonces, panic or return alike, and show the same; every instruction belongs to a feature of the processor, except the one of C48. The same is seen of the two cores of Rabbit for any keys, and of HC-256 for one key and any such client code.", "quantifier": "all client code (well-founded request trees over all block contents), all histories, keys, nonces, builds and processors, targets (usize of 16 bits or more, both overflow modes)", "why_tests_cant": "Client code is a function of all blocks it may be given; tests can only bring a few closures, and see neither branches nor places of accesses.", "anchors": ["chacha20/src/lib.rs", "chacha20/src/xchacha.rs", "salsa20/src/lib.rs", "salsa20/src/xsalsa.rs", "rabbit/src/lib.rs", "hc-256/src/lib.rs"]}
{"id": "C99", "title": "What is seen of any client code is what is seen of its requests", "statement": "Client code on a core of the translated text may ask for more or less depending on the blocks it was given. For every history of calls on a core of ChaCha, legacy ChaCha20, XChaCha, Salsa or XSalsa, each running any terminating client code with a result of any type, or asking about the position: if the history returns, having made some list of requests, then its conditions, places, loop counts and instructions, and the answers about positions, are those of client code that makes just these requests and looks at nothing. So two histories of any two pieces of client code, on cores of one type with any two keys and nonces in the same circumstances, that have made the same requests show the same; what client code asks for is told by the published keystream, as long as it asks for the same whatever the size of groups and stays inside the keystream; and every instruction executed for any client code belongs to a feature of the processor, except the one of C48. The same is seen of the two cores of Rabbit for any keys, and of HC-256 for one key.", "quantifier": "all client code (well-founded request trees over all block contents, adaptive or not, with results of any types), all histories that return, keys, nonces, builds and processors, targets (usize of 16 bits or more, both overflow modes)", "why_tests_cant": "The claim is about all functions from blocks to further requests, on two keys at once, and about branches and places that tests do not observe.", "anchors": ["chacha20/src/lib.rs", "chacha20/src/xchacha.rs", "chacha20/src/backends/sse2.rs", "chacha20/src/backends/avx2.rs", "chacha20/src/backends/avx512.rs", "chacha20/src/backends/neon.rs", "salsa20/src/lib.rs", "salsa20/src/xsalsa.rs", "rabbit/src/lib.rs", "hc-256/src/lib.rs"]}
{"id": "C100", "title": "How much client code has asked for is seen", "statement": "C99 says that nothing is seen of client code but its requests; this says that their extent is seen. Take two histories of calls on cores of ChaCha, legacy ChaCha20, XChaCha, Salsa or XSalsa, of one type with any two keys and nonces, on whatever backend, in the same circumstances, that have asked for the same until their last call, and let the second have asked in that call for all that the first has asked for and then for at least one thing more, be it a tail of no blocks. Then both return and the second has a strictly longer record of conditions, places, loop counts and instructions. So if of what two pieces of client code have asked for one list begins with the other, their records are the same if and only if they have asked for the same; client code that asks for one block after the other shows the number of its blocks and nothing else; and if a look at the published keystream makes client code ask for more, that is seen. The same holds of the two cores of Rabbit for any keys, and of HC-256 for one key.", "quantifier": "all client code (well-founded request trees over all block contents, with results of any types), all histories that return, all lists of requests of which one begins with the other, keys, nonces, builds and processors, targets (usize of 16 bits or more, both overflow modes)", "why_tests_cant": "The claim compares records of branches and places, which tests do not observe, for all lists of requests and all pairs of keys.", "anchors": ["chacha20/src/lib.rs", "chacha20/src/xchacha.rs", "chacha20/src/backends/soft.rs", "chacha20/src/backends/sse2.rs", "chacha20/src/backends/avx2.rs", "chacha20/src/backends/avx512.rs", "chacha20/src/backends/neon.rs", "salsa20/src/lib.rs", "salsa20/src/xsalsa.rs", "rabbit/src/lib.rs", "hc-256/src/lib.rs"]}
{"id": "C101", "title": "Every request of client code is seen", "statement": "C99 says that nothing is seen of client code but its requests, and C100 that their extent is seen; this says that the requests themselves are seen. Take two histories of calls on cores of ChaCha, legacy ChaCha20, XChaCha, Salsa or XSalsa, of one type with any number of double rounds and with any two keys and nonces, on whatever backend, in the same circumstances, that have asked for the same until their last call. Then their records of conditions, places, loop counts and instructions are the same if and only if their last calls have made the same requests, in the same order: a single block, a group and a tail are told apart, even where a group has one block or where the same rounds compute a block and a group, and so are tails of different lengths, even where AVX-512 runs both through the same code. So any decision that client code takes on the published keystream is seen, so far as it changes what it asks for. The same holds of the two cores of Rabbit for any keys, and of HC-256 for one key; of HC-256 with any two keys and initialisation vectors the records are the same if and only if these and the requests are the same, and two lives with whatever calls that have the same record have the same key and initialisation vector.", "quantifier": "all client code (well-founded request trees over all block contents, with results of any types), all histories that return, all lists of requests, keys, nonces, builds and processors, targets (usize of 16 bits or more, both overflow modes)", "why_tests_cant": "The claim compares records of branches and places, which tests do not observe, for all pairs of lists of requests and all pairs of keys.", "anchors": ["chacha20/src/lib.rs", "chacha20/src/xchacha.rs", "chacha20/src/backends/soft.rs", "chacha20/src/backends/sse2.rs", "chacha20/src/backends/avx2.rs", "chacha20/src/backends/avx512.rs", "chacha20/src/backends/neon.rs", "salsa20/src/lib.rs", "salsa20/src/xsalsa.rs", "rabbit/src/lib.rs", "hc-256/src/lib.rs"]}
