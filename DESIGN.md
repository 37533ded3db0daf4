# Formal model of RustCrypto/stream-ciphers

Lean 4.33.0, project in `lean/`. `properties.jsonl` lists the claims, `MANIFEST.json` maps each claim to
theorem names, `seeded/LOG.jsonl` records the seeded-bug experiments.

## 1. Trusted base

* Lean's kernel. Every theorem depends only on `propext`, `Classical.choice`, `Quot.sound` (or fewer).
  No project axioms, no `sorry`, no `native_decide`, no `bv_decide`.
* The hand translation Rust -> Lean. Each definition cites the file and lines it mirrors. From C78 on this is replaced, for the files in
  `Verif/Rust/Src`, by a mechanical one: the Rust text stands in the Lean file, a macro (`Verif/Rust/Syntax`) turns it into a Lean definition, and
  the operations of the language are defined in `Verif/Rust/Lang`. What is trusted then is the macro and `Lang` (and `Rust/Cfg`, which removes what conditional compilation removes); for the
  vector backends also `Rust/Mem` (a raw pointer is a place and an offset in bytes, an access outside the place is an error that stands for undefined
  behaviour, arrays are their little-endian bytes), `Rust/Intrinsics` (the registers of `Model/Simd`) and `Rust/Closure`. That the text is the text of
  the repository can be checked with `python3 tools/textdiff.py`, which compares it token by token with the cited lines and prints the
  differences: branches of `cfg_if!` that were left out (they are in `ChaChaDispatch`), nested functions moved out, and types written out that `rustc` infers.
  It also lists the functions of the crates (outside tests and benchmarks) that have no text in Lean; there are none. What `write!` and `write_str` do is in `Rust/Fmt`.
* For C90 the list of things that can be seen of a run (`Verif/Rust/Trace`): conditions, loop counts, places of accesses, operands of divisions except by powers of two,
  and vector instructions. Additions, multiplications, rotations and vector instructions are taken to run in a time that does not depend on their operands, and the compiler
  is taken not to add branches or accesses. The features that instructions belong to are in `Verif/Spec/Isa`.
* The semantics given to Rust's integer operations (`wrapping_add`, `+` with and without overflow checks,
  `rotate_left`, `as`, `from_le_bytes`, slicing) - `Verif/Basic`.
* The semantics given to SIMD intrinsics (Intel/Arm manuals), written from memory - the statements of C64, in terms of `Spec.elem`
  (bits `wj .. wj+w-1` of a flat register); the lane-based definitions in `Verif/Model/Simd` are proved to agree with them. And the
  table from intrinsics to CPU features - `Verif/Model/Isa`.
* The memory model for the unsafe code (`Verif/Model/Raw`): a pointer is an object, an offset and the bounds it was derived with;
  memory is little-endian bytes, possibly uninitialised; alignment is left out because every intrinsic used is an unaligned one.
* The behaviour given to external crates that are *not* in /repo and not in the sandbox (written from knowledge of the
  published sources):
  * `cipher` 0.5 (`Verif/Model/Wrapper`): `StreamCipherCoreWrapper`, `StreamCipher`, `StreamCipherSeek`, the keystream closures;
  * `rand_core` 0.10 (`BlockRng`, in `Verif/Model/Rng`; `from_rng`, in `Verif/Model/Family`);
  * `zeroize` (`Verif/Model/Hygiene`): element-wise overwriting. That volatile writes survive compilation is outside the model;
  * `block-buffer` (through `cipher`): with the feature `zeroize` of `cipher` the wrapper's buffer is overwritten when dropped, without it
    not (`Verif/Model/Features`).
* Cargo's feature resolution (`Verif/Model/Features`: the least set closed under what is asked for and the tables of the manifests).
* The specifications in `Verif/Spec/*` (RFC 8439, DJB's Salsa20/ChaCha, HC-256 paper, RFC 4503, RC4), which are
  short and written independently of the code. `Verif/Tests/*` evaluates both the specifications and the model on the test
  vectors of the repository.

## 2. What is modelled

| Rust | Lean |
|---|---|
| `chacha20/src/lib.rs`, `variants.rs`, `chacha.rs`, `legacy.rs`, `xchacha.rs`, `backends/soft.rs` | `Model/ChaCha` |
| `chacha20/src/backends/{sse2,avx2,avx512,neon}.rs`, values | `Model/ChaCha{Sse2,Avx2,Avx512,Neon}` over `Model/Simd` |
| the same, raw pointers and `MaybeUninit` buffers | `Model/Raw` |
| `backends/neon.rs` with the byte order as a parameter | `Model/Endian` |
| `chacha20/src/rng.rs` | `Model/Rng` |
| `chacha20` cfg logic (tokens, dispatch), required CPU features | `Model/Config`, `Model/Isa` |
| `salsa20/src/*` | `Model/Salsa` |
| `hc-256/src/lib.rs`, `rabbit/src/lib.rs`, `rc4/src/lib.rs` | `Model/Hc256`, `Model/Rabbit`, `Model/Rc4` |
| `Drop`/`Zeroize` and `Debug` implementations | `Model/Hygiene` |
| exported type aliases, slice constructors | `Model/Api` |
| the sequence of array accesses of the scalar code | `Model/Trace` |
| refills and buffer reads of the generators | `Model/RngTrace` |
| `SeedableRng::from_rng` between generators | `Model/Family` |
| `cipher` traits: `apply`, `write`, `seek`, `current_pos`; `Backend`, closures | `Model/Wrapper`, `Model/Backend` |
| `ReadBuffer`, `BlockRng` with the position inside the buffer (C72 relates them to `Model/Wrapper`, `Model/Rng`) | `Model/Packed` |
| `BlockSizeUser`, `StreamCipherCore`, `StreamCipherSeekCore` called on the cores directly | `Model/CoreApi` |
| the requests the wrapper makes to the backends (group sizes, number of blocks) | `Model/Requests`, `Model/Work` |
| buffers that overlap or are aliased (`InOutBuf`) | `Model/Memory` |
| the feature tables of the five `Cargo.toml`, dropping of whole objects | `Model/Features` |
| the items of `chacha20`, their `cfg` attributes and the names in their text | `Model/Items` |
| the text of `rc4` | `Rust/Src/Rc4` (through `Rust/Syntax`, `Rust/Lang`) |
| the text of `rabbit` | `Rust/Src/Rabbit`; `Rust/Core` and `Rust/RabbitApi` put it behind the interface of a core |
| the text of `hc-256` | `Rust/Src/Hc256`, `Rust/Hc256Api` |
| the text of `salsa20` | `Rust/Src/Salsa`, `Rust/SalsaApi` |
| the text of `chacha20` with the portable backend | `Rust/Src/ChaCha`, `Rust/ChaChaApi` |
| the text of `chacha20/src/rng.rs` | `Rust/Src/ChaChaRng`, `Rust/ChaChaRngApi`; `rand_core::block::BlockRng` is `Rust/BlockRng` (trusted), which also says which conditions and places of the buffer are seen (C94); calls that record are `Rust/ChaChaRngTrace` |
| the text of `chacha20/src/backends/sse2.rs`, `avx2.rs`, `avx512.rs`, `neon.rs` | `Rust/Src/ChaChaSse2`, `ChaChaAvx2`, `ChaChaAvx512`, `ChaChaNeon`, `Rust/ChaChaBuild`; `macro_rules!` of `neon.rs` are Lean macros with the same right-hand sides; raw pointers are `Rust/Mem`, intrinsics `Rust/Intrinsics`, `StreamCipherBackend` and closures `Rust/Closure` (all trusted) |
| the text of the dispatchers, of `chacha20/src/backends.rs` and of `Tokens`, in every configuration | `Rust/Src/ChaChaDispatch`, `Rust/Cfg`; `cpufeatures::new!` is a token without contents whose `get` reports the feature (trusted) |
| the wrapper of the ciphers, recording | `Rust/WrapperTrace` (which conditions and places of the wrapper are seen; trusted), `Rust/CiphersTrace`, `Rust/PlainTrace` (the recording text as its core, and RC4, which has no wrapper), `Rust/ClientTrace` (any client code on the cores instead of the wrapper), `Rust/ClientRequests` (what it has asked for) |

Conventions: `u8/u32/u64` are `BitVec`; arrays are `Vector`; slices are `List`; a panic is an `Except.error`; debug/release
(overflow checks on/off) is an explicit parameter where an unsuffixed arithmetic operator occurs; `usize` width is a
parameter where it matters; the double-round count is an arbitrary `Nat` (the `Rounds` trait is open).

Buffers are byte lists (input list -> output list) except in `Model/Memory.lean`, where `InOutBuf` is a pair of regions of one
memory; C61 shows that the two agree. `InOutBuf` and the block loops over it follow the published source of `inout` 0.2 and
`cipher` 0.5, which are part of the trusted base.

Not modelled: machine-level timing; compiler correctness; pointer provenance beyond bounds; `tests/` (their vectors are
evaluated in `Verif/Tests`), `benches/`; documentation attributes; marker traits without methods (`ZeroizeOnDrop`, `TryCryptoRng`, `Eq`). Except in `Model/Endian` (C71), NEON means little-endian AArch64.

## 3. Method

* **Block functions.** Spec = 4x4 matrix / integer formulation. Model = word-by-word array code. Proof: the quarter
  round is kept opaque, a lemma turns each in-place quarter round into the spec's; rounds by induction on the count.
* **Backends.** A backend is a record (parallel width, single, parallel, tail) acting on its own register state. A
  closure is an arbitrary list of requests. One theorem per backend: outputs are the consecutive reference blocks and
  the stored state is the input state with the counter advanced - for every list of requests, by induction.
* **Wrapper.** `StreamCipherCoreWrapper` over any core satisfying a small interface law (`Rel s n`: core state s stands for
  block n of stream K) refines a cursor (position p over an infinite byte stream). All stream-level properties (C04-C11 etc.)
  are consequences of this one refinement, instantiated for each cipher.
* **RNG.** Model of the `BlockRng` + core refines (seed, stream, word position mod 2^68); forward simulation for
  every operation, then induction over histories.
* **Number theory for Rabbit**: counter system is a translation mod 2^256-1.

## 4. Per property

(The theorem names are in `MANIFEST.json`.)

| id | how |
|---|---|
| C01 | model of `new` + `process_with_backend` + wrapper versus matrix spec; rounds by induction; stream by refinement |
| C02 | per-backend theorem over all request lists; state equality |
| C03 | wrapper step parameterised by a per-call backend choice; independence by C02 |
| C04-C06 | from refinement to the cursor |
| C07-C11 | from refinement with seek; limit analysis for all usize widths |
| C12, C47 | invariant on state words over all core operations |
| C13, C14 | instances of C01 with 64-bit counter arithmetic |
| C15, C16 | hchacha versus spec; XChaCha object equals ChaCha object |
| C17 | constructors return `ok`; the IETF core seeding returns `error` for every seed |
| C18-C26 | forward simulation to the abstract RNG |
| C27, C28 | per-backend refill theorem; concrete disagreement witness evaluated by the kernel |
| C29-C32 | as C01, C15, C16 for Salsa; raw state with explicit overflow-check mode |
| C33, C34 | table/step simulation to the paper's recurrence; index invariant makes every checked access `ok` |
| C35, C37 | integers versus u32/u64 code, carry invariant |
| C36 | translation on Z/(2^256-1), gcd computation |
| C38-C41 | RC4: simulation, permutation invariant, backward step, Finney invariant |
| C42, C43 | finite tables of cfg combinations / instruction sets, decided in the kernel over the complete table |
| C44, C45 | models of Drop and Debug |
| C46 | index-trace semantics |
| C48 | explicit inverse of the rounds |
| C49 | byte-level memory with bounds-carrying pointers; each pointer program refines the value-level backend |
| C50 | backward determinism of one step; induction on blocks; the expansion recurrence is solved backwards |
| C51 | the cursor refinement for a stream shifted by one block, without any condition on seek targets |
| C52 | input matrices coincide; reads through the cursor refinement |
| C53 | induction on the key schedule |
| C54 | word-wise comparison of the two functions on the same initial state |
| C55 | table of exported types against a table of promises; slice conversions; C01 etc. |
| C56 | inverting all top bits commutes with the quarter round, and cancels in sums |
| C57 | direct computation with a symbolic table |
| C58 | injectivity (C40, C50) and finiteness of the state set |
| C59 | a counter machine as specification; simulation by call |
| C60 | two-run relation on programs and wrappers; a logging core that erases to the plain one |
| C61 | byte memory with input and output regions; loops over memory equal the list model when regions coincide or are disjoint |
| C62 | exclusive or with zero; shift of the cursor |
| C63 | the counter system as a translation modulo 2^256 - 1 (as in C36); 0 and 2^256 - 1 are the only two counter values with one residue |
| C64 | `Spec.elem w x j`, the j-th w-bit element of a flat bit string, and the vendor's per-element description of each intrinsic |
| C65 | `Spec.Family`: a list of cursors; a new member is the cursor at 0 of the seed spelt by the next eight words of its parent |
| C66 | comparison of two executions; the record is tied to the plain model by C66_faithful |
| C67 | the doubled words, written out byte by byte; `checker` is the state |
| C68 | divisibility of the number of words by 2^68; `drawn` counts the words of a call |
| C69 | byte-wise XOR of inputs and outputs |
| C70 | `layout` and `ident`: key and nonce of the core according to `Spec.ChaCha`, `Spec.Salsa` |
| C71 | RFC 8439 and DJB blocks; byte reversal and exchange of words written out |
| C72 | equality of observations with the object that has a position field; published keystream (`Spec/Cursor`) |
| C73 | `Spec/Backward`: the inverse rounds and the inverse expansion |
| C74 | turns are defined by index arithmetic on the 16 words, independently of the rounds |
| C75 | `Model/Work`: the unchanged wrapper on a core with a meter; `Spec/Work`: the count from the caller's positions |
| C76 | `Model/Features` transcribes the feature tables; the drop of the wrapper is described from the buffer layout of C72. A finding: `chacha20/zeroize` lacks `cipher/zeroize` |
| C77 | `Model/Items` lists the items of `chacha20`, the `cfg` each stands under and the items its text names; agreement with `Model/Config` (C42, C43) is part of the claim |
| C78 | the Rust text is in `Rust/Src/Rc4`, its translation is computed by `Rust/Syntax`; equality with `Model/Rc4`, then C38 |
| C79 | the Rust text is in `Rust/Src/Rabbit`; equality with `Model/Rabbit`, then the proof of C35 |
| C80 | the Rust text is in `Rust/Src/Hc256`; equality with `Model/Hc256`, then the proof of C33 |
| C81 | the Rust text is in `Rust/Src/Salsa`; equality with `Model/Salsa`, then the laws of the wrapper |
| C82 | the Rust text is in `Rust/Src/ChaCha`; equality with `Model/ChaCha`, then the laws of the wrapper |
| C83 | the Rust text is in `Rust/Src/ChaChaRng`; equality with `Model/Rng`, then C18, C20, C23 |
| C84 | the Rust text is in `Rust/Src/ChaChaSse2`; equality with `Model/ChaChaSse2`, then the proof of C82 |
| C85 | the Rust text is in `Rust/Src/ChaChaAvx2`; equality with `Model/ChaChaAvx2`, then as C84 |
| C86 | the Rust text is in `Rust/Src/ChaChaNeon`; equality with `Model/ChaChaNeon`, then as C84; little-endian AArch64 (the other byte order: C71) |
| C87 | the Rust text is in `Rust/Src/ChaChaAvx512`; equality with `Model/ChaChaAvx512`, then as C84 |
| C88 | the Rust text is in `Rust/Src/ChaChaDispatch`, read by `Rust/Cfg`; per configuration it reduces to the call of one module (C83-C87); the tokens have no contents, so a value of type `Tokens` is `()` in every configuration and the shapes are compared as text |
| C89 | a map from states of the model to states of the text that commutes with every call (`Proof/CoreHom`); this carries every theorem about observations of the model (C04-C11, C51, C59 ...) over to the text; bounds of `FitsUsize` appear only where the model theorem needs them |
| C90 | the macro translates the same text a second time, into computations that record (`Rust/Trace`); proved by a relation between two runs (`Proof/Oblivious`: secrets are related by their type and length only) that every construct of the text preserves; each theorem also says that the recording text computes what the text computes; with overflow checks a block of Salsa is taken short of the last counter, where it panics (C32) |
| C91 | the text of the dispatchers is translated to a recording one for each build (`Rust/Cfg`); the conditions seen are exactly those on what was detected, and the module is the one that the model selects (`Proof/TraceDispatch`); the modules are C90; the last clause of the first two says that the recording text computes what the text computes (C88) |
| C92 | the remaining texts are in `Rust/Src/*`; each is equal to what C89 has as its core, so C89 is about the text without a function in between; `core::fmt` is `Rust/Fmt` (trusted); `tools/textdiff.py` lists the functions without a text (there are none) |
| C93 | the map from states of the model to states of the text commutes with every call (as C89); C88 for the refills; then C18, C21 and C22 are carried over |
| C94 | the same relation between two runs as for C90 and C91, with the number of words read as the only public part of a generator; C93 for the absence of panics and for the last four bits of a saved position |
| C95 | a recording copy of the wrapper over a recording core; without the record it is the wrapper of C89, and the relation between two runs of C90 and C91 is carried through every path of it; the common fate is that of C89 and the model |
| C96 | RC4: the record of the set-up shows j after every round, hence the key byte; later both tables agree at i and j at every step, so the places where they differ stay, and i visits all. HC-256: each step shows the word 12 places back completely, each entry of the tables is shown within 3084 steps, and steps can be undone (C50) |
| C97 | the wrapper of C95 around the recording text of Rabbit and HC-256; the backend of the text is called as client code asks, and the record of a call depends only on the shape of the client code. The record of the set-up has the same length for all keys, so C96 applies to the start of a life |
| C98 | client code is the free monad of the requests; the homomorphism of C89 and the record of C95 and C97 are about every closure, so histories follow by induction. The keystream is given to client code by the reference semantics of requests, and the law of the core |
| C99 | C98 compares client code whose requests agree for all blocks; here the requests need only agree in the run. The recording text is shown to call client code exactly once and otherwise to hand it through (`Calls` in `Proof/Follow`), and a run of client code is followed request by request; the records then are those of a fixed list of requests, to which C98 applies |
| C100 | every request that is answered records something (`Busy` in `Proof/Extent`), and what the text records after it has called client code has one length whatever that has asked for (`Steady`); so the record of a longer list of requests is longer, and C99 carries this to any client code and any two keys. It makes C99 exact for lists of which one begins with the other. It does not say that lists of which neither begins with the other are told apart |
| C101 | a request has one and the same record whatever is asked for after it, and of the records of different requests neither begins with the other, so the record is read from its beginning (`IsRun.decode` and `IsRun.parts` in `Proof/Decode`); what follows the client code is silent or begins with an event with which no request begins. On Neon, Rabbit and HC-256 the first event tells the request (`Decodes`); on the portable backend and Salsa, where with no or one double round a block begins as a tail or a group does, the event after it does (`Looks`); on SSE2 and AVX2 a block and a group have the same rounds and part after the counters (`Diverge`); on AVX-512 tails part in a comparison of their lengths or at the first block that only the longer one stores. For HC-256 the set-up, whose record has one length and tells the key (C96), comes first in every life, which gives the claim for two keys. The record is that of the trait methods as called, so an optimiser may well make a group of one block and a block the same code |

## 5. Findings (claims that are false of the code, proved as negations or exact characterisations)

* F1 `ChaChaXRng::get_block_pos` subtracts without wrapping: panics with overflow checks when the counter has wrapped inside the buffer (C20).
* F2 `ChaChaCore<R, Ietf>` implements `SeedableRng`, but `from_seed` always panics (C17).
* F3 `Generator::generate` on an IETF core: backends disagree at the 32-bit wrap and overwrite a nonce word (C28).
* F4 `SalsaCore` advances its counter with plain `+ 1`: panics with overflow checks at counter 2^64-1, reachable via `from_raw_state` (C32).
* F5 Seeking past the last whole block of the stream (byte > 64*MAX) wraps the counter to 0, so the first blocks of the keystream are used again (C51; depends on the `cipher` model).
  The cursor statements C04-C11 exclude exactly these seek targets; C51 describes them.
* F6 `Debug` for `ChaChaCore` prints the double-round count, not the round count.
* F7 `chacha20_backend = "avx512"` without `chacha20_avx512` has mismatched token types (C42).
* F8 the SSE2 backend executes `_mm_extract_epi32` (SSE4.1) although only SSE2 was detected (C43).
* F9 the NEON backend is compiled on big-endian AArch64, where `vst1q_u64` into the `u32` state exchanges the words of the 64-bit counter
  and of the nonce, and the RNG buffer is stored as little-endian bytes and read as native words (C71).
* F10 the feature `zeroize` of `chacha20`, unlike that of the other crates, does not turn on `cipher/zeroize`: unread keystream stays in memory after a drop (C76).

## 6. Seeded bugs

A script (outside the project) copies the project, edits one model definition, rebuilds, replaces the proof of every theorem
that no longer checks by `sorry`, repeats until the build succeeds, and then lists the claim theorems that now depend on a
`sorry`. `seeded/LOG.jsonl` has one line per edit: `theorems_failed` are claim theorems that were lost, `first_failing` the lemmas
in which the failure surfaced.

## 7. Axioms

`#print axioms` for each of the 339 theorems of `MANIFEST.json`. All three are Lean's own.

* `propext`, `Classical.choice`, `Quot.sound`: all theorems of `MANIFEST.json` not listed below (280).
* `propext`, `Quot.sound` only (45): `C23_equivalence`, `C27_successor`, `C28_words`, `C37_step`, `C37_blocks`, `C40_no_merge`, `ChaCha.C42_coherent`, `ChaCha.C43_cipher`, `ChaCha.C43_rng`, `ChaCha.C43_illegal`, `C44_chacha`, `C44_salsa`, `C44_rabbit`, `C44_rc4`, `C44_hc256`, `C44_rng`, `C44_indistinguishable`, `C44_without`, `C46_rc4`, `C48_chacha`, `C48_salsa`, `C61_overlap`, `C62_setup`, `C64_determined`, `C64_extract`, `C66_faithful`, `C72_seekable`, `C72_plain`, `C72_limit`, `ChaCha.C72_rng`, `C73_rc4_return`, `C75_reads`, `C75_call`, `C76_cleared`, `C76_chacha`, `ChaCha.Items.C77_resolves`, `ChaCha.Items.C77_unused`, `C88_chosen`, `C90_rounds`, `C90_rc4`, `C92_process`, `C92_seek`, `C92_drop`, `C94_erase`, `C98_provided`.
* `propext` only (14): `ChaCha.C42_forgotten`, `ChaCha.C42_dispatch`, `ChaCha.C43_sse41`, `C45_debug`, `C45_texts`, `C60_log`, `C66_instructions`, `C76_resolution`, `ChaCha.Items.C77_cargo`, `ChaCha.Items.C77_needed`, `ChaCha.Items.C77_additive`, `ChaCha.Items.C77_dispatch`, `C88_error`, `C88_detect`.
