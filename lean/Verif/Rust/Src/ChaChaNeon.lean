import Verif.Rust.Src.ChaChaRng
import Verif.Rust.Intrinsics
import Verif.Rust.Closure
/-!
# The text of `chacha20`, NEON backend

`/repo/chacha20/src/backends/neon.rs` without comments, attributes and associated types; functions stand after those they call.  The macros of the file are
macros here.
-/
set_option linter.unusedVariables false

namespace Verif.Rust.ChaCha.neon

syntax:max "add_counter!" "(" rs "," rs "," ident ")" : rs
syntax:max "add_assign_vec!" "(" rs "," rs ")" : rs
syntax:max "xor_assign_vec!" "(" rs "," rs ")" : rs
syntax:max "rotate_left!" "(" rs "," num ")" : rs
syntax:max "extract!" "(" rs "," num ")" : rs

set_option hygiene false in
/-- `add_counter!` - chacha20/src/backends/neon.rs:30-41. -/
macro_rules
  | `(rs| add_counter!($a, $b, $variant:ident)) => `(rs|
        match size_of::<$variant:ident::Counter>() {
            4 => vaddq_u32($a, $b),
            8 => vreinterpretq_u32_u64(vaddq_u64(
                vreinterpretq_u64_u32($a),
                vreinterpretq_u64_u32($b),
            )),
            _ => unreachable!(),
        })

set_option hygiene false in
/-- `add_assign_vec!` - chacha20/src/backends/neon.rs:123-127. -/
macro_rules
  | `(rs| add_assign_vec!($a, $b)) => `(rs| $a = vaddq_u32($a, $b))

set_option hygiene false in
/-- `xor_assign_vec!` - chacha20/src/backends/neon.rs:321-325. -/
macro_rules
  | `(rs| xor_assign_vec!($a, $b)) => `(rs| $a = veorq_u32($a, $b))

set_option hygiene false in
/-- `rotate_left!` - chacha20/src/backends/neon.rs:224-237. -/
macro_rules
  | `(rs| rotate_left!($v, 8)) => `(rs| {
        let maskb = [3u8, 0, 1, 2, 7, 4, 5, 6, 11, 8, 9, 10, 15, 12, 13, 14];
        let mask = vld1q_u8(maskb.as_ptr());

        $v:rs = vreinterpretq_u32_u8(vqtbl1q_u8(vreinterpretq_u8_u32($v), mask))
    })
  | `(rs| rotate_left!($v, 16)) => `(rs|
        $v = vreinterpretq_u32_u16(vrev32q_u16(vreinterpretq_u16_u32($v))))
  | `(rs| rotate_left!($v, $r)) => `(rs|
        $v = vorrq_u32(vshlq_n_u32($v, $r:num), vshrq_n_u32($v, 32 - $r:num)))

set_option hygiene false in
/-- `extract!` - chacha20/src/backends/neon.rs:239-243. -/
macro_rules
  | `(rs| extract!($v, $s)) => `(rs| $v = vextq_u32($v, $v, $s:num))

/-- chacha20/src/backends/neon.rs:24-28. -/
rust! struct Backend<R: Rounds, V: Variant> {
    state: [uint32x4_t; 4],
    ctrs: [uint32x4_t; 8],
    _pd: PhantomData<(R, V)>,
}

rust_traced! impl<R: Rounds, V: Variant> Backend<R, V> {
    /-- chacha20/src/backends/neon.rs:45-67. -/
    unsafe fn new(state: &mut [u32; STATE_WORDS]) -> Self {
        let state = [
            vld1q_u32(state.as_ptr().offset(0)),
            vld1q_u32(state.as_ptr().offset(4)),
            vld1q_u32(state.as_ptr().offset(8)),
            vld1q_u32(state.as_ptr().offset(12)),
        ];
        let ctrs = [
            vld1q_u32([1, 0, 0, 0].as_ptr()),
            vld1q_u32([2, 0, 0, 0].as_ptr()),
            vld1q_u32([3, 0, 0, 0].as_ptr()),
            vld1q_u32([4, 0, 0, 0].as_ptr()),
            vld1q_u32([5, 0, 0, 0].as_ptr()),
            vld1q_u32([6, 0, 0, 0].as_ptr()),
            vld1q_u32([7, 0, 0, 0].as_ptr()),
            vld1q_u32([8, 0, 0, 0].as_ptr()),
        ];
        Backend::<R, V> {
            state,
            ctrs,
            _pd: PhantomData,
        }
    }
}

/-- chacha20/src/backends/neon.rs:319-346. -/
rust_traced! unsafe fn add_xor_rot<const N: usize>(blocks: &mut [[uint32x4_t; 4]; N]) {
    for block in blocks.iter_mut() {
        add_assign_vec!(block[0], block[1]);
        xor_assign_vec!(block[3], block[0]);
        rotate_left!(block[3], 16);

        add_assign_vec!(block[2], block[3]);
        xor_assign_vec!(block[1], block[2]);
        rotate_left!(block[1], 12);

        add_assign_vec!(block[0], block[1]);
        xor_assign_vec!(block[3], block[0]);
        rotate_left!(block[3], 8);

        add_assign_vec!(block[2], block[3]);
        xor_assign_vec!(block[1], block[2]);
        rotate_left!(block[1], 7);
    }
}

/-- chacha20/src/backends/neon.rs:349-355. -/
rust_traced! unsafe fn rows_to_cols<const N: usize>(blocks: &mut [[uint32x4_t; 4]; N]) {
    for block in blocks.iter_mut() {
        extract!(block[1], 1);
        extract!(block[2], 2);
        extract!(block[3], 3);
    }
}

/-- chacha20/src/backends/neon.rs:358-364. -/
rust_traced! unsafe fn cols_to_rows<const N: usize>(blocks: &mut [[uint32x4_t; 4]; N]) {
    for block in blocks.iter_mut() {
        extract!(block[1], 3);
        extract!(block[2], 2);
        extract!(block[3], 1);
    }
}

/-- chacha20/src/backends/neon.rs:311-316. -/
rust_traced! unsafe fn double_quarter_round<const N: usize>(blocks: &mut [[uint32x4_t; 4]; N]) {
    add_xor_rot(blocks);
    rows_to_cols(blocks);
    add_xor_rot(blocks);
    cols_to_rows(blocks);
}

/-- chacha20/src/backends/neon.rs:117-120. -/
instance {R V : Type} [Rounds R] [Variant V] : ParBlocksSizeUser (Backend R V) := ⟨8⟩

rust_traced! impl<R: Rounds, V: Variant> StreamCipherBackend for Backend<R, V> {
    /-- chacha20/src/backends/neon.rs:145-221. -/
    fn gen_par_ks_blocks(&mut self, dest: &mut ParBlocks<Self>) {
        unsafe {
            let mut blocks = [
                [self.state[0], self.state[1], self.state[2], self.state[3]],
                [
                    self.state[0],
                    self.state[1],
                    self.state[2],
                    add_counter!(self.state[3], self.ctrs[0], V),
                ],
                [
                    self.state[0],
                    self.state[1],
                    self.state[2],
                    add_counter!(self.state[3], self.ctrs[1], V),
                ],
                [
                    self.state[0],
                    self.state[1],
                    self.state[2],
                    add_counter!(self.state[3], self.ctrs[2], V),
                ],
                [
                    self.state[0],
                    self.state[1],
                    self.state[2],
                    add_counter!(self.state[3], self.ctrs[3], V),
                ],
                [
                    self.state[0],
                    self.state[1],
                    self.state[2],
                    add_counter!(self.state[3], self.ctrs[4], V),
                ],
                [
                    self.state[0],
                    self.state[1],
                    self.state[2],
                    add_counter!(self.state[3], self.ctrs[5], V),
                ],
                [
                    self.state[0],
                    self.state[1],
                    self.state[2],
                    add_counter!(self.state[3], self.ctrs[6], V),
                ],
            ];

            for _ in 0..R::COUNT {
                double_quarter_round(&mut blocks);
            }

            for block in 0..8 {
                for state_row in 0..3 {
                    add_assign_vec!(blocks[block][state_row], self.state[state_row]);
                }
                if block > 0 {
                    add_assign_vec!(
                        blocks[block][3],
                        add_counter!(self.state[3], self.ctrs[block - 1], V)
                    );
                } else {
                    add_assign_vec!(blocks[block][3], self.state[3]);
                }
                for state_row in 0..4 {
                    vst1q_u8(
                        dest[block].as_mut_ptr().add(state_row << 4),
                        vreinterpretq_u8_u32(blocks[block][state_row]),
                    );
                }
            }
            self.state[3] = add_counter!(self.state[3], self.ctrs[7], V);
        }
    }

    /-- chacha20/src/backends/neon.rs:132-142. -/
    fn gen_ks_block(&mut self, block: &mut Block) {
        let state3 = self.state[3];
        let mut par = ParBlocks::<Self>::default();
        self.gen_par_ks_blocks(&mut par);
        *block = par[0];

        unsafe {
            self.state[3] = add_counter!(state3, vld1q_u32([1, 0, 0, 0].as_ptr()), V);
        }
    }
}

/-- The trait, with the provided `gen_tail_blocks` - chacha20/src/backends/neon.rs:112-222. -/
instance {R V : Type} [Rounds R] [Variant V] : StreamCipherBackend (Backend R V) where
  parSize := ParBlocksSizeUser.parBlocks (Backend R V)
  gen_ks_block := Backend.gen_ks_block
  gen_par_ks_blocks := Backend.gen_par_ks_blocks
  gen_tail_blocks tgt := providedTail 8 (Backend.gen_ks_block tgt)
  gen_ks_block_tr := Backend.gen_ks_block_tr
  gen_par_ks_blocks_tr := Backend.gen_par_ks_blocks_tr
  gen_tail_blocks_tr tgt := providedTail_tr 8 (Backend.gen_ks_block_tr tgt)

/-- chacha20/src/backends/neon.rs:73-91. -/
rust_traced! pub(crate) unsafe fn inner<R, F, V>(state: &mut [u32; STATE_WORDS], f: F)
where
    R: Rounds,
    F: StreamCipherClosure<BlockSize = U64>,
    V: Variant,
{
    let mut backend = Backend::<R, V>::new(state);

    f.call(&mut backend);

    match size_of::<V::Counter>() {
        4 => state[12] = vgetq_lane_u32(backend.state[3], 0),
        8 => vst1q_u64(
            state.as_mut_ptr().offset(12).cast::<u64>(),
            vreinterpretq_u64_u32(backend.state[3]),
        ),
        _ => unreachable!(),
    }
}

rust_traced! impl<R: Rounds, V: Variant> Backend<R, V> {
    /-- chacha20/src/backends/neon.rs:255-307. -/
    unsafe fn write_par_ks_blocks(&mut self, buffer: &mut [u32; 64]) {
        let mut blocks = [
            [self.state[0], self.state[1], self.state[2], self.state[3]],
            [
                self.state[0],
                self.state[1],
                self.state[2],
                add_counter!(self.state[3], self.ctrs[0], V),
            ],
            [
                self.state[0],
                self.state[1],
                self.state[2],
                add_counter!(self.state[3], self.ctrs[1], V),
            ],
            [
                self.state[0],
                self.state[1],
                self.state[2],
                add_counter!(self.state[3], self.ctrs[2], V),
            ],
        ];

        for _ in 0..R::COUNT {
            double_quarter_round(&mut blocks);
        }

        let mut dest_ptr = buffer.as_mut_ptr().cast::<u8>();
        for block in 0..4 {
            for state_row in 0..3 {
                add_assign_vec!(blocks[block][state_row], self.state[state_row]);
            }
            if block > 0 {
                add_assign_vec!(
                    blocks[block][3],
                    add_counter!(self.state[3], self.ctrs[block - 1], V)
                );
            } else {
                add_assign_vec!(blocks[block][3], self.state[3]);
            }
            for state_row in 0..4 {
                vst1q_u8(
                    dest_ptr.offset(state_row << 4),
                    vreinterpretq_u8_u32(blocks[block][state_row as usize]),
                );
            }
            dest_ptr = dest_ptr.add(64);
        }
        self.state[3] = add_counter!(self.state[3], self.ctrs[3], V);
    }
}

/-- chacha20/src/backends/neon.rs:97-110. -/
rust_traced! pub(crate) unsafe fn rng_inner<R, V>(core: &mut ChaChaCore<R, V>, buffer: &mut [u32; 64])
where
    R: Rounds,
    V: Variant,
{
    let mut backend = Backend::<R, V>::new(&mut core.state);

    backend.write_par_ks_blocks(buffer);

    vst1q_u64(
        core.state.as_mut_ptr().offset(12).cast::<u64>(),
        vreinterpretq_u64_u32(backend.state[3]),
    );
}

end Verif.Rust.ChaCha.neon
