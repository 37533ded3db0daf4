import Verif.Rust.Src.ChaChaRng
import Verif.Rust.Intrinsics
import Verif.Rust.Closure
/-!
# The text of `chacha20`, SSE2 backend

`/repo/chacha20/src/backends/sse2.rs` without comments, attributes and associated types; functions stand after those they call.
-/
set_option linter.unusedVariables false

namespace Verif.Rust.ChaCha.sse2

/-- chacha20/src/backends/sse2.rs:28. -/
rust! const PAR_BLOCKS: usize = 4;

/-- chacha20/src/backends/sse2.rs:58-61. -/
rust! struct Backend<R: Rounds, V: Variant> {
    v: [__m128i; 4],
    _pd: PhantomData<(R, V)>,
}

/-- chacha20/src/backends/sse2.rs:271-293. -/
rust_traced! unsafe fn add_xor_rot(blocks: &mut [[__m128i; 4]; PAR_BLOCKS]) {
    for [a, b, c, d] in blocks.iter_mut() {
        *a = _mm_add_epi32(*a, *b);
        *d = _mm_xor_si128(*d, *a);
        *d = _mm_xor_si128(_mm_slli_epi32(*d, 16), _mm_srli_epi32(*d, 16));

        *c = _mm_add_epi32(*c, *d);
        *b = _mm_xor_si128(*b, *c);
        *b = _mm_xor_si128(_mm_slli_epi32(*b, 12), _mm_srli_epi32(*b, 20));

        *a = _mm_add_epi32(*a, *b);
        *d = _mm_xor_si128(*d, *a);
        *d = _mm_xor_si128(_mm_slli_epi32(*d, 8), _mm_srli_epi32(*d, 24));

        *c = _mm_add_epi32(*c, *d);
        *b = _mm_xor_si128(*b, *c);
        *b = _mm_xor_si128(_mm_slli_epi32(*b, 7), _mm_srli_epi32(*b, 25));
    }
}

/-- chacha20/src/backends/sse2.rs:232-239. -/
rust_traced! unsafe fn rows_to_cols(blocks: &mut [[__m128i; 4]; PAR_BLOCKS]) {
    for [a, _, c, d] in blocks.iter_mut() {
        *c = _mm_shuffle_epi32(*c, 0b_00_11_10_01);
        *d = _mm_shuffle_epi32(*d, 0b_01_00_11_10);
        *a = _mm_shuffle_epi32(*a, 0b_10_01_00_11);
    }
}

/-- chacha20/src/backends/sse2.rs:260-267. -/
rust_traced! unsafe fn cols_to_rows(blocks: &mut [[__m128i; 4]; PAR_BLOCKS]) {
    for [a, _, c, d] in blocks.iter_mut() {
        *c = _mm_shuffle_epi32(*c, 0b_10_01_00_11);
        *d = _mm_shuffle_epi32(*d, 0b_01_00_11_10);
        *a = _mm_shuffle_epi32(*a, 0b_00_11_10_01);
    }
}

/-- chacha20/src/backends/sse2.rs:188-193. -/
rust_traced! unsafe fn double_quarter_round(v: &mut [[__m128i; 4]; PAR_BLOCKS]) {
    add_xor_rot(v);
    rows_to_cols(v);
    add_xor_rot(v);
    cols_to_rows(v);
}

/-- chacha20/src/backends/sse2.rs:157-184. -/
rust_traced! unsafe fn rounds<R: Rounds, V: Variant>(v: &[__m128i; 4]) -> [[__m128i; 4]; PAR_BLOCKS] {
    let mut res = [*v; 4];
    for block in 1..PAR_BLOCKS {
        res[block][3] = match size_of::<V::Counter>() {
            4 => _mm_add_epi32(res[block][3], _mm_set_epi32(0, 0, 0, block as i32)),
            8 => _mm_add_epi64(res[block][3], _mm_set_epi64x(0, block as i64)),
            _ => unreachable!(),
        }
    }

    for _ in 0..R::COUNT {
        double_quarter_round(&mut res);
    }

    for block in 0..PAR_BLOCKS {
        for i in 0..3 {
            res[block][i] = _mm_add_epi32(res[block][i], v[i]);
        }
        let ctr = match size_of::<V::Counter>() {
            4 => _mm_add_epi32(v[3], _mm_set_epi32(0, 0, 0, block as i32)),
            8 => _mm_add_epi64(v[3], _mm_set_epi64x(0, block as i64)),
            _ => unreachable!(),
        };
        res[block][3] = _mm_add_epi32(res[block][3], ctr);
    }

    res
}

rust_traced! impl<R: Rounds, V: Variant> StreamCipherBackend for Backend<R, V> {
    /-- chacha20/src/backends/sse2.rs:76-90. -/
    fn gen_ks_block(&mut self, block: &mut Block) {
        unsafe {
            let res = rounds::<R, V>(&self.v);
            self.v[3] = match size_of::<V::Counter>() {
                4 => _mm_add_epi32(self.v[3], _mm_set_epi32(0, 0, 0, 1)),
                8 => _mm_add_epi64(self.v[3], _mm_set_epi64x(0, 1)),
                _ => unreachable!(),
            };

            let block_ptr = block.as_mut_ptr().cast::<__m128i>();
            for i in 0..4 {
                _mm_storeu_si128(block_ptr.add(i), res[0][i]);
            }
        }
    }

    /-- chacha20/src/backends/sse2.rs:92-108. -/
    fn gen_par_ks_blocks(&mut self, blocks: &mut cipher::ParBlocks<Self>) {
        unsafe {
            let res = rounds::<R, V>(&self.v);
            self.v[3] = match size_of::<V::Counter>() {
                4 => _mm_add_epi32(self.v[3], _mm_set_epi32(0, 0, 0, PAR_BLOCKS as i32)),
                8 => _mm_add_epi64(self.v[3], _mm_set_epi64x(0, PAR_BLOCKS as i64)),
                _ => unreachable!(),
            };

            let blocks_ptr = blocks.as_mut_ptr().cast::<__m128i>();
            for block in 0..PAR_BLOCKS {
                for i in 0..4 {
                    _mm_storeu_si128(blocks_ptr.add(i + block * PAR_BLOCKS), res[block][i]);
                }
            }
        }
    }
}

/-- The trait, with the provided `gen_tail_blocks` - chacha20/src/backends/sse2.rs:63-109. -/
instance {R V : Type} [Rounds R] [Variant V] : StreamCipherBackend (Backend R V) where
  parSize := 4
  gen_ks_block := Backend.gen_ks_block
  gen_par_ks_blocks := Backend.gen_par_ks_blocks
  gen_tail_blocks tgt := providedTail 4 (Backend.gen_ks_block tgt)
  gen_ks_block_tr := Backend.gen_ks_block_tr
  gen_par_ks_blocks_tr := Backend.gen_par_ks_blocks_tr
  gen_tail_blocks_tr tgt := providedTail_tr 4 (Backend.gen_ks_block_tr tgt)

/-- chacha20/src/backends/sse2.rs:33-56. -/
rust_traced! pub(crate) unsafe fn inner<R, F, V>(state: &mut [u32; STATE_WORDS], f: F)
where
    R: Rounds,
    F: StreamCipherClosure<BlockSize = U64>,
    V: Variant,
{
    let state_ptr = state.as_ptr().cast::<__m128i>();
    let mut backend = Backend::<R, V> {
        v: [
            _mm_loadu_si128(state_ptr.add(0)),
            _mm_loadu_si128(state_ptr.add(1)),
            _mm_loadu_si128(state_ptr.add(2)),
            _mm_loadu_si128(state_ptr.add(3)),
        ],
        _pd: PhantomData,
    };

    f.call(&mut backend);

    state[12] = _mm_cvtsi128_si32(backend.v[3]) as u32;
    if size_of::<V::Counter>() == 8 {
        state[13] = _mm_extract_epi32(backend.v[3], 1) as u32;
    }
}

rust_traced! impl<R: Rounds, V: Variant> Backend<R, V> {
    /-- chacha20/src/backends/sse2.rs:139-152. -/
    fn gen_ks_blocks(&mut self, block: &mut [u32; 64]) {
        const _: () = assert!(4 * PAR_BLOCKS * size_of::<__m128i>() == size_of::<[u32; 64]>());
        unsafe {
            let res = rounds::<R, V>(&self.v);
            self.v[3] = _mm_add_epi64(self.v[3], _mm_set_epi64x(0, PAR_BLOCKS as i64));

            let blocks_ptr = block.as_mut_ptr().cast::<__m128i>();
            for block in 0..PAR_BLOCKS {
                for i in 0..4 {
                    _mm_storeu_si128(blocks_ptr.add(i + block * PAR_BLOCKS), res[block][i]);
                }
            }
        }
    }
}

/-- chacha20/src/backends/sse2.rs:114-134. -/
rust_traced! pub(crate) unsafe fn rng_inner<R, V>(core: &mut ChaChaCore<R, V>, buffer: &mut [u32; 64])
where
    R: Rounds,
    V: Variant,
{
    let state_ptr = core.state.as_ptr().cast::<__m128i>();
    let mut backend = Backend::<R, V> {
        v: [
            _mm_loadu_si128(state_ptr.add(0)),
            _mm_loadu_si128(state_ptr.add(1)),
            _mm_loadu_si128(state_ptr.add(2)),
            _mm_loadu_si128(state_ptr.add(3)),
        ],
        _pd: PhantomData,
    };

    backend.gen_ks_blocks(buffer);

    core.state[12] = _mm_cvtsi128_si32(backend.v[3]) as u32;
    core.state[13] = _mm_extract_epi32(backend.v[3], 1) as u32;
}

end Verif.Rust.ChaCha.sse2
