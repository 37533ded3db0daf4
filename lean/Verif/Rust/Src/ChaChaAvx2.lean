import Verif.Rust.Src.ChaChaRng
import Verif.Rust.Intrinsics
import Verif.Rust.Closure
/-!
# The text of `chacha20`, AVX2 backend

`/repo/chacha20/src/backends/avx2.rs` without comments, attributes and associated types; functions stand after those they call.
-/
set_option linter.unusedVariables false

namespace Verif.Rust.ChaCha.avx2

/-- chacha20/src/backends/avx2.rs:30. -/
rust! const PAR_BLOCKS: usize = 4;

/-- chacha20/src/backends/avx2.rs:32. -/
rust! const N: usize = PAR_BLOCKS / 2;

/-- chacha20/src/backends/avx2.rs:114-118. -/
rust! struct Backend<R: Rounds, V: Variant> {
    v: [__m256i; 3],
    ctr: [__m256i; N],
    _pd: PhantomData<(R, V)>,
}

/-- chacha20/src/backends/avx2.rs:313-354. -/
rust_traced! unsafe fn add_xor_rot(vs: &mut [[__m256i; 4]; N]) {
    let rol16_mask = _mm256_set_epi64x(
        0x0d0c_0f0e_0908_0b0a,
        0x0504_0706_0100_0302,
        0x0d0c_0f0e_0908_0b0a,
        0x0504_0706_0100_0302,
    );
    let rol8_mask = _mm256_set_epi64x(
        0x0e0d_0c0f_0a09_080b,
        0x0605_0407_0201_0003,
        0x0e0d_0c0f_0a09_080b,
        0x0605_0407_0201_0003,
    );

    for [a, b, _, d] in vs.iter_mut() {
        *a = _mm256_add_epi32(*a, *b);
        *d = _mm256_xor_si256(*d, *a);
        *d = _mm256_shuffle_epi8(*d, rol16_mask);
    }

    for [_, b, c, d] in vs.iter_mut() {
        *c = _mm256_add_epi32(*c, *d);
        *b = _mm256_xor_si256(*b, *c);
        *b = _mm256_xor_si256(_mm256_slli_epi32(*b, 12), _mm256_srli_epi32(*b, 20));
    }

    for [a, b, _, d] in vs.iter_mut() {
        *a = _mm256_add_epi32(*a, *b);
        *d = _mm256_xor_si256(*d, *a);
        *d = _mm256_shuffle_epi8(*d, rol8_mask);
    }

    for [_, b, c, d] in vs.iter_mut() {
        *c = _mm256_add_epi32(*c, *d);
        *b = _mm256_xor_si256(*b, *c);
        *b = _mm256_xor_si256(_mm256_slli_epi32(*b, 7), _mm256_srli_epi32(*b, 25));
    }
}

/-- chacha20/src/backends/avx2.rs:274-281. -/
rust_traced! unsafe fn rows_to_cols(vs: &mut [[__m256i; 4]; N]) {
    for [a, _, c, d] in vs {
        *c = _mm256_shuffle_epi32(*c, 0b_00_11_10_01);
        *d = _mm256_shuffle_epi32(*d, 0b_01_00_11_10);
        *a = _mm256_shuffle_epi32(*a, 0b_10_01_00_11);
    }
}

/-- chacha20/src/backends/avx2.rs:302-309. -/
rust_traced! unsafe fn cols_to_rows(vs: &mut [[__m256i; 4]; N]) {
    for [a, _, c, d] in vs {
        *c = _mm256_shuffle_epi32(*c, 0b_10_01_00_11);
        *d = _mm256_shuffle_epi32(*d, 0b_01_00_11_10);
        *a = _mm256_shuffle_epi32(*a, 0b_00_11_10_01);
    }
}

/-- chacha20/src/backends/avx2.rs:230-235. -/
rust_traced! unsafe fn double_quarter_round(v: &mut [[__m256i; 4]; N]) {
    add_xor_rot(v);
    rows_to_cols(v);
    add_xor_rot(v);
    cols_to_rows(v);
}

/-- chacha20/src/backends/avx2.rs:209-226. -/
rust_traced! unsafe fn rounds<R: Rounds>(v: &[__m256i; 3], c: &[__m256i; N]) -> [[__m256i; 4]; N] {
    let mut vs: [[__m256i; 4]; N] = [[_mm256_setzero_si256(); 4]; N];
    for i in 0..N {
        vs[i] = [v[0], v[1], v[2], c[i]];
    }
    for _ in 0..R::COUNT {
        double_quarter_round(&mut vs);
    }

    for i in 0..N {
        for j in 0..3 {
            vs[i][j] = _mm256_add_epi32(vs[i][j], v[j]);
        }
        vs[i][3] = _mm256_add_epi32(vs[i][3], c[i]);
    }

    vs
}

rust_traced! impl<R: Rounds, V: Variant> StreamCipherBackend for Backend<R, V> {
    /-- chacha20/src/backends/avx2.rs:133-151. -/
    fn gen_ks_block(&mut self, block: &mut Block) {
        unsafe {
            let res = rounds::<R>(&self.v, &self.ctr);
            for c in self.ctr.iter_mut() {
                *c = match size_of::<V::Counter>() {
                    4 => _mm256_add_epi32(*c, _mm256_set_epi32(0, 0, 0, 1, 0, 0, 0, 1)),
                    8 => _mm256_add_epi64(*c, _mm256_set_epi64x(0, 1, 0, 1)),
                    _ => unreachable!(),
                };
            }

            let res0: [__m128i; 8] = core::mem::transmute(res[0]);

            let block_ptr = block.as_mut_ptr().cast::<__m128i>();
            for i in 0..4 {
                _mm_storeu_si128(block_ptr.add(i), res0[2 * i]);
            }
        }
    }

    /-- chacha20/src/backends/avx2.rs:154-179. -/
    fn gen_par_ks_blocks(&mut self, blocks: &mut ParBlocks<Self>) {
        unsafe {
            let vs = rounds::<R>(&self.v, &self.ctr);

            let pb = PAR_BLOCKS as i32;
            for c in self.ctr.iter_mut() {
                *c = match size_of::<V::Counter>() {
                    4 => _mm256_add_epi32(*c, _mm256_set_epi32(0, 0, 0, pb, 0, 0, 0, pb)),
                    8 => {
                        _mm256_add_epi64(*c, _mm256_set_epi64x(0, i64::from(pb), 0, i64::from(pb)))
                    }
                    _ => unreachable!(),
                }
            }

            let mut block_ptr = blocks.as_mut_ptr().cast::<__m128i>();
            for v in vs {
                let t: [__m128i; 8] = core::mem::transmute(v);
                for i in 0..4 {
                    _mm_storeu_si128(block_ptr.add(i), t[2 * i]);
                    _mm_storeu_si128(block_ptr.add(4 + i), t[2 * i + 1]);
                }
                block_ptr = block_ptr.add(8);
            }
        }
    }
}

/-- The trait, with the provided `gen_tail_blocks` - chacha20/src/backends/avx2.rs:120-180. -/
instance {R V : Type} [Rounds R] [Variant V] : StreamCipherBackend (Backend R V) where
  parSize := 4
  gen_ks_block := Backend.gen_ks_block
  gen_par_ks_blocks := Backend.gen_par_ks_blocks
  gen_tail_blocks tgt := providedTail 4 (Backend.gen_ks_block tgt)
  gen_ks_block_tr := Backend.gen_ks_block_tr
  gen_par_ks_blocks_tr := Backend.gen_par_ks_blocks_tr
  gen_tail_blocks_tr tgt := providedTail_tr 4 (Backend.gen_ks_block_tr tgt)

/-- chacha20/src/backends/avx2.rs:38-79. -/
rust_traced! pub(crate) unsafe fn inner<R, F, V>(state: &mut [u32; STATE_WORDS], f: F)
where
    R: Rounds,
    F: StreamCipherClosure<BlockSize = U64>,
    V: Variant,
{
    let state_ptr = state.as_ptr().cast::<__m128i>();
    let v = [
        _mm256_broadcastsi128_si256(_mm_loadu_si128(state_ptr.add(0))),
        _mm256_broadcastsi128_si256(_mm_loadu_si128(state_ptr.add(1))),
        _mm256_broadcastsi128_si256(_mm_loadu_si128(state_ptr.add(2))),
    ];
    let mut c = _mm256_broadcastsi128_si256(_mm_loadu_si128(state_ptr.add(3)));
    c = match size_of::<V::Counter>() {
        4 => _mm256_add_epi32(c, _mm256_set_epi32(0, 0, 0, 1, 0, 0, 0, 0)),
        8 => _mm256_add_epi64(c, _mm256_set_epi64x(0, 1, 0, 0)),
        _ => unreachable!(),
    };
    let mut ctr = [c; N];
    for i in 0..N {
        ctr[i] = c;
        c = match size_of::<V::Counter>() {
            4 => _mm256_add_epi32(c, _mm256_set_epi32(0, 0, 0, 2, 0, 0, 0, 2)),
            8 => _mm256_add_epi64(c, _mm256_set_epi64x(0, 2, 0, 2)),
            _ => unreachable!(),
        };
    }
    let mut backend = Backend::<R, V> {
        v,
        ctr,
        _pd: PhantomData,
    };

    f.call(&mut backend);

    state[12] = _mm256_extract_epi32(backend.ctr[0], 0) as u32;
    match size_of::<V::Counter>() {
        4 => {}
        8 => state[13] = _mm256_extract_epi32(backend.ctr[0], 1) as u32,
        _ => unreachable!(),
    }
}

rust_traced! impl<R: Rounds, V: Variant> Backend<R, V> {
    /-- chacha20/src/backends/avx2.rs:185-204. -/
    fn rng_gen_par_ks_blocks(&mut self, blocks: &mut [u32; 64]) {
        unsafe {
            let vs = rounds::<R>(&self.v, &self.ctr);

            let pb = PAR_BLOCKS as i32;
            for c in self.ctr.iter_mut() {
                *c = _mm256_add_epi64(*c, _mm256_set_epi64x(0, i64::from(pb), 0, i64::from(pb)));
            }

            let mut block_ptr = blocks.as_mut_ptr().cast::<__m128i>();
            for v in vs {
                let t: [__m128i; 8] = core::mem::transmute(v);
                for i in 0..4 {
                    _mm_storeu_si128(block_ptr.add(i), t[2 * i]);
                    _mm_storeu_si128(block_ptr.add(4 + i), t[2 * i + 1]);
                }
                block_ptr = block_ptr.add(8);
            }
        }
    }
}

/-- chacha20/src/backends/avx2.rs:84-112. -/
rust_traced! pub(crate) unsafe fn rng_inner<R, V>(core: &mut ChaChaCore<R, V>, buffer: &mut [u32; 64])
where
    R: Rounds,
    V: Variant,
{
    let state_ptr = core.state.as_ptr().cast::<__m128i>();
    let v = [
        _mm256_broadcastsi128_si256(_mm_loadu_si128(state_ptr.add(0))),
        _mm256_broadcastsi128_si256(_mm_loadu_si128(state_ptr.add(1))),
        _mm256_broadcastsi128_si256(_mm_loadu_si128(state_ptr.add(2))),
    ];
    let mut c = _mm256_broadcastsi128_si256(_mm_loadu_si128(state_ptr.add(3)));
    c = _mm256_add_epi64(c, _mm256_set_epi64x(0, 1, 0, 0));
    let mut ctr = [c; N];
    for i in 0..N {
        ctr[i] = c;
        c = _mm256_add_epi64(c, _mm256_set_epi64x(0, 2, 0, 2));
    }
    let mut backend = Backend::<R, V> {
        v,
        ctr,
        _pd: PhantomData,
    };

    backend.rng_gen_par_ks_blocks(buffer);

    core.state[12] = _mm256_extract_epi32(backend.ctr[0], 0) as u32;
    core.state[13] = _mm256_extract_epi32(backend.ctr[0], 1) as u32;
}

end Verif.Rust.ChaCha.avx2
