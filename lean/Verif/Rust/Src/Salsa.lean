import Verif.Rust.Syntax
import Verif.Rust.Closure
/-!
# The text of `salsa20`

`/repo/salsa20/src/{lib.rs, xsalsa.rs, backends/soft.rs}` without comments, attributes, lifetimes and associated types; functions stand after those they call, and
the function local to `hsalsa` stands before it.  The type of `output` in `hsalsa`, which `rustc` infers, is written out; there is a space in `self.0 .x`.
-/
set_option linter.unusedVariables false

namespace Verif.Rust.Salsa

/-- salsa20/src/lib.rs:50. -/
rust! const STATE_WORDS: usize = 16;

/-- salsa20/src/lib.rs:53. -/
rust! const CONSTANTS: [u32; 4] = [0x6170_7865, 0x3320_646e, 0x7962_2d32, 0x6b20_6574];

/-- salsa20/src/lib.rs:56-61. -/
rust! pub struct SalsaCore<R: Unsigned> {
    state: [u32; STATE_WORDS],
    rounds: PhantomData<R>,
}

rust_traced! impl<R: Unsigned> SalsaCore<R> {
    /-- salsa20/src/lib.rs:68-73. -/
    pub fn from_raw_state(state: [u32; STATE_WORDS]) -> Self {
        Self {
            state,
            rounds: PhantomData,
        }
    }
}

rust_traced! impl<R: Unsigned> KeyIvInit for SalsaCore<R> {
    /-- salsa20/src/lib.rs:89-117. -/
    fn new(key: &Key, iv: &Nonce) -> Self {
        let mut state = [0u32; STATE_WORDS];
        state[0] = CONSTANTS[0];

        for (i, chunk) in key[..16].chunks(4).enumerate() {
            state[1 + i] = u32::from_le_bytes(chunk.try_into().unwrap());
        }

        state[5] = CONSTANTS[1];

        for (i, chunk) in iv.chunks(4).enumerate() {
            state[6 + i] = u32::from_le_bytes(chunk.try_into().unwrap());
        }

        state[8] = 0;
        state[9] = 0;
        state[10] = CONSTANTS[2];

        for (i, chunk) in key[16..].chunks(4).enumerate() {
            state[11 + i] = u32::from_le_bytes(chunk.try_into().unwrap());
        }

        state[15] = CONSTANTS[3];

        Self {
            state,
            rounds: PhantomData,
        }
    }
}

rust_traced! impl<R: Unsigned> StreamCipherSeekCore for SalsaCore<R> {
    /-- salsa20/src/lib.rs:135-137. -/
    fn get_block_pos(&self) -> u64 {
        (self.state[8] as u64) + ((self.state[9] as u64) << 32)
    }

    /-- salsa20/src/lib.rs:140-143. -/
    fn set_block_pos(&mut self, pos: u64) {
        self.state[8] = (pos & 0xffff_ffff) as u32;
        self.state[9] = ((pos >> 32) & 0xffff_ffff) as u32;
    }
}

rust_traced! impl<R: Unsigned> StreamCipherCore for SalsaCore<R> {
    /-- salsa20/src/lib.rs:122-125. -/
    fn remaining_blocks(&self) -> Option<usize> {
        let rem = u64::MAX - self.get_block_pos();
        rem.try_into().ok()
    }
}

rust! impl<R: Unsigned> Drop for SalsaCore<R> {
    /-- salsa20/src/lib.rs:148-150. -/
    fn drop(&mut self) {
        self.state.zeroize();
    }
}

/-- salsa20/src/backends/soft.rs:35-46. -/
rust_traced! pub(crate) fn quarter_round(
    a: usize,
    b: usize,
    c: usize,
    d: usize,
    state: &mut [u32; STATE_WORDS],
) {
    state[b] ^= state[a].wrapping_add(state[d]).rotate_left(7);
    state[c] ^= state[b].wrapping_add(state[a]).rotate_left(9);
    state[d] ^= state[c].wrapping_add(state[b]).rotate_left(13);
    state[a] ^= state[d].wrapping_add(state[c]).rotate_left(18);
}

/-- salsa20/src/backends/soft.rs:49-70. -/
rust_traced! fn run_rounds<R: Unsigned>(state: &[u32; STATE_WORDS]) -> [u32; STATE_WORDS] {
    let mut res = *state;

    for _ in 0..R::USIZE {
        quarter_round(0, 4, 8, 12, &mut res);
        quarter_round(5, 9, 13, 1, &mut res);
        quarter_round(10, 14, 2, 6, &mut res);
        quarter_round(15, 3, 7, 11, &mut res);

        quarter_round(0, 1, 2, 3, &mut res);
        quarter_round(5, 6, 7, 4, &mut res);
        quarter_round(10, 11, 8, 9, &mut res);
        quarter_round(15, 12, 13, 14, &mut res);
    }

    for (s1, s0) in res.iter_mut().zip(state.iter()) {
        *s1 = s1.wrapping_add(*s0);
    }
    res
}

/-- salsa20/src/backends/soft.rs:10. -/
rust! struct Backend<R: Unsigned>(&mut SalsaCore<R>);

rust_traced! impl<R: Unsigned> StreamCipherBackend for Backend<R> {
    /-- salsa20/src/backends/soft.rs:22-30. -/
    fn gen_ks_block(&mut self, block: &mut Block<Self>) {
        let res = run_rounds::<R>(&self.0 .state);

        self.0 .set_block_pos(self.0 .get_block_pos() + 1);

        for (chunk, val) in block.chunks_exact_mut(4).zip(res.iter()) {
            chunk.copy_from_slice(&val.to_le_bytes());
        }
    }
}

/-- salsa20/src/xsalsa.rs:94-96. -/
rust_traced! fn to_u32(chunk: &[u8]) -> u32 {
    u32::from_le_bytes(chunk.try_into().unwrap())
}

/-- salsa20/src/xsalsa.rs:92-139. -/
rust_traced! pub fn hsalsa<R: Unsigned>(key: &Key, input: &Array<u8, U16>) -> Array<u8, U32> {

    let mut state = [0u32; 16];
    state[0] = CONSTANTS[0];
    state[1..5]
        .iter_mut()
        .zip(key[0..16].chunks_exact(4))
        .for_each(|(v, chunk)| *v = to_u32(chunk));
    state[5] = CONSTANTS[1];
    state[6..10]
        .iter_mut()
        .zip(input.chunks_exact(4))
        .for_each(|(v, chunk)| *v = to_u32(chunk));
    state[10] = CONSTANTS[2];
    state[11..15]
        .iter_mut()
        .zip(key[16..].chunks_exact(4))
        .for_each(|(v, chunk)| *v = to_u32(chunk));
    state[15] = CONSTANTS[3];

    for _ in 0..R::USIZE {
        quarter_round(0, 4, 8, 12, &mut state);
        quarter_round(5, 9, 13, 1, &mut state);
        quarter_round(10, 14, 2, 6, &mut state);
        quarter_round(15, 3, 7, 11, &mut state);

        quarter_round(0, 1, 2, 3, &mut state);
        quarter_round(5, 6, 7, 4, &mut state);
        quarter_round(10, 11, 8, 9, &mut state);
        quarter_round(15, 12, 13, 14, &mut state);
    }

    let mut output: Array<u8, U32> = Array::default();
    let key_idx: [usize; 8] = [0, 5, 10, 15, 6, 7, 8, 9];

    for (i, chunk) in output.chunks_exact_mut(4).enumerate() {
        chunk.copy_from_slice(&state[key_idx[i]].to_le_bytes());
    }

    output
}

/-- salsa20/src/xsalsa.rs:28. -/
rust! struct XSalsaCore<R: Unsigned>(SalsaCore<R>);

rust_traced! impl<R: Unsigned> KeyIvInit for XSalsaCore<R> {
    /-- salsa20/src/xsalsa.rs:44-49. -/
    fn new(key: &Key, iv: &XNonce) -> Self {
        let subkey = hsalsa::<R>(key, iv[..16].try_into().unwrap());
        let mut padded_iv = Nonce::default();
        padded_iv.copy_from_slice(&iv[16..]);
        XSalsaCore(SalsaCore::new(&subkey, &padded_iv))
    }
}

rust_traced! impl<R: Unsigned> StreamCipherCore for XSalsaCore<R> {
    /-- salsa20/src/xsalsa.rs:54-56. -/
    fn remaining_blocks(&self) -> Option<usize> {
        self.0 .remaining_blocks()
    }
}

rust_traced! impl<R: Unsigned> StreamCipherSeekCore for XSalsaCore<R> {
    /-- salsa20/src/xsalsa.rs:68-70. -/
    fn get_block_pos(&self) -> u64 {
        self.0 .get_block_pos()
    }

    /-- salsa20/src/xsalsa.rs:73-75. -/
    fn set_block_pos(&mut self, pos: u64) {
        self.0 .set_block_pos(pos);
    }
}

/-- The trait, with the provided `gen_par_ks_blocks` and `gen_tail_blocks` - salsa20/src/backends/soft.rs:12-31. -/
instance {R : Type} [Unsigned R] : StreamCipherBackend (Backend R) where
  parSize := 1
  gen_ks_block := Backend.gen_ks_block
  gen_par_ks_blocks tgt := genEach (Backend.gen_ks_block tgt)
  gen_tail_blocks tgt := providedTail 1 (Backend.gen_ks_block tgt)
  gen_ks_block_tr := Backend.gen_ks_block_tr
  gen_par_ks_blocks_tr tgt s blocks := do Tr.loop blocks.length; genEach_tr (Backend.gen_ks_block_tr tgt) s blocks
  gen_tail_blocks_tr tgt := providedTail_tr 1 (Backend.gen_ks_block_tr tgt)

rust_traced! impl<R: Unsigned> StreamCipherCore for SalsaCore<R> {
    /-- salsa20/src/lib.rs:126-128. -/
    fn process_with_backend(&mut self, f: impl StreamCipherClosure<BlockSize = Self::BlockSize>) {
        f.call(&mut backends::soft::Backend(self));
    }
}

rust_traced! impl<R: Unsigned> StreamCipherCore for XSalsaCore<R> {
    /-- salsa20/src/xsalsa.rs:59-61. -/
    fn process_with_backend(&mut self, f: impl StreamCipherClosure<BlockSize = Self::BlockSize>) {
        self.0 .process_with_backend(f);
    }
}

end Verif.Rust.Salsa
