import Verif.Rust.Syntax
/-!
# The text of `chacha20`, portable part

`/repo/chacha20/src/{lib.rs, variants.rs, chacha.rs, legacy.rs, xchacha.rs, backends/soft.rs}` without comments, attributes, lifetimes and associated
types, as it is after `cfg_if!` for `chacha20_backend = "soft"`; functions stand after those they call.  The type of `output` in
`hchacha`, which `rustc` infers, is written out; there is a space in `self.0 .x`.
-/
set_option linter.unusedVariables false

namespace Verif.Rust.ChaCha

/-- The trait `Rounds` - chacha20/src/lib.rs:53-58. -/
class Rounds (R : Type) where
  count : Nat

/-- `R::COUNT`. -/
def Rounds.COUNT (R : Type) [Rounds R] (tgt : Target) : Usize tgt := ⟨Rounds.count R⟩

/-- chacha20/src/lib.rs:60-64. -/
structure R8
instance : Rounds R8 := ⟨4⟩

/-- chacha20/src/lib.rs:66-72. -/
structure R12
instance : Rounds R12 := ⟨6⟩

/-- chacha20/src/lib.rs:74-80. -/
structure R20
instance : Rounds R20 := ⟨10⟩

/-- The trait `Variant` - chacha20/src/variants.rs:9-28. -/
class Variant (V : Type) where
  Counter : Type
  [int : RInt Counter]
  get : Target → List U32 → Except Panic Counter
  set : Target → List U32 → Counter → Except Panic (Unit × List U32)
  remaining : (tgt : Target) → Counter → Except Panic (Option (Usize tgt))
  get_tr : Target → List U32 → Tr Counter
  set_tr : Target → List U32 → Counter → Tr (Unit × List U32)
  remaining_tr : (tgt : Target) → Counter → Tr (Option (Usize tgt))

instance (V : Type) [Variant V] : RInt (Variant.Counter V) := Variant.int

/-- `V::get_block_pos`. -/
def Variant.get_block_pos (V : Type) [Variant V] (tgt : Target) (row : List U32) : Except Panic (Variant.Counter V) := Variant.get tgt row

/-- `V::set_block_pos`. -/
def Variant.set_block_pos (V : Type) [Variant V] (tgt : Target) (row : List U32) (pos : Variant.Counter V) : Except Panic (Unit × List U32) :=
  Variant.set tgt row pos

/-- `V::remaining_blocks`. -/
def Variant.remaining_blocks (V : Type) [Variant V] (tgt : Target) (pos : Variant.Counter V) : Except Panic (Option (Usize tgt)) :=
  Variant.remaining tgt pos

/-- `V::get_block_pos`, recording. -/
def Variant.get_block_pos_tr (V : Type) [Variant V] (tgt : Target) (row : List U32) : Tr (Variant.Counter V) := Variant.get_tr tgt row

/-- `V::set_block_pos`, recording. -/
def Variant.set_block_pos_tr (V : Type) [Variant V] (tgt : Target) (row : List U32) (pos : Variant.Counter V) : Tr (Unit × List U32) :=
  Variant.set_tr tgt row pos

/-- `V::remaining_blocks`, recording. -/
def Variant.remaining_blocks_tr (V : Type) [Variant V] (tgt : Target) (pos : Variant.Counter V) : Tr (Option (Usize tgt)) := Variant.remaining_tr tgt pos

/-- chacha20/src/variants.rs:32. -/
inductive Ietf

rust_traced! impl Variant for Ietf {
    /-- chacha20/src/variants.rs:40-42. -/
    fn get_block_pos(row: &[u32]) -> u32 {
        row[0]
    }

    /-- chacha20/src/variants.rs:45-47. -/
    fn set_block_pos(row: &mut [u32], pos: u32) {
        row[0] = pos;
    }

    /-- chacha20/src/variants.rs:50-53. -/
    fn remaining_blocks(block_pos: u32) -> Option<usize> {
        let remaining = u32::MAX - block_pos;
        remaining.try_into().ok()
    }
}

instance : Variant Ietf := ⟨U32, Ietf.get_block_pos, Ietf.set_block_pos, Ietf.remaining_blocks, Ietf.get_block_pos_tr, Ietf.set_block_pos_tr,
  Ietf.remaining_blocks_tr⟩

/-- chacha20/src/variants.rs:59. -/
inductive Legacy

rust_traced! impl Variant for Legacy {
    /-- chacha20/src/variants.rs:69-71. -/
    fn get_block_pos(row: &[u32]) -> u64 {
        (u64::from(row[1]) << 32) | u64::from(row[0])
    }

    /-- chacha20/src/variants.rs:74-77. -/
    fn set_block_pos(row: &mut [u32], pos: u64) {
        row[0] = (pos & 0xFFFF_FFFF) as u32;
        row[1] = (pos >> 32) as u32;
    }

    /-- chacha20/src/variants.rs:80-83. -/
    fn remaining_blocks(block_pos: u64) -> Option<usize> {
        let remaining = u64::MAX - block_pos;
        remaining.try_into().ok()
    }
}

instance : Variant Legacy := ⟨U64, Legacy.get_block_pos, Legacy.set_block_pos, Legacy.remaining_blocks, Legacy.get_block_pos_tr, Legacy.set_block_pos_tr,
  Legacy.remaining_blocks_tr⟩

/-- chacha20/src/lib.rs:47. -/
rust! const CONSTANTS: [u32; 4] = [0x6170_7865, 0x3320_646e, 0x7962_2d32, 0x6b20_6574];

/-- chacha20/src/lib.rs:50. -/
rust! const STATE_WORDS: usize = 16;

/-- `type Tokens = ()` - chacha20/src/lib.rs:82-84. -/
abbrev Tokens := Unit

/-- chacha20/src/lib.rs:119-127. -/
rust! pub struct ChaChaCore<R: Rounds, V: Variant> {
    state: [u32; STATE_WORDS],
    tokens: Tokens,
    _pd: PhantomData<(R, V)>,
}

rust_traced! impl<R: Rounds, V: Variant> ChaChaCore<R, V> {
    /-- chacha20/src/lib.rs:139-190. -/
    fn new_internal(key: &[u8; 32], iv: &[u8]) -> Self {
        assert!(matches!(iv.len(), 4 | 8 | 12));

        let mut state = [0u32; STATE_WORDS];

        let ctr_size = size_of::<V::Counter>() / size_of::<u32>();
        let (const_dst, state_rem) = state.split_at_mut(4);
        let (key_dst, state_rem) = state_rem.split_at_mut(8);
        let (_ctr_dst, iv_dst) = state_rem.split_at_mut(ctr_size);

        const_dst.copy_from_slice(&CONSTANTS);

        {
            for (src, dst) in key.chunks_exact(4).zip(key_dst) {
                *dst = u32::from_le_bytes(src.try_into().unwrap());
            }

            assert_eq!(size_of_val(iv_dst), size_of_val(iv));
            for (src, dst) in iv.chunks_exact(4).zip(iv_dst) {
                *dst = u32::from_le_bytes(src.try_into().unwrap());
            }
        }

        let tokens = ();
        Self {
            state,
            tokens,
            _pd: PhantomData,
        }
    }
}

rust_traced! impl<R: Rounds, V: Variant> ChaChaCore<R, V> {
    /-- chacha20/src/lib.rs:195-197. -/
    pub fn get_block_pos(&self) -> V::Counter {
        V::get_block_pos(&self.state[12..])
    }

    /-- chacha20/src/lib.rs:201-203. -/
    pub fn set_block_pos(&mut self, pos: V::Counter) {
        V::set_block_pos(&mut self.state[12..], pos);
    }
}

rust_traced! impl<R: Rounds, V: Variant> StreamCipherCore for ChaChaCore<R, V> {
    /-- chacha20/src/lib.rs:235-237. -/
    fn remaining_blocks(&self) -> Option<usize> {
        V::remaining_blocks(self.get_block_pos())
    }
}

rust! impl<R: Rounds, V: Variant> Drop for ChaChaCore<R, V> {
    /-- chacha20/src/lib.rs:308-310. -/
    fn drop(&mut self) {
        self.state.zeroize();
    }
}

/-- chacha20/src/lib.rs:321-343. -/
rust_traced! pub(crate) fn quarter_round(
    a: usize,
    b: usize,
    c: usize,
    d: usize,
    state: &mut [u32; STATE_WORDS],
) {
    state[a] = state[a].wrapping_add(state[b]);
    state[d] ^= state[a];
    state[d] = state[d].rotate_left(16);

    state[c] = state[c].wrapping_add(state[d]);
    state[b] ^= state[c];
    state[b] = state[b].rotate_left(12);

    state[a] = state[a].wrapping_add(state[b]);
    state[d] ^= state[a];
    state[d] = state[d].rotate_left(8);

    state[c] = state[c].wrapping_add(state[d]);
    state[b] ^= state[c];
    state[b] = state[b].rotate_left(7);
}

rust_traced! impl<R: Rounds> KeyIvInit for ChaChaCore<R, Ietf> {
    /-- chacha20/src/chacha.rs:35-37. -/
    fn new(key: &Key, iv: &Nonce) -> Self {
        ChaChaCore::<R, Ietf>::new_internal(key.as_ref(), iv.as_ref())
    }
}

/-- chacha20/src/legacy.rs:17. -/
abbrev ChaCha20LegacyCore := ChaChaCore R20 Legacy

rust_traced! impl KeyIvInit for ChaCha20LegacyCore {
    /-- chacha20/src/legacy.rs:29-31. -/
    fn new(key: &Key, iv: &LegacyNonce) -> Self {
        ChaChaCore::<R20, Legacy>::new_internal(key.as_ref(), iv.as_ref())
    }
}

/-- chacha20/src/backends/soft.rs:66-87. -/
rust_traced! fn run_rounds<R: Rounds>(state: &[u32; STATE_WORDS]) -> [u32; STATE_WORDS] {
    let mut res = *state;

    for _ in 0..R::COUNT {
        quarter_round(0, 4, 8, 12, &mut res);
        quarter_round(1, 5, 9, 13, &mut res);
        quarter_round(2, 6, 10, 14, &mut res);
        quarter_round(3, 7, 11, 15, &mut res);

        quarter_round(0, 5, 10, 15, &mut res);
        quarter_round(1, 6, 11, 12, &mut res);
        quarter_round(2, 7, 8, 13, &mut res);
        quarter_round(3, 4, 9, 14, &mut res);
    }

    for (s1, s0) in res.iter_mut().zip(state.iter()) {
        *s1 = s1.wrapping_add(*s0);
    }
    res
}

/-- chacha20/src/rng.rs:28. -/
rust! const BLOCK_WORDS: u8 = 16;

/-- chacha20/src/backends/soft.rs:18. -/
rust! struct Backend<R: Rounds, V: Variant>(&mut ChaChaCore<R, V>);

rust_traced! impl<R: Rounds, V: Variant> StreamCipherBackend for Backend<R, V> {
    /-- chacha20/src/backends/soft.rs:33-45. -/
    fn gen_ks_block(&mut self, block: &mut Block) {
        let res = run_rounds::<R>(&self.0 .state);
        let mut ctr = (u64::from(self.0 .state[13]) << 32) | u64::from(self.0 .state[12]);
        ctr = ctr.wrapping_add(1);
        self.0 .state[12] = ctr as u32;
        if size_of::<V::Counter>() == 8 {
            self.0 .state[13] = (ctr >> 32) as u32;
        }

        for (chunk, val) in block.chunks_exact_mut(4).zip(res.iter()) {
            chunk.copy_from_slice(&val.to_le_bytes());
        }
    }
}

rust_traced! impl<R: Rounds, V: Variant> Backend<R, V> {
    /-- chacha20/src/backends/soft.rs:51-62. -/
    pub(crate) fn gen_ks_blocks(&mut self, buffer: &mut [u32; 64]) {
        for block in 0..4 {
            let res = run_rounds::<R>(&self.0 .state);
            let mut ctr = (u64::from(self.0 .state[13]) << 32) | u64::from(self.0 .state[12]);
            ctr = ctr.wrapping_add(1);
            self.0 .state[12] = ctr as u32;
            self.0 .state[13] = (ctr >> 32) as u32;

            buffer[block * BLOCK_WORDS as usize..(block + 1) * BLOCK_WORDS as usize]
                .copy_from_slice(&res);
        }
    }
}

/-- chacha20/src/xchacha.rs:113-153. -/
rust_traced! pub fn hchacha<R: Rounds>(key: &Key, input: &Array<u8, U16>) -> Array<u8, U32> {
    let mut state = [0u32; STATE_WORDS];
    state[..4].copy_from_slice(&CONSTANTS);

    let key_chunks = Array::<u8, U4>::slice_as_chunks(key).0;
    for (v, chunk) in state[4..12].iter_mut().zip(key_chunks) {
        *v = u32::from_le_bytes(chunk.0);
    }
    let input_chunks = Array::<u8, U4>::slice_as_chunks(input).0;
    for (v, chunk) in state[12..16].iter_mut().zip(input_chunks) {
        *v = u32::from_le_bytes(chunk.0);
    }

    for _ in 0..R::COUNT {
        quarter_round(0, 4, 8, 12, &mut state);
        quarter_round(1, 5, 9, 13, &mut state);
        quarter_round(2, 6, 10, 14, &mut state);
        quarter_round(3, 7, 11, 15, &mut state);

        quarter_round(0, 5, 10, 15, &mut state);
        quarter_round(1, 6, 11, 12, &mut state);
        quarter_round(2, 7, 8, 13, &mut state);
        quarter_round(3, 4, 9, 14, &mut state);
    }

    let mut output: Array<u8, U32> = Array::default();

    for (chunk, val) in output[..16].chunks_exact_mut(4).zip(&state[..4]) {
        chunk.copy_from_slice(&val.to_le_bytes());
    }

    for (chunk, val) in output[16..].chunks_exact_mut(4).zip(&state[12..]) {
        chunk.copy_from_slice(&val.to_le_bytes());
    }

    output
}

/-- chacha20/src/xchacha.rs:42. -/
rust! pub struct XChaChaCore<R: Rounds>(ChaChaCore<R, Ietf>);

rust_traced! impl<R: Rounds> KeyIvInit for XChaChaCore<R> {
    /-- chacha20/src/xchacha.rs:57-66. -/
    fn new(key: &Key, iv: &XNonce) -> Self {
        let subkey = hchacha::<R>(key, iv[..16].as_ref().try_into().unwrap());

        let mut nonce = [0u8; 12];
        nonce[4..].copy_from_slice(&iv[16..]);
        Self(ChaChaCore::<R, Ietf>::new_internal(subkey.as_ref(), &nonce))
    }
}

rust_traced! impl<R: Rounds> StreamCipherCore for XChaChaCore<R> {
    /-- chacha20/src/xchacha.rs:71-73. -/
    fn remaining_blocks(&self) -> Option<usize> {
        self.0 .remaining_blocks()
    }
}

rust_traced! impl<R: Rounds> StreamCipherSeekCore for XChaChaCore<R> {
    /-- chacha20/src/xchacha.rs:85-87. -/
    fn get_block_pos(&self) -> u32 {
        self.0 .get_block_pos()
    }

    /-- chacha20/src/xchacha.rs:90-92. -/
    fn set_block_pos(&mut self, pos: u32) {
        self.0 .set_block_pos(pos);
    }
}

/-- `Self::Counter` - chacha20/src/lib.rs:219. -/
abbrev ChaChaCore.Counter (R V : Type) [Rounds R] [Variant V] : Type := Variant.Counter V

rust! impl<R: Rounds, V: Variant> StreamCipherSeekCore for ChaChaCore<R, V> {
    /-- chacha20/src/lib.rs:222-224. -/
    fn get_block_pos(&self) -> Self::Counter {
        self.get_block_pos()
    }

    /-- chacha20/src/lib.rs:227-229. -/
    fn set_block_pos(&mut self, pos: Self::Counter) {
        self.set_block_pos(pos);
    }
}

rust! impl<R: Rounds, V: Variant> fmt::Debug for ChaChaCore<R, V> {
    /-- chacha20/src/lib.rs:207-214. -/
    fn fmt(&self, f: &mut fmt::Formatter) -> fmt::Result {
        write!(
            f,
            "ChaChaCore<R: {}, V: {}-bit)> {{ ... }}",
            R::COUNT,
            size_of::<V::Counter>() * 8
        )
    }
}

end Verif.Rust.ChaCha
