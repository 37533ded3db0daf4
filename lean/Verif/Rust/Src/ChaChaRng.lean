import Verif.Rust.Src.ChaCha
import Verif.Rust.BlockRng
/-!
# The text of `chacha20`, random number generators

`/repo/chacha20/src/rng.rs` without comments, attributes and associated types.  The macro `impl_chacha_rng` defines three types `$Rng`, for three
types `$rounds`; here they are `Rng<R>` for a parameter `R`.  `generate` is given as it is after `cfg_if!` for `chacha20_backend = "soft"`; the generators
are stated for an arbitrary backend.  There is a space in `> >`.
-/
set_option linter.unusedVariables false

namespace Verif.Rust.ChaCha

/-- Associated types - chacha20/src/rng.rs:36. -/
abbrev ChaChaCore.Seed := List U8

/-- Associated types - chacha20/src/rng.rs:45. -/
abbrev ChaChaCore.Output := List U32

/-- chacha20/src/rng.rs:25. -/
abbrev SerializedRngState := List U8

/-- `core::convert::Infallible` - chacha20/src/rng.rs:7. -/
inductive Infallible

/-- chacha20/src/rng.rs:31. -/
rust! const BUF_BLOCKS: u8 = 4;

/-- chacha20/src/rng.rs:33. -/
rust! const BUFFER_SIZE: usize = (BLOCK_WORDS * BUF_BLOCKS) as usize;

rust_traced! impl<R: Rounds, V: Variant> SeedableRng for ChaChaCore<R, V> {
    /-- chacha20/src/rng.rs:39-41. -/
    fn from_seed(seed: Self::Seed) -> Self {
        ChaChaCore::new_internal(&seed, &[0u8; 8])
    }
}

rust_traced! impl<R: Rounds, V: Variant> Generator for ChaChaCore<R, V> {
    /-- chacha20/src/rng.rs:49-92. -/
    fn generate(&mut self, buffer: &mut [u32; BUFFER_SIZE]) {
        backends::soft::Backend(self).gen_ks_blocks(buffer);
    }

    /-- chacha20/src/rng.rs:97-99. -/
    fn drop(&mut self, output: &mut Self::Output) {
        output.zeroize();
    }
}

/-- The function `generate` of a build - chacha20/src/rng.rs:49-92. -/
class Build where
  generate : (R V : Type) → [Rounds R] → [Variant V] → Target → ChaChaCore R V → List U32 → Except Panic (Unit × ChaChaCore R V × List U32)
  generate_tr : (R V : Type) → [Rounds R] → [Variant V] → Target → ChaChaCore R V → List U32 → Tr (Unit × ChaChaCore R V × List U32)

/-- chacha20/src/rng.rs:44-45. -/
instance {R V : Type} [Rounds R] [Variant V] [Build] : Generator (ChaChaCore R V) := ⟨64, Build.generate R V, Build.generate_tr R V⟩

/-- A build with `chacha20_backend = "soft"` - chacha20/src/rng.rs:51-52. -/
@[instance_reducible] def Build.soft : Build := ⟨fun _ _ => ChaChaCore.generate, fun _ _ => ChaChaCore.generate_tr⟩

variable [Build]

/-- chacha20/src/rng.rs:134-136. -/
rust! pub struct Rng<R: Rounds> {
    core: BlockRng<ChaChaCore<R, Legacy> >,
}

/-- Associated types - chacha20/src/rng.rs:139. -/
abbrev Rng.Seed := List U8

/-- Associated types - chacha20/src/rng.rs:151. -/
abbrev Rng.Error := Infallible

rust_traced! impl<R: Rounds> SeedableRng for Rng<R> {
    /-- chacha20/src/rng.rs:142-147. -/
    fn from_seed(seed: Self::Seed) -> Self {
        let core = ChaChaCore::new_internal(&seed, &[0u8; 8]);
        Self {
            core: BlockRng::new(core),
        }
    }
}

rust_traced! impl<R: Rounds> TryRng for Rng<R> {
    /-- chacha20/src/rng.rs:154-156. -/
    fn try_next_u32(&mut self) -> Result<u32, Self::Error> {
        Ok(self.core.next_word())
    }

    /-- chacha20/src/rng.rs:158-160. -/
    fn try_next_u64(&mut self) -> Result<u64, Self::Error> {
        Ok(self.core.next_u64_from_u32())
    }

    /-- chacha20/src/rng.rs:162-165. -/
    fn try_fill_bytes(&mut self, dest: &mut [u8]) -> Result<(), Self::Error> {
        self.core.fill_bytes(dest);
        Ok(())
    }
}

rust_traced! impl<R: Rounds> Rng<R> {
    /-- chacha20/src/rng.rs:202-212. -/
    pub fn get_word_pos(&self) -> u128 {
        let mut block_counter = (u64::from(self.core.core.state[13]) << 32)
            | u64::from(self.core.core.state[12]);
        if self.core.word_offset() != 0 {
            block_counter = block_counter.wrapping_sub(u64::from(BUF_BLOCKS));
        }
        let word_pos = u128::from(block_counter) * u128::from(BLOCK_WORDS)
            + self.core.word_offset() as u128;
        word_pos & ((1 << 68) - 1)
    }

    /-- chacha20/src/rng.rs:224-231. -/
    pub fn set_word_pos(&mut self, word_offset: u128) {
        let index = (word_offset % u128::from(BLOCK_WORDS)) as usize;
        let counter = word_offset / u128::from(BLOCK_WORDS);
        self.core.core.state[12] = counter as u32;
        self.core.core.state[13] = (counter >> 32) as u32;
        self.core.reset_and_skip(index);
    }

    /-- chacha20/src/rng.rs:242-245. -/
    pub fn set_block_pos(&mut self, block_pos: u64) {
        self.core.reset_and_skip(0);
        self.core.core.set_block_pos(block_pos);
    }

    /-- chacha20/src/rng.rs:251-259. -/
    pub fn get_block_pos(&self) -> u64 {
        let counter = self.core.core.get_block_pos();
        let offset = self.core.word_offset();
        if offset != 0 {
            counter - u64::from(BUF_BLOCKS) + offset as u64 / u64::from(BLOCK_WORDS)
        } else {
            counter
        }
    }

    /-- chacha20/src/rng.rs:263-267. -/
    pub fn set_stream(&mut self, stream: u64) {
        self.core.core.state[14] = stream as u32;
        self.core.core.state[15] = (stream >> 32) as u32;
        self.set_block_pos(0);
    }

    /-- chacha20/src/rng.rs:272-277. -/
    pub fn get_stream(&self) -> u64 {
        let mut result = [0u8; 8];
        result[..4].copy_from_slice(&self.core.core.state[14].to_le_bytes());
        result[4..].copy_from_slice(&self.core.core.state[15].to_le_bytes());
        u64::from_le_bytes(result)
    }

    /-- chacha20/src/rng.rs:282-289. -/
    pub fn get_seed(&self) -> [u8; 32] {
        let seed = &self.core.core.state[4..12];
        let mut result = [0u8; 32];
        for (src, dst) in seed.iter().zip(result.chunks_exact_mut(4)) {
            dst.copy_from_slice(&src.to_le_bytes())
        }
        result
    }

    /-- chacha20/src/rng.rs:297-313. -/
    pub fn serialize_state(&self) -> SerializedRngState {
        let seed = self.get_seed();
        let stream = self.get_stream().to_le_bytes();
        let word_pos = self.get_word_pos().to_le_bytes();

        let mut res = [0u8; 49];
        let (seed_dst, res_rem) = res.split_at_mut(32);
        let (stream_dst, word_pos_dst) = res_rem.split_at_mut(8);

        seed_dst.copy_from_slice(&seed);
        stream_dst.copy_from_slice(&stream);
        word_pos_dst.copy_from_slice(&word_pos[..9]);

        debug_assert_eq!(&word_pos[9..], &[0u8; 7]);

        res
    }

    /-- chacha20/src/rng.rs:317-337. -/
    pub fn deserialize_state(state: &SerializedRngState) -> Self {
        let (seed, state_rem) = state.split_at(32);
        let (stream, word_pos_raw) = state_rem.split_at(8);

        let seed: &[u8; 32] = seed.try_into().expect("seed.len() is equal to 32");
        let stream: &[u8; 8] = stream.try_into().expect("stream.len() is equal to 8");

        let mut word_pos_buf = [0u8; 16];
        word_pos_buf[..9].copy_from_slice(word_pos_raw);
        let word_pos = u128::from_le_bytes(word_pos_buf);

        let core = ChaChaCore::new_internal(seed, stream);
        let mut res = Self {
            core: BlockRng::new(core),
        };

        res.set_word_pos(word_pos);
        res
    }
}

rust_traced! impl<R: Rounds> PartialEq<Rng<R> > for Rng<R> {
    /-- chacha20/src/rng.rs:177-181. -/
    fn eq(&self, rhs: &Rng<R>) -> bool {
        (self.get_seed() == rhs.get_seed())
            && (self.get_stream() == rhs.get_stream())
            && (self.get_word_pos() == rhs.get_word_pos())
    }
}

/-- A type made by the macro, with the number of double rounds - chacha20/src/rng.rs:342-344. -/
class Rng.Named (T : Type) where
  count : Nat

instance {R : Type} [Rounds R] : Rng.Named (Rng R) := ⟨Rounds.count R⟩

/-- `stringify!($Rng)` - chacha20/src/rng.rs:342-344. -/
def Rng.stringify (T : Type) [Rng.Named T] : String :=
  if Rng.Named.count T = 4 then "ChaCha8Rng" else if Rng.Named.count T = 6 then "ChaCha12Rng" else "ChaCha20Rng"

rust! impl<R: Rounds> fmt::Debug for Rng<R> {
    /-- chacha20/src/rng.rs:188-190. -/
    fn fmt(&self, f: &mut core::fmt::Formatter) -> core::fmt::Result {
        write!(f, concat!(stringify!(Rng<R>), " {{ ... }}"))
    }
}

end Verif.Rust.ChaCha
