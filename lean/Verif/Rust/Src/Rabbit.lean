import Verif.Rust.Syntax
import Verif.Rust.Closure
/-!
# The text of `rabbit`

`/repo/rabbit/src/lib.rs` without comments, attributes, lifetimes and associated types; functions stand after those they call.  The type of
`carry_bit` in `setup_key`, which `rustc` infers from the structure, is written out; `0_u16`, `0_u32` are written `0u16`, `0u32`; there is a space in
`self.0 .next_block()`.
-/
set_option linter.unusedVariables false

namespace Verif.Rust.Rabbit

/-- rabbit/src/lib.rs:24. -/
rust! const KEY_BYTE_LEN: usize = 16;
/-- rabbit/src/lib.rs:26. -/
rust! const IV_BYTE_LEN: usize = 8;
/-- rabbit/src/lib.rs:29. -/
rust! const WORDSIZE: u64 = 1 << 32;
/-- rabbit/src/lib.rs:32-34. -/
rust! const A: [u32; 8] = [
    0x4D34D34D, 0xD34D34D3, 0x34D34D34, 0x4D34D34D, 0xD34D34D3, 0x34D34D34, 0x4D34D34D, 0xD34D34D3,
];

/-- rabbit/src/lib.rs:50-56. -/
rust! struct State {
    x: [u32; 8],
    c: [u32; 8],
    carry_bit: u8,
}

rust_traced! impl State {
    /-- rabbit/src/lib.rs:124-131. -/
    fn counter_update(&mut self) {
        for j in 0..8 {
            let t = self.c[j] as u64 + A[j] as u64 + self.carry_bit as u64;
            self.carry_bit = ((t / WORDSIZE) as u8) & 0b1;
            self.c[j] = (t % WORDSIZE) as u32;
        }
    }

    /-- rabbit/src/lib.rs:134-162. -/
    fn next_state(&mut self) {
        let mut g = [0u32; 8];

        self.counter_update();

        for j in 0..8 {
            let u_plus_v = self.x[j] as u64 + self.c[j] as u64;
            let square_uv = (u_plus_v % WORDSIZE) * (u_plus_v % WORDSIZE);
            g[j] = (square_uv ^ (square_uv >> 32)) as u32;
        }

        self.x[0] = g[0]
            .wrapping_add(g[7].rotate_left(16))
            .wrapping_add(g[6].rotate_left(16));
        self.x[1] = g[1].wrapping_add(g[0].rotate_left(8)).wrapping_add(g[7]);
        self.x[2] = g[2]
            .wrapping_add(g[1].rotate_left(16))
            .wrapping_add(g[0].rotate_left(16));
        self.x[3] = g[3].wrapping_add(g[2].rotate_left(8)).wrapping_add(g[1]);
        self.x[4] = g[4]
            .wrapping_add(g[3].rotate_left(16))
            .wrapping_add(g[2].rotate_left(16));
        self.x[5] = g[5].wrapping_add(g[4].rotate_left(8)).wrapping_add(g[3]);
        self.x[6] = g[6]
            .wrapping_add(g[5].rotate_left(16))
            .wrapping_add(g[4].rotate_left(16));
        self.x[7] = g[7].wrapping_add(g[6].rotate_left(8)).wrapping_add(g[5]);
    }

    /-- rabbit/src/lib.rs:60-96. -/
    fn setup_key(key: [u8; KEY_BYTE_LEN]) -> Self {
        let mut k = [0u16; 8];

        k[0] = (key[0x0] as u16) | ((key[0x1] as u16) << 8);
        k[1] = (key[0x2] as u16) | ((key[0x3] as u16) << 8);
        k[2] = (key[0x4] as u16) | ((key[0x5] as u16) << 8);
        k[3] = (key[0x6] as u16) | ((key[0x7] as u16) << 8);
        k[4] = (key[0x8] as u16) | ((key[0x9] as u16) << 8);
        k[5] = (key[0xA] as u16) | ((key[0xB] as u16) << 8);
        k[6] = (key[0xC] as u16) | ((key[0xD] as u16) << 8);
        k[7] = (key[0xE] as u16) | ((key[0xF] as u16) << 8);

        let mut x = [0u32; 8];
        let mut c = [0u32; 8];
        for j in 0..8 {
            if j % 2 == 0 {
                x[j] = ((k[(j + 1) % 8] as u32) << 16) | (k[j] as u32);
                c[j] = ((k[(j + 4) % 8] as u32) << 16) | (k[(j + 5) % 8] as u32);
            } else {
                x[j] = ((k[(j + 5) % 8] as u32) << 16) | (k[(j + 4) % 8] as u32);
                c[j] = ((k[j] as u32) << 16) | (k[(j + 1) % 8] as u32);
            }
        }

        let carry_bit: u8 = 0;
        let mut state = Self { x, c, carry_bit };

        for _ in 0..4 {
            state.next_state();
        }

        for j in 0..8 {
            state.c[j] ^= state.x[(j + 4) % 8];
        }

        state
    }

    /-- rabbit/src/lib.rs:99-121. -/
    fn setup_iv(&mut self, iv: [u8; IV_BYTE_LEN]) {
        let mut i = [0u32; 4];

        i[0] =
            iv[0] as u32 | ((iv[1] as u32) << 8) | ((iv[2] as u32) << 16) | ((iv[3] as u32) << 24);
        i[2] =
            iv[4] as u32 | ((iv[5] as u32) << 8) | ((iv[6] as u32) << 16) | ((iv[7] as u32) << 24);
        i[1] = (i[0] >> 16) | (i[2] & 0xFFFF0000);
        i[3] = (i[2] << 16) | (i[0] & 0x0000FFFF);

        self.c[0] ^= i[0];
        self.c[1] ^= i[1];
        self.c[2] ^= i[2];
        self.c[3] ^= i[3];
        self.c[4] ^= i[0];
        self.c[5] ^= i[1];
        self.c[6] ^= i[2];
        self.c[7] ^= i[3];

        for _ in 0..4 {
            self.next_state();
        }
    }

    /-- rabbit/src/lib.rs:165-197. -/
    fn extract(&self) -> [u8; 16] {
        let mut s = [0u8; 16];

        let mut tmp = [0u16; 8];

        tmp[0] = ((self.x[0]) ^ (self.x[5] >> 16)) as u16;
        tmp[1] = ((self.x[0] >> 16) ^ (self.x[3])) as u16;
        tmp[2] = ((self.x[2]) ^ (self.x[7] >> 16)) as u16;
        tmp[3] = ((self.x[2] >> 16) ^ (self.x[5])) as u16;
        tmp[4] = ((self.x[4]) ^ (self.x[1] >> 16)) as u16;
        tmp[5] = ((self.x[4] >> 16) ^ (self.x[7])) as u16;
        tmp[6] = ((self.x[6]) ^ (self.x[3] >> 16)) as u16;
        tmp[7] = ((self.x[6] >> 16) ^ (self.x[1])) as u16;

        s[0x0] = tmp[0] as u8;
        s[0x1] = (tmp[0] >> 8) as u8;
        s[0x2] = tmp[1] as u8;
        s[0x3] = (tmp[1] >> 8) as u8;
        s[0x4] = tmp[2] as u8;
        s[0x5] = (tmp[2] >> 8) as u8;
        s[0x6] = tmp[3] as u8;
        s[0x7] = (tmp[3] >> 8) as u8;
        s[0x8] = tmp[4] as u8;
        s[0x9] = (tmp[4] >> 8) as u8;
        s[0xA] = tmp[5] as u8;
        s[0xB] = (tmp[5] >> 8) as u8;
        s[0xC] = tmp[6] as u8;
        s[0xD] = (tmp[6] >> 8) as u8;
        s[0xE] = tmp[7] as u8;
        s[0xF] = (tmp[7] >> 8) as u8;

        s
    }

    /-- rabbit/src/lib.rs:199-202. -/
    fn next_block(&mut self) -> [u8; 16] {
        self.next_state();
        self.extract()
    }
}

rust! impl Drop for State {
    /-- rabbit/src/lib.rs:207-211. -/
    fn drop(&mut self) {
        self.x.zeroize();
        self.c.zeroize();
        self.carry_bit.zeroize();
    }
}

/-- rabbit/src/lib.rs:215-217. -/
rust! pub struct RabbitKeyOnlyCore {
    state: State,
}

rust_traced! impl KeyInit for RabbitKeyOnlyCore {
    /-- rabbit/src/lib.rs:224-228. -/
    fn new(key: &Key) -> Self {
        Self {
            state: State::setup_key((*key).into()),
        }
    }
}

rust_traced! impl StreamCipherCore for RabbitKeyOnlyCore {
    /-- rabbit/src/lib.rs:237-242. -/
    fn remaining_blocks(&self) -> Option<usize> {
        None
    }
}

/-- rabbit/src/lib.rs:253-255. -/
rust! pub struct RabbitCore {
    state: State,
}

rust_traced! impl InnerIvInit for RabbitCore {
    /-- rabbit/src/lib.rs:266-270. -/
    fn inner_iv_init(inner: RabbitKeyOnlyCore, iv: &Iv) -> Self {
        let mut state = inner.state;
        state.setup_iv((*iv).into());
        Self { state }
    }
}

rust_traced! impl StreamCipherCore for RabbitCore {
    /-- rabbit/src/lib.rs:279-284. -/
    fn remaining_blocks(&self) -> Option<usize> {
        None
    }
}

/-- rabbit/src/lib.rs:291. -/
rust! struct Backend(&mut State);

rust_traced! impl StreamCipherBackend for Backend {
    /-- rabbit/src/lib.rs:303-305. -/
    fn gen_ks_block(&mut self, block: &mut Block<Self>) {
        block.copy_from_slice(&self.0 .next_block());
    }
}

/-- Closures on blocks of 16 bytes - rabbit/src/lib.rs:42. -/
abbrev StreamCipherClosure (F : Type) : Type 1 := BlockClosure 16 F

/-- `f.call(backend)`. -/
abbrev StreamCipherClosure.call {F σ : Type} [BlockClosure 16 F] [BlockBackend 16 σ] (tgt : Target) (f : F) (s : σ) :
    Except Panic (Unit × F × σ) := BlockClosure.call 16 tgt f s

/-- The same, recording. -/
abbrev StreamCipherClosure.call_tr {F σ : Type} [BlockClosure 16 F] [BlockBackend 16 σ] (tgt : Target) (f : F) (s : σ) :
    Tr (Unit × F × σ) := BlockClosure.call_tr 16 tgt f s

/-- The trait - rabbit/src/lib.rs:301-306. -/
instance : BlockBackend 16 Backend := ⟨Backend.gen_ks_block, Backend.gen_ks_block_tr⟩

rust_traced! impl StreamCipherCore for RabbitKeyOnlyCore {
    /-- rabbit/src/lib.rs:244-246. -/
    fn process_with_backend(&mut self, f: impl StreamCipherClosure<BlockSize = Self::BlockSize>) {
        f.call(&mut Backend(&mut self.state));
    }
}

rust_traced! impl StreamCipherCore for RabbitCore {
    /-- rabbit/src/lib.rs:286-288. -/
    fn process_with_backend(&mut self, f: impl StreamCipherClosure<BlockSize = Self::BlockSize>) {
        f.call(&mut Backend(&mut self.state));
    }
}

end Verif.Rust.Rabbit
