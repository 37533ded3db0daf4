import Verif.Rust.Syntax
import Verif.Rust.Closure
/-!
# The text of `hc-256`

`/repo/hc-256/src/lib.rs` without comments, attributes, lifetimes and associated types; functions stand after those they call, and the two functions local to
`new` stand before it.  The types of `data` and of the elements of the tables in `new`, which `rustc` infers, are written out; there is a space in `self.0 .gen_word()`.
-/
set_option linter.unusedVariables false

namespace Verif.Rust.Hc256

/-- hc-256/src/lib.rs:23. -/
rust! const TABLE_SIZE: usize = 1024;
/-- hc-256/src/lib.rs:24. -/
rust! const TABLE_MASK: usize = TABLE_SIZE - 1;
/-- hc-256/src/lib.rs:25. -/
rust! const INIT_SIZE: usize = 2660;
/-- hc-256/src/lib.rs:26. -/
rust! const KEY_BITS: usize = 256;
/-- hc-256/src/lib.rs:27. -/
rust! const KEY_WORDS: usize = KEY_BITS / 32;
/-- hc-256/src/lib.rs:28. -/
rust! const IV_BITS: usize = 256;
/-- hc-256/src/lib.rs:29. -/
rust! const IV_WORDS: usize = IV_BITS / 32;

/-- hc-256/src/lib.rs:41-45. -/
rust! pub struct Hc256Core {
    ptable: [u32; TABLE_SIZE],
    qtable: [u32; TABLE_SIZE],
    idx: u32,
}

rust_traced! impl Hc256Core {
    /-- hc-256/src/lib.rs:136-139. -/
    fn g1(&self, x: u32, y: u32) -> u32 {
        (x.rotate_right(10) ^ y.rotate_right(23))
            .wrapping_add(self.qtable[(x ^ y) as usize & TABLE_MASK])
    }

    /-- hc-256/src/lib.rs:142-145. -/
    fn g2(&self, x: u32, y: u32) -> u32 {
        (x.rotate_right(10) ^ y.rotate_right(23))
            .wrapping_add(self.ptable[(x ^ y) as usize & TABLE_MASK])
    }

    /-- hc-256/src/lib.rs:148-153. -/
    fn h1(&self, x: u32) -> u32 {
        self.qtable[(x & 0xff) as usize]
            .wrapping_add(self.qtable[(256 + ((x >> 8) & 0xff)) as usize])
            .wrapping_add(self.qtable[(512 + ((x >> 16) & 0xff)) as usize])
            .wrapping_add(self.qtable[(768 + ((x >> 24) & 0xff)) as usize])
    }

    /-- hc-256/src/lib.rs:156-161. -/
    fn h2(&self, x: u32) -> u32 {
        self.ptable[(x & 0xff) as usize]
            .wrapping_add(self.ptable[(256 + ((x >> 8) & 0xff)) as usize])
            .wrapping_add(self.ptable[(512 + ((x >> 16) & 0xff)) as usize])
            .wrapping_add(self.ptable[(768 + ((x >> 24) & 0xff)) as usize])
    }

    /-- hc-256/src/lib.rs:163-188. -/
    fn gen_word(&mut self) -> u32 {
        let i = self.idx as usize;
        let j = self.idx as usize & TABLE_MASK;

        self.idx = (self.idx + 1) & (2048 - 1);

        if i < 1024 {
            self.ptable[j] = self.ptable[j]
                .wrapping_add(self.ptable[j.wrapping_sub(10) & TABLE_MASK])
                .wrapping_add(self.g1(
                    self.ptable[j.wrapping_sub(3) & TABLE_MASK],
                    self.ptable[j.wrapping_sub(1023) & TABLE_MASK],
                ));

            self.h1(self.ptable[j.wrapping_sub(12) & TABLE_MASK]) ^ self.ptable[j]
        } else {
            self.qtable[j] = self.qtable[j]
                .wrapping_add(self.qtable[j.wrapping_sub(10) & TABLE_MASK])
                .wrapping_add(self.g2(
                    self.qtable[j.wrapping_sub(3) & TABLE_MASK],
                    self.qtable[j.wrapping_sub(1023) & TABLE_MASK],
                ));

            self.h2(self.qtable[j.wrapping_sub(12) & TABLE_MASK]) ^ self.qtable[j]
        }
    }
}

/-- hc-256/src/lib.rs:61-63. -/
rust_traced! fn f1(x: u32) -> u32 {
    x.rotate_right(7) ^ x.rotate_right(18) ^ (x >> 3)
}

/-- hc-256/src/lib.rs:65-67. -/
rust_traced! fn f2(x: u32) -> u32 {
    x.rotate_right(17) ^ x.rotate_right(19) ^ (x >> 10)
}

rust_traced! impl KeyIvInit for Hc256Core {
    /-- hc-256/src/lib.rs:60-108. -/
    fn new(key: &Key, iv: &Iv) -> Self {
        let mut out = Self {
            ptable: [0; TABLE_SIZE],
            qtable: [0; TABLE_SIZE],
            idx: 0,
        };
        let mut data = [0u32; INIT_SIZE];

        for i in 0..KEY_WORDS {
            data[i] = key[4 * i] as u32 & 0xff
                | ((key[(4 * i) + 1] as u32 & 0xff) << 8)
                | ((key[(4 * i) + 2] as u32 & 0xff) << 16)
                | ((key[(4 * i) + 3] as u32 & 0xff) << 24);
        }

        for i in 0..IV_WORDS {
            data[i + KEY_WORDS] = iv[4 * i] as u32 & 0xff
                | ((iv[(4 * i) + 1] as u32 & 0xff) << 8)
                | ((iv[(4 * i) + 2] as u32 & 0xff) << 16)
                | ((iv[(4 * i) + 3] as u32 & 0xff) << 24);
        }

        for i in IV_WORDS + KEY_WORDS..INIT_SIZE {
            data[i] = f2(data[i - 2])
                .wrapping_add(data[i - 7])
                .wrapping_add(f1(data[i - 15]))
                .wrapping_add(data[i - 16])
                .wrapping_add(i as u32);
        }

        out.ptable[..TABLE_SIZE].clone_from_slice(&data[512..(TABLE_SIZE + 512)]);
        out.qtable[..TABLE_SIZE].clone_from_slice(&data[1536..(TABLE_SIZE + 1536)]);

        out.idx = 0;

        for _ in 0..4096 {
            out.gen_word();
        }

        out
    }
}

rust_traced! impl StreamCipherCore for Hc256Core {
    /-- hc-256/src/lib.rs:113-115. -/
    fn remaining_blocks(&self) -> Option<usize> {
        None
    }
}

rust! impl Drop for Hc256Core {
    /-- hc-256/src/lib.rs:193-197. -/
    fn drop(&mut self) {
        self.ptable.zeroize();
        self.qtable.zeroize();
        self.idx.zeroize();
    }
}

/-- hc-256/src/lib.rs:203. -/
rust! struct Backend(&mut Hc256Core);

rust_traced! impl StreamCipherBackend for Backend {
    /-- hc-256/src/lib.rs:215-217. -/
    fn gen_ks_block(&mut self, block: &mut Block<Self>) {
        block.copy_from_slice(&self.0 .gen_word().to_le_bytes());
    }
}

/-- Closures on blocks of 4 bytes - hc-256/src/lib.rs:112. -/
abbrev StreamCipherClosure (F : Type) : Type 1 := BlockClosure 4 F

/-- `f.call(backend)`. -/
abbrev StreamCipherClosure.call {F σ : Type} [BlockClosure 4 F] [BlockBackend 4 σ] (tgt : Target) (f : F) (s : σ) :
    Except Panic (Unit × F × σ) := BlockClosure.call 4 tgt f s

/-- The same, recording. -/
abbrev StreamCipherClosure.call_tr {F σ : Type} [BlockClosure 4 F] [BlockBackend 4 σ] (tgt : Target) (f : F) (s : σ) :
    Tr (Unit × F × σ) := BlockClosure.call_tr 4 tgt f s

/-- The trait - hc-256/src/lib.rs:213-218. -/
instance : BlockBackend 4 Backend := ⟨Backend.gen_ks_block, Backend.gen_ks_block_tr⟩

rust_traced! impl StreamCipherCore for Hc256Core {
    /-- hc-256/src/lib.rs:117-119. -/
    fn process_with_backend(&mut self, f: impl StreamCipherClosure<BlockSize = Self::BlockSize>) {
        f.call(&mut Backend(self));
    }
}

rust! impl AlgorithmName for Hc256Core {
    /-- hc-256/src/lib.rs:123-125. -/
    fn write_alg_name(f: &mut fmt::Formatter) -> fmt::Result {
        f.write_str("Hc256")
    }
}

rust! impl fmt::Debug for Hc256Core {
    /-- hc-256/src/lib.rs:129-131. -/
    fn fmt(&self, f: &mut fmt::Formatter) -> fmt::Result {
        f.write_str("Hc256Core { ... }")
    }
}

end Verif.Rust.Hc256
