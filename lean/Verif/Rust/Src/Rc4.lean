import Verif.Rust.Syntax
/-!
# The text of `rc4`

`/repo/rc4/src/lib.rs`, lines 16-116, without comments, attributes and associated types.  The array type of `state` in `new_from_slice`, which
`rustc` infers from the structure, is written out; lifetimes are left out.
-/
set_option linter.unusedVariables false

namespace Verif.Rust.Rc4

/-- rc4/src/lib.rs:16. -/
rust! const MIN_KEY_SIZE: usize = 1;
/-- rc4/src/lib.rs:17. -/
rust! const MAX_KEY_SIZE: usize = 256;

/-- rc4/src/lib.rs:20-24. -/
rust! pub struct Rc4 {
    state: [u8; 256],
    i: u8,
    j: u8,
}

rust_traced! impl Rc4 {
    /-- rc4/src/lib.rs:27-29. -/
    fn s_i(&self) -> u8 {
        self.state[self.i as usize]
    }

    /-- rc4/src/lib.rs:31-33. -/
    fn s_j(&self) -> u8 {
        self.state[self.j as usize]
    }

    /-- rc4/src/lib.rs:35-44. -/
    fn prga(&mut self) -> u8 {
        self.i = self.i.wrapping_add(1);
        self.j = self.j.wrapping_add(self.s_i());

        self.state.swap(usize::from(self.i), usize::from(self.j));

        let index = self.s_i().wrapping_add(self.s_j());

        self.state[usize::from(index)]
    }
}

rust_traced! impl KeyInit for Rc4 {
    /-- rc4/src/lib.rs:58-76. -/
    fn new_from_slice(key: &[u8]) -> Result<Self, InvalidLength> {
        if key.len() < MIN_KEY_SIZE || key.len() > MAX_KEY_SIZE {
            return Err(InvalidLength);
        }

        let mut state: [u8; 256] = array::from_fn(|i| u8::try_from(i).expect("`i` is less than 256"));

        let i_iter = 0..256usize;
        let key_iter = key.iter().cycle();

        let mut j = 0u8;

        i_iter.zip(key_iter).for_each(|(i, k)| {
            j = j.wrapping_add(state[i]).wrapping_add(*k);
            state.swap(i, usize::from(j));
        });

        Ok(Self { state, i: 0, j: 0 })
    }

    /-- rc4/src/lib.rs:53-55. -/
    fn new(key: &Key<Self>) -> Self {
        Self::new_from_slice(key).expect("32 byte keys are supported")
    }
}

rust_traced! impl StreamCipher for Rc4 {
    /-- rc4/src/lib.rs:85-87. -/
    fn check_remaining(&self, _data_len: usize) -> Result<(), StreamCipherError> {
        Ok(())
    }

    /-- rc4/src/lib.rs:90-95. -/
    fn unchecked_apply_keystream_inout(&mut self, buf: InOutBuf<u8>) {
        buf.into_iter().for_each(|mut b| {
            let ks = self.prga();
            *b.get_out() = ks ^ *b.get_in();
        });
    }

    /-- rc4/src/lib.rs:98-100. -/
    fn unchecked_write_keystream(&mut self, buf: &mut [u8]) {
        buf.iter_mut().for_each(|b| *b = self.prga());
    }
}

rust! impl core::ops::Drop for Rc4 {
    /-- rc4/src/lib.rs:107-115. -/
    fn drop(&mut self) {
        {
            use cipher::zeroize::Zeroize;
            self.state.zeroize();
            self.i.zeroize();
            self.j.zeroize();
        }
    }
}

end Verif.Rust.Rc4
