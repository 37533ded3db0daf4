import Verif.Rust.Cfg
import Verif.Rust.ChaChaBuild
import Verif.Rust.Src.ChaChaSse2
import Verif.Rust.Src.ChaChaAvx2
import Verif.Rust.Src.ChaChaAvx512
import Verif.Rust.Src.ChaChaNeon
/-!
# The text of the dispatchers of `chacha20`

`process_with_backend` and `generate` with their `cfg_if!`, the modules in `/repo/chacha20/src/backends.rs`, and the type and the initialiser of the tokens, without
comments.  The tokens have no contents: a value of type `Tokens` is `()` in every configuration.
-/
set_option linter.unusedVariables false

namespace Verif.Rust.ChaCha

/-- What the processor can do - chacha20/src/lib.rs:103-106. -/
class Cpu where
  detected : Verif.ChaCha.Config.Detected

/-- `cpufeatures::new!(avx512_cpuid, "avx512f", "avx512vl")` - chacha20/src/lib.rs:104. -/
structure avx512_cpuid.InitToken

/-- `cpufeatures::new!(avx2_cpuid, "avx2")` - chacha20/src/lib.rs:105. -/
structure avx2_cpuid.InitToken

/-- `cpufeatures::new!(sse2_cpuid, "sse2")` - chacha20/src/lib.rs:106. -/
structure sse2_cpuid.InitToken

/-- Crate `cpufeatures`: the feature has been detected. -/
def avx512_cpuid.InitToken.get [Cpu] (tgt : Target) (_ : InitToken) : Except Panic Bool := .ok Cpu.detected.avx512
@[inherit_doc avx512_cpuid.InitToken.get] def avx2_cpuid.InitToken.get [Cpu] (tgt : Target) (_ : InitToken) : Except Panic Bool := .ok Cpu.detected.avx2
@[inherit_doc avx512_cpuid.InitToken.get] def sse2_cpuid.InitToken.get [Cpu] (tgt : Target) (_ : InitToken) : Except Panic Bool := .ok Cpu.detected.sse2

/-- Crate `cpufeatures`: the answer is kept in memory, only the condition that uses it is seen. -/
def avx512_cpuid.InitToken.get_tr [Cpu] (tgt : Target) (t : InitToken) : Tr Bool := t.get tgt
@[inherit_doc avx512_cpuid.InitToken.get_tr] def avx2_cpuid.InitToken.get_tr [Cpu] (tgt : Target) (t : InitToken) : Tr Bool := t.get tgt
@[inherit_doc avx512_cpuid.InitToken.get_tr] def sse2_cpuid.InitToken.get_tr [Cpu] (tgt : Target) (t : InitToken) : Tr Bool := t.get tgt

/-- chacha20/src/lib.rs:110. -/
instance : Tuple2 Tokens avx2_cpuid.InitToken sse2_cpuid.InitToken := ⟨fun _ => (⟨⟩, ⟨⟩)⟩

/-- chacha20/src/lib.rs:108. -/
instance : Tuple3 Tokens avx512_cpuid.InitToken avx2_cpuid.InitToken sse2_cpuid.InitToken := ⟨fun _ => (⟨⟩, ⟨⟩, ⟨⟩)⟩

/-- The trait, with the provided `gen_par_ks_blocks` and `gen_tail_blocks` - chacha20/src/backends/soft.rs:28-46. -/
instance {R V : Type} [Rounds R] [Variant V] : StreamCipherBackend (Backend R V) where
  parSize := 1
  gen_ks_block := Backend.gen_ks_block
  gen_par_ks_blocks tgt := genEach (Backend.gen_ks_block tgt)
  gen_tail_blocks tgt := providedTail 1 (Backend.gen_ks_block tgt)
  gen_ks_block_tr := Backend.gen_ks_block_tr
  gen_par_ks_blocks_tr tgt s blocks := do Tr.loop blocks.length; genEach_tr (Backend.gen_ks_block_tr tgt) s blocks
  gen_tail_blocks_tr tgt := providedTail_tr 1 (Backend.gen_ks_block_tr tgt)

variable [Cpu]

namespace dispatch

rust_cfgs! impl<R: Rounds, V: Variant> StreamCipherCore for ChaChaCore<R, V> {
    /-- chacha20/src/lib.rs:239-298. -/
    fn process_with_backend(
        &mut self,
        f: impl cipher::StreamCipherClosure<BlockSize = Self::BlockSize>,
    ) {
        cfg_if! {
            if #[cfg(chacha20_backend = "soft")] {
                f.call(&mut backends::soft::Backend(self));
            } else if #[cfg(any(target_arch = "x86", target_arch = "x86_64"))] {
                cfg_if! {
                    if #[cfg(all(chacha20_avx512, chacha20_backend = "avx512"))] {
                        unsafe {
                            backends::avx512::inner::<R, _, V>(&mut self.state, f);
                        }
                    } else if #[cfg(chacha20_backend = "avx2")] {
                        unsafe {
                            backends::avx2::inner::<R, _, V>(&mut self.state, f);
                        }
                    } else if #[cfg(chacha20_backend = "sse2")] {
                        unsafe {
                            backends::sse2::inner::<R, _, V>(&mut self.state, f);
                        }
                    } else {
                        #[cfg(chacha20_avx512)]
                        let (avx512_token, avx2_token, sse2_token) = self.tokens;
                        #[cfg(not(chacha20_avx512))]
                        let (avx2_token, sse2_token) = self.tokens;

                        #[cfg(chacha20_avx512)]
                        if avx512_token.get() {
                            unsafe {
                                backends::avx512::inner::<R, _, V>(&mut self.state, f);
                            }
                            return;
                        }
                        if avx2_token.get() {
                            unsafe {
                                backends::avx2::inner::<R, _, V>(&mut self.state, f);
                            }
                        } else if sse2_token.get() {
                            unsafe {
                                backends::sse2::inner::<R, _, V>(&mut self.state, f);
                            }
                        } else {
                            f.call(&mut backends::soft::Backend(self));
                        }
                    }
                }
            } else if #[cfg(all(target_arch = "aarch64", target_feature = "neon"))] {
                unsafe {
                    backends::neon::inner::<R, _, V>(&mut self.state, f);
                }
            } else {
                f.call(&mut backends::soft::Backend(self));
            }
        }
    }
}

rust_cfgs! impl<R: Rounds, V: Variant> Generator for ChaChaCore<R, V> {
    /-- chacha20/src/rng.rs:49-92. -/
    fn generate(&mut self, buffer: &mut [u32; BUFFER_SIZE]) {
        cfg_if! {
            if #[cfg(chacha20_backend = "soft")] {
                backends::soft::Backend(self).gen_ks_blocks(buffer);
            } else if #[cfg(any(target_arch = "x86", target_arch = "x86_64"))] {
                cfg_if! {
                    if #[cfg(any(chacha20_backend = "avx2", chacha20_backend = "avx512"))] {
                        unsafe {
                            backends::avx2::rng_inner::<R, V>(self, buffer);
                        }
                    } else if #[cfg(chacha20_backend = "sse2")] {
                        unsafe {
                            backends::sse2::rng_inner::<R, V>(self, buffer);
                        }
                    } else {
                        #[cfg(chacha20_avx512)]
                        let (_avx512_token, avx2_token, sse2_token) = self.tokens;
                        #[cfg(not(chacha20_avx512))]
                        let (avx2_token, sse2_token) = self.tokens;

                        if avx2_token.get() {
                            unsafe {
                                backends::avx2::rng_inner::<R, V>(self, buffer);
                            }
                        } else if sse2_token.get() {
                            unsafe {
                                backends::sse2::rng_inner::<R, V>(self, buffer);
                            }
                        } else {
                            backends::soft::Backend(self).gen_ks_blocks(buffer);
                        }
                    }
                }
            } else if #[cfg(all(target_arch = "aarch64", target_feature = "neon"))] {
                unsafe {
                    backends::neon::rng_inner::<R, V>(self, buffer);
                }
            } else {
                backends::soft::Backend(self).gen_ks_blocks(buffer);
            }
        }
    }
}

/-- chacha20/src/backends.rs:5-32. -/
rust_items! backends cfg_if! {
    if #[cfg(chacha20_backend = "soft")] {
        pub(crate) mod soft;
    } else if #[cfg(any(target_arch = "x86", target_arch = "x86_64"))] {
        cfg_if! {
            if #[cfg(all(chacha20_avx512, chacha20_backend = "avx512"))] {
                pub(crate) mod avx512;
                #[cfg(feature = "rng")]
                pub(crate) mod avx2;
            } else if #[cfg(chacha20_backend = "avx2")] {
                pub(crate) mod avx2;
            } else if #[cfg(chacha20_backend = "sse2")] {
                pub(crate) mod sse2;
            } else {
                pub(crate) mod soft;
                #[cfg(chacha20_avx512)]
                pub(crate) mod avx512;
                pub(crate) mod avx2;
                pub(crate) mod sse2;
            }
        }
    } else if #[cfg(all(target_arch = "aarch64", target_feature = "neon"))] {
        pub(crate) mod neon;
    } else {
        pub(crate) mod soft;
    }
}

/-- chacha20/src/lib.rs:82-116. -/
rust_items! tokensType cfg_if! {
    if #[cfg(chacha20_backend = "soft")] {
        type Tokens = ();
    } else if #[cfg(any(target_arch = "x86", target_arch = "x86_64"))] {
        cfg_if! {
            if #[cfg(all(chacha20_avx512, chacha20_backend = "avx512"))] {
                #[cfg(not(all(target_feature = "avx512f", target_feature = "avx512vl")))]
                compile_error!("You must enable `avx512f` and `avx512vl` target features with \
                    `chacha20_backend = "avx512"` configuration option");
                type Tokens = ();
            } else if #[cfg(chacha20_backend = "avx2")] {
                #[cfg(not(target_feature = "avx2"))]
                compile_error!("You must enable `avx2` target feature with \
                    `chacha20_backend = "avx2"` configuration option");
                type Tokens = ();
            } else if #[cfg(chacha20_backend = "sse2")] {
                #[cfg(not(target_feature = "sse2"))]
                compile_error!("You must enable `sse2` target feature with \
                    `chacha20_backend = "sse2"` configuration option");
                type Tokens = ();
            } else {
                #[cfg(chacha20_avx512)]
                cpufeatures::new!(avx512_cpuid, "avx512f", "avx512vl");
                cpufeatures::new!(avx2_cpuid, "avx2");
                cpufeatures::new!(sse2_cpuid, "sse2");
                #[cfg(chacha20_avx512)]
                type Tokens = (avx512_cpuid::InitToken, avx2_cpuid::InitToken, sse2_cpuid::InitToken);
                #[cfg(not(chacha20_avx512))]
                type Tokens = (avx2_cpuid::InitToken, sse2_cpuid::InitToken);
            }
        }
    } else {
        type Tokens = ();
    }
}

/-- chacha20/src/lib.rs:164-184. -/
rust_items! tokensInit         cfg_if! {
            if #[cfg(chacha20_backend = "soft")] {
                let tokens = ();
            } else if #[cfg(any(target_arch = "x86", target_arch = "x86_64"))] {
                cfg_if! {
                    if #[cfg(chacha20_backend = "avx512")] {
                        let tokens = ();
                    } else if #[cfg(chacha20_backend = "avx2")] {
                        let tokens = ();
                    } else if #[cfg(chacha20_backend = "sse2")] {
                        let tokens = ();
                    } else if #[cfg(chacha20_avx512)] {
                        let tokens = (avx512_cpuid::init(), avx2_cpuid::init(), sse2_cpuid::init());
                    } else {
                        let tokens = (avx2_cpuid::init(), sse2_cpuid::init());
                    }
                }
            } else {
                let tokens = ();
            }
        }

end dispatch

/-- The build for which the text is compiled. -/
class Dispatcher where
  process : Process
  process_tr : {R V : Type} → [Rounds R] → [Variant V] → {F : Type} → [StreamCipherClosure F] → Target → ChaChaCore R V → F → Tr (Unit × ChaChaCore R V × F)

/-- `ChaChaCore::process_with_backend` in that build - chacha20/src/lib.rs:239-298. -/
def ChaChaCore.process_with_backend [Dispatcher] {R V : Type} [Rounds R] [Variant V] {F : Type} [StreamCipherClosure F] (tgt : Target) (c : ChaChaCore R V) (f : F) :
    Except Panic (Unit × ChaChaCore R V × F) := Dispatcher.process.run R V tgt c f

@[inherit_doc ChaChaCore.process_with_backend] def ChaChaCore.process_with_backend_tr [Dispatcher] {R V : Type} [Rounds R] [Variant V] {F : Type} [StreamCipherClosure F]
    (tgt : Target) (c : ChaChaCore R V) (f : F) : Tr (Unit × ChaChaCore R V × F) := Dispatcher.process_tr tgt c f

variable [Dispatcher]

rust_traced! impl<R: Rounds> StreamCipherCore for XChaChaCore<R> {
    /-- chacha20/src/xchacha.rs:76-78. -/
    fn process_with_backend(&mut self, f: impl StreamCipherClosure<BlockSize = Self::BlockSize>) {
        self.0 .process_with_backend(f);
    }
}

end Verif.Rust.ChaCha
