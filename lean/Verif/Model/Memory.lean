import Verif.Model.Rc4
import Verif.Spec.Ciphers
/-!
# Buffers in memory: in place or from one buffer to another

`Op.apply` treats a buffer as a value.  In the code the buffer is an `inout::InOutBuf<u8>`: an input pointer, an output pointer and a
length, where the two regions are the same (`apply_keystream`) or do not overlap (`apply_keystream_b2b`).  The cipher reads and writes
through these pointers piece by piece.  `InOutBuf`, `ApplyBlocks` and the wrapper come from the crates `inout` 0.2 and `cipher` 0.5 and are
modelled from their published source; RC4 has a loop of its own in the repository.
-/
namespace Verif

/-- Byte-addressed memory - the memory behind the buffers of rc4/src/lib.rs:90-95 and of the wrapper. -/
abbrev Mem := Nat → U8

namespace Mem

/-- The bytes at `a, …, a + n - 1` - rc4/src/lib.rs:93 (`get_in`). -/
def read (m : Mem) (a n : Nat) : List U8 := (List.range n).map fun i => m (a + i)

/-- One store - rc4/src/lib.rs:93 (`get_out`). -/
def set (m : Mem) (a : Nat) (v : U8) : Mem := fun x => if x = a then v else m x

/-- Store a byte string at `a`, from its first byte on - chacha20/src/backends/soft.rs:42-44. -/
def write (m : Mem) (a : Nat) : List U8 → Mem
  | [] => m
  | v :: l => (m.set a v).write (a + 1) l

end Mem

/-- `InOutBuf<u8>` - crate `inout`; used at rc4/src/lib.rs:90. -/
structure InOutBuf where
  inp : Nat
  out : Nat
  len : Nat

namespace InOutBuf

/-- What Rust's references guarantee: the same region, or regions that do not overlap - crate `inout`; rc4/src/lib.rs:90. -/
def Ok (b : InOutBuf) : Prop := b.inp = b.out ∨ b.inp + b.len ≤ b.out ∨ b.out + b.len ≤ b.inp

/-- Second part of `split_at` - crate `inout`; rc4/src/lib.rs:91 (`into_iter`). -/
def drop (b : InOutBuf) (k : Nat) : InOutBuf := ⟨b.inp + k, b.out + k, b.len - k⟩

end InOutBuf

/-- `InOutBuf<u8>::xor_in2out`: byte by byte - crate `inout`; used by the wrapper of chacha20/src/chacha.rs:16-22. -/
def xorLoop (inp out : Nat) : List U8 → Mem → Mem
  | [], m => m
  | k :: ks, m => xorLoop (inp + 1) (out + 1) ks (m.set out (m inp ^^^ k))

/-- `InOut<Array<..>>::xor_in2out`: read the whole array into a temporary, XOR, write it - crate `inout`; used by the wrapper of
chacha20/src/chacha.rs:16-22. -/
def xorArray (inp out : Nat) (ks : List U8) (m : Mem) : Mem := m.write out (xorBytes (m.read inp ks.length) ks)

/-- The blocks of a tail, one after the other - crate `cipher`; run by `process_with_backend`, chacha20/src/lib.rs:239-298. -/
def xorBlocks {bs : Nat} (inp out : Nat) : List (Vector U8 bs) → Mem → Mem
  | [], m => m
  | k :: ks, m => xorBlocks (inp + bs) (out + bs) ks (xorArray inp out k.toList m)

/-- Loop of `ApplyBlocks` for `ParBlocksSize > 1` on `n` blocks: `m` chunks, then the tail - crate `cipher`; run by `process_with_backend`,
chacha20/src/lib.rs:239-298. -/
def applyChunksMem {bs : Nat} (par : Nat) : Nat → Nat → Nat → Nat → Mem → Prog bs Mem
  | 0, inp, out, n, mem => .tail n fun ks => .done (xorBlocks inp out ks mem)
  | m + 1, inp, out, n, mem => .par fun ks =>
      applyChunksMem par m (inp + par * bs) (out + par * bs) (n - par) (xorArray inp out (ks.map (·.toList)).flatten mem)

/-- Loop of `ApplyBlocks` for `ParBlocksSize = 1` - crate `cipher`; run by `process_with_backend`, chacha20/src/lib.rs:239-298. -/
def applySinglesMem {bs : Nat} : Nat → Nat → Nat → Mem → Prog bs Mem
  | 0, _, _, mem => .done mem
  | n + 1, inp, out, mem => .block fun k => applySinglesMem n (inp + bs) (out + bs) (xorArray inp out k.toList mem)

/-- `ApplyBlocks::call` on `n` blocks - crate `cipher`; run by `process_with_backend`, chacha20/src/lib.rs:239-298. -/
def applyBlocksMem {bs : Nat} (inp out n : Nat) (mem : Mem) : Closure bs Mem := fun par =>
  if par > 1 then applyChunksMem par (n / par) inp out n mem else applySinglesMem n inp out mem

variable {bs : Nat} {χ : Type}

/-- `unchecked_apply_keystream_inout` of the wrapper - crate `cipher`, wrapper of chacha20/src/chacha.rs:16-22 and the other cipher types. -/
def Wrapper.uncheckedApplyMem (C : Core bs χ) (x : χ) (w : Wrapper bs C.σ) (b : InOutBuf) (mem : Mem) :
    Except Panic (Mem × Wrapper bs C.σ) := do
  let headLen := min (bs - w.pos) b.len
  let mem := xorLoop b.inp b.out ((w.buf.toList.drop w.pos).take headLen) mem
  let w := { w with pos := w.pos + headLen }
  let rest := b.drop headLen
  let k := rest.len / bs
  let (mem, core) ← C.process x (applyBlocksMem rest.inp rest.out k mem) w.core
  let w := { w with core := core }
  let tail := rest.drop (k * bs)
  if tail.len = 0 then return (mem, w) else
  let (b, core) ← C.process x (writeBlockClosure bs) w.core
  return (xorLoop tail.inp tail.out (b.toList.take tail.len) mem, ⟨core, b, tail.len⟩)

/-- `try_apply_keystream_inout` of the wrapper - crate `cipher`, wrapper of chacha20/src/chacha.rs:16-22 and the other cipher types. -/
def Wrapper.tryApplyMem (C : Core bs χ) (x : χ) (w : Wrapper bs C.σ) (b : InOutBuf) (mem : Mem) :
    Except Panic (Except CipherError Unit × Mem × Wrapper bs C.σ) :=
  match w.checkRemaining C b.len with
  | .error e => .ok (.error e, mem, w)
  | .ok () => do
    let (mem, w) ← w.uncheckedApplyMem C x b mem
    return (.ok (), mem, w)

namespace Rc4

/-- `unchecked_apply_keystream_inout` - rc4/src/lib.rs:90-95: for each byte, `prga`, load, XOR, store. -/
def applyLoop : Nat → Nat → Nat → Mem → State → Mem × State
  | 0, _, _, m, s => (m, s)
  | n + 1, inp, out, m, s =>
    let (k, s) := prga s
    applyLoop n (inp + 1) (out + 1) (m.set out (k ^^^ m inp)) s

/-- `try_apply_keystream_inout` (provided method) - rc4/src/lib.rs:83-95. -/
def tryApplyMem (_ : Unit) (s : State) (b : InOutBuf) (mem : Mem) : Except Panic (Except CipherError Unit × Mem × State) :=
  match checkRemaining s b.len with
  | .error e => .ok (.error e, mem, s)
  | .ok () => let (mem, s) := applyLoop b.len b.inp b.out mem s; .ok (.ok (), mem, s)

end Rc4

/-! ### Histories of calls on buffers in memory -/

/-- A call; `ι` are the calls that have no buffer - calls on the types of chacha20/src/chacha.rs:16-22, rc4/src/lib.rs:83-101 and the other
cipher types. -/
inductive MemCall (ι : Type) where
  /-- `try_apply_keystream_inout(buf)`; `try_apply_keystream(buf)` is the case of equal pointers -/
  | inout (b : InOutBuf)
  /-- `apply_keystream_b2b(input, output)` -/
  | b2b (inp ilen out olen : Nat)
  /-- `try_write_keystream(buf)` -/
  | fill (a n : Nat)
  /-- something else stores bytes -/
  | store (a : Nat) (l : List U8)
  /-- a call without a buffer -/
  | other (i : ι)

/-- The calls of a seekable cipher without a buffer - calls on the types of chacha20/src/chacha.rs:16-22 and the other seekable types. -/
inductive Nav where
  | seek (q : Nat)
  | pos (snMax : Nat)

/-- The call as `SeekOp` - chacha20/src/chacha.rs:16-22. -/
def Nav.op : Nav → SeekOp
  | .seek q => .seek q
  | .pos n => .pos n

/-- Result of a call that fills a buffer - crate `cipher`, wrapper of chacha20/src/chacha.rs:16-22 and the other cipher types. -/
def Obs.result : Obs → Except CipherError Unit
  | .data r _ => r
  | .done r => r
  | .num _ => .ok ()

/-- Contents of the buffer after a call - crate `cipher`, wrapper of chacha20/src/chacha.rs:16-22 and the other cipher types. -/
def Obs.bytes : Obs → List U8
  | .data _ out => out
  | _ => []

/-- One call on an object with memory.  `apply` is the method `try_apply_keystream_inout`; calls without an input buffer are those of the
value-level model (they see memory only through one exclusive reference) - calls on the types of chacha20/src/chacha.rs:16-22,
rc4/src/lib.rs:83-101 and the other cipher types. -/
def memStep {σ ι κ : Type} (apply : χ → σ → InOutBuf → Mem → Except Panic (Except CipherError Unit × Mem × σ))
    (step : χ → σ → κ → Except Panic (Obs × σ)) (emb : Op → κ) (nav : ι → κ) (x : χ) (s : σ × Mem) :
    MemCall ι → Except Panic (Obs × (σ × Mem))
  | .inout b => do
    let (r, mem, w) ← apply x s.1 b s.2
    return (.done r, w, mem)
  | .b2b inp ilen out olen =>
    if ilen = olen then do
      let (r, mem, w) ← apply x s.1 ⟨inp, out, ilen⟩ s.2
      return (.done r, w, mem)
    else .ok (.done (.error .streamCipherError), s)
  | .fill a n => do
    let (o, w) ← step x s.1 (emb (.write (s.2.read a n)))
    return (.done o.result, w, s.2.write a o.bytes)
  | .store a l => .ok (.done (.ok ()), s.1, s.2.write a l)
  | .other i => do
    let (o, w) ← step x s.1 (nav i)
    return (o, w, s.2)

/-- Calls on a seekable cipher - chacha20/src/chacha.rs:16-22, legacy.rs:14, xchacha.rs:34-38, salsa20/src/lib.rs:30-38, xsalsa.rs:21-25. -/
def SeekCipher.memStep (u : Nat) (c : SeekCipher) : ChaCha.Env → c.Obj u × Mem → MemCall Nav → Except Panic (Obs × (c.Obj u × Mem)) :=
  Verif.memStep (fun x w b m => Wrapper.tryApplyMem (c.core u).toCore x w b m) (c.step u) .io Nav.op

/-- `try_apply_keystream_inout` of the other ciphers - hc-256/src/lib.rs:38, rabbit/src/lib.rs:45-47, rc4/src/lib.rs:83-95. -/
def PlainCipher.applyMem (u : Nat) : (c : PlainCipher) → Unit → c.Obj → InOutBuf → Mem → Except Panic (Except CipherError Unit × Mem × c.Obj)
  | .hc256 m _ _, x, w, b, mem => Wrapper.tryApplyMem (Hc256.core m u) x w b mem
  | .rabbitKeyOnly m _, x, w, b, mem => Wrapper.tryApplyMem (Rabbit.core m) x w b mem
  | .rabbit m _ _, x, w, b, mem => Wrapper.tryApplyMem (Rabbit.core m) x w b mem
  | .rc4 _ _, x, w, b, mem => Rc4.tryApplyMem x w b mem

/-- Calls on the ciphers without seeking - hc-256/src/lib.rs:38, rabbit/src/lib.rs:45-47, rc4/src/lib.rs:83-101. -/
def PlainCipher.memStep (u : Nat) (c : PlainCipher) : Unit → c.Obj × Mem → MemCall Empty → Except Panic (Obs × (c.Obj × Mem)) :=
  Verif.memStep (c.applyMem u) (c.step u) id Empty.elim

end Verif
