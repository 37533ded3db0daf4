import Verif.Spec.Word
/-!
# Rabbit: RFC 4503

Written with natural numbers.  `‖` of the RFC is `hi * 2^16 + lo`, `X[a..b]` is `X / 2^b % 2^(a-b+1)`.
Octet strings stand for integers, least significant octet first (this is the byte order of the test vectors, read
backwards, of RFC 4503 appendix A).
-/
namespace Verif.Spec.Rabbit

/-- Word size: `2^32`. -/
abbrev W : Nat := 2 ^ 32

/-- 2.2: inner state, eight 32-bit state variables, eight 32-bit counters, one counter carry bit. -/
structure Inner where
  X : Vector Nat 8
  C : Vector Nat 8
  b : Nat

/-- 2.5: the constants `A0 … A7`. -/
def A : Vector Nat 8 := #v[0x4D34D34D, 0xD34D34D3, 0x34D34D34, 0x4D34D34D, 0xD34D34D3, 0x34D34D34, 0x4D34D34D, 0xD34D34D3]

/-- 2.5: one counter. -/
def counterStep (j : Fin 8) (s : Inner) : Inner :=
  let temp := s.C[j] + A[j] + s.b
  { s with C := s.C.set j (temp % W), b := temp / W }

/-- 2.5: counter system, `for j=0 to 7`. -/
def counterSystem (s : Inner) : Inner :=
  counterStep 7 <| counterStep 6 <| counterStep 5 <| counterStep 4 <|
  counterStep 3 <| counterStep 2 <| counterStep 1 <| counterStep 0 s

/-- 2.6: `g(u,v) = LSW(square(u+v)) ^ MSW(square(u+v))`, with `u + v` modulo `2^32`. -/
def g (u v : Nat) : Nat :=
  let sq := ((u + v) % W) * ((u + v) % W)
  (sq % W) ^^^ (sq / W)

/-- Rotation of a 32-bit number to the left by `k`. -/
def rotl (x k : Nat) : Nat := x * 2 ^ k % W + x / 2 ^ (32 - k)

/-- 2.6: the update of the state variables from the (already updated) counters. -/
def stateStep (s : Inner) : Inner :=
  let G : Vector Nat 8 := Vector.ofFn fun j : Fin 8 => g s.X[j] s.C[j]
  { s with X := #v[
      (G[0] + rotl G[7] 16 + rotl G[6] 16) % W,
      (G[1] + rotl G[0] 8 + G[7]) % W,
      (G[2] + rotl G[1] 16 + rotl G[0] 16) % W,
      (G[3] + rotl G[2] 8 + G[1]) % W,
      (G[4] + rotl G[3] 16 + rotl G[2] 16) % W,
      (G[5] + rotl G[4] 8 + G[3]) % W,
      (G[6] + rotl G[5] 16 + rotl G[4] 16) % W,
      (G[7] + rotl G[6] 8 + G[5]) % W] }

/-- 2.6: next-state function: first the counter system of 2.5, then the state variables. -/
def nextState (s : Inner) : Inner := stateStep (counterSystem s)

/-- 2.3: `K_i`, the `i`-th 16-bit piece of the key. -/
def keyPart (key : Vector U8 16) (i : Fin 8) : Nat := leNat key.toList / 2 ^ (16 * i.val) % 2 ^ 16

/-- 2.3: key setup. -/
def keySetup (key : Vector U8 16) : Inner :=
  let K := keyPart key
  let s : Inner := {
    X := Vector.ofFn fun j : Fin 8 =>
      if j.val % 2 = 0 then K (j + 1) * 2 ^ 16 + K j else K (j + 5) * 2 ^ 16 + K (j + 4)
    C := Vector.ofFn fun j : Fin 8 =>
      if j.val % 2 = 0 then K (j + 4) * 2 ^ 16 + K (j + 5) else K j * 2 ^ 16 + K (j + 1)
    b := 0 }
  let s := nextState (nextState (nextState (nextState s)))
  { s with C := Vector.ofFn fun j : Fin 8 => s.C[j] ^^^ s.X[j + 4] }

/-- 2.4: IV setup. -/
def ivSetup (iv : Vector U8 8) (s : Inner) : Inner :=
  let V := leNat iv.toList
  let p (hi lo : Nat) : Nat := V / 2 ^ lo % 2 ^ (hi - lo + 1)      -- IV[hi..lo]
  let s := { s with C := #v[
      s.C[0] ^^^ p 31 0,
      s.C[1] ^^^ (p 63 48 * 2 ^ 16 + p 31 16),
      s.C[2] ^^^ p 63 32,
      s.C[3] ^^^ (p 47 32 * 2 ^ 16 + p 15 0),
      s.C[4] ^^^ p 31 0,
      s.C[5] ^^^ (p 63 48 * 2 ^ 16 + p 31 16),
      s.C[6] ^^^ p 63 32,
      s.C[7] ^^^ (p 47 32 * 2 ^ 16 + p 15 0)] }
  nextState (nextState (nextState (nextState s)))

/-- 2.7: the eight 16-bit pieces of an output block. -/
def extract16 (X : Vector Nat 8) : Vector Nat 8 :=
  let lo (x : Nat) := x % 2 ^ 16      -- X[15..0]
  let hi (x : Nat) := x / 2 ^ 16      -- X[31..16]
  #v[lo X[0] ^^^ hi X[5], hi X[0] ^^^ lo X[3],
     lo X[2] ^^^ hi X[7], hi X[2] ^^^ lo X[5],
     lo X[4] ^^^ hi X[1], hi X[4] ^^^ lo X[7],
     lo X[6] ^^^ hi X[3], hi X[6] ^^^ lo X[1]]

/-- Output block as octets. -/
def extract (X : Vector Nat 8) : Vector U8 16 :=
  Vector.ofFn fun k => leByte ((extract16 X)[k.val / 2]'(by omega)) (k.val % 2)

/-- State after `n` iterations. -/
def after : Nat → Inner → Inner
  | 0, s => s
  | n + 1, s => nextState (after n s)

/-- Output block `n` from a given initial state: the state is stepped, then read. -/
def block (s : Inner) (n : Nat) : Vector U8 16 := extract (after (n + 1) s).X

end Verif.Spec.Rabbit
