import Verif.Spec.Word
/-!
# HC-256 (H. Wu, "A New Stream Cipher HC-256", FSE 2004)

Tables are functions on `Fin 1024`, so that `⊟`, subtraction modulo 1024, is subtraction on `Fin 1024`.
-/
namespace Verif.Spec.Hc256

/-- `x >>> n` of the paper: rotation to the right. -/
def ror (x : U32) (n : Nat) : U32 := (x >>> n) ||| (x <<< (32 - n))

def f1 (x : U32) : U32 := ror x 7 ^^^ ror x 18 ^^^ (x >>> 3)
def f2 (x : U32) : U32 := ror x 17 ^^^ ror x 19 ^^^ (x >>> 10)

/-- Section 2.2, step 1: the expansion of key and IV (32 bytes each, words little-endian). -/
def W (key iv : Vector U8 32) (i : Nat) : U32 :=
  if i < 8 then leWord key.toList i
  else if i < 16 then leWord iv.toList (i - 8)
  else f2 (W key iv (i - 2)) + W key iv (i - 7) + f1 (W key iv (i - 15)) + W key iv (i - 16) + BitVec.ofNat 32 i
termination_by i

/-- The two tables. -/
structure Tables where
  P : Fin 1024 → U32
  Q : Fin 1024 → U32

/-- Section 2.2, step 2. -/
def tables (key iv : Vector U8 32) : Tables where
  P i := W key iv (i.val + 512)
  Q i := W key iv (i.val + 1536)

/-- `x mod 1024` as a table index. -/
def idx (x : Nat) : Fin 1024 := ⟨x % 1024, Nat.mod_lt _ (by decide)⟩

/-- `g1` (with table `Q`) and `g2` (with table `P`). -/
def g (T : Fin 1024 → U32) (x y : U32) : U32 := (ror x 10 ^^^ ror y 23) + T (idx (x ^^^ y).toNat)

/-- `h1` (with table `Q`) and `h2` (with table `P`); `x = x3 ‖ x2 ‖ x1 ‖ x0`. -/
def h (T : Fin 1024 → U32) (x : U32) : U32 :=
  let byte (k : Nat) : Nat := x.toNat / 256 ^ k % 256
  T (idx (byte 0)) + T (idx (256 + byte 1)) + T (idx (512 + byte 2)) + T (idx (768 + byte 3))

/-- Change one entry. -/
def upd (T : Fin 1024 → U32) (j : Fin 1024) (v : U32) : Fin 1024 → U32 := fun k => if k = j then v else T k

/-- Section 2.3: step `i`. -/
def step (i : Nat) (t : Tables) : U32 × Tables :=
  let j := idx i
  if i % 2048 < 1024 then
    let P := upd t.P j (t.P j + t.P (j - 10) + g t.Q (t.P (j - 3)) (t.P (j - 1023)))
    (h t.Q (P (j - 12)) ^^^ P j, ⟨P, t.Q⟩)
  else
    let Q := upd t.Q j (t.Q j + t.Q (j - 10) + g t.P (t.Q (j - 3)) (t.Q (j - 1023)))
    (h t.P (Q (j - 12)) ^^^ Q j, ⟨t.P, Q⟩)

/-- The tables before step `n`. -/
def before (t : Tables) : Nat → Tables
  | 0 => t
  | n + 1 => (step n (before t n)).2

/-- Section 2.2, step 3: 4096 steps without output. -/
def initialise (key iv : Vector U8 32) : Tables := before (tables key iv) 4096

/-- Output word `n`. -/
def word (key iv : Vector U8 32) (n : Nat) : U32 := (step n (before (initialise key iv) n)).1

/-- Output bytes, little-endian. -/
def block (key iv : Vector U8 32) (n : Nat) : Vector U8 4 := Vector.ofFn fun k => leByte (word key iv n).toNat k.val

end Verif.Spec.Hc256
