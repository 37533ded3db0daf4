/-!
# Flat registers

A vendor manual describes a register as a string of bits and an instruction by loops such as

    FOR j := 0 to 7
        i := j*32
        dst[i+31:i] := a[i+31:i] + b[i+31:i]
    ENDFOR

`elem w x j` is `x[w*j+w-1 : w*j]`.
-/
namespace Verif.Spec

/-- Bits `w*j+w-1 … w*j` of a register of `n` bits. -/
def elem (w : Nat) {n : Nat} (x : BitVec n) (j : Nat) : BitVec w := x.extractLsb' (w * j) w

end Verif.Spec
