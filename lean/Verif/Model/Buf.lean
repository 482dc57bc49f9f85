import Verif.Model.Base

/-!
# Writing into a preallocated Go slice

`buf := make([]byte, n)`, `buf[i] = b`, `copy(buf[pos:], src)`, with Go's bounds checks.
-/

namespace Verif

/-- `make([]byte, n)`. -/
def makeBytes (n : Nat) : Bytes := List.replicate n 0

/-- `dst[i] = b`. -/
def setAt (dst : Bytes) (i : Nat) (b : UInt8) : Res Bytes :=
  if i < dst.length then .ok (dst.set i b) else .panic

/-- `n := copy(dst[pos:], src)`: returns the new slice and `n`. Slicing beyond the end panics; at most
`len(dst) - pos` bytes are copied. -/
def copyAt (dst : Bytes) (pos : Nat) (src : Bytes) : Res (Bytes × Nat) :=
  if pos ≤ dst.length then
    let n := min (dst.length - pos) src.length
    .ok (dst.take pos ++ src.take n ++ dst.drop (pos + n), n)
  else .panic

/-- Consecutive assignments `buf[pos] = b0; buf[pos+1] = b1; ...`. -/
def setSeq (dst : Bytes) (pos : Nat) : Bytes → Res Bytes
  | [] => .ok dst
  | b :: bs => do
    let dst ← setAt dst pos b
    setSeq dst (pos + 1) bs

end Verif
