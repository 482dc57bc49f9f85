import Verif.Model.Buf
import Verif.Model.BitM

/-!
# Byte writers

Go code of the form `buf[n] = b; n++`, `n += copy(buf[n:], src)`: the same shape as `BitW`, with a position in bytes.
-/

namespace Verif.ByteW

/-- `buf[n] = b0; buf[n+1] = b1; ...; n += k`. -/
def put (bs : Bytes) : BitW := fun buf n => Res.bind (setSeq buf n bs) fun buf => .ok (buf, n + bs.length)

/-- `n += copy(buf[n:], src)`. -/
def copy (src : Bytes) : BitW := fun buf n => Res.bind (copyAt buf n src) fun r => .ok (r.1, n + r.2)

end Verif.ByteW
