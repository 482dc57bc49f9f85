import Verif.Model.BitM

/-!
# Byte readers

Go code of the form `if len(buf[n:]) < k { return err }; v = buf[n]; n++; s = buf[n : n+le]; n += le`: the same shape as
`BitM`, with a position in bytes.
-/

namespace Verif.ByteR

/-- `if len(buf[n:]) < k { return err }`. -/
def need (k : Nat) : BitM Unit := fun buf n => Res.bind (sliceFrom buf n) fun r =>
  if r.length < k then .err "buffer too short" else .ok ((), n)

/-- `buf[n]; n++`. -/
def byte : BitM UInt8 := fun buf n => Res.bind (idx buf n) fun b => .ok (b, n + 1)

/-- `uint16(buf[n])<<8 | uint16(buf[n+1]); n += 2`. -/
def be16 : BitM Nat := do
  let a ← byte
  let b ← byte
  pure (a.toNat <<< 8 ||| b.toNat)

/-- `uint32(buf[n])<<16 | uint32(buf[n+1])<<8 | uint32(buf[n+2]); n += 3`. -/
def be24 : BitM Nat := do
  let a ← byte
  let b ← byte
  let c ← byte
  pure (a.toNat <<< 16 ||| b.toNat <<< 8 ||| c.toNat)

/-- `uint32(buf[n])<<24 | uint32(buf[n+1])<<16 | uint32(buf[n+2])<<8 | uint32(buf[n+3]); n += 4`. -/
def be32 : BitM Nat := do
  let a ← byte
  let b ← byte
  let c ← byte
  let d ← byte
  pure (a.toNat <<< 24 ||| b.toNat <<< 16 ||| c.toNat <<< 8 ||| d.toNat)

/-- `buf[n : n+le]; n += le`. -/
def take (le : Nat) : BitM Bytes := fun buf n => Res.bind (slice buf n (n + le)) fun s => .ok (s, n + le)

/-- `buf[n:]`, after which `n` is not used any more. -/
def rest : BitM Bytes := fun buf n => Res.bind (sliceFrom buf n) fun s => .ok (s, buf.length)

/-- `if len(buf[n:]) != 0 { return err }`. -/
def atEnd : BitM Unit := fun buf n => Res.bind (sliceFrom buf n) fun s =>
  if s.length ≠ 0 then .err "unread bytes detected" else .ok ((), n)

/-- `for { s = append(s, p()); if len(buf)-n == 0 { break } }`. The fuel bounds the number of iterations; running out of
it is reported as a panic. -/
def untilEnd {α} (p : BitM α) : Nat → BitM (List α)
  | 0 => fun _ _ => .panic
  | fuel + 1 => do
    let a ← p
    let n ← BitM.getPos
    let bl ← BitM.bufLen
    if bl - n = 0 then pure [a] else do
      let l ← untilEnd p fuel
      pure (a :: l)

end Verif.ByteR
