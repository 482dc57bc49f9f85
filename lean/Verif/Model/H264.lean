import Verif.Model.Buf

/-!
# pkg/codecs/h264: emulation prevention, AVCC, Annex-B, random access

Also used by H265 (same code paths: `h264.EmulationPreventionRemove`, `h264.AVCC`, `h264.AnnexB`).
-/

namespace Verif.H264

/-- The test `nalu[i-2] == 0 && nalu[i-1] == 0 && nalu[i] == 3`,
pkg/codecs/h264/emulation_prevention.go:15 and :26 (short-circuit evaluation does not matter: all
three indexes are checked against the same length). -/
def epHit (nalu : Bytes) (i : Nat) : Res Bool := do
  let a ← idx nalu (i - 2)
  let b ← idx nalu (i - 1)
  let c ← idx nalu i
  .ok (a == 0 && b == 0 && c == 3)

/-- First pass of `EmulationPreventionRemove`, pkg/codecs/h264/emulation_prevention.go:14-19. -/
def epCount (nalu : Bytes) (i n : Nat) : Res Nat :=
  if i < nalu.length then do
    if ← epHit nalu i then epCount nalu (i + 3) (n - 1) else epCount nalu (i + 1) n
  else .ok n
termination_by nalu.length - i

/-- Second pass, pkg/codecs/h264/emulation_prevention.go:25-33. -/
def epCopy (nalu : Bytes) (i : Nat) (ret : Bytes) (pos start : Nat) : Res Bytes :=
  if i < nalu.length then do
    if ← epHit nalu i then do
      let src ← slice nalu start i
      let (ret, k) ← copyAt ret pos src
      epCopy nalu (i + 3) ret (pos + k) (i + 1)
    else epCopy nalu (i + 1) ret pos start
  else do
    let src ← sliceFrom nalu start
    let (ret, _) ← copyAt ret pos src
    .ok ret
termination_by nalu.length - i

/-- `EmulationPreventionRemove`, pkg/codecs/h264/emulation_prevention.go:5-36. -/
def emulationPreventionRemove (nalu : Bytes) : Res Bytes := do
  let n ← epCount nalu 2 nalu.length
  epCopy nalu 2 (makeBytes n) 0 0

/-- `MaxAccessUnitSize`, pkg/codecs/h264/h264.go:7. -/
def maxAccessUnitSize : Nat := 8 * 1024 * 1024

/-- `MaxNALUsPerAccessUnit`, pkg/codecs/h264/h264.go:13. -/
def maxNALUsPerAccessUnit : Nat := 50

/-- `int(uint32(buf[pos])<<24 | uint32(buf[pos+1])<<16 | uint32(buf[pos+2])<<8 | uint32(buf[pos+3]))`,
pkg/codecs/h264/avcc.go:27 and :62. -/
def readU32 (buf : Bytes) (pos : Nat) : Res Nat := do
  let b0 ← idx buf pos
  let b1 ← idx buf (pos + 1)
  let b2 ← idx buf (pos + 2)
  let b3 ← idx buf (pos + 3)
  .ok (b0.toNat <<< 24 ||| b1.toNat <<< 16 ||| b2.toNat <<< 8 ||| b3.toNat)

/-- First pass of `AVCC.Unmarshal`, pkg/codecs/h264/avcc.go:22-47. Returns the NALU count.
(`pos ≤ bl` always, so `bl - pos` is not negative.) -/
def avccCount (buf : Bytes) (pos n auSize : Nat) : Res Nat :=
  if _h : buf.length - pos < 4 then .err "invalid length"
  else
    match readU32 buf pos with
    | .panic => .panic
    | .err e => .err e
    | .ok l =>
      if l ≠ 0 then
        if auSize + l > maxAccessUnitSize then .err "access unit size is too big"
        else if buf.length - (pos + 4) < l then .err "invalid length"
        else if buf.length - (pos + 4 + l) = 0 then .ok (n + 1)
        else avccCount buf (pos + 4 + l) (n + 1) (auSize + l)
      else if buf.length - (pos + 4) = 0 then .ok n
      else avccCount buf (pos + 4) n auSize
termination_by buf.length - pos

/-- Second pass of `AVCC.Unmarshal`, pkg/codecs/h264/avcc.go:61-70: collects `n` more NALUs.
The Go loop has no termination test of its own besides `i < n`; here running off the buffer is
`panic` (as in Go), and recursion is on the rest of the buffer. -/
def avccCollect (buf : Bytes) (pos n : Nat) : Res (List Bytes) :=
  if n = 0 then .ok []
  else if _h : pos + 4 ≤ buf.length then
    match readU32 buf pos with
    | .panic => .panic
    | .err e => .err e
    | .ok l =>
      if l ≠ 0 then do
        let nalu ← slice buf (pos + 4) (pos + 4 + l)
        let rest ← avccCollect buf (pos + 4 + l) (n - 1)
        .ok (nalu :: rest)
      else avccCollect buf (pos + 4) n
  else .panic
termination_by buf.length - pos

/-- `AVCC.Unmarshal`, pkg/codecs/h264/avcc.go:16-73. -/
def avccUnmarshal (buf : Bytes) : Res (List Bytes) := do
  let n ← avccCount buf 0 0 0
  if n = 0 then .err "AVCC unit doesn't contain any NALU"
  else if n > maxNALUsPerAccessUnit then .err "NALU count exceeds maximum allowed"
  else avccCollect buf 0 n

/-- `marshalSize` of both `AVCC` (pkg/codecs/h264/avcc.go:75-81) and `AnnexB`
(pkg/codecs/h264/annexb.go:93-99). -/
def marshalSize (au : List Bytes) : Nat := au.foldl (fun n nalu => n + (4 + nalu.length)) 0

/-- Loop of `AVCC.Marshal`, pkg/codecs/h264/avcc.go:88-97. -/
def avccMarshalLoop (buf : Bytes) (pos : Nat) : List Bytes → Res Bytes
  | [] => .ok buf
  | nalu :: rest => do
    let l := nalu.length
    let buf ← setSeq buf pos
      [UInt8.ofNat (l >>> 24), UInt8.ofNat (l >>> 16), UInt8.ofNat (l >>> 8), UInt8.ofNat l]
    let (buf, k) ← copyAt buf (pos + 4) nalu
    avccMarshalLoop buf (pos + 4 + k) rest

/-- `AVCC.Marshal`, pkg/codecs/h264/avcc.go:84-100. -/
def avccMarshal (au : List Bytes) : Res Bytes :=
  avccMarshalLoop (makeBytes (marshalSize au)) 0 au

/-- `bytes.Index(buf, []byte{0x00, 0x00, 0x01})` of the Go standard library: the index of the first
occurrence, or `none` for -1. -/
def indexStartCode : Bytes → Option Nat
  | [] => none
  | b :: bs =>
    if [0, 0, 1].isPrefixOf (b :: bs) then some 0
    else (indexStartCode bs).map (· + 1)

/-- Loop of `AnnexB.Unmarshal`, pkg/codecs/h264/annexb.go:43-74. Returns the positions. -/
def annexbLoop (buf : Bytes) (pos auSize : Nat) : Res (List (Nat × Nat)) :=
  if _h : pos < buf.length then
    match indexStartCode (buf.drop pos) with
    | none =>
      if auSize + (buf.length - pos) > maxAccessUnitSize then .err "access unit size is too big"
      else .ok [(pos, buf.length)]
    | some i =>
      match (if 0 < i then idx buf (pos + i - 1) else .ok 1) with
      | .panic => .panic
      | .err e => .err e
      | .ok prev =>
        let naluEnd := if 0 < i ∧ prev = 0 then pos + i - 1 else pos + i
        if naluEnd - pos > 0 then
          if auSize + (naluEnd - pos) > maxAccessUnitSize then .err "access unit size is too big"
          else do
            let rest ← annexbLoop buf (pos + i + 3) (auSize + (naluEnd - pos))
            .ok ((pos, naluEnd) :: rest)
        else annexbLoop buf (pos + i + 3) auSize
  else .ok []
termination_by buf.length - pos

/-- Extraction of the NALUs, pkg/codecs/h264/annexb.go:85-88. -/
def slices (buf : Bytes) : List (Nat × Nat) → Res (List Bytes)
  | [] => .ok []
  | (s, e) :: l => do
    let x ← slice buf s e
    let r ← slices buf l
    .ok (x :: r)

/-- The initial `switch` of `AnnexB.Unmarshal`, pkg/codecs/h264/annexb.go:21-29. -/
def initialDelimiter (buf : Bytes) : Res Nat :=
  if [0, 0, 0, 1].isPrefixOf buf then .ok 4
  else if [0, 0, 1].isPrefixOf buf then .ok 3
  else .err "initial delimiter not found"

/-- `AnnexB.Unmarshal`, pkg/codecs/h264/annexb.go:20-91. -/
def annexbUnmarshal (buf : Bytes) : Res (List Bytes) := do
  let pos ← initialDelimiter buf
  if buf.length = pos then .err "Annex-B unit doesn't contain any NALU"
  else do
    let positions ← annexbLoop buf pos 0
    if positions.length = 0 then .err "Annex-B unit doesn't contain any NALU"
    else if positions.length > maxNALUsPerAccessUnit then .err "NALU count exceeds maximum allowed"
    else slices buf positions

/-- Loop of `AnnexB.Marshal`, pkg/codecs/h264/annexb.go:106-109. -/
def annexbMarshalLoop (buf : Bytes) (pos : Nat) : List Bytes → Res Bytes
  | [] => .ok buf
  | nalu :: rest => do
    let (buf, k) ← copyAt buf pos [0x00, 0x00, 0x00, 0x01]
    let (buf, k2) ← copyAt buf (pos + k) nalu
    annexbMarshalLoop buf (pos + k + k2) rest

/-- `AnnexB.Marshal`, pkg/codecs/h264/annexb.go:102-112. -/
def annexbMarshal (au : List Bytes) : Res Bytes :=
  annexbMarshalLoop (makeBytes (marshalSize au)) 0 au

/-- `h264.IsRandomAccess`, pkg/codecs/h264/is_random_access.go:4-12. -/
def isRandomAccess : List Bytes → Res Bool
  | [] => .ok false
  | nalu :: rest => do
    let b ← idx nalu 0
    if b &&& 0x1F = 5 then .ok true else isRandomAccess rest

/-- `h265.IsRandomAccess`, pkg/codecs/h265/is_random_access.go:4-13. -/
def isRandomAccess265 : List Bytes → Res Bool
  | [] => .ok false
  | nalu :: rest => do
    let b ← idx nalu 0
    let typ := (b >>> 1) &&& 0b111111
    if typ = 19 ∨ typ = 20 ∨ typ = 21 then .ok true else isRandomAccess265 rest

end Verif.H264
