import Verif.Model.H264
import Verif.Model.ADTS
import Verif.Model.TSMetadataMem

/-!
# Which part of the input a decoded unit is

The units that `AVCC.Unmarshal`, `AnnexB.Unmarshal`, `ADTSPackets.Unmarshal` and `AudioSyncStream.Unmarshal` return are parts of the array
of the input, without a limit on their capacity (`buf[i:j]` and not `buf[i:j:j]`). The other models return their bytes; the functions of
this file return where they are, as start and length. The effects of `copy` and `append` on the array are in TSMetadataMem.lean
(`overwrite`, `appendTo`); the input takes the whole array.
-/

namespace Verif.Views
open TSMetadata (Out)

/-- A part of the array of the input: start and length. -/
abbrev View := Nat × Nat

/-- The bytes of a part. -/
def bytes (mem : Bytes) (v : View) : Bytes := Out.bytes mem (.part v.1 v.2)

/-- pkg/codecs/h264/avcc.go:61-70: the second pass of `AVCC.Unmarshal`; `(*a)[i] = buf[pos : pos+l]`. -/
def avccCollectV (buf : Bytes) (pos n : Nat) : Res (List View) :=
  if n = 0 then .ok []
  else if _h : pos + 4 ≤ buf.length then
    match H264.readU32 buf pos with
    | .panic => .panic
    | .err e => .err e
    | .ok l =>
      if l ≠ 0 then do
        let _ ← slice buf (pos + 4) (pos + 4 + l)
        let rest ← avccCollectV buf (pos + 4 + l) (n - 1)
        .ok ((pos + 4, l) :: rest)
      else avccCollectV buf (pos + 4) n
  else .panic
termination_by buf.length - pos

/-- pkg/codecs/h264/avcc.go:16-73 (`AVCC.Unmarshal`). -/
def avccUnmarshalV (buf : Bytes) : Res (List View) := do
  let n ← H264.avccCount buf 0 0 0
  if n = 0 then .err "AVCC unit doesn't contain any NALU"
  else if n > H264.maxNALUsPerAccessUnit then .err "NALU count exceeds maximum allowed"
  else avccCollectV buf 0 n

/-- pkg/codecs/h264/annexb.go:85-88: `(*a)[i] = buf[positions[i].start:positions[i].end]`. -/
def slicesV (buf : Bytes) : List (Nat × Nat) → Res (List View)
  | [] => .ok []
  | (s, e) :: l => do
    let _ ← slice buf s e
    let r ← slicesV buf l
    .ok ((s, e - s) :: r)

/-- pkg/codecs/h264/annexb.go:20-91 (`AnnexB.Unmarshal`). -/
def annexbUnmarshalV (buf : Bytes) : Res (List View) := do
  let pos ← H264.initialDelimiter buf
  if buf.length = pos then .err "Annex-B unit doesn't contain any NALU"
  else do
    let positions ← H264.annexbLoop buf pos 0
    if positions.length = 0 then .err "Annex-B unit doesn't contain any NALU"
    else if positions.length > H264.maxNALUsPerAccessUnit then .err "NALU count exceeds maximum allowed"
    else slicesV buf positions

/-- A step that ends with its payload: `pkt.AU = buf[pos+7 : pos+7+frameLen]; pos += 7 + frameLen` (pkg/codecs/mpeg4audio/adts.go:109-110)
and `raw := buf[3 : 3+le]; buf = buf[3+le:]` (pkg/codecs/mpeg4audio/audio_sync_stream.go:29-30). -/
def endingWith {α : Type} (p : BitM α) (payload : α → Bytes) : BitM View := do
  let a ← p
  let n ← BitM.getPos
  pure (n - (payload a).length, (payload a).length)

/-- pkg/codecs/mpeg4audio/adts.go:29-119 (`ADTSPackets.Unmarshal`): the access units. -/
def adtsUnmarshalV (buf : Bytes) : Res (List View) := do
  let r ← ByteR.untilEnd (endingWith MPEG4Audio.ADTSPacket.unmarshal MPEG4Audio.ADTSPacket.au) (buf.length + 1) buf 0
  .ok r.1

/-- pkg/codecs/mpeg4audio/audio_sync_stream.go:12-38 (`AudioSyncStream.Unmarshal`). -/
def syncUnmarshalV (buf : Bytes) : Res (List View) := do
  let r ← ByteR.untilEnd (endingWith MPEG4Audio.audioMuxElementRaw id) (buf.length + 1) buf 0
  .ok r.1

end Verif.Views
