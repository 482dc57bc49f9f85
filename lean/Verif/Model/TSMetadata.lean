import Verif.Model.ByteR
import Verif.Model.ByteW

/-!
# Metadata in MPEG-TS

`pkg/formats/mpegts/substructs/metadata_*.go` and the KLV wrapper of `pkg/formats/mpegts/reader.go`. A nil slice and an
empty slice are the same list.
-/

namespace Verif.TSMetadata
open BitM ByteR

/-- pkg/formats/mpegts/substructs/metadata_descriptor.go:10-15 (`flagToByte`). -/
def flagToByte (v : Bool) : UInt8 := if v then 1 else 0

/-- pkg/formats/mpegts/substructs/metadata_descriptor.go:19-47 (`MetadataDescriptor`). -/
structure Descriptor where
  applicationFormat : Nat
  applicationFormatIdentifier : Nat
  format : UInt8
  formatIdentifier : Nat
  serviceID : UInt8
  decoderConfigFlags : UInt8
  dsmccFlag : Bool
  serviceIdentification : Bytes
  decoderConfig : Bytes
  decConfigIdentification : Bytes
  decoderConfigServiceID : UInt8
  privateData : Bytes
  deriving Repr, DecidableEq

/-- metadata_descriptor.go:60-68 and 80-88: a 32-bit identifier. -/
def readIdentifier : BitM Nat := do
  need 4
  be32

/-- metadata_descriptor.go:101-113, 118-130 and 133-145: bytes preceded by their number. -/
def readPrefixed : BitM Bytes := do
  need 1
  let le ← byte
  need le.toNat
  take le.toNat

/-- metadata_descriptor.go:148-153. -/
def readServiceID : BitM UInt8 := do
  need 1
  byte

/-- metadata_descriptor.go:50-159 (`Unmarshal`) on a fresh struct. -/
def Descriptor.unmarshalM : BitM Descriptor := do
  need 2
  let applicationFormat ← be16
  let applicationFormatIdentifier ← cond (applicationFormat == 0xFFFF) readIdentifier 0
  need 1
  let format ← byte
  let formatIdentifier ← cond (format == 0xFF) readIdentifier 0
  need 2
  let serviceID ← byte
  let flags ← byte
  let decoderConfigFlags := flags >>> 5
  let dsmccFlag := ((flags >>> 4) &&& 1) != 0
  let serviceIdentification ← cond dsmccFlag readPrefixed []
  let decoderConfig ← cond (decoderConfigFlags == 0b001) readPrefixed []
  let decConfigIdentification ← cond (decoderConfigFlags == 0b011) readPrefixed []
  let decoderConfigServiceID ← cond (decoderConfigFlags == 0b100) readServiceID 0
  if decoderConfigFlags = 0b101 ∨ decoderConfigFlags = 0b110 then fail "DecoderConfigFlags is unsupported" else do
  let privateData ← rest
  pure ⟨applicationFormat, applicationFormatIdentifier, format, formatIdentifier, serviceID, decoderConfigFlags, dsmccFlag,
    serviceIdentification, decoderConfig, decConfigIdentification, decoderConfigServiceID, privateData⟩

/-- `Unmarshal` returns only the struct. -/
def Descriptor.unmarshal (buf : Bytes) : Res Descriptor := Descriptor.unmarshalM buf 0 >>= fun r => .ok r.1

/-- pkg/formats/mpegts/substructs/metadata_descriptor.go:161-193 (`marshalSize`). -/
def Descriptor.marshalSize (d : Descriptor) : Nat :=
  5 + (if d.applicationFormat = 0xFFFF then 4 else 0) + (if d.format = 0xFF then 4 else 0) +
    (if d.dsmccFlag then 1 + d.serviceIdentification.length else 0) +
    (if d.decoderConfigFlags = 0b001 then 1 + d.decoderConfig.length
     else if d.decoderConfigFlags = 0b011 then 1 + d.decConfigIdentification.length
     else if d.decoderConfigFlags = 0b100 then 1 else 0) + d.privateData.length

/-- `buf[n] = byte(v >> 24); ...; n += 4`. -/
def putIdentifier (v : Nat) : BitW :=
  ByteW.put [UInt8.ofNat (v >>> 24), UInt8.ofNat (v >>> 16), UInt8.ofNat (v >>> 8), UInt8.ofNat v]

/-- `buf[n] = uint8(len(b)); n++; n += copy(buf[n:], b)`. -/
def putPrefixed (b : Bytes) : BitW := BitW.seq (ByteW.put [UInt8.ofNat b.length]) (ByteW.copy b)

/-- pkg/formats/mpegts/substructs/metadata_descriptor.go:196-256 (`Marshal`). -/
def Descriptor.marshal (d : Descriptor) : Res Bytes := do
  let r ← BitW.all
    [ByteW.put [UInt8.ofNat (d.applicationFormat >>> 8), UInt8.ofNat d.applicationFormat],
     if d.applicationFormat = 0xFFFF then putIdentifier d.applicationFormatIdentifier else BitW.nop,
     ByteW.put [d.format],
     if d.format = 0xFF then putIdentifier d.formatIdentifier else BitW.nop,
     ByteW.put [d.serviceID],
     ByteW.put [d.decoderConfigFlags <<< 5 ||| flagToByte d.dsmccFlag <<< 4 ||| 0b1111],
     if d.dsmccFlag then putPrefixed d.serviceIdentification else BitW.nop,
     if d.decoderConfigFlags = 0b001 then putPrefixed d.decoderConfig
     else if d.decoderConfigFlags = 0b011 then putPrefixed d.decConfigIdentification
     else if d.decoderConfigFlags = 0b100 then ByteW.put [d.decoderConfigServiceID] else BitW.nop,
     ByteW.copy d.privateData] (makeBytes d.marshalSize) 0
  .ok r.1

/-- pkg/formats/mpegts/substructs/metadata_std_descriptor.go:12-16 (`MetadataSTDDescriptor`). -/
structure STDDescriptor where
  inputLeakRate : Nat
  bufferSize : Nat
  outputLeakRate : Nat
  deriving Repr, DecidableEq

/-- `uint32(buf[n]&0b00111111)<<16 | uint32(buf[n+1])<<8 | uint32(buf[n+2]); n += 3`. -/
def read22 : BitM Nat := do
  let a ← byte
  let b ← byte
  let c ← byte
  pure ((a &&& 0b00111111).toNat <<< 16 ||| b.toNat <<< 8 ||| c.toNat)

/-- pkg/formats/mpegts/substructs/metadata_std_descriptor.go:19-40 (`Unmarshal`). -/
def STDDescriptor.unmarshalM : BitM STDDescriptor := do
  need 9
  let a ← read22
  let b ← read22
  let c ← read22
  atEnd
  pure ⟨a, b, c⟩

/-- `Unmarshal` returns only the struct. -/
def STDDescriptor.unmarshal (buf : Bytes) : Res STDDescriptor := STDDescriptor.unmarshalM buf 0 >>= fun r => .ok r.1

/-- `buf[n] = 0b11000000 | byte(v>>16); buf[n+1] = byte(v >> 8); buf[n+2] = byte(v); n += 3`. -/
def put22 (v : Nat) : BitW := ByteW.put [(0b11000000 : UInt8) ||| UInt8.ofNat (v >>> 16), UInt8.ofNat (v >>> 8), UInt8.ofNat v]

/-- pkg/formats/mpegts/substructs/metadata_std_descriptor.go:42-66 (`marshalSize`, `Marshal`). -/
def STDDescriptor.marshal (d : STDDescriptor) : Res Bytes := do
  let r ← BitW.all [put22 d.inputLeakRate, put22 d.bufferSize, put22 d.outputLeakRate] (makeBytes 9) 0
  .ok r.1

/-- pkg/formats/mpegts/substructs/metadata_au_cell.go:8-15 (`MetadataAUCell`). -/
structure AUCell where
  serviceID : UInt8
  sequenceNumber : UInt8
  fragmentIndication : UInt8
  decoderConfigFlag : Bool
  randomAccessIndicator : Bool
  data : Bytes
  deriving Repr, DecidableEq

/-- pkg/formats/mpegts/substructs/metadata_au_cell.go:18-45 (`Unmarshal`): the cell and the number of bytes read. -/
def AUCell.unmarshal : BitM AUCell := do
  need 5
  let serviceID ← byte
  let sequenceNumber ← byte
  let flags ← byte
  let le ← be16
  need le
  let data ← take le
  pure ⟨serviceID, sequenceNumber, flags >>> 6, ((flags >>> 5) &&& 1) != 0, ((flags >>> 4) &&& 1) != 0, data⟩

/-- pkg/formats/mpegts/substructs/metadata_au_cell.go:47-49 (`marshalSize`). -/
def AUCell.marshalSize (c : AUCell) : Nat := 5 + c.data.length

/-- pkg/formats/mpegts/substructs/metadata_au_cell.go:58-77 (`MarshalTo`). -/
def AUCell.marshalTo (c : AUCell) : BitW :=
  BitW.all
    [ByteW.put [c.serviceID], ByteW.put [c.sequenceNumber],
     ByteW.put [c.fragmentIndication <<< 6 ||| flagToByte c.decoderConfigFlag <<< 5 |||
       flagToByte c.randomAccessIndicator <<< 4 ||| 0b1111],
     ByteW.put [UInt8.ofNat (c.data.length >>> 8), UInt8.ofNat c.data.length],
     ByteW.copy c.data]

/-- pkg/formats/mpegts/substructs/metadata_au_cell.go:51-55 (`marshal`). -/
def AUCell.marshal (c : AUCell) : Res Bytes := c.marshalTo (makeBytes c.marshalSize) 0 >>= fun r => .ok r.1

/-- pkg/formats/mpegts/reader.go:97-125: the loop of `readMetadataAUWrapper` after the first cell. `expected` is an
unbounded `int`. Every cell is at least 5 bytes long, so `len(in)` iterations are enough. -/
def readLoop : Nat → Bytes → Nat → Nat → Bytes → Res Bytes
  | 0, _, _, _, _ => .panic
  | fuel + 1, data, n, expected, out => do
    let r ← AUCell.unmarshal data n
    if r.1.sequenceNumber.toNat ≠ expected then .err "unexpected sequence number"
    else
      if r.1.fragmentIndication = 0b01 then
        if r.2 ≠ data.length then .err "unread bytes detected" else .ok (out ++ r.1.data)
      else if r.1.fragmentIndication = 0b00 then readLoop fuel data r.2 (expected + 1) (out ++ r.1.data)
      else .err "unexpected cell_fragment_indication"

/-- pkg/formats/mpegts/reader.go:69-126 (`readMetadataAUWrapper`). `au.Unmarshal(in[n:])` followed by `n += n2` is
`AUCell.unmarshal` at position `n`; `in[n:]` is in range because `n` is the end of the previous cell. -/
def readWrapper (data : Bytes) : Res Bytes := do
  let r ← AUCell.unmarshal data 0
  if r.1.sequenceNumber.toNat ≠ 0 then .err "unexpected sequence number"
  else if r.1.fragmentIndication = 0b11 then
    if r.2 ≠ data.length then .err "unread bytes detected" else .ok r.1.data
  else if r.1.fragmentIndication = 0b10 then readLoop (data.length + 1) data r.2 1 r.1.data
  else .err "unexpected cell_fragment_indication"

/-- reader.go:129: `maxDataPerCell`. -/
def maxDataPerCell : Nat := 65535

/-- reader.go:145-157: the fragment indication of cell `i`. -/
def indication (cellCount i : Nat) : UInt8 :=
  if cellCount = 1 then 0b11 else if i = 0 then 0b10 else if i = cellCount - 1 then 0b01 else 0b00

/-- reader.go:140-172: the loop of `writeMetadataAUWrapper`, `k` iterations from `i`. -/
def writeLoop (cellCount : Nat) : Nat → Nat → Bytes → BitW
  | 0, _, _ => BitW.nop
  | k + 1, i, data =>
    let cellDataLen := min maxDataPerCell data.length
    BitW.seq
      (AUCell.marshalTo ⟨0, UInt8.ofNat i, indication cellCount i, false, true, data.take cellDataLen⟩)
      (writeLoop cellCount k (i + 1) (data.drop cellDataLen))

/-- reader.go:131-134: the number of cells. -/
def cellCount (dataLen : Nat) : Nat :=
  dataLen / maxDataPerCell + (if dataLen % maxDataPerCell ≠ 0 then 1 else 0)

/-- pkg/formats/mpegts/reader.go:128-175 (`writeMetadataAUWrapper`). -/
def writeWrapper (data : Bytes) : Res Bytes := do
  let r ← writeLoop (cellCount data.length) (cellCount data.length) 0 data
    (makeBytes (5 * cellCount data.length + data.length)) 0
  .ok r.1

end Verif.TSMetadata
