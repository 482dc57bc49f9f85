import Verif.Model.TSMetadata
import Verif.Spec.Bytes

/-!
# Specification: metadata in MPEG-TS (ISO 13818-1, tables 2-86, 2-88 and 2-97)

Only the record types of the model are used.
-/

namespace Verif.Spec
open Verif.TSMetadata

/-- Bytes preceded by their number in one byte. -/
def lenPrefixed (b : Bytes) : Bytes := UInt8.ofNat b.length :: b

/-- The decoder configuration, which depends on `decoder_config_flags`. -/
def decoderConfigBytes (d : Descriptor) : Bytes :=
  match d.decoderConfigFlags.toNat with
  | 1 => lenPrefixed d.decoderConfig
  | 3 => lenPrefixed d.decConfigIdentification
  | 4 => [d.decoderConfigServiceID]
  | _ => []

/-- `metadata_descriptor`, with reserved bits `r`. -/
def metadataDescriptorBytes (d : Descriptor) (r : Nat) : Bytes :=
  beBytes 2 d.applicationFormat ++ ((if d.applicationFormat = 0xFFFF then beBytes 4 d.applicationFormatIdentifier else []) ++
  ([d.format] ++ ((if d.format = 0xFF then beBytes 4 d.formatIdentifier else []) ++
  ([d.serviceID] ++ ([UInt8.ofNat (d.decoderConfigFlags.toNat * 32 + d.dsmccFlag.toNat * 16 + r)] ++
  ((if d.dsmccFlag then lenPrefixed d.serviceIdentification else []) ++ (decoderConfigBytes d ++ d.privateData)))))))

/-- The fields fit and the absent ones are zero. Values 5 and 6 of `decoder_config_flags` are reserved. -/
structure DescriptorValid (d : Descriptor) : Prop where
  applicationFormat : d.applicationFormat < 2 ^ 16
  applicationFormatIdentifier : d.applicationFormatIdentifier < 2 ^ 32
  noApplication : d.applicationFormat ≠ 0xFFFF → d.applicationFormatIdentifier = 0
  formatIdentifier : d.formatIdentifier < 2 ^ 32
  noFormat : d.format ≠ 0xFF → d.formatIdentifier = 0
  flags : d.decoderConfigFlags.toNat < 8 ∧ d.decoderConfigFlags.toNat ≠ 5 ∧ d.decoderConfigFlags.toNat ≠ 6
  service : d.serviceIdentification.length < 256
  noService : d.dsmccFlag = false → d.serviceIdentification = []
  config : d.decoderConfig.length < 256
  noConfig : d.decoderConfigFlags.toNat ≠ 1 → d.decoderConfig = []
  ident : d.decConfigIdentification.length < 256
  noIdent : d.decoderConfigFlags.toNat ≠ 3 → d.decConfigIdentification = []
  noServiceID : d.decoderConfigFlags.toNat ≠ 4 → d.decoderConfigServiceID = 0

/-- A field of `metadata_std_descriptor`: two reserved bits and 22 bits. -/
def stdField (r v : Nat) : Bytes := beBytes 3 (r * 2 ^ 22 + v)

/-- `metadata_AU_cell`, with reserved bits `r`. -/
def cellBytes (c : AUCell) (r : Nat) : Bytes :=
  [c.serviceID, c.sequenceNumber,
    UInt8.ofNat (c.fragmentIndication.toNat * 64 + c.decoderConfigFlag.toNat * 32 + c.randomAccessIndicator.toNat * 16 + r)] ++
  (beBytes 2 c.data.length ++ c.data)

/-- The fields of a cell fit. -/
def CellFits (c : AUCell) : Prop := c.fragmentIndication.toNat < 4 ∧ c.data.length < 2 ^ 16

/-- Cells `i`, `i + 1`, ... of an access unit, up to its last: the sequence numbers are consecutive, the upper bit of the
fragment indication marks the first cell and the lower bit the last. -/
def CellsFrom : Nat → List (AUCell × Nat) → Prop
  | _, [] => True
  | i, c :: l => c.1.sequenceNumber.toNat = i ∧ c.1.fragmentIndication.toNat = (i == 0).toNat * 2 + l.isEmpty.toNat ∧
      CellFits c.1 ∧ c.2 < 16 ∧ CellsFrom (i + 1) l

end Verif.Spec
