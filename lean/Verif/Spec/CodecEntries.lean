import Verif.Spec.CodecRecords

/-!
# Specification of sample entries of any writer

Complements Spec/CodecRecords.lean, whose entries are the ones of a particular writer: here, all fields of a sample entry can have any value.
-/

namespace Verif.Spec.Records

/-- `VisualSampleEntry` (ISO 14496-12 8.5.2, 12.1.3). -/
structure VisualEntry where
  reserved : Nat
  dataReference : Nat
  preDefined : Nat
  reserved2 : Nat
  preDefined2 : Nat
  width : Nat
  height : Nat
  horizontalResolution : Nat
  verticalResolution : Nat
  reserved3 : Nat
  frameCount : Nat
  compressorName : Nat
  depth : Nat
  preDefined3 : Nat

def VisualEntry.fields (e : VisualEntry) : Fields :=
  [(48, e.reserved), (16, e.dataReference), (16, e.preDefined), (16, e.reserved2), (96, e.preDefined2), (16, e.width), (16, e.height),
    (32, e.horizontalResolution), (32, e.verticalResolution), (32, e.reserved3), (16, e.frameCount), (256, e.compressorName), (16, e.depth),
    (16, e.preDefined3)]

/-- `AudioSampleEntry` (ISO 14496-12 8.5.2, 12.2.3); the sample rate is a fixed-point number. -/
structure AudioEntry where
  reserved : Nat
  dataReference : Nat
  reserved2 : Nat
  reserved3 : Nat
  channels : Nat
  size : Nat
  preDefined : Nat
  reserved4 : Nat
  rate : Nat
  rateFraction : Nat

def AudioEntry.fields (e : AudioEntry) : Fields :=
  [(48, e.reserved), (16, e.dataReference), (16, e.reserved2), (48, e.reserved3), (16, e.channels), (16, e.size), (16, e.preDefined),
    (16, e.reserved4), (16, e.rate), (16, e.rateFraction)]

/-- `entry` is a video sample entry. -/
def IsVisualEntry (entry : Bytes) (e : VisualEntry) : Prop := Carries entry e.fields

/-- `entry` is an audio sample entry. -/
def IsAudioEntry (entry : Bytes) (e : AudioEntry) : Prop := Carries entry e.fields

/-- An independent substream of `EC3SpecificBox` (ETSI TS 102 366 F.6). -/
structure Dec3Sub where
  fscod : Nat
  bsid : Nat
  asvc : Nat
  bsmod : Nat
  acmod : Nat
  lfeon : Nat
  numDepSub : Nat
  chanLoc : Nat

def Dec3Sub.fields (s : Dec3Sub) : Fields :=
  [(2, s.fscod), (5, s.bsid), (1, 0), (1, s.asvc), (3, s.bsmod), (3, s.acmod), (1, s.lfeon), (3, 0), (4, s.numDepSub)] ++
    (if s.numDepSub = 0 then [(1, 0)] else [(9, s.chanLoc)])

/-- `EC3SpecificBox`: num_ind_sub is one less than the number of independent substreams. -/
def dec3Box (dataRate : Nat) (subs : List Dec3Sub) : Fields :=
  [(13, dataRate), (3, subs.length - 1)] ++ subs.flatMap Dec3Sub.fields

/-- Channels of an AC-3 stream (ETSI TS 102 366 table 4.3): those of acmod, and the one for low frequencies. -/
def ac3Channels (acmod lfeon : Nat) : Nat := [2, 1, 2, 3, 3, 4, 4, 5].getD acmod 0 + lfeon

/-- A number in `k` bytes. -/
def lengthBytes (k n : Nat) : Bytes := (List.range k).map fun i => UInt8.ofNat (n / 256 ^ (k - 1 - i))

/-- A sample with NAL units (ISO 14496-15 5.3.4.2, 8.3.2.2): each after its length, in lengthSizeMinusOne + 1 bytes. -/
def lengthPrefixed (lengthSizeMinusOne : Nat) (nalus : List Bytes) : Bytes :=
  nalus.flatMap fun n => lengthBytes (lengthSizeMinusOne + 1) n.length ++ n

/-- The first NAL unit of the last array with a type. -/
def lastOfType (type : Nat) : List HevcArray → Option Bytes
  | [] => none
  | a :: l =>
    match lastOfType type l with
    | some n => some n
    | none => if a.type = type then a.nalus.head? else none

/-- The type of an OBU (AV1 5.3.2). -/
def obuType (obu : Bytes) : Nat := (obu.headD 0).toNat / 8 % 16

/-- OBU_SEQUENCE_HEADER. -/
def sequenceHeaderType : Nat := 1

end Verif.Spec.Records
