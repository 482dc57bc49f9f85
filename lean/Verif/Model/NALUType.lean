import Verif.Model.Base

/-!
# Model: pkg/codecs/h264/nalu_type.go, pkg/codecs/h265/nalu_type.go

Strings are lists of characters; all of them are ASCII. The type is a number below 256.
-/

namespace Verif.NALUType

/-- pkg/codecs/h264/nalu_type.go:13-43 and :46-76: `naluTypeLabels`, with the values of the constants. -/
def labels264 : List (Nat × List Char) := [
    (1, "NonIDR".toList), (2, "DataPartitionA".toList), (3, "DataPartitionB".toList), (4, "DataPartitionC".toList),
    (5, "IDR".toList), (6, "SEI".toList), (7, "SPS".toList), (8, "PPS".toList),
    (9, "AccessUnitDelimiter".toList), (10, "EndOfSequence".toList), (11, "EndOfStream".toList), (12, "FillerData".toList),
    (13, "SPSExtension".toList), (14, "Prefix".toList), (15, "SubsetSPS".toList), (16, "Reserved16".toList),
    (17, "Reserved17".toList), (18, "Reserved18".toList), (19, "SliceLayerWithoutPartitioning".toList), (20, "SliceExtension".toList),
    (21, "SliceExtensionDepth".toList), (22, "Reserved22".toList), (23, "Reserved23".toList), (24, "STAP-A".toList),
    (25, "STAP-B".toList), (26, "MTAP-16".toList), (27, "MTAP-24".toList), (28, "FU-A".toList),
    (29, "FU-B".toList)]

/-- pkg/codecs/h265/nalu_type.go:13-50 and :53-92: `naluTypeLabels`, with the values of the constants. -/
def labels265 : List (Nat × List Char) := [
    (0, "TRAIL_N".toList), (1, "TRAIL_R".toList), (2, "TSA_N".toList), (3, "TSA_R".toList),
    (4, "STSA_N".toList), (5, "STSA_R:".toList), (6, "RADL_N".toList), (7, "RADL_R".toList),
    (8, "RASL_N".toList), (9, "RASL_R".toList), (10, "RSV_VCL_N10".toList), (12, "RSV_VCL_N12".toList),
    (14, "RSV_VCL_N14".toList), (11, "RSV_VCL_R11".toList), (13, "RSV_VCL_R13".toList), (15, "RSV_VCL_R15".toList),
    (16, "BLA_W_LP".toList), (17, "BLA_W_RADL".toList), (18, "BLA_N_LP".toList), (19, "IDR_W_RADL".toList),
    (20, "IDR_N_LP".toList), (21, "CRA_NUT".toList), (22, "RSV_IRAP_VCL22".toList), (23, "RSV_IRAP_VCL23".toList),
    (32, "VPS_NUT".toList), (33, "SPS_NUT".toList), (34, "PPS_NUT".toList), (35, "AUD_NUT".toList),
    (36, "EOS_NUT".toList), (37, "EOB_NUT".toList), (38, "FD_NUT".toList), (39, "PrefixSEINUT".toList),
    (40, "SuffixSEINUT".toList), (48, "AggregationUnit".toList), (49, "FragmentationUnit".toList), (50, "PACI".toList)]

/-- `%d` of a number below 1000. -/
def decimal (n : Nat) : List Char :=
  if n < 10 then [Char.ofNat (48 + n)]
  else if n < 100 then [Char.ofNat (48 + n / 10), Char.ofNat (48 + n % 10)]
  else [Char.ofNat (48 + n / 100), Char.ofNat (48 + n / 10 % 10), Char.ofNat (48 + n % 10)]

/-- pkg/codecs/h264/nalu_type.go:79-84 and pkg/codecs/h265/nalu_type.go:95-100 (`NALUType.String`). -/
def toStr (labels : List (Nat × List Char)) (n : Nat) : List Char :=
  match labels.lookup n with
  | some l => l
  | none => "unknown (".toList ++ decimal n ++ ")".toList

/-- `h264.NALUType.String`. -/
def string264 (n : Nat) : List Char := toStr labels264 n

/-- `h265.NALUType.String`. -/
def string265 (n : Nat) : List Char := toStr labels265 n

end Verif.NALUType
