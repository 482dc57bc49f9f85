/-!
# Specification: names of NAL unit types

H265: ITU-T H.265 table 7-1, column "Name of nal_unit_type", in the order of the table, which is the order of the numbers. H264: ITU-T
H.264 table 7-1 has no names but descriptions; these are short forms of them, in the order of the numbers, followed by the packet types of
RFC 6184 table 1. What is printed for a type can be read back by a person when no two types have the same text.
-/

namespace Verif.Spec.NALUNames

/-- H.264 table 7-1 from 0 to 23: `none` is unspecified. Then RFC 6184 from 24 to 29. -/
def names264 : List (Option String) :=
  [none, some "NonIDR", some "DataPartitionA", some "DataPartitionB", some "DataPartitionC", some "IDR", some "SEI", some "SPS", some "PPS",
   some "AccessUnitDelimiter", some "EndOfSequence", some "EndOfStream", some "FillerData", some "SPSExtension", some "Prefix",
   some "SubsetSPS", some "Reserved16", some "Reserved17", some "Reserved18", some "SliceLayerWithoutPartitioning", some "SliceExtension",
   some "SliceExtensionDepth", some "Reserved22", some "Reserved23",
   some "STAP-A", some "STAP-B", some "MTAP-16", some "MTAP-24", some "FU-A", some "FU-B"]

/-- H.265 table 7-1 from 0 to 40. -/
def names265 : List String :=
  ["TRAIL_N", "TRAIL_R", "TSA_N", "TSA_R", "STSA_N", "STSA_R", "RADL_N", "RADL_R", "RASL_N", "RASL_R",
   "RSV_VCL_N10", "RSV_VCL_R11", "RSV_VCL_N12", "RSV_VCL_R13", "RSV_VCL_N14", "RSV_VCL_R15",
   "BLA_W_LP", "BLA_W_RADL", "BLA_N_LP", "IDR_W_RADL", "IDR_N_LP", "CRA_NUT", "RSV_IRAP_VCL22", "RSV_IRAP_VCL23",
   "RSV_VCL24", "RSV_VCL25", "RSV_VCL26", "RSV_VCL27", "RSV_VCL28", "RSV_VCL29", "RSV_VCL30", "RSV_VCL31",
   "VPS_NUT", "SPS_NUT", "PPS_NUT", "AUD_NUT", "EOS_NUT", "EOB_NUT", "FD_NUT", "PREFIX_SEI_NUT", "SUFFIX_SEI_NUT"]

/-- The number in a text: its digits, read in base ten. -/
def number (s : List Char) : Nat := (s.filter Char.isDigit).foldl (fun a c => 10 * a + (c.toNat - 48)) 0

/-- A text that names no type but gives its number. -/
def IsUnknown (s : List Char) (n : Nat) : Prop := ∃ digits, s = "unknown (".toList ++ digits ++ [')'] ∧ (∀ c ∈ digits, c.isDigit) ∧ number digits = n

end Verif.Spec.NALUNames
