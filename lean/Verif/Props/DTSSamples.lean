import Verif.Model.H265DTS

/-!
# Test sequences of the DTS extractors

The sequences of /repo/pkg/codecs/h264/dts_extractor_test.go and /repo/pkg/codecs/h265/dts_extractor_test.go, with the DTS
values that the tests expect. They are tests of the model.
-/

namespace Verif.Props.Samples
open Verif.StepM

/-- H264: with timing info. -/
example : calls H264.extract H264.DTSExtractor.new [
    ([[0x67, 0x64, 0x00, 0x28, 0xac, 0xd9, 0x40, 0x78, 0x02, 0x27, 0xe5, 0x84, 0x00, 0x00, 0x03, 0x00, 0x04, 0x00, 0x00,
      0x03, 0x00, 0xf0, 0x3c, 0x60, 0xc6, 0x58], [0x65, 0x88, 0x84, 0x00, 0x33, 0xff]], 56890),
    ([[0x41, 0x9a, 0x21, 0x6c, 0x45, 0xff]], 59890),
    ([[0x41, 0x9a, 0x42, 0x3c, 0x21, 0x93]], 62890),
    ([[0x41, 0x9a, 0x63, 0x49, 0xe1, 0x0f]], 65890),
    ([[0x41, 0x9a, 0x86, 0x49, 0xe1, 0x0f]], 74890),
    ([[0x41, 0x9e, 0xa5, 0x42, 0x7f, 0xf9]], 71890),
    ([[0x01, 0x9e, 0xc4, 0x69, 0x13, 0xff]], 68890),
    ([[0x41, 0x9a, 0xc8, 0x4b, 0xa8, 0x42]], 80890),
    ([[0x65, 0x88, 0x84, 0x00, 0x33, 0xff]], 80890)] =
    [.ok 56890, .ok 59890, .ok 62890, .ok 65890, .ok 65980, .ok 68935, .ok 69025, .ok 71991, .ok 74957] := by
  decide +kernel

/-- H264: no timing info. -/
example : calls H264.extract H264.DTSExtractor.new [
    ([[0x27, 0x64, 0x00, 0x20, 0xac, 0x52, 0x18, 0x0f, 0x01, 0x17, 0xef, 0xff, 0x00, 0x01, 0x00, 0x01, 0x6a, 0x02, 0x02,
      0x03, 0x6d, 0x85, 0x6b, 0xde, 0xf8, 0x08], [0x25, 0xb8, 0x08, 0x02, 0x1f, 0xff]], 35050),
    ([[0x21, 0xe1, 0x05, 0xc7, 0x38, 0xbf]], 36550),
    ([[0x21, 0xe2, 0x09, 0xa1, 0xce, 0x0b]], 38050),
    ([[0x21, 0xe3, 0x0d, 0xb1, 0xce, 0x02]], 39550),
    ([[0x21, 0xe4, 0x11, 0x90, 0x73, 0x80]], 41050),
    ([[0x21, 0xe5, 0x19, 0x0e, 0x70, 0x01]], 41140),
    ([[0x01, 0xa9, 0x85, 0x7c, 0x93, 0xff]], 42550),
    ([[0x21, 0xe6, 0x1d, 0x0e, 0x70, 0x01]], 45550),
    ([[0x21, 0xe7, 0x21, 0x0e, 0x70, 0x01]], 47050),
    ([[0x21, 0xe8, 0x25, 0x0e, 0x70, 0x01]], 48550),
    ([[0x21, 0xe9, 0x29, 0x0e, 0x70, 0x01]], 50050),
    ([[0x21, 0xea, 0x31, 0x0e, 0x70, 0x01]], 53050),
    ([[0x01, 0xaa, 0xcb, 0x7c, 0x93, 0xff]], 51550)] =
    [.ok 35050, .ok 36550, .ok 38050, .ok 39550, .ok 41050, .ok 41095, .ok 41185, .ok 43367, .ok 45208, .ok 46879, .ok
      48464, .ok 49992, .ok 51550] := by
  decide +kernel

/-- H264: poc increment = 1. -/
example : calls H264.extract H264.DTSExtractor.new [
    ([[0x67, 0x64, 0x00, 0x2a, 0xac, 0x2c, 0x6a, 0x81, 0xe0, 0x08, 0x9f, 0x96, 0x6e, 0x02, 0x02, 0x02, 0x80, 0x00, 0x03,
      0x84, 0x00, 0x00, 0xaf, 0xc8, 0x02], [0x65, 0xb8, 0x00, 0x00, 0x0b, 0xc8, 0x00, 0x00, 0x00]], 5490),
    ([[0x61, 0xe0, 0x20, 0x00, 0x39, 0x37]], 9090),
    ([[0x61, 0xe0, 0x40, 0x00, 0x59, 0x37]], 12690),
    ([[0x61, 0xe0, 0x60, 0x00, 0x79, 0x37]], 16290)] =
    [.ok 5490, .ok 9090, .ok 12690, .ok 16290] := by
  decide +kernel

/-- H264: B-frames after IDR (OBS 29.1.3 QuickSync on Windows). -/
example : calls H264.extract H264.DTSExtractor.new [
    ([[0x27, 0x64, 0x00, 0x2a, 0xac, 0x2d, 0x90, 0x07, 0x80, 0x22, 0x7e, 0x5c, 0x05, 0xa8, 0x08, 0x08, 0x0a, 0x00, 0x00,
      0x03, 0x00, 0x02, 0x00, 0x00, 0x03, 0x00, 0xf1, 0xd0, 0x80, 0x04, 0xc4, 0x80, 0x00, 0x09, 0x89, 0x68, 0xde, 0xf7,
      0xc1, 0xda, 0x1c, 0x31, 0x92], [0x65, 0x88, 0x80, 0x14, 0x03, 0xff, 0xde, 0x08, 0xe4, 0x74]], 172440),
    ([[0x41, 0x9e, 0x03, 0xe4, 0x3f, 0x00, 0x00, 0x03, 0x00, 0x00]], 169470),
    ([[0x01, 0x9e, 0x05, 0xd4, 0x7f, 0x00, 0x00, 0x03, 0x00, 0x00]], 168030),
    ([[0x01, 0x9e, 0x05, 0xf4, 0x7f, 0x00, 0x00, 0x03, 0x00, 0x00]], 170910),
    ([[0x01, 0x9e, 0x05, 0xf4, 0x7f, 0x00, 0x00, 0x03, 0x00, 0x00]], 178470)] =
    [.ok 172440, .ok 172530, .ok 172620, .ok 172710, .ok 172800] := by
  decide +kernel

/-- H264: mbs_only_flag = 0. -/
example : calls H264.extract H264.DTSExtractor.new [
    ([[0x67, 0x4d, 0x40, 0x28, 0xab, 0x60, 0x3c, 0x02, 0x23, 0xef, 0x01, 0x10, 0x00, 0x00, 0x03, 0x00, 0x10, 0x00, 0x00,
      0x03, 0x03, 0x2e, 0x94, 0x00, 0x35, 0x64, 0x06, 0xb2, 0x85, 0x08, 0x0e, 0xe2, 0xc5, 0x22, 0xc0], [0x68, 0xca, 0x41,
      0xf2], [0x06, 0x00, 0x06, 0x85, 0x7e, 0x40, 0x00, 0x00, 0x10, 0x01], [0x65, 0x88, 0x82, 0x80, 0x1f, 0xff, 0xfb,
      0xf0, 0xa2, 0x88], [0x06, 0x01, 0x02, 0x04, 0x24, 0x80], [0x41, 0x9a, 0x0c, 0x1c, 0x2f, 0xe4, 0xed, 0x23, 0xb5,
      0x63]], 0),
    ([[0x06, 0x01, 0x02, 0x08, 0x14, 0x80], [0x41, 0x9a, 0x18, 0x2a, 0x1f, 0xeb, 0x2f, 0xa2, 0xb1, 0x7e]], 3600),
    ([[0x06, 0x01, 0x02, 0x0c, 0x24, 0x80], [0x41, 0x9a, 0x1c, 0x3a, 0x0f, 0xfa, 0x55, 0xc2, 0x55, 0xea]], 7200)] =
    [.ok 0, .ok 3600, .ok 7200] := by
  decide +kernel

/-- H264: Log2MaxPicOrderCntLsbMinus4 = 12. -/
example : calls H264.extract H264.DTSExtractor.new [
    ([[0x67, 0x42, 0xc0, 0x1e, 0x8c, 0x8d, 0x40, 0x50, 0x17, 0xfc, 0xb0, 0x0f, 0x08, 0x84, 0x6a], [0x68, 0xce, 0x3c,
      0x80], [0x65, 0x88, 0x80, 0x14, 0x03, 0x00, 0x00, 0x00, 0x00, 0x00]], 0),
    ([[0x61, 0x00, 0xf0, 0xe0, 0x00, 0x40, 0x00, 0xbe, 0x47, 0x9b]], 3600)] =
    [.ok 0, .ok 3600] := by
  decide +kernel

/-- H264: issue mediamtx/3094 (non-zero IDR POC). -/
example : calls H264.extract H264.DTSExtractor.new [
    ([[0x67, 0x42, 0x80, 0x28, 0x8c, 0x8d, 0x40, 0x5a, 0x09, 0x22], [0x68, 0xce, 0x3c, 0x80], [0x65, 0xb8, 0x00, 0x0c,
      0xa2, 0x40, 0x33, 0x93, 0x14, 0x00, 0x04, 0x1a, 0x6d, 0x6d, 0x6d, 0x6d, 0x6d, 0x6d, 0x5d, 0xaa, 0xb5, 0xb5, 0xb5,
      0xb5, 0xb5, 0xb5, 0xb5, 0xb5, 0xb5, 0xb5, 0xb5, 0xb5, 0xb5, 0xb5, 0x76, 0xb6, 0xb6, 0xb6, 0xaa, 0xd6, 0xd6, 0xd6,
      0xd6, 0xd6, 0xd6, 0xd6, 0xd6, 0xd6, 0xd6, 0xd6, 0xd6, 0xd6, 0xd6, 0xd6, 0xd6, 0xd5, 0xda, 0xda, 0xaa, 0x7a, 0x7a,
      0x7a, 0x7a, 0x7a, 0x79, 0x1e, 0xde, 0xde, 0xde, 0xde, 0xde, 0xde, 0xde, 0xde, 0xde, 0xde, 0xde, 0xde, 0xde, 0xde,
      0xde, 0xde, 0xde, 0xde, 0xde, 0xde, 0xde, 0xde, 0xde, 0xde, 0xde, 0xde, 0xde, 0xde, 0xde, 0xde, 0xde, 0xde, 0xde,
      0xde]], 0),
    ([[0x41, 0xe0, 0x00, 0x65, 0x12, 0x80, 0xce, 0x78, 0x16, 0x00, 0x99, 0xff, 0xff, 0xff, 0xe0, 0xe4, 0x1a, 0x7f, 0xff,
      0xff, 0xea, 0x11, 0x01, 0x01, 0xff, 0xff, 0xfc, 0x20, 0x08, 0x3f, 0xff, 0xff, 0xfc, 0x0f, 0x22, 0x7f, 0xff, 0xff,
      0xff, 0xff, 0xff, 0xff, 0xff, 0xff, 0xb8, 0x60, 0x04, 0x87, 0x02, 0xc8, 0x18, 0x38, 0x60, 0x04, 0x87, 0x03, 0x00,
      0x35, 0xa8, 0x16, 0x40, 0x9b, 0x04, 0xd0, 0x11, 0x00, 0x24, 0x38, 0x11, 0x01, 0x6c, 0x16, 0x41, 0x60, 0x2c, 0x82,
      0xd8, 0x2c, 0x05, 0x90, 0x5b, 0x05, 0x80, 0xb2, 0x0b, 0x60, 0xb0, 0x16, 0x41, 0x6c, 0x16, 0x02, 0xc8, 0x2d, 0x82,
      0xc0, 0x59, 0x05, 0xb0, 0x58]], 10800),
    ([[0x41, 0xe0, 0x00, 0xa5, 0x13, 0x00, 0xce, 0xf0, 0x2c, 0x70, 0x20, 0x01, 0x43, 0xc0, 0x8b, 0xc3, 0x01, 0x99, 0x60,
      0x80, 0x04, 0x07, 0x06, 0x39, 0xe0, 0x80, 0x04, 0x04, 0x37, 0x80, 0x90, 0xe4, 0x06, 0x9c, 0xa0, 0x23, 0x60, 0x06,
      0x25, 0x80]], 14400)] =
    [.ok 0, .ok 10800, .ok 14400] := by
  decide +kernel

/-- H264: issue mediamtx/3614 (only SEI received). -/
example : calls H264.extract H264.DTSExtractor.new [
    ([[0x27, 0x64, 0x00, 0x2a, 0xac, 0x2d, 0x90, 0x07, 0x80, 0x22, 0x7e, 0x5c, 0x05, 0xa8, 0x08, 0x08, 0x0a, 0x00, 0x00,
      0x03, 0x00, 0x02, 0x00, 0x00, 0x03, 0x00, 0xf1, 0xd0, 0x80, 0x04, 0xc4, 0x80, 0x00, 0x09, 0x89, 0x68, 0xde, 0xf7,
      0xc1, 0xda, 0x1c, 0x31, 0x92], [0x68, 0xca, 0x41, 0xf2], [0x06, 0x00, 0x06, 0x85, 0x7e, 0x40, 0x00, 0x00, 0x10,
      0x01], [0x65, 0x88, 0x82, 0x80, 0x1f, 0xff, 0xfb, 0xf0, 0xa2, 0x88], [0x06, 0x01, 0x02, 0x04, 0x24, 0x80], [0x41,
      0x9a, 0x0c, 0x1c, 0x2f, 0xe4, 0xed, 0x23, 0xb5, 0x63]], 0),
    ([[0x06, 0x01, 0x02, 0x08, 0x14, 0x80]], 0),
    ([[0x61, 0x00, 0xf0, 0xe0, 0x00, 0x40, 0x00, 0xbe, 0x47, 0x9b]], 3600),
    ([[0x06, 0x01, 0x02, 0x08, 0x14, 0x80]], 7200)] =
    [.ok 0, .ok 0, .ok 3600, .ok 3600] := by
  decide +kernel

/-- H264: issue mediamtx/4892 (poc increment = 1 after reordered frames). -/
example : calls H264.extract H264.DTSExtractor.new [
    ([[0x27, 0x64, 0x00, 0x28, 0xac, 0x56, 0x50, 0x1e, 0x00, 0x89, 0xf9, 0x66, 0xa0, 0x20, 0x20, 0x20, 0x40], [0x28, 0xee,
      0x3c, 0xb0], [0x65, 0xb8, 0x20, 0x1f, 0xde, 0x08, 0xe5, 0x4c, 0xff, 0x82, 0xcc, 0x1e, 0x9b, 0x50, 0xdb, 0xb3, 0x15,
      0xf2, 0xac, 0x66], [0x0c, 0xff, 0xff, 0xff, 0xff, 0xff, 0xff, 0xff, 0xff, 0xff, 0xff, 0xff, 0xff, 0xff, 0xff, 0xff,
      0xff, 0xff, 0xff, 0xff]], 0),
    ([[0x41, 0xe1, 0x10, 0x7f, 0xcd, 0xf4, 0xe3, 0x3d, 0x20, 0x01, 0x62, 0x49, 0x60, 0x00, 0x00, 0x03, 0x00, 0x00, 0x03,
      0x00], [0x0c, 0xff, 0xff, 0xff, 0xff, 0xff, 0xff, 0xff, 0xff, 0xff, 0xff, 0xff, 0xff, 0xff, 0xff, 0xff, 0xff, 0xff,
      0xff, 0xff]], 12000),
    ([[0x41, 0xa8, 0x82, 0x87, 0xff, 0xee, 0x4d, 0x5c, 0x1a, 0x30, 0x00, 0x00, 0x03, 0x00, 0x00, 0x03, 0x00, 0x00, 0x03,
      0x00], [0x0c, 0xff, 0xff, 0xff, 0xff, 0xff, 0xff, 0xff, 0xff, 0xff, 0xff, 0xff, 0xff, 0xff, 0xff, 0xff, 0xff, 0xff,
      0xff, 0xff]], 6000),
    ([[0x01, 0xa8, 0xc1, 0x88, 0x8f, 0xeb, 0xea, 0x6b, 0x80, 0x00, 0x00, 0x03, 0x00, 0x00, 0x03, 0x00, 0x00, 0x03, 0x00,
      0x00], [0x0c, 0xff, 0xff, 0xff, 0xff, 0xff, 0xff, 0xff, 0xff, 0xff, 0xff, 0xff, 0xff, 0xff, 0xff, 0xff, 0xff, 0xff,
      0xff, 0xff]], 3000),
    ([[0x01, 0xa8, 0xc3, 0x88, 0x8f, 0xf5, 0x4b, 0xa1, 0xc0, 0x00, 0x00, 0x03, 0x00, 0x00, 0x03, 0x00, 0x00, 0x03, 0x00,
      0x00], [0x0c, 0xff, 0xff, 0xff, 0xff, 0xff, 0xff, 0xff, 0xff, 0xff, 0xff, 0xff, 0xff, 0xff, 0xff, 0xff, 0xff, 0xff,
      0xff, 0xff]], 9000),
    ([[0x41, 0xe3, 0x21, 0xa2, 0x3f, 0xcd, 0x95, 0x8a, 0xc0, 0x19, 0xa0, 0x00, 0x00, 0x03, 0x00, 0x00, 0x03, 0x00, 0x00,
      0x03], [0x0c, 0xff, 0xff, 0xff, 0xff, 0xff, 0xff, 0xff, 0xff, 0xff, 0xff, 0xff, 0xff, 0xff, 0xff, 0xff, 0xff, 0xff,
      0xff, 0xff]], 24000)] =
    [.ok 0, .ok 6000, .ok 6090, .ok 6180, .ok 7590, .ok 10325] := by
  decide +kernel

/-- H264: issue mediamtx/4617 (poc increment = 4). -/
example : calls H264.extract H264.DTSExtractor.new [
    ([[0x27, 0x64, 0x00, 0x28, 0xac, 0x1b, 0x1a, 0x80, 0x78, 0x02, 0x25, 0xe5, 0x40], [0x28, 0xee, 0x04, 0x62, 0xc0],
      [0x25, 0xb8, 0x00, 0x00, 0x32, 0x00, 0x00, 0x3f, 0xba, 0x12, 0xe0, 0x6f, 0xff, 0x0d, 0x7f, 0x39, 0x49, 0x90, 0x23,
      0x0c]], 0),
    ([[0x21, 0xe0, 0x00, 0x20, 0x00, 0x82, 0x23, 0x03, 0x3d, 0xd8, 0x10, 0xa1, 0x2a, 0x8b, 0x33, 0x53, 0xd2, 0x79, 0x18,
      0x1d]], 10800),
    ([[0x21, 0xe0, 0x00, 0x40, 0x01, 0x02, 0x6f, 0x0a, 0x14, 0x6a, 0x38, 0x00, 0x00, 0x03, 0x00, 0x00, 0x19, 0x9d, 0x46,
      0xe2]], 90000),
    ([[0x21, 0xe0, 0x00, 0x60, 0x01, 0x82, 0xbf, 0x05, 0x43, 0x10, 0x00, 0x00, 0x03, 0x00, 0x00, 0x0a, 0x03, 0x56, 0x41,
      0xfe]], 100800)] =
    [.ok 0, .ok 5400, .ok 90000, .ok 100800] := by
  decide +kernel

/-- H265: with timing info, IDR. -/
example : calls H265.extract {} [
    ([[0x40, 0x01, 0x0c, 0x01, 0xff, 0xff, 0x01, 0x60, 0x00, 0x00, 0x03, 0x00, 0x90, 0x00, 0x00, 0x03, 0x00, 0x00, 0x03,
      0x00, 0x78, 0x99, 0x98, 0x09], [0x42, 0x01, 0x01, 0x01, 0x60, 0x00, 0x00, 0x03, 0x00, 0x90, 0x00, 0x00, 0x03, 0x00,
      0x00, 0x03, 0x00, 0x78, 0xa0, 0x03, 0xc0, 0x80, 0x10, 0xe5, 0x96, 0x66, 0x69, 0x24, 0xca, 0xe0, 0x10, 0x00, 0x00,
      0x03, 0x00, 0x10, 0x00, 0x00, 0x03, 0x01, 0xe0, 0x80], [0x44, 0x01, 0xc1, 0x72, 0xb4, 0x62, 0x40], [0x26, 0x01,
      0xaf, 0x08, 0x42, 0x23, 0x48, 0x8a, 0x43, 0xe2]], 0),
    ([[0x02, 0x01, 0xd0, 0x19, 0x5f, 0x8c, 0xb4, 0x42, 0x49, 0x20, 0x40, 0x11, 0x16, 0x92, 0x93, 0xea, 0x54, 0x57, 0x4e,
      0x0a]], 9000),
    ([[0x02, 0x01, 0xe0, 0x44, 0x97, 0xe0, 0x81, 0x20, 0x44, 0x52, 0x62, 0x7a, 0x1b, 0x88, 0x0b, 0x21, 0x26, 0x5f, 0x10,
      0x9c]], 5999),
    ([[0x00, 0x01, 0xe0, 0x24, 0xff, 0xfa, 0x24, 0x0a, 0x42, 0x25, 0x8c, 0x18, 0xe6, 0x1c, 0xea, 0x5a, 0x5d, 0x07, 0xc1,
      0x8f]], 2999),
    ([[0x02, 0x01, 0xd0, 0x30, 0x97, 0xd7, 0xdc, 0xf9, 0x0c, 0x10, 0x11, 0x11, 0x20, 0x42, 0x11, 0x18, 0x63, 0xa5, 0x18,
      0x55]], 18000),
    ([[0x02, 0x01, 0xe0, 0xa2, 0x25, 0xd7, 0xf7, 0x08, 0x12, 0x04, 0x45, 0xa1, 0x83, 0xc0, 0x97, 0x53, 0xa3, 0x5e, 0x78,
      0x14]], 14999),
    ([[0x00, 0x01, 0xe0, 0x82, 0x3f, 0x5f, 0xf6, 0x89, 0x02, 0x90, 0x88, 0xa3, 0x0c, 0x7d, 0x27, 0x0c, 0xd4, 0xd9, 0xc2,
      0xa5]], 11999)] =
    [.ok (-6000), .ok (-5910), .ok (-1941), .ok 2999, .ok 5999, .ok 8999, .ok 11999] := by
  decide +kernel

/-- H265: short_term_ref_pic_set_sps_flag. -/
example : calls H265.extract {} [
    ([[0x40, 0x01, 0x0c, 0x01, 0xff, 0xff, 0x01, 0x40, 0x00, 0x00, 0x03, 0x00, 0x80, 0x00, 0x00, 0x03, 0x00, 0x00, 0x03,
      0x00, 0x99, 0xa5, 0x02, 0x40], [0x42, 0x01, 0x01, 0x01, 0x40, 0x00, 0x00, 0x03, 0x00, 0x80, 0x00, 0x00, 0x03, 0x00,
      0x00, 0x03, 0x00, 0x99, 0xa0, 0x03, 0xc0, 0x80, 0x10, 0xe5, 0x8d, 0xa5, 0x92, 0x42, 0x36, 0x22, 0xec, 0xb8, 0x80,
      0x40, 0x00, 0x00, 0x03, 0x00, 0x40, 0x00, 0x00, 0x05, 0x0f, 0xe2, 0xc4, 0xa0], [0x44, 0x01, 0xc0, 0xe0, 0x98, 0x93,
      0x03, 0x05, 0x14, 0x90], [0x26, 0x01, 0xaf, 0x3e, 0x3d, 0x3a, 0xca, 0xc0, 0xf2, 0x2f, 0xc3, 0x0f, 0x86, 0x9f, 0xed,
      0xfc, 0x67, 0x2f, 0x62, 0x69]], 100),
    ([[0x02, 0x02, 0xd0, 0x00, 0x0c, 0xc6, 0x27, 0xfe, 0x6e, 0x6d, 0xe8, 0x10, 0xd5, 0xce, 0x61, 0x1b, 0x66, 0xf6, 0x21,
      0x59]], 6130),
    ([[0x02, 0x02, 0xd0, 0x00, 0x14, 0xc6, 0x7c, 0xfe, 0x83, 0x29, 0x34, 0xba, 0xce, 0xaa, 0x8b, 0x76, 0xb0, 0x95, 0x67,
      0xb2]], 9100)] =
    [.ok (-4400), .ok 865, .ok 4982] := by
  decide +kernel

/-- H265: qsv hevc b_frames=3. -/
example : calls H265.extract {} [
    ([[0x40, 0x01, 0x0c, 0x01, 0xff, 0xff, 0x01, 0x40, 0x00, 0x00, 0x03, 0x00, 0x90, 0x00, 0x00, 0x03, 0x00, 0x00, 0x03,
      0x00, 0x7b, 0x11, 0xc0, 0xc0, 0x00, 0x00, 0x03, 0x00, 0x40, 0x00, 0x00, 0x0f, 0x14], [0x42, 0x01, 0x01, 0x01, 0x40,
      0x00, 0x00, 0x03, 0x00, 0x90, 0x00, 0x00, 0x03, 0x00, 0x00, 0x03, 0x00, 0x7b, 0xa0, 0x03, 0xc0, 0x80, 0x11, 0x07,
      0xcb, 0xb1, 0x1e, 0xe4, 0x6c, 0x0a, 0x9f, 0xa6, 0xb9, 0x97, 0x92, 0xcf, 0x60, 0x2d, 0x40, 0x40, 0x40, 0x45, 0x00,
      0x00, 0x03, 0x00, 0x01, 0x00, 0x00, 0x03, 0x00, 0x3c, 0x60, 0x35, 0xef, 0x7e, 0x00, 0x02, 0x62, 0x58, 0x00, 0x26,
      0x17, 0x20], [0x44, 0x01, 0xc0, 0x3c, 0xf0, 0x1b, 0x64], [0x4e, 0x01, 0x00, 0x0a, 0x80, 0x00, 0x00, 0x03, 0x00,
      0x55, 0xda, 0x80, 0x01, 0xe5, 0xd0, 0x01, 0x07, 0x04, 0x00, 0x00, 0xee, 0x00, 0x00, 0x05, 0x80], [0x26, 0x01, 0xae,
      0x80, 0x8f, 0x4c, 0xdd, 0xfc, 0xee, 0x2f, 0x79, 0x7c, 0x9e, 0x21, 0x6b, 0x2a, 0xe7, 0x6a, 0x57, 0x56, 0x46, 0x6f,
      0x32, 0x5a, 0x7c, 0xbc, 0x47, 0xe8, 0xce, 0x5c, 0x5e, 0xfa, 0x1e, 0xd0, 0x94, 0x08, 0x4c, 0x98, 0x9d, 0xbb, 0x5d,
      0x4c, 0x54, 0xa1, 0xd9, 0x5b, 0x1b, 0xba]], 182999),
    ([[0x4e, 0x01, 0x01, 0x07, 0x04, 0x00, 0x00, 0x03, 0x00, 0x00, 0x03, 0x00, 0x0b, 0x80], [0x02, 0x01, 0xe2, 0x0a, 0x4f,
      0xdd, 0x1e, 0xb7, 0xb7, 0xa1, 0x80, 0xad, 0xc7, 0x3c, 0x2e, 0x33, 0x3b, 0xde, 0xcc, 0x77, 0x13, 0x9c, 0x5b, 0xe3,
      0x2c, 0xaa, 0xd4, 0x2e, 0xb0, 0x2b, 0x9e, 0x20, 0xdd, 0xc9, 0x1b, 0x39, 0xd9, 0x75, 0x06, 0xf5, 0xa8, 0x1f, 0x66,
      0x62, 0x5b, 0xfe, 0x1f, 0xf9]], 188999),
    ([[0x4e, 0x01, 0x01, 0x07, 0x04, 0x00, 0x00, 0x03, 0x02, 0x00, 0x00, 0x05, 0x80], [0x02, 0x01, 0xe1, 0x32, 0x27, 0xe3,
      0xa0, 0x51, 0xcd, 0xff, 0x1a, 0x0b, 0x37, 0xaf, 0xe3, 0xe6, 0x9e, 0xaa, 0x27, 0x82, 0xcd, 0x28, 0xa3, 0xce, 0x57,
      0x8b, 0x02, 0x3e, 0x62, 0x1f, 0x66, 0x5b, 0xbd, 0x67, 0x6b, 0xb1, 0x47, 0x9d, 0x1b, 0x26, 0xb7, 0x2a, 0x04, 0xac,
      0x2e, 0x94, 0x1e, 0x22]], 185999),
    ([[0x4e, 0x01, 0x01, 0x07, 0x04, 0x00, 0x00, 0x04, 0x00, 0x00, 0x03, 0x01, 0x80], [0x00, 0x01, 0xe0, 0xcf, 0x8e, 0x80,
      0x1e, 0x96, 0xa6, 0x88, 0xcb, 0x98, 0xf3, 0xd9, 0x2a, 0x4b, 0xa7, 0xa0, 0xf8, 0xa0, 0x4d, 0x21, 0x89, 0x76, 0x54,
      0xe3, 0x8f, 0x46, 0xf6, 0x93, 0xde, 0x84, 0x33, 0x26, 0x3e, 0xe8, 0x20, 0x23, 0xef, 0x39, 0x03, 0x3c, 0x92, 0x11,
      0x50, 0x98, 0xd6, 0x13]], 184499)] =
    [.ok 179999, .ok 180089, .ok 182059, .ok 184499] := by
  decide +kernel

/-- H265: issue mediamtx/4892 (no timing info). -/
example : calls H265.extract {} [
    ([[0x40, 0x01, 0x0c, 0x01, 0xff, 0xff, 0x01, 0x60, 0x00, 0x00, 0x03, 0x00, 0xb0, 0x00, 0x00, 0x03, 0x00, 0x00, 0x03,
      0x00, 0x78, 0x15, 0xc0, 0x90], [0x42, 0x01, 0x01, 0x01, 0x60, 0x00, 0x00, 0x03, 0x00, 0xb0, 0x00, 0x00, 0x03, 0x00,
      0x00, 0x03, 0x00, 0x78, 0xa0, 0x03, 0xc0, 0x80, 0x11, 0x07, 0xcb, 0x88, 0x15, 0xee, 0x45, 0x95, 0x4d, 0x40, 0x40,
      0x40, 0x40, 0x20], [0x44, 0x01, 0xc0, 0x2c, 0x60, 0xa6, 0x48], [0x28, 0x01, 0xaf, 0x82, 0x21, 0x80, 0x42, 0x03,
      0x80, 0x36, 0x03, 0x20, 0x32, 0x02, 0xe0, 0x2e, 0x02, 0xc0, 0x28, 0x02, 0xa0, 0x28, 0x02, 0x60, 0x26, 0x02, 0x60,
      0x24, 0x02, 0x40, 0x24, 0x02, 0x40, 0x24, 0x02, 0x40, 0x24, 0x02, 0x40, 0x24], [0x4c, 0x01, 0xff, 0xff, 0xff, 0xff,
      0xff, 0xff, 0xff, 0xff, 0xff, 0xff, 0xff, 0xff, 0xff, 0xff, 0xff, 0xff, 0xff, 0xff, 0xff, 0xff, 0xff, 0xff, 0xff,
      0xff, 0xff, 0xff, 0xff, 0xff, 0xff, 0xff, 0xff, 0xff, 0xff, 0xff, 0xff, 0xff, 0xff, 0xff]], 0),
    ([[0x02, 0x01, 0xd0, 0x04, 0x29, 0x2f, 0xc1, 0x10, 0x80, 0x90, 0x80, 0x70, 0x70, 0x70, 0x60, 0x60, 0x60, 0x60, 0x60,
      0x60, 0x60, 0x60, 0x60, 0x60, 0x50, 0x50, 0x50, 0x50, 0x50, 0x50, 0x50, 0x50, 0x50, 0x50, 0x50, 0x50, 0x50, 0x50,
      0x50, 0x55], [0x4c, 0x01, 0xff, 0xff, 0xff, 0xff, 0xff, 0xff, 0xff, 0xff, 0xff, 0xff, 0xff, 0xff, 0xff, 0xff, 0xff,
      0xff, 0xff, 0xff, 0xff, 0xff, 0xff, 0xff, 0xff, 0xff, 0xff, 0xff, 0xff, 0xff, 0xff, 0xff, 0xff, 0xff, 0xff, 0xff,
      0xff, 0xff, 0xff, 0xff]], 12000),
    ([[0x02, 0x01, 0xe0, 0x08, 0x92, 0xab, 0xec, 0x11, 0x18, 0x61, 0xc7, 0x1c, 0x61, 0x86, 0x18, 0x61, 0x86, 0x18, 0x61,
      0x45, 0x14, 0x51, 0x45, 0x14, 0x51, 0x45, 0x14, 0x51, 0x45, 0x14, 0x51, 0x45, 0x7f, 0xa8, 0x92, 0x80, 0x00, 0x00,
      0x03, 0x01], [0x4c, 0x01, 0xff, 0xff, 0xff, 0xff, 0xff, 0xff, 0xff, 0xff, 0xff, 0xff, 0xff, 0xff, 0xff, 0xff, 0xff,
      0xff, 0xff, 0xff, 0xff, 0xff, 0xff, 0xff, 0xff, 0xff, 0xff, 0xff, 0xff, 0xff, 0xff, 0xff, 0xff, 0xff, 0xff, 0xff,
      0xff, 0xff, 0xff, 0xff]], 6000),
    ([[0x02, 0x01, 0xe0, 0x04, 0x9f, 0xa3, 0xe8, 0x80, 0x44, 0x61, 0x87, 0x18, 0x61, 0x86, 0x18, 0x61, 0x86, 0x18, 0x51,
      0x45, 0x14, 0x51, 0x45, 0x14, 0x51, 0x45, 0x14, 0x51, 0x45, 0x14, 0x51, 0x45, 0x15, 0xbb, 0x60, 0x91, 0x00, 0x00,
      0x03, 0x00], [0x4c, 0x01, 0xff, 0xff, 0xff, 0xff, 0xff, 0xff, 0xff, 0xff, 0xff, 0xff, 0xff, 0xff, 0xff, 0xff, 0xff,
      0xff, 0xff, 0xff, 0xff, 0xff, 0xff, 0xff, 0xff, 0xff, 0xff, 0xff, 0xff, 0xff, 0xff, 0xff, 0xff, 0xff, 0xff, 0xff,
      0xff, 0xff, 0xff, 0xff]], 3000),
    ([[0x02, 0x01, 0xe0, 0x0c, 0xd6, 0x9b, 0xe8, 0x80, 0x44, 0x70, 0xc1, 0xc3, 0x06, 0x0c, 0x18, 0x30, 0x60, 0xc1, 0x83,
      0x05, 0x0a, 0x14, 0x28, 0x50, 0xa1, 0x42, 0x85, 0x0a, 0x14, 0x28, 0x50, 0xa1, 0x42, 0x85, 0x0a, 0x14, 0x29, 0xb8,
      0x10, 0x91], [0x4c, 0x01, 0xff, 0xff, 0xff, 0xff, 0xff, 0xff, 0xff, 0xff, 0xff, 0xff, 0xff, 0xff, 0xff, 0xff, 0xff,
      0xff, 0xff, 0xff, 0xff, 0xff, 0xff, 0xff, 0xff, 0xff, 0xff, 0xff, 0xff, 0xff, 0xff, 0xff, 0xff, 0xff, 0xff, 0xff,
      0xff, 0xff, 0xff, 0xff]], 9000),
    ([[0x02, 0x01, 0xd0, 0x08, 0x39, 0x24, 0xb6, 0x08, 0x84, 0x04, 0x84, 0x03, 0x83, 0x83, 0x83, 0x03, 0x03, 0x03, 0x03,
      0x03, 0x03, 0x03, 0x03, 0x03, 0x02, 0x82, 0x82, 0x82, 0x82, 0x82, 0x82, 0x82, 0x82, 0x82, 0x82, 0x82, 0x82, 0x82,
      0x82, 0x82], [0x4c, 0x01, 0xff, 0xff, 0xff, 0xff, 0xff, 0xff, 0xff, 0xff, 0xff, 0xff, 0xff, 0xff, 0xff, 0xff, 0xff,
      0xff, 0xff, 0xff, 0xff, 0xff, 0xff, 0xff, 0xff, 0xff, 0xff, 0xff, 0xff, 0xff, 0xff, 0xff, 0xff, 0xff, 0xff, 0xff,
      0xff, 0xff, 0xff, 0xff]], 24000)] =
    [.ok (-9000), .ok (-8910), .ok (-3940), .ok 3000, .ok 6000, .ok 9000] := by
  decide +kernel

/-- H265: libx265, bframes=4. -/
example : calls H265.extract {} [
    ([[0x40, 0x01, 0x0c, 0x01, 0xff, 0xff, 0x01, 0x60, 0x00, 0x00, 0x03, 0x00, 0x90, 0x00, 0x00, 0x03, 0x00, 0x00, 0x03,
      0x00, 0x78, 0x95, 0x98, 0x09], [0x42, 0x01, 0x01, 0x01, 0x60, 0x00, 0x00, 0x03, 0x00, 0x90, 0x00, 0x00, 0x03, 0x00,
      0x00, 0x03, 0x00, 0x78, 0xa0, 0x03, 0xc0, 0x80, 0x11, 0x07, 0xcb, 0x96, 0x56, 0x64, 0xa4, 0xc2, 0xf0, 0x16, 0x80,
      0x80, 0x00, 0x00, 0x03, 0x00, 0x80, 0x00, 0x00, 0x0f, 0x04], [0x44, 0x01, 0xc0, 0x73, 0xc1, 0x89], [0x28, 0x01,
      0xac, 0x64, 0x11, 0x0b, 0x35, 0x45, 0xb4, 0xa0, 0x95, 0x12, 0x90, 0x42, 0x48, 0xe1, 0x2e, 0x21, 0xc4, 0x7c, 0xd4,
      0x95, 0x63, 0x44, 0x2f, 0x04, 0x98, 0x87, 0x03, 0xe2, 0xdc, 0x43, 0x09, 0x61, 0x4c, 0x6f, 0x4a, 0x39, 0x6e, 0x27,
      0xb6, 0x50, 0x3b, 0x03, 0xd0, 0x45, 0x1f, 0x4c, 0xf1, 0x66]], 0),
    ([[0x40, 0x01, 0x0c, 0x01, 0xff, 0xff, 0x01, 0x60, 0x00, 0x00, 0x03, 0x00, 0x90, 0x00, 0x00, 0x03, 0x00, 0x00, 0x03,
      0x00, 0x78, 0x95, 0x98, 0x09], [0x42, 0x01, 0x01, 0x01, 0x60, 0x00, 0x00, 0x03, 0x00, 0x90, 0x00, 0x00, 0x03, 0x00,
      0x00, 0x03, 0x00, 0x78, 0xa0, 0x03, 0xc0, 0x80, 0x11, 0x07, 0xcb, 0x96, 0x56, 0x64, 0xa4, 0xc2, 0xf0, 0x16, 0x80,
      0x80, 0x00, 0x00, 0x03, 0x00, 0x80, 0x00, 0x00, 0x0f, 0x04], [0x44, 0x01, 0xc0, 0x73, 0xc1, 0x89], [0x2a, 0x01,
      0xac, 0x14, 0xa5, 0x46, 0x01, 0x10, 0xb2, 0xca, 0x41, 0x47, 0x18, 0xd2, 0x20, 0x02, 0xec, 0x71, 0x8b, 0xd1, 0x58,
      0x36, 0x88, 0xc9, 0x1d, 0x2d, 0x82, 0x80, 0x37, 0x05, 0x80, 0x46, 0x29, 0x43, 0x38, 0x71, 0x10, 0x05, 0x8c, 0x84,
      0x10, 0x61, 0xcd, 0x15, 0xc4, 0x20, 0x2c, 0x02, 0x8e, 0x30]], 15000),
    ([[0x12, 0x01, 0xe0, 0x64, 0x9d, 0x60, 0x81, 0x40, 0x22, 0x28, 0xc4, 0x21, 0x08, 0x42, 0x10, 0x84, 0x20, 0x84, 0x21,
      0x08, 0x42, 0x10, 0x84, 0x21, 0x08, 0x78, 0x92, 0x0d, 0xca, 0x31, 0xa0, 0x92, 0x80, 0x27, 0x20, 0x00, 0x05, 0x04,
      0x00, 0x09, 0x88, 0x00, 0x11, 0xf0, 0x00, 0x1d, 0xf0, 0x00, 0x31, 0x20]], 9000),
    ([[0x10, 0x01, 0xe0, 0x24, 0xf5, 0x5e, 0x89, 0x02, 0xd0, 0x44, 0x43, 0x22, 0x22, 0x22, 0x22, 0x21, 0x11, 0x11, 0x11,
      0x11, 0x11, 0x11, 0x11, 0x76, 0x33, 0xa7, 0x22, 0x80, 0x83, 0x80, 0x3e, 0xe0, 0x00, 0x05, 0xfc, 0x00, 0x0b, 0x78,
      0x00, 0x15, 0x10, 0x00, 0x24, 0xa0, 0x00, 0x36, 0xa0, 0x00, 0x54, 0xc0]], 3000)] =
    [.ok (-6000), .ok (-5910), .ok (-2183), .ok 3000] := by
  decide +kernel

/-- H265: b-frame IDR. -/
example : calls H265.extract {} [
    ([[0x40, 0x01, 0x0c, 0x01, 0xff, 0xff, 0x01, 0x60, 0x00, 0x00, 0x03, 0x00, 0x90, 0x00, 0x00, 0x03, 0x00, 0x00, 0x03,
      0x00, 0x78, 0x95, 0x98, 0x09], [0x42, 0x01, 0x01, 0x01, 0x60, 0x00, 0x00, 0x03, 0x00, 0x90, 0x00, 0x00, 0x03, 0x00,
      0x00, 0x03, 0x00, 0x78, 0xa0, 0x03, 0xc0, 0x80, 0x32, 0x16, 0x59, 0x59, 0xa4, 0x93, 0x2b, 0xc0, 0x5a, 0x80, 0x80,
      0x80, 0x82, 0x00, 0x00, 0x07, 0xd2, 0x00, 0x00, 0xbb, 0x80, 0x10], [0x44, 0x01, 0xc1, 0x72, 0xb4, 0x62, 0x40],
      [0x2a, 0x01, 0xae, 0x44, 0x59, 0x48, 0xc9, 0xd4, 0x68, 0xd1, 0x64, 0x7c, 0x76, 0x77, 0xce, 0x07, 0x54, 0xca, 0x8f,
      0x8d, 0x90, 0x33, 0x64, 0x52, 0x7c, 0x48, 0x16, 0xc0, 0x9c, 0x80, 0xf8, 0x81, 0x5b, 0xff, 0xf8, 0x76, 0x7c, 0x92,
      0xd6, 0xb7, 0xa8, 0x55, 0x9c, 0x20, 0xc0, 0x9b, 0x30, 0x11, 0xdb, 0x80]], 2466180),
    ([[0x12, 0x01, 0xf1, 0xe2, 0x27, 0x52, 0xd7, 0xdc, 0x21, 0xa3, 0x45, 0x03, 0x0c, 0x14, 0x30, 0x41, 0x16, 0xe1, 0xa9,
      0x46, 0x12, 0x06, 0xc1, 0xe0, 0x14, 0x03, 0xc0, 0x92, 0x00, 0x8c, 0xb0, 0x66, 0xc2, 0x1c, 0xf7, 0x66, 0xad, 0xf4,
      0xcb, 0x6a, 0x81, 0x90, 0xcc, 0xe9, 0xac, 0xc8, 0xec, 0x8d, 0x3f, 0x30]], 2458710),
    ([[0x10, 0x01, 0xf1, 0xa6, 0xf5, 0x55, 0xf4, 0x89, 0x04, 0x06, 0x89, 0x0e, 0xb7, 0xff, 0xa5, 0x33, 0xa8, 0x5c, 0xee,
      0x18, 0x0b, 0x06, 0xc1, 0x20, 0x78, 0x91, 0x00, 0xce, 0xc0, 0xd7, 0x1c, 0x8d, 0x93, 0x89, 0x2c, 0xb3, 0x03, 0xe8,
      0xd1, 0xc3, 0x4c, 0xe2, 0x9c, 0xee, 0xa9, 0xc2, 0x57, 0xc3, 0x1c, 0x68]], 2451240)] =
    [.ok 2443658, .ok 2443748, .ok 2451240] := by
  decide +kernel

/-- H265: issue mediamtx/5071 (multiple slices). -/
example : calls H265.extract {} [
    ([[0x40, 0x01, 0x0c, 0x01, 0xff, 0xff, 0x01, 0x60, 0x00, 0x00, 0x03, 0x00, 0xb0, 0x00, 0x00, 0x03, 0x00, 0x00, 0x03,
      0x00, 0x96, 0xac, 0x09], [0x42, 0x01, 0x01, 0x01, 0x60, 0x00, 0x00, 0x03, 0x00, 0xb0, 0x00, 0x00, 0x03, 0x00, 0x00,
      0x03, 0x00, 0x96, 0xa0, 0x03, 0xc0, 0x80, 0x11, 0x07, 0xcb, 0xeb, 0xb9, 0x32, 0x4b, 0xa9, 0x48, 0x28, 0x30, 0x28,
      0x17, 0x68, 0x50, 0x94], [0x44, 0x01, 0xc0, 0xe3, 0x0f, 0x09, 0xc1, 0x40, 0xa6, 0x08, 0x40], [0x26, 0x01, 0xaf,
      0x06, 0x7c, 0xc6, 0xc5, 0x8f, 0x0a, 0x39, 0xd0, 0x20, 0xff, 0xf1, 0x3e, 0x9b, 0xb4, 0xc4, 0xa1, 0xc6, 0xb4, 0xdc,
      0xd0, 0x2c, 0x17, 0x02, 0x77, 0xff, 0x7b, 0xcb, 0x1f, 0xfc, 0xbc, 0x6b, 0x78, 0x96, 0xf4, 0x73, 0x93, 0x12, 0x38,
      0x7e, 0x8c, 0x5a, 0xe2, 0x21, 0x79, 0xf6, 0xa0, 0x00], [0x26, 0x01, 0x20, 0x51, 0xe0, 0xcf, 0x80, 0xc6, 0xc8, 0xa6,
      0x16, 0xf8, 0x67, 0xa1, 0xe0, 0x3f, 0xfc, 0x4f, 0xa6, 0xed, 0x31, 0x28, 0x71, 0xad, 0x37, 0x34, 0x0b, 0x05, 0xc0,
      0x9c, 0xe8, 0xa5, 0xae, 0xa5, 0x9c, 0x5e, 0x77, 0x9a, 0x9a, 0x30, 0xbd, 0x39, 0xec, 0x9a, 0x3d, 0x1f, 0x0b, 0x8b,
      0x61, 0xcd], [0x26, 0x01, 0x20, 0xa1, 0xe0, 0xcf, 0x80, 0xed, 0xe2, 0xbd, 0x2e, 0x08, 0xd9, 0xff, 0xfe, 0x27, 0xd1,
      0xf9, 0x31, 0x26, 0xfb, 0xb0, 0x23, 0x32, 0x95, 0x63, 0x3d, 0x65, 0x30, 0xbf, 0xe0, 0x4b, 0x1b, 0xd2, 0xbf, 0x7f,
      0xff, 0xf7, 0xda, 0xf5, 0x1f, 0x52, 0xd0, 0x8c, 0x4f, 0x7c, 0xee, 0xff, 0x5b, 0x23]], 0),
    ([[0x02, 0x01, 0xd0, 0xfe, 0x60, 0xd7, 0x80, 0xb5, 0xea, 0xcb, 0xfa, 0x8c, 0x35, 0xde, 0xab, 0x60, 0x5f, 0xe6, 0x8c,
      0x87, 0x3c, 0xba, 0x7f, 0xd5, 0x7b, 0x31, 0x11, 0x7f, 0xfa, 0x75, 0x3b, 0xa5, 0x4b, 0x96, 0xa1, 0xe3, 0xed, 0xb5,
      0x99, 0x2b, 0x79, 0xad, 0x33, 0xa4, 0xae, 0x4a, 0x1b, 0x85, 0x02, 0xf8], [0x02, 0x01, 0x40, 0xa2, 0x1f, 0xcc, 0x1a,
      0xf0, 0x90, 0x80, 0x18, 0x17, 0x0a, 0xbe, 0xc8, 0xf9, 0xd3, 0x7a, 0x2f, 0x90, 0x6e, 0xa3, 0x59, 0x1d, 0x4e, 0xb1,
      0x4b, 0xf0, 0x3f, 0xfa, 0x43, 0x7b, 0x75, 0xaf, 0xcf, 0xfb, 0x84, 0x50, 0x22, 0x2f, 0x5d, 0x72, 0x7b, 0x0a, 0x75,
      0xe2, 0xac, 0xdf, 0xe5, 0xc1], [0x02, 0x01, 0x41, 0x42, 0x1f, 0xcc, 0x1a, 0xf0, 0x83, 0x45, 0xf0, 0x5f, 0x2d, 0xf4,
      0xb2, 0x0c, 0x9a, 0xe8, 0x8d, 0x63, 0xd8, 0x34, 0x21, 0xcc, 0x73, 0x87, 0x66, 0x79, 0xe9, 0x8d, 0x6c, 0xe6, 0x9e,
      0x86, 0xd5, 0x1d, 0x2a, 0x63, 0x08, 0x0c, 0x0d, 0x0e, 0xa7, 0x21, 0xeb, 0x01, 0x62, 0x10, 0x4b, 0xf5]], 2996),
    ([[0x02, 0x01, 0xd1, 0x7e, 0x60, 0xd7, 0x80, 0xe7, 0x1c, 0x1b, 0x34, 0x6e, 0xf3, 0x46, 0x35, 0xb5, 0x64, 0x0b, 0x9c,
      0xff, 0x5b, 0x01, 0xd5, 0x35, 0x8f, 0x8b, 0x03, 0x5a, 0x1e, 0x6a, 0x24, 0xed, 0xd8, 0xaa, 0xd8, 0x27, 0x61, 0xb4,
      0xc8, 0xf5, 0x57, 0x02, 0x24, 0xc7, 0xfe, 0xe3, 0xe4, 0x04, 0x6c, 0xc7], [0x02, 0x01, 0x40, 0xa2, 0x2f, 0xcc, 0x1a,
      0xf0, 0xb5, 0xe7, 0x0b, 0x5f, 0x77, 0x9c, 0x69, 0x07, 0x09, 0xc2, 0xd3, 0x60, 0x0f, 0xf2, 0x8f, 0x7e, 0x23, 0x44,
      0xa6, 0x40, 0x47, 0x93, 0x99, 0x38, 0x8b, 0xef, 0x09, 0x0f, 0xc4, 0x0f, 0x82, 0x5f, 0x66, 0x5e, 0x45, 0xbe, 0x17,
      0xf3, 0x09, 0x82, 0x3b, 0x97], [0x02, 0x01, 0x41, 0x42, 0x2f, 0xcc, 0x1a, 0xf0, 0xe7, 0x4c, 0x89, 0xf2, 0x4b, 0xb1,
      0x73, 0x94, 0x13, 0xb9, 0x57, 0x11, 0xbd, 0xbf, 0xd8, 0x06, 0xe0, 0x4a, 0xc9, 0x41, 0x93, 0xfa, 0xa6, 0x19, 0xed,
      0x21, 0x98, 0x3e, 0xd5, 0x67, 0xec, 0xc7, 0xb9, 0x23, 0x9c, 0x5b, 0x4b, 0xea, 0x0c, 0x3f, 0x51, 0x91]], 5992)] =
    [.ok (-9000), .ok 2996, .ok 5992] := by
  decide +kernel

end Verif.Props.Samples
