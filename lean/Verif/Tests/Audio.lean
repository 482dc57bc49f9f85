import Verif.Model.AudioHeaders
import Verif.Model.FlacOpus
import Verif.Model.ADTS
import Verif.Model.MPEG4Config
import Verif.Model.PCE
import Verif.Model.G711

/-!
# Test vectors of the audio codecs

The tables of the unit tests of the repository, evaluated in the model. These are tests, not
proofs: they show that the model and the Go code agree on the inputs whose results the authors of
the Go code wrote down.
-/

namespace Verif.Tests

/-! `pkg/codecs/ac3/*_test.go` -/

/-- 1 ch -/
def audio1 : Bytes :=
  [11, 119, 71, 17, 12, 64, 47, 132, 43, 193, 7, 122, 176, 250, 187, 234, 239, 159, 87, 124, 249,
   243, 247, 207, 159, 62, 50, 254, 213, 193, 80, 222, 197, 30, 115, 210, 108, 166, 148, 70, 78,
   146, 140, 15, 185, 207, 173, 7, 84, 74, 46, 243, 125, 7, 46, 164, 47, 186, 191, 57, 181, 201,
   146, 166, 225, 180, 112, 197, 196, 181, 230, 93, 15, 168, 113, 164, 204, 197, 188, 117, 103,
   146, 82, 79, 126, 98, 28, 169, 217, 181, 25, 106, 215, 176, 68, 146, 48, 59, 247, 97, 214, 73,
   150, 102, 152, 40, 26, 149, 169, 66, 173, 183, 80, 144, 173, 28, 52, 128, 226, 239, 205, 65,
   11, 240, 157, 87, 98, 120, 253, 198, 194, 25, 158, 38, 49, 202, 30, 117, 177, 122, 142, 181,
   81, 58, 254, 228, 241, 11, 79, 20, 144, 219, 159, 68, 80, 187, 239, 116, 0, 140, 31, 151, 161,
   162, 250, 114, 22, 71, 198, 192, 229, 254, 103, 3, 156, 254, 98, 1, 161, 0, 93, 255, 165, 3,
   89, 250, 168, 37, 95, 107, 131, 81, 242, 192, 68, 255, 45, 5, 75, 238, 224, 84, 158, 174, 134,
   69, 243, 189, 14, 66, 242, 191, 15, 127, 198, 9, 7, 220, 34, 17, 119, 190, 49, 39, 91, 164,
   19, 71, 7, 50, 159, 31, 203, 176, 223, 62, 125, 13, 243, 231, 207, 159, 62, 174, 249, 243,
   231, 207, 159, 62, 133, 93, 243, 231, 207, 159, 62, 124, 249, 243, 231, 207, 159, 63, 83, 93,
   243, 231, 207, 159, 62, 124, 249, 243, 231, 207, 159, 62, 124, 249, 243, 231, 207, 159, 62,
   124, 249, 243, 231, 207, 159, 62, 0, 70, 40, 38, 32, 74, 90, 192, 138, 197, 174, 160, 85, 120,
   130, 122, 56, 16, 9, 201, 184, 12, 250, 91, 201, 210, 236, 68, 37, 248, 32, 242, 200, 138,
   233, 64, 24, 6, 198, 43, 200, 237, 143, 51, 9, 146, 40, 30, 196, 36, 216, 51, 165, 0, 245,
   234, 24, 250, 144, 151, 151, 232, 57, 106, 207, 241, 221, 255, 158, 142, 4, 2, 174, 101, 135,
   92, 78, 114, 253, 60, 1, 134, 254, 86, 89, 116, 68, 58, 64, 0, 236, 252]

#guard AC3.SyncInfo.unmarshal audio1 = .ok ({
      fscod := 0, frmsizecod := 12 } : Verif.AC3.SyncInfo)
#guard (AC3.SyncInfo.unmarshal audio1 >>= fun s => s.frameSize) = .ok audio1.length
#guard AC3.SyncInfo.sampleRate ({
      fscod := 0, frmsizecod := 12 } : Verif.AC3.SyncInfo) = 48000
#guard AC3.BSI.unmarshal (audio1.drop 5) = .ok ({
      bsid := 8, bsmod := 0, acmod := 1, lfeOn := false } : Verif.AC3.BSI)

/-- 6 ch -/
def audio2 : Bytes :=
  [11, 119, 26, 1, 30, 64, 235, 248, 64, 62, 255, 153, 197, 152, 179, 22, 98, 204, 89, 255, 250,
   215, 174, 249, 7, 122, 176, 250, 187, 234, 239, 159, 87, 124, 249, 243, 247, 194, 14, 245, 97,
   245, 119, 213, 223, 62, 174, 249, 243, 231, 239, 132, 29, 234, 195, 234, 239, 171, 190, 125,
   93, 243, 231, 207, 223, 8, 59, 213, 135, 213, 223, 87, 124, 250, 187, 231, 207, 159, 190, 16,
   119, 171, 15, 171, 190, 174, 249, 245, 119, 207, 159, 63, 124, 35, 196, 249, 127, 102, 165,
   74, 149, 42, 84, 169, 0, 84, 55, 177, 78, 115, 201, 179, 105, 69, 147, 162, 140, 62, 231, 250,
   208, 117, 68, 162, 239, 55, 208, 114, 234, 66, 251, 173, 206, 109, 114, 101, 83, 225, 168,
   225, 139, 137, 107, 204, 180, 62, 161, 198, 166, 140, 87, 141, 91, 202, 82, 79, 126, 98, 28,
   169, 217, 181, 25, 106, 215, 176, 68, 146, 48, 59, 247, 99, 185, 44, 182, 115, 10, 13, 69,
   162, 138, 189, 197, 2, 27, 78, 36, 129, 203, 206, 116, 17, 124, 46, 183, 101, 36, 110, 108,
   70, 103, 137, 140, 114, 135, 157, 112, 202, 157, 85, 10, 175, 221, 56, 139, 94, 82, 135, 187,
   233, 16, 91, 254, 208, 4, 195, 241, 232, 104, 190, 156, 133, 145, 241, 176, 57, 127, 153, 130,
   157, 253, 136, 10, 0, 23, 127, 166, 5, 103, 234, 160, 149, 125, 174, 13, 71, 203, 1, 19, 252,
   180, 21, 47, 187, 129, 82, 122, 186, 25, 23, 171, 193, 208, 249, 192, 29, 254, 33, 33, 254,
   34, 33, 237, 227, 37, 221, 228, 38, 163, 42, 50, 163, 52, 224, 38, 114, 88, 64, 149, 13, 236,
   83, 156, 242, 108, 218, 81, 100, 232, 163, 15, 185, 254, 180, 29, 81, 40, 187, 205, 244, 28,
   186, 144, 190, 235, 115, 155, 92, 153, 84, 248, 106, 56, 98, 226, 90, 243, 45, 15, 168, 113,
   169, 163, 21, 227, 86, 242, 148, 147, 223, 152, 135, 42, 118, 109, 70, 90, 181, 236, 17, 36,
   140, 14, 253, 216, 238, 75, 45, 156, 194, 131, 81, 104, 162, 175, 113, 64, 134, 211, 137, 32,
   114, 243, 157, 4, 95, 11, 173, 217, 73, 27, 155, 17, 153, 226, 99, 28, 161, 231, 92, 50, 167,
   85, 66, 171, 247, 78, 34, 215, 148, 161, 238, 250, 68, 22, 255, 180, 1, 48, 252, 122, 26, 47,
   167, 33, 100, 124, 108, 14, 95, 230, 96, 167, 127, 98, 2, 128, 5, 223, 233, 129, 89, 250, 168,
   37, 95, 107, 131, 81, 242, 192, 68, 255, 45, 5, 75, 238, 224, 84, 158, 174, 134, 69, 234, 240,
   116, 62, 112, 7, 127, 136, 72, 127, 136, 136, 123, 120, 201, 119, 121, 9, 84, 55, 177, 78,
   115, 201, 179, 105, 69, 147, 162, 140, 62, 231, 250, 208, 117, 68, 162, 239, 55, 208, 114,
   234, 66, 251, 173, 206, 109, 114, 101, 83, 225, 168, 225, 139, 137, 107, 204, 180, 62, 161,
   198, 166, 140, 87, 141, 91, 202, 82, 79, 126, 98, 28, 169, 217, 181, 25, 106, 215, 176, 68,
   146, 48, 59, 247, 99, 185, 44, 182, 115, 10, 13, 69, 162, 138, 189, 197, 2, 27, 78, 36, 129,
   203, 206, 116, 17, 124, 46, 183, 101, 36, 110, 108, 70, 103, 137, 140, 114, 135, 157, 112,
   202, 157, 85, 10, 175, 221, 56, 139, 94, 82, 135, 187, 233, 16, 91, 254, 208, 4, 195, 241,
   232, 104, 190, 156, 133, 145, 241, 176, 57, 127, 153, 130, 157, 253, 136, 10, 0, 23, 127, 166,
   5, 103, 234, 160, 149, 125, 174, 13, 71, 203, 1, 19, 252, 180, 21, 47, 187, 129, 82, 122, 186,
   25, 23, 171, 193, 208, 249, 192, 29, 254, 33, 33, 254, 34, 33, 237, 227, 37, 221, 228, 37, 80,
   222, 197, 57, 207, 38, 205, 165, 22, 78, 138, 48, 251, 159, 235, 65, 213, 18, 139, 188, 223,
   65, 203, 169, 11, 238, 183, 57, 181, 201, 149, 79, 134, 163, 134, 46, 37, 175, 50, 208, 250,
   135, 26, 154, 49, 94, 53, 111, 41, 73, 61, 249, 136, 114, 167, 102, 212, 101, 171, 94, 193,
   18, 72, 192, 239, 221, 142, 228, 178, 217, 204, 40, 53, 22, 138, 42, 247, 20, 8, 109, 56, 146,
   7, 47, 57, 208, 69, 240, 186, 221, 148, 145, 185, 177, 25, 158, 38, 49, 202, 30, 117, 195, 42,
   117, 84, 42, 191, 116, 226, 45, 121, 74, 30, 239, 164, 65, 111, 251, 64, 19, 15, 199, 161,
   162, 250, 114, 22, 71, 198, 192, 229, 254, 102, 10, 119, 246, 32, 40, 0, 93, 254, 152, 21,
   159, 170, 130, 85, 246, 184, 53, 31, 44, 4, 79, 242, 208, 84, 190, 238, 5, 73, 234, 232, 100,
   94, 175, 7, 67, 231, 0, 119, 248, 132, 135, 248, 136, 135, 183, 140, 151, 119, 144, 149, 67,
   123, 20, 231, 60, 155, 54, 148, 89, 58, 40, 195, 238, 127, 173, 7, 84, 74, 46, 243, 125, 7,
   46, 164, 47, 186, 220, 230, 215, 38, 85, 62, 26, 142, 24, 184, 150, 188, 203, 67, 234, 28,
   106, 104, 197, 120, 213, 188, 165, 36, 247, 230, 33, 202, 157, 155, 81, 150, 173, 123, 4, 73,
   35, 3, 191, 118, 59, 146, 203, 103, 48, 160, 212, 90, 40, 171, 220, 80, 33, 180, 226, 72, 28,
   188, 231, 65, 23, 194, 235, 118, 82, 70, 230, 196, 102, 120, 152, 199, 40, 121, 215, 12, 169,
   213, 80, 170, 253, 211, 136, 181, 229, 40, 123, 190, 145, 5, 191, 237, 0, 76, 63, 30, 134,
   139, 233, 200, 89, 31, 27, 3, 151, 249, 152, 41, 223, 216, 128, 160, 1, 119, 250, 96, 86, 126,
   170, 9, 87, 218, 224, 212, 124, 176, 17, 63, 203, 65, 82, 251, 184, 21, 39, 171, 161, 145,
   122, 188, 29, 15, 156, 1, 223, 226, 18, 31, 226, 34, 30, 222, 50, 93, 222, 66, 85, 21, 138,
   156, 244, 155, 51, 74, 12, 157, 81, 128, 124, 4, 170, 169, 243, 231, 207, 159, 62, 115, 41,
   241, 252, 187, 13, 243, 231, 208, 223, 62, 124, 249, 243, 234, 239, 159, 62, 124, 249, 243,
   232, 85, 223, 62, 124, 249, 243, 231, 207, 159, 62, 124, 249, 243, 245, 53, 223, 62, 124, 249,
   243, 231, 207, 159, 62, 124, 249, 243, 231, 207, 159, 62, 28, 202, 124, 127, 46, 195, 124,
   249, 244, 55, 207, 159, 62, 124, 250, 187, 231, 207, 159, 62, 124, 250, 21, 119, 207, 159, 62,
   124, 249, 243, 231, 207, 159, 62, 124, 253, 77, 119, 207, 159, 62, 124, 249, 243, 231, 207,
   159, 62, 124, 249, 243, 231, 207, 135, 50, 159, 31, 203, 176, 223, 62, 125, 13, 243, 231, 207,
   159, 62, 174, 249, 243, 231, 207, 159, 62, 133, 93, 243, 231, 207, 159, 62, 124, 249, 243,
   231, 207, 159, 63, 83, 93, 243, 231, 207, 159, 62, 124, 249, 243, 231, 207, 159, 62, 124, 249,
   243, 225, 204, 167, 199, 242, 236, 55, 207, 159, 67, 124, 249, 243, 231, 207, 171, 190, 124,
   249, 243, 231, 207, 161, 87, 124, 249, 243, 231, 207, 159, 62, 124, 249, 243, 231, 207, 212,
   215, 124, 249, 243, 231, 207, 159, 62, 124, 249, 243, 231, 207, 159, 62, 124, 248, 115, 41,
   241, 252, 187, 13, 243, 231, 208, 223, 62, 124, 249, 243, 234, 239, 159, 62, 124, 249, 243,
   232, 85, 223, 62, 124, 249, 243, 231, 207, 159, 62, 124, 249, 243, 245, 53, 223, 62, 124, 249,
   243, 231, 207, 159, 62, 124, 249, 243, 231, 207, 159, 62, 0, 35, 40, 38, 32, 74, 90, 194, 43,
   90, 234, 5, 87, 136, 39, 71, 128, 17, 148, 19, 16, 37, 45, 97, 21, 173, 117, 2, 171, 196, 19,
   160, 140, 160, 152, 129, 41, 107, 8, 173, 107, 168, 21, 94, 32, 157, 30, 8, 202, 9, 136, 18,
   150, 176, 138, 214, 186, 129, 85, 226, 9, 208, 2, 50, 130, 98, 4, 165, 172, 34, 181, 174, 160,
   85, 120, 130, 116, 110, 4, 133, 8, 129, 41, 107, 8, 173, 107, 168, 21, 3, 224, 0, 0, 9, 203,
   112, 25, 244, 183, 148, 151, 96, 132, 191, 4, 30, 89, 2, 188, 108, 229, 184, 12, 250, 91, 202,
   75, 176, 66, 95, 130, 15, 44, 129, 103, 45, 192, 103, 210, 222, 82, 93, 130, 18, 252, 16, 121,
   100, 10, 242, 114, 220, 6, 125, 45, 229, 37, 216, 33, 47, 193, 7, 150, 64, 172, 156, 183, 1,
   159, 75, 121, 73, 118, 8, 75, 240, 65, 229, 144, 43, 127, 59, 238, 39, 210, 222, 82, 93, 130,
   18, 252, 16, 31, 1, 128, 10, 174, 249, 240, 24, 13, 140, 87, 145, 219, 29, 152, 82, 69, 3,
   216, 132, 155, 12, 241, 172, 6, 198, 43, 200, 237, 142, 204, 41, 34, 129, 236, 66, 77, 134,
   96, 54, 49, 94, 71, 108, 118, 97, 73, 20, 15, 98, 18, 108, 51, 198, 3, 99, 21, 228, 118, 199,
   102, 20, 145, 64, 246, 33, 38, 195, 49, 128, 216, 197, 121, 29, 177, 217, 133, 36, 80, 61,
   136, 73, 176, 205, 195, 7, 178, 94, 71, 108, 118, 97, 73, 20, 15, 96, 124, 4, 0, 41, 243, 231,
   207, 159, 62, 7, 174, 161, 143, 169, 9, 121, 250, 15, 106, 207, 241, 221, 255, 173, 30, 3,
   215, 80, 199, 212, 132, 188, 253, 7, 181, 103, 248, 238, 255, 214, 158, 186, 134, 62, 164, 37,
   231, 232, 61, 171, 63, 199, 119, 254, 180, 121, 235, 168, 99, 234, 66, 94, 126, 131, 218, 179,
   252, 119, 127, 235, 64, 122, 234, 24, 250, 144, 151, 159, 160, 246, 172, 255, 29, 223, 250,
   209, 191, 246, 20, 94, 164, 37, 231, 232, 61, 171, 63, 198, 15, 128, 0, 0, 42, 236, 176, 235,
   137, 206, 98, 158, 3, 13, 252, 172, 178, 232, 144, 241, 181, 118, 88, 117, 196, 231, 49, 79,
   1, 134, 254, 86, 89, 116, 72, 171, 178, 195, 174, 39, 57, 138, 120, 12, 55, 242, 178, 203,
   162, 67, 202, 187, 44, 58, 226, 115, 152, 167, 128, 195, 127, 43, 44, 186, 36, 50, 174, 203,
   14, 184, 156, 230, 41, 224, 48, 223, 202, 203, 46, 137, 13, 253, 103, 150, 174, 39, 57, 138,
   120, 12, 55, 242, 176, 0, 0, 0, 0, 0, 228, 162]

#guard AC3.SyncInfo.unmarshal audio2 = .ok ({
      fscod := 0, frmsizecod := 30 } : Verif.AC3.SyncInfo)
#guard (AC3.SyncInfo.unmarshal audio2 >>= fun s => s.frameSize) = .ok audio2.length
#guard AC3.SyncInfo.sampleRate ({
      fscod := 0, frmsizecod := 30 } : Verif.AC3.SyncInfo) = 48000
#guard AC3.BSI.unmarshal (audio2.drop 5) = .ok ({
      bsid := 8, bsmod := 0, acmod := 7, lfeOn := true } : Verif.AC3.BSI)

/-! `pkg/codecs/eac3/sync_info_test.go` -/

/-- fscod 0 -/
def audio3 : Bytes :=
  [11, 119, 1, 255, 63, 128, 0, 0]

#guard EAC3.SyncInfo.unmarshal audio3 = .ok ({
      strmtyp := 0, substreamid := 0, frmsiz := 511, fscod := 0, fscod2 := 0, numblkscod := 3,
      acmod := 7, lfeon := true, bsid := 16 } : Verif.EAC3.SyncInfo)
#guard EAC3.SyncInfo.frameSize ({
      strmtyp := 0, substreamid := 0, frmsiz := 511, fscod := 0, fscod2 := 0, numblkscod := 3,
      acmod := 7, lfeon := true, bsid := 16 } : Verif.EAC3.SyncInfo) = 1024
#guard EAC3.SyncInfo.sampleRate ({
      strmtyp := 0, substreamid := 0, frmsiz := 511, fscod := 0, fscod2 := 0, numblkscod := 3,
      acmod := 7, lfeon := true, bsid := 16 } : Verif.EAC3.SyncInfo) = .ok 48000
#guard EAC3.SyncInfo.channelCount ({
      strmtyp := 0, substreamid := 0, frmsiz := 511, fscod := 0, fscod2 := 0, numblkscod := 3,
      acmod := 7, lfeon := true, bsid := 16 } : Verif.EAC3.SyncInfo) = 6
#guard EAC3.SyncInfo.numBlocks ({
      strmtyp := 0, substreamid := 0, frmsiz := 511, fscod := 0, fscod2 := 0, numblkscod := 3,
      acmod := 7, lfeon := true, bsid := 16 } : Verif.EAC3.SyncInfo) = 6

/-- fscod 2 -/
def audio4 : Bytes :=
  [11, 119, 1, 255, 196, 128, 0, 0]

#guard EAC3.SyncInfo.unmarshal audio4 = .ok ({
      strmtyp := 0, substreamid := 0, frmsiz := 511, fscod := 3, fscod2 := 0, numblkscod := 3,
      acmod := 2, lfeon := false, bsid := 16 } : Verif.EAC3.SyncInfo)
#guard EAC3.SyncInfo.frameSize ({
      strmtyp := 0, substreamid := 0, frmsiz := 511, fscod := 3, fscod2 := 0, numblkscod := 3,
      acmod := 2, lfeon := false, bsid := 16 } : Verif.EAC3.SyncInfo) = 1024
#guard EAC3.SyncInfo.sampleRate ({
      strmtyp := 0, substreamid := 0, frmsiz := 511, fscod := 3, fscod2 := 0, numblkscod := 3,
      acmod := 2, lfeon := false, bsid := 16 } : Verif.EAC3.SyncInfo) = .ok 24000
#guard EAC3.SyncInfo.channelCount ({
      strmtyp := 0, substreamid := 0, frmsiz := 511, fscod := 3, fscod2 := 0, numblkscod := 3,
      acmod := 2, lfeon := false, bsid := 16 } : Verif.EAC3.SyncInfo) = 2
#guard EAC3.SyncInfo.numBlocks ({
      strmtyp := 0, substreamid := 0, frmsiz := 511, fscod := 3, fscod2 := 0, numblkscod := 3,
      acmod := 2, lfeon := false, bsid := 16 } : Verif.EAC3.SyncInfo) = 6

/-! `pkg/codecs/flac/stream_info_test.go` -/

/-- stereo 44.1kHz 16-bit -/
def audio5 : Bytes :=
  [16, 0, 16, 0, 0, 0, 0, 0, 0, 0, 10, 196, 66, 240, 0, 0, 0, 0, 0, 0, 0, 0, 0, 0, 0, 0, 0, 0, 0,
   0, 0, 0, 0, 0]

#guard Flac.unmarshal audio5 = .ok ({
      minBlockSize := 4096, maxBlockSize := 4096, minFrameSize := 0, maxFrameSize := 0,
      sampleRate := 44100, channelCount := 2, bitDepth := 16, totalSamples := 0, md5 := [0, 0, 0,
      0, 0, 0, 0, 0, 0, 0, 0, 0, 0, 0, 0, 0] } : Verif.Flac.StreamInfo)
#guard Flac.marshal ({
      minBlockSize := 4096, maxBlockSize := 4096, minFrameSize := 0, maxFrameSize := 0,
      sampleRate := 44100, channelCount := 2, bitDepth := 16, totalSamples := 0, md5 := [0, 0, 0,
      0, 0, 0, 0, 0, 0, 0, 0, 0, 0, 0, 0, 0] } : Verif.Flac.StreamInfo) = audio5

/-- 5.1 surround 96kHz 24-bit with samples and MD5 -/
def audio6 : Bytes :=
  [1, 0, 255, 255, 0, 0, 100, 0, 195, 80, 23, 112, 11, 112, 0, 15, 66, 64, 1, 2, 3, 4, 5, 6, 7,
   8, 9, 10, 11, 12, 13, 14, 15, 16]

#guard Flac.unmarshal audio6 = .ok ({
      minBlockSize := 256, maxBlockSize := 65535, minFrameSize := 100, maxFrameSize := 50000,
      sampleRate := 96000, channelCount := 6, bitDepth := 24, totalSamples := 1000000, md5 := [1,
      2, 3, 4, 5, 6, 7, 8, 9, 10, 11, 12, 13, 14, 15, 16] } : Verif.Flac.StreamInfo)
#guard Flac.marshal ({
      minBlockSize := 256, maxBlockSize := 65535, minFrameSize := 100, maxFrameSize := 50000,
      sampleRate := 96000, channelCount := 6, bitDepth := 24, totalSamples := 1000000, md5 := [1,
      2, 3, 4, 5, 6, 7, 8, 9, 10, 11, 12, 13, 14, 15, 16] } : Verif.Flac.StreamInfo) = audio6

/-- mono 48kHz 32-bit large TotalSamples -/
def audio7 : Bytes :=
  [0, 16, 16, 0, 0, 4, 0, 2, 0, 0, 11, 184, 1, 241, 0, 0, 0, 0, 0, 0, 0, 0, 0, 0, 0, 0, 0, 0, 0,
   0, 0, 0, 0, 0]

#guard Flac.unmarshal audio7 = .ok ({
      minBlockSize := 16, maxBlockSize := 4096, minFrameSize := 1024, maxFrameSize := 131072,
      sampleRate := 48000, channelCount := 1, bitDepth := 32, totalSamples := 4294967296,
      md5 := [0, 0, 0, 0, 0, 0, 0, 0, 0, 0, 0, 0, 0, 0, 0, 0] } : Verif.Flac.StreamInfo)
#guard Flac.marshal ({
      minBlockSize := 16, maxBlockSize := 4096, minFrameSize := 1024, maxFrameSize := 131072,
      sampleRate := 48000, channelCount := 1, bitDepth := 32, totalSamples := 4294967296,
      md5 := [0, 0, 0, 0, 0, 0, 0, 0, 0, 0, 0, 0, 0, 0, 0, 0] } : Verif.Flac.StreamInfo) = audio7

/-! `pkg/codecs/g711/*_test.go` -/

-- alaw_test.go, mulaw_test.go
#guard G711.unmarshal G711.alawDecode [1, 2, 3, 255, 254, 253] = [0xeb, 0x80, 0xe8, 0x80, 0xe9,
   0x80, 0x03, 0x50, 0x03, 0x70, 0x03, 0x10]
#guard G711.unmarshal G711.mulawDecode [1, 2, 3, 255, 254, 253] = [0x86, 0x84, 0x8a, 0x84, 0x8e,
   0x84, 0x00, 0x00, 0x00, 0x08, 0x00, 0x10]
#guard G711.marshal G711.alawEncode [1, 2, 3, 4, 5, 6] = .ok [0xc5, 0xfd, 0xe1]
#guard G711.marshal G711.mulawEncode [1, 2, 3, 4, 5, 6] = .ok [0xe7, 0xd3, 0xc9]

/-! `pkg/codecs/mpeg1audio/frame_header_test.go` -/

/-- mpeg-1 layer 2 32k -/
def audio9 : Bytes :=
  [255, 253, 72, 0, 0]

#guard MPEG1Audio.FrameHeader.unmarshal audio9 = .ok ({
      mpeg2 := false, layer := 2, bitrate := 64000, sampleRate := 32000, padding := false,
      channelMode := 0 } : Verif.MPEG1Audio.FrameHeader)
#guard MPEG1Audio.FrameHeader.frameLen ({
      mpeg2 := false, layer := 2, bitrate := 64000, sampleRate := 32000, padding := false,
      channelMode := 0 } : Verif.MPEG1Audio.FrameHeader) = .ok 288
#guard MPEG1Audio.FrameHeader.sampleCount ({
      mpeg2 := false, layer := 2, bitrate := 64000, sampleRate := 32000, padding := false,
      channelMode := 0 } : Verif.MPEG1Audio.FrameHeader) = .ok 1152

/-- mpeg-1 layer 3 32k -/
def audio10 : Bytes :=
  [255, 251, 24, 100, 0]

#guard MPEG1Audio.FrameHeader.unmarshal audio10 = .ok ({
      mpeg2 := false, layer := 3, bitrate := 32000, sampleRate := 32000, padding := false,
      channelMode := 1 } : Verif.MPEG1Audio.FrameHeader)
#guard MPEG1Audio.FrameHeader.frameLen ({
      mpeg2 := false, layer := 3, bitrate := 32000, sampleRate := 32000, padding := false,
      channelMode := 1 } : Verif.MPEG1Audio.FrameHeader) = .ok 144
#guard MPEG1Audio.FrameHeader.sampleCount ({
      mpeg2 := false, layer := 3, bitrate := 32000, sampleRate := 32000, padding := false,
      channelMode := 1 } : Verif.MPEG1Audio.FrameHeader) = .ok 1152

/-- mpeg-1 layer 3 32k mono -/
def audio11 : Bytes :=
  [255, 251, 104, 196, 0]

#guard MPEG1Audio.FrameHeader.unmarshal audio11 = .ok ({
      mpeg2 := false, layer := 3, bitrate := 80000, sampleRate := 32000, padding := false,
      channelMode := 3 } : Verif.MPEG1Audio.FrameHeader)
#guard MPEG1Audio.FrameHeader.frameLen ({
      mpeg2 := false, layer := 3, bitrate := 80000, sampleRate := 32000, padding := false,
      channelMode := 3 } : Verif.MPEG1Audio.FrameHeader) = .ok 360
#guard MPEG1Audio.FrameHeader.sampleCount ({
      mpeg2 := false, layer := 3, bitrate := 80000, sampleRate := 32000, padding := false,
      channelMode := 3 } : Verif.MPEG1Audio.FrameHeader) = .ok 1152

/-- mpeg-1 layer 3 44.1k -/
def audio12 : Bytes :=
  [255, 250, 82, 4, 0]

#guard MPEG1Audio.FrameHeader.unmarshal audio12 = .ok ({
      mpeg2 := false, layer := 3, bitrate := 64000, sampleRate := 44100, padding := true,
      channelMode := 0 } : Verif.MPEG1Audio.FrameHeader)
#guard MPEG1Audio.FrameHeader.frameLen ({
      mpeg2 := false, layer := 3, bitrate := 64000, sampleRate := 44100, padding := true,
      channelMode := 0 } : Verif.MPEG1Audio.FrameHeader) = .ok 209
#guard MPEG1Audio.FrameHeader.sampleCount ({
      mpeg2 := false, layer := 3, bitrate := 64000, sampleRate := 44100, padding := true,
      channelMode := 0 } : Verif.MPEG1Audio.FrameHeader) = .ok 1152

/-- mpeg-1 layer 3 48k -/
def audio13 : Bytes :=
  [255, 251, 20, 100, 0]

#guard MPEG1Audio.FrameHeader.unmarshal audio13 = .ok ({
      mpeg2 := false, layer := 3, bitrate := 32000, sampleRate := 48000, padding := false,
      channelMode := 1 } : Verif.MPEG1Audio.FrameHeader)
#guard MPEG1Audio.FrameHeader.frameLen ({
      mpeg2 := false, layer := 3, bitrate := 32000, sampleRate := 48000, padding := false,
      channelMode := 1 } : Verif.MPEG1Audio.FrameHeader) = .ok 96
#guard MPEG1Audio.FrameHeader.sampleCount ({
      mpeg2 := false, layer := 3, bitrate := 32000, sampleRate := 48000, padding := false,
      channelMode := 1 } : Verif.MPEG1Audio.FrameHeader) = .ok 1152

/-- mpeg-2 layer 2 16khz -/
def audio14 : Bytes :=
  [255, 245, 136, 4, 0]

#guard MPEG1Audio.FrameHeader.unmarshal audio14 = .ok ({
      mpeg2 := true, layer := 2, bitrate := 64000, sampleRate := 16000, padding := false,
      channelMode := 0 } : Verif.MPEG1Audio.FrameHeader)
#guard MPEG1Audio.FrameHeader.frameLen ({
      mpeg2 := true, layer := 2, bitrate := 64000, sampleRate := 16000, padding := false,
      channelMode := 0 } : Verif.MPEG1Audio.FrameHeader) = .ok 576
#guard MPEG1Audio.FrameHeader.sampleCount ({
      mpeg2 := true, layer := 2, bitrate := 64000, sampleRate := 16000, padding := false,
      channelMode := 0 } : Verif.MPEG1Audio.FrameHeader) = .ok 1152

/-! `pkg/codecs/mpeg4audio/*_test.go` -/

/-- ADTS: single -/
def audio15 : Bytes :=
  [255, 241, 76, 128, 1, 63, 252, 170, 187]

#guard MPEG4Audio.ADTSPackets.unmarshal audio15 = .ok [({
      type := 2, sampleRate := 48000, channelConfig := 2, channelCount := 2, au := [170, 187]
    } : Verif.MPEG4Audio.ADTSPacket)]
#guard MPEG4Audio.ADTSPackets.marshal [({
      type := 2, sampleRate := 48000, channelConfig := 2, channelCount := 2, au := [170, 187]
    } : Verif.MPEG4Audio.ADTSPacket)] = .ok audio15

/-- ADTS: multiple -/
def audio16 : Bytes :=
  [255, 241, 80, 64, 1, 63, 252, 170, 187, 255, 241, 76, 128, 1, 63, 252, 204, 221]

#guard MPEG4Audio.ADTSPackets.unmarshal audio16 = .ok [({
      type := 2, sampleRate := 44100, channelConfig := 1, channelCount := 1, au := [170, 187]
    } : Verif.MPEG4Audio.ADTSPacket), ({
      type := 2, sampleRate := 48000, channelConfig := 2, channelCount := 2, au := [204, 221]
    } : Verif.MPEG4Audio.ADTSPacket)]
#guard MPEG4Audio.ADTSPackets.marshal [({
      type := 2, sampleRate := 44100, channelConfig := 1, channelCount := 1, au := [170, 187]
    } : Verif.MPEG4Audio.ADTSPacket), ({
      type := 2, sampleRate := 48000, channelConfig := 2, channelCount := 2, au := [204, 221]
    } : Verif.MPEG4Audio.ADTSPacket)] = .ok audio16

/-- ADTS: aac-ssr -/
def audio17 : Bytes :=
  [255, 241, 140, 128, 1, 63, 252, 170, 187]

#guard MPEG4Audio.ADTSPackets.unmarshal audio17 = .ok [({
      type := 3, sampleRate := 48000, channelConfig := 2, channelCount := 2, au := [170, 187]
    } : Verif.MPEG4Audio.ADTSPacket)]
#guard MPEG4Audio.ADTSPackets.marshal [({
      type := 3, sampleRate := 48000, channelConfig := 2, channelCount := 2, au := [170, 187]
    } : Verif.MPEG4Audio.ADTSPacket)] = .ok audio17

/-- ADTS: channel_config_0_cpe -/
def audio18 : Bytes :=
  [255, 241, 76, 0, 1, 127, 252, 32, 0, 0, 0]

#guard MPEG4Audio.ADTSPackets.unmarshal audio18 = .ok [({
      type := 2, sampleRate := 48000, channelConfig := 0, channelCount := 0, au := [32, 0, 0, 0]
    } : Verif.MPEG4Audio.ADTSPacket)]
#guard MPEG4Audio.ADTSPackets.marshal [({
      type := 2, sampleRate := 48000, channelConfig := 0, channelCount := 0, au := [32, 0, 0, 0]
    } : Verif.MPEG4Audio.ADTSPacket)] = .ok audio18

/-- ADTS: channel_config_0_sce -/
def audio19 : Bytes :=
  [255, 241, 76, 0, 1, 127, 252, 0, 0, 0, 0]

#guard MPEG4Audio.ADTSPackets.unmarshal audio19 = .ok [({
      type := 2, sampleRate := 48000, channelConfig := 0, channelCount := 0, au := [0, 0, 0, 0]
    } : Verif.MPEG4Audio.ADTSPacket)]
#guard MPEG4Audio.ADTSPackets.marshal [({
      type := 2, sampleRate := 48000, channelConfig := 0, channelCount := 0, au := [0, 0, 0, 0]
    } : Verif.MPEG4Audio.ADTSPacket)] = .ok audio19

/-- ADTS: channel_config_0_lfe -/
def audio20 : Bytes :=
  [255, 241, 76, 0, 1, 127, 252, 96, 0, 0, 0]

#guard MPEG4Audio.ADTSPackets.unmarshal audio20 = .ok [({
      type := 2, sampleRate := 48000, channelConfig := 0, channelCount := 0, au := [96, 0, 0, 0]
    } : Verif.MPEG4Audio.ADTSPacket)]
#guard MPEG4Audio.ADTSPackets.marshal [({
      type := 2, sampleRate := 48000, channelConfig := 0, channelCount := 0, au := [96, 0, 0, 0]
    } : Verif.MPEG4Audio.ADTSPacket)] = .ok audio20

/-- ADTS: channel_config_0_pce -/
def audio21 : Bytes :=
  [255, 241, 76, 0, 1, 191, 252, 160, 160, 128, 0, 4, 0]

#guard MPEG4Audio.ADTSPackets.unmarshal audio21 = .ok [({
      type := 2, sampleRate := 48000, channelConfig := 0, channelCount := 0, au := [160, 160,
      128, 0, 4, 0] } : Verif.MPEG4Audio.ADTSPacket)]
#guard MPEG4Audio.ADTSPackets.marshal [({
      type := 2, sampleRate := 48000, channelConfig := 0, channelCount := 0, au := [160, 160,
      128, 0, 4, 0] } : Verif.MPEG4Audio.ADTSPacket)] = .ok audio21

/-- StreamMuxConfig: lc -/
def audio22 : Bytes :=
  [64, 0, 38, 32, 63, 192]

#guard MPEG4Audio.StreamMuxConfig.unmarshal audio22 = .ok ({
      numSubFrames := 0, programs := [[({
         asc := (some ({
            type := 2, sampleRate := 24000, channelConfig := 2, channelCount := 2,
            extensionType := 0, extensionSampleRate := 0, frameLengthFlag := false,
            dependsOnCoreCoder := false, coreCoderDelay := 0 } : Verif.MPEG4Audio.ASC)),
         frameLengthType := 0, latmBufferFullness := 255, frameLength := 0, celpIndex := 0,
         hvxcIndex := false } : Verif.MPEG4Audio.Layer)]], otherDataPresent := false,
      otherDataLenBits := 0, crcCheckPresent := false, crcCheckSum := 0
    } : Verif.MPEG4Audio.StreamMuxConfig)
#guard MPEG4Audio.StreamMuxConfig.marshal ({
      numSubFrames := 0, programs := [[({
         asc := (some ({
            type := 2, sampleRate := 24000, channelConfig := 2, channelCount := 2,
            extensionType := 0, extensionSampleRate := 0, frameLengthFlag := false,
            dependsOnCoreCoder := false, coreCoderDelay := 0 } : Verif.MPEG4Audio.ASC)),
         frameLengthType := 0, latmBufferFullness := 255, frameLength := 0, celpIndex := 0,
         hvxcIndex := false } : Verif.MPEG4Audio.Layer)]], otherDataPresent := false,
      otherDataLenBits := 0, crcCheckPresent := false, crcCheckSum := 0
    } : Verif.MPEG4Audio.StreamMuxConfig) = .ok audio22

/-- StreamMuxConfig: he-aac -/
def audio23 : Bytes :=
  [64, 0, 38, 16, 63, 192]

#guard MPEG4Audio.StreamMuxConfig.unmarshal audio23 = .ok ({
      numSubFrames := 0, programs := [[({
         asc := (some ({
            type := 2, sampleRate := 24000, channelConfig := 1, channelCount := 1,
            extensionType := 0, extensionSampleRate := 0, frameLengthFlag := false,
            dependsOnCoreCoder := false, coreCoderDelay := 0 } : Verif.MPEG4Audio.ASC)),
         frameLengthType := 0, latmBufferFullness := 255, frameLength := 0, celpIndex := 0,
         hvxcIndex := false } : Verif.MPEG4Audio.Layer)]], otherDataPresent := false,
      otherDataLenBits := 0, crcCheckPresent := false, crcCheckSum := 0
    } : Verif.MPEG4Audio.StreamMuxConfig)
#guard MPEG4Audio.StreamMuxConfig.marshal ({
      numSubFrames := 0, programs := [[({
         asc := (some ({
            type := 2, sampleRate := 24000, channelConfig := 1, channelCount := 1,
            extensionType := 0, extensionSampleRate := 0, frameLengthFlag := false,
            dependsOnCoreCoder := false, coreCoderDelay := 0 } : Verif.MPEG4Audio.ASC)),
         frameLengthType := 0, latmBufferFullness := 255, frameLength := 0, celpIndex := 0,
         hvxcIndex := false } : Verif.MPEG4Audio.Layer)]], otherDataPresent := false,
      otherDataLenBits := 0, crcCheckPresent := false, crcCheckSum := 0
    } : Verif.MPEG4Audio.StreamMuxConfig) = .ok audio23

/-- StreamMuxConfig: sbr -/
def audio24 : Bytes :=
  [64, 0, 86, 35, 16, 31, 224]

#guard MPEG4Audio.StreamMuxConfig.unmarshal audio24 = .ok ({
      numSubFrames := 0, programs := [[({
         asc := (some ({
            type := 2, sampleRate := 24000, channelConfig := 2, channelCount := 2,
            extensionType := 5, extensionSampleRate := 48000, frameLengthFlag := false,
            dependsOnCoreCoder := false, coreCoderDelay := 0 } : Verif.MPEG4Audio.ASC)),
         frameLengthType := 0, latmBufferFullness := 255, frameLength := 0, celpIndex := 0,
         hvxcIndex := false } : Verif.MPEG4Audio.Layer)]], otherDataPresent := false,
      otherDataLenBits := 0, crcCheckPresent := false, crcCheckSum := 0
    } : Verif.MPEG4Audio.StreamMuxConfig)
#guard MPEG4Audio.StreamMuxConfig.marshal ({
      numSubFrames := 0, programs := [[({
         asc := (some ({
            type := 2, sampleRate := 24000, channelConfig := 2, channelCount := 2,
            extensionType := 5, extensionSampleRate := 48000, frameLengthFlag := false,
            dependsOnCoreCoder := false, coreCoderDelay := 0 } : Verif.MPEG4Audio.ASC)),
         frameLengthType := 0, latmBufferFullness := 255, frameLength := 0, celpIndex := 0,
         hvxcIndex := false } : Verif.MPEG4Audio.Layer)]], otherDataPresent := false,
      otherDataLenBits := 0, crcCheckPresent := false, crcCheckSum := 0
    } : Verif.MPEG4Audio.StreamMuxConfig) = .ok audio24

/-- StreamMuxConfig: ps -/
def audio25 : Bytes :=
  [64, 1, 214, 19, 16, 31, 224]

#guard MPEG4Audio.StreamMuxConfig.unmarshal audio25 = .ok ({
      numSubFrames := 0, programs := [[({
         asc := (some ({
            type := 2, sampleRate := 24000, channelConfig := 1, channelCount := 1,
            extensionType := 29, extensionSampleRate := 48000, frameLengthFlag := false,
            dependsOnCoreCoder := false, coreCoderDelay := 0 } : Verif.MPEG4Audio.ASC)),
         frameLengthType := 0, latmBufferFullness := 255, frameLength := 0, celpIndex := 0,
         hvxcIndex := false } : Verif.MPEG4Audio.Layer)]], otherDataPresent := false,
      otherDataLenBits := 0, crcCheckPresent := false, crcCheckSum := 0
    } : Verif.MPEG4Audio.StreamMuxConfig)
#guard MPEG4Audio.StreamMuxConfig.marshal ({
      numSubFrames := 0, programs := [[({
         asc := (some ({
            type := 2, sampleRate := 24000, channelConfig := 1, channelCount := 1,
            extensionType := 29, extensionSampleRate := 48000, frameLengthFlag := false,
            dependsOnCoreCoder := false, coreCoderDelay := 0 } : Verif.MPEG4Audio.ASC)),
         frameLengthType := 0, latmBufferFullness := 255, frameLength := 0, celpIndex := 0,
         hvxcIndex := false } : Verif.MPEG4Audio.Layer)]], otherDataPresent := false,
      otherDataLenBits := 0, crcCheckPresent := false, crcCheckSum := 0
    } : Verif.MPEG4Audio.StreamMuxConfig) = .ok audio25

/-- StreamMuxConfig: other data and checksum -/
def audio26 : Bytes :=
  [64, 0, 36, 16, 173, 202, 0]

#guard MPEG4Audio.StreamMuxConfig.unmarshal audio26 = .ok ({
      numSubFrames := 0, programs := [[({
         asc := (some ({
            type := 2, sampleRate := 44100, channelConfig := 1, channelCount := 1,
            extensionType := 0, extensionSampleRate := 0, frameLengthFlag := false,
            dependsOnCoreCoder := false, coreCoderDelay := 0 } : Verif.MPEG4Audio.ASC)),
         frameLengthType := 2, latmBufferFullness := 0, frameLength := 0, celpIndex := 0,
         hvxcIndex := false } : Verif.MPEG4Audio.Layer)]], otherDataPresent := true,
      otherDataLenBits := 220, crcCheckPresent := true, crcCheckSum := 64
    } : Verif.MPEG4Audio.StreamMuxConfig)
#guard MPEG4Audio.StreamMuxConfig.marshal ({
      numSubFrames := 0, programs := [[({
         asc := (some ({
            type := 2, sampleRate := 44100, channelConfig := 1, channelCount := 1,
            extensionType := 0, extensionSampleRate := 0, frameLengthFlag := false,
            dependsOnCoreCoder := false, coreCoderDelay := 0 } : Verif.MPEG4Audio.ASC)),
         frameLengthType := 2, latmBufferFullness := 0, frameLength := 0, celpIndex := 0,
         hvxcIndex := false } : Verif.MPEG4Audio.Layer)]], otherDataPresent := true,
      otherDataLenBits := 220, crcCheckPresent := true, crcCheckSum := 64
    } : Verif.MPEG4Audio.StreamMuxConfig) = .ok audio26

/-- StreamMuxConfig: other data > 256 and checksum -/
def audio27 : Bytes :=
  [64, 0, 36, 16, 176, 51, 133, 0]

#guard MPEG4Audio.StreamMuxConfig.unmarshal audio27 = .ok ({
      numSubFrames := 0, programs := [[({
         asc := (some ({
            type := 2, sampleRate := 44100, channelConfig := 1, channelCount := 1,
            extensionType := 0, extensionSampleRate := 0, frameLengthFlag := false,
            dependsOnCoreCoder := false, coreCoderDelay := 0 } : Verif.MPEG4Audio.ASC)),
         frameLengthType := 2, latmBufferFullness := 0, frameLength := 0, celpIndex := 0,
         hvxcIndex := false } : Verif.MPEG4Audio.Layer)]], otherDataPresent := true,
      otherDataLenBits := 880, crcCheckPresent := true, crcCheckSum := 64
    } : Verif.MPEG4Audio.StreamMuxConfig)
#guard MPEG4Audio.StreamMuxConfig.marshal ({
      numSubFrames := 0, programs := [[({
         asc := (some ({
            type := 2, sampleRate := 44100, channelConfig := 1, channelCount := 1,
            extensionType := 0, extensionSampleRate := 0, frameLengthFlag := false,
            dependsOnCoreCoder := false, coreCoderDelay := 0 } : Verif.MPEG4Audio.ASC)),
         frameLengthType := 2, latmBufferFullness := 0, frameLength := 0, celpIndex := 0,
         hvxcIndex := false } : Verif.MPEG4Audio.Layer)]], otherDataPresent := true,
      otherDataLenBits := 880, crcCheckPresent := true, crcCheckSum := 64
    } : Verif.MPEG4Audio.StreamMuxConfig) = .ok audio27

-- stream_mux_config_test.go:141-158
#guard MPEG4Audio.StreamMuxConfig.unmarshal [0x40, 0x00, 0x23, 0x10] = .ok ({
      numSubFrames := 0, programs := [[({
         asc := (some ({
            type := 2, sampleRate := 48000, channelConfig := 1, channelCount := 1,
            extensionType := 0, extensionSampleRate := 0, frameLengthFlag := false,
            dependsOnCoreCoder := false, coreCoderDelay := 0 } : Verif.MPEG4Audio.ASC)),
         frameLengthType := 0, latmBufferFullness := 255, frameLength := 0, celpIndex := 0,
         hvxcIndex := false } : Verif.MPEG4Audio.Layer)]], otherDataPresent := false,
      otherDataLenBits := 0, crcCheckPresent := false, crcCheckSum := 0
    } : Verif.MPEG4Audio.StreamMuxConfig)

/-- AudioSpecificConfig: aac-lc 16khz mono -/
def audio29 : Bytes :=
  [20, 8]

#guard MPEG4Audio.ASC.unmarshal audio29 = .ok ({
      type := 2, sampleRate := 16000, channelConfig := 1, channelCount := 1, extensionType := 0,
      extensionSampleRate := 0, frameLengthFlag := false, dependsOnCoreCoder := false,
      coreCoderDelay := 0 } : Verif.MPEG4Audio.ASC)
#guard MPEG4Audio.ASC.marshal ({
      type := 2, sampleRate := 16000, channelConfig := 1, channelCount := 1, extensionType := 0,
      extensionSampleRate := 0, frameLengthFlag := false, dependsOnCoreCoder := false,
      coreCoderDelay := 0 } : Verif.MPEG4Audio.ASC) = .ok audio29

/-- AudioSpecificConfig: aac-lc 44.1khz mono -/
def audio30 : Bytes :=
  [18, 8]

#guard MPEG4Audio.ASC.unmarshal audio30 = .ok ({
      type := 2, sampleRate := 44100, channelConfig := 1, channelCount := 1, extensionType := 0,
      extensionSampleRate := 0, frameLengthFlag := false, dependsOnCoreCoder := false,
      coreCoderDelay := 0 } : Verif.MPEG4Audio.ASC)
#guard MPEG4Audio.ASC.marshal ({
      type := 2, sampleRate := 44100, channelConfig := 1, channelCount := 1, extensionType := 0,
      extensionSampleRate := 0, frameLengthFlag := false, dependsOnCoreCoder := false,
      coreCoderDelay := 0 } : Verif.MPEG4Audio.ASC) = .ok audio30

/-- AudioSpecificConfig: aac-lc 44.1khz 5.1 -/
def audio31 : Bytes :=
  [18, 48]

#guard MPEG4Audio.ASC.unmarshal audio31 = .ok ({
      type := 2, sampleRate := 44100, channelConfig := 6, channelCount := 6, extensionType := 0,
      extensionSampleRate := 0, frameLengthFlag := false, dependsOnCoreCoder := false,
      coreCoderDelay := 0 } : Verif.MPEG4Audio.ASC)
#guard MPEG4Audio.ASC.marshal ({
      type := 2, sampleRate := 44100, channelConfig := 6, channelCount := 6, extensionType := 0,
      extensionSampleRate := 0, frameLengthFlag := false, dependsOnCoreCoder := false,
      coreCoderDelay := 0 } : Verif.MPEG4Audio.ASC) = .ok audio31

/-- AudioSpecificConfig: aac-lc 48khz stereo -/
def audio32 : Bytes :=
  [17, 144]

#guard MPEG4Audio.ASC.unmarshal audio32 = .ok ({
      type := 2, sampleRate := 48000, channelConfig := 2, channelCount := 2, extensionType := 0,
      extensionSampleRate := 0, frameLengthFlag := false, dependsOnCoreCoder := false,
      coreCoderDelay := 0 } : Verif.MPEG4Audio.ASC)
#guard MPEG4Audio.ASC.marshal ({
      type := 2, sampleRate := 48000, channelConfig := 2, channelCount := 2, extensionType := 0,
      extensionSampleRate := 0, frameLengthFlag := false, dependsOnCoreCoder := false,
      coreCoderDelay := 0 } : Verif.MPEG4Audio.ASC) = .ok audio32

/-- AudioSpecificConfig: aac-lc 53khz stereo -/
def audio33 : Bytes :=
  [23, 128, 103, 132, 16]

#guard MPEG4Audio.ASC.unmarshal audio33 = .ok ({
      type := 2, sampleRate := 53000, channelConfig := 2, channelCount := 2, extensionType := 0,
      extensionSampleRate := 0, frameLengthFlag := false, dependsOnCoreCoder := false,
      coreCoderDelay := 0 } : Verif.MPEG4Audio.ASC)
#guard MPEG4Audio.ASC.marshal ({
      type := 2, sampleRate := 53000, channelConfig := 2, channelCount := 2, extensionType := 0,
      extensionSampleRate := 0, frameLengthFlag := false, dependsOnCoreCoder := false,
      coreCoderDelay := 0 } : Verif.MPEG4Audio.ASC) = .ok audio33

/-- AudioSpecificConfig: aac-lc 96khz stereo delay -/
def audio34 : Bytes :=
  [16, 18, 12, 8]

#guard MPEG4Audio.ASC.unmarshal audio34 = .ok ({
      type := 2, sampleRate := 96000, channelConfig := 2, channelCount := 2, extensionType := 0,
      extensionSampleRate := 0, frameLengthFlag := false, dependsOnCoreCoder := true,
      coreCoderDelay := 385 } : Verif.MPEG4Audio.ASC)
#guard MPEG4Audio.ASC.marshal ({
      type := 2, sampleRate := 96000, channelConfig := 2, channelCount := 2, extensionType := 0,
      extensionSampleRate := 0, frameLengthFlag := false, dependsOnCoreCoder := true,
      coreCoderDelay := 385 } : Verif.MPEG4Audio.ASC) = .ok audio34

/-- AudioSpecificConfig: aac-lc 44.1khz 8 chans -/
def audio35 : Bytes :=
  [18, 56]

#guard MPEG4Audio.ASC.unmarshal audio35 = .ok ({
      type := 2, sampleRate := 44100, channelConfig := 7, channelCount := 8, extensionType := 0,
      extensionSampleRate := 0, frameLengthFlag := false, dependsOnCoreCoder := false,
      coreCoderDelay := 0 } : Verif.MPEG4Audio.ASC)
#guard MPEG4Audio.ASC.marshal ({
      type := 2, sampleRate := 44100, channelConfig := 7, channelCount := 8, extensionType := 0,
      extensionSampleRate := 0, frameLengthFlag := false, dependsOnCoreCoder := false,
      coreCoderDelay := 0 } : Verif.MPEG4Audio.ASC) = .ok audio35

/-- AudioSpecificConfig: aac-lc 48khz channel_config=0 -/
def audio36 : Bytes :=
  [17, 128]

#guard MPEG4Audio.ASC.unmarshal audio36 = .ok ({
      type := 2, sampleRate := 48000, channelConfig := 0, channelCount := 0, extensionType := 0,
      extensionSampleRate := 0, frameLengthFlag := false, dependsOnCoreCoder := false,
      coreCoderDelay := 0 } : Verif.MPEG4Audio.ASC)
#guard MPEG4Audio.ASC.marshal ({
      type := 2, sampleRate := 48000, channelConfig := 0, channelCount := 0, extensionType := 0,
      extensionSampleRate := 0, frameLengthFlag := false, dependsOnCoreCoder := false,
      coreCoderDelay := 0 } : Verif.MPEG4Audio.ASC) = .ok audio36

/-- AudioSpecificConfig: sbr (he-aac v1) 44.1khz mono -/
def audio37 : Bytes :=
  [43, 138, 8, 0]

#guard MPEG4Audio.ASC.unmarshal audio37 = .ok ({
      type := 2, sampleRate := 22050, channelConfig := 1, channelCount := 1, extensionType := 5,
      extensionSampleRate := 44100, frameLengthFlag := false, dependsOnCoreCoder := false,
      coreCoderDelay := 0 } : Verif.MPEG4Audio.ASC)
#guard MPEG4Audio.ASC.marshal ({
      type := 2, sampleRate := 22050, channelConfig := 1, channelCount := 1, extensionType := 5,
      extensionSampleRate := 44100, frameLengthFlag := false, dependsOnCoreCoder := false,
      coreCoderDelay := 0 } : Verif.MPEG4Audio.ASC) = .ok audio37

/-- AudioSpecificConfig: sbr (he-aac v1) 44.1khz stereo -/
def audio38 : Bytes :=
  [43, 146, 8, 0]

#guard MPEG4Audio.ASC.unmarshal audio38 = .ok ({
      type := 2, sampleRate := 22050, channelConfig := 2, channelCount := 2, extensionType := 5,
      extensionSampleRate := 44100, frameLengthFlag := false, dependsOnCoreCoder := false,
      coreCoderDelay := 0 } : Verif.MPEG4Audio.ASC)
#guard MPEG4Audio.ASC.marshal ({
      type := 2, sampleRate := 22050, channelConfig := 2, channelCount := 2, extensionType := 5,
      extensionSampleRate := 44100, frameLengthFlag := false, dependsOnCoreCoder := false,
      coreCoderDelay := 0 } : Verif.MPEG4Audio.ASC) = .ok audio38

/-- AudioSpecificConfig: ps (he-aac v2) 48khz stereo -/
def audio39 : Bytes :=
  [235, 9, 136, 0]

#guard MPEG4Audio.ASC.unmarshal audio39 = .ok ({
      type := 2, sampleRate := 24000, channelConfig := 1, channelCount := 1, extensionType := 29,
      extensionSampleRate := 48000, frameLengthFlag := false, dependsOnCoreCoder := false,
      coreCoderDelay := 0 } : Verif.MPEG4Audio.ASC)
#guard MPEG4Audio.ASC.marshal ({
      type := 2, sampleRate := 24000, channelConfig := 1, channelCount := 1, extensionType := 29,
      extensionSampleRate := 48000, frameLengthFlag := false, dependsOnCoreCoder := false,
      coreCoderDelay := 0 } : Verif.MPEG4Audio.ASC) = .ok audio39

-- audio_specific_config_test.go:148-192
#guard MPEG4Audio.ASC.unmarshal [0x11, 0x90, 0x08, 0x10] = .ok ({
      type := 2, sampleRate := 48000, channelConfig := 2, channelCount := 2, extensionType := 0,
      extensionSampleRate := 0, frameLengthFlag := false, dependsOnCoreCoder := false,
      coreCoderDelay := 0 } : Verif.MPEG4Audio.ASC)
#guard (MPEG4Audio.ASC.marshal ({
      type := 2, sampleRate := 44100, channelConfig := 0, channelCount := 9, extensionType := 0,
      extensionSampleRate := 0, frameLengthFlag := false, dependsOnCoreCoder := false,
      coreCoderDelay := 0 } : Verif.MPEG4Audio.ASC)).isOk = false

/-- AudioSyncStream: a -/
def audio41 : Bytes :=
  [86, 224, 4, 1, 2, 3, 4, 86, 224, 4, 5, 6, 7, 8]

#guard MPEG4Audio.AudioSyncStream.unmarshal audio41 = .ok [[1, 2, 3, 4], [5, 6, 7, 8]]
#guard MPEG4Audio.AudioSyncStream.marshal [[1, 2, 3, 4], [5, 6, 7, 8]] = .ok audio41

/-- AudioMuxElement: muxConfigPresent + !useSameStreamMux -/
def audio42 : Bytes :=
  [32, 9, 19, 8, 31, 225, 24, 129, 254, 2, 65, 3, 252, 4, 4, 4, 1, 2, 3, 4, 5, 6, 7, 8, 9, 10,
   11, 12]

#guard MPEG4Audio.MuxElement.unmarshal true none audio42 = .ok ({
      useSameStreamMux := false, config := (some ({
         numSubFrames := 0, programs := [[({
            asc := (some ({
               type := 2, sampleRate := 24000, channelConfig := 1, channelCount := 1,
               extensionType := 0, extensionSampleRate := 0, frameLengthFlag := false,
               dependsOnCoreCoder := false, coreCoderDelay := 0 } : Verif.MPEG4Audio.ASC)),
            frameLengthType := 0, latmBufferFullness := 255, frameLength := 0, celpIndex := 0,
            hvxcIndex := false } : Verif.MPEG4Audio.Layer), ({
            asc := (some ({
               type := 2, sampleRate := 48000, channelConfig := 1, channelCount := 1,
               extensionType := 0, extensionSampleRate := 0, frameLengthFlag := false,
               dependsOnCoreCoder := false, coreCoderDelay := 0 } : Verif.MPEG4Audio.ASC)),
            frameLengthType := 0, latmBufferFullness := 255, frameLength := 0, celpIndex := 0,
            hvxcIndex := false } : Verif.MPEG4Audio.Layer)], [({
            asc := (some ({
               type := 2, sampleRate := 44100, channelConfig := 1, channelCount := 1,
               extensionType := 0, extensionSampleRate := 0, frameLengthFlag := false,
               dependsOnCoreCoder := false, coreCoderDelay := 0 } : Verif.MPEG4Audio.ASC)),
            frameLengthType := 0, latmBufferFullness := 255, frameLength := 0, celpIndex := 0,
            hvxcIndex := false } : Verif.MPEG4Audio.Layer)]], otherDataPresent := false,
         otherDataLenBits := 0, crcCheckPresent := false, crcCheckSum := 0
       } : Verif.MPEG4Audio.StreamMuxConfig)), payloads := [[[[1, 2, 3, 4], [5, 6, 7, 8]], [[9,
      10, 11, 12]]]] } : Verif.MPEG4Audio.MuxElement)
#guard MPEG4Audio.MuxElement.marshal true ({
      useSameStreamMux := false, config := (some ({
         numSubFrames := 0, programs := [[({
            asc := (some ({
               type := 2, sampleRate := 24000, channelConfig := 1, channelCount := 1,
               extensionType := 0, extensionSampleRate := 0, frameLengthFlag := false,
               dependsOnCoreCoder := false, coreCoderDelay := 0 } : Verif.MPEG4Audio.ASC)),
            frameLengthType := 0, latmBufferFullness := 255, frameLength := 0, celpIndex := 0,
            hvxcIndex := false } : Verif.MPEG4Audio.Layer), ({
            asc := (some ({
               type := 2, sampleRate := 48000, channelConfig := 1, channelCount := 1,
               extensionType := 0, extensionSampleRate := 0, frameLengthFlag := false,
               dependsOnCoreCoder := false, coreCoderDelay := 0 } : Verif.MPEG4Audio.ASC)),
            frameLengthType := 0, latmBufferFullness := 255, frameLength := 0, celpIndex := 0,
            hvxcIndex := false } : Verif.MPEG4Audio.Layer)], [({
            asc := (some ({
               type := 2, sampleRate := 44100, channelConfig := 1, channelCount := 1,
               extensionType := 0, extensionSampleRate := 0, frameLengthFlag := false,
               dependsOnCoreCoder := false, coreCoderDelay := 0 } : Verif.MPEG4Audio.ASC)),
            frameLengthType := 0, latmBufferFullness := 255, frameLength := 0, celpIndex := 0,
            hvxcIndex := false } : Verif.MPEG4Audio.Layer)]], otherDataPresent := false,
         otherDataLenBits := 0, crcCheckPresent := false, crcCheckSum := 0
       } : Verif.MPEG4Audio.StreamMuxConfig)), payloads := [[[[1, 2, 3, 4], [5, 6, 7, 8]], [[9,
      10, 11, 12]]]] } : Verif.MPEG4Audio.MuxElement) = .ok audio42

/-- AudioMuxElement: muxConfigPresent + useSameStreamMux -/
def audio43 : Bytes :=
  [130, 128, 129, 1, 130, 2, 128]

#guard MPEG4Audio.MuxElement.unmarshal true (some ({
      numSubFrames := 0, programs := [[({
         asc := (some ({
            type := 2, sampleRate := 24000, channelConfig := 0, channelCount := 1,
            extensionType := 0, extensionSampleRate := 0, frameLengthFlag := false,
            dependsOnCoreCoder := false, coreCoderDelay := 0 } : Verif.MPEG4Audio.ASC)),
         frameLengthType := 0, latmBufferFullness := 255, frameLength := 0, celpIndex := 0,
         hvxcIndex := false } : Verif.MPEG4Audio.Layer)]], otherDataPresent := false,
      otherDataLenBits := 0, crcCheckPresent := false, crcCheckSum := 0
    } : Verif.MPEG4Audio.StreamMuxConfig)) audio43 = .ok ({
      useSameStreamMux := true, config := (some ({
         numSubFrames := 0, programs := [[({
            asc := (some ({
               type := 2, sampleRate := 24000, channelConfig := 0, channelCount := 1,
               extensionType := 0, extensionSampleRate := 0, frameLengthFlag := false,
               dependsOnCoreCoder := false, coreCoderDelay := 0 } : Verif.MPEG4Audio.ASC)),
            frameLengthType := 0, latmBufferFullness := 255, frameLength := 0, celpIndex := 0,
            hvxcIndex := false } : Verif.MPEG4Audio.Layer)]], otherDataPresent := false,
         otherDataLenBits := 0, crcCheckPresent := false, crcCheckSum := 0
       } : Verif.MPEG4Audio.StreamMuxConfig)), payloads := [[[[1, 2, 3, 4, 5]]]]
    } : Verif.MPEG4Audio.MuxElement)
#guard MPEG4Audio.MuxElement.marshal true ({
      useSameStreamMux := true, config := (some ({
         numSubFrames := 0, programs := [[({
            asc := (some ({
               type := 2, sampleRate := 24000, channelConfig := 0, channelCount := 1,
               extensionType := 0, extensionSampleRate := 0, frameLengthFlag := false,
               dependsOnCoreCoder := false, coreCoderDelay := 0 } : Verif.MPEG4Audio.ASC)),
            frameLengthType := 0, latmBufferFullness := 255, frameLength := 0, celpIndex := 0,
            hvxcIndex := false } : Verif.MPEG4Audio.Layer)]], otherDataPresent := false,
         otherDataLenBits := 0, crcCheckPresent := false, crcCheckSum := 0
       } : Verif.MPEG4Audio.StreamMuxConfig)), payloads := [[[[1, 2, 3, 4, 5]]]]
    } : Verif.MPEG4Audio.MuxElement) = .ok audio43

/-- AudioMuxElement: !muxConfigPresent -/
def audio44 : Bytes :=
  [5, 1, 2, 3, 4, 5]

#guard MPEG4Audio.MuxElement.unmarshal false (some ({
      numSubFrames := 0, programs := [[({
         asc := (some ({
            type := 2, sampleRate := 24000, channelConfig := 0, channelCount := 1,
            extensionType := 0, extensionSampleRate := 0, frameLengthFlag := false,
            dependsOnCoreCoder := false, coreCoderDelay := 0 } : Verif.MPEG4Audio.ASC)),
         frameLengthType := 0, latmBufferFullness := 255, frameLength := 0, celpIndex := 0,
         hvxcIndex := false } : Verif.MPEG4Audio.Layer)]], otherDataPresent := false,
      otherDataLenBits := 0, crcCheckPresent := false, crcCheckSum := 0
    } : Verif.MPEG4Audio.StreamMuxConfig)) audio44 = .ok ({
      useSameStreamMux := false, config := (some ({
         numSubFrames := 0, programs := [[({
            asc := (some ({
               type := 2, sampleRate := 24000, channelConfig := 0, channelCount := 1,
               extensionType := 0, extensionSampleRate := 0, frameLengthFlag := false,
               dependsOnCoreCoder := false, coreCoderDelay := 0 } : Verif.MPEG4Audio.ASC)),
            frameLengthType := 0, latmBufferFullness := 255, frameLength := 0, celpIndex := 0,
            hvxcIndex := false } : Verif.MPEG4Audio.Layer)]], otherDataPresent := false,
         otherDataLenBits := 0, crcCheckPresent := false, crcCheckSum := 0
       } : Verif.MPEG4Audio.StreamMuxConfig)), payloads := [[[[1, 2, 3, 4, 5]]]]
    } : Verif.MPEG4Audio.MuxElement)
#guard MPEG4Audio.MuxElement.marshal false ({
      useSameStreamMux := false, config := (some ({
         numSubFrames := 0, programs := [[({
            asc := (some ({
               type := 2, sampleRate := 24000, channelConfig := 0, channelCount := 1,
               extensionType := 0, extensionSampleRate := 0, frameLengthFlag := false,
               dependsOnCoreCoder := false, coreCoderDelay := 0 } : Verif.MPEG4Audio.ASC)),
            frameLengthType := 0, latmBufferFullness := 255, frameLength := 0, celpIndex := 0,
            hvxcIndex := false } : Verif.MPEG4Audio.Layer)]], otherDataPresent := false,
         otherDataLenBits := 0, crcCheckPresent := false, crcCheckSum := 0
       } : Verif.MPEG4Audio.StreamMuxConfig)), payloads := [[[[1, 2, 3, 4, 5]]]]
    } : Verif.MPEG4Audio.MuxElement) = .ok audio44

/-- channel count: CPE stereo -/
def audio45 : Bytes :=
  [32, 0, 0, 0]

#guard MPEG4Audio.countChannels audio45 = .ok 2

/-- channel count: SCE mono -/
def audio46 : Bytes :=
  [0, 0, 0, 0]

#guard MPEG4Audio.countChannels audio46 = .ok 1

/-- channel count: LFE -/
def audio47 : Bytes :=
  [96, 0, 0, 0]

#guard MPEG4Audio.countChannels audio47 = .ok 1

/-- channel count: FIL then CPE -/
def audio48 : Bytes :=
  [192, 64, 0, 0]

#guard MPEG4Audio.countChannels audio48 = .ok 2

/-- channel count: DSE then CPE -/
def audio49 : Bytes :=
  [128, 0, 32, 0]

#guard MPEG4Audio.countChannels audio49 = .ok 2

/-- channel count: DSE aligned then CPE -/
def audio50 : Bytes :=
  [129, 0, 32, 0]

#guard MPEG4Audio.countChannels audio50 = .ok 2

/-- channel count: DSE with count=1 then CPE -/
def audio51 : Bytes :=
  [128, 1, 0, 32, 0, 0]

#guard MPEG4Audio.countChannels audio51 = .ok 2

/-- channel count: FIL with count < 15 -/
def audio52 : Bytes :=
  [192, 64, 0, 0]

#guard MPEG4Audio.countChannels audio52 = .ok 2

/-- PCE: valid stereo PCE -/
def audio53 : Bytes :=
  [160, 160, 128, 0, 4, 0]

#guard MPEG4Audio.parsePCE audio53 = .ok ({
      elementInstanceTag := 0, objectType := 1, samplingFrequencyIndex := 4, numFront := 1,
      numSide := 0, numBack := 0, numLFE := 0, numAssocData := 0, numValidCC := 0,
      channelCount := 2 } : Verif.MPEG4Audio.PCE)

/-- PCE: PCE with mono mixdown -/
def audio54 : Bytes :=
  [160, 160, 128, 0, 32, 64, 0]

#guard MPEG4Audio.parsePCE audio54 = .ok ({
      elementInstanceTag := 0, objectType := 1, samplingFrequencyIndex := 4, numFront := 1,
      numSide := 0, numBack := 0, numLFE := 0, numAssocData := 0, numValidCC := 0,
      channelCount := 2 } : Verif.MPEG4Audio.PCE)

/-- PCE: PCE 5.1 surround -/
def audio55 : Bytes :=
  [160, 161, 0, 160, 0, 33, 0, 0]

#guard MPEG4Audio.parsePCE audio55 = .ok ({
      elementInstanceTag := 0, objectType := 1, samplingFrequencyIndex := 4, numFront := 2,
      numSide := 0, numBack := 1, numLFE := 1, numAssocData := 0, numValidCC := 0,
      channelCount := 6 } : Verif.MPEG4Audio.PCE)

/-! `pkg/codecs/opus/*_test.go` -/

/-- ID header: stereo 48kHz -/
def audio56 : Bytes :=
  [79, 112, 117, 115, 72, 101, 97, 100, 1, 2, 1, 56, 0, 0, 187, 128, 0, 0, 0]

#guard Opus.IDHeader.unmarshal audio56 = .ok ({
      version := 1, channelCount := 2, preSkip := 312, inputSampleRate := 48000, outputGain := 0,
      channelMappingFamily := 0, channelMappingTable := [] } : Verif.Opus.IDHeader)
#guard Opus.IDHeader.marshal ({
      version := 1, channelCount := 2, preSkip := 312, inputSampleRate := 48000, outputGain := 0,
      channelMappingFamily := 0, channelMappingTable := [] } : Verif.Opus.IDHeader) = audio56

/-- ID header: 5.1 with mapping table -/
def audio57 : Bytes :=
  [79, 112, 117, 115, 72, 101, 97, 100, 1, 6, 0, 0, 0, 0, 187, 128, 1, 0, 1, 0, 4, 1, 2, 3, 5]

#guard Opus.IDHeader.unmarshal audio57 = .ok ({
      version := 1, channelCount := 6, preSkip := 0, inputSampleRate := 48000, outputGain := 256,
      channelMappingFamily := 1, channelMappingTable := [0, 4, 1, 2, 3, 5]
    } : Verif.Opus.IDHeader)
#guard Opus.IDHeader.marshal ({
      version := 1, channelCount := 6, preSkip := 0, inputSampleRate := 48000, outputGain := 256,
      channelMappingFamily := 1, channelMappingTable := [0, 4, 1, 2, 3, 5]
    } : Verif.Opus.IDHeader) = audio57

/-- ID header: mono 44.1kHz with gain -/
def audio58 : Bytes :=
  [79, 112, 117, 115, 72, 101, 97, 100, 1, 1, 171, 205, 0, 0, 172, 68, 255, 0, 255]

#guard Opus.IDHeader.unmarshal audio58 = .ok ({
      version := 1, channelCount := 1, preSkip := 43981, inputSampleRate := 44100,
      outputGain := 65280, channelMappingFamily := 255, channelMappingTable := []
    } : Verif.Opus.IDHeader)
#guard Opus.IDHeader.marshal ({
      version := 1, channelCount := 1, preSkip := 43981, inputSampleRate := 44100,
      outputGain := 65280, channelMappingFamily := 255, channelMappingTable := []
    } : Verif.Opus.IDHeader) = audio58

-- packet_duration_test.go: 20 ms at 48 kHz
#guard Opus.packetDuration2 [1] = .ok 960

end Verif.Tests
