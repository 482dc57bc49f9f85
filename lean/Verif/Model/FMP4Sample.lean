import Verif.Model.FMP4
import Verif.Model.H264
import Verif.Model.AV1

/-!
# pkg/formats/fmp4/sample.go: samples from and to access units
-/

namespace Verif.FMP4

/-- `Sample.FillAV1`, pkg/formats/fmp4/sample.go:32-42. -/
def fillAV1 (ps : Sample) (tu : List Bytes) : Res Sample := do
  let bs ← AV1.bitstreamMarshal tu
  .ok { ps with isNonSync := !AV1.isRandomAccess2 tu, payload := bs }

/-- `Sample.FillH265`, pkg/formats/fmp4/sample.go:54-65. -/
def fillH265 (ps : Sample) (ptsOffset : Int) (au : List Bytes) : Res Sample := do
  let avcc ← H264.avccMarshal au
  let ra ← H264.isRandomAccess265 au
  .ok { ps with ptsOffset := ptsOffset, isNonSync := !ra, payload := avcc }

/-- `Sample.FillH264`, pkg/formats/fmp4/sample.go:77-88. -/
def fillH264 (ps : Sample) (ptsOffset : Int) (au : List Bytes) : Res Sample := do
  let avcc ← H264.avccMarshal au
  let ra ← H264.isRandomAccess au
  .ok { ps with ptsOffset := ptsOffset, isNonSync := !ra, payload := avcc }

/-- `Sample.GetAV1`, pkg/formats/fmp4/sample.go:91-99. -/
def getAV1 (ps : Sample) : Res (List Bytes) := AV1.bitstreamUnmarshal ps.payload

/-- `Sample.GetH264`, pkg/formats/fmp4/sample.go:107-115. -/
def getH264 (ps : Sample) : Res (List Bytes) := H264.avccUnmarshal ps.payload

/-- `Sample.GetH265`, pkg/formats/fmp4/sample.go:102-104. -/
def getH265 (ps : Sample) : Res (List Bytes) := getH264 ps

end Verif.FMP4
