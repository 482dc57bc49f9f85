import Verif.Model.Base

/-!
# JPEG segments (pkg/codecs/jpeg)

`Marshal(buf)` appends to `buf`; modelled on the appended bytes (`buf = nil`).
-/

namespace Verif.JPEG

/-- pkg/codecs/jpeg/define_quantization_table.go:8-12 (`QuantizationTable`). -/
structure QuantizationTable where
  id : UInt8
  precision : UInt8
  data : Bytes
  deriving Repr, DecidableEq

/-- pkg/codecs/jpeg/define_quantization_table.go:20-42 (`DefineQuantizationTable.Unmarshal`). `tables` are the tables
already in the receiver. -/
def dqtUnmarshal (buf : Bytes) (tables : List QuantizationTable) : Res (List QuantizationTable) :=
  if h : buf.length ≠ 0 then
    match buf with
    | [] => absurd rfl h
    | b :: rest =>
      if b >>> 4 ≠ 0 then .err "precision is not supported"
      else if rest.length < 64 then .err "image is too short"
      else dqtUnmarshal (rest.drop 64) (tables ++ [⟨b &&& 0x0F, b >>> 4, rest.take 64⟩])
  else .ok tables
termination_by buf.length
decreasing_by simp; omega

/-- pkg/codecs/jpeg/define_quantization_table.go:49-52: the length field. -/
def dqtSize (tables : List QuantizationTable) : Nat := tables.foldl (fun s t => s + (1 + t.data.length)) 2

/-- pkg/codecs/jpeg/define_quantization_table.go:45-61 (`DefineQuantizationTable.Marshal`). -/
def dqtMarshal (tables : List QuantizationTable) : Bytes :=
  ([0xFF, 0xDB] : Bytes) ++ [UInt8.ofNat (dqtSize tables >>> 8), UInt8.ofNat (dqtSize tables)] ++
  tables.flatMap fun t => [t.id] ++ t.data

/-- pkg/codecs/jpeg/define_restart_interval.go:13-20 (`DefineRestartInterval.Unmarshal`); returns the interval. -/
def driUnmarshal (buf : Bytes) : Res Nat := do
  if buf.length ≠ 2 then .err "unsupported DRI size" else
  let b0 ← idx buf 0
  let b1 ← idx buf 1
  .ok (b0.toNat <<< 8 ||| b1.toNat)

/-- pkg/codecs/jpeg/start_of_frame1.go:8-13 (`StartOfFrame1`). -/
structure StartOfFrame1 where
  type : UInt8
  width : Nat
  height : Nat
  quantizationTableCount : UInt8
  deriving Repr, DecidableEq

/-- pkg/codecs/jpeg/start_of_frame1.go:16-57 (`StartOfFrame1.Unmarshal`) on a fresh struct: the write-only field
`QuantizationTableCount` stays 0. -/
def sofUnmarshal (buf : Bytes) : Res StartOfFrame1 := do
  if buf.length ≠ 15 then .err "unsupported SOF size" else
  let precision ← idx buf 0
  if precision ≠ 8 then .err "precision is not supported" else
  let b1 ← idx buf 1
  let b2 ← idx buf 2
  let b3 ← idx buf 3
  let b4 ← idx buf 4
  let components ← idx buf 5
  if components ≠ 3 then .err "number of components is not supported" else
  let samp0 ← idx buf 7
  if samp0 ≠ 0x21 ∧ samp0 ≠ 0x22 then .err "samp0 is not supported" else
  let samp1 ← idx buf 10
  if samp1 ≠ 0x11 then .err "samp1 is not supported" else
  let samp2 ← idx buf 13
  if samp2 ≠ 0x11 then .err "samp2 is not supported" else
  .ok { type := if samp0 = 0x21 then 0 else 1, height := b1.toNat <<< 8 ||| b2.toNat,
        width := b3.toNat <<< 8 ||| b4.toNat, quantizationTableCount := 0 }

/-- pkg/codecs/jpeg/start_of_frame1.go:60-86 (`StartOfFrame1.Marshal`). -/
def sofMarshal (m : StartOfFrame1) : Bytes :=
  ([0xFF, 0xC0] : Bytes) ++ ([0, 17] : Bytes) ++ ([8] : Bytes) ++ [UInt8.ofNat (m.height >>> 8), UInt8.ofNat m.height] ++
  [UInt8.ofNat (m.width >>> 8), UInt8.ofNat m.width] ++ ([3] : Bytes) ++
  (if m.type &&& 0x3f = 0 then ([0x00, 0x21, 0] : Bytes) else [0x00, 0x22, 0]) ++
  ([1, 0x11, if m.quantizationTableCount = 2 then 1 else 0] : Bytes) ++
  ([2, 0x11, if m.quantizationTableCount = 2 then 1 else 0] : Bytes)

/-- pkg/codecs/jpeg/start_of_scan.go:11-16 (`StartOfScan.Unmarshal`). -/
def sosUnmarshal (buf : Bytes) : Res Unit :=
  if buf.length ≠ 10 then .err "unsupported SOS size" else .ok ()

/-- pkg/codecs/jpeg/start_of_scan.go:19-28 (`StartOfScan.Marshal`). -/
def sosMarshal : Bytes := [0xFF, 0xDA] ++ [0, 12] ++ [3] ++ [0, 0] ++ [1, 0x11] ++ [2, 0x11] ++ [0, 63, 0]

/-- pkg/codecs/jpeg/start_of_image.go:7-10 (`StartOfImage.Marshal`). -/
def soiMarshal : Bytes := [0xFF, 0xD8]

/-- pkg/codecs/jpeg/define_huffman_table.go:4-9 (`DefineHuffmanTable`); the `int` fields are taken non-negative. -/
structure DefineHuffmanTable where
  codes : Bytes
  symbols : Bytes
  tableNumber : Nat
  tableClass : Nat
  deriving Repr, DecidableEq

/-- pkg/codecs/jpeg/define_huffman_table.go:12-20 (`DefineHuffmanTable.Marshal`). -/
def dhtMarshal (m : DefineHuffmanTable) : Bytes :=
  ([0xFF, 0xC4] : Bytes) ++
  [UInt8.ofNat ((3 + m.codes.length + m.symbols.length) >>> 8), UInt8.ofNat (3 + m.codes.length + m.symbols.length)] ++
  [UInt8.ofNat (m.tableClass <<< 4) ||| UInt8.ofNat m.tableNumber] ++ m.codes ++ m.symbols

end Verif.JPEG
