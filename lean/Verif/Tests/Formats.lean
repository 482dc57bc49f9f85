import Verif.Model.Bits
import Verif.Model.Readers
import Verif.Model.TimeDecoder
import Verif.Model.TSMetadata
import Verif.Model.TSOpus
import Verif.Model.FMP4

/-!
# Test vectors of the bit reader, the readers, the containers and the MPEG-TS substructures

The tables of the unit tests of the repository, evaluated in the model. These are tests, not
proofs: they show that the model and the Go code agree on the inputs whose results the authors of
the Go code wrote down.
-/

namespace Verif.Tests

/-! `pkg/bits/*_test.go` -/

-- read_test.go
#guard Bits.readBits [0xA8, 0xC7, 0xD6, 0xAA, 0xBB, 0x10] 0 6 = .ok (0x2a, 6)
#guard Bits.readBits [0xA8, 0xC7, 0xD6, 0xAA, 0xBB, 0x10] 6 6 = .ok (0xc, 12)
#guard Bits.readBits [0xA8, 0xC7, 0xD6, 0xAA, 0xBB, 0x10] 12 6 = .ok (0x1f, 18)
#guard Bits.readBits [0xA8, 0xC7, 0xD6, 0xAA, 0xBB, 0x10] 18 8 = .ok (0x5a, 26)
#guard Bits.readBits [0xA8, 0xC7, 0xD6, 0xAA, 0xBB, 0x10] 26 20 = .ok (0xaaec4, 46)
#guard Bits.readBits [0xA8] 6 6 = .err "not enough bits"
#guard Bits.readGolombUnsigned [0x38] 0 = .ok (6, 5)
#guard Bits.readGolombUnsigned [0] 0 = .err "not enough bits"
#guard Bits.readGolombUnsigned [0, 1] 0 = .err "not enough bits"
#guard Bits.readGolombUnsigned [0, 0, 0, 0, 1] 0 = .err "invalid value"
#guard Bits.readGolombSigned [0x38] 0 = .ok (-3, 5)
#guard Bits.readGolombSigned [0x24] 0 = .ok (2, 5)
#guard Bits.readGolombSigned [0] 0 = .err "not enough bits"
#guard Bits.readFlag [0xFF] 0 = .ok (true, 1)

-- write_test.go
#guard ([(0x2a, 6), (0x0c, 6), (0x1f, 6), (0x5a, 8), (0xaaec4,
   20)].foldlM (fun (s : Bytes × Nat) (v : Nat × Nat) => Bits.writeBitsUnsafe s.1 s.2 v.1 v.2) ([0,
   0, 0, 0, 0, 0], 0) >>= fun s => .ok s.1) = .ok [0xA8, 0xC7, 0xD6, 0xAA, 0xBB, 0x10]
#guard (Bits.writeFlagUnsafe [0] 0 true >>= fun s => Bits.writeFlagUnsafe s.1 s.2 false) = .ok ([0x80],
   2)

/-! `pkg/rewindablereader/reader_test.go` -/

-- TestReader
#guard (let r : Readers.Rewindable := { r := ⟨[1, 2, 3, 4, 5, 6, 7, 8], [(4, none), (2, none),
   (2,
   none)]⟩ }; let a := r.read 1024; let b := a.2.2.read 1024; let c := b.2.2.rewind.read 1024; let d := c.2.2.read 1024; let e := d.2.2.read 1024; [a.1,
   b.1, c.1, d.1, e.1]) = [[1, 2, 3, 4], [5, 6], [1, 2, 3, 4], [5, 6], [7, 8]]
#guard (let r : Readers.Rewindable := { r := ⟨[1, 2, 3, 4, 5, 6, 7, 8], [(4, none), (2, none),
   (2,
   none)]⟩ }; let a := r.read 1024; let b := a.2.2.rewind.read 2; let c := b.2.2.read 2; [a.1,
   b.1, c.1]) = [[1, 2, 3, 4], [1, 2], [3, 4]]

/-! `pkg/formats/fmp4/seekablebuffer/seekablebuffer_test.go` -/

-- TestBuffer
#guard ({} : Readers.SBuf).run [.seek (-2) 0, .seek 0 0, .write [1, 2, 3, 4]] = .ok ([(0,
   some "negative position"), (0, none), (4, none)], ⟨[1, 2, 3, 4], 4⟩)
#guard ({} : Readers.SBuf).run [.write [1, 2, 3, 4], .seek (-2) 1, .write [1, 2, 3,
   4]] = .ok ([(4, none), (2, none), (4, none)], ⟨[1, 2, 1, 2, 3, 4], 6⟩)
#guard ({} : Readers.SBuf).run [.write [1, 2, 3, 4], .seek 2 2, .write [1, 2, 3, 4]] = .ok ([(4,
   none), (6, none), (4, none)], ⟨[1, 2, 3, 4, 0, 0, 1, 2, 3, 4], 10⟩)

/-! `pkg/formats/mpegts/buffered_reader_test.go` -/

-- TestBufferedReader, TestBufferedReaderError
#guard (let r : Readers.BufferedReader := { r := ⟨List.replicate 188 1 ++ List.replicate 188 2 ++ List.replicate 188 3,
   [(564, none)]⟩ }; let a := r.read 188; let b := a.2.2.read 188; (a.1, a.2.2.r.data,
   b.1)) = (List.replicate 188 1, [], List.replicate 188 2)
#guard (({ r := ⟨List.replicate 1000 1, [(1000,
   none)]⟩ } : Readers.BufferedReader).read 188).2.1 = some "received packet with size not multiple of 188"

/-! `pkg/formats/mpegts/time_decoder_test.go` -/

-- TestTimeDecoderNegativeDiff, TestTimeDecoderOverflow (first steps), TestTimeDecoderOverflowAndBack
#guard ({} : TS.TimeDecoder).decodeAll [64523434, 64523434 - 90000, 64523434,
   64523434 + 90000 * 2, 64523434 + 90000] = [0, -90000, 0, 2 * 90000, 90000]
#guard ({} : TS.TimeDecoder).decodeAll ((List.range 2000).map fun k : Nat => 0x1FFFFFFFF - 20 + (k : Int) * 150 * 90000) = (List.range 2000).map fun k : Nat => (k : Int) * 150 * 90000
#guard ({} : TS.TimeDecoder).decodeAll [0x1FFFFFFFF - 90000 + 1, 0x1FFFFFFFF - 90000 + 1, 90000,
   0x1FFFFFFFF - 90000 + 1, 0x1FFFFFFFF - 90000 * 2 + 1, 0x1FFFFFFFF - 90000 + 1, 90000] = [0, 0,
   2 * 90000, 0, -90000, 0, 2 * 90000]

/-! `pkg/formats/mpegts/substructs/*_test.go` -/

/-- MetadataAUCell: a -/
def formats7 : Bytes :=
  [15, 18, 239, 0, 4, 1, 2, 3, 4]

#guard TSMetadata.AUCell.unmarshal formats7 0 = .ok (({
      serviceID := 15, sequenceNumber := 18, fragmentIndication := 3, decoderConfigFlag := true,
      randomAccessIndicator := false, data := [1, 2, 3, 4] } : Verif.TSMetadata.AUCell),
   formats7.length)
#guard TSMetadata.AUCell.marshal ({
      serviceID := 15, sequenceNumber := 18, fragmentIndication := 3, decoderConfigFlag := true,
      randomAccessIndicator := false, data := [1, 2, 3, 4]
    } : Verif.TSMetadata.AUCell) = .ok formats7

/-- MetadataDescriptor: a -/
def formats8 : Bytes :=
  [255, 255, 0, 13, 161, 50, 23, 234, 63, 2, 1, 2, 2, 3, 4, 5, 6]

#guard TSMetadata.Descriptor.unmarshal formats8 = .ok ({
      applicationFormat := 65535, applicationFormatIdentifier := 893234, format := 23,
      formatIdentifier := 0, serviceID := 234, decoderConfigFlags := 1, dsmccFlag := true,
      serviceIdentification := [1, 2], decoderConfig := [3, 4], decConfigIdentification := [],
      decoderConfigServiceID := 0, privateData := [5, 6] } : Verif.TSMetadata.Descriptor)
#guard TSMetadata.Descriptor.marshal ({
      applicationFormat := 65535, applicationFormatIdentifier := 893234, format := 23,
      formatIdentifier := 0, serviceID := 234, decoderConfigFlags := 1, dsmccFlag := true,
      serviceIdentification := [1, 2], decoderConfig := [3, 4], decConfigIdentification := [],
      decoderConfigServiceID := 0, privateData := [5, 6]
    } : Verif.TSMetadata.Descriptor) = .ok formats8

/-- MetadataSTDDescriptor: a -/
def formats9 : Bytes :=
  [199, 18, 52, 204, 187, 219, 204, 230, 12]

#guard TSMetadata.STDDescriptor.unmarshal formats9 = .ok ({
      inputLeakRate := 463412, bufferSize := 834523, outputLeakRate := 845324
    } : Verif.TSMetadata.STDDescriptor)
#guard TSMetadata.STDDescriptor.marshal ({
      inputLeakRate := 463412, bufferSize := 834523, outputLeakRate := 845324
    } : Verif.TSMetadata.STDDescriptor) = .ok formats9

/-- OpusAccessUnit: a -/
def formats10 : Bytes :=
  [127, 244, 123, 0, 20, 40, 0, 0, 0, 0, 0, 0, 0, 0, 0, 0, 0, 0, 0, 0, 0, 0, 0, 0, 0, 0, 0, 0, 0,
   0, 0, 0, 0, 0, 0, 0, 0, 0, 0, 0, 0, 0, 0, 0, 0, 0, 1, 1, 1, 1, 1, 1, 1, 1, 1, 1, 1, 1, 1, 1,
   1, 1, 1, 1, 1, 1, 1, 1, 1, 1, 1, 1, 1, 1, 1, 1, 1, 1, 1, 1, 1, 1, 1, 1, 1, 1, 1, 1, 1, 1, 1,
   1, 1, 1, 1, 1, 1, 1, 1, 1, 1, 1, 1, 1, 1, 1, 1, 1, 1, 1, 1, 1, 1, 1, 1, 1, 1, 1, 1, 1, 1, 1,
   1, 1, 1, 1, 1, 1, 1, 1, 1, 1, 1, 1, 1, 1, 1, 1, 1, 1, 1, 1, 1, 1, 1, 1, 1, 1, 1, 1, 1, 1, 1,
   1, 1, 1, 1, 1, 1, 1, 1, 1, 1, 1, 1, 1, 1, 1, 1]

#guard (TSOpus.AccessUnit.unmarshal formats10 >>= fun r => .ok r.1) = .ok ({
      controlHeader := ({
         payloadSize := 123, startTrimFlag := true, endTrimFlag := false,
         controlExtensionFlag := true, startTrim := 20, endTrim := 0,
         controlExtensionLength := 40 } : Verif.TSOpus.ControlHeader),
      packet := (List.replicate 123 [1]).flatten } : Verif.TSOpus.AccessUnit)
#guard (TSOpus.AccessUnit.marshalTo ({
      controlHeader := ({
         payloadSize := 123, startTrimFlag := true, endTrimFlag := false,
         controlExtensionFlag := true, startTrim := 20, endTrim := 0,
         controlExtensionLength := 40 } : Verif.TSOpus.ControlHeader),
      packet := (List.replicate 123 [1]).flatten
    } : Verif.TSOpus.AccessUnit) (List.replicate (TSOpus.AccessUnit.marshalSize ({
      controlHeader := ({
         payloadSize := 123, startTrimFlag := true, endTrimFlag := false,
         controlExtensionFlag := true, startTrim := 20, endTrim := 0,
         controlExtensionLength := 40 } : Verif.TSOpus.ControlHeader),
      packet := (List.replicate 123 [1]).flatten
    } : Verif.TSOpus.AccessUnit)) 0) 0 >>= fun r => .ok r.1) = .ok formats10

/-- OpusAudioDescriptor: dual mono (0x00) -/
def formats11 : Bytes :=
  [0]

#guard TSOpus.Descriptor.unmarshal formats11 = .ok ({
      channelConfigCode := 0, explicitChannelCount := 0, mappingFamily := 0, streamCount := 0,
      coupledStreamCount := 0, channelMapping := [] } : Verif.TSOpus.Descriptor)
#guard TSOpus.Descriptor.marshal ({
      channelConfigCode := 0, explicitChannelCount := 0, mappingFamily := 0, streamCount := 0,
      coupledStreamCount := 0, channelMapping := [] } : Verif.TSOpus.Descriptor) = .ok formats11
#guard TSOpus.Descriptor.channelCount ({
      channelConfigCode := 0, explicitChannelCount := 0, mappingFamily := 0, streamCount := 0,
      coupledStreamCount := 0, channelMapping := [] } : Verif.TSOpus.Descriptor) = 2

/-- OpusAudioDescriptor: mono (0x01) -/
def formats12 : Bytes :=
  [1]

#guard TSOpus.Descriptor.unmarshal formats12 = .ok ({
      channelConfigCode := 1, explicitChannelCount := 0, mappingFamily := 0, streamCount := 0,
      coupledStreamCount := 0, channelMapping := [] } : Verif.TSOpus.Descriptor)
#guard TSOpus.Descriptor.marshal ({
      channelConfigCode := 1, explicitChannelCount := 0, mappingFamily := 0, streamCount := 0,
      coupledStreamCount := 0, channelMapping := [] } : Verif.TSOpus.Descriptor) = .ok formats12
#guard TSOpus.Descriptor.channelCount ({
      channelConfigCode := 1, explicitChannelCount := 0, mappingFamily := 0, streamCount := 0,
      coupledStreamCount := 0, channelMapping := [] } : Verif.TSOpus.Descriptor) = 1

/-- OpusAudioDescriptor: stereo (0x02) -/
def formats13 : Bytes :=
  [2]

#guard TSOpus.Descriptor.unmarshal formats13 = .ok ({
      channelConfigCode := 2, explicitChannelCount := 0, mappingFamily := 0, streamCount := 0,
      coupledStreamCount := 0, channelMapping := [] } : Verif.TSOpus.Descriptor)
#guard TSOpus.Descriptor.marshal ({
      channelConfigCode := 2, explicitChannelCount := 0, mappingFamily := 0, streamCount := 0,
      coupledStreamCount := 0, channelMapping := [] } : Verif.TSOpus.Descriptor) = .ok formats13
#guard TSOpus.Descriptor.channelCount ({
      channelConfigCode := 2, explicitChannelCount := 0, mappingFamily := 0, streamCount := 0,
      coupledStreamCount := 0, channelMapping := [] } : Verif.TSOpus.Descriptor) = 2

/-- OpusAudioDescriptor: 3ch surround (0x03) -/
def formats14 : Bytes :=
  [3]

#guard TSOpus.Descriptor.unmarshal formats14 = .ok ({
      channelConfigCode := 3, explicitChannelCount := 0, mappingFamily := 0, streamCount := 0,
      coupledStreamCount := 0, channelMapping := [] } : Verif.TSOpus.Descriptor)
#guard TSOpus.Descriptor.marshal ({
      channelConfigCode := 3, explicitChannelCount := 0, mappingFamily := 0, streamCount := 0,
      coupledStreamCount := 0, channelMapping := [] } : Verif.TSOpus.Descriptor) = .ok formats14
#guard TSOpus.Descriptor.channelCount ({
      channelConfigCode := 3, explicitChannelCount := 0, mappingFamily := 0, streamCount := 0,
      coupledStreamCount := 0, channelMapping := [] } : Verif.TSOpus.Descriptor) = 3

/-- OpusAudioDescriptor: quad (0x04) -/
def formats15 : Bytes :=
  [4]

#guard TSOpus.Descriptor.unmarshal formats15 = .ok ({
      channelConfigCode := 4, explicitChannelCount := 0, mappingFamily := 0, streamCount := 0,
      coupledStreamCount := 0, channelMapping := [] } : Verif.TSOpus.Descriptor)
#guard TSOpus.Descriptor.marshal ({
      channelConfigCode := 4, explicitChannelCount := 0, mappingFamily := 0, streamCount := 0,
      coupledStreamCount := 0, channelMapping := [] } : Verif.TSOpus.Descriptor) = .ok formats15
#guard TSOpus.Descriptor.channelCount ({
      channelConfigCode := 4, explicitChannelCount := 0, mappingFamily := 0, streamCount := 0,
      coupledStreamCount := 0, channelMapping := [] } : Verif.TSOpus.Descriptor) = 4

/-- OpusAudioDescriptor: 5ch (0x05) -/
def formats16 : Bytes :=
  [5]

#guard TSOpus.Descriptor.unmarshal formats16 = .ok ({
      channelConfigCode := 5, explicitChannelCount := 0, mappingFamily := 0, streamCount := 0,
      coupledStreamCount := 0, channelMapping := [] } : Verif.TSOpus.Descriptor)
#guard TSOpus.Descriptor.marshal ({
      channelConfigCode := 5, explicitChannelCount := 0, mappingFamily := 0, streamCount := 0,
      coupledStreamCount := 0, channelMapping := [] } : Verif.TSOpus.Descriptor) = .ok formats16
#guard TSOpus.Descriptor.channelCount ({
      channelConfigCode := 5, explicitChannelCount := 0, mappingFamily := 0, streamCount := 0,
      coupledStreamCount := 0, channelMapping := [] } : Verif.TSOpus.Descriptor) = 5

/-- OpusAudioDescriptor: 5.1 (0x06) -/
def formats17 : Bytes :=
  [6]

#guard TSOpus.Descriptor.unmarshal formats17 = .ok ({
      channelConfigCode := 6, explicitChannelCount := 0, mappingFamily := 0, streamCount := 0,
      coupledStreamCount := 0, channelMapping := [] } : Verif.TSOpus.Descriptor)
#guard TSOpus.Descriptor.marshal ({
      channelConfigCode := 6, explicitChannelCount := 0, mappingFamily := 0, streamCount := 0,
      coupledStreamCount := 0, channelMapping := [] } : Verif.TSOpus.Descriptor) = .ok formats17
#guard TSOpus.Descriptor.channelCount ({
      channelConfigCode := 6, explicitChannelCount := 0, mappingFamily := 0, streamCount := 0,
      coupledStreamCount := 0, channelMapping := [] } : Verif.TSOpus.Descriptor) = 6

/-- OpusAudioDescriptor: 6.1 (0x07) -/
def formats18 : Bytes :=
  [7]

#guard TSOpus.Descriptor.unmarshal formats18 = .ok ({
      channelConfigCode := 7, explicitChannelCount := 0, mappingFamily := 0, streamCount := 0,
      coupledStreamCount := 0, channelMapping := [] } : Verif.TSOpus.Descriptor)
#guard TSOpus.Descriptor.marshal ({
      channelConfigCode := 7, explicitChannelCount := 0, mappingFamily := 0, streamCount := 0,
      coupledStreamCount := 0, channelMapping := [] } : Verif.TSOpus.Descriptor) = .ok formats18
#guard TSOpus.Descriptor.channelCount ({
      channelConfigCode := 7, explicitChannelCount := 0, mappingFamily := 0, streamCount := 0,
      coupledStreamCount := 0, channelMapping := [] } : Verif.TSOpus.Descriptor) = 7

/-- OpusAudioDescriptor: 7.1 (0x08) -/
def formats19 : Bytes :=
  [8]

#guard TSOpus.Descriptor.unmarshal formats19 = .ok ({
      channelConfigCode := 8, explicitChannelCount := 0, mappingFamily := 0, streamCount := 0,
      coupledStreamCount := 0, channelMapping := [] } : Verif.TSOpus.Descriptor)
#guard TSOpus.Descriptor.marshal ({
      channelConfigCode := 8, explicitChannelCount := 0, mappingFamily := 0, streamCount := 0,
      coupledStreamCount := 0, channelMapping := [] } : Verif.TSOpus.Descriptor) = .ok formats19
#guard TSOpus.Descriptor.channelCount ({
      channelConfigCode := 8, explicitChannelCount := 0, mappingFamily := 0, streamCount := 0,
      coupledStreamCount := 0, channelMapping := [] } : Verif.TSOpus.Descriptor) = 8

/-- OpusAudioDescriptor: dual mono alias (0x80) -/
def formats20 : Bytes :=
  [128]

#guard TSOpus.Descriptor.unmarshal formats20 = .ok ({
      channelConfigCode := 128, explicitChannelCount := 0, mappingFamily := 0, streamCount := 0,
      coupledStreamCount := 0, channelMapping := [] } : Verif.TSOpus.Descriptor)
#guard TSOpus.Descriptor.marshal ({
      channelConfigCode := 128, explicitChannelCount := 0, mappingFamily := 0, streamCount := 0,
      coupledStreamCount := 0, channelMapping := [] } : Verif.TSOpus.Descriptor) = .ok formats20
#guard TSOpus.Descriptor.channelCount ({
      channelConfigCode := 128, explicitChannelCount := 0, mappingFamily := 0, streamCount := 0,
      coupledStreamCount := 0, channelMapping := [] } : Verif.TSOpus.Descriptor) = 2

/-- OpusAudioDescriptor: 0x82 - 1ch mapping_family 1 -/
def formats21 : Bytes :=
  [130]

#guard TSOpus.Descriptor.unmarshal formats21 = .ok ({
      channelConfigCode := 130, explicitChannelCount := 0, mappingFamily := 0, streamCount := 0,
      coupledStreamCount := 0, channelMapping := [] } : Verif.TSOpus.Descriptor)
#guard TSOpus.Descriptor.marshal ({
      channelConfigCode := 130, explicitChannelCount := 0, mappingFamily := 0, streamCount := 0,
      coupledStreamCount := 0, channelMapping := [] } : Verif.TSOpus.Descriptor) = .ok formats21
#guard TSOpus.Descriptor.channelCount ({
      channelConfigCode := 130, explicitChannelCount := 0, mappingFamily := 0, streamCount := 0,
      coupledStreamCount := 0, channelMapping := [] } : Verif.TSOpus.Descriptor) = 1

/-- OpusAudioDescriptor: 0x88 - 7ch mapping_family 1 -/
def formats22 : Bytes :=
  [136]

#guard TSOpus.Descriptor.unmarshal formats22 = .ok ({
      channelConfigCode := 136, explicitChannelCount := 0, mappingFamily := 0, streamCount := 0,
      coupledStreamCount := 0, channelMapping := [] } : Verif.TSOpus.Descriptor)
#guard TSOpus.Descriptor.marshal ({
      channelConfigCode := 136, explicitChannelCount := 0, mappingFamily := 0, streamCount := 0,
      coupledStreamCount := 0, channelMapping := [] } : Verif.TSOpus.Descriptor) = .ok formats22
#guard TSOpus.Descriptor.channelCount ({
      channelConfigCode := 136, explicitChannelCount := 0, mappingFamily := 0, streamCount := 0,
      coupledStreamCount := 0, channelMapping := [] } : Verif.TSOpus.Descriptor) = 7

/-- OpusAudioDescriptor: explicit mono mapping_family 0 -/
def formats23 : Bytes :=
  [129, 1, 0]

#guard TSOpus.Descriptor.unmarshal formats23 = .ok ({
      channelConfigCode := 129, explicitChannelCount := 1, mappingFamily := 0, streamCount := 0,
      coupledStreamCount := 0, channelMapping := [] } : Verif.TSOpus.Descriptor)
#guard TSOpus.Descriptor.marshal ({
      channelConfigCode := 129, explicitChannelCount := 1, mappingFamily := 0, streamCount := 0,
      coupledStreamCount := 0, channelMapping := [] } : Verif.TSOpus.Descriptor) = .ok formats23
#guard TSOpus.Descriptor.channelCount ({
      channelConfigCode := 129, explicitChannelCount := 1, mappingFamily := 0, streamCount := 0,
      coupledStreamCount := 0, channelMapping := [] } : Verif.TSOpus.Descriptor) = 1

/-- OpusAudioDescriptor: explicit stereo mapping_family 0 -/
def formats24 : Bytes :=
  [129, 2, 0]

#guard TSOpus.Descriptor.unmarshal formats24 = .ok ({
      channelConfigCode := 129, explicitChannelCount := 2, mappingFamily := 0, streamCount := 0,
      coupledStreamCount := 0, channelMapping := [] } : Verif.TSOpus.Descriptor)
#guard TSOpus.Descriptor.marshal ({
      channelConfigCode := 129, explicitChannelCount := 2, mappingFamily := 0, streamCount := 0,
      coupledStreamCount := 0, channelMapping := [] } : Verif.TSOpus.Descriptor) = .ok formats24
#guard TSOpus.Descriptor.channelCount ({
      channelConfigCode := 129, explicitChannelCount := 2, mappingFamily := 0, streamCount := 0,
      coupledStreamCount := 0, channelMapping := [] } : Verif.TSOpus.Descriptor) = 2

/-- OpusAudioDescriptor: explicit 1ch mapping_family 1 -/
def formats25 : Bytes :=
  [129, 1, 1, 0]

#guard TSOpus.Descriptor.unmarshal formats25 = .ok ({
      channelConfigCode := 129, explicitChannelCount := 1, mappingFamily := 1, streamCount := 1,
      coupledStreamCount := 0, channelMapping := [0] } : Verif.TSOpus.Descriptor)
#guard TSOpus.Descriptor.marshal ({
      channelConfigCode := 129, explicitChannelCount := 1, mappingFamily := 1, streamCount := 1,
      coupledStreamCount := 0, channelMapping := [0] } : Verif.TSOpus.Descriptor) = .ok formats25
#guard TSOpus.Descriptor.channelCount ({
      channelConfigCode := 129, explicitChannelCount := 1, mappingFamily := 1, streamCount := 1,
      coupledStreamCount := 0, channelMapping := [0] } : Verif.TSOpus.Descriptor) = 1

/-- OpusAudioDescriptor: explicit 5.1 mapping_family 1 -/
def formats26 : Bytes :=
  [129, 6, 1, 104, 66, 157]

#guard TSOpus.Descriptor.unmarshal formats26 = .ok ({
      channelConfigCode := 129, explicitChannelCount := 6, mappingFamily := 1, streamCount := 4,
      coupledStreamCount := 2, channelMapping := [0, 4, 1, 2, 3, 5] } : Verif.TSOpus.Descriptor)
#guard TSOpus.Descriptor.marshal ({
      channelConfigCode := 129, explicitChannelCount := 6, mappingFamily := 1, streamCount := 4,
      coupledStreamCount := 2, channelMapping := [0, 4, 1, 2, 3, 5]
    } : Verif.TSOpus.Descriptor) = .ok formats26
#guard TSOpus.Descriptor.channelCount ({
      channelConfigCode := 129, explicitChannelCount := 6, mappingFamily := 1, streamCount := 4,
      coupledStreamCount := 2, channelMapping := [0, 4, 1, 2, 3, 5]
    } : Verif.TSOpus.Descriptor) = 6

/-- OpusAudioDescriptor: explicit 3ch mapping_family 255 -/
def formats27 : Bytes :=
  [129, 3, 255, 129, 128]

#guard TSOpus.Descriptor.unmarshal formats27 = .ok ({
      channelConfigCode := 129, explicitChannelCount := 3, mappingFamily := 255,
      streamCount := 3, coupledStreamCount := 0, channelMapping := [0, 1, 2]
    } : Verif.TSOpus.Descriptor)
#guard TSOpus.Descriptor.marshal ({
      channelConfigCode := 129, explicitChannelCount := 3, mappingFamily := 255,
      streamCount := 3, coupledStreamCount := 0, channelMapping := [0, 1, 2]
    } : Verif.TSOpus.Descriptor) = .ok formats27
#guard TSOpus.Descriptor.channelCount ({
      channelConfigCode := 129, explicitChannelCount := 3, mappingFamily := 255,
      streamCount := 3, coupledStreamCount := 0, channelMapping := [0, 1, 2]
    } : Verif.TSOpus.Descriptor) = 3

/-- OpusControlHeader: a -/
def formats28 : Bytes :=
  [127, 244, 255, 255, 255, 255, 255, 255, 255, 255, 255, 255, 255, 255, 255, 255, 255, 255, 255,
   255, 255, 255, 255, 255, 255, 255, 255, 255, 255, 255, 255, 255, 255, 255, 255, 255, 255, 255,
   255, 255, 255, 255, 255, 255, 255, 255, 255, 255, 255, 255, 255, 255, 255, 255, 255, 255, 255,
   255, 255, 255, 255, 255, 255, 255, 255, 255, 255, 255, 255, 255, 255, 255, 255, 255, 255, 255,
   255, 255, 255, 255, 255, 255, 255, 255, 255, 255, 255, 255, 255, 255, 255, 255, 255, 255, 255,
   255, 255, 255, 255, 255, 255, 103, 0, 20, 200, 0, 0, 0, 0, 0, 0, 0, 0, 0, 0, 0, 0, 0, 0, 0, 0,
   0, 0, 0, 0, 0, 0, 0, 0, 0, 0, 0, 0, 0, 0, 0, 0, 0, 0, 0, 0, 0, 0, 0, 0, 0, 0, 0, 0, 0, 0, 0,
   0, 0, 0, 0, 0, 0, 0, 0, 0, 0, 0, 0, 0, 0, 0, 0, 0, 0, 0, 0, 0, 0, 0, 0, 0, 0, 0, 0, 0, 0, 0,
   0, 0, 0, 0, 0, 0, 0, 0, 0, 0, 0, 0, 0, 0, 0, 0, 0, 0, 0, 0, 0, 0, 0, 0, 0, 0, 0, 0, 0, 0, 0,
   0, 0, 0, 0, 0, 0, 0, 0, 0, 0, 0, 0, 0, 0, 0, 0, 0, 0, 0, 0, 0, 0, 0, 0, 0, 0, 0, 0, 0, 0, 0,
   0, 0, 0, 0, 0, 0, 0, 0, 0, 0, 0, 0, 0, 0, 0, 0, 0, 0, 0, 0, 0, 0, 0, 0, 0, 0, 0, 0, 0, 0, 0,
   0, 0, 0, 0, 0, 0, 0, 0, 0, 0, 0, 0, 0, 0, 0, 0, 0, 0, 0, 0, 0, 0, 0, 0, 0, 0, 0, 0, 0]

#guard (TSOpus.ControlHeader.unmarshal formats28 0 >>= fun r => .ok r.1) = .ok ({
      payloadSize := 25348, startTrimFlag := true, endTrimFlag := false,
      controlExtensionFlag := true, startTrim := 20, endTrim := 0, controlExtensionLength := 200
    } : Verif.TSOpus.ControlHeader)
#guard (TSOpus.ControlHeader.marshalTo ({
      payloadSize := 25348, startTrimFlag := true, endTrimFlag := false,
      controlExtensionFlag := true, startTrim := 20, endTrim := 0, controlExtensionLength := 200
    } : Verif.TSOpus.ControlHeader) (List.replicate (TSOpus.ControlHeader.marshalSize ({
      payloadSize := 25348, startTrimFlag := true, endTrimFlag := false,
      controlExtensionFlag := true, startTrim := 20, endTrim := 0, controlExtensionLength := 200
    } : Verif.TSOpus.ControlHeader)) 0) 0 >>= fun r => .ok r.1) = .ok formats28

/-- OpusControlHeader: b -/
def formats29 : Bytes :=
  [127, 224, 255, 255, 255, 255, 255, 255, 255, 255, 255, 255, 255, 255, 255, 255, 255, 255, 255,
   255, 255, 255, 255, 255, 255, 255, 255, 255, 255, 255, 255, 255, 255, 255, 255, 255, 255, 255,
   255, 255, 255, 255, 255, 255, 255, 255, 255, 255, 255, 255, 255, 255, 255, 255, 255, 255, 255,
   255, 255, 255, 255, 255, 255, 255, 255, 255, 255, 255, 255, 255, 255, 255, 255, 255, 255, 255,
   255, 255, 255, 255, 255, 255, 255, 255, 255, 255, 255, 255, 255, 255, 255, 255, 255, 255, 255,
   255, 255, 255, 255, 255, 255, 103]

#guard (TSOpus.ControlHeader.unmarshal formats29 0 >>= fun r => .ok r.1) = .ok ({
      payloadSize := 25348, startTrimFlag := false, endTrimFlag := false,
      controlExtensionFlag := false, startTrim := 0, endTrim := 0, controlExtensionLength := 0
    } : Verif.TSOpus.ControlHeader)
#guard (TSOpus.ControlHeader.marshalTo ({
      payloadSize := 25348, startTrimFlag := false, endTrimFlag := false,
      controlExtensionFlag := false, startTrim := 0, endTrim := 0, controlExtensionLength := 0
    } : Verif.TSOpus.ControlHeader) (List.replicate (TSOpus.ControlHeader.marshalSize ({
      payloadSize := 25348, startTrimFlag := false, endTrimFlag := false,
      controlExtensionFlag := false, startTrim := 0, endTrim := 0, controlExtensionLength := 0
    } : Verif.TSOpus.ControlHeader)) 0) 0 >>= fun r => .ok r.1) = .ok formats29

/-- OpusControlHeader: c -/
def formats30 : Bytes :=
  [127, 248, 255, 255, 255, 255, 255, 255, 255, 255, 255, 255, 255, 255, 255, 255, 255, 255, 255,
   255, 255, 255, 255, 255, 255, 255, 255, 255, 255, 255, 255, 255, 255, 255, 255, 255, 255, 255,
   255, 255, 255, 255, 255, 255, 255, 255, 255, 255, 255, 255, 255, 255, 255, 255, 255, 255, 255,
   255, 255, 255, 255, 255, 255, 255, 255, 255, 255, 255, 255, 255, 255, 255, 255, 255, 255, 255,
   255, 255, 255, 255, 255, 255, 255, 255, 255, 255, 255, 255, 255, 255, 255, 255, 255, 255, 255,
   255, 255, 255, 255, 255, 255, 103, 1, 200, 27, 211]

#guard (TSOpus.ControlHeader.unmarshal formats30 0 >>= fun r => .ok r.1) = .ok ({
      payloadSize := 25348, startTrimFlag := true, endTrimFlag := true,
      controlExtensionFlag := false, startTrim := 456, endTrim := 7123,
      controlExtensionLength := 0 } : Verif.TSOpus.ControlHeader)
#guard (TSOpus.ControlHeader.marshalTo ({
      payloadSize := 25348, startTrimFlag := true, endTrimFlag := true,
      controlExtensionFlag := false, startTrim := 456, endTrim := 7123,
      controlExtensionLength := 0
    } : Verif.TSOpus.ControlHeader) (List.replicate (TSOpus.ControlHeader.marshalSize ({
      payloadSize := 25348, startTrimFlag := true, endTrimFlag := true,
      controlExtensionFlag := false, startTrim := 456, endTrim := 7123,
      controlExtensionLength := 0
    } : Verif.TSOpus.ControlHeader)) 0) 0 >>= fun r => .ok r.1) = .ok formats30

/-! `pkg/formats/fmp4/parts_test.go` -/

/-- parts: single part -/
def formats31 : Bytes :=
  [0, 0, 0, 200, 109, 111, 111, 102, 0, 0, 0, 16, 109, 102, 104, 100, 0, 0, 0, 0, 0, 0, 0, 4, 0,
   0, 0, 96, 116, 114, 97, 102, 0, 0, 0, 16, 116, 102, 104, 100, 0, 2, 0, 0, 0, 0, 1, 0, 0, 0, 0,
   20, 116, 102, 100, 116, 1, 0, 0, 0, 0, 0, 0, 0, 0, 1, 95, 144, 0, 0, 0, 52, 116, 114, 117,
   110, 1, 0, 15, 1, 0, 0, 0, 2, 0, 0, 0, 208, 0, 0, 0, 30, 0, 0, 0, 2, 0, 0, 0, 0, 0, 0, 0, 0,
   0, 0, 0, 60, 0, 0, 0, 2, 0, 1, 0, 0, 0, 0, 0, 15, 0, 0, 0, 80, 116, 114, 97, 102, 0, 0, 0, 16,
   116, 102, 104, 100, 0, 2, 0, 0, 0, 0, 1, 1, 0, 0, 0, 20, 116, 102, 100, 116, 1, 0, 0, 0, 0, 0,
   0, 0, 0, 0, 172, 68, 0, 0, 0, 36, 116, 114, 117, 110, 1, 0, 3, 1, 0, 0, 0, 2, 0, 0, 0, 212, 0,
   0, 0, 30, 0, 0, 0, 2, 0, 0, 0, 30, 0, 0, 0, 2, 0, 0, 0, 16, 109, 100, 97, 116, 1, 2, 3, 4, 5,
   6, 7, 8]

#guard (FMP4.marshalParts [({
      sequenceNumber := 4, tracks := [({
         id := 256, baseTime := 90000, samples := [({
            duration := 30, ptsOffset := 0, isNonSync := false, payload := [1, 2]
          } : Verif.FMP4.Sample), ({
            duration := 60, ptsOffset := 15, isNonSync := true, payload := [3, 4]
          } : Verif.FMP4.Sample)] } : Verif.FMP4.PartTrack), ({
         id := 257, baseTime := 44100, samples := [({
            duration := 30, payload := [5, 6] } : Verif.FMP4.Sample), ({
            duration := 30, payload := [7, 8] } : Verif.FMP4.Sample)] } : Verif.FMP4.PartTrack)]
    } : Verif.FMP4.Part)] {} >>= fun f => .ok f.buf) = .ok formats31
#guard FMP4.unmarshal formats31 = .ok [({
      sequenceNumber := 4, tracks := [({
         id := 256, baseTime := 90000, samples := [({
            duration := 30, ptsOffset := 0, isNonSync := false, payload := [1, 2]
          } : Verif.FMP4.Sample), ({
            duration := 60, ptsOffset := 15, isNonSync := true, payload := [3, 4]
          } : Verif.FMP4.Sample)] } : Verif.FMP4.PartTrack), ({
         id := 257, baseTime := 44100, samples := [({
            duration := 30, payload := [5, 6] } : Verif.FMP4.Sample), ({
            duration := 30, payload := [7, 8] } : Verif.FMP4.Sample)] } : Verif.FMP4.PartTrack)]
    } : Verif.FMP4.Part)]

/-- parts: concatenated parts -/
def formats32 : Bytes :=
  [0, 0, 0, 96, 109, 111, 111, 102, 0, 0, 0, 16, 109, 102, 104, 100, 0, 0, 0, 0, 0, 0, 0, 4, 0,
   0, 0, 72, 116, 114, 97, 102, 0, 0, 0, 16, 116, 102, 104, 100, 0, 2, 0, 0, 0, 0, 0, 100, 0, 0,
   0, 20, 116, 102, 100, 116, 1, 0, 0, 0, 0, 0, 0, 0, 0, 1, 95, 144, 0, 0, 0, 28, 116, 114, 117,
   110, 1, 0, 3, 1, 0, 0, 0, 1, 0, 0, 0, 104, 0, 0, 0, 30, 0, 0, 0, 2, 0, 0, 0, 10, 109, 100, 97,
   116, 1, 2, 0, 0, 0, 96, 109, 111, 111, 102, 0, 0, 0, 16, 109, 102, 104, 100, 0, 0, 0, 0, 0, 0,
   0, 4, 0, 0, 0, 72, 116, 114, 97, 102, 0, 0, 0, 16, 116, 102, 104, 100, 0, 2, 0, 0, 0, 0, 0,
   100, 0, 0, 0, 20, 116, 102, 100, 116, 1, 0, 0, 0, 0, 0, 0, 0, 0, 2, 191, 32, 0, 0, 0, 28, 116,
   114, 117, 110, 1, 0, 3, 1, 0, 0, 0, 1, 0, 0, 0, 104, 0, 0, 0, 30, 0, 0, 0, 2, 0, 0, 0, 10,
   109, 100, 97, 116, 3, 4]

#guard (FMP4.marshalParts [({
      sequenceNumber := 4, tracks := [({
         id := 100, baseTime := 90000, samples := [({
            duration := 30, ptsOffset := 0, isNonSync := false, payload := [1, 2]
          } : Verif.FMP4.Sample)] } : Verif.FMP4.PartTrack)] } : Verif.FMP4.Part), ({
      sequenceNumber := 4, tracks := [({
         id := 100, baseTime := 180000, samples := [({
            duration := 30, ptsOffset := 0, isNonSync := false, payload := [3, 4]
          } : Verif.FMP4.Sample)] } : Verif.FMP4.PartTrack)]
    } : Verif.FMP4.Part)] {} >>= fun f => .ok f.buf) = .ok formats32
#guard FMP4.unmarshal formats32 = .ok [({
      sequenceNumber := 4, tracks := [({
         id := 100, baseTime := 90000, samples := [({
            duration := 30, ptsOffset := 0, isNonSync := false, payload := [1, 2]
          } : Verif.FMP4.Sample)] } : Verif.FMP4.PartTrack)] } : Verif.FMP4.Part), ({
      sequenceNumber := 4, tracks := [({
         id := 100, baseTime := 180000, samples := [({
            duration := 30, ptsOffset := 0, isNonSync := false, payload := [3, 4]
          } : Verif.FMP4.Sample)] } : Verif.FMP4.PartTrack)] } : Verif.FMP4.Part)]

/-- parts: no samples -/
def formats33 : Bytes :=
  [0, 0, 0, 88, 109, 111, 111, 102, 0, 0, 0, 16, 109, 102, 104, 100, 0, 0, 0, 0, 0, 0, 0, 1, 0,
   0, 0, 64, 116, 114, 97, 102, 0, 0, 0, 16, 116, 102, 104, 100, 0, 2, 0, 0, 0, 0, 0, 1, 0, 0, 0,
   20, 116, 102, 100, 116, 1, 0, 0, 0, 0, 0, 0, 0, 0, 0, 0, 0, 0, 0, 0, 20, 116, 114, 117, 110,
   1, 0, 3, 1, 0, 0, 0, 0, 0, 0, 0, 96, 0, 0, 0, 8, 109, 100, 97, 116]

#guard (FMP4.marshalParts [({
      sequenceNumber := 1, tracks := [({
         id := 1, baseTime := 0 } : Verif.FMP4.PartTrack)]
    } : Verif.FMP4.Part)] {} >>= fun f => .ok f.buf) = .ok formats33
#guard FMP4.unmarshal formats33 = .ok [({
      sequenceNumber := 1, tracks := [({
         id := 1, baseTime := 0 } : Verif.FMP4.PartTrack)] } : Verif.FMP4.Part)]

/-- parts: trun version 0 with SampleCompositionTimeOffsetV0 -/
def formats34 : Bytes :=
  [0, 0, 0, 120, 109, 111, 111, 102, 0, 0, 0, 16, 109, 102, 104, 100, 0, 0, 0, 0, 0, 0, 0, 5, 0,
   0, 0, 96, 116, 114, 97, 102, 0, 0, 0, 16, 116, 102, 104, 100, 0, 2, 0, 0, 0, 0, 0, 200, 0, 0,
   0, 20, 116, 102, 100, 116, 1, 0, 0, 0, 0, 0, 0, 0, 0, 2, 191, 32, 0, 0, 0, 52, 116, 114, 117,
   110, 0, 0, 15, 1, 0, 0, 0, 2, 0, 0, 0, 128, 0, 0, 0, 45, 0, 0, 0, 2, 0, 0, 0, 0, 0, 0, 0, 10,
   0, 0, 0, 45, 0, 0, 0, 2, 0, 1, 0, 0, 0, 0, 0, 20, 0, 0, 0, 12, 109, 100, 97, 116, 170, 187,
   204, 221]

#guard FMP4.unmarshal formats34 = .ok [({
      sequenceNumber := 5, tracks := [({
         id := 200, baseTime := 180000, samples := [({
            duration := 45, ptsOffset := 10, isNonSync := false, payload := [170, 187]
          } : Verif.FMP4.Sample), ({
            duration := 45, ptsOffset := 20, isNonSync := true, payload := [204, 221]
          } : Verif.FMP4.Sample)] } : Verif.FMP4.PartTrack)] } : Verif.FMP4.Part)]

/-- parts: trun version 0 with zero PTSOffset -/
def formats35 : Bytes :=
  [0, 0, 0, 96, 109, 111, 111, 102, 0, 0, 0, 16, 109, 102, 104, 100, 0, 0, 0, 0, 0, 0, 0, 1, 0,
   0, 0, 72, 116, 114, 97, 102, 0, 0, 0, 16, 116, 102, 104, 100, 0, 2, 0, 0, 0, 0, 0, 100, 0, 0,
   0, 20, 116, 102, 100, 116, 1, 0, 0, 0, 0, 0, 0, 0, 0, 0, 0, 0, 0, 0, 0, 28, 116, 114, 117,
   110, 0, 0, 3, 1, 0, 0, 0, 1, 0, 0, 0, 104, 0, 0, 0, 30, 0, 0, 0, 2, 0, 0, 0, 10, 109, 100, 97,
   116, 17, 34]

#guard FMP4.unmarshal formats35 = .ok [({
      sequenceNumber := 1, tracks := [({
         id := 100, baseTime := 0, samples := [({
            duration := 30, ptsOffset := 0, isNonSync := false, payload := [17, 34]
          } : Verif.FMP4.Sample)] } : Verif.FMP4.PartTrack)] } : Verif.FMP4.Part)]

/-- parts: tfdt version 0 -/
def formats36 : Bytes :=
  [0, 0, 0, 92, 109, 111, 111, 102, 0, 0, 0, 16, 109, 102, 104, 100, 0, 0, 0, 0, 0, 0, 0, 4, 0,
   0, 0, 68, 116, 114, 97, 102, 0, 0, 0, 16, 116, 102, 104, 100, 0, 2, 0, 0, 0, 0, 0, 1, 0, 0, 0,
   16, 116, 102, 100, 116, 0, 0, 0, 0, 0, 1, 95, 144, 0, 0, 0, 28, 116, 114, 117, 110, 0, 0, 3,
   1, 0, 0, 0, 1, 0, 0, 0, 100, 0, 0, 0, 30, 0, 0, 0, 2, 0, 0, 0, 10, 109, 100, 97, 116, 1, 2]

#guard FMP4.unmarshal formats36 = .ok [({
      sequenceNumber := 4, tracks := [({
         id := 1, baseTime := 90000, samples := [({
            duration := 30, ptsOffset := 0, isNonSync := false, payload := [1, 2]
          } : Verif.FMP4.Sample)] } : Verif.FMP4.PartTrack)] } : Verif.FMP4.Part)]

end Verif.Tests
