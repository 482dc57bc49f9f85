import Verif.Lemmas.AV1
import Verif.Lemmas.AnnexB
import Verif.Lemmas.Avcc
import Verif.Lemmas.BE
import Verif.Lemmas.BitField
import Verif.Lemmas.BitList
import Verif.Lemmas.BitM
import Verif.Lemmas.BitPos
import Verif.Lemmas.BitRead
import Verif.Lemmas.BitWrite
import Verif.Lemmas.Buf
import Verif.Lemmas.ByteR
import Verif.Lemmas.ByteW
import Verif.Lemmas.CodecRecords
import Verif.Lemmas.Emulation
import Verif.Lemmas.FMP4
import Verif.Lemmas.G711
import Verif.Lemmas.Golomb
import Verif.Lemmas.Grammar
import Verif.Lemmas.ISOFile
import Verif.Lemmas.MP4Boxes
import Verif.Lemmas.PreDemuxer
import Verif.Lemmas.StepM
import Verif.Lemmas.Util
import Verif.Model.ADTS
import Verif.Model.AV1
import Verif.Model.AV1Seq
import Verif.Model.AudioHeaders
import Verif.Model.Base
import Verif.Model.BitM
import Verif.Model.Bits
import Verif.Model.Buf
import Verif.Model.ByteR
import Verif.Model.ByteW
import Verif.Model.Depth
import Verif.Model.FMP4
import Verif.Model.FMP4Init
import Verif.Model.FMP4Sample
import Verif.Model.FMP4Work
import Verif.Model.FlacOpus
import Verif.Model.Float64
import Verif.Model.G711
import Verif.Model.H264
import Verif.Model.H264DTS
import Verif.Model.H264SPS
import Verif.Model.H265DTS
import Verif.Model.H265SPS
import Verif.Model.Int32
import Verif.Model.JPEG
import Verif.Model.MP4Boxes
import Verif.Model.MP4Codec
import Verif.Model.MP4Writer
import Verif.Model.MPEG4Config
import Verif.Model.MPEG4Video
import Verif.Model.MPEGTS
import Verif.Model.MuxElementState
import Verif.Model.NALUType
import Verif.Model.PCE
import Verif.Model.PMP4
import Verif.Model.PMP4File
import Verif.Model.PMP4Heap
import Verif.Model.PMP4Work
import Verif.Model.Readers
import Verif.Model.Receivers
import Verif.Model.Seeker
import Verif.Model.StepM
import Verif.Model.TSChain
import Verif.Model.TSMetadata
import Verif.Model.TSMetadataMem
import Verif.Model.TSOpus
import Verif.Model.TSTables
import Verif.Model.TSWriter
import Verif.Model.TimeDecoder
import Verif.Model.VP9
import Verif.Model.Views
import Verif.Props.ADTS
import Verif.Props.ASC
import Verif.Props.AV1
import Verif.Props.AV1Seq
import Verif.Props.AudioHeaders
import Verif.Props.Bits
import Verif.Props.CodecKept
import Verif.Props.CodecRecords
import Verif.Props.CodecRecordsRead
import Verif.Props.CodecRecordsReadCases
import Verif.Props.CodecRecordsSamples
import Verif.Props.CodecWrite
import Verif.Props.CutStreams
import Verif.Props.DTSBuffers
import Verif.Props.DTSIdle
import Verif.Props.DTSOrigin
import Verif.Props.DTSRate
import Verif.Props.DTSReordered
import Verif.Props.DTSReset
import Verif.Props.DTSSamples
import Verif.Props.DTSStart
import Verif.Props.DTSStart265
import Verif.Props.Depth
import Verif.Props.DepthWritten
import Verif.Props.FMP4Cut
import Verif.Props.FMP4FileISO
import Verif.Props.FMP4Fragments
import Verif.Props.FMP4Hostile
import Verif.Props.FMP4InitAgain
import Verif.Props.FMP4InitAny
import Verif.Props.FMP4InitAnyCases
import Verif.Props.FMP4InitCut
import Verif.Props.FMP4InitHostile
import Verif.Props.FMP4InitRoundTrip
import Verif.Props.FMP4InitSamples
import Verif.Props.FMP4InitTree
import Verif.Props.FMP4Limit
import Verif.Props.FMP4Media
import Verif.Props.FMP4PartsAgain
import Verif.Props.FMP4PartsISO
import Verif.Props.FMP4RoundTrip
import Verif.Props.FMP4Runs
import Verif.Props.FMP4Work
import Verif.Props.FMP4Write
import Verif.Props.FitsExactly
import Verif.Props.FlacOpus
import Verif.Props.FrameRate
import Verif.Props.G711
import Verif.Props.G711Nearest
import Verif.Props.H264
import Verif.Props.H264DTS
import Verif.Props.H264SPS
import Verif.Props.H265DTS
import Verif.Props.H265SPS
import Verif.Props.Int32
import Verif.Props.JPEG
import Verif.Props.MP4BoxesRead
import Verif.Props.MPEG4Video
import Verif.Props.MPEGTSClock
import Verif.Props.MPEGTSDescriptors
import Verif.Props.MPEGTSOrigin
import Verif.Props.MPEGTSReader
import Verif.Props.MPEGTSRoundTrip
import Verif.Props.MPEGTSTracks
import Verif.Props.MovieFileAny
import Verif.Props.MovieFileNot
import Verif.Props.MovieFileRead
import Verif.Props.MovieFileTables
import Verif.Props.MuxElement
import Verif.Props.MuxElementState
import Verif.Props.NALUNames
import Verif.Props.PCE
import Verif.Props.PMP4Chunks
import Verif.Props.PMP4Edits
import Verif.Props.PMP4FileCut
import Verif.Props.PMP4FileExact
import Verif.Props.PMP4FileHostile
import Verif.Props.PMP4FileISO
import Verif.Props.PMP4FileMovie
import Verif.Props.PMP4FileRewrite
import Verif.Props.PMP4FileRoundTrip
import Verif.Props.PMP4FileSamples
import Verif.Props.PMP4FileSize
import Verif.Props.PMP4FileTables
import Verif.Props.PMP4FileWrite
import Verif.Props.PMP4Hostile
import Verif.Props.PMP4Order
import Verif.Props.PMP4RoundTrip
import Verif.Props.PMP4Tables
import Verif.Props.PMP4Work
import Verif.Props.Prefix
import Verif.Props.Readers
import Verif.Props.Receivers
import Verif.Props.ReceiversVideo
import Verif.Props.Reencode
import Verif.Props.RefPicSets
import Verif.Props.Seeker
import Verif.Props.SharedSamples
import Verif.Props.SliceHeader
import Verif.Props.StreamMux
import Verif.Props.TSChain
import Verif.Props.TSMetadata
import Verif.Props.TSMetadataMem
import Verif.Props.TSOpus
import Verif.Props.TSTables
import Verif.Props.TSWriter
import Verif.Props.TimeDecoder
import Verif.Props.VP9
import Verif.Props.Views
import Verif.Spec.ADTS
import Verif.Spec.AV1
import Verif.Spec.AV1Seq
import Verif.Spec.AudioHeaders
import Verif.Spec.BitList
import Verif.Spec.Bytes
import Verif.Spec.CodecEntries
import Verif.Spec.CodecRecords
import Verif.Spec.DTS
import Verif.Spec.FMP4
import Verif.Spec.FMP4Media
import Verif.Spec.FlacOpus
import Verif.Spec.Float64
import Verif.Spec.Fragments
import Verif.Spec.G711
import Verif.Spec.Grammar
import Verif.Spec.H264
import Verif.Spec.H264SPS
import Verif.Spec.H265SPS
import Verif.Spec.ISOFile
import Verif.Spec.ISOFragments
import Verif.Spec.InitSegment
import Verif.Spec.JPEG
import Verif.Spec.MPEG4Config
import Verif.Spec.MPEG4Video
import Verif.Spec.MPEGTS
import Verif.Spec.MovieFile
import Verif.Spec.MuxElement
import Verif.Spec.NALUNames
import Verif.Spec.PCE
import Verif.Spec.Prefix
import Verif.Spec.Rate
import Verif.Spec.Readers
import Verif.Spec.RefPicSets
import Verif.Spec.SampleTables
import Verif.Spec.SliceHeader
import Verif.Spec.TSDescriptors
import Verif.Spec.TSMetadata
import Verif.Spec.TSOpus
import Verif.Spec.VP9
import Verif.Tests.Audio
import Verif.Tests.Formats
import Verif.Tests.Video
