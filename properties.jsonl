{"id": "C01", "title": "Bit reader returns exactly the next n bits", "statement": "bits.ReadBits(buf,&pos,n) with n>=1 returns the unsigned big-endian number formed by bits pos..pos+n-1 of buf and advances pos by exactly n when those bits exist, returns an error (and no value) when they do not, and never indexes outside buf. Reading a bits and then b bits gives the same number as reading a+b bits at once.", "quantifier": "every buffer, every start position 0<=pos<=8*len(buf), every width 1<=n<=64", "why_tests_cant": "alignment, width and buffer length interact: 8 alignments x 64 widths x all contents; a table of examples cannot exclude a carry error in one alignment", "anchors": ["pkg/bits/read.go:HasSpace", "pkg/bits/read.go:ReadBits", "pkg/bits/read.go:ReadBitsUnsafe", "pkg/bits/read.go:ReadFlag", "pkg/bits/read.go:ReadFlagUnsafe"]}
{"id": "C02", "title": "Bit writer appends exactly n bits and nothing else", "statement": "Writing a value v<2^n with bits.WriteBitsUnsafe at position pos into a buffer whose bits from pos on are zero changes exactly bits pos..pos+n-1, to the big-endian n-bit form of v, leaves all earlier and later bits alone, advances pos by n, and never writes outside a buffer that has room; any sequence of writes is read back by the same sequence of reads.", "quantifier": "every buffer, position, width 1..64, value below 2^n, and every sequence of such writes", "why_tests_cant": "the effect on neighbouring bits depends on alignment and history; tests write a handful of fixed layouts", "anchors": ["pkg/bits/write.go:WriteBitsUnsafe", "pkg/bits/write.go:WriteFlagUnsafe", "pkg/bits/read.go:ReadBitsUnsafe"]}
{"id": "C03", "title": "Unsigned Exp-Golomb decoding inverts the standard code", "statement": "bits.ReadGolombUnsigned applied at the start of the Exp-Golomb code word of v (followed by anything) returns v and advances by exactly the code word's length, for every v<=2^32-2; it reports an error on truncated input or more than 32 leading zeros, and never indexes outside the buffer when pos<=8*len(buf).", "quantifier": "every v, every bit offset, every suffix, every malformed input", "why_tests_cant": "2^32 values times all offsets; truncation at every bit; the boundary at 32 leading zeros is not in the examples", "anchors": ["pkg/bits/read.go:ReadGolombUnsigned"]}
{"id": "C04", "title": "Signed Exp-Golomb decoding inverts the standard mapping", "statement": "bits.ReadGolombSigned returns k when positioned on the signed Exp-Golomb code word of k, for every k with |k|<=2^30, and fails exactly when the unsigned decoder fails.", "quantifier": "every such integer k, offset and suffix", "why_tests_cant": "the two's-complement cast makes large values wrap; tests use small values only", "anchors": ["pkg/bits/read.go:ReadGolombSigned", "pkg/bits/read.go:ReadGolombUnsigned"]}
{"id": "C05", "title": "Emulation prevention removal is the inverse of insertion", "statement": "h264.EmulationPreventionRemove applied to a NALU produced by the standard's emulation-prevention insertion returns the original RBSP, byte for byte; it returns input unchanged if the input contains no 00 00 03.", "quantifier": "every byte string of every length", "why_tests_cant": "overlapping zero runs and 03 bytes at every position form an infinite family; examples cover a few", "anchors": ["pkg/codecs/h264/emulation_prevention.go:EmulationPreventionRemove"]}
{"id": "C06", "title": "AVCC round-trip", "statement": "For every access unit of 1 to 50 non-empty NALUs with total size at most 8 MiB, AVCC.Unmarshal(AVCC.Marshal(au)) succeeds and returns au.", "quantifier": "every list of NALUs within the limits", "why_tests_cant": "lengths and contents unbounded; tests hold three examples", "anchors": ["pkg/codecs/h264/avcc.go:AVCC.Marshal", "pkg/codecs/h264/avcc.go:AVCC.Unmarshal"]}
{"id": "C07", "title": "AVCC decoding is safe and bounded on hostile input", "statement": "AVCC.Unmarshal never panics; when it succeeds it returns between 1 and 50 NALUs, all non-empty, whose total size is at most 8 MiB, and these are exactly the non-empty length-prefixed records that make up the input; any input that is not a sequence of complete records is rejected.", "quantifier": "every byte string", "why_tests_cant": "attacker-controlled lengths up to 2^32-1 at any position; fuzzing samples only", "anchors": ["pkg/codecs/h264/avcc.go:AVCC.Unmarshal", "pkg/codecs/h264/h264.go:MaxAccessUnitSize", "pkg/codecs/h264/h264.go:MaxNALUsPerAccessUnit"]}
{"id": "C08", "title": "Annex-B round-trip", "statement": "For every access unit of 1 to 50 non-empty NALUs, none of which contains 00 00 01, with total size at most 8 MiB, AnnexB.Unmarshal(AnnexB.Marshal(au)) succeeds and returns au (including NALUs that end with zero bytes).", "quantifier": "every list of NALUs within the limits", "why_tests_cant": "zero runs around start codes at every NALU boundary; examples cannot cover them", "anchors": ["pkg/codecs/h264/annexb.go:AnnexB.Marshal", "pkg/codecs/h264/annexb.go:AnnexB.Unmarshal"]}
{"id": "C09", "title": "Annex-B decoding is safe, bounded and free of start codes", "statement": "AnnexB.Unmarshal never panics; on success it returns 1 to 50 non-empty NALUs of total size at most 8 MiB, none of which contains a 00 00 01 start code, and each is a contiguous part of the input; input without an initial start code is rejected. Mixing 3- and 4-byte start codes does not change the result.", "quantifier": "every byte string; for the start-code mix, every choice of delimiter per NALU", "why_tests_cant": "any placement of zeros and ones in buffers of any size", "anchors": ["pkg/codecs/h264/annexb.go:AnnexB.Unmarshal"]}
{"id": "C10", "title": "H264/H265/AV1 random-access detection", "statement": "h264.IsRandomAccess is true exactly when some NALU has type IDR; h265.IsRandomAccess exactly when some NALU has type IDR_W_RADL, IDR_N_LP or CRA; av1.IsRandomAccess2 exactly when some non-empty OBU has type sequence header. For H264/H265 no panic occurs if all NALUs are non-empty.", "quantifier": "every access unit / temporal unit", "why_tests_cant": "all list lengths and positions of the key NALU", "anchors": ["pkg/codecs/h264/is_random_access.go:IsRandomAccess", "pkg/codecs/h265/is_random_access.go:IsRandomAccess", "pkg/codecs/av1/is_random_access.go:IsRandomAccess2"]}
{"id": "C11", "title": "H264 DTS never goes backwards", "statement": "For one h264.DTSExtractor, the DTS values returned by successive successful Extract calls never decrease, whatever access units, PTS values and failed calls are interleaved.", "quantifier": "every sequence of Extract calls with arbitrary access units and PTS", "why_tests_cant": "depends on unbounded call history and on picture-order-count state", "anchors": ["pkg/codecs/h264/dts_extractor.go:DTSExtractor.Extract"]}
{"id": "C12", "title": "H264 DTS never exceeds PTS", "statement": "Every DTS that h264.DTSExtractor.Extract returns is at most the PTS it was given, on the paths on which the extractor checks it.", "quantifier": "every sequence of Extract calls", "why_tests_cant": "history dependent; paths that skip the check are rarely exercised", "anchors": ["pkg/codecs/h264/dts_extractor.go:DTSExtractor.Extract"]}
{"id": "C13", "title": "H265 DTS is monotonic and never exceeds PTS", "statement": "For one h265.DTSExtractor, successive successful Extract calls return non-decreasing DTS values, each at most the PTS of its call.", "quantifier": "every sequence of Extract calls", "why_tests_cant": "history dependent", "anchors": ["pkg/codecs/h265/dts_extractor.go:DTSExtractor.Extract"]}
{"id": "C14", "title": "DTS extractors do not start before a decodable key frame", "statement": "h264.DTSExtractor.Extract fails until an SPS has been received and the first success is on an access unit carrying an IDR; h265 likewise requires SPS, PPS and a random access unit.", "quantifier": "every sequence of Extract calls", "why_tests_cant": "any prefix of the stream may come first", "anchors": ["pkg/codecs/h264/dts_extractor.go:DTSExtractor.Extract", "pkg/codecs/h265/dts_extractor.go:DTSExtractor.Extract"]}
{"id": "C15", "title": "LEB128 round-trip, size and canonical form", "statement": "For every uint32 v, LEB128(v).MarshalTo writes exactly MarshalSize() bytes (1..5), and LEB128.Unmarshal of these bytes followed by anything returns v and that byte count.", "quantifier": "all 2^32 values and every suffix", "why_tests_cant": "2^32 values; the 7-bit boundaries multiply", "anchors": ["pkg/codecs/av1/leb128.go:LEB128.Unmarshal", "pkg/codecs/av1/leb128.go:LEB128.MarshalSize", "pkg/codecs/av1/leb128.go:LEB128.MarshalTo"]}
{"id": "C16", "title": "LEB128 decoding consumes at most 8 bytes and is total", "statement": "LEB128.Unmarshal never panics; on success it consumes n bytes with 1<=n<=8 and n<=len(buf), all consumed bytes but the last have the continuation bit set, and the last has it clear unless n=8; the value is the little-endian base-128 number of the consumed bytes modulo 2^32.", "quantifier": "every byte string", "why_tests_cant": "arbitrary runs of continuation bytes", "anchors": ["pkg/codecs/av1/leb128.go:LEB128.Unmarshal"]}
{"id": "C17", "title": "AV1 bitstream round-trip", "statement": "For every non-empty temporal unit whose OBUs have a valid header without the size flag and at most 2^32-1 payload bytes, Bitstream.Marshal succeeds and Bitstream.Unmarshal of the result returns the same OBUs.", "quantifier": "every list of such OBUs", "why_tests_cant": "any number and size of OBUs; sizes cross LEB128 boundaries", "anchors": ["pkg/codecs/av1/bitstream.go:Bitstream.Marshal", "pkg/codecs/av1/bitstream.go:Bitstream.Unmarshal", "pkg/codecs/av1/obu_header.go:OBUHeader.Unmarshal"]}
{"id": "C18", "title": "AV1 bitstream decoding is safe and consumes everything", "statement": "Bitstream.Unmarshal never panics; on success it returns at least one OBU, every returned OBU is non-empty and has its size flag cleared, and the total OBU size never exceeds the input size; when it fails some record is malformed or truncated.", "quantifier": "every byte string", "why_tests_cant": "arbitrary sizes in LEB128", "anchors": ["pkg/codecs/av1/bitstream.go:Bitstream.Unmarshal", "pkg/codecs/av1/obu_header.go:OBUHeader.Unmarshal"]}
{"id": "C19", "title": "ADTS round-trip", "statement": "For every non-empty list of ADTS packets with object type AAC Main/LC/SSR/LTP, a standard sample rate, channel configuration 0..7, and 1..5120 AU bytes (and for channel configuration 0 content consistent with decoding rules), ADTSPackets.Unmarshal(ADTSPackets.Marshal(pkts)) returns the same packets.", "quantifier": "every list of valid packets", "why_tests_cant": "length, rate and channel bits straddle byte boundaries; any AU content", "anchors": ["pkg/codecs/mpeg4audio/adts.go:ADTSPackets.Marshal", "pkg/codecs/mpeg4audio/adts.go:ADTSPackets.Unmarshal"]}
{"id": "C20", "title": "ADTS decoding is safe and bounded", "statement": "ADTSPackets.Unmarshal never panics; on success every AU is non-empty, at most 5120 bytes, and the packets exactly tile the input.", "quantifier": "every byte string", "why_tests_cant": "13-bit length and header bits are attacker controlled", "anchors": ["pkg/codecs/mpeg4audio/adts.go:ADTSPackets.Unmarshal"]}
{"id": "C21", "title": "LATM AudioSyncStream round-trip", "statement": "For every non-empty list of audio mux elements of fewer than 8192 bytes each, AudioSyncStream.Unmarshal(AudioSyncStream.Marshal(s)) returns s, and Unmarshal never panics.", "quantifier": "every list of elements; every byte string for safety", "why_tests_cant": "any number and size of elements", "anchors": ["pkg/codecs/mpeg4audio/audio_sync_stream.go:AudioSyncStream.Marshal", "pkg/codecs/mpeg4audio/audio_sync_stream.go:AudioSyncStream.Unmarshal"]}
{"id": "C22", "title": "MPEG-4 AudioSpecificConfig round-trip", "statement": "For every AudioSpecificConfig in the supported domain (object types, sample rates up to 2^24-1, channel configurations, SBR/PS extension, core-coder delay), Unmarshal(Marshal(c)) returns c.", "quantifier": "every supported configuration", "why_tests_cant": "combinations of explicit 24-bit rates, extension flags and optional fields", "anchors": ["pkg/codecs/mpeg4audio/audio_specific_config.go:AudioSpecificConfig.Marshal", "pkg/codecs/mpeg4audio/audio_specific_config.go:AudioSpecificConfig.Unmarshal"]}
{"id": "C23", "title": "MPEG-4 AudioSpecificConfig decoding never panics", "statement": "AudioSpecificConfig.Unmarshal returns a configuration or an error on every byte string, without panicking.", "quantifier": "every byte string", "why_tests_cant": "truncation at any bit", "anchors": ["pkg/codecs/mpeg4audio/audio_specific_config.go:AudioSpecificConfig.Unmarshal"]}
{"id": "C24", "title": "StreamMuxConfig round-trip", "statement": "For every valid StreamMuxConfig (any number of programs and layers, frame length types supported by the encoder, optional other-data and CRC), Unmarshal(Marshal(c)) returns c.", "quantifier": "every valid multiplex configuration", "why_tests_cant": "nesting of programs and layers with bit-unaligned configs", "anchors": ["pkg/codecs/mpeg4audio/stream_mux_config.go:StreamMuxConfig.Marshal", "pkg/codecs/mpeg4audio/stream_mux_config.go:StreamMuxConfig.Unmarshal"]}
{"id": "C25", "title": "Opus packet duration is bounded and total", "statement": "opus.PacketDuration2 never panics and returns, for a well-formed TOC, frame-count times frame-size at 48 kHz, with 0<=duration<=5760 for conforming frame counts.", "quantifier": "every byte string", "why_tests_cant": "256 TOC bytes times all second bytes times lengths", "anchors": ["pkg/codecs/opus/packet_duration.go:PacketDuration2"]}
{"id": "C26", "title": "Opus identification header round-trip", "statement": "For every IDHeader with consistent channel mapping, Unmarshal(Marshal(h)) returns h with version 1; Unmarshal never panics.", "quantifier": "every header; every byte string", "why_tests_cant": "field widths and mapping tables of any size", "anchors": ["pkg/codecs/opus/id_header.go:IDHeader.Marshal", "pkg/codecs/opus/id_header.go:IDHeader.Unmarshal"]}
{"id": "C27", "title": "G711 A-law is lossless on its code space", "statement": "Decoding any A-law byte to 16-bit PCM and encoding it again returns the same byte; output sizes are exactly doubled/halved.", "quantifier": "all byte strings", "why_tests_cant": "the tables are generated by arithmetic and a per-sample test only samples them", "anchors": ["pkg/codecs/g711/alaw.go:Alaw.Marshal", "pkg/codecs/g711/alaw.go:Alaw.Unmarshal"]}
{"id": "C28", "title": "G711 mu-law is lossless on its code space up to negative zero", "statement": "Decoding any mu-law byte to 16-bit PCM and encoding it again returns the same byte, except that the negative-zero code 0x7F becomes 0xFF.", "quantifier": "all byte strings", "why_tests_cant": "tables generated by arithmetic", "anchors": ["pkg/codecs/g711/mulaw.go:Mulaw.Marshal", "pkg/codecs/g711/mulaw.go:Mulaw.Unmarshal"]}
{"id": "C29", "title": "FLAC STREAMINFO round-trip", "statement": "For every StreamInfo with in-range fields, Marshal yields 34 bytes and Unmarshal returns the same value; Unmarshal never panics.", "quantifier": "every in-range StreamInfo; every byte string", "why_tests_cant": "bit-packed fields of 20, 3, 5 and 36 bits", "anchors": ["pkg/codecs/flac/stream_info.go:StreamInfo.Marshal", "pkg/codecs/flac/stream_info.go:StreamInfo.Unmarshal"]}
{"id": "C30", "title": "AC-3 and E-AC-3 header parsing is total and bounded", "statement": "ac3.SyncInfo/BSI and eac3.SyncInfo Unmarshal never panic, and after success SampleRate, FrameSize and ChannelCount are defined, positive and in the standard's range.", "quantifier": "every byte string", "why_tests_cant": "table lookups by attacker-controlled indexes", "anchors": ["pkg/codecs/ac3/sync_info.go:SyncInfo", "pkg/codecs/ac3/bsi.go:BSI", "pkg/codecs/eac3/sync_info.go:SyncInfo"]}
{"id": "C31", "title": "MPEG-1 audio headers: table lookups safe, frame length positive", "statement": "mpeg1audio.FrameHeader.Unmarshal never panics and after success FrameLen() is positive, so splitting a buffer into frames always terminates and makes progress.", "quantifier": "every byte string", "why_tests_cant": "index combinations; a zero length would loop forever", "anchors": ["pkg/codecs/mpeg1audio/frame_header.go:FrameHeader", "pkg/formats/mpegts/reader.go:Reader.OnDataMPEG1Audio"]}
{"id": "C32", "title": "MPEG-4 video config validation never panics", "statement": "mpeg4video.IsValidConfig returns nil or an error for every byte string.", "quantifier": "every byte string", "why_tests_cant": "a start code may sit at the very end of the buffer", "anchors": ["pkg/codecs/mpeg4video/is_valid_config.go:IsValidConfig"]}
{"id": "C33", "title": "JPEG segment round-trips", "statement": "For DQT, SOF, DRI and SOS segments with in-range fields, decoding the body of the encoded segment returns the original segment, and decoding never panics.", "quantifier": "every in-range segment; every byte string", "why_tests_cant": "any number of tables with 8/16-bit precision", "anchors": ["pkg/codecs/jpeg/define_quantization_table.go:DefineQuantizationTable", "pkg/codecs/jpeg/start_of_frame1.go:StartOfFrame1", "pkg/codecs/jpeg/define_restart_interval.go:DefineRestartInterval", "pkg/codecs/jpeg/start_of_scan.go:StartOfScan"]}
{"id": "C34", "title": "MPEG-TS timestamps are unwrapped correctly", "statement": "If consecutive true 90 kHz times differ by less than 2^32 ticks in either direction, TimeDecoder.Decode applied to their 33-bit truncations returns exactly true time minus first true time, over any number of wraps.", "quantifier": "every sequence of timestamps of any length", "why_tests_cant": "the 33-bit counter wraps every 26.5 hours; drift accumulates over history", "anchors": ["pkg/formats/mpegts/time_decoder.go:TimeDecoder.Decode"]}
{"id": "C35", "title": "MPEG-TS timestamps: step bound and congruence for arbitrary input", "statement": "For arbitrary 33-bit input, each result of TimeDecoder.Decode is congruent to (ts - first ts) modulo 2^33 and differs from the preceding result by at least -2^32 and at most 2^32-1; the first result is 0.", "quantifier": "every sequence of timestamps", "why_tests_cant": "adversarial jumps", "anchors": ["pkg/formats/mpegts/time_decoder.go:TimeDecoder.Decode"]}
{"id": "C36", "title": "Buffered reader is transparent", "statement": "The bytes obtained from mpegts.BufferedReader.Read calls of any sizes are exactly the bytes of the underlying reader, in order, with none lost or duplicated.", "quantifier": "every sequence of Read sizes and every chunking of the underlying reader", "why_tests_cant": "all interleavings of buffer refills and short reads", "anchors": ["pkg/formats/mpegts/buffered_reader.go:BufferedReader.Read"]}
{"id": "C37", "title": "Rewindable reader replays everything", "statement": "After any sequence of reads totalling at most the 1 MiB limit, Rewind, and further reads, the concatenated bytes read after Rewind are the bytes read before Rewind followed by the remainder of the underlying stream.", "quantifier": "every read schedule", "why_tests_cant": "history and chunking dependent", "anchors": ["pkg/rewindablereader/reader.go:Reader.Read", "pkg/rewindablereader/reader.go:Reader.Rewind"]}
{"id": "C38", "title": "Transport-stream pre-demuxer always delivers aligned packets", "statement": "Everything the MPEG-TS pre-demuxer hands to the demuxer consists of whole 188-byte packets starting with the 0x47 sync byte; a clean stream passes through unchanged regardless of how the network chunks it.", "quantifier": "every input byte stream and every chunking", "why_tests_cant": "garbage prefix, chunk boundaries and resynchronisation interleave", "anchors": ["pkg/formats/mpegts/pre_demuxer.go:preDemuxer.Read"]}
{"id": "C39", "title": "Seekable buffer behaves like a file", "statement": "seekablebuffer.Buffer refines an in-memory file: any sequence of Write, Seek and Bytes operations yields the contents that the same operations on a zero-filling file would yield, failed seeks change nothing, and no operation panics.", "quantifier": "every operation sequence", "why_tests_cant": "history dependent, gap filling, overwrite across the end", "anchors": ["pkg/formats/fmp4/seekablebuffer/seekablebuffer.go:Buffer.Write", "pkg/formats/fmp4/seekablebuffer/seekablebuffer.go:Buffer.Seek"]}
{"id": "C40", "title": "MPEG-TS Opus access unit round-trip", "statement": "For every Opus packet and control header with trims below 2^13, OpusAccessUnit.Unmarshal(MarshalTo(au)) returns it, consuming exactly the marshalled size; concatenated units are split back exactly.", "quantifier": "every packet of every length, every control header", "why_tests_cant": "the length field is a run of 0xFF bytes; lengths at multiples of 255", "anchors": ["pkg/formats/mpegts/substructs/opus_access_unit.go:OpusAccessUnit", "pkg/formats/mpegts/substructs/opus_control_header.go:OpusControlHeader", "pkg/formats/mpegts/reader.go:Reader.OnDataOpus"]}
{"id": "C41", "title": "MPEG-TS Opus descriptor round-trip", "statement": "For every in-range OpusAudioDescriptor, Unmarshal(Marshal(d)) returns d; Unmarshal never panics.", "quantifier": "every descriptor; every byte string", "why_tests_cant": "bit-packed mapping with channel-count dependent widths", "anchors": ["pkg/formats/mpegts/substructs/opus_audio_descriptor.go:OpusAudioDescriptor"]}
{"id": "C42", "title": "MPEG-TS metadata descriptors round-trip", "statement": "For every in-range MetadataDescriptor, MetadataSTDDescriptor and MetadataAUCell, Unmarshal(Marshal(x)) returns x; Unmarshal never panics.", "quantifier": "every in-range value; every byte string", "why_tests_cant": "optional fields depend on flag bits", "anchors": ["pkg/formats/mpegts/substructs/metadata_descriptor.go:MetadataDescriptor", "pkg/formats/mpegts/substructs/metadata_std_descriptor.go:MetadataSTDDescriptor", "pkg/formats/mpegts/substructs/metadata_au_cell.go:MetadataAUCell"]}
{"id": "C43", "title": "Synchronous KLV survives writing and reading", "statement": "A synchronous KLV unit of 1 to 256*65535 bytes written with the metadata access-unit wrapper is returned unchanged by the reader's unwrapping, across any number of cells; unwrapping never panics.", "quantifier": "every KLV unit; every byte string", "why_tests_cant": "multi-cell splitting happens only above 64 KiB", "anchors": ["pkg/formats/mpegts/reader.go:readMetadataAUWrapper", "pkg/formats/mpegts/reader.go:writeMetadataAUWrapper"]}
{"id": "C44", "title": "PCR is sent often enough", "statement": "In mpegts.Writer, among any three consecutive access units of the leading track at least one carries a PCR, and every random-access video unit of the leading track carries one; PCR is attached to the leading track only.", "quantifier": "every sequence of write calls on any set of tracks", "why_tests_cant": "depends on unbounded call history", "anchors": ["pkg/formats/mpegts/writer.go:Writer"]}
{"id": "C45", "title": "MP4 sample tables reproduce sample timing", "statement": "Expanding the decoding-time and composition-offset run-length tables that pmp4 writes for a track gives back exactly the sample durations and offsets, and adjacent entries differ.", "quantifier": "every list of samples", "why_tests_cant": "run boundaries anywhere", "anchors": ["pkg/formats/pmp4/track.go:Track.marshal", "pkg/formats/pmp4/presentation.go:Presentation.Unmarshal"]}
{"id": "C46", "title": "MP4 chunk tables locate every sample", "statement": "Expanding the sample-to-chunk and chunk-offset tables that pmp4 writes gives back the file offset of every sample of the track.", "quantifier": "every list of samples with arbitrary offsets", "why_tests_cant": "merging of contiguous samples and run compression interact", "anchors": ["pkg/formats/pmp4/track.go:Track.marshal", "pkg/formats/pmp4/presentation.go:Presentation.Unmarshal"]}
{"id": "C47", "title": "MP4 reader survives hostile sample tables", "statement": "pmp4.Presentation.Unmarshal never panics on hostile sample tables (stts, stss, ctts, stsc, stsz, stco), and every accepted sample has a size and an offset.", "quantifier": "every combination of table entries", "why_tests_cant": "divisions and table indexes taken from the file", "anchors": ["pkg/formats/pmp4/presentation.go:Presentation.Unmarshal"]}
{"id": "C48", "title": "MP4 samples are interleaved in time order without reordering a track", "statement": "Presentation.Marshal lays out media data as a merge of the tracks' samples: each track's samples keep their order and every sample is laid out exactly once at consecutive offsets.", "quantifier": "every set of tracks", "why_tests_cant": "order depends on all timestamps at once", "anchors": ["pkg/formats/pmp4/presentation.go:Presentation.Marshal"]}
{"id": "C49", "title": "fMP4 fragment data offsets point at the samples", "statement": "For every fMP4 part, the data offset written in each track run equals the distance from the start of moof to the first byte of that track's samples in mdat, and sizes listed in the run split that region exactly into the sample payloads.", "quantifier": "every part with any tracks and samples", "why_tests_cant": "header sizes depend on all tracks' sample flags", "anchors": ["pkg/formats/fmp4/part.go:Part.Marshal", "pkg/formats/fmp4/part_track.go:PartTrack"]}
{"id": "C50", "title": "H264 SPS parsing never panics and is bounded", "statement": "h264.SPS.Unmarshal returns or errors on every byte string, and on success list sizes are bounded (at most 255 reference-frame offsets, 32 HRD entries).", "quantifier": "every byte string", "why_tests_cant": "hundreds of nested optional fields", "anchors": ["pkg/codecs/h264/sps.go:SPS.Unmarshal"]}
{"id": "C51", "title": "H265 SPS and PPS parsing never panics", "statement": "h265.SPS.Unmarshal and h265.PPS.Unmarshal return or error on every byte string, and on success Width/Height do not index outside their tables.", "quantifier": "every byte string", "why_tests_cant": "inter-predicted reference picture sets index previous sets", "anchors": ["pkg/codecs/h265/sps.go:SPS.Unmarshal", "pkg/codecs/h265/pps.go:PPS.Unmarshal"]}
{"id": "C52", "title": "AV1 sequence header parsing never panics", "statement": "av1.SequenceHeader.Unmarshal returns or errors on every byte string; on success Width and Height are between 1 and 65536 and the per-operating-point lists have equal lengths between 1 and 32.", "quantifier": "every byte string", "why_tests_cant": "variable-width fields", "anchors": ["pkg/codecs/av1/sequence_header.go:SequenceHeader.Unmarshal"]}
{"id": "C53", "title": "VP9 header parsing never panics", "statement": "vp9.Header.Unmarshal returns or errors on every byte string and on a key frame returns the encoded dimensions.", "quantifier": "every byte string", "why_tests_cant": "bit-level optional fields", "anchors": ["pkg/codecs/vp9/header.go:Header.Unmarshal"]}
{"id": "C54", "title": "AudioMuxElement decode and round trip", "statement": "mpeg4audio.AudioMuxElement.Unmarshal accepts exactly the byte strings that are an element (transmitted or previous StreamMuxConfig, one payload per layer, program and subframe, payload lengths in groups of 255) followed by less than a byte of padding, never panics, and Unmarshal after Marshal returns the element, for payloads of any length.", "quantifier": "every byte string, every configuration and every list of payloads", "why_tests_cant": "nested loops over subframes, programs and layers with unaligned payloads of unbounded length", "anchors": ["pkg/codecs/mpeg4audio/audio_mux_element.go:AudioMuxElement.Unmarshal", "pkg/codecs/mpeg4audio/audio_mux_element.go:AudioMuxElement.Marshal", "pkg/codecs/mpeg4audio/payload_length_info.go", "pkg/codecs/mpeg4audio/payload_mux.go"]}
{"id": "C55", "title": "Program config element and channel count", "statement": "mpeg4audio.ParsePCEFromRawDataBlock returns exactly the fields and the channel count of a leading program config element and never panics; CountChannelsFromRawDataBlock terminates without panicking on every input, skips data stream and fill elements of any length, and returns the channels of the first channel element or PCE.", "quantifier": "every byte string, every number and size of skipped elements", "why_tests_cant": "bit positions after skipped elements are data dependent and may lie beyond the end", "anchors": ["pkg/codecs/mpeg4audio/program_config_element.go:ParsePCEFromRawDataBlock", "pkg/codecs/mpeg4audio/count_channels.go:CountChannelsFromRawDataBlock"]}
{"id": "C57", "title": "AV1 sequence header agrees with the standard", "statement": "av1.SequenceHeader.Unmarshal decodes every sequence header OBU written to the tables of the AV1 specification (without decoder model info, initial display delays and OBU extension) to the values it carries, with every field that is absent set to its inferred value.", "quantifier": "every sequence header of the AV1 specification, every trailing content", "why_tests_cant": "a field that is misread only matters with rare streams; tests use headers in which both bits are zero", "anchors": ["pkg/codecs/av1/sequence_header.go:SequenceHeader.Unmarshal", "pkg/codecs/av1/sequence_header.go:SequenceHeader_ColorConfig.unmarshal"]}
{"id": "C58", "title": "H264 frame size agrees with the standard", "statement": "For every SPS with chroma_format_idc at most 3 whose frame size fits 32 bits and whose cropping does not exceed it, SPS.Width and SPS.Height return the frame size minus the cropped columns and rows, in the crop units of the H.264 standard.", "quantifier": "every sequence parameter set", "why_tests_cant": "crop units depend on chroma format, separate planes and field coding; tests only crop 4:2:0 progressive video", "anchors": ["pkg/codecs/h264/sps.go:SPS.Width", "pkg/codecs/h264/sps.go:SPS.Height"]}
{"id": "C60", "title": "H265 SPS infers absent sub-layer ordering information", "statement": "For every H265 SPS that Unmarshal accepts whose sub_layer_ordering_info_present_flag is zero, MaxDecPicBufferingMinus1, MaxNumReorderPics and MaxLatencyIncreasePlus1 of every sub-layer equal the values of the last sub-layer, as ITU-T H.265 7.4.3.2.1 infers them.", "quantifier": "all byte strings accepted as an SPS and all prior SPS values", "why_tests_cant": "the test vectors have a single sub-layer or carry the information of every sub-layer; the claim is about every accepted bit string", "anchors": ["pkg/codecs/h265/sps.go:758-789"]}
{"id": "C59", "title": "DTS extractors never panic", "statement": "h264.DTSExtractor.Extract and h265.DTSExtractor.Extract never panic on access units whose NAL units are not empty, whatever was passed before.", "quantifier": "every sequence of Extract calls with arbitrary non-empty NAL units", "why_tests_cant": "a panic needs a particular SPS together with a slice header that ends at a byte boundary", "anchors": ["pkg/codecs/h264/dts_extractor.go:DTSExtractor.Extract", "pkg/codecs/h265/dts_extractor.go:DTSExtractor.Extract", "pkg/bits/read.go:ReadBits"]}
{"id": "C61", "title": "Slice headers are read as the standards define them", "statement": "For every SPS with parameters in range and every access unit whose first slice has a header that conforms to ITU-T H.264 7.3.3, h264 getPictureOrderCount returns its pic_order_cnt_lsb; for every slice segment header that conforms to ITU-T H.265 7.3.6.1, h265 getPTSDTSDiff returns the distance derived from slice type, NAL unit type and short-term reference picture set of that header. Only a prefix of 22 or 12 bytes is read, and this must not change the result. Where a value is returned, the input begins with a header of that value.", "quantifier": "all SPS and PPS values in range, all conforming headers, all bytes after the header, emulation prevention included", "why_tests_cant": "the prefix limits and the optional elements only matter for particular combinations of SPS flags and header values; the vectors in the repository contain a handful of headers", "anchors": ["pkg/codecs/h264/dts_extractor.go:getPictureOrderCount", "pkg/codecs/h265/dts_extractor.go:getPTSDTSDiff"]}
{"id": "C62", "title": "DTS of streams with a constant frame rate", "statement": "For every stream whose pictures are decoded and presented every T ticks in any order compatible with R reordered pictures: when the increment and R are known to the extractor, every DTS is exactly T after the previous one and equals the decoding time; an error up to T decreases with every picture until it is zero; and when a picture shows that m more pictures are reordered, the DTS of m pictures advance by 90 ticks and then converge to the decoding times. For H264, three consecutive picture order counts that are 4 apart at increment 2 are excluded; for H265, the distances derived from the headers are assumed to be right.", "quantifier": "all T, all R up to the limit, all decoding orders, all lengths of stream, all positions of IDR pictures, wrap-around of the picture order count included", "why_tests_cant": "the claim is about unbounded sequences of calls; the vectors cover a few fixed group-of-pictures patterns", "anchors": ["pkg/codecs/h264/dts_extractor.go:DTSExtractor.Extract", "pkg/codecs/h265/dts_extractor.go:DTSExtractor.Extract"]}
{"id": "C56", "title": "G711 encoding picks the nearest code", "statement": "For every list of 16-bit samples, Alaw.Marshal and Mulaw.Marshal encode every sample with a code whose decoded value is nearest, among the values of all the 256 codes, to the multiple of four at or below the sample. For samples that are not negative it is nearest to the sample itself (A-law: always; mu-law: apart from 127); in all cases it is at most 6 farther than the nearest. Encoding preserves the order of samples.", "quantifier": "all sample lists, all samples, all codes", "why_tests_cant": "the tests encode and decode a few samples; the claim compares every sample with every code", "anchors": ["pkg/codecs/g711/invert_table.go:invertTable", "pkg/codecs/g711/alaw.go:Alaw.Marshal", "pkg/codecs/g711/mulaw.go:Mulaw.Marshal"]}
{"id": "C63", "title": "DTS of access units without slices and of streams without reordering information", "statement": "An H264 access unit without slices leaves the extractor as it is: when nal_ref_idc is zero in all its NAL units the previous DTS is returned again, otherwise an error is returned. With pic_order_cnt_type 2 or with field coding every DTS is equal to the PTS.", "quantifier": "all extractor states, all access units, all PTS that are not before the previous DTS", "why_tests_cant": "the tests contain one access unit of each kind; the claim is about all states and all lists of NAL units", "anchors": ["pkg/codecs/h264/dts_extractor.go:DTSExtractor.extractInner"]}
{"id": "C64", "title": "DTS from the first access unit", "statement": "For every H264 stream that starts with an access unit with SPS and IDR and has a constant frame rate of at most 100 frames per second and R reordered pictures (R not known to the extractor), every access unit gets a DTS, no error is returned, and no DTS is before the decoding time or more than R frames and 90 R ticks after it. At most 910 pictures after one that shows the number of reordered pictures, the DTS is exactly the decoding time. For every H265 stream with one sub-layer whose SPS gives frame duration T and number R of reordered pictures and whose first access unit has SPS, PPS and IDR, every access unit gets a DTS, the first one is the decoding time, none is after the decoding time or more than R-1 frames before it, the distance does not grow after R-1 pictures, and it is zero from the first picture that is presented when it is decoded. Without timing information the first DTS is 9000 ticks before the PTS.", "quantifier": "H264: all frame durations from 900 to 2^50 ticks, all R up to 10; H265: all T from 90, all R up to 16; all decoding orders compatible with R, all lengths of stream", "why_tests_cant": "convergence is a claim about unbounded sequences, and the bound has to hold for every decoding order", "anchors": ["pkg/codecs/h264/dts_extractor.go:DTSExtractor.Extract", "pkg/codecs/h265/dts_extractor.go:DTSExtractor.Extract"]}
{"id": "C65", "title": "Detection of the picture order count increment", "statement": "For every H264 stream without reordered pictures whose picture order count advances by 4 or by 1 from an IDR at zero, the extractor finds the increment within two pictures of the IDR, and from then on every DTS is the decoding time. When increment 1 shows at the first B picture of a stream with one reordered picture, the expected count and the number of reordered pictures are converted to the new unit, and the DTS converge to the decoding times.", "quantifier": "all frame durations, all lengths of stream, all SPS in range", "why_tests_cant": "a wrong expected count after detection shows only in the DTS of later pictures", "anchors": ["pkg/codecs/h264/dts_extractor.go:DTSExtractor.extractInner"]}
{"id": "C66", "title": "MP4 presentations survive a round trip", "statement": "For every list of tracks that can be written (numbers fit in their fields, payloads have the stated size, the file is smaller than 4 GiB), Presentation.Marshal succeeds, Presentation.Unmarshal of the boxes succeeds and restores identifiers, time scales, time offsets and all samples, and the payload read from the file for each sample is the one that was written. The size in the mdat header is the size of the data.", "quantifier": "all lists of tracks, all samples, all lengths of the header", "why_tests_cant": "the tests contain two presentations; offsets, chunk tables and flags of all tracks depend on each other", "anchors": ["pkg/formats/pmp4/presentation.go:Presentation.Marshal", "pkg/formats/pmp4/presentation.go:Presentation.Unmarshal", "pkg/formats/pmp4/track.go:Track.marshal"]}
{"id": "C67", "title": "MP4 edit lists present media that exist", "statement": "The edits that pmp4 writes for a track are inside of its media, and their total duration is the duration of the track, up to rounding.", "quantifier": "all tracks, all time offsets", "why_tests_cant": "no test compares the edit list with the durations in the other boxes", "anchors": ["pkg/formats/pmp4/track.go:Track.marshalELST", "pkg/formats/pmp4/track.go:Track.marshal"]}
{"id": "C68", "title": "fMP4 parts survive a round trip", "statement": "For every list of parts whose fields fit (32-bit identifiers, sequence numbers, durations and sizes, 64-bit base times, 32-bit signed composition offsets, at most 19200 samples per track, each part smaller than 2 GiB), Parts.Marshal succeeds and Parts.Unmarshal of the bytes returns the same parts: tracks, base times, durations, offsets, sync flags and payloads.", "quantifier": "all lists of parts, all tracks, all samples", "why_tests_cant": "the tests contain a handful of parts; flags and offsets of a run depend on all samples and on all tracks", "anchors": ["pkg/formats/fmp4/parts.go:Parts.Marshal", "pkg/formats/fmp4/parts.go:Parts.Unmarshal", "pkg/formats/fmp4/part.go:Part.Marshal", "pkg/formats/fmp4/part_track.go:PartTrack.marshal"]}
{"id": "C69", "title": "fMP4 part reader never panics", "statement": "Parts.Unmarshal returns a value or an error for every byte string, whatever the order, the nesting and the sizes of boxes are, and it ends.", "quantifier": "all byte strings", "why_tests_cant": "the state machine accepts boxes at any level of nesting; fuzzing covers a tiny part of the sequences of boxes", "anchors": ["pkg/formats/fmp4/parts.go:Parts.Unmarshal"]}
{"id": "C70", "title": "fMP4 part reader has bounded output", "statement": "The number of samples returned by Parts.Unmarshal is at most 19200 for every 8 bytes of input (the limit of a run for each box header).", "quantifier": "all byte strings", "why_tests_cant": "the limit is checked on raw bytes before decoding; no test has a box with a 64-bit size", "anchors": ["pkg/formats/fmp4/parts.go:Parts.Unmarshal"]}
{"id": "C71", "title": "fMP4 fragments of other muxers are resolved as in ISO 14496-12", "statement": "For every sequence of fragments written with any combination of the optional fields of tfhd, tfdt and trun (defaults of the track, several runs per track, data in any order), Parts.Unmarshal returns the samples that ISO 14496-12 says are there: durations, composition offsets, sync flags and payloads.", "quantifier": "all sequences of fragments, all combinations of optional fields", "why_tests_cant": "each of the optional fields changes how all the others are resolved; tests contain files of one or two muxers", "anchors": ["pkg/formats/fmp4/parts.go:Parts.Unmarshal"]}
{"id": "C72", "title": "Access units survive fMP4", "statement": "H264 and H265 access units and AV1 temporal units that the packages support (1 to 50 non-empty NAL units, at most 8 MiB; OBUs without extension and size), handed to FillH264, FillH265 and FillAV1, written with Parts.Marshal and read with Parts.Unmarshal, are returned by GetH264, GetH265 and GetAV1 with their duration and composition offset, and a sample is a sync sample exactly when its access unit contains an IDR slice, an IDR or CRA picture, or a sequence header.", "quantifier": "all lists of parts, tracks and access units within the limits", "why_tests_cant": "tests check one or two access units per codec; the flags of a run depend on all samples", "anchors": ["pkg/formats/fmp4/sample.go:Sample.FillH264", "pkg/formats/fmp4/sample.go:Sample.FillH265", "pkg/formats/fmp4/sample.go:Sample.FillAV1", "pkg/formats/fmp4/sample.go:Sample.GetH264", "pkg/formats/fmp4/sample.go:Sample.GetAV1"]}
{"id": "C73", "title": "Init.Marshal never panics and accepts exactly the codecs that the boxes can express", "statement": "For every Init and every writer position, fmp4.Init.Marshal does not panic. It fails, unless a box exceeds 4 GiB, exactly when a track has no codec or has a codec with parameters that cannot be parsed, MPEG-4 audio without channels, or AC-3/E-AC-3 at a rate other than 48000, 44100 and 32000 Hz.", "quantifier": "all tracks of all codecs, all parameter set bytes, all user data", "why_tests_cant": "tests write one valid track per codec; the parameter sets of video codecs are arbitrary bytes that the writer indexes and parses", "anchors": ["pkg/formats/fmp4/init.go:Init.Marshal", "pkg/formats/fmp4/init_track.go:InitTrack.marshal", "internal/mp4/codec_boxes.go:WriteCodecBoxes", "internal/mp4/codec_info.go:CodecInfo.Fill"]}
{"id": "C74", "title": "Init.Unmarshal survives any bytes and returns complete tracks", "statement": "For every byte string, fmp4.Init.Unmarshal returns without a panic and without reading forever. When it succeeds there is at least one track, and each track has a 32-bit ID, a non-zero 32-bit time scale and a codec whose parameter sets are present and can be parsed.", "quantifier": "all byte strings, all box trees", "why_tests_cant": "boxes nest, repeat and come in any order; the fuzzer only sees some of the trees", "anchors": ["pkg/formats/fmp4/init.go:Init.Unmarshal", "internal/mp4/codec_boxes.go:CodecBoxesReader.Read"]}
{"id": "C75", "title": "What Init.Unmarshal accepts, Init.Marshal accepts", "statement": "Every Init returned by Init.Unmarshal is accepted by Init.Marshal (the claim of FuzzInitUnmarshal).", "quantifier": "all byte strings accepted by Init.Unmarshal", "why_tests_cant": "the fuzzer stops at the seeds that it found; the offending values need a valid file around them", "anchors": ["pkg/formats/fmp4/init.go:Init.Unmarshal", "pkg/formats/fmp4/init.go:Init.Marshal"]}
{"id": "C76", "title": "What Init.Marshal writes, Init.Unmarshal reads back", "statement": "For every Init with at least one track, 32-bit IDs, non-zero 32-bit time scales, user data types of four bytes and codecs whose parameters fit the fields of their boxes: if Init.Marshal succeeds, Init.Unmarshal of the bytes succeeds and returns the same tracks, codecs and user data, except that bit rates are zero, the channel count and the channel configuration of MPEG-4 audio are made consistent and Fscod of AC-3 is the code of the sample rate.", "quantifier": "any number of tracks, all 14 codecs with all their parameters, any user data", "why_tests_cant": "tests compare 17 files; parameter sets, configurations, widths, rates and numbers of tracks are arbitrary", "anchors": ["pkg/formats/fmp4/init.go:Init.Marshal", "pkg/formats/fmp4/init.go:Init.Unmarshal", "internal/mp4/codec_boxes.go:WriteCodecBoxes", "internal/mp4/codec_boxes.go:CodecBoxesReader.Read"]}
{"id": "C77", "title": "The MPEG-TS reader does not panic on any demultiplexed data", "statement": "For every program map table and sequence of PES packets that the demultiplexer delivers, Reader.Initialize and Reader.Read with any registered callbacks return normally: malformed payloads end in the decode error callback. NALUs that are delivered are not empty, are parts of the payload and are at most 50; MPEG-1 audio frames make up the payload; AAC units have 1 to 5120 bytes; AC-3 frames have the size they announce.", "quantifier": "all PES payloads, headers, timestamps, PIDs, descriptors, codecs and callbacks", "why_tests_cant": "fuzzing samples the input space; the claim covers all payloads for all codecs and all orders of packets", "anchors": ["pkg/formats/mpegts/reader.go:Reader.Initialize", "pkg/formats/mpegts/reader.go:Reader.Read", "pkg/formats/mpegts/reader.go:OnDataH264", "pkg/formats/mpegts/track.go:findCodec", "pkg/formats/mpegts/track.go:Track.unmarshal"]}
{"id": "C78", "title": "Units written by the MPEG-TS writer are read back", "statement": "For every state of the writer, track and unit that fits its codec, the write call makes one request, and the reader given the PES packet of that request calls the callback of the track with the same unit, without a leading access unit delimiter, and with the timestamps modulo 2^33. Sequences of units on any number of tracks are read back in order.", "quantifier": "all writer states, tracks of 12 codecs, units, timestamps and interleavings", "why_tests_cant": "tests write one to three units per codec; sizes, numbers of NALUs and frames, timestamps and interleavings are unbounded", "anchors": ["pkg/formats/mpegts/writer.go:WriteH264", "pkg/formats/mpegts/writer.go:WriteH265", "pkg/formats/mpegts/writer.go:WriteMPEG4Audio", "pkg/formats/mpegts/writer.go:WriteOpus", "pkg/formats/mpegts/writer.go:WriteKLV", "pkg/formats/mpegts/writer.go:writeVideo", "pkg/formats/mpegts/writer.go:writeAudio", "pkg/formats/mpegts/writer.go:writeData", "pkg/formats/mpegts/reader.go:Reader.Read"]}
{"id": "C79", "title": "Tracks announced by the MPEG-TS writer are found by the reader", "statement": "For every list of tracks with distinct PIDs after numbering the unnumbered ones from 256, whose codecs fit their descriptors: Writer.Initialize succeeds, and Reader.Initialize on a stream with the resulting program map table finds the same tracks in order with PID, language and codec, provided that the packets that AAC, AC-3 and E-AC-3 tracks need come in the order of the tracks.", "quantifier": "any number of tracks, PIDs, languages of three bytes, codec parameters and other packets in the stream", "why_tests_cant": "tests use one to three tracks with fixed PIDs and packets in track order", "anchors": ["pkg/formats/mpegts/writer.go:Writer.Initialize", "pkg/formats/mpegts/track.go:Track.marshal", "pkg/formats/mpegts/track.go:Track.unmarshal", "pkg/formats/mpegts/track.go:findCodec", "pkg/formats/mpegts/reader.go:Reader.Initialize"]}
{"id": "C80", "title": "The last timestamp of a transport stream", "statement": "parseClock inverts the 33-bit PTS field for any prefix and marker bits. ptsInterceptor does not panic on any 188-byte packet and holds, after any sequence of packets, the timestamp of the last packet in which a PES packet starts whose header is present up to its timestamp.", "quantifier": "all 33-bit timestamps, all packets and sequences of packets", "why_tests_cant": "2^33 timestamps and all adaptation field lengths cannot be enumerated in tests; off-by-one errors in the payload position show only for some lengths", "anchors": ["pkg/formats/mpegts/robust_demuxer.go:parseClock", "pkg/formats/mpegts/robust_demuxer.go:ptsInterceptor.Read"]}
{"id": "C81", "title": "MP4 files that are written are read back", "statement": "For every list of tracks with positive time scales, 32-bit IDs, sample counts up to the limit, durations and offsets that fit, and codecs whose parameters fit their boxes: when Presentation.Marshal succeeds and the file is smaller than 4 GiB, Presentation.Unmarshal on those bytes succeeds and gives the same tracks in order: ID, time scale, time offset, codec, and for every sample duration, PTS offset, sync flag, size, and through GetPayload its payload from the file.", "quantifier": "any number of tracks and samples, all codecs, durations, offsets, payloads", "why_tests_cant": "tests cover 14 files with a few samples each; interleavings of chunks over tracks, the position of every sample and the rewritten offsets depend on all sizes", "anchors": ["pkg/formats/pmp4/presentation.go:Presentation.Marshal", "pkg/formats/pmp4/presentation.go:Presentation.Unmarshal", "pkg/formats/pmp4/track.go:Track.marshal", "pkg/formats/pmp4/track.go:Track.marshalSTCO", "internal/mp4/codec_boxes_writer.go", "internal/mp4/codec_boxes_reader.go"]}
{"id": "C82", "title": "Reading an MP4 file does not panic and gives well-formed tracks", "statement": "For all bytes Presentation.Unmarshal ends without panic; when it succeeds there is at least a track, and each track has a 32-bit ID, a positive time scale, at most MaxSamples samples and a codec whose parameters can be used.", "quantifier": "all byte strings and all layouts of the boxes with fixed fields", "why_tests_cant": "fuzzing samples the input space; the panics need boxes in a given order with given values", "anchors": ["pkg/formats/pmp4/presentation.go:Presentation.Unmarshal", "internal/mp4/codec_boxes_reader.go"]}
{"id": "C83", "title": "Samples allocated from an MP4 file are bounded by its size", "statement": "For all bytes on which Presentation.Unmarshal succeeds, the number of tracks and samples is bounded by a constant times the number of bytes.", "quantifier": "all byte strings", "why_tests_cant": "a bound over all inputs; the worst case has to be constructed", "anchors": ["pkg/formats/pmp4/presentation.go:Presentation.Unmarshal"]}
{"id": "C85", "title": "Configuration records describe the stream as the standards lay them out", "statement": "For every codec and all its parameters, when WriteCodecBoxes succeeds, the sample entry has the registered type and carries size, or channel count, sample size and sample rate; and the configuration box (av1C, vpcC, hvcC, avcC, esds, dOps, dfLa, dac3, dec3, pcmC) has, field by field in the layout of its specification, the values that the parameters of the codec (parameter sets parsed as the video standards say) prescribe.", "quantifier": "all codecs, all parameter values and parameter sets", "why_tests_cant": "tests compare with bytes written by the same code; values that are constant in them (tier, level, layers, channel configuration 7) are never seen to be wrong", "anchors": ["internal/mp4/codec_boxes.go:WriteCodecBoxes", "internal/mp4/codec_info.go:CodecInfo.Fill", "internal/mp4/object_type_indication.go"]}
{"id": "C84", "title": "A presentation that was read can be written and read again", "statement": "For all bytes on which Presentation.Unmarshal succeeds, and all of whose payloads GetPayload returns: Presentation.Marshal of the same tracks succeeds unless a box does not fit in 4 GiB, and when the new file is smaller than 4 GiB, Presentation.Unmarshal of it gives the same tracks, samples, payloads and codecs.", "quantifier": "all byte strings, any number of tracks and samples", "why_tests_cant": "FuzzPresentationUnmarshal samples the inputs and does not read the result again; it ends early on most inputs", "anchors": ["pkg/formats/pmp4/presentation.go:Presentation.Unmarshal", "pkg/formats/pmp4/presentation.go:Presentation.Marshal", "pkg/formats/pmp4/presentation_test.go:FuzzPresentationUnmarshal"]}
{"id": "C86", "title": "MP4 files say what was given, to a reader of the standard", "statement": "For all tracks that Presentation.Marshal writes to a file below 4 GiB, a reader written from ISO 14496-12 alone finds one movie with the same tracks in the same order; in each track the identifier, the time scale, the codec, the kind of media and the picture size that were given; sample tables that agree with one another; and exactly the given samples, with their decoding times, composition times, sync flags, and payloads at the places that the tables say.", "quantifier": "all lists of tracks with any number of samples that fit a file of 4 GiB", "why_tests_cant": "the tests compare the bytes of a few files with bytes that the same code produced, or read them with the reader of the same package, which would agree with the writer on a common mistake", "anchors": ["pkg/formats/pmp4/presentation.go:Presentation.Marshal", "pkg/formats/pmp4/track.go:Track.marshal"]}
{"id": "C87", "title": "Samples of MP4 files are presented at the times that were given", "statement": "For all tracks that Presentation.Marshal writes without overflow of the edit list, every sample whose composition time plus time offset is not negative is presented, according to the edit list, at its composition time plus time offset, up to one millisecond.", "quantifier": "all tracks, all samples", "why_tests_cant": "no test evaluates an edit list; whether a sample is inside of an edit depends on all durations and on the offset of the sample", "anchors": ["pkg/formats/pmp4/track.go:Track.marshalELST", "pkg/formats/pmp4/track.go:Track.marshal"]}
{"id": "C88", "title": "Headers of MP4 files agree with their tracks", "statement": "For all presentations that are written: the duration of the movie is that of the longest track, the duration of a track is that of its samples and of its time offset rounded to the time scale of the movie, the duration of the media is the sum of the durations of the samples, and the identifier for the next track is larger than all identifiers.", "quantifier": "all lists of tracks", "why_tests_cant": "the relations hold between boxes of all tracks, for arbitrary durations, offsets and identifiers; the tests have two tracks, numbered 1 and 2", "anchors": ["pkg/formats/pmp4/presentation.go:Presentation.Marshal", "pkg/formats/pmp4/track.go:Track.marshal"]}
{"id": "C89", "title": "The program map table announces streams as the standards define", "statement": "For all tracks that are written, the elementary stream has the PID of the track, the stream type of its codec, the registration or the descriptor that is needed to tell the codec, the language if there is one, and, for AC-3 and E-AC-3, a component type that announces a complete main service with the given number of channels.", "quantifier": "all tracks, all codecs with all their parameters", "why_tests_cant": "the tests read the tables with the reader of the same package, which ignores component types and agrees with the writer on stream types", "anchors": ["pkg/formats/mpegts/track.go:Track.marshal", "pkg/formats/mpegts/track.go:ac3ComponentType", "pkg/formats/mpegts/track.go:eac3ComponentType"]}
{"id": "C90", "title": "A fragmented MP4 file means what was written", "statement": "For all segments and parts that are written, a reader of ISO 14496-12 with all rules of fragments (defaults of trex and tfhd, bases of data offsets, optional fields of runs) finds in the concatenation of the two the tracks that were given, with identifiers, time scales, codecs and bit rates, and for each part a fragment with the sequence number and exactly the samples that were given: decoding and composition times, sync flags, payloads at the places that the fragment says, and the description of the codec.", "quantifier": "all lists of tracks with all codecs, all user data, all lists of parts below 2^31 bytes whose fields fit, whose tracks are tracks of the segment", "why_tests_cant": "tests compare single files with bytes that the same writer produced, or read them with the reader of the same package, which has its own idea of offsets and defaults", "anchors": ["pkg/formats/fmp4/init.go:Init.Marshal", "pkg/formats/fmp4/init_track.go:InitTrack.marshal", "pkg/formats/fmp4/parts.go:Parts.Marshal", "pkg/formats/fmp4/part.go:Part.marshal", "pkg/formats/fmp4/part_track.go:PartTrack.marshal"]}
{"id": "C91", "title": "Codec records of other writers are read as their specifications say", "statement": "For each codec, a sample entry and a configuration record that follow the specification (ISO 14496-12, -14, -15, VP9, AV1, Opus, FLAC, ETSI TS 102 366, ISO 23003-5) are read if and only if a stated condition on the fields holds, and then as the codec whose parameters are the ones of the fields; whatever is read can be used to read the samples of the track.", "quantifier": "all sample entries, all records with all values of all fields, all numbers of parameter sets, arrays, substreams and OBUs, all forms of descriptor sizes", "why_tests_cant": "tests read records that the same package has written, or a few files of single encoders; the fields that the package never writes are not exercised", "anchors": ["internal/mp4/codec_boxes.go:CodecBoxesReader.Read", "pkg/formats/fmp4/init.go:Init.Unmarshal", "pkg/formats/pmp4/presentation.go:Presentation.Unmarshal"]}
{"id": "C92", "title": "Initialization segments of other writers are read", "statement": "A segment that consists of the boxes of ISO 14496-12 on the way to the tracks, in the order of their nesting with headers first, and of any other boxes at any place, is read: the result has exactly the tracks of the segment, in order, with the identifiers, time scales and codecs of their headers and sample descriptions, and the user data of the movie. The statement holds for all orders and all places of user data that the standard allows, and segments with additional unknown tracks.", "quantifier": "all segments below 4 GiB: all numbers of tracks, all values of all header fields in versions 0 and 1, all codecs with all records of C91, all other boxes at all levels with all contents", "why_tests_cant": "tests read segments that the same package has written and a few samples; the number of arrangements of other boxes is unbounded", "anchors": ["pkg/formats/fmp4/init.go:Init.Unmarshal", "internal/mp4/codec_boxes.go:CodecBoxesReader.Read"]}
{"id": "C93", "title": "Non-fragmented files of other writers are read", "statement": "A file that consists of the boxes of ISO 14496-12 on the way to the samples, with sample tables that agree with each other, and of any other boxes at any place, is read: the result has exactly the tracks of the file, in order, with the identifiers, time scales and codecs of their headers and sample descriptions, and the samples of their tables (durations, composition offsets, sync flags, sizes); the payload of each sample is the part of the file that the tables say, and samples with the time offset of their track are presented when the edit list says.", "quantifier": "all files, of any length, made of boxes below 4 GiB: all numbers of tracks and samples up to the limit of the reader, all run-length forms of the tables, all values of all header fields in versions 0 and 1, all codecs with all records of C91, all other boxes at all levels with all contents", "why_tests_cant": "tests read files that the same package has written; the forms that tables may take, and the arrangements of other boxes, are unbounded", "anchors": ["pkg/formats/pmp4/presentation.go:Presentation.Unmarshal", "internal/mp4/codec_boxes.go:CodecBoxesReader.Read"]}
{"id": "C94", "title": "An initialized MPEG-TS reader reads the stream from its beginning", "statement": "For every source, every way in which it delivers its bytes and fails, and however far Reader.Initialize has read in order to find the tracks: the demultiplexer that it leaves behind gets exactly the packets, timestamps and failures that it would get from the source itself. These packets are the 188-byte packets of the resynchronised stream, in order, and all of them if the source does not fail. The end of the stream and the errors of the source reach the caller unchanged, errors of the demultiplexer are passed to the callback and do not end the stream.", "quantifier": "all byte streams, all sequences of reads with any sizes and errors, all numbers of packets read before and after", "why_tests_cant": "the way in which a connection splits its bytes and fails is not under control of a test, and tests find the tables in the first packets", "anchors": ["pkg/formats/mpegts/reader.go:Reader.Initialize", "pkg/formats/mpegts/robust_demuxer.go:robustDemuxer.nextData", "pkg/formats/mpegts/robust_demuxer.go:errorWrapper.Read", "pkg/formats/mpegts/robust_demuxer.go:ptsInterceptor.Read", "pkg/formats/mpegts/pre_demuxer.go:preDemuxer.Read", "pkg/rewindablereader/reader.go:Reader.Read"]}
{"id": "C95", "title": "Metadata cells are joined inside of the buffer that is being read", "statement": "For every buffer and every capacity of its array, readMetadataAUWrapper, which appends each cell to the first one inside of the array and therefore overwrites the buffer while cells are still to be read, has the same outcome as if cells were collected in other memory: the returned slice is a part of the buffer and holds the payload of all cells as they were, errors are the same and no panic occurs. Bytes in front of the first payload and bytes behind the end of the buffer are not changed.", "quantifier": "all buffers, all capacities, all sequences of cells", "why_tests_cant": "whether append writes over bytes that are still to be read depends on lengths of cells and capacities of slices; tests compare the result of few wrappings and do not look at the memory around the buffer", "anchors": ["pkg/formats/mpegts/reader.go:readMetadataAUWrapper", "pkg/formats/mpegts/substructs/metadata_au_cell.go:MetadataAUCell.Unmarshal"]}
{"id": "C96", "title": "The PID announced for clock references", "statement": "For every sequence of WriteTables calls and writes to tracks of an initialized writer with at least one track: tables are never refused for lack of a PCR PID, each announces the PID of a track of the writer, and WriteTables does not change the units that are written. The PID announced by tables, whether written explicitly or by the multiplexer, is the PID of all units that carry a clock reference.", "quantifier": "all lists of tracks, all sequences of operations, all decisions of the multiplexer to send tables", "why_tests_cant": "tests write tables once, and to tracks in the order of the list; the announced PID depends on which track is written first and on whether tables were written before", "anchors": ["pkg/formats/mpegts/writer.go:Writer.WriteTables", "pkg/formats/mpegts/writer.go:Writer.writeVideo", "pkg/formats/mpegts/writer.go:Writer.writeAudio", "pkg/formats/mpegts/writer.go:Writer.writeData"]}
{"id": "C97", "title": "Frame rates of H264 and H265", "statement": "For every sequence parameter set that Unmarshal accepts and that has timing information with a time scale other than 0, FPS is the float64 that is nearest to time_scale / (2 * num_units_in_tick) (H264) or vui_time_scale / vui_num_units_in_tick (H265), ties to even; the error is at most 2^-53 of the result and integral rates are exact. Without timing information it is 0.", "quantifier": "all byte strings that are accepted as sequence parameter set", "why_tests_cant": "tests compare the rate of a few streams; the three roundings of conversion, product and quotient are only known to have no effect for the values tried, and no stream of the tests has num_units_in_tick 0", "anchors": ["pkg/codecs/h264/sps.go:SPS.FPS", "pkg/codecs/h265/sps.go:SPS.FPS"]}
{"id": "C98", "title": "Whatever is decoded can be encoded and decoded again", "statement": "For AV1 sizes and bitstreams, H264 Annex-B and AVCC streams, ADTS, AudioSyncStream, AudioSpecificConfig, StreamMuxConfig, AudioMuxElement, FLAC stream info, Opus identification headers, JPEG tables and the MPEG-TS structures of metadata and Opus: if Unmarshal accepts some bytes, Marshal of the result succeeds, and Unmarshal of what Marshal wrote returns the same value. The only values that are changed are a single-channel Opus mapping, which becomes one uncoupled stream, and the number of quantization tables of a JPEG frame, which is not written.", "quantifier": "all byte strings that are accepted, and for AudioMuxElement all configurations the decoder was given", "why_tests_cant": "the fuzz tests of the repository sample this: they decode random bytes and require that the result can be encoded, for the inputs they happen to try, and do not compare what is decoded the second time", "anchors": ["pkg/codecs/av1/bitstream.go:Bitstream", "pkg/codecs/h264/annexb.go:AnnexB", "pkg/codecs/h264/avcc.go:AVCC", "pkg/codecs/mpeg4audio/adts.go:ADTSPackets", "pkg/codecs/mpeg4audio/audio_mux_element.go:AudioMuxElement", "pkg/codecs/mpeg4audio/stream_mux_config.go:StreamMuxConfig", "pkg/codecs/flac/stream_info.go:StreamInfo", "pkg/codecs/opus/id_header.go:IDHeader", "pkg/formats/mpegts/substructs/opus_audio_descriptor.go:OpusAudioDescriptor", "pkg/formats/mpegts/substructs/metadata_descriptor.go:MetadataDescriptor"]}
{"id": "C99", "title": "Fragmented MP4 parts that were read can be written and read again", "statement": "For every file that Parts.Unmarshal accepts, Parts.Marshal of the result does not panic, and Parts.Unmarshal of the file it writes returns the same parts.", "quantifier": "all byte strings that are accepted as fragmented MP4 parts", "why_tests_cant": "the fuzz test of the repository writes what was read for random files without looking at the result; files that have several runs or defaults are written in another form, and the limit on samples is applied to a run when reading and not at all when writing", "anchors": ["pkg/formats/fmp4/parts.go:Parts.Unmarshal", "pkg/formats/fmp4/parts.go:Parts.Marshal", "pkg/formats/fmp4/part.go:Part.Marshal", "pkg/formats/fmp4/part_track.go:PartTrack.marshal"]}
{"id": "C100", "title": "Names of NAL unit types", "statement": "NALUType.String gives different texts to different types. H265 types are called as in ITU-T H.265 table 7-1, H264 types by the short forms of the descriptions of ITU-T H.264 table 7-1 and RFC 6184; types without a label are called by their number.", "quantifier": "all 256 values of the type, for both codecs", "why_tests_cant": "the tests of the repository check that a text is not empty or unknown and never compare it with the standard", "anchors": ["pkg/codecs/h264/nalu_type.go:NALUType.String", "pkg/codecs/h265/nalu_type.go:NALUType.String"]}
{"id": "C101", "title": "Buffers of access units after Extract has returned", "statement": "The results of the DTS extractors do not depend on what the caller writes into the buffers of the access units of earlier calls.", "quantifier": "all sequences of access units, all timestamps, all writes between calls, for both codecs", "why_tests_cant": "tests pass literals that are never written over, so that a slice that is kept always has its first content", "anchors": ["pkg/codecs/h264/dts_extractor.go:Extract", "pkg/codecs/h265/dts_extractor.go:Extract"]}
{"id": "C102", "title": "AudioMuxElement decoded into again and again", "statement": "When successive elements are decoded into the same AudioMuxElement, no call panics, and an element that uses the configuration of an earlier one is decoded with that of the last element whose configuration could be read.", "quantifier": "all sequences of buffers, with and without configurations inside of the elements, any initial configuration", "why_tests_cant": "tests decode each element into a fresh value; the failure takes a configuration that ends early followed by an element that refers to it", "anchors": ["pkg/codecs/mpeg4audio/audio_mux_element.go:AudioMuxElement.Unmarshal", "pkg/codecs/mpeg4audio/stream_mux_config.go:StreamMuxConfig.unmarshalBits", "pkg/codecs/mpeg4audio/payload_length_info.go:payloadLengthInfo.unmarshalBits"]}
{"id": "C103", "title": "Decoding into a value that has been used before", "statement": "The result of Unmarshal is a function of the bytes: what the receiver held before the call has no influence on it.", "quantifier": "all buffers, all previous contents of the receiver; AudioSpecificConfig, StreamMuxConfig, ADTSPackets, AudioSyncStream, AV1 Bitstream, OpusControlHeader, OpusAccessUnit, OpusAudioDescriptor, MetadataDescriptor, E-AC-3 SyncInfo, H264 and H265 SPS, VP9 Header", "why_tests_cant": "tests decode into fresh values; the difference shows with pairs of inputs", "anchors": ["pkg/codecs/mpeg4audio/audio_specific_config.go:AudioSpecificConfig.UnmarshalFromPos", "pkg/codecs/mpeg4audio/stream_mux_config.go:StreamMuxConfig.Unmarshal", "pkg/codecs/mpeg4audio/adts.go:ADTSPackets.Unmarshal", "pkg/codecs/mpeg4audio/audio_sync_stream.go:AudioSyncStream.Unmarshal", "pkg/codecs/av1/bitstream.go:Bitstream.Unmarshal", "pkg/codecs/eac3/sync_info.go:SyncInfo.Unmarshal", "pkg/codecs/h264/sps.go:SPS.Unmarshal", "pkg/codecs/h265/sps.go:SPS.Unmarshal", "pkg/codecs/vp9/header.go:Header.Unmarshal", "pkg/formats/mpegts/substructs/opus_control_header.go", "pkg/formats/mpegts/substructs/opus_audio_descriptor.go", "pkg/formats/mpegts/substructs/metadata_descriptor.go"]}
{"id": "C104", "title": "Decoders where int has 32 bits", "statement": "The decoders that convert a uint32 of the input to int give the same results and errors whatever the size of int, 32 or 64 bits: no panic, no loop of an unreasonable length, no limit that is not applied.", "quantifier": "all buffers with a length that int holds, all values of 32-bit fields; H264 AVCC, AV1 Bitstream, fMP4 trun, MP4 sample tables, H264 and H265 slice headers", "why_tests_cant": "the tests run where int has 64 bits; the values that make the difference are above 2^31", "anchors": ["pkg/codecs/h264/avcc.go:AVCC.Unmarshal", "pkg/codecs/av1/bitstream.go:Bitstream.Unmarshal", "pkg/formats/fmp4/parts.go:Parts.Unmarshal", "pkg/formats/pmp4/presentation.go:Presentation.Unmarshal", "pkg/bits/read.go:ReadBits", "pkg/codecs/h264/dts_extractor.go:getPictureOrderCount", "pkg/codecs/h265/dts_extractor.go"]}
{"id": "C105", "title": "The work of reading fMP4 parts", "statement": "The memory that Parts.Unmarshal allocates and copies for the lists of samples is proportional to the size of the file.", "quantifier": "all files, valid or not; elements of the arrays allocated for curTrack.Samples, up to the end or the first error", "why_tests_cant": "test files have one or two runs for each track; the cost shows with many small runs only, and no test measures it", "anchors": ["pkg/formats/fmp4/parts.go:Parts.Unmarshal"]}
{"id": "C106", "title": "Decoded units are parts of the input", "statement": "The units that AVCC, AnnexB, ADTSPackets and AudioSyncStream return are parts of the input buffer that do not overlap, so that whatever is written into one of them, or appended to it, leaves the others as they are.", "quantifier": "all buffers that are accepted, all pairs of units, all positions and bytes that are written, all bytes that are appended", "why_tests_cant": "tests compare units right after decoding; the effects of a write on other units depend on the array behind them and on its capacity", "anchors": ["pkg/codecs/h264/avcc.go:AVCC.Unmarshal", "pkg/codecs/h264/annexb.go:AnnexB.Unmarshal", "pkg/codecs/mpeg4audio/adts.go:ADTSPackets.Unmarshal", "pkg/codecs/mpeg4audio/audio_sync_stream.go:AudioSyncStream.Unmarshal"]}
{"id": "C107", "title": "Nesting of boxes is bounded", "statement": "There is a number of levels such that no file makes Init.Unmarshal, Presentation.Unmarshal or Parts.Unmarshal nest calls of their handlers deeper; for a given file, an eighth of its length is such a number.", "quantifier": "all files, all limits, all tables of fields of go-mp4 (for the bound)", "why_tests_cant": "test files have the levels of ISO 14496-12; the depth of the recursion on other files is not visible in what the functions return until the stack is exhausted", "anchors": ["pkg/formats/fmp4/init.go:Init.Unmarshal", "pkg/formats/pmp4/presentation.go:Presentation.Unmarshal", "pkg/formats/fmp4/parts.go:Parts.Unmarshal"]}
{"id": "C108", "title": "Writing the table of chunks takes linear work", "statement": "The number of entries that marshalSTSC moves in its table is at most a constant times the number of samples of the presentation.", "quantifier": "all presentations, all constants", "why_tests_cant": "the moves are not visible in what is written, and take noticeable time only with presentations of many chunks whose sizes change every second chunk", "anchors": ["pkg/formats/pmp4/track.go:Track.marshalSTSC", "pkg/formats/pmp4/presentation.go:Presentation.Marshal"]}
{"id": "C109", "title": "Reference picture sets of H265 are in order", "statement": "For every H265 SPS that Unmarshal accepts, and every set in a slice header, DeltaPocS0 are the pictures before the current one with the nearest one first, DeltaPocS1 those after it with the nearest one first, and no picture is there twice; predicted sets included. Consequently the distance that the DTS extractor takes from DeltaPocS0[0] is that of the nearest picture and not negative.", "quantifier": "all byte strings that are accepted, all sets, all sequences of up to 64 predictions", "why_tests_cant": "sets are predicted from each other up to 64 times, and the order depends on each of the 32-bit sums", "anchors": ["pkg/codecs/h265/sps.go:SPS_ShortTermRefPicSet.unmarshal", "pkg/codecs/h265/dts_extractor.go:getPTSDTSDiff"]}
{"id": "C110", "title": "Samples of MP4 files may be shared", "statement": "Presentation.Marshal writes offsets into the samples that it is given through pointers. When the same sample is present at several positions of a track or in several tracks, the file is read back with the right sample at each position, payload included; only the offsets in samples of the presentation are written; writing again gives the same file; without sharing the file is that of the samples as values.", "quantifier": "all memories, all tracks, all ways in which positions share samples, all offsets that are in the samples before", "why_tests_cant": "tests have one pointer for each position; which offset remains in a shared sample depends on the order of all tracks", "anchors": ["pkg/formats/pmp4/presentation.go:sortSamples", "pkg/formats/pmp4/presentation.go:Presentation.Marshal", "pkg/formats/pmp4/track.go:Track.marshal"]}
{"id": "C111", "title": "Payloads of MP4 samples are read from where they are", "statement": "GetPayload of a sample that was read with Presentation.Unmarshal returns, when it returns no error, exactly the bytes of the file that the tables point to, whatever the position of the reader, the calls before, the way in which the reader splits what it returns, and its failures; without failures it returns them whenever they are in the file, and an error when the file is too short. The buffer is not larger than the file.", "quantifier": "all readers (contents, position, sequences of short reads and failures), all locations, all sequences of calls", "why_tests_cant": "tests read each sample once, in order, from a reader in memory that does not fail", "anchors": ["pkg/formats/pmp4/presentation.go:Presentation.Unmarshal"]}
{"id": "C112", "title": "Exactly what fits survives a round trip", "statement": "What Presentation.Marshal writes is read back by Presentation.Unmarshal as it was given (IDs, time scales, time offsets, samples, payloads, codecs). The same for Init.Marshal and Init.Unmarshal, and for Parts.Marshal and Parts.Unmarshal.", "quantifier": "any number of tracks, samples and parts, all values, all codecs", "why_tests_cant": "tests write values that fit; that a condition is necessary is a statement about all inputs that do not meet it, and the damage is silent", "anchors": ["pkg/formats/pmp4/presentation.go:Presentation.Marshal", "pkg/formats/pmp4/presentation.go:Presentation.marshalMdat", "pkg/formats/pmp4/sample.go:Sample", "pkg/formats/fmp4/init.go:Init.Marshal", "pkg/formats/fmp4/parts.go:Parts.Marshal"]}
{"id": "C113", "title": "Streams of units may be joined and cut", "statement": "Streams of units (ADTS, AudioSyncStream, AV1, AVCC, Annex B) that are joined give the units of the first followed by those of the second. A stream that is cut anywhere is refused, or it was cut between two units: then both parts are read and nothing is lost or changed.", "quantifier": "all pairs of streams, all positions of a cut", "why_tests_cant": "a cut may be at any byte of any stream, and what follows the cut may be anything; tests cut a few streams", "anchors": ["pkg/codecs/mpeg4audio/adts.go:ADTSPackets.Unmarshal", "pkg/codecs/mpeg4audio/audio_sync_stream.go:AudioSyncStream.Unmarshal", "pkg/codecs/av1/bitstream.go:Bitstream.Unmarshal", "pkg/codecs/h264/avcc.go:AVCC.Unmarshal", "pkg/codecs/h264/annexb.go:AnnexB.Unmarshal"]}
{"id": "C114", "title": "A stream of fMP4 parts that is cut gives no damaged parts", "statement": "When a stream of fMP4 parts is cut at any byte, Parts.Unmarshal refuses what is left of it, or returns the first parts of the stream as they are: no track or sample is missing from them, and no payload is shorter.", "quantifier": "all bytes that are accepted, from any writer, cut anywhere; all levels of nesting, all kinds of box sizes", "why_tests_cant": "downloads and recordings stop at any byte; tests read a few complete files, and boxes may also have a size that goes to the end of the file", "anchors": ["pkg/formats/fmp4/parts.go:Parts.Unmarshal", "pkg/formats/fmp4/parts.go:Parts.Marshal"]}
{"id": "C115", "title": "DTS do not depend on the origin of time", "statement": "When the PTS of all access units of a stream are moved by the same amount, forwards or backwards, all DTS returned by DTSExtractor.Extract are moved by this amount, and the same access units are refused with the same errors: as long as times, including those that are computed, are far from the limits of int64.", "quantifier": "all streams of H264 and H265, valid or not, all amounts", "why_tests_cant": "it compares two runs on all streams and offsets; tests have streams with positive times only", "anchors": ["pkg/codecs/h264/dts_extractor.go:DTSExtractor.Extract", "pkg/codecs/h265/dts_extractor.go:DTSExtractor.Extract"]}
{"id": "C116", "title": "MPEG-TS times do not depend on the origin of time", "statement": "When the times of all units given to the MPEG-TS writer are moved by the same amount, all PTS, DTS and clock references that it writes are moved by this amount and nothing else changes; and TimeDecoder returns the same times for timestamps that are all moved by the same amount on the circle of 33-bit timestamps.", "quantifier": "all sequences of calls, all amounts, all sequences of int64 timestamps", "why_tests_cant": "it compares two runs on all sequences and offsets; tests have a few streams with one origin each", "anchors": ["pkg/formats/mpegts/writer.go:Writer.writeVideo", "pkg/formats/mpegts/writer.go:Writer.writeAudio", "pkg/formats/mpegts/writer.go:Writer.writeData", "pkg/formats/mpegts/time_decoder.go:TimeDecoder.Decode"]}
{"id": "C117", "title": "DTS depend on parameter sets and first slices only", "statement": "The DTS and errors returned by DTSExtractor.Extract do not change when NAL units other than parameter sets and slices (delimiters, SEI, filler data and the like) are added to or removed from access units, nor when anything after the first slice of an access unit changes. In particular, they are the same for access units that have got a delimiter from the MPEG-TS writer.", "quantifier": "all streams of H264 and H265, valid or not, all states of the extractor", "why_tests_cant": "it compares runs on all pairs of streams that differ in such units; tests have a few streams", "anchors": ["pkg/codecs/h264/dts_extractor.go:DTSExtractor.Extract", "pkg/codecs/h265/dts_extractor.go:DTSExtractor.Extract", "pkg/formats/mpegts/writer.go:Writer.WriteH264", "pkg/formats/mpegts/writer.go:Writer.WriteH265"]}
{"id": "C118", "title": "New parameter sets make DTS extractors forget the past", "statement": "Two DTS extractors with different histories that have returned the same last DTS return the same results from the first access unit on that begins with a valid SPS different from the one in use (for H265, followed by a valid PPS): nothing else of the past matters.", "quantifier": "all histories, valid or not, all streams that follow", "why_tests_cant": "it compares two runs with arbitrary histories and continuations", "anchors": ["pkg/codecs/h264/dts_extractor.go:DTSExtractor.Extract", "pkg/codecs/h265/dts_extractor.go:DTSExtractor.Extract"]}
{"id": "C119", "title": "Headers do not depend on what follows them", "statement": "Whatever follows a header that is accepted (H264 SPS, H265 SPS and PPS, VP9 and AV1 headers, AudioSpecificConfig, AC-3, E-AC-3 and MPEG-1 audio headers, FLAC StreamInfo, Opus access unit of MPEG-TS), the same value is returned, and a header that is cut anywhere is refused with an error or, if only bytes that do not matter were cut, gives the same value: there are no damaged values.", "quantifier": "all headers, all bytes that follow, all cuts, all previous contents of the structs of H264, H265, VP9 and AV1", "why_tests_cant": "every header can be followed by unboundedly many byte strings", "anchors": ["pkg/codecs/h264/sps.go:SPS.Unmarshal", "pkg/codecs/h265/sps.go:SPS.Unmarshal", "pkg/codecs/h265/pps.go:PPS.Unmarshal", "pkg/codecs/vp9/header.go:Header.Unmarshal", "pkg/codecs/av1/sequence_header.go:SequenceHeader.Unmarshal", "pkg/codecs/mpeg4audio/audio_specific_config.go:AudioSpecificConfig.Unmarshal", "pkg/codecs/mpeg4audio/stream_mux_config.go:StreamMuxConfig.Unmarshal", "pkg/codecs/flac/stream_info.go:StreamInfo.Unmarshal"]}
{"id": "C120", "title": "Initialization segments are read from whole, growing and cut files", "statement": "The initialization segment of a fragmented MP4 that was written by Marshal is read back the same from the file with all of its parts, from a file of which any number of bytes of the parts have been written, and with boxes of other types after it or at the end of its movie box, which are not taken for user data. If the segment itself is cut anywhere, it is refused with an error or, if only the content of the last box is missing, read with the tracks that were written and with the user data that were written but for what is missing of the last of them; a segment without user data is then read as it was written.", "quantifier": "all segments that can be represented, all parts, all boxes of other types, all cuts", "why_tests_cant": "the files and the places where they can be cut are unbounded", "anchors": ["pkg/formats/fmp4/init.go:Init.Unmarshal", "pkg/formats/fmp4/init.go:Init.Marshal", "pkg/formats/fmp4/parts.go:Parts.Marshal"]}
{"id": "C121", "title": "MP4 files that are cut", "statement": "A file that was written by Presentation.Marshal and that is cut anywhere before the end of its movie box is not accepted by Presentation.Unmarshal, although boxes are read without a check that they are complete. A file that is cut anywhere in the media data is read with the same tracks, samples and positions of payloads as the whole file; the payload of a sample is the one that was written if the file contains its end, and an error otherwise. Boxes of types that Presentation.Unmarshal does not look at may follow the file, whatever they contain: the result is the same.", "quantifier": "all presentations that can be represented and written in less than 4 GiB, all cuts, all following boxes of other types", "why_tests_cant": "the files and the places where they can be cut are unbounded", "anchors": ["pkg/formats/pmp4/presentation.go:Presentation.Unmarshal", "pkg/formats/pmp4/presentation.go:Presentation.Marshal"]}
