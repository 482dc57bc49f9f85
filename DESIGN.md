# Formal model of bluenviron/mediacommon

Subject: the Go library in `/repo` (read as text, never run). Model and proofs: Lean 4.33,
Lake project `lean/`, modules under `lean/Verif/`. Properties: `properties.jsonl`;
property → theorem map: `MANIFEST.json`; mutation log: `seeded/LOG.jsonl`.

## 1. How code is modelled

* **Bytes** are `UInt8`; a byte slice is `List UInt8` (`Bytes`). Slices the library only reads are
  plain lists; where a function mutates through a slice or receiver the model returns the new value.
* **Outcomes**: `Res α = ok a | err msg | panic`. A Go `error` return is `err`; an out-of-range index,
  a nil dereference, a negative `make` size or a division by zero is `panic`. "Never panics" is
  therefore a statement with content, proved per function.
* **Integers**: `int` is modelled by `Nat`/`Int` without a bound (64-bit platform, buffers far below
  2^60 bytes — recorded in the trusted base). Fixed-width types are modelled with explicit
  truncation (`% 2^32`, `UInt8`, ...) wherever the code can wrap.
* **Loops** become structural recursion, or recursion on a measure whose decrease is proved (so
  termination of every modelled loop is a theorem by construction), or fuel with a proof that the
  fuel suffices.
* **Readers** (`io.Reader`) are schedules: the list of results the underlying `Read` will return.
* **Bit-level code**: `bits.Read*`/`bits.Write*` are modelled on bytes exactly as written (byte
  index, shift, mask) and proved equal to a bit-list specification (`bitsOf : Bytes → List Bool`);
  all bit-packed codecs are then modelled with these functions.
* Layout of the Lean tree: `Verif/Model/*` — model, each definition cites file and lines;
  `Verif/Spec/*` — small independent specifications; `Verif/Lemmas/*` — helper lemmas;
  `Verif/Props/*` — the property theorems (the ones in `MANIFEST.json`) with non-vacuity examples.

## 2. Plan per property

| id | modelled | proof |
|----|----------|-------|
| C01 | bits/read.go, byte level | refinement to bit list; case split on alignment, induction on whole bytes |
| C02 | bits/write.go, byte level | invariant "buffer bits = written bits ++ zeros"; round-trip by composition |
| C03, C04 | ReadGolomb* | refinement to Exp-Golomb decoder on bit lists; inverse of independent encoder |
| C05 | EmulationPreventionRemove | equality with a three-state scanner; inverse of the standard's insertion |
| C06, C07 | AVCC | refinement to a record grammar; induction on records |
| C08, C09 | AnnexB, incl. bytes.Index | characterisation of first occurrence; induction on NALUs |
| C10 | IsRandomAccess* | decision logic, induction on list |
| C11–C14 | both DTS extractors, bit parsing included | invariant over all call sequences |
| C15, C16 | LEB128 | induction on 7-bit groups |
| C17, C18 | AV1 Bitstream/OBU header | record grammar, induction |
| C19, C20 | ADTS | arithmetic on header fields, induction on packets |
| C21 | AudioSyncStream | same |
| C22–C24 | AudioSpecificConfig, StreamMuxConfig | bit-list parser/printer inverse |
| C25, C26 | opus | case analysis, table over all TOC bytes |
| C27, C28 | g711 tables generated as in the code | whole-table kernel evaluation lifted to lists |
| C29–C33 | flac, ac3, eac3, mpeg1audio, mpeg4video, jpeg | arithmetic round-trips; totality by case analysis |
| C34, C35 | TimeDecoder | invariant over call sequences |
| C36–C38 | reader schedules | refinement to byte streams |
| C39 | seekablebuffer | refinement to abstract file |
| C40–C43 | substructs, KLV wrapper | round-trip by induction |
| C44 | PCR counter of mpegts.Writer | invariant over call sequences |
| C45–C48 | pmp4 tables, sortSamples | run-length coding inverse; merge lemma |
| C49 | Part.Marshal on bytes, over the seekable buffer | the file is always `prefix ++ box ++ suffix`; rewriting replaces a box of the same size |
| C66, C67 | pmp4 presentations, edit lists | writer and reader composed on box values |
| C68–C71 | Parts.Unmarshal on bytes, box traversal of go-mp4 included | invariant of the state machine; inverse of the writer and of fragments with any optional field; count of samples per byte |
| C72 | Sample.Fill*, Sample.Get* | composition of C06, C10, C17 and C68 |
| C73–C75 | Init.Marshal, Init.Unmarshal, codec boxes and all boxes of go-mp4 in them, on bytes | the outcome of each writer step as a predicate; invariant of the reader over the tree of boxes |
| C76 | Init.Marshal and Init.Unmarshal composed | inversion of each writer function into the bytes of its box; reading of each box as a relation on reader states (`Reads`), composed along the tree |
| C77 | MPEG-TS reader on demultiplexed data | composition of the no-panic and soundness theorems of the payload parsers |
| C78 | MPEG-TS writer composed with reader | per codec, from the round trips of the payloads; induction over sequences |
| C79 | MPEG-TS tracks through the program map table | descriptors as values; search for packets as a relation on the rest of the stream; induction over tracks |
| C80 | ptsInterceptor on bytes of packets | pattern specification of packet and PES header; arithmetic of the 33-bit field |
| C50–C53 | SPS/PPS/sequence header/VP9 parsers | compositional "no panic, position stays in range" predicate |
| C54, C55 | LATM elements, program config element | bit-list parser/printer inverse |
| C56 | g711 nearest code | monotone tables, whole-table kernel evaluation |
| C57, C58, C60, C61 | AV1 sequence header, H264/H265 SPS, slice headers | exactness against grammars of the standards |
| C59, C62–C65 | DTS extractors over whole streams | invariants over call sequences, convergence by a decreasing error |
| C81–C83 | Presentation.Marshal, Presentation.Unmarshal on bytes | box values of C66 refined to bytes; invariant of the reader; boxes counted over the tree; a family of files that reaches the bound; bytes that each state of the reader has cost as a potential (Props/PMP4FileExact) |
| C84 | Presentation.Marshal after Presentation.Unmarshal | invariant of the reader that numbers fit the boxes they came from; outcome of each writer step; C81 applied to what was read |
| C85 | WriteCodecBoxes | field lists of the specifications of each record, read back from the bits that are written; uniqueness of the reading for refutations |
| C86, C87, C88 | Presentation.Marshal | reader of MP4 files written from ISO 14496-12 (Spec/ISOFile.lean) applied to the bytes that are written; boxes and fields read back by generic lemmas, then C45, C46, C48 |
| C89 | Track.marshal (mpegts) | tables of ISO 13818-1 and EN 300 468 annex D in Spec/TSDescriptors.lean, case analysis over codecs |
| C90 | Init.Marshal, Parts.Marshal (fmp4) | a reader of fragmented files in Spec/ISOFragments.lean, applied to the bytes of segment and parts; codecs by C85 |
| C91 | codec boxes reader | entries and records as field lists (Spec/CodecEntries.lean) with arbitrary values, equivalences between being read and a condition on the fields |
| C92 | Init.Unmarshal (fmp4) on segments of other writers | boxes and arbitrary other boxes as a tree of values (Spec/InitSegment.lean); tree lemmas of C76; states that act like the one that waits for a track |
| C93 | Presentation.Unmarshal (pmp4) on files of other writers | the same, with the sample tables as the reader of Spec/ISOFile.lean reads them (Spec/MovieFile.lean); the reader after each table as a function of the tables that were met; tree lemmas of C76 |
| C94 | An initialized MPEG-TS reader reads the stream from its beginning | Model/TSChain: pre-demuxer on a rewindable reader, errorWrapper, ptsInterceptor, nextData; simulation between the replayed recording and the source (Props/TSChain) |
| C95 | Metadata cells are joined inside of the buffer that is being read | Model/TSMetadataMem: array of the buffer explicit, append as in the Go specification; cells still to be read are not reached by what is written (Props/TSMetadataMem) |
| C96 | The PID announced for clock references | Model/TSTables: SetPCRPID and WriteTables added to the clock model; all tables but the ones in front of the first unit announce the leading track (Props/TSTables) |
| C97 | Frame rates of H264 and H265 | Model/Float64: conversion, doubling and division of float64, each rounded; the result is the float64 nearest to the rate of the standard (Spec/Float64, Props/FrameRate) |
| C98 | Whatever is decoded can be encoded and decoded again | the decoders' exact languages imply the conditions of the round trips, for each structure (Props/Reencode) |
| C99 | Fragmented MP4 parts that were read can be written and read again | range invariant of the reader, exact writer, and the outcome of reading what was written, accepted or refused (Props/FMP4PartsAgain) |
| C100 | Names of NAL unit types | tables of both standards, the whole range of the type by computation (Model/NALUType, Spec/NALUNames, Props/NALUNames) |
| C101 | Buffers of access units after Extract has returned | two runs of the extractor, one with writes between calls into what it has kept (Props/DTSBuffers) |
| C102 | AudioMuxElement decoded into again and again | the configuration as it is in memory, with nil pointers (Model/MuxElementState), simulation by the decoder of a fresh element (Props/MuxElementState) |
| C103 | Decoding into a value that has been used before | decoders with a receiver (Model/Receivers) equal those of fresh values followed by a merge of the fields that stay (Props/Receivers, Props/ReceiversVideo) |
| C104 | Decoders where int has 32 bits | decoders with an int of a given size (Model/Int32) equal the other models with 64 bits, and with 32 bits on what is accepted; witnesses for the rest (Props/Int32) |
| C105 | The work of reading fMP4 parts | the reader with a counter of allocated elements (Model/FMP4Work); quadratic bound by induction on the boxes, and files that reach it (Props/FMP4Work) |
| C106 | Decoded units are parts of the input | decoders that return start and length of units (Model/Views), with the array model of C95 for `copy` and `append`; units in order with gaps, by induction on the decoders (Props/Views) |
| C107 | Nesting of boxes is bounded | the readers with a limit on the depth in front of their handlers (Model/Depth); induction on the reader for the bound, families of nested boxes and a calculus of files on which the reader stops (Props/Depth) |
| C108 | Writing the table of chunks takes linear work | the loop that moves entries, with a counter (Model/PMP4Work); induction for the bound, a family of presentations with chunks of 1, 1, 2, 2 samples again and again for the negation (Props/PMP4Work) |
| C109 | Reference picture sets of H265 are in order | grammar of 7.3.7 with the ranges of the standard and integers without a limit (Spec/RefPicSets), contained in the grammar of C51; invariant that the k-th set is in order and within (254 + k) * 2^15 (Props/RefPicSets) |
| C110 | Samples of MP4 files may be shared | memory with samples and tracks of addresses (Model/PMP4Heap); simulation by the loop on values, with the invariant that what is in memory is one of the placed values; tables are right for any offsets (Props/SharedSamples) |
| C111 | Payloads of MP4 samples are read from where they are | reader with a position, short reads and failures (Model/Seeker); `io.ReadFull` returns the part of the file where it has started, in a bounded number of calls (Props/Seeker) |
| C112 | Exactly what fits survives a round trip | converse of C68, C76 and C81: whatever is read, from any bytes, fits (C82, C84, C99), so a value that does not fit is not what is read (Props/FitsExactly) |
| C113 | Streams of units may be joined and cut | frames that tell their length are prefix-free, so tilings (C20, C21), streams of OBUs (C18) and records (C07) split uniquely; Annex B by induction over the search of start codes (Props/CutStreams) |
| C114 | A stream of fMP4 parts that is cut gives no damaged parts | simulation of two runs of the reader, on the beginning and on the whole; parts before the current one do not change (Props/FMP4Cut) |
| C115 | DTS do not depend on the origin of time | simulation of two runs of the extractors whose last DTS differ by a constant; code that does not look at times is closed under sequencing (Props/DTSOrigin) |
| C116 | MPEG-TS times do not depend on the origin of time | two runs of the writer with the same state; two runs of the decoder whose last timestamps differ by a constant modulo 2^33 (Props/MPEGTSOrigin) |
| C117 | DTS depend on parameter sets and first slices only | the loops over NAL units give the same on what is left of an access unit (Props/DTSIdle) |
| C118 | New parameter sets make DTS extractors forget the past | state after an SPS that is not the one in use (Props/DTSReset) |
| C119 | Headers do not depend on what follows them | `HeadOnly` (Spec/Prefix): appended bytes keep the value, cuts give the value or an error (Props/Prefix) |
| C120 | Initialization segments are read from whole, growing and cut files | box trees of C76, followed by boxes of other types, cut anywhere (Props/FMP4InitCut) |
| C121 | MP4 files that are cut | `Uncuttable` boxes, for all states of the reader (Props/PMP4FileCut) |

## 3. Trusted base

* The Lean 4.33 kernel; axioms allowed: `propext`, `Classical.choice`, `Quot.sound`.
* The reading of the Go source (each model definition cites its lines). The code is not executed.
* Go semantics assumed: 64-bit `int`, no overflow of `int` for buffer lengths (< 2^60 bytes),
  `append`/`copy`/slicing as in the language specification, allocation always succeeds.
* Not modelled: `go-astits` (PES/PSI encoders and decoders), `fmt` error texts,
  the wall clock, goroutines (the library starts none).
* `go-mp4` is not in the repository. For C45–C48, C66 and C67 boxes are values, for C81–C83 bytes. For fmp4 parts boxes are bytes, laid out
  as in ISO 14496-12, and the traversal is assumed to be: boxes in file order, size 0 to the end of
  file, size 1 followed by 64 bits, sizes below the header rejected, a child that is larger than what
  is left of its parent rejected, a short header at the top level is the end.

### Shared proof infrastructure

* `Model/BitM` — state monad over (buffer, bit position) built from the byte-level `bits.Read*` model.
* `Spec/Grammar` — relations between values and bit strings, written after the syntax tables of the
  standards; `Lemmas/Grammar` — `Exact n p G`: a parser accepts exactly the bit strings of a grammar.
* `Model/StepM` — state and result monad for extractors that keep state between calls; `calls` is the
  list of results of a sequence of calls.

## 4. Findings

Behaviour of the code that contradicts a property, a standard or its own documentation. Those marked
with a theorem are proved (with a concrete witness or for a class of inputs); the rest were found
while modelling and follow from the cited model definition.

Panics reachable from input or API values:
* `mpeg4video.IsValidConfig` on data that ends with a bare start code (`C32_false`).
* h264 `DTSExtractor` on an SPS with `log2_max_pic_order_cnt_lsb_minus4 = 2^32-4` (`C59`, `_false`).
* `AudioMuxElement.Marshal` without `StreamMuxConfig` or with frame length type other than 0
  (`C54_marshal_panics`).
* empty NAL units panic `IsRandomAccess`; `ReadBits` with n = 0 at the end of the buffer, and
  `ReadGolomb*` with a position after the end.
* `fmp4.Init.Marshal` on a FLAC track without STREAMINFO (`C73_false`): `Fill` checks parameters of other codecs only.
* pmp4 reader: `SamplesPerChunk = 0` in the last stsc entry (division by zero), and a second stsc box
  (index out of range); see C47.

Wrong results:
* `ReadGolombSigned` of code 2^31-1 (`C04` is false at k = 2^30); 32 leading zeros wrap.
* Annex B: a zero byte before a 3-byte start code is lost. LEB128 values above 32 bits are truncated.
* `WriteBits` with a value wider than n spills into neighbours (ADTS lengths above 8191, sample rates
  above 2^24, channel configurations above 7 are written corrupt and not rejected).
* opus `IDHeader` is big-endian, RFC 7845 says little-endian; version is always 1.
* mpeg1audio `FrameLen` uses 144 for MPEG-2 layer III where the standard has 72.
* JPEG quantization tables: `Marshal` never writes the precision.
* opus access unit / channel mapping: mono with a mapping family loses coupled count and mapping (C41).
* `StreamMuxConfig`: `OtherDataLenBits` escape in base 256; frame length type 2 without field; empty
  `Programs` writes `uint64(-1)`. `AudioMuxElement`: other data can be written and is rejected on read.
* VP9: a `Header` that is reused keeps frame size and color configuration; 4:4:0 is reported as 4:2:0.
* AV1 sequence header: `separate_uv_delta_q` is not read, so `film_grain_params_present` is wrong for
  color video (`C57_false`); reduced still picture headers leave `InitialDisplayDelayMinus1` empty
  (`C52_false`); the OBU type is not checked.
* h264 SPS: `Width` is wrong when `ChromaArrayType` is 0 and there is cropping (`C58_false`); negative
  next scale from truncated remainder; scaling lists accumulate when a struct is reused.
* h265 SPS: absent sub-layer ordering information is left zero instead of inferred (`C60_false`).
* H264 slice headers: `separate_colour_plane_flag` is ignored (`C61_h264_false`). The 22 byte prefix is
  enough for every conforming first slice; the 12 byte prefix of h265 is not: longer headers are always
  refused (`C61_h265_long`, `C61_h265_long_false`). h265 slices that refer to the only set of the SPS give 0,
  whatever the set (`C61_h265_single`, `C61_h265_single_false`). All the others are exact (`C61_h265_partial`).
* DTS: increment detection is fooled by three counts 4 apart (`C62_h264_increment_false`) and starts
  from a wrong expected count when the IDR is not at zero (`C65_h264_offset_false`); with more than one
  sub-layer h265 rejects B pictures (`C64_h265_layers_false`); random access is marked as received even
  when the slice header cannot be parsed, and DTS is returned before any IDR with count type 2 (C14).
* TS KLV wrapper: more than 256 cells are rejected by the reader; an empty payload is written as nothing.
* G711 encoders round negative samples down first: up to 6 farther than the nearest code (C56).
* pmp4 `GetPayload` tests `err` of the enclosing function instead of the error of `Seek`, and allocates
  the size found in the file (up to 4 GiB). Without stco or with an empty stsc it is nil (`C47_location_false`).
* pmp4 writer: with a negative time offset the edit is longer than the media and disagrees with tkhd
  (`C67_false`); the duration in mdhd includes the time offset; a zero time scale is a division by zero.
* pmp4: `durationMp4ToGo` overflows after about 292 years and samples are misordered (`C48_overflow_false`).
* pmp4 reader, whole files: the two panics above are reached from files of about 300 bytes (`C82_stsc_false`,
  `C82_second_stsc_false`); the limit on samples is per track, and 275 bytes of a track make 5184000 of them, for any number of
  tracks (`C83_reached`): about 250 MB of memory for each 275 bytes (48 bytes and a pointer for each sample). With boxes that are nested in ways that
  the reader takes and ISO 14496-12 does not (tracks in tracks, in `edts` and in `mvhd`), 227 bytes, and no less (`C83_exact`): 22838 samples for a byte.
* fmp4: data offsets wrap to negative numbers in parts of 2 GiB or more (`C49_huge_false`); the guard on
  the sample count of trun reads bytes at a fixed distance and is bypassed by a box with a 64-bit size:
  104 bytes produce up to 2^32-1 samples (`C70_samples_false`).
* **Panic** of `AudioMuxElement.Unmarshal` (C102): the configuration is built in place (audio_mux_element.go:41-42, stream_mux_config.go:74-92)
  and stays there when it cannot be read to its end, with nil programs and layers. The next element with `use_same_stream_mux` dereferences them
  (payload_length_info.go:33-36). Two elements, `20 01` and `80 81 80`, are enough (`C102_panic_false`). When no program has been
  allocated, elements without payloads are accepted instead (`C102_accepts_false`).
* `Parts.Unmarshal` ignores up to 7 bytes after the last box (C114): `[0]` is accepted, and when parts are appended to it they are lost without an error, since
  the header of the first box is shifted. An `mdat` that announces more than there is in the file is accepted too, when samples do not need the rest.
* The clock of a transport stream stands still when its leading track is asynchronous KLV (C116, `C116_clock_stops`). The first track that
  is written to becomes the leading one, and clock references are sent with its units. `WriteKLV` passes a time of 0 to `writeData` for
  asynchronous KLV (writer.go:329), so all clock references of the stream are -9000, which is 8589925592 in 33 bits, whatever the times of the
  other tracks are. It is enough that a KLV unit is written before the first video or audio unit.
* An H264 access unit without slices is accepted when it is empty or has delimiters and SEI only, and refused when it has a PPS or an SPS only
  (C117, `C117_h264_reference_false`): `nal_ref_idc` of parameter sets is not zero.
* The H265 `DTSExtractor` looks for slices of types TRAIL, RASL, IDR and CRA only (h265/dts_extractor.go:159-209). Access units whose slices are of types
  TSA, STSA, RADL or BLA are refused in any state (C117, `C117_h265_refused`), although they are part of valid streams: those with temporal
  sub-layers, with decodable leading pictures after an IDR, or that were spliced.
* The H264 `DTSExtractor` does not recover from lost pictures (C118, `C118_idr_false`): a gap of two pictures counts as one more reordered frame, and the number
  is reset by an SPS that changes only, not by an IDR (h264/dts_extractor.go:119-138, 169-189). From then on DTS are too early for the rest of the stream.
* A `StreamMuxConfig` that is cut before the frame length type is accepted, with a LATM buffer fullness of 255 instead of the one that was cut (C119,
  `C119_mux_false`; mpeg4audio/stream_mux_config.go). No other decoder of headers returns damaged values of a cut header.
* `AudioSpecificConfig.Unmarshal` ignores what follows the configuration (C119, `C119_asc`), so SBR and PS that are signalled in the backward compatible way
  of ISO 14496-3 1.6.5 (sync extension 0x2B7) are not seen: only explicit hierarchical signalling (object types 5 and 29) is.
* Annex B streams cannot be joined or cut (C113, annexb.go): there is no length, so a truncated access unit is accepted with a truncated last unit, possibly
  with zeros that belonged to a start code (`00 00 01 05 00 00 00` gives the unit `05 00 00 00`), and a unit that ends with zero loses it when another
  stream is appended. Units before the last one are safe. This is a property of the format more than of the code; callers that read from a network must
  not hand over partial access units.
* `Presentation.Marshal` does not compare `PayloadSize` with the length of what `GetPayload` returns (C112, presentation.go:553-580): when they differ, the
  payloads of all samples that follow are shifted, without an error. Identifiers above 32 bits, numbers of channels of Opus above 255 and so on are
  truncated, also in fMP4; tracks with more than 5184000 samples are written and refused by the reader.
* `GetPayload` of `pmp4` samples tests `err` instead of `err2` after `Seek` (C111, presentation.go:364-367): when `Seek` fails, the bytes at the position
  where the reader is are returned as payload, without an error. It also allocates the size that is in `stsz`, up to 4 GiB, before reading
  (presentation.go:369), also when the file is of some hundred bytes.
* A sample that is present more than once in a presentation keeps the offset of its last position (C110, presentation.go:450-451). All its positions
  then refer to the same part of the media data, the other copies are written but are not referred to, and chunks are different; the file is right.
* Distances of reference pictures are not checked by `h265.SPS` (C109, sps.go:571-580, 599-608): `delta_poc_s0_minus1 = 2^31` gives a picture that
  is after the current one in `DeltaPocS0`, and a negative distance in the DTS extractor. Neither is the number of pictures checked against
  `sps_max_dec_pic_buffering_minus1`, only against 255.
* `marshalSTSC` of `pmp4` removes an entry by moving all entries behind it (track.go:455-462), so its work is quadratic in the number of chunks (C108).
  Chunks of audio and video that alternate as in an ordinary recording, with some variation in the number of samples, are such a case. Appending an entry only when
  `SamplesPerChunk` changes would be linear.
* Boxes may be nested without a limit (C107): `mdia` in `mdia`, `minf` or `stbl` in `stbl` (init.go:128-133, 153-157), also `edts` in `edts`
  (presentation.go:134-139), leave the state as it is, and after `mdat` a `moof` may be in a `moof` (parts.go:187-198). Each level is a
  nested call of the handler and takes 8 (32 in parts) bytes of the file, so some megabytes are enough to exhaust the stack of a goroutine (1 GB by default
  on 64-bit systems), an error that cannot be recovered. `go-mp4`
  (not part of the repository) hands the path of each open box to the handler, so that memory may be quadratic in the depth too. A check of
  `len(h.Path)` would prevent it: what `Marshal` writes has 8 levels (3 in parts), and a limit of as many changes nothing for it (C107_init_written,
  C107_presentation_written, C107_parts_written in Props/DepthWritten).
* Units of `AVCC`, `AnnexB`, `ADTSPackets` and `AudioSyncStream` are cut with `buf[i:j]`, whose capacity goes up to the end of the buffer: a
  caller that appends to a NAL unit more bytes than the delimiter has overwrites the next unit without any error (C106; avcc.go:66,
  annexb.go:87, adts.go:109, audio_sync_stream.go:29). `buf[i:j:j]` would prevent it. This is also how the metadata reader damages its input (C95).
* `Parts.Unmarshal` allocates an array for all samples of the track at every `trun` and copies those that are there already (C105,
  parts.go:134-137). Runs of 20 bytes can have 19200 samples, so a valid file of 20 kilobytes (1000 runs) allocates and copies 9.6 * 10^9
  pointers, i.e. 77 gigabytes; one of 200 kilobytes, a hundred times as many. `append` would be linear.
* Where `int` has 32 bits (386, arm, mips), `int(x)` of a `uint32` above `2 ^ 31` is negative and passes the checks that follow (C104).
  `AVCC.Unmarshal` panics with `ff ff ff fb` and makes 536870913 rounds with `ff ff ff fc` (`C104_avcc_false`, `C104_avcc_rounds`; avcc.go:27);
  `Bitstream.Unmarshal` of AV1 panics with `12 ff ff ff ff 0f` (bitstream.go:30); a fMP4 sample with a size of `2 ^ 31` panics (parts.go:176);
  in MP4, a `stss` with number zero panics (presentation.go:238), so do a `ctts` and a `stsc` with large counts (:258, :303), and a `stts` with a
  count above `2 ^ 31` is not subject to the limit on samples (:202); H264 and H265 slices panic in `bits.ReadBits` with a SPS that announces
  fields of `2 ^ 31` bits.
* Values that are decoded into twice are not what the second buffer says (C103). `AudioSpecificConfig` keeps `ExtensionType`, so that AAC-LC
  decoded into a value that held SBR is marshaled as SBR (`C103_asc_false`); `StreamMuxConfig.OtherDataLenBits` is accumulated from its old value
  (stream_mux_config.go:163-180, `C103_mux_false`); ADTS packets, AudioSyncStream elements, AV1 OBUs and H264 scaling lists are appended. The
  library itself decodes into fresh values.
* DTS extractors keep slices of the caller's buffers (C101): `d.sps = nalu` (h264/dts_extractor.go:126, h265/dts_extractor.go:173, and :194 for the
  PPS) is compared with the SPS of later access units. A caller that reads into the same buffer again has a new SPS ignored
  (`C101_*_missed_false`) or an unchanged one taken for a new one, with the loss of the state (`C101_*_reset_false`).
* H265 `NALUType.String` (C100): type 5 is printed as `STSA_R:`, with a colon; 39 and 40 as `PrefixSEINUT` and `SuffixSEINUT`, unlike all others, that
  have the name of table 7-1 (`C100_false`).
* fmp4 parts (C99): the limit of 19200 samples is applied to each run when reading and never when writing. A file of 124 bytes with two runs is
  read, and what is written from it is refused by the reader (`C99_false`).
* fmp4 reader: `first_sample_flags` are ignored, so the key frame of a fragment in the usual layout of other
  muxers is reported as non-sync (`C71_first_flags_false`); `base_data_offset` is ignored
  (`C71_base_offset_false`); unsigned offsets are read as signed (`C71_offset_false`); defaults of trex
  in the init segment are not available to the reader.
* fmp4 init: `FuzzInitUnmarshal` claims that what is read can be written; it cannot with AC-3/E-AC-3 at 24 kHz
  and the other half rates or MPEG-4 audio with channel configuration 0 (`C75_false`, `C75_false_channels`).
* fmp4 init, values that are written and then rejected or changed by the reader: time scale 0; VP9 and MJPEG
  width 0 modulo 65536; sample rates of 65536 Hz and more (`C76_wide_false`: LPCM at 96000 Hz is read as 30464 Hz, as
  `uint32(rate * 65536)` wraps); widths, heights and channel counts wider than their fields; MPEG-4 audio whose
  configuration cannot be marshalled (the error is ignored, the specific info is empty).
* pmp4 `FuzzPresentationUnmarshal` (presentation_test.go:2472) does not hold: a file whose AC-3 entry has 24000 Hz is read and not
  written (`C84_false`), and for a file without `stco` the test calls a nil `GetPayload` (`C84_payload_false`).
* mp4 `hvcC` (C85): `GeneralConstraintIndicator` is SPS[7..12], one byte off (the constraint flags are after the compatibility
  flags, from byte 8 on) and with emulation prevention bytes: the SPS of the tests has 90 00 00 00 00 00 and the record 03 00 90 00 00 03
  (`C85_hevc_constraints_false`); tier and profile space are not written (`C85_hevc_tier_false`, the 10 bit SPS of the tests is of
  high tier); `numTemporalLayers` 1 is written as 2 (`C85_hevc_layers_false`); `array_completeness` is 0 where `hvc1` requires 1
  (`C85_hevc_false`, for every stream).
* mp4 `avcC` of High profiles lacks chroma format and bit depths (`C85_avc_high_false`).
* mp4 `vpcC`: the level is 1 whatever the size (`C85_vp9_level_false`); colour primaries and transfer characteristics are 0, which is
  reserved, and the matrix is that of RGB with 4:2:0 (`C85_vp9_colour_false`, `C85_vp9_matrix_false`).
* mp4 `esds`: MPEG-2 audio (16000, 22050, 24000 Hz) has the object type of MPEG-1 audio (`C85_mpeg_audio_false`); MPEG-1 video and
  MPEG-2 video of other profiles have that of MPEG-2 main profile (`C85_mpeg_video_false`).
* mp4 `dOps`: more than two channels are written with mapping family 0 and no table (`C85_opus_false`).
* mp4 codec reader (C91): `LengthSizeMinusOne` of `avcC` and `hvcC` is never looked at; tracks with lengths of one or two bytes are accepted
  and their samples are then cut at the wrong places (`C91_samples_false`, `C91_length_ignored`). Records with more than one SPS or PPS are
  refused (`C91_h264`), E-AC-3 with more than one independent substream too (`C91_eac3`). The channel count of AC-3 and E-AC-3 is that of
  the sample entry, which ETSI TS 102 366 says to ignore (`C91_ac3_channels_false`). Object types 0x69 (MPEG-2 audio) and 0x6A
  (MPEG-1 video) are refused (`C91_mpeg_audio_false`, `C91_mpeg_video_false`).
* fmp4 `Init.Unmarshal` (C92): the end of the codec boxes is noticed at the next box, so that a segment whose last box is a sample
  description is refused with "parse error" (`C92_last_false`); `mdia` before `tkhd` is refused (`C92_order_false`; the standard does not
  order them); `udta` of a track is taken for `udta` of the movie, and refused before `mdia` (`C92_track_user_data_false`,
  `C92_track_user_data_first_false`); one track with an unknown sample entry, like subtitles, makes the segment unreadable
  (`C92_unknown_false`), although `c608` tracks are skipped.
* pmp4 `Presentation.Unmarshal` (C93) requires what the standard does not: an edit list in each track (`C93_edits_false`), sizes in a list
  (`C93_sizes_false`; PCM files usually have a constant size), durations as the first table, and chunk offsets after the sizes
  (`C93_order_false`, `C93_order_sizes_false`). With `co64` instead of `stco` files are read without an error, but `GetPayload` of their
  samples is nil (`C93_payloads_false`); offsets in a chunk that crosses 4 GiB wrap (`C93_locations_false`). The edit list is not read:
  the time offset is the duration of `mdhd` minus that of the samples, which is right for files of this package only. An edit that skips
  the start of the media, as most writers do for reordered frames and encoder delay, or that delays it, is not in the times
  (`C93_shifted_false`, `C93_delayed_false`), and a `mdhd` of version 1 makes the time offset minus the whole duration
  (`C93_version_false`).
* pmp4 edit list (C87): the edit lasts as long as the sum of the durations, but composition times of reordered frames reach beyond it:
  with time offset 0, samples whose composition time is the sum or more are outside of the edit and never presented (`C87_false`).
* pmp4 `mdhd` (C88): the time offset is added to the duration of the media, which is the sum of the durations of the samples
  (ISO 14496-12 8.4.2); it is wrong whenever the offset is not zero (`C88_media_partial`).
* pmp4 `mvhd` (C88): `next_track_ID` is the number of tracks plus one, whatever their identifiers (`C88_next_false`: one track with
  identifier 5, next identifier 2).
* mpegts `component_type` of AC-3 and E-AC-3 (C89): the flag of full service is written in bit 0 instead of bit 6, the channels in bits
  3-1 instead of 2-0, and the flag of E-AC-3 never: stereo is announced as more than 5.1 channels, 5.1 as music and effects
  (`C89_component_false`, for every number of channels).
* fmp4 init: average and maximum bit rates are written (`btrt`) and never read (C76).
* fmp4 init: MPEG-4 and MPEG-1 video are always written as 800x600. A `udta` in a track is an unexpected box;
  a `stsd` that is the last box of the file is a parse error.
* mpegts reader: an access unit that consists of a delimiter is delivered without NALUs; `WriteH264`/`WriteH265` panic on
  it (`C77_empty_au_false`), so remuxing crashes on such a stream.
* mpegts writer: an access unit of 50 NALUs without delimiter becomes one of 51, which the reader refuses
  (`C78_fifty_false`); empty access units, empty NALUs and an empty list of MPEG-1 audio frames panic
  (`C78_empty_false`); automatic PIDs collide with explicit ones (`C79_pid_false`); errors of `Track.marshal` are ignored.
* mpegts tracks: `Reader.Initialize` searches the packets of each AAC/AC-3/E-AC-3 track after those of the previous one
  and fails with EOF when they come in another order and not again (`C79_order_false`); Opus with `ChannelCount` above 8 and
  no descriptor is announced with a code that fails reading, a descriptor with a short mapping panics
  (`C79_opus_false`); MPEG-2 audio (stream type 4) is unsupported.
* mpegts `ptsInterceptor`: the PTS of a header that continues in the next packet is not seen (`C80_split_false`); ECM, EMM and
  other streams without optional header are misread (`C80_stream_id_false`).
* h264, h265 `SPS.FPS`: `num_units_in_tick` 0, which the standards forbid, is accepted by `Unmarshal`; the frame rate is then +Inf, or NaN
  when the time scale is 0, too (`C97_h264_false`, `C97_h265_false`, `C97_unknown`).
* mpegts `readMetadataAUWrapper`: cells are appended inside of the array of the input, which is overwritten while it is being read. The
  result is right for all inputs (`C95_same`); the input does not keep its contents (`C95_input_kept_false`), which matters to callers
  that keep the buffer.
* mpegts `Writer.WriteTables` in front of the first unit announces `Tracks[0].PID` for clock references, and the first track that is written
  to becomes the leading one: with tracks 256 and 257, WriteTables, then a unit on 257, all clock references come on 257 although the
  tables say 256, where there is never one (`C96_false`). These are the tables that are meant for late-joining clients. Tables from the
  first unit on are right (`C96_after_first_partial`).
* Readers: `bytecounter`/buffered readers drop bytes returned together with an error (C36, C38), and
  beyond 1 MiB the detector loses bytes (C37).

## 5. Model checks

All access unit sequences of the DTS tests in the repository are evaluated in the model
(`Props/DTSSamples`) and give the DTS that the Go tests expect; parser samples of the repository are
evaluated next to the corresponding theorems.

All cases of `casesInit` in the repository (17 files, written and read), of `TestInitUnmarshalOnly` and of
`TestInitMarshalEmptyParameters` are evaluated in the model (`Props/FMP4InitSamples`).

The presentations of `pkg/formats/pmp4/presentation_test.go` are evaluated in `Props/PMP4FileSamples`.

`Verif/Tests` evaluates the other tables of the unit tests with `#guard`: 53 cases for the video codecs
(`Tests/Video`), 59 for the audio codecs (`Tests/Audio`) and 36 for the bit reader, the readers, the MPEG-TS
substructures, the time decoder and fMP4 parts (`Tests/Formats`). Decoding and encoding are both compared with what the Go
tests expect, field by field. Not replayed: the names of NALU types, and the byte streams of
`mpegts/reader_test.go` and `mpegts/writer_test.go`, which pass through go-astits. These are tests, not proofs.

Seeded errors that had only been noticed by evaluated samples were repeated in a copy without any example or sample, so that only
theorems can fail. Two of 58 were not noticed: the height of an AV1 header, and halving the expected count when increment 1 is
detected in H264. `C52_size`, `C65_h264_detect` and `C65_h264_one_reordered` were added for these.

Wrong models were also generated: in each definition one number, operator or condition is changed, and the theorems are built without
examples. Those that were not noticed are listed in `seeded/LOG.jsonl`, with what was added for them. For the name of the handler and the
fields of `vmhd`, the reader of Spec/ISOFile.lean now checks media headers and returns name, language, group and matrix (C86, C90). `C33_image` was added for
the start of a JPEG image, `C30_eac3_rate` for reserved rates of E-AC-3, and `C94_packets` now says which error is reported for which.
Limits are written as numbers where a wrong limit of the model had been followed by the statement (1 MiB in C37 with `C37_bounded`, 5184000 samples in C82, C83
and C93), and `C85_btrt` specifies the box of bit rates, which C90 had taken from the writer.
