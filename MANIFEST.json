{
 "claims": [
  {
   "property": "C01",
   "status": "proved",
   "theorems": [
    "Verif.Props.C01_readBits",
    "Verif.Props.C01_readBitsUnsafe",
    "Verif.Props.C01_readBits_split",
    "Verif.Props.C01_readFlag",
    "Verif.Props.C01_zero_width_panics"
   ],
   "note": "Byte-level reader equals bit-list specification for every buffer, position and width 1..64; width 0 at the end panics (recorded)."
  },
  {
   "property": "C02",
   "status": "proved",
   "theorems": [
    "Verif.Props.C02_oversized_value_spills",
    "Verif.Props.C02_writeBits",
    "Verif.Props.C02_writeFlag",
    "Verif.Props.C02_write_read"
   ],
   "note": "Single write, flag write, and arbitrary programs of writes read back; oversized values spill (recorded)."
  },
  {
   "property": "C03",
   "status": "proved",
   "theorems": [
    "Verif.Props.C03_golomb_beyond_end_panics",
    "Verif.Props.C03_golomb_error_iff",
    "Verif.Props.C03_golomb_inverts",
    "Verif.Props.C03_golomb_total",
    "Verif.Props.C03_golomb_wraps"
   ],
   "note": "Inverse of an independent Exp-Golomb encoder; total characterisation of success and error."
  },
  {
   "property": "C04",
   "status": "partial",
   "theorems": [
    "Verif.Props.C04_signed_fails_iff",
    "Verif.Props.C04_signed_golomb_inverts_partial",
    "Verif.Props.C04_wrong_at_two_pow_30"
   ],
   "note": "Proved for -2^30 <= k < 2^30; false at k = 2^30 (witness proved)."
  },
  {
   "property": "C05",
   "status": "proved",
   "theorems": [
    "Verif.Props.C05_remove_inverts_insert",
    "Verif.Props.C05_trailing_cabac_zero_words",
    "Verif.Props.C05_unchanged"
   ],
   "note": "Both passes and the i+=2 skip modelled; equals the standard's decoder; inverse of an independent encoder."
  },
  {
   "property": "C06",
   "status": "proved",
   "theorems": [
    "Verif.Props.C06_avcc_drops_empty",
    "Verif.Props.C06_avcc_roundtrip"
   ],
   "note": "Round-trip through the modelled buffer writes and two-pass decoder."
  },
  {
   "property": "C07",
   "status": "proved",
   "theorems": [
    "Verif.Props.C07_avcc_accepts_iff",
    "Verif.Props.C07_avcc_bounds",
    "Verif.Props.C07_avcc_no_panic"
   ],
   "note": "Exact characterisation of accepted inputs by a record grammar; no panic."
  },
  {
   "property": "C08",
   "status": "proved",
   "theorems": [
    "Verif.Props.C08_annexb_marshal",
    "Verif.Props.C08_annexb_roundtrip"
   ],
   "note": "Including NALUs that end with zero bytes."
  },
  {
   "property": "C09",
   "status": "proved",
   "theorems": [
    "Verif.Props.C09_annexb_initial_delimiter",
    "Verif.Props.C09_annexb_mixed_start_codes",
    "Verif.Props.C09_annexb_sound",
    "Verif.Props.C09_trailing_zero_lost"
   ],
   "note": "Safety, bounds and start-code freedom on all inputs; mixed start codes under the standard's no-trailing-zero rule (counterexample without it proved)."
  },
  {
   "property": "C10",
   "status": "proved",
   "theorems": [
    "Verif.Props.C10_av1",
    "Verif.Props.C10_empty_nalu_panics",
    "Verif.Props.C10_h264",
    "Verif.Props.C10_h265"
   ],
   "note": "H264, H265, AV1; empty NALU panics (recorded)."
  },
  {
   "property": "C11",
   "status": "proved",
   "theorems": [
    "Verif.Props.C11_monotone"
   ],
   "note": "For all sequences of calls, including failing and panicking ones in between."
  },
  {
   "property": "C12",
   "status": "proved",
   "theorems": [
    "Verif.Props.C12_at_most_ten",
    "Verif.Props.C12_bounded",
    "Verif.Props.C12_le_or_paused",
    "Verif.Props.C12_strict_false"
   ],
   "note": "A returned DTS is at most the PTS, or is the last DTS plus 90 on the path that skips the check; that happens at most ten times until another SPS comes. Without the exception the claim is false (C12_strict_false)."
  },
  {
   "property": "C13",
   "status": "proved",
   "theorems": [
    "Verif.Props.C13_le_pts",
    "Verif.Props.C13_monotone"
   ],
   "note": "For all sequences of calls."
  },
  {
   "property": "C14",
   "status": "partial",
   "theorems": [
    "Verif.Props.C14_h264_false",
    "Verif.Props.C14_h264_partial",
    "Verif.Props.C14_h265_false",
    "Verif.Props.C14_h265_partial"
   ],
   "note": "False as stated (C14_h264_false, C14_h265_false): a random access picture whose slice header cannot be parsed still unlocks the extractor, and H264 streams with pic_order_cnt_type 2 or with fields do not wait for an IDR. Proved: a call succeeds only after decodable parameter sets and (with the exceptions above) a random access NAL unit that follows them."
  },
  {
   "property": "C15",
   "status": "proved",
   "theorems": [
    "Verif.Props.C15_leb128_marshal",
    "Verif.Props.C15_leb128_roundtrip",
    "Verif.Props.C15_leb128_shortest"
   ],
   "note": "Round-trip for all uint32 values; also canonical (shortest) form."
  },
  {
   "property": "C16",
   "status": "proved",
   "theorems": [
    "Verif.Props.C16_leb128_consumed",
    "Verif.Props.C16_leb128_total",
    "Verif.Props.C16_leb128_truncates"
   ],
   "note": "Total characterisation; 32-bit truncation recorded."
  },
  {
   "property": "C17",
   "status": "proved",
   "theorems": [
    "Verif.Props.C17_bitstream_roundtrip"
   ],
   "note": "Receiver assumed empty before Unmarshal (the code appends)."
  },
  {
   "property": "C18",
   "status": "proved",
   "theorems": [
    "Verif.Props.C18_bitstream_accepts_iff",
    "Verif.Props.C18_bitstream_bounds",
    "Verif.Props.C18_bitstream_no_panic"
   ],
   "note": "Exact characterisation of accepted inputs; receiver assumed empty."
  },
  {
   "property": "C19",
   "status": "proved",
   "theorems": [
    "Verif.Props.C19_encode",
    "Verif.Props.C19_reject",
    "Verif.Props.C19_round_trip",
    "Verif.Props.C19_round_trip_normal"
   ],
   "note": "Round trip for every non-empty list of packets with object type 1-4, an indexed rate, consistent channel fields and 1-5120 byte access units; also with the channel fields given only by the deprecated count, and rejection of everything without an ADTS form."
  },
  {
   "property": "C20",
   "status": "proved",
   "theorems": [
    "Verif.Props.C20_decode",
    "Verif.Props.C20_frame_complete",
    "Verif.Props.C20_frame_sound",
    "Verif.Props.C20_no_panic",
    "Verif.Props.C20_sizes"
   ],
   "note": "The decoder accepts exactly the buffers that are one frame after the other (bit layout in Spec/ADTS), returns their packets and never panics."
  },
  {
   "property": "C21",
   "status": "proved",
   "theorems": [
    "Verif.Props.C21_decode",
    "Verif.Props.C21_encode",
    "Verif.Props.C21_no_panic",
    "Verif.Props.C21_round_trip"
   ],
   "note": "Exact decoder characterisation, encoder layout, round trip below 8192 bytes, no panic."
  },
  {
   "property": "C22",
   "status": "proved",
   "theorems": [
    "Verif.Props.C22_decode",
    "Verif.Props.C22_decode_complete",
    "Verif.Props.C22_encode",
    "Verif.Props.C22_reject_count",
    "Verif.Props.C22_round_trip",
    "Verif.Props.C22_round_trip_normal"
   ],
   "note": "Layout as a relation (rates by index or in full); decode characterised exactly for arbitrary trailing bits; encode writes a member of the relation; round trip with the channel fields made consistent, and plain round trip when they already are. Rates of 2^24 or more and unsupported object types are outside the hypotheses."
  },
  {
   "property": "C23",
   "status": "proved",
   "theorems": [
    "Verif.Props.C23_decode_sound",
    "Verif.Props.C23_no_panic"
   ],
   "note": "No panic on any bytes; whatever is accepted has the specified layout with the returned fields."
  },
  {
   "property": "C24",
   "status": "proved",
   "theorems": [
    "Verif.Props.C24_decode",
    "Verif.Props.C24_encode",
    "Verif.Props.C24_no_panic",
    "Verif.Props.C24_round_trip",
    "Verif.Props.C24_round_trip_normal"
   ],
   "note": "Decode characterised exactly, including configurations cut before a frame length type; encode and round trip for 1-16 programs of 1-8 layers, all frame length types, other data length below 2^32, CRC. An empty program list is outside the hypotheses."
  },
  {
   "property": "C25",
   "status": "proved",
   "theorems": [
    "Verif.Props.C25_bounded",
    "Verif.Props.C25_duration"
   ],
   "note": "Duration equals RFC 6716 frame count times frame size for every packet; bound 5760 for conforming packets."
  },
  {
   "property": "C26",
   "status": "proved",
   "theorems": [
    "Verif.Props.C26_decode",
    "Verif.Props.C26_not_little_endian",
    "Verif.Props.C26_round_trip"
   ],
   "note": "Round trip for every header (version normalised to 1), exact acceptance, no panic. Multi-byte fields are big-endian, unlike RFC 7845 (C26_not_little_endian)."
  },
  {
   "property": "C27",
   "status": "proved",
   "theorems": [
    "Verif.Props.C27_alaw_lossless",
    "Verif.Props.C27_sizes"
   ],
   "note": "A-law encode after decode is the identity on every code byte; output sizes exact."
  },
  {
   "property": "C28",
   "status": "proved",
   "theorems": [
    "Verif.Props.C28_mulaw_lossless",
    "Verif.Props.C28_two_zeros"
   ],
   "note": "Mu-law encode after decode is the identity on every code byte except the second zero code, which maps to the first; all 256 codes decode to the same sample again."
  },
  {
   "property": "C29",
   "status": "proved",
   "theorems": [
    "Verif.Props.C29_decode",
    "Verif.Props.C29_encode",
    "Verif.Props.C29_no_panic",
    "Verif.Props.C29_round_trip"
   ],
   "note": "Encoding and decoding both follow the RFC 9639 bit layout; round trip and no panic follow."
  },
  {
   "property": "C30",
   "status": "proved",
   "theorems": [
    "Verif.Props.C30_ac3_bsi",
    "Verif.Props.C30_ac3_sync",
    "Verif.Props.C30_eac3",
    "Verif.Props.C30_eac3_complete",
    "Verif.Props.C30_eac3_rate"
   ],
   "note": "Layouts, ranges, frame sizes against the nominal bit rate formula, no panic."
  },
  {
   "property": "C31",
   "status": "proved",
   "theorems": [
    "Verif.Props.C31_decode",
    "Verif.Props.C31_frame_len",
    "Verif.Props.C31_frame_len_standard",
    "Verif.Props.C31_mpeg2_layer3_wrong",
    "Verif.Props.C31_split_complete",
    "Verif.Props.C31_split_sound"
   ],
   "note": "No panic, frame length between 48 and 1729, the reader's split loop terminates, is sound and complete. C31_mpeg2_layer3_wrong shows the length formula is wrong for MPEG-2 layer III."
  },
  {
   "property": "C32",
   "status": "partial",
   "theorems": [
    "Verif.Props.C32_accepts",
    "Verif.Props.C32_false",
    "Verif.Props.C32_no_panic_partial",
    "Verif.Props.C32_panics"
   ],
   "note": "False as stated: a config ending in a bare start code panics (C32_false). Proved for every other config, with the exact panic condition."
  },
  {
   "property": "C33",
   "status": "proved",
   "theorems": [
    "Verif.Props.C33_dht_segment",
    "Verif.Props.C33_dqt_decode",
    "Verif.Props.C33_dqt_segment",
    "Verif.Props.C33_dqt_sound",
    "Verif.Props.C33_dri",
    "Verif.Props.C33_dri_no_panic",
    "Verif.Props.C33_image",
    "Verif.Props.C33_precision_not_written",
    "Verif.Props.C33_sof_round_trip",
    "Verif.Props.C33_sof_segment",
    "Verif.Props.C33_sof_sound",
    "Verif.Props.C33_sos"
   ],
   "note": "DQT, SOF, SOS, DRI bodies and DHT layout; DQT tables are 8-bit as Marshal never writes the precision (C33_precision_not_written)."
  },
  {
   "property": "C34",
   "status": "proved",
   "theorems": [
    "Verif.Props.C34_unwrap",
    "Verif.Props.C34_unwrap_exact"
   ],
   "note": "Int64 overflow of the accumulated time is modelled; C34_unwrap_exact is the plain form for times that fit in int64."
  },
  {
   "property": "C35",
   "status": "proved",
   "theorems": [
    "Verif.Props.C35_step_bound",
    "Verif.Props.C35_step_bound_exact"
   ],
   "note": "Results as int64 arithmetic; plain form for fewer than 2^31 results."
  },
  {
   "property": "C36",
   "status": "partial",
   "theorems": [
    "Verif.Props.C36_buffered_transparent_partial",
    "Verif.Props.C36_loses_on_odd_size",
    "Verif.Props.C36_loses_with_error",
    "Verif.Props.C36_packet_source",
    "Verif.Props.C36_progress"
   ],
   "note": "False in general: a read whose size is not a multiple of 188 (C36_loses_on_odd_size) or that returns bytes together with an error (C36_loses_with_error) loses its bytes. Proved while no call fails, and across failures for sources that return whole packets."
  },
  {
   "property": "C37",
   "status": "proved",
   "theorems": [
    "Verif.Props.C37_bounded",
    "Verif.Props.C37_limit_needed",
    "Verif.Props.C37_rewind_complete",
    "Verif.Props.C37_rewind_replays"
   ],
   "note": "All source schedules, including errors; C37_limit_needed shows the limit matters."
  },
  {
   "property": "C38",
   "status": "proved",
   "theorems": [
    "Verif.Props.C38_error_inside_packet_loses",
    "Verif.Props.C38_predemuxer_aligned",
    "Verif.Props.C38_predemuxer_all",
    "Verif.Props.C38_predemuxer_clean",
    "Verif.Props.C38_predemuxer_packet_reads",
    "Verif.Props.C38_predemuxer_prefix"
   ],
   "note": "Output equals an independent resynchronisation of the stream, for every chunking; up to the first error for contents, in all cases for alignment. C38_error_inside_packet_loses records that a transient error inside a packet drops its bytes."
  },
  {
   "property": "C39",
   "status": "proved",
   "theorems": [
    "Verif.Props.C39_failed_seek",
    "Verif.Props.C39_seekable_buffer"
   ],
   "note": "Positions are unbounded integers; memory exhaustion is not modelled."
  },
  {
   "property": "C40",
   "status": "proved",
   "theorems": [
    "Verif.Props.C40_decode_complete",
    "Verif.Props.C40_decode_sound",
    "Verif.Props.C40_encode",
    "Verif.Props.C40_header_complete",
    "Verif.Props.C40_header_sound",
    "Verif.Props.C40_no_panic",
    "Verif.Props.C40_round_trip",
    "Verif.Props.C40_split",
    "Verif.Props.C40_write",
    "Verif.Props.C40_write_read"
   ],
   "note": "Decoder complete and sound for every control header (arbitrary reserved bits and extension), encoder writes exactly the specified bytes, round trip, splitting of concatenated units, writer/reader round trip, no panic."
  },
  {
   "property": "C41",
   "status": "partial",
   "theorems": [
    "Verif.Props.C41_channel_count",
    "Verif.Props.C41_decode_explicit",
    "Verif.Props.C41_decode_sound",
    "Verif.Props.C41_encode_explicit",
    "Verif.Props.C41_false_mono_lost",
    "Verif.Props.C41_round_trip_partial",
    "Verif.Props.C41_width"
   ],
   "note": "Decoder complete/sound, never panics, round trip for every descriptor with at least two channels, table codes, family 0, and the standard mono mapping. False for other mono descriptors with a mapping family: C41_false_mono_lost."
  },
  {
   "property": "C42",
   "status": "proved",
   "theorems": [
    "Verif.Props.C42_cell_complete",
    "Verif.Props.C42_cell_encode",
    "Verif.Props.C42_cell_round_trip",
    "Verif.Props.C42_cell_sound",
    "Verif.Props.C42_descriptor_complete",
    "Verif.Props.C42_descriptor_encode",
    "Verif.Props.C42_descriptor_round_trip",
    "Verif.Props.C42_descriptor_sound",
    "Verif.Props.C42_std_decode",
    "Verif.Props.C42_std_encode",
    "Verif.Props.C42_std_no_panic",
    "Verif.Props.C42_std_round_trip"
   ],
   "note": "Decoders complete and sound (accept exactly the specified encodings, arbitrary reserved bits), encoders write exactly the specified bytes, round trips, no panics."
  },
  {
   "property": "C43",
   "status": "proved",
   "theorems": [
    "Verif.Props.C43_empty",
    "Verif.Props.C43_read_bound",
    "Verif.Props.C43_read_complete",
    "Verif.Props.C43_read_sound",
    "Verif.Props.C43_round_trip",
    "Verif.Props.C43_write"
   ],
   "note": "Reader complete and sound for all well-formed cell sequences, writer output, round trip for 1..256*65535 bytes, bound exact, empty payload rejected, no panics."
  },
  {
   "property": "C44",
   "status": "proved",
   "theorems": [
    "Verif.Props.C44_pcr_leading_only",
    "Verif.Props.C44_pcr_often"
   ],
   "note": "All call sequences on new tracks; the third-party multiplexer is outside the model."
  },
  {
   "property": "C45",
   "status": "proved",
   "theorems": [
    "Verif.Props.C45_ctts",
    "Verif.Props.C45_stss",
    "Verif.Props.C45_stss_increasing",
    "Verif.Props.C45_stts"
   ],
   "note": "stts, ctts and stss, for less than 2^32 samples"
  },
  {
   "property": "C46",
   "status": "proved",
   "theorems": [
    "Verif.Props.C46_stsc_minimal",
    "Verif.Props.C46_tables"
   ],
   "note": "for less than 2^32 samples whose end fits in 32 bits; also proved: adjacent stsc entries differ"
  },
  {
   "property": "C47",
   "status": "partial",
   "theorems": [
    "Verif.Props.C47_false",
    "Verif.Props.C47_located_partial",
    "Verif.Props.C47_location_false",
    "Verif.Props.C47_partial",
    "Verif.Props.C47_second_stsc_false"
   ],
   "note": "No panic is proved for files in which no track has more than one stsc box and the divisor of the chunk count is not zero; C47_false (division by zero with samplesPerChunk 0), C47_second_stsc_false (index out of range), C47_location_false (sample without payload function) refute the full statement."
  },
  {
   "property": "C48",
   "status": "proved",
   "theorems": [
    "Verif.Props.C48_interleaving",
    "Verif.Props.C48_nondecreasing",
    "Verif.Props.C48_overflow_false",
    "Verif.Props.C48_time_order"
   ],
   "note": "Interleaving and offsets for all tracks; order in time when all times are within 272 years (C48_overflow_false shows that the bound is needed)"
  },
  {
   "property": "C49",
   "status": "partial",
   "theorems": [
    "Verif.Props.C49_huge_false",
    "Verif.Props.C49_part_partial"
   ],
   "note": "Proved on bytes for every part smaller than 2^31 bytes; C49_huge_false: for larger parts int32 wraps around and a negative data offset is written without error."
  },
  {
   "property": "C50",
   "status": "proved",
   "theorems": [
    "Verif.Props.C50_bounds",
    "Verif.Props.C50_decode",
    "Verif.Props.C50_no_panic"
   ],
   "note": "C50_decode is exact: accepted buffers and decoded fields are those of the syntax tables of the standard (with Golomb codes as the reader reads them); C50_no_panic; C50_bounds."
  },
  {
   "property": "C51",
   "status": "proved",
   "theorems": [
    "Verif.Props.C51_bounds",
    "Verif.Props.C51_decode",
    "Verif.Props.C51_no_panic",
    "Verif.Props.C51_pps_decode",
    "Verif.Props.C51_pps_no_panic",
    "Verif.Props.C51_size"
   ],
   "note": "Unmarshal of SPS and PPS is exactly the syntax tables (iff), no panics, all list lengths bounded, Width/Height safe and equal to the conformance window when it lies in the picture."
  },
  {
   "property": "C52",
   "status": "partial",
   "theorems": [
    "Verif.Props.C52_bounds_partial",
    "Verif.Props.C52_decode",
    "Verif.Props.C52_false",
    "Verif.Props.C52_no_panic",
    "Verif.Props.C52_size"
   ],
   "note": "C52_decode and C52_no_panic hold of every header and buffer. The bounds hold, except that reduced still picture headers leave the list of initial display delays as it was (C52_false). C52_size: the width and height are one more than the numbers in the frame size fields."
  },
  {
   "property": "C53",
   "status": "proved",
   "theorems": [
    "Verif.Props.C53_chroma",
    "Verif.Props.C53_decode",
    "Verif.Props.C53_key_frame",
    "Verif.Props.C53_no_panic",
    "Verif.Props.C53_other_frames"
   ],
   "note": "Exact: accepted buffers and stored fields, for a header that may have been used before."
  },
  {
   "property": "C54",
   "status": "proved",
   "theorems": [
    "Verif.Props.C54_decode",
    "Verif.Props.C54_encode",
    "Verif.Props.C54_marshal_panics",
    "Verif.Props.C54_no_panic",
    "Verif.Props.C54_other_data_not_read",
    "Verif.Props.C54_round_trip"
   ],
   "note": "Decode characterised exactly, no panic, encode and round trip for elements whose layers all have variable length payloads (others are rejected by the decoder). Two further theorems record that Marshal panics with a fixed frame length or without a configuration, and that elements with other data are written but not read."
  },
  {
   "property": "C55",
   "status": "proved",
   "theorems": [
    "Verif.Props.C55_count",
    "Verif.Props.C55_count_no_panic",
    "Verif.Props.C55_only_first_counted",
    "Verif.Props.C55_pce",
    "Verif.Props.C55_pce_no_panic",
    "Verif.Props.C55_truncated_dse_counted"
   ],
   "note": "PCE characterised exactly. CountChannels: no panic, termination, never zero, and its value after any skipped elements. A separate theorem shows that a truncated data stream element can be taken for a channel element, another that only the first element counts (the doc comment promises a total)."
  },
  {
   "property": "C57",
   "status": "partial",
   "theorems": [
    "Verif.Props.C57_false",
    "Verif.Props.C57_partial"
   ],
   "note": "False of the film grain flag: separate_uv_delta_q is not read (C57_false). Every other field is right (C57_partial)."
  },
  {
   "property": "C58",
   "status": "partial",
   "theorems": [
    "Verif.Props.C58_false",
    "Verif.Props.C58_partial"
   ],
   "note": "False of the width of monochrome or separate-plane video with cropped columns: the crop unit is 0 instead of 1 (C58_false). Height is right always, width in every other case (C58_partial)."
  },
  {
   "property": "C60",
   "status": "partial",
   "theorems": [
    "Verif.Props.C60_false",
    "Verif.Props.C60_partial"
   ],
   "note": "False for more than one sub-layer: the earlier entries stay zero (C60_false, concrete SPS). What holds: the last entry is decoded, the others are zero; nothing missing with one sub-layer."
  },
  {
   "property": "C59",
   "status": "partial",
   "theorems": [
    "Verif.Props.C59_h264_false",
    "Verif.Props.C59_h264_partial",
    "Verif.Props.C59_h265_false",
    "Verif.Props.C59_h265_partial"
   ],
   "note": "False as stated (C59_h264_false, C59_h265_false): an SPS with log2_max_pic_order_cnt_lsb_minus4 = 2^32-4 makes ReadBits read zero bits at the end of the buffer. Proved for all sequences in which no SPS has that value."
  },
  {
   "property": "C61",
   "status": "partial",
   "theorems": [
    "Verif.Props.C61_h264_false",
    "Verif.Props.C61_h264_partial",
    "Verif.Props.C61_h264_short",
    "Verif.Props.C61_h264_sound",
    "Verif.Props.C61_h265_long",
    "Verif.Props.C61_h265_long_false",
    "Verif.Props.C61_h265_partial",
    "Verif.Props.C61_h265_short",
    "Verif.Props.C61_h265_single",
    "Verif.Props.C61_h265_single_false"
   ],
   "note": "H264: proved for every conforming first-slice header without separate colour planes (22 bytes are always enough); false with separate colour planes (C61_h264_false). H265: proved for every header that lies in the 12 bytes that are read, unless it refers to the only set of the sequence (C61_h265_partial; C61_h265_short: headers of up to 64 bits always do). What is missing is wrong: a header that refers to the only set gives 0 (C61_h265_single, witness C61_h265_single_false) and a header that is longer than the bytes that are read is always refused (C61_h265_long, witness C61_h265_long_false)."
  },
  {
   "property": "C62",
   "status": "proved",
   "theorems": [
    "Verif.Props.C62_h264_converges",
    "Verif.Props.C62_h264_exact",
    "Verif.Props.C62_h264_increment_false",
    "Verif.Props.C62_h264_reordering",
    "Verif.Props.C62_h265_converges",
    "Verif.Props.C62_h265_exact"
   ],
   "note": "Convergence from any settled state and recovery after the detection of more reordered pictures (H264), exact rate and convergence (H265). C62_h264_increment_false shows that the excluded pattern of picture order counts is necessary."
  },
  {
   "property": "C56",
   "status": "proved",
   "theorems": [
    "Verif.Props.C56_alaw",
    "Verif.Props.C56_monotonic",
    "Verif.Props.C56_mulaw",
    "Verif.Props.C56_negative"
   ],
   "note": "C56_negative: the tolerance for negative samples is needed."
  },
  {
   "property": "C63",
   "status": "proved",
   "theorems": [
    "Verif.Props.C63_h264_direct",
    "Verif.Props.C63_h264_refused",
    "Verif.Props.C63_h264_repeat"
   ],
   "note": "H264; the states before and after are the same where nothing has to change"
  },
  {
   "property": "C64",
   "status": "proved",
   "theorems": [
    "Verif.Props.C64_h264",
    "Verif.Props.C64_h265",
    "Verif.Props.C64_h265_layers_false",
    "Verif.Props.C64_h265_no_timing"
   ],
   "note": "H264: increment 2, streams in which no three picture order counts in a row are 4 apart (these break the detection, C62_h264_increment_false). H265: headers whose estimated distance is right; C64_h265_layers_false shows that with more sub-layers the number of reordered pictures is not taken from the SPS"
  },
  {
   "property": "C65",
   "status": "proved",
   "theorems": [
    "Verif.Props.C65_h264_detect",
    "Verif.Props.C65_h264_four",
    "Verif.Props.C65_h264_offset_false",
    "Verif.Props.C65_h264_one",
    "Verif.Props.C65_h264_one_reordered"
   ],
   "note": "IDR at zero as stated; C65_h264_offset_false shows that increment 4 is mishandled when the IDR has another pic_order_cnt_lsb. C65_h264_detect states the conversion for any state, C65_h264_one_reordered the stream that starts with I, P, B"
  },
  {
   "property": "C66",
   "status": "proved",
   "theorems": [
    "Verif.Props.C66_mdat",
    "Verif.Props.C66_roundtrip"
   ],
   "note": "Encoding and decoding of single boxes is done by go-mp4 and codecs are not part of this model: the reader gets the values that the writer puts in boxes."
  },
  {
   "property": "C67",
   "status": "partial",
   "theorems": [
    "Verif.Props.C67_early_false",
    "Verif.Props.C67_false",
    "Verif.Props.C67_partial"
   ],
   "note": "Proved for time offsets that are not negative; C67_false and C67_early_false refute it for every time offset of -1 ms or less: the edit is longer than the media."
  },
  {
   "property": "C68",
   "status": "proved",
   "theorems": [
    "Verif.Props.C68_round_trip"
   ],
   "note": "Layout of single boxes is that of ISO 14496-12, as encoded and decoded by go-mp4."
  },
  {
   "property": "C69",
   "status": "proved",
   "theorems": [
    "Verif.Props.C69_unmarshal_never_panics"
   ],
   "note": "go-mp4 (ReadBoxStructure, ReadPayload) is modelled, not verified."
  },
  {
   "property": "C70",
   "status": "partial",
   "theorems": [
    "Verif.Props.C70_samples_false",
    "Verif.Props.C70_samples_partial"
   ],
   "note": "Proved for files without trun boxes that have a 64-bit size; C70_samples_false: with one, a file of 104 bytes produces any number of samples below 2^32, because the limit is compared with bytes of the size."
  },
  {
   "property": "C71",
   "status": "partial",
   "theorems": [
    "Verif.Props.C71_base_offset_false",
    "Verif.Props.C71_first_flags_false",
    "Verif.Props.C71_fragments_partial",
    "Verif.Props.C71_offset_false"
   ],
   "note": "Proved for tracks with default-base-is-moof, without base_data_offset and without first_sample_flags, with offsets in the range of int32. False for the others: first_sample_flags are ignored (C71_first_flags_false: the sync sample that other muxers mark this way is reported as non-sync), base_data_offset is ignored (C71_base_offset_false), unsigned offsets of version 0 are read as signed (C71_offset_false)."
  },
  {
   "property": "C72",
   "status": "proved",
   "theorems": [
    "Verif.Props.C72_limits",
    "Verif.Props.C72_media_round_trip"
   ],
   "note": "C72_limits: the Fill functions accept access units outside of the limits (empty, more than 50 NAL units), which the Get functions reject."
  },
  {
   "property": "C73",
   "status": "partial",
   "theorems": [
    "Verif.Props.C73_accepts",
    "Verif.Props.C73_false",
    "Verif.Props.C73_no_panic_partial",
    "Verif.Props.C73_refuses"
   ],
   "note": "False as stated (C73_false): a FLAC track without STREAMINFO is accepted by Fill and dereferenced by WriteCodecBoxes. C73_no_panic_partial excludes it; C73_accepts and C73_refuses are the two directions."
  },
  {
   "property": "C74",
   "status": "proved",
   "theorems": [
    "Verif.Props.C74_no_panic",
    "Verif.Props.C74_result",
    "Verif.Props.C74_sound",
    "Verif.Props.C74_terminates"
   ],
   "note": "For every possible length of the fields that go-mp4 decodes before the boxes of an expanded box."
  },
  {
   "property": "C75",
   "status": "partial",
   "theorems": [
    "Verif.Props.C75_again",
    "Verif.Props.C75_false",
    "Verif.Props.C75_false_channels",
    "Verif.Props.C75_partial",
    "Verif.Props.C75_refused",
    "Verif.Props.C75_stable"
   ],
   "note": "False (C75_false, C75_false_channels): AC-3 and E-AC-3 sample entries at other rates and MPEG-4 audio with channel configuration 0 are read but cannot be written. C75_partial is the claim for all other codecs, C75_refused its converse. C75_again: what was read from any bytes and is written is read again unchanged but for values that the boxes do not tell; C75_stable: after that nothing changes."
  },
  {
   "property": "C76",
   "status": "proved",
   "theorems": [
    "Verif.Props.C76_identity",
    "Verif.Props.C76_round_trip",
    "Verif.Props.C76_wide_false"
   ],
   "note": "On the bytes of all boxes. C76_identity: without bit rates and with consistent codecs the segment is identical. Without the conditions on widths the claim is false (C76_wide_false: LPCM at 96 kHz is read as 30464 Hz)."
  },
  {
   "property": "C77",
   "status": "proved",
   "theorems": [
    "Verif.Props.C77_delivered",
    "Verif.Props.C77_empty_au_false",
    "Verif.Props.C77_initialize",
    "Verif.Props.C77_on_data",
    "Verif.Props.C77_read"
   ],
   "note": "Up to astits, which is not modelled; of PES headers it is assumed that the clock references announced by the indicator are present. The natural extension that delivered access units are not empty is false (C77_empty_au_false): a payload with only an access unit delimiter gives an access unit without NALUs, on which WriteH264 and WriteH265 panic."
  },
  {
   "property": "C78",
   "status": "proved",
   "theorems": [
    "Verif.Props.C78_empty_false",
    "Verif.Props.C78_fifty_false",
    "Verif.Props.C78_round_trip",
    "Verif.Props.C78_sequence"
   ],
   "note": "Up to astits: a request is assumed to come out as a PES packet with the same payload and the clock references modulo 2^33. 50 NALUs without delimiter are written and refused by the reader (C78_fifty_false); the writer panics on empty access units, empty NALUs and no MPEG-1 audio frames (C78_empty_false)."
  },
  {
   "property": "C79",
   "status": "proved",
   "theorems": [
    "Verif.Props.C79_aac_identity",
    "Verif.Props.C79_lossy_false",
    "Verif.Props.C79_opus_false",
    "Verif.Props.C79_order_false",
    "Verif.Props.C79_pid_false",
    "Verif.Props.C79_track",
    "Verif.Props.C79_tracks",
    "Verif.Props.C79_units"
   ],
   "note": "Up to astits: descriptors are values. C79_units composes with C78. Without its conditions the claim is false: packets in another order (C79_order_false), PIDs that collide (C79_pid_false), Opus with more than 8 channels and no descriptor or with a short mapping (C79_opus_false), DVB subtitles without items, longer languages, AAC extensions (C79_lossy_false)."
  },
  {
   "property": "C80",
   "status": "proved",
   "theorems": [
    "Verif.Props.C80_clock",
    "Verif.Props.C80_last",
    "Verif.Props.C80_packet",
    "Verif.Props.C80_pes",
    "Verif.Props.C80_split_false",
    "Verif.Props.C80_stream_id_false"
   ],
   "note": "C80_packet characterizes the effect of every packet; C80_last of every sequence. Headers that continue in the next packet are not seen (C80_split_false), and stream IDs without optional header other than 0xBE and 0xBF are misread (C80_stream_id_false)."
  },
  {
   "property": "C81",
   "status": "proved",
   "theorems": [
    "Verif.Props.C81_round_trip"
   ],
   "note": "On bytes, with the boxes of go-mp4 laid out as in ISO/IEC 14496-12 and 14496-14 (not in the repository)."
  },
  {
   "property": "C82",
   "status": "partial",
   "theorems": [
    "Verif.Props.C82_guarded",
    "Verif.Props.C82_partial",
    "Verif.Props.C82_result",
    "Verif.Props.C82_second_stsc_false",
    "Verif.Props.C82_stsc_false"
   ],
   "note": "False in general: division by zero with SamplesPerChunk 0 (C82_stsc_false) and a second stsc box (C82_second_stsc_false), both whole files. C82_partial: these guards are the only way to panic, for all bytes; C82_guarded: a reader with the guards never panics and otherwise agrees; C82_result holds for all bytes."
  },
  {
   "property": "C83",
   "status": "proved",
   "theorems": [
    "Verif.Props.C83_bound",
    "Verif.Props.C83_constant",
    "Verif.Props.C83_exact",
    "Verif.Props.C83_exact_reached",
    "Verif.Props.C83_reached",
    "Verif.Props.C83_small_factor"
   ],
   "note": "C83_constant: c times the number of bytes bounds tracks and samples of all files if and only if c is at least 22838. C83_exact: the first boxes take 124 bytes and a track takes 219 (227 with samples), from all bytes, so samples are at most 5184000 for each 227 bytes. C83_exact_reached: files of 140 + 227 k bytes have k tracks with any number of samples up to the limit. C83_bound is a weaker bound that does not depend on how boxes are laid out (fields is any function); C83_reached is a family of files in which boxes are nested as usual; C83_small_factor is a consequence."
  },
  {
   "property": "C85",
   "status": "partial",
   "theorems": [
    "Verif.Props.C85_ac3",
    "Verif.Props.C85_av1",
    "Verif.Props.C85_avc_high_false",
    "Verif.Props.C85_avc_partial",
    "Verif.Props.C85_btrt",
    "Verif.Props.C85_eac3",
    "Verif.Props.C85_flac",
    "Verif.Props.C85_hevc_constraints_false",
    "Verif.Props.C85_hevc_false",
    "Verif.Props.C85_hevc_layers_false",
    "Verif.Props.C85_hevc_partial",
    "Verif.Props.C85_hevc_tier_false",
    "Verif.Props.C85_lpcm",
    "Verif.Props.C85_mjpeg",
    "Verif.Props.C85_mpeg4_audio",
    "Verif.Props.C85_mpeg4_video",
    "Verif.Props.C85_mpeg_audio_false",
    "Verif.Props.C85_mpeg_audio_partial",
    "Verif.Props.C85_mpeg_video_false",
    "Verif.Props.C85_mpeg_video_partial",
    "Verif.Props.C85_opus_false",
    "Verif.Props.C85_opus_partial",
    "Verif.Props.C85_stsd_fmp4",
    "Verif.Props.C85_stsd_mp4",
    "Verif.Props.C85_vp9_colour_false",
    "Verif.Props.C85_vp9_level_false",
    "Verif.Props.C85_vp9_matrix_false",
    "Verif.Props.C85_vp9_partial"
   ],
   "note": "Proved for AV1, FLAC, AC-3, E-AC-3, LPCM, MPEG-4 video and audio, M-JPEG (C85_av1, C85_flac, ...), and that these records are what both writers put into stsd (C85_stsd_fmp4, C85_stsd_mp4). Partial with matching refutations for the rest: VP9 (level is always 1, colour is reserved values), Opus above two channels (no mapping table), MPEG-1/2 audio at half rates and video of other profiles (object type), H264 High profiles (missing fields), H265 (array_completeness, layers, tier, constraint flags). Rates of 65536 Hz and more wrap, see C76_wide_false. The size of MPEG-4 and MPEG-2 video is always 800x600."
  },
  {
   "property": "C84",
   "status": "partial",
   "theorems": [
    "Verif.Props.C84_again",
    "Verif.Props.C84_copies",
    "Verif.Props.C84_false",
    "Verif.Props.C84_partial",
    "Verif.Props.C84_payload_false",
    "Verif.Props.C84_refused"
   ],
   "note": "False as stated (C84_false: AC-3 at 24000 Hz is read and cannot be written; C84_payload_false: GetPayload is nil for samples of files without stco). C84_partial: written, for all codecs that the writer accepts; C84_refused: the converse; C84_again: whatever is written is read again unchanged, for all byte strings, up to the channel configuration of MPEG-4 audio and Fscod of AC-3 (restoredCodec) and with video configurations below 2^28-32 bytes; C84_copies: the copies exist."
  },
  {
   "property": "C86",
   "status": "proved",
   "theorems": [
    "Verif.Props.C86_movie"
   ],
   "note": "The reader is Spec/ISOFile.lean, written from ISO 14496-12 and sharing nothing with the model. C86_movie, for all lists of tracks that can be written (FileGood) and whose file is below 4 GiB."
  },
  {
   "property": "C87",
   "status": "partial",
   "theorems": [
    "Verif.Props.C87_early_partial",
    "Verif.Props.C87_false",
    "Verif.Props.C87_late_false",
    "Verif.Props.C87_shown_partial",
    "Verif.Props.C87_times_partial"
   ],
   "note": "False as stated: C87_late_false, C87_false: the edit lasts as long as the decoding times, so a sample whose composition time is the sum of the durations or more is never presented when the time offset is not negative. C87_times_partial: what is presented is presented on time, less than 1 ms early, exactly when the offset is not positive; C87_shown_partial: all that comes 1 ms before the end of the media is presented; C87_early_partial."
  },
  {
   "property": "C88",
   "status": "partial",
   "theorems": [
    "Verif.Props.C88_duration_partial",
    "Verif.Props.C88_longest_partial",
    "Verif.Props.C88_media_false",
    "Verif.Props.C88_media_partial",
    "Verif.Props.C88_next_false",
    "Verif.Props.C88_next_partial"
   ],
   "note": "C88_longest_partial, C88_duration_partial (time offset not negative; for the other case see C67). False: C88_media_partial: mdhd has the duration of the samples exactly when the time offset is 0 (C88_media_false); C88_next_partial: next_track_ID is larger than all identifiers exactly when none is above the number of tracks (C88_next_false)."
  },
  {
   "property": "C89",
   "status": "partial",
   "theorems": [
    "Verif.Props.C89_bsid_partial",
    "Verif.Props.C89_component_false",
    "Verif.Props.C89_component_partial",
    "Verif.Props.C89_distinct",
    "Verif.Props.C89_kinds_partial"
   ],
   "note": "C89_kinds_partial: stream types, registrations, descriptors, languages; C89_distinct; C89_bsid_partial. False for component types: C89_component_false: for every number of channels, the component type is not that of EN 300 468 table D.1 (Spec/TSDescriptors.lean); C89_component_partial says what it announces instead."
  },
  {
   "property": "C90",
   "status": "proved",
   "theorems": [
    "Verif.Props.C90_fragmented"
   ],
   "note": "C90_fragmented, with the reader of Spec/ISOFragments.lean, which was written from the standard and does not share definitions with the model."
  },
  {
   "property": "C91",
   "status": "partial",
   "theorems": [
    "Verif.Props.C91_ac3",
    "Verif.Props.C91_ac3_channels_false",
    "Verif.Props.C91_ac3_channels_partial",
    "Verif.Props.C91_av1",
    "Verif.Props.C91_eac3",
    "Verif.Props.C91_flac",
    "Verif.Props.C91_h264",
    "Verif.Props.C91_h265",
    "Verif.Props.C91_length_ignored",
    "Verif.Props.C91_lpcm",
    "Verif.Props.C91_mp4a",
    "Verif.Props.C91_mp4v",
    "Verif.Props.C91_mpeg_audio_false",
    "Verif.Props.C91_mpeg_audio_partial",
    "Verif.Props.C91_mpeg_video_false",
    "Verif.Props.C91_mpeg_video_partial",
    "Verif.Props.C91_opus",
    "Verif.Props.C91_samples_false",
    "Verif.Props.C91_samples_partial",
    "Verif.Props.C91_vp9"
   ],
   "note": "Exact conditions are proved for all codecs (C91_h264, C91_h265, C91_vp9, C91_av1, C91_opus, C91_flac, C91_ac3, C91_eac3, C91_lpcm, C91_mp4a, C91_mp4v). Partial with refutations for the use of what was read: H264 records with lengths of one or two bytes are accepted and their samples are read with four bytes (C91_samples_false, C91_length_ignored); AC-3 channels come from the sample entry, which the specification says to ignore (C91_ac3_channels_false); MPEG-2 audio at lower rates and MPEG-1 video are refused (C91_mpeg_audio_false, C91_mpeg_video_false)."
  },
  {
   "property": "C92",
   "status": "partial",
   "theorems": [
    "Verif.Props.C92_last_false",
    "Verif.Props.C92_order_false",
    "Verif.Props.C92_read",
    "Verif.Props.C92_segment",
    "Verif.Props.C92_track_user_data_false",
    "Verif.Props.C92_track_user_data_first_false",
    "Verif.Props.C92_unknown_false"
   ],
   "note": "C92_segment gives the exact outcome and C92_read the success for segments in the usual order. Refuted beyond it: a sample description as last box (C92_last_false), media before the track header (C92_order_false), user data of a track, which is delivered as user data of the movie or makes the segment unreadable (C92_track_user_data_false, C92_track_user_data_first_false), and tracks with unknown sample entries (C92_unknown_false). Boxes that matter have headers of 8 bytes, the others of 8 or 16; fields of boxes are the ones of isoFields."
  },
  {
   "property": "C93",
   "status": "partial",
   "theorems": [
    "Verif.Props.C93_delayed_false",
    "Verif.Props.C93_edits_false",
    "Verif.Props.C93_empty",
    "Verif.Props.C93_file_partial",
    "Verif.Props.C93_locations_false",
    "Verif.Props.C93_offsets",
    "Verif.Props.C93_order_false",
    "Verif.Props.C93_order_sizes_false",
    "Verif.Props.C93_payload",
    "Verif.Props.C93_payloads_false",
    "Verif.Props.C93_presented_partial",
    "Verif.Props.C93_shifted_false",
    "Verif.Props.C93_sizes_false",
    "Verif.Props.C93_version_false"
   ],
   "note": "C93_file_partial, C93_payload, C93_offsets and C93_empty give the outcome for files with edit lists, with listed sample sizes, with durations as first table and chunk offsets after the sizes, and with samples below 4 GiB; C93_presented_partial the times when one edit presents all of the media. Refuted beyond that: files without edit lists (C93_edits_false), constant sample sizes (C93_sizes_false), other orders of the tables (C93_order_false, C93_order_sizes_false), 64-bit chunk offsets (C93_payloads_false), chunks that cross 4 GiB (C93_locations_false), edits that skip or delay media (C93_shifted_false, C93_delayed_false), media headers of version 1 (C93_version_false). Boxes that matter have headers of 8 bytes, the others of 8 or 16."
  },
  {
   "property": "C94",
   "status": "proved",
   "theorems": [
    "Verif.Props.C94_complete",
    "Verif.Props.C94_errors",
    "Verif.Props.C94_initialized",
    "Verif.Props.C94_packets",
    "Verif.Props.C94_predemuxer",
    "Verif.Props.C94_restart"
   ],
   "note": "C94_restart, C94_packets, C94_complete, C94_initialized, C94_errors; C94_predemuxer: the pre-demuxer of the model is the one of C38. go-astits is not modelled: the claim is about what it is given and about what is done with its results. Errors are compared by their text, so that errors which wrap io.EOF are not covered."
  },
  {
   "property": "C95",
   "status": "proved",
   "theorems": [
    "Verif.Props.C95_cells",
    "Verif.Props.C95_input_kept_false",
    "Verif.Props.C95_same"
   ],
   "note": "C95_cells, C95_same; C95_input_kept_false: the buffer passed to the reader is changed. The array of the buffer is explicit in Model/TSMetadataMem.lean; append follows the Go specification (in place exactly when the capacity is enough)."
  },
  {
   "property": "C96",
   "status": "partial",
   "theorems": [
    "Verif.Props.C96_after_first_partial",
    "Verif.Props.C96_false",
    "Verif.Props.C96_partial",
    "Verif.Props.C96_tables"
   ],
   "note": "C96_tables, C96_after_first_partial and C96_partial (no tables in front of the first unit, or the first unit belongs to the first track). C96_false: tables written in front of the first unit announce Tracks[0], clock references come on the track that is written first. The multiplexer is assumed to announce the PID set last."
  },
  {
   "property": "C97",
   "status": "partial",
   "theorems": [
    "Verif.Props.C97_error",
    "Verif.Props.C97_h264_false",
    "Verif.Props.C97_h264_partial",
    "Verif.Props.C97_h265_false",
    "Verif.Props.C97_h265_partial",
    "Verif.Props.C97_unknown"
   ],
   "note": "C97_h264_partial, C97_h265_partial: for all sets in which num_units_in_tick is not 0, with the outcome in the other case; C97_error, C97_unknown. C97_h264_false, C97_h265_false: num_units_in_tick 0 is accepted and FPS is infinite. float64 is modelled in Model/Float64.lean (rounding to nearest after each operation)."
  },
  {
   "property": "C98",
   "status": "proved",
   "theorems": [
    "Verif.Props.C98_adts",
    "Verif.Props.C98_annexb",
    "Verif.Props.C98_asc",
    "Verif.Props.C98_av1",
    "Verif.Props.C98_avcc",
    "Verif.Props.C98_flac",
    "Verif.Props.C98_jpeg_frame",
    "Verif.Props.C98_jpeg_tables",
    "Verif.Props.C98_leb128",
    "Verif.Props.C98_metadata",
    "Verif.Props.C98_metadata_cell",
    "Verif.Props.C98_metadata_std",
    "Verif.Props.C98_mux_element",
    "Verif.Props.C98_opus_descriptor",
    "Verif.Props.C98_opus_header",
    "Verif.Props.C98_opus_id",
    "Verif.Props.C98_opus_unit",
    "Verif.Props.C98_stream_mux",
    "Verif.Props.C98_sync_stream"
   ],
   "note": "One theorem per structure. The other fuzz tests of the repository ask only for the absence of panics (C01 and others), or for properties that are refuted elsewhere: C32_false, C59, C75, C82, C84. Fragmented MP4 parts: C99."
  },
  {
   "property": "C99",
   "status": "partial",
   "theorems": [
    "Verif.Props.C99_again_iff",
    "Verif.Props.C99_again_partial",
    "Verif.Props.C99_false",
    "Verif.Props.C99_marshal_never_panics",
    "Verif.Props.C99_values"
   ],
   "note": "C99_values: all fields that are read are in the range of the fields that are written. C99_marshal_never_panics: for any parts. C99_again_partial: tracks with at most 19200 samples, parts of less than 2^31 bytes. C99_again_iff: with more samples the file that is written is refused. C99_false: such parts come from a file of 124 bytes with two runs."
  },
  {
   "property": "C100",
   "status": "partial",
   "theorems": [
    "Verif.Props.C100_false",
    "Verif.Props.C100_h264",
    "Verif.Props.C100_h264_distinct",
    "Verif.Props.C100_h265_distinct",
    "Verif.Props.C100_h265_partial",
    "Verif.Props.C100_h265_unknown",
    "Verif.Props.C100_reserved_false"
   ],
   "note": "C100_h264, C100_h264_distinct and C100_h265_distinct hold of all values. False for H265: STSA_R is written with a colon at its end, the two SEI types have another spelling (C100_false), reserved types 24 to 31 have no label (C100_reserved_false). C100_h265_partial: all other types of table 7-1."
  },
  {
   "property": "C101",
   "status": "partial",
   "theorems": [
    "Verif.Props.C101_h264_call_partial",
    "Verif.Props.C101_h264_missed_false",
    "Verif.Props.C101_h264_once",
    "Verif.Props.C101_h264_partial",
    "Verif.Props.C101_h264_reset_false",
    "Verif.Props.C101_h265_call_partial",
    "Verif.Props.C101_h265_missed_false",
    "Verif.Props.C101_h265_partial",
    "Verif.Props.C101_h265_reset_false"
   ],
   "note": "False: the extractors keep slices of the SPS and PPS they were given. A new SPS written over the old one is not noticed (C101_h264_missed_false, C101_h265_missed_false), an unchanged one is taken for a new one (C101_h264_reset_false, C101_h265_reset_false). The results are the same whenever the writes do not change the outcome of a comparison (C101_h264_partial, C101_h265_partial), for instance when no SPS follows the first access unit (C101_h264_once)."
  },
  {
   "property": "C102",
   "status": "partial",
   "theorems": [
    "Verif.Props.C102_accepts_false",
    "Verif.Props.C102_call",
    "Verif.Props.C102_calls_partial",
    "Verif.Props.C102_config",
    "Verif.Props.C102_no_panic_partial",
    "Verif.Props.C102_out_of_band",
    "Verif.Props.C102_panic_false"
   ],
   "note": "False: a configuration that ends early stays in the element with nil pointers; the next element that uses it makes Unmarshal panic (C102_panic_false) or is accepted without payloads (C102_accepts_false). Proved: each call with a complete configuration in place (C102_call), each element that has a configuration, whatever came before (C102_config), all sequences with MuxConfigPresent=false (C102_out_of_band), and all sequences where no element that uses an earlier configuration comes after a broken one (C102_calls_partial, C102_no_panic_partial)."
  },
  {
   "property": "C103",
   "status": "partial",
   "theorems": [
    "Verif.Props.C103_adts",
    "Verif.Props.C103_append_after",
    "Verif.Props.C103_append_false",
    "Verif.Props.C103_asc",
    "Verif.Props.C103_asc_false",
    "Verif.Props.C103_asc_partial",
    "Verif.Props.C103_control",
    "Verif.Props.C103_eac3",
    "Verif.Props.C103_eac3_answers",
    "Verif.Props.C103_h264",
    "Verif.Props.C103_h264_answers",
    "Verif.Props.C103_h264_false",
    "Verif.Props.C103_h265",
    "Verif.Props.C103_h265_answers",
    "Verif.Props.C103_h265_false",
    "Verif.Props.C103_metadata",
    "Verif.Props.C103_metadata_marshal",
    "Verif.Props.C103_mux_false",
    "Verif.Props.C103_mux_partial",
    "Verif.Props.C103_mux_programs",
    "Verif.Props.C103_obus",
    "Verif.Props.C103_opusAU",
    "Verif.Props.C103_opusAU_marshal",
    "Verif.Props.C103_opusDescriptor",
    "Verif.Props.C103_opusDescriptor_marshal",
    "Verif.Props.C103_sync",
    "Verif.Props.C103_vp9",
    "Verif.Props.C103_vp9_false",
    "Verif.Props.C103_vp9_partial"
   ],
   "note": "False of most types: fields that are absent keep their value and lists are appended to. For each type the result is given exactly, as the result on a fresh value with the fields that stay. What is asked of the value afterwards (Marshal, ChannelCount, SampleRate, Width, Height, FPS) is proved independent of the old contents for Opus, metadata, E-AC-3, H264 and H265; for AudioSpecificConfig it is not: AAC-LC decoded after SBR is marshaled as SBR (C103_asc_false); nor for OtherDataLenBits of StreamMuxConfig (C103_mux_false) and the size in the VP9 Header (C103_vp9_false). AV1 SequenceHeader is in C52."
  },
  {
   "property": "C104",
   "status": "partial",
   "theorems": [
    "Verif.Props.C104_avcc",
    "Verif.Props.C104_avcc_false",
    "Verif.Props.C104_avcc_partial",
    "Verif.Props.C104_avcc_rounds",
    "Verif.Props.C104_bitstream",
    "Verif.Props.C104_bitstream_false",
    "Verif.Props.C104_bitstream_partial",
    "Verif.Props.C104_limit_false",
    "Verif.Props.C104_poc",
    "Verif.Props.C104_poc_false",
    "Verif.Props.C104_poc_partial",
    "Verif.Props.C104_slice265",
    "Verif.Props.C104_slice265_false",
    "Verif.Props.C104_slice265_partial",
    "Verif.Props.C104_tables",
    "Verif.Props.C104_tables_false",
    "Verif.Props.C104_tables_partial",
    "Verif.Props.C104_trun",
    "Verif.Props.C104_trun_false",
    "Verif.Props.C104_trun_partial"
   ],
   "note": "Model/Int32 has these decoders with an int of a given size. With 64 bits they equal the models with integers without bounds, for every input, which also justifies those. With 32 bits they equal them whenever the latter succeed, or when no field is next to 2^31 or above it. Otherwise the statement is false: AVCC, AV1 Bitstream, trun, stss, ctts, stsc and slice headers panic (C104_*_false), four bytes make AVCC run 2^29 + 1 rounds (C104_avcc_rounds), and stts ignores the limit on samples (C104_limit_false)."
  },
  {
   "property": "C105",
   "status": "partial",
   "theorems": [
    "Verif.Props.C105_same",
    "Verif.Props.C105_work_false",
    "Verif.Props.C105_work_partial"
   ],
   "note": "Model/FMP4Work is the reader with a counter, which changes no result (C105_same). The statement is false: k runs of 19200 samples without payload are a valid file of 76 + 20 k bytes whose arrays have 9600 k (k + 1) elements, so there is no constant (C105_work_false). What holds, for all files without 64-bit trun boxes and whatever the outcome, is 300 n^2 elements (C105_work_partial)."
  },
  {
   "property": "C106",
   "status": "partial",
   "theorems": [
    "Verif.Props.C106_adts",
    "Verif.Props.C106_annexb",
    "Verif.Props.C106_append_false",
    "Verif.Props.C106_append_last",
    "Verif.Props.C106_append_partial",
    "Verif.Props.C106_append_value",
    "Verif.Props.C106_avcc",
    "Verif.Props.C106_sync",
    "Verif.Props.C106_write"
   ],
   "note": "Model/Views has the decoders with the start and the length of each unit. Units are in order and 4 (AVCC), 3 (Annex-B, AudioSyncStream) or 7 (ADTS) bytes apart, writes inside of a unit leave the others (C106_write), and so does append of no more bytes than these (C106_append_partial). The statement is false for append of one byte more, with each decoder (C106_append_false): units are cut with buf[i:j], so their capacity includes the following ones."
  },
  {
   "property": "C107",
   "status": "partial",
   "theorems": [
    "Verif.Props.C107_init_bound",
    "Verif.Props.C107_init_false",
    "Verif.Props.C107_init_written",
    "Verif.Props.C107_parts_bound",
    "Verif.Props.C107_parts_false",
    "Verif.Props.C107_parts_written",
    "Verif.Props.C107_presentation_bound",
    "Verif.Props.C107_presentation_false",
    "Verif.Props.C107_presentation_written"
   ],
   "note": "Model/Depth has the three functions with a limit on the number of boxes around a box. A limit of an eighth of the length of the file changes nothing (C107_init_bound, C107_presentation_bound, C107_parts_bound). A limit for all files does not exist: for each limit there is a file that is accepted by the function and refused with the limit, with 8, 8 and 32 bytes for each level (C107_init_false, C107_presentation_false, C107_parts_false). Files that were written by Marshal need 8, 8 and 3 levels, so a check of the depth would not refuse them (C107_init_written, C107_presentation_written, C107_parts_written; examples show that 7, 7 and 2 are not enough)."
  },
  {
   "property": "C108",
   "status": "partial",
   "theorems": [
    "Verif.Props.C108_linear_false",
    "Verif.Props.C108_same",
    "Verif.Props.C108_work_false",
    "Verif.Props.C108_work_partial"
   ],
   "note": "Model/PMP4Work has marshalSTSC with its inner loop as it is written and the number of its rounds; the table is the one of Model/PMP4 (C108_same). The square of the number of samples bounds the moves (C108_work_partial). A linear bound is false: for each k two tracks with 10 k + 2 samples are laid out by sortSamples in such a way that the entries of one of them are moved k (k - 1) times (C108_work_false), so no constant below 2^20 will do (C108_linear_false; sizes and offsets are 32-bit numbers)."
  },
  {
   "property": "C109",
   "status": "partial",
   "theorems": [
    "Verif.Props.C109_buffer_false",
    "Verif.Props.C109_estimate_partial",
    "Verif.Props.C109_false",
    "Verif.Props.C109_partial",
    "Verif.Props.C109_slice_partial",
    "Verif.Props.C109_standard"
   ],
   "note": "Proved when the distances that are coded are in the range of ITU-T H.265 7.4.8 (C109_partial; C109_slice_partial for sets of slices; C109_estimate_partial for what the DTS extractor takes from them), and for such sequence parameter sets the sets are those of the standard computed with integers without a limit (C109_standard). False in general: delta_poc_s0_minus1 is not checked, and 2^31 becomes a picture after the current one in the list of those before it (C109_false). The number of pictures is not checked against sps_max_dec_pic_buffering_minus1 either (C109_buffer_false)."
  },
  {
   "property": "C110",
   "status": "proved",
   "theorems": [
    "Verif.Props.C110_again",
    "Verif.Props.C110_distinct",
    "Verif.Props.C110_memory",
    "Verif.Props.C110_round_trip",
    "Verif.Props.C110_sharing_changes_file"
   ],
   "note": "C110_round_trip, on bytes, for any sharing. C110_memory: what is written in memory. C110_again: the file does not depend on earlier offsets. C110_distinct: without sharing it is the file of C81. C110_sharing_changes_file: with sharing it may be another file, with other chunks."
  },
  {
   "property": "C111",
   "status": "partial",
   "theorems": [
    "Verif.Props.C111_buffer_false",
    "Verif.Props.C111_buffer_partial",
    "Verif.Props.C111_bytes",
    "Verif.Props.C111_false",
    "Verif.Props.C111_file",
    "Verif.Props.C111_partial",
    "Verif.Props.C111_payload",
    "Verif.Props.C111_payloads",
    "Verif.Props.C111_returns",
    "Verif.Props.C111_truncated"
   ],
   "note": "Proved when Seek succeeds (C111_partial), with C111_payload and C111_payloads (no failures: any calls in any order return the payloads), C111_file (files of Presentation.Marshal, on bytes), C111_truncated, C111_returns (it ends), C111_bytes (agrees with the function of C66 and C81). False in general: after Seek the wrong variable is tested (err instead of err2), so that a failure of Seek is lost and bytes of another place are returned without an error (C111_false). Buffers: a file of less than 1 kB makes it allocate 4 GiB (C111_buffer_false); not so for files of Presentation.Marshal (C111_buffer_partial)."
  },
  {
   "property": "C112",
   "status": "partial",
   "theorems": [
    "Verif.Props.C112_channels_false",
    "Verif.Props.C112_false",
    "Verif.Props.C112_file",
    "Verif.Props.C112_id_false",
    "Verif.Props.C112_init",
    "Verif.Props.C112_necessary",
    "Verif.Props.C112_partial",
    "Verif.Props.C112_parts",
    "Verif.Props.C112_parts_false",
    "Verif.Props.C112_short_false",
    "Verif.Props.C112_size_false"
   ],
   "note": "Shown with exact conditions: C112_file (MP4 files below 4 GiB), C112_init (initialization segments) and C112_parts (parts below 2 GiB) say that what is written is read as given if and only if tracks exist, numbers fit their fields, PayloadSize is the length of the payload, samples are at most 5184000 (19200 in parts), codecs fit and, in segments, no bit rates are said. So no condition of C68, C76 and C81 can be dropped. C112_necessary: so for all bytes. The statement without conditions is false (C112_false): Marshal does not refuse such values. C112_size_false and C112_short_false (PayloadSize is not checked), C112_id_false, C112_channels_false, C112_parts_false are values that are written as others, without an error. Configurations of MPEG-4 and MPEG-1 video of 256 MiB are left out of C112_file and C112_init."
  },
  {
   "property": "C113",
   "status": "partial",
   "theorems": [
    "Verif.Props.C113_adts",
    "Verif.Props.C113_annexb_cuts_false",
    "Verif.Props.C113_annexb_joins_false",
    "Verif.Props.C113_annexb_partial",
    "Verif.Props.C113_annexb_start_code_false",
    "Verif.Props.C113_av1",
    "Verif.Props.C113_avcc_cuts",
    "Verif.Props.C113_avcc_joins",
    "Verif.Props.C113_avcc_joins_false",
    "Verif.Props.C113_false",
    "Verif.Props.C113_sync"
   ],
   "note": "Shown of ADTS (C113_adts), AudioSyncStream (C113_sync) and AV1 (C113_av1) as stated. Of AVCC: joined streams are read if and only if they are together within 50 units and 8 MiB (C113_avcc_joins, C113_avcc_joins_false), and a stream that is cut is refused or gives the first units (C113_avcc_cuts). False of Annex B (C113_false): a zero at the end of a stream is lost when another follows (C113_annexb_joins_false), what is left of a unit is a unit (C113_annexb_cuts_false), and a cut in a start code adds zeros to a unit (C113_annexb_start_code_false). What remains of Annex B: units before the last one are those of the whole stream (C113_annexb_partial)."
  },
  {
   "property": "C114",
   "status": "proved",
   "theorems": [
    "Verif.Props.C114_cut",
    "Verif.Props.C114_joins_false",
    "Verif.Props.C114_written"
   ],
   "note": "C114_cut: if the beginning of a stream and the stream are accepted, parts of the former are the first parts of the latter; by a simulation of the reader of both, in which boxes with a size give the same result and levels that go to the end of the file only add parts (Frozen). C114_written: the beginning of what Parts.Marshal writes is refused or gives the first parts that were given, unchanged. C114_joins_false: streams cannot be joined in general, up to 7 bytes at the end are ignored and hide what follows."
  },
  {
   "property": "C115",
   "status": "proved",
   "theorems": [
    "Verif.Props.C115_h264",
    "Verif.Props.C115_h265",
    "Verif.Props.C115_limits_false"
   ],
   "note": "C115_h264 and C115_h265: results of successive calls of Extract on the moved stream are those on the stream, moved; PTS, the DTS that are returned and the amount are between -2^60 and 2^60. C115_h265 has one more condition, that no access unit before the first DTS is refused with 'DTS is greater than PTS': this DTS is computed from the frame rate in the SPS and may be anywhere in int64. All code but the computation of the DTS is shown not to look at times (Blind). C115_limits_false: near the limits of int64 it is false, since a DTS wraps."
  },
  {
   "property": "C116",
   "status": "partial",
   "theorems": [
    "Verif.Props.C116_clock_stops",
    "Verif.Props.C116_decoder",
    "Verif.Props.C116_received_partial",
    "Verif.Props.C116_writer_false",
    "Verif.Props.C116_writer_partial"
   ],
   "note": "C116_decoder: holds of the decoder as stated, for all int64. C116_writer_partial and C116_received_partial: holds of the writer, and of writer, 33 bits and decoder together, as long as the leading track (the one written to first) has no units without time. C116_writer_false: it is false of streams whose leading track is asynchronous KLV; C116_clock_stops: all clock references of such a stream are -9000, since WriteKLV drops its pts. Clock references are unbounded integers in the model of the writer: no overflow of int64 at dts - 9000."
  },
  {
   "property": "C117",
   "status": "proved",
   "theorems": [
    "Verif.Props.C117_delimiters_h264",
    "Verif.Props.C117_delimiters_h265",
    "Verif.Props.C117_h264",
    "Verif.Props.C117_h264_reference_false",
    "Verif.Props.C117_h264_slices",
    "Verif.Props.C117_h265",
    "Verif.Props.C117_h265_refused"
   ],
   "note": "C117_h264 and C117_h265: calls of Extract give the same results on what is left of each access unit (idleCore). For H264 the units that are removed have nal_ref_idc 0, which the standard wants of delimiters, SEI, end of sequence, end of stream and filler data; C117_h264_slices: in access units with slices they may have any nal_ref_idc, so PPS can be removed as well; C117_h264_reference_false: in access units without slices they may not. Slices are those that the extractors look for: types 1 and 5 of H264, IDR, CRA, TRAIL and RASL of H265. C117_delimiters_h264 and C117_delimiters_h265: delimiters of the MPEG-TS writer. C117_h265_refused: access units with slices of other types only (TSA, STSA, RADL, BLA) are always refused."
  },
  {
   "property": "C118",
   "status": "proved",
   "theorems": [
    "Verif.Props.C118_h264",
    "Verif.Props.C118_h264_new",
    "Verif.Props.C118_h265",
    "Verif.Props.C118_idr_false"
   ],
   "note": "C118_h264: any two states, not only reachable ones; C118_h264_new: against a new extractor. C118_h265: any two histories; that the PPS in use is the one whose bytes are kept is an invariant. C118_idr_false: an IDR with an SPS that has come before is not enough: pictures that were missed count as reordered ones from then on."
  },
  {
   "property": "C119",
   "status": "proved",
   "theorems": [
    "Verif.Props.C119_ac3_bsi",
    "Verif.Props.C119_ac3_sync",
    "Verif.Props.C119_asc",
    "Verif.Props.C119_av1",
    "Verif.Props.C119_av1_cut",
    "Verif.Props.C119_av1_sized",
    "Verif.Props.C119_eac3",
    "Verif.Props.C119_flac",
    "Verif.Props.C119_h264_sps",
    "Verif.Props.C119_h265_pps",
    "Verif.Props.C119_h265_sps",
    "Verif.Props.C119_mpeg1",
    "Verif.Props.C119_mux_false",
    "Verif.Props.C119_opus_head_false",
    "Verif.Props.C119_opus_unit",
    "Verif.Props.C119_vp9"
   ],
   "note": "HeadOnly is the specification (Spec/Prefix). An AV1 OBU with size field is refused if anything follows it (C119_av1_sized). False of StreamMuxConfig (C119_mux_false: a configuration that is cut is accepted with another buffer fullness) and of the Opus IDHeader (C119_opus_head_false: what follows becomes the channel mapping table)."
  },
  {
   "property": "C120",
   "status": "proved",
   "theorems": [
    "Verif.Props.C120_cut",
    "Verif.Props.C120_cut_plain",
    "Verif.Props.C120_file",
    "Verif.Props.C120_followed",
    "Verif.Props.C120_growing",
    "Verif.Props.C120_movie",
    "Verif.Props.C120_second_false"
   ],
   "note": "C120_followed, C120_movie, C120_growing, C120_file, C120_cut, C120_cut_plain. C120_second_false: the boxes that follow must be of other types, a second movie is refused. In the model the decoder of user data (isoFields) takes a payload as far as it is there, so the last box of user data can lose its end in C120_cut; decoders that refuse short payloads refuse the segment instead."
  },
  {
   "property": "C121",
   "status": "proved",
   "theorems": [
    "Verif.Props.C121_followed",
    "Verif.Props.C121_growing",
    "Verif.Props.C121_payload",
    "Verif.Props.C121_refused",
    "Verif.Props.C121_samples"
   ],
   "note": "C121_refused, C121_growing, C121_payload, C121_samples, C121_followed. Uncuttable: the chunk offsets of the last track are the last box of the movie, on all levels, and refuse to be cut, whatever state the reader is in. The outcome of C121_refused is that there is no result; that the error is not a panic is not part of it (see C82)."
  }
 ]
}