{
 "claims": [
  {
   "property": "C01",
   "status": "proved",
   "theorems": [
    "Sps.BitProps.C01_reads_are_consecutive_bit_groups",
    "Sps.BitProps.C01_wide_read_truncates",
    "Sps.BitProps.C01_read_past_end_is_undefined"
   ],
   "note": "all buffers, all read programs; reads past the end are undefined behaviour in the model"
  },
  {
   "property": "C02",
   "status": "partial",
   "theorems": [
    "Sps.BitProps.C02_acquire_guards_reads_partial",
    "Sps.BitProps.C02_negation_acquire_wraps"
   ],
   "note": "proved for requests below 2^29 bytes; negation proved for 2^29 (32-bit multiplication wraps)"
  },
  {
   "property": "C03",
   "status": "partial",
   "theorems": [
    "Sps.BitProps.C03_write_then_read_partial",
    "Sps.BitProps.C03_write_ints_round_trip",
    "Sps.BitProps.C03_negation_six_bit_mask",
    "Sps.BitSkip.C03_skip"
   ],
   "note": "proved for all field lists without a six bit piece, for all byte-wide writers, and for bytes written and left out in any order (C03_skip). Missing because false: six bit pieces (mask 0x2f, negation)"
  },
  {
   "property": "C04",
   "status": "proved",
   "theorems": [
    "Sps.ByteProg.C04_writes_are_network_order",
    "Sps.ByteProg.C04_write_read_round_trip",
    "Sps.ByteProg.C04_overflow_is_undefined",
    "Sps.ByteProg.C04_reverse_bytes"
   ],
   "note": "all write programs that fit, and the overflow side as undefined behaviour; read-back through the reader"
  },
  {
   "property": "C05",
   "status": "proved",
   "theorems": [
    "Sps.ByteProg.C05_reads_account_for_the_stream",
    "Sps.ByteProg.C05_fragmentation_does_not_matter"
   ],
   "note": "all transports, fragmentations, error placements, buffers below 2^63 bytes and client programs"
  },
  {
   "property": "C06",
   "status": "proved",
   "theorems": [
    "Sps.ByteProg.C06_acquire_contract"
   ],
   "note": "in every state reachable by any client program over any transport"
  },
  {
   "property": "C07",
   "status": "partial",
   "theorems": [
    "Sps.MemProps.C07_reader_delivers_buffer_partial",
    "Sps.MemProps.C07_read_fully_all_or_nothing_partial",
    "Sps.MemProps.C07_negation_huge_size"
   ],
   "note": "all buffers and read programs with sizes below 2^31; negation proved for 2^31 (size cast to int)"
  },
  {
   "property": "C08",
   "status": "partial",
   "theorems": [
    "Sps.MemProps.C08_lines_meaning",
    "Sps.MemProps.C08_file_read_line",
    "Sps.MemProps.C08_memory_read_line_partial",
    "Sps.MemProps.C08_memory_safe_partial",
    "Sps.MemProps.C08_negation_last_newline"
   ],
   "note": "file reader proved for all contents; memory reader proved for buffers not ending in a bare newline; for every buffer no call reads outside it and nothing but newlines is lost; negation proved"
  },
  {
   "property": "C09",
   "status": "partial",
   "theorems": [
    "Sps.MemProps.C09_single_write_partial",
    "Sps.MemProps.C09_negation_writes_overwrite"
   ],
   "note": "single write proved; negation proved: a second write overwrites the first"
  },
  {
   "property": "C10",
   "status": "partial",
   "theorems": [
    "Sps.MemProps.C10_appends_concatenate_partial",
    "Sps.MemProps.C10_skip_partial",
    "Sps.MemProps.C10_deep_copy",
    "Sps.MemProps.C10_negation_head_ignored",
    "Sps.MemProps.C10_content_with_head_partial"
   ],
   "note": "appends, and bytes counted with skip, proved for buffers without reserved head; negation proved for reserved heads"
  },
  {
   "property": "C11",
   "status": "proved",
   "theorems": [
    "Sps.StreamProps.C11_dump_is_startup",
    "Sps.StreamProps.C11_dump_again",
    "Sps.StreamProps.C11_startup_meaning"
   ],
   "note": "every history; the returned list"
  },
  {
   "property": "C12",
   "status": "proved",
   "theorems": [
    "Sps.StreamProps.C12_delivery",
    "Sps.StreamProps.C12_players_are_independent"
   ],
   "note": "every interleaving of publish, put, play, dump, leave and pull pieces by any number of players"
  },
  {
   "property": "C13",
   "status": "partial",
   "theorems": [
    "Sps.StreamProps.C13_queue_read",
    "Sps.StreamProps.C13_negation_gop_count"
   ],
   "note": "queues proved; negation proved for the count returned by the group-of-pictures cache (headers are not counted)"
  },
  {
   "property": "C14",
   "status": "partial",
   "theorems": [
    "Sps.StreamProps.C14_one_publisher_partial",
    "Sps.StreamProps.C14_negation_pull",
    "Sps.StreamProps.C14_negation_late"
   ],
   "note": "every interleaving, for a key that does not start with ts:// and whose pulls keep apart from its publishers (no pull of it opens or gives its key up while a publisher of it is connected; other keys may be pulled as they like); negations proved: a pull and a publisher of the same key race (C14_negation_pull), an ended pull whose starting player goes on late frees the key of the publisher that followed (C14_negation_late)"
  },
  {
   "property": "C15",
   "status": "partial",
   "theorems": [
    "Sps.StreamProps.C15_isolation",
    "Sps.StreamProps.C15_negation_pull",
    "Sps.StreamProps.C15_player_attaches_partial",
    "Sps.StreamProps.C15_keys_distinct"
   ],
   "note": "isolation and key distinctness for every interleaving; attachment to the connected publisher for keys whose pulls keep apart from their publishers (C14 without; C15_negation_pull shows two players of one key on different streams), to a pull as in C16; no source for every interleaving"
  },
  {
   "property": "C16",
   "status": "partial",
   "theorems": [
    "Sps.StreamProps.C16_one_pull_per_key_partial",
    "Sps.StreamProps.C16_free",
    "Sps.StreamProps.C16_end_releases",
    "Sps.StreamProps.C16_players_share_pull_partial",
    "Sps.StreamProps.C16_stream",
    "Sps.StreamProps.C16_negation_two_pulls"
   ],
   "note": "release for every interleaving; a pull starts, and publishers are admitted, whenever nobody publishes and no pull is going on, for every interleaving (C16_free); one pull per key for every interleaving in which the player that started a pull of that key goes on before the next pull of the key starts (prompt k; other keys are free), negation without (C16_negation_two_pulls); sharing for every pull that opens while no publisher of its key is connected, whatever happens afterwards, negation with one (C14_negation_pull)"
  },
  {
   "property": "C17",
   "status": "proved",
   "theorems": [
    "Sps.FlvProps.C17_mux_demux",
    "Sps.FlvProps.C17_supported_unchanged"
   ],
   "note": "every packet sequence, header, fragmentation and tag buffer memory; packets come back in their wire form, supported packets unchanged"
  },
  {
   "property": "C18",
   "status": "proved",
   "theorems": [
    "Sps.FlvProps.C18_tag_chain",
    "Sps.FlvProps.C18_refuses"
   ],
   "note": "every sequence of carried packets with bodies below 2^24 bytes, filters and write failures; other packets are refused"
  },
  {
   "property": "C19",
   "status": "partial",
   "theorems": [
    "Sps.FlvProps.C19_accepts_iff",
    "Sps.FlvProps.C19_decision_partial",
    "Sps.FlvProps.C19_negation_empty_body",
    "Sps.FlvProps.C19_negation_memory"
   ],
   "note": "acceptance proved for every complete tag; the error proved except for empty audio and video bodies; negations proved: the error depends on the following byte, and the read may leave the buffer"
  },
  {
   "property": "C20",
   "status": "partial",
   "theorems": [
    "Sps.FlvProps.C20_stream_function_partial",
    "Sps.FlvProps.C20_fragmentation_partial",
    "Sps.FlvProps.C20_negation_empty_body"
   ],
   "note": "every pair of fragmentations and initial memories: same packets, same error unless the stream reaches a body too short for its sub-header; negation proved"
  },
  {
   "property": "C21",
   "status": "partial",
   "theorems": [
    "Sps.RtmpProps.C21_round_trip_partial",
    "Sps.RtmpProps.C21_what_survives",
    "Sps.RtmpProps.C21_negation_offset",
    "Sps.RtmpProps.C21_demux_decision",
    "Sps.RtmpProps.C21_negation_short_audio"
   ],
   "note": "proved for composition offsets 0..15; exactly which offsets survive is proved (C21_what_survives), other offsets refuted; the decision of the demuxer is proved for every message; one-byte audio reads past its body"
  },
  {
   "property": "C22",
   "status": "partial",
   "theorems": [
    "Sps.RtmpProps.C22_ack_window_partial",
    "Sps.RtmpProps.C22_negation_window_after_ack",
    "Sps.RtmpProps.C22_negation_type5",
    "Sps.RtmpProps.C22_negation_ping",
    "Sps.RtmpProps.C22_negation_overflow"
   ],
   "note": "proved for every history without pings and with windows set before the first acknowledgement, below 2 GB; the four exceptions refuted"
  },
  {
   "property": "C23",
   "status": "partial",
   "theorems": [
    "Sps.RtmpProps.C23_dispatch_partial",
    "Sps.RtmpProps.C23_negation_publish_type",
    "Sps.RtmpProps.C23_negation_connect_null"
   ],
   "note": "equivalence with the RTMP command grammar proved for every property list except publish with exactly five properties and connect with a null object, both refuted"
  },
  {
   "property": "C24",
   "status": "proved",
   "theorems": [
    "Sps.TsProps.C24_fields",
    "Sps.TsProps.C24_accepted",
    "Sps.TsProps.C24_rejected"
   ],
   "note": "All header fields equal the bit fields of the standard for every packet; position of the payload for packets whose adaptation field has room for the fields it announces; shorter buffers and other first bytes are rejected without effect."
  },
  {
   "property": "C25",
   "status": "proved",
   "theorems": [
    "Sps.TsProps.C25_fresh",
    "Sps.TsProps.C25_announced",
    "Sps.TsProps.C25_ignored"
   ],
   "note": "Over every history of 188-byte packets including rejected ones (replay), every handled pid is derivable from the announcements (inductive Announced); other pids are ignored."
  },
  {
   "property": "C26",
   "status": "partial",
   "theorems": [
    "Sps.TsProps.C26_pat_partial",
    "Sps.TsProps.C26_negation_pointer",
    "Sps.TsProps.C26_negation_long",
    "Sps.TsProps.C26_negation_network"
   ],
   "note": "Sections within one packet directly after a pointer field of 0, any number of programs that fits. Negations: a later section start (pointer field not followed), sections of several packets (rejected), network pid taken for a program map."
  },
  {
   "property": "C27",
   "status": "partial",
   "theorems": [
    "Sps.TsProps.C27_pmt_partial",
    "Sps.TsProps.C27_negation_pointer"
   ],
   "note": "Sections within one packet directly after a pointer field of 0, any descriptors and entries. Negation for later section starts."
  },
  {
   "property": "C28",
   "status": "partial",
   "theorems": [
    "Sps.TsProps.C28_reassembly_partial",
    "Sps.TsProps.C28_accepted",
    "Sps.TsProps.C28_codec_input",
    "Sps.TsProps.C28_negation_announced_length",
    "Sps.TsProps.C28_negation_large",
    "Sps.TsProps.C28_negation_first_counter"
   ],
   "note": "Any interleaving with other pids, any split, full PES header syntax. Missing: H.264 units with an announced length or of 64 KiB and more (negations: the codec is given bytes behind the data, or loses the unit), streams whose first counter is not 0 (negation)."
  },
  {
   "property": "C29",
   "status": "proved",
   "theorems": [
    "Sps.TsProps.C29_gap",
    "Sps.TsProps.C29_no_resync"
   ],
   "note": "After every accepted history the next packet with another counter is rejected with no effect on handlers, streams or programs; any number of such packets leaves everything as it was (no resynchronisation until the counter comes round)."
  },
  {
   "property": "C30",
   "status": "proved",
   "theorems": [
    "Sps.TsProps.C30_times",
    "Sps.TsProps.C30_no_times"
   ],
   "note": "All 33-bit values of PTS and DTS, through the complete packet path; without a DTS it equals the PTS."
  },
  {
   "property": "C31",
   "status": "proved",
   "theorems": [
    "Sps.TsProps.C31_whole",
    "Sps.TsProps.C31_rejected"
   ],
   "note": "decodeAll equals packet-by-packet decoding on multiples of 188 and never succeeds on other sizes."
  },
  {
   "property": "C32",
   "status": "partial",
   "theorems": [
    "Sps.C32_payload_partial",
    "Sps.C32_fields",
    "Sps.C32_empty_extension",
    "Sps.C32_short",
    "Sps.C32_inside",
    "Sps.C32_negation_padding",
    "Sps.C32_negation_extension"
   ],
   "note": "Header fields for every valid packet (C32_fields), payload for every valid packet without padding and extension (C32_payload_partial), refusal of short packets (C32_short), no read outside (C32_inside). Missing because false of the code: padding is never removed, the extension length is taken as bytes (C32_negation_*)."
  },
  {
   "property": "C33",
   "status": "partial",
   "theorems": [
    "Sps.C33_reassembled_partial",
    "Sps.C33_same_as_single",
    "Sps.C33_negation_missing_start",
    "Sps.C33_negation_restart",
    "Sps.C33_negation_large"
   ],
   "note": "Fragments put together give exactly what the single unit packet gives, for every way of cutting a unit below 1 MiB. Missing because false of the code: a lost or repeated start fragment is not noticed, units above 1 MiB (C33_negation_*)."
  },
  {
   "property": "C34",
   "status": "partial",
   "theorems": [
    "Sps.C34_exact_partial",
    "Sps.C34_negation_stap",
    "Sps.C34_negation_inside"
   ],
   "note": "C34_exact_partial says what the code makes of every aggregation payload; it is not what RFC 6184 says (C34_negation_stap): the header byte is not skipped, sizes are one byte, and a nested unit takes everything left."
  },
  {
   "property": "C35",
   "status": "proved",
   "theorems": [
    "Sps.C35_dispatch",
    "Sps.C35_single",
    "Sps.C35_refused",
    "Sps.C35_undisturbed"
   ],
   "note": "Dispatch on the five type bits for every payload and every history of packets."
  },
  {
   "property": "C36",
   "status": "partial",
   "theorems": [
    "Sps.C36_split_partial",
    "Sps.C36_three_byte",
    "Sps.C36_up_to_zeros",
    "Sps.C36_inside",
    "Sps.C36_no_start_code",
    "Sps.C36_any",
    "Sps.C36_refused",
    "Sps.C36_negation_four_byte"
   ],
   "note": "All separators are covered; the unit before a 4-byte start code keeps one trailing zero byte (negation proved), equal up to trailing zeros otherwise. For every buffer whatever the answer is exact: accepted with the units us if and only if the specification finds us in it (C36_any), refused otherwise (C36_refused). Safety proved for every buffer."
  },
  {
   "property": "C37",
   "status": "partial",
   "theorems": [
    "Sps.C37_emitted_partial",
    "Sps.C37_prefixed_round_trip",
    "Sps.C37_negation_dropped",
    "Sps.C37_negation_short_lengths"
   ],
   "note": "Round trip of 4-byte lengths proved; emission proved for unit types 1,5,6,7,8,9; other types are dropped by the code (negation)."
  },
  {
   "property": "C38",
   "status": "partial",
   "theorems": [
    "Sps.C38_reads_partial",
    "Sps.C38_negation_reads",
    "Sps.C38_history_partial",
    "Sps.C38_header_first",
    "Sps.C38_negation_compatibility",
    "Sps.C38_negation_pps_only",
    "Sps.C38_negation_read_back",
    "Sps.C38_negation_over_read"
   ],
   "note": "Whole-history theorem; compatibility byte is always 0, a lone PPS is not announced, and the record cannot be read back (negations). Exactly which records are read: C38_reads_partial (sets behind four byte lengths, counted in half); no record of the standard with an SPS is among them (C38_negation_reads). The reading of records is an interface of the parser that the server does not use."
  },
  {
   "property": "C39",
   "status": "partial",
   "theorems": [
    "Sps.C39_frames_partial",
    "Sps.C39_rejected",
    "Sps.C39_any",
    "Sps.C39_negation_beyond",
    "Sps.C39_negation_small",
    "Sps.C39_negation_checksum"
   ],
   "note": "Splitting and sync rejection proved; whatever buffer is accepted is a sequence of ADTS frames and the answer is their payloads (C39_any). Frame length beyond the buffer, below the header size and missing checksum are undefined behaviour (negations)."
  },
  {
   "property": "C40",
   "status": "proved",
   "theorems": [
    "Sps.C40_config",
    "Sps.C40_first"
   ],
   "note": "Every emitted AudioSpecificConfig, in every parser state."
  },
  {
   "property": "C41",
   "status": "proved",
   "theorems": [
    "Sps.C41_query",
    "Sps.C41_lookup",
    "Sps.C41_negation_flag"
   ],
   "note": "Every parameter list (keys without '=', values without '&'), through the URL parser; lookup finds the first. A flag without '=' is glued to the next key (C41_negation_flag)."
  },
  {
   "property": "C42",
   "status": "proved",
   "theorems": [
    "Sps.C42_never_past",
    "Sps.C42_exact",
    "Sps.C42_cut",
    "Sps.C42_negation_bare"
   ],
   "note": "Every transport: at most the maximum, never past the first CRLFCRLF. Exact for every header with CRLF line ends, every fragmentation; too large and cut short reported. Other line ends may stop it inside the header (C42_negation_bare)."
  },
  {
   "property": "C43",
   "status": "proved",
   "theorems": [
    "Sps.C43_read",
    "Sps.C43_cut",
    "Sps.C43_written",
    "Sps.C43_round_trip",
    "Sps.C43_negation_empty"
   ],
   "note": "Writer, both readers and their composition with the header reader, every fragmentation and read sizes, any valid size lines up to 31 characters; connections that end early never look complete (C43_cut). Empty write in the middle: C43_negation_empty."
  },
  {
   "property": "C44",
   "status": "partial",
   "theorems": [
    "Sps.C44_exact_partial",
    "Sps.C44_never_more",
    "Sps.C44_unlimited",
    "Sps.C44_negation_zero"
   ],
   "note": "Every n with 0 < n < 2^31 (the length is kept in an int); on every transport with errors never more than announced. n = 0 gives an error instead of the end (C44_negation_zero)."
  },
  {
   "property": "C45",
   "status": "partial",
   "theorems": [
    "Sps.C45_once",
    "Sps.C45_again",
    "Sps.C45_header_partial",
    "Sps.C45_negation_twice",
    "Sps.C45_negation_failed"
   ],
   "note": "Every write history without failures; header fields given by the caller must not repeat the framing field, which proxied responses do (C45_negation_twice); after a failed header write the body goes out without header (C45_negation_failed)."
  },
  {
   "property": "C46",
   "status": "proved",
   "theorems": [
    "Sps.C46_first",
    "Sps.C46_derived",
    "Sps.C46_case"
   ],
   "note": "Every header list; lengths below 2^31. Names are compared case-sensitively (C46_case)."
  },
  {
   "property": "C47",
   "status": "proved",
   "theorems": [
    "Sps.C47_chunked",
    "Sps.C47_length",
    "Sps.C47_unlimited",
    "Sps.C47_empty"
   ],
   "note": "Chunked (any chunks), announced length below 2^31, until close, and empty; every fragmentation on both sides. The header sent is described by C45."
  },
  {
   "property": "C48",
   "status": "proved",
   "theorems": [
    "Sps.C48_line",
    "Sps.C48_error",
    "Sps.C48_negation_glued",
    "Sps.C48_negation_comment",
    "Sps.C48_negation_close"
   ],
   "note": "Every line: parse agrees with the relation LineSays (words, comments, final marks); the three quirks of the format are negations."
  },
  {
   "property": "C49",
   "status": "proved",
   "theorems": [
    "Sps.C49_file",
    "Sps.C49_render",
    "Sps.C49_balanced",
    "Sps.C49_negation_root",
    "Sps.C49_negation_location"
   ],
   "note": "C49_file characterises exactly the accepted files (blocks root in the file excluded: negation) and their modules; C49_render is the round trip."
  },
  {
   "property": "C50",
   "status": "partial",
   "theorems": [
    "Sps.C50_options",
    "Sps.C50_defaults",
    "Sps.C50_documented",
    "Sps.C50_negation_bool"
   ],
   "note": "Every option of a block has the meaning of the last directive naming it, or its documented default (table in Spec/Conf), for every block text. Missing: booleans accept any text beginning with on (negation)."
  },
  {
   "property": "C51",
   "status": "proved",
   "theorems": [
    "Sps.C51_find",
    "Sps.C51_choose"
   ],
   "note": "Every list of registered hosts and every requested name."
  },
  {
   "property": "C52",
   "status": "proved",
   "theorems": [
    "Sps.C52_register",
    "Sps.C52_first",
    "Sps.C52_negation_merge"
   ],
   "note": "Success exactly when the slot is free and the name allowed; failures change nothing; the first stays. merge forgets the default host (negation; nobody calls it)."
  },
  {
   "property": "C53",
   "status": "proved",
   "theorems": [
    "Sps.C53_stop",
    "Sps.C53_gone",
    "Sps.C53_all",
    "Sps.C53_cases",
    "Sps.C53_connection"
   ],
   "note": "Handlers are arbitrary functions on an arbitrary connection state that return, crash or never return."
  },
  {
   "property": "C54",
   "status": "partial",
   "theorems": [
    "Sps.C54_reachable_partial",
    "Sps.C54_listening",
    "Sps.C54_negation_port",
    "Sps.C54_negation_global",
    "Sps.C54_negation_twice"
   ],
   "note": "Proved for distinct ports and one http block, starting and selection; for every configuration, that it listens on every port when it starts; second block on a port, two http blocks: negations."
  },
  {
   "property": "C55",
   "status": "partial",
   "theorems": [
    "Sps.C55_params_partial",
    "Sps.C55_negation_last",
    "Sps.C55_negation_player",
    "Sps.C55_negation_schema",
    "Sps.C55_short"
   ],
   "note": "For every list of pairs each followed by a comma the URL and the mode are those of the last h and m; in general a last pair without a comma is ignored (C55_negation_last, C55_negation_player), and a schema in the resource is doubled (C55_negation_schema)."
  },
  {
   "property": "C56",
   "status": "partial",
   "theorems": [
    "Sps.C56_fifo",
    "Sps.C56_arrival",
    "Sps.C56_sessions",
    "Sps.C56_read",
    "Sps.C56_accept",
    "Sps.C56_negation_peer",
    "Sps.C56_negation_mixed",
    "Sps.C56_negation_long",
    "Sps.C56_negation_key",
    "Sps.C56_client_reads"
   ],
   "note": "For every history the datagrams queued for a session are read in order, drops happen only at 4000 waiting, failed reads change nothing, living sessions have different keys, sessions are accepted once in order; but the session is not that of the peer: C56_negation_peer (every two peers share a session), C56_negation_mixed, C56_negation_key. Datagrams of more than 4096 bytes are cut (C56_negation_long)."
  },
  {
   "property": "C57",
   "status": "partial",
   "theorems": [
    "Sps.Tls.C57_negation_tls",
    "Sps.C57_fully_partial",
    "Sps.C57_tcp_partial",
    "Sps.C57_srt_partial",
    "Sps.C57_session_partial",
    "Sps.C57_one_partial",
    "Sps.C57_negation_srt",
    "Sps.C57_negation_udp"
   ],
   "note": "Socket::read_fully is exact over every reader that hands out bytes in order (TCP, SRT, UDP sessions), and returns; the transport's own SRT read_fully overwrites (C57_negation_srt, right only if one read suffices: C57_one_partial) and plain UDP loses bytes (C57_negation_udp)."
  },
  {
   "property": "C58",
   "status": "proved",
   "theorems": [
    "Sps.C58_messages",
    "Sps.C58_whole",
    "Sps.C58_returns"
   ],
   "note": "Messages have at most 1316 bytes and concatenate to the buffer; a failed write sent a prefix; success if libsrt keeps taking bytes. libsrt's calls are arbitrary lists of outcomes."
  },
  {
   "property": "C59",
   "status": "partial",
   "theorems": [
    "Sps.C59_event",
    "Sps.C59_once",
    "Sps.C59_cause",
    "Sps.C59_resume",
    "Sps.C59_watched_partial",
    "Sps.C59_negation_error"
   ],
   "note": "Exact effect of every event; over all histories each waiter returns at most once, with a cause in the history, a notified waiter does return, and what it waits for is watched. Missing: the error flag is dropped from the watch when another waiter goes (C59_negation_error), so the rest is not woken by errors."
  },
  {
   "property": "C60",
   "status": "partial",
   "theorems": [
    "Sps.C60_first_partial",
    "Sps.C60_reports",
    "Sps.C60_inside",
    "Sps.C60_negation_sdes",
    "Sps.C60_negation_compound",
    "Sps.C60_negation_block",
    "Sps.C60_negation_length"
   ],
   "note": "The first packet of every buffer decodes to its fields (C60_first_partial, C60_reports) and inside the buffer (C60_inside); the rest of a compound buffer is never looked at, SDES is undefined behaviour, report blocks are read without their source (C60_negation_*)."
  },
  {
   "property": "C61",
   "status": "partial",
   "theorems": [
    "Sps.C61_register",
    "Sps.C61_format_partial",
    "Sps.C61_unique_partial",
    "Sps.C61_installed",
    "Sps.C61_protocol",
    "Sps.C61_negation_order",
    "Sps.C61_negation_prefix",
    "Sps.C61_negation_ts"
   ],
   "note": "For all registers, extensions and memory after them: the choice matches, is the first by address, none only if nothing matches; independent of the order when no extension begins another, as for the installed formats; protocols by exact schema. C61_negation_order, C61_negation_prefix."
  },
  {
   "property": "C62",
   "status": "partial",
   "theorems": [
    "Sps.StreamProps.C62_raw_dump",
    "Sps.StreamProps.C62_raw_dump_again",
    "Sps.StreamProps.C62_negation_unit_start"
   ],
   "note": "what the cache yields is proved for every history; the claim about unit starts is refuted"
  },
  {
   "property": "C63",
   "status": "proved",
   "theorems": [
    "Sps.RtmpProps.C63_negotiation",
    "Sps.RtmpProps.C63_one_role",
    "Sps.RtmpProps.C63_negation_one_byte",
    "Sps.RtmpProps.C63_negation_chunk_size"
   ],
   "note": "exact characterisation for every message sequence when sends succeed; exactly-one-role for every placement of send failures; the lost chunk size and the read past a command of one byte that is not AMF are refuted remarks"
  },
  {
   "property": "C64",
   "status": "partial",
   "theorems": [
    "Sps.TsProps.C64_inside_partial",
    "Sps.TsProps.C64_negation_section",
    "Sps.TsProps.C64_negation_adaptation"
   ],
   "note": "Elementary streams and unknown pids: any payload. Negations with witnesses for sections longer than the packet and contradictory adaptation fields."
  },
  {
   "property": "C65",
   "status": "proved",
   "theorems": [
    "Sps.TsProps.C65_fragmentation",
    "Sps.TsProps.C65_packets"
   ],
   "note": "readPacket over the modelled 188-byte BytesReader buffer on any two transports with the same bytes gives the same session; one call decodes the whole packets in order."
  },
  {
   "property": "C66",
   "status": "partial",
   "theorems": [
    "Sps.C66_same_as_ts",
    "Sps.C66_read",
    "Sps.C66_negation_marker",
    "Sps.C66_reports"
   ],
   "note": "Every sequence of datagrams without marker bit, padding or extension, RTCP packets anywhere in between; refused with the marker bit on the first (C66_negation_marker)."
  },
  {
   "property": "C67",
   "status": "partial",
   "theorems": [
    "Sps.C67_units",
    "Sps.C67_short",
    "Sps.C67_negation_times"
   ],
   "note": "Exact cutting and the error are proved; the times are not those of the units (C67_negation_times)."
  },
  {
   "property": "C68",
   "status": "proved",
   "theorems": [
    "Sps.C68_flow",
    "Sps.C68_any",
    "Sps.C68_refused"
   ],
   "note": "For every history the transport layer accepts, composed from C28-style reassembly reports, H.264 and AAC parsers; C68_any has no condition on the content of the units (each under 512 MiB): every accepted unit says something and the packets are exactly those of what the units say; C68_refused: the rest is refused."
  },
  {
   "property": "C69",
   "status": "partial",
   "theorems": [
    "Sps.C69_request_partial",
    "Sps.C69_negation_body"
   ],
   "note": "First line, host and fields in order; the body is lost and fields are added (C69_negation_body)."
  },
  {
   "property": "C70",
   "status": "partial",
   "theorems": [
    "Sps.C70_parts_partial",
    "Sps.C70_ext",
    "Sps.C70_negation_file"
   ],
   "note": "Every URL but file:, given the fields found by the external http_parser; file: loses a character (C70_negation_file)."
  },
  {
   "property": "C71",
   "status": "partial",
   "theorems": [
    "Sps.C71_dispatch_partial",
    "Sps.C71_negation_api",
    "Sps.C71_negation_enabled"
   ],
   "note": "stream and proxy hosts; api and enabled are negations."
  },
  {
   "property": "C72",
   "status": "proved",
   "theorems": [
    "Sps.C72_address",
    "Sps.C72_negation_name"
   ],
   "note": "All addresses with decimal ports below 2^31; upstream names are not resolved (negation)."
  },
  {
   "property": "C73",
   "status": "partial",
   "theorems": [
    "Sps.C73_url_partial",
    "Sps.C73_negation_upstream"
   ],
   "note": "Hosts with pass_proxy or pass_url; with an upstream block the URL lacks its host (negation)."
  },
  {
   "property": "C74",
   "status": "partial",
   "theorems": [
    "Sps.ServeProps.C74_admitted",
    "Sps.ServeProps.C74_effect",
    "Sps.ServeProps.C74_refused",
    "Sps.ServeProps.C74_play",
    "Sps.ServeProps.C74_negation_srt"
   ],
   "note": "Admission of publishers and players is decided exactly as stated, refused requests change nothing. Missing: SRT publishers are admitted whatever the host's role (negation)."
  },
  {
   "property": "C75",
   "status": "partial",
   "theorems": [
    "Sps.ServeProps.C75_forbidden_partial",
    "Sps.ServeProps.C75_absent_partial",
    "Sps.ServeProps.C75_pull_failed_partial",
    "Sps.ServeProps.C75_playing_partial",
    "Sps.ServeProps.C75_negation_silent",
    "Sps.ServeProps.C75_negation_length",
    "Sps.ServeProps.C75_negation_crash",
    "Sps.ServeProps.C75_negation_post"
   ],
   "note": "403, 404 and 200 responses are exactly one well-formed head. Missing (negations): silent refusals, no length on refusals, publishers never answered, crash through the format -."
  },
  {
   "property": "C76",
   "status": "proved",
   "theorems": [
    "Sps.ServeProps.C76_playing",
    "Sps.ServeProps.C76_played",
    "Sps.ServeProps.C76_defined"
   ],
   "note": "Every execution of any number of connections, for HTTP-FLV players."
  },
  {
   "property": "C77",
   "status": "proved",
   "theorems": [
    "Sps.ServeProps.C77_published",
    "Sps.ServeProps.C77_complete",
    "Sps.ServeProps.C77_end_to_end"
   ],
   "note": "Every execution; uploads in FLV in any HTTP framing and fragmentation, complete or cut off where the connection is lost; HTTP-FLV players; other formats are covered by their own theorems."
  },
  {
   "property": "C78",
   "status": "proved",
   "theorems": [
    "Sps.SourceProps.C78_bytes",
    "Sps.SourceProps.C78_packets"
   ],
   "note": "Both sides, every framing and fragmentation."
  },
  {
   "property": "C79",
   "status": "partial",
   "theorems": [
    "Sps.SourceProps.C79_lost_partial",
    "Sps.SourceProps.C79_socket",
    "Sps.SourceProps.C79_negation_crlf",
    "Sps.SourceProps.C79_negation_client"
   ],
   "note": "Proved without HTTP, until close, with a length, and in chunks for uploads lost in a size line or in the data of a chunk; lost in the line end behind a chunk, and the client's chunks: negations."
  },
  {
   "property": "C80",
   "status": "partial",
   "theorems": [
    "Sps.Names.C80_rtmp",
    "Sps.Names.C80_http",
    "Sps.Names.C80_srt",
    "Sps.Names.C80_distinct",
    "Sps.Names.C80_player_partial",
    "Sps.Names.C80_negation_app_query",
    "Sps.Names.C80_negation_host_case"
   ],
   "note": "names proved equal for all three protocols and distinct for distinct streams, for every URL parser that finds the parts of a URL (a parser is given and proved to); attaching an HTTP player to the publisher or the pull as in C15 and C16; negations: query in the application URL, host field not spelled Host"
  },
  {
   "property": "C81",
   "status": "proved",
   "theorems": [
    "Sps.Shared.C81_sequence",
    "Sps.Shared.C81_interleaved",
    "Sps.Shared.C81_progress",
    "Sps.Shared.C81_without_switch",
    "Sps.Shared.C81_without_switch_large"
   ],
   "note": "Any packet; players one after another (C81_sequence) and with their pieces in any order (C81_interleaved, C81_progress). Rests on the contract of m_pktReadonly of the librtmp fork, whose source is not in the repository; C81_without_switch and C81_without_switch_large say what stock librtmp would do."
  },
  {
   "property": "C82",
   "status": "proved",
   "theorems": [
    "Sps.Shared.C82_inside",
    "Sps.Shared.C82_without_switch",
    "Sps.Shared.C82_without_switch_video"
   ],
   "note": "Any packet and time. Rests on the contract of m_pktReadonly; C82_without_switch says when stock librtmp would stay inside the packet."
  },
  {
   "property": "C83",
   "status": "proved",
   "theorems": [
    "Sps.Tls.C83_like_tcp",
    "Sps.Tls.C83_read",
    "Sps.Tls.C83_flv"
   ],
   "note": "The record layer of OpenSSL is a parameter that must be lawful (more ciphertext never takes back plaintext; SSL_read returns at least one byte when there is one). C83_like_tcp covers every program that reads; C83_flv is the FLV demuxer. C57_negation_tls: read_fully of the TLS class itself overwrites the start of the buffer; it is not the one the wrapping socket uses."
  },
  {
   "property": "C84",
   "status": "proved",
   "theorems": [
    "Sps.Tls.C84_write"
   ],
   "note": "Sealing is a parameter; non-empty buffers."
  },
  {
   "property": "C85",
   "status": "partial",
   "theorems": [
    "Sps.Tls.C85_accept_partial",
    "Sps.Tls.C85_negation_early",
    "Sps.Tls.C85_connect",
    "Sps.Tls.C85_sound"
   ],
   "note": "Neither side reports success before its handshake is finished (C85_sound). Proved for servers whose client waits for the last flight, and for clients fully. Data that arrives in the same read as the client's last flight is dropped (C85_negation_early, for all such data)."
  },
  {
   "property": "C86",
   "status": "partial",
   "theorems": [
    "Sps.Tls.C86_all_partial",
    "Sps.Tls.C86_negation_stalls"
   ],
   "note": "Proved when every handshake ends. The handshake runs inside the accept loop without a time limit, so a silent client blocks all later ones (C86_negation_stalls)."
  },
  {
   "property": "C87",
   "status": "partial",
   "theorems": [
    "Sps.Tls.C87_named_partial",
    "Sps.Tls.C87_negation_own"
   ],
   "note": "Proved for clients that name a host. The server's own certificate is never used (C87_negation_own)."
  },
  {
   "property": "C88",
   "status": "partial",
   "theorems": [
    "Sps.Accept.C88_lifetime_partial",
    "Sps.Accept.C88_progress_partial",
    "Sps.Accept.C88_negation_fails"
   ],
   "note": "Proved while accept does not fail. A failed accept dereferences a null pointer (C88_negation_fails)."
  },
  {
   "property": "C89",
   "status": "partial",
   "theorems": [
    "Sps.EdgeLive.C89_negation_garbage",
    "Sps.RelayProps.C89_feeds",
    "Sps.RelayProps.C89_crashes",
    "Sps.RelayProps.C89_safe_partial",
    "Sps.RelayProps.C89_negation_https",
    "Sps.RelayProps.C89_negation_extension",
    "Sps.RelayProps.C89_negation_rtmp"
   ],
   "note": "Exact conditions for feeding and crashing for every URL and answer; safe for http URLs with a known extension and answers that http_parser takes something of. Missing (negations): unknown extension, RTMP pulls, https, and answers that are not HTTP (C89_negation_garbage)."
  },
  {
   "property": "C90",
   "status": "proved",
   "theorems": [
    "Sps.RelayProps.C90_asks",
    "Sps.RelayProps.C90_opens",
    "Sps.RelayProps.C90_relayed",
    "Sps.RelayProps.C90_complete",
    "Sps.RelayProps.C90_end_to_end",
    "Sps.PullHttp.C90_http_server",
    "Sps.PullHttp.C90_http_packets"
   ],
   "note": "Every execution; FLV pulls in any framing and fragmentation, answered by any HTTP server with or without Content-Length or chunked, or cut off inside a body that is not chunked (C90_http_server, C90_http_packets); HTTP-FLV players."
  },
  {
   "property": "C91",
   "status": "partial",
   "theorems": [
    "Sps.RtmpServe.C91_published",
    "Sps.RtmpServe.C91_complete",
    "Sps.RtmpServe.C91_defined_partial",
    "Sps.RtmpServe.C91_negation_crash"
   ],
   "note": "Every execution and message sequence; the crash-freedom part excludes one-byte audio messages, for which C91_negation_crash shows that it fails."
  },
  {
   "property": "C92",
   "status": "partial",
   "theorems": [
    "Sps.RtmpServe.C92_played_partial",
    "Sps.RtmpServe.C92_defined",
    "Sps.RtmpServe.C92_negation_offset"
   ],
   "note": "Every execution, for packets RTMP can carry; playing never crashes (C92_defined). Offsets other than 0 to 15 excluded, with a negation."
  },
  {
   "property": "C93",
   "status": "partial",
   "theorems": [
    "Sps.RtmpServe.C93_end_to_end_partial",
    "Sps.RtmpServe.C93_exact_partial"
   ],
   "note": "Every execution; exact for composition offsets 0 to 15."
  },
  {
   "property": "C94",
   "status": "partial",
   "theorems": [
    "Sps.RtmpServe.C94_rtmp_to_http",
    "Sps.RtmpServe.C94_http_to_rtmp_partial",
    "Sps.RtmpServe.C94_pull_to_rtmp_partial",
    "Sps.RtmpServe.C94_negation_pull"
   ],
   "note": "RTMP to HTTP fully; HTTP and upstream to RTMP up to composition offsets; RTMP pulls crash (C94_negation_pull)."
  },
  {
   "property": "C95",
   "status": "partial",
   "theorems": [
    "Sps.SrtServe.C95_published_partial",
    "Sps.SrtServe.C95_end_to_end_partial",
    "Sps.SrtServe.C95_own_stream",
    "Sps.SrtServe.C95_refused",
    "Sps.SrtServe.C95_player_defined",
    "Sps.SrtServe.C95_negation_dropped",
    "Sps.SrtServe.C95_negation_history",
    "Sps.SrtServe.C95_negation_resync"
   ],
   "note": "Proved for every byte stream (whose tables do not map pid 0), every interleaving and every join time: which packets are passed on, what a player is sent (an initial part, all when nothing is pending), own stream, refusals, playing never crashes; Relayed is proved deterministic. Missing, with witnesses: null, unannounced and clock-only packets are dropped, the start of a late player is everything since the publisher began, one bad block ends the stream."
  },
  {
   "property": "C96",
   "status": "partial",
   "theorems": [
    "Sps.SrtServe.C96_published_partial",
    "Sps.SrtServe.C96_any",
    "Sps.SrtServe.C96_units_partial",
    "Sps.SrtServe.C96_negation_crash",
    "Sps.SrtServe.C96_negation_last"
   ],
   "note": "Proved: the published frames are those of the completed units, all of them when the publisher has stopped, and the completed units of an announced stream with counters in sequence are those its packets carry; for units of any content in C96_any (under 512 MiB each). Missing, with witnesses: two crafted packets crash the server; the last unit is lost."
  },
  {
   "property": "C97",
   "status": "partial",
   "theorems": [
    "Sps.SrtServe.C97_srt_to_http_partial",
    "Sps.SrtServe.C97_srt_to_rtmp_partial",
    "Sps.SrtServe.C97_srt_units_to_rtmp_partial",
    "Sps.SrtServe.C97_srt_any_to_rtmp_partial",
    "Sps.SrtServe.C97_negation_sei"
   ],
   "note": "Proved: HTTP and RTMP players are sent the start-up frames and what follows, in order and once each. For RTMP the units must be of the supported kinds: a condition on the publisher's transport stream (C97_srt_units_to_rtmp_partial for well-formed units, C97_srt_any_to_rtmp_partial for units of any content below 512 MiB: no SEI, display times less than 2^23 ms from decoding times). Negation: SEI units are written as command frames (C97_negation_sei)."
  },
  {
   "property": "C98",
   "status": "partial",
   "theorems": [
    "Sps.Isolation.C98_isolated_partial",
    "Sps.Isolation.C98_schedules_partial",
    "Sps.Isolation.C98_negation_crash",
    "Sps.Isolation.C98_negation_queue"
   ],
   "note": "Noninterference: an execution and the same execution without the turns of one player agree for everyone else (simulation, Lemmas/Twin). Missing: the case that the player crashes the server (C98_negation_crash); the pending packets of a hanging player are unbounded (C98_negation_queue)."
  },
  {
   "property": "C99",
   "status": "partial",
   "theorems": [
    "Sps.HttpConn.C99_answers_partial",
    "Sps.HttpConn.C99_ends_partial",
    "Sps.HttpConn.C99_negation_crash",
    "Sps.HttpConn.C99_negation_replay",
    "Sps.HttpConn.C99_negation_body",
    "Sps.HttpConn.C99_negation_down",
    "Sps.HttpConn.C99_negation_upstream",
    "Sps.HttpConn.C99_negation_empty",
    "Sps.HttpConn.C99_negation_close",
    "Sps.HttpConn.C99_negation_long",
    "Sps.HttpConn.C99_negation_unframed"
   ],
   "note": "Proved for requests without a body whose fields say nothing about connection and framing, to unknown hosts and to proxied hosts whose upstream answers with a non-empty sized or a chunked body (C99_answers_partial); every connection ends for every input if http_parser takes a byte of every header (C99_ends_partial). False in full: a header the parser refuses at its first byte crashes the process or replays the request before; bodies are taken for requests; unreachable upstreams give no answer; refusals of the stream handler are unframed; Connection: close is ignored; headers over 2048 bytes are not answered. http_parser is a parameter (Reads), with an instance that meets it."
  },
  {
   "property": "C100",
   "status": "partial",
   "theorems": [
    "Sps.Sockets.C100_listen_partial",
    "Sps.Sockets.C100_udp",
    "Sps.Sockets.C100_connect",
    "Sps.Sockets.C100_negation_port",
    "Sps.Sockets.C100_negation_transport",
    "Sps.Sockets.C100_negation_second"
   ],
   "note": "Proved for every list of results of the system calls: C100_listen_partial (TCP, TLS, SRT), C100_udp, C100_connect (full). Missing, because the code does otherwise: ports above 65535 are cut to 16 bits (C100_negation_port), a transport that was not built in is a null call (C100_negation_transport), the second way to bind an SRT listener never works (C100_negation_second)."
  },
  {
   "property": "C101",
   "status": "partial",
   "theorems": [
    "Sps.RtmpMsgs.C101_answers_partial",
    "Sps.RtmpMsgs.C101_negation_undefined",
    "Sps.RtmpMsgs.C101_negation_fraction",
    "Sps.RtmpMsgs.C101_negation_status",
    "Sps.RtmpMsgs.C101_negation_connect",
    "Sps.RtmpMsgs.C101_negation_pong",
    "Sps.RtmpMsgs.C101_negation_room"
   ],
   "note": "C101_answers_partial: for every sequence of messages with one connect whose play/publish transaction number is an integer of int range, every answer fits its array, is read back by an independent AMF0/control reader and is exactly what is owed to each command, in order. Missing: other transaction numbers of play/publish, for which the code is undefined or answers another number, and further connects, which get no answer (negations proved)."
  },
  {
   "property": "C102",
   "status": "partial",
   "theorems": [
    "Sps.SiteFile.C102_starts_partial",
    "Sps.SiteFile.C102_http_partial",
    "Sps.SiteFile.C102_negation_port",
    "Sps.SiteFile.C102_negation_mixed",
    "Sps.SiteFile.C102_negation_override"
   ],
   "note": "For files with at most one http block, a port per server block, and distinct host names; over HTTP for hosts that are proxies. C102_negation_port: of two server blocks on one port the hosts of the second are not served; C102_negation_mixed: the same with an rtmp and an http block; C102_negation_override: a host with the name of a global one keeps the program from starting. Streaming hosts are C110."
  },
  {
   "property": "C103",
   "status": "partial",
   "theorems": [
    "Sps.Ffmpeg.C103_remux_partial",
    "Sps.Ffmpeg.C103_order_partial",
    "Sps.Ffmpeg.C103_negation_attachment",
    "Sps.Ffmpeg.C103_negation_exit",
    "Sps.Ffmpeg.C103_negation_ms",
    "Sps.Ffmpeg.C103_kinds_partial"
   ],
   "note": "Proved for inputs whose streams are all kept except some last ones and for packets whose times are not negative; what packets say they are: C103_kinds_partial (audio packets do not say that they are audio). C103_negation_attachment: an ignored stream before the media shifts the streams, or is undefined; C103_negation_exit: a packet without a decoding time or before zero ends the process, for every input; C103_negation_ms: the times of packets are in the units of the container, not in milliseconds."
  },
  {
   "property": "C104",
   "status": "partial",
   "theorems": [
    "Verif.C104_read_partial",
    "Verif.C104_write_partial",
    "Verif.C104_any_write",
    "Verif.C104_roundtrip",
    "Verif.C104_negation_stall",
    "Verif.C104_negation_cut",
    "Verif.C104_negation_standard"
   ],
   "note": "Proved for every sequence of messages and every sequence of read sizes that the bytes read are the beginning of the FLV file of the audio, video and script messages and within the size asked for, and with sizes from 13 that every read makes progress and the end comes exactly after the whole file (C104_read_partial); that writes of whole tags send exactly the tags' messages (C104_write_partial); what any write does, whole tags or not, accepted or refused (C104_any_write); and the way through both (C104_roundtrip). Missing because the code violates it: reads of up to three bytes may stop for ever (C104_negation_stall), a write that ends inside a tag fails (C104_negation_cut), stream numbers and AMF3 data in tags (C104_negation_standard). A media message without body gives no tag. Sizes are below 2^31; librtmp's failures without an error of the transport are messages without body."
  },
  {
   "property": "C105",
   "status": "partial",
   "theorems": [
    "Sps.RtmpConn.C105_admission_partial",
    "Sps.RtmpConn.C105_rtmp_partial",
    "Sps.RtmpConn.C105_http_partial",
    "Sps.RtmpConn.C105_absent_partial",
    "Sps.RtmpConn.C105_publisher_partial"
   ],
   "note": "Missing: after the negotiation the program replaces the RTMP object, so that media are read in chunks of 128 bytes whatever size the publisher has announced (C63_negation_chunk_size), and the theorems speak of what is read that way; pulls of the stream keep apart from its publishers (C14). The answers are those of C101 (integer transaction numbers, one connect). RTMP players: composition times as in C92."
  },
  {
   "property": "C106",
   "status": "partial",
   "theorems": [
    "Sps.HttpLive.C106_phases",
    "Sps.HttpLive.C106_admission_partial",
    "Sps.HttpLive.C106_player_partial",
    "Sps.HttpLive.C106_absent_partial",
    "Sps.HttpLive.C106_publisher_partial",
    "Sps.HttpLive.C106_published_partial",
    "Sps.HttpLive.C106_rtmp_player_partial"
   ],
   "note": "Missing: field names are recognised in the spelling Host, Content-Length, Transfer-Encoding only (C46_case), headers are at most 2048 bytes (C42), pulls of the stream keep apart from its publishers (C14) and are prompt (C16); a publisher gets no response (C75_negation_post); extensions other than flv: C75, C76."
  },
  {
   "property": "C107",
   "status": "partial",
   "theorems": [
    "Sps.SrtLive.C107_admission_partial",
    "Sps.SrtLive.C107_negation_mode",
    "Sps.SrtLive.C107_publisher_partial",
    "Sps.SrtLive.C107_published_partial",
    "Sps.SrtLive.C107_player_partial",
    "Sps.SrtLive.C107_absent_partial",
    "Sps.SrtLive.C107_http_player_partial"
   ],
   "note": "Missing: the code ignores what follows the last comma of an id, so a client with the usual id h=...,m=request becomes a publisher (C107_negation_mode); resources with srt:// (C55_negation_schema); pulls of the stream keep apart from its publishers (C14), and nobody has published the key of its raw copy by name (C15, C16); tables that give pid 0 to a program map (C95); units of other shape than NAL units and ADTS frames (C96_any for their packets)."
  },
  {
   "property": "C108",
   "status": "partial",
   "theorems": [
    "Sps.EdgeLive.C108_begins",
    "Sps.EdgeLive.C108_asks",
    "Sps.EdgeLive.C108_admitted",
    "Sps.EdgeLive.C108_relayed_partial",
    "Sps.EdgeLive.C108_complete_partial",
    "Sps.EdgeLive.C108_player_partial",
    "Sps.EdgeLive.C108_opens"
   ],
   "note": "Missing: pulls of the stream that get in the way of its publishers at the server asked (C14, C16); RTMP pulls (they crash, C89)."
  },
  {
   "property": "C109",
   "status": "partial",
   "theorems": [
    "Sps.C109_bytes",
    "Sps.C109_datagram",
    "Sps.C109_port_partial",
    "Sps.C109_negation_peer",
    "Sps.C109_negation_session"
   ],
   "note": "All of it except for the address of the destination: C109_negation_peer, C109_negation_session."
  },
  {
   "property": "C110",
   "status": "partial",
   "theorems": [
    "Sps.SiteLive.C110_rtmp_publisher_partial",
    "Sps.SiteLive.C110_http_publisher_partial",
    "Sps.SiteLive.C110_http_player_partial",
    "Sps.SiteLive.C110_rtmp_player_partial",
    "Sps.SiteLive.C110_rtmp_absent_partial",
    "Sps.SiteLive.C110_srt_publisher_partial",
    "Sps.SiteLive.C110_srt_player_partial",
    "Sps.SiteLive.C110_srt_absent_partial",
    "Sps.SiteLive.C110_edge_partial"
   ],
   "note": "For files that are sound as in C102 and up to the limits of C105-C108 (among them: pulls of the stream keep apart from its publishers). Players of absent streams: a 404 over HTTP, turned away over RTMP and SRT without a word (C110_rtmp_absent_partial, C110_srt_absent_partial; over RTMP the answers to the commands have said that the stream starts). Over SRT the settings of the block are not looked at: everyone may publish (C74_negation_srt)."
  },
  {
   "property": "C111",
   "status": "partial",
   "theorems": [
    "Sps.EdgeChain.C111_relayed_partial",
    "Sps.EdgeChain.C111_complete_partial",
    "Sps.EdgeChain.C111_player_partial",
    "Sps.EdgeChain.C111_kept",
    "Sps.EdgeChain.C111_negation_sei"
   ],
   "note": "Proved for streams whose packets FLV keeps as far as the cache looks at them (kept), which holds for all RTMP and HTTP publishers (C111_kept). Negation: supplemental information units of SRT publishers. As in C108: HTTP between the servers, FLV."
  },
  {
   "property": "C112",
   "status": "partial",
   "theorems": [
    "Sps.DecodeProps.C112_startup_partial",
    "Sps.DecodeProps.C112_http_player_partial",
    "Sps.DecodeProps.C112_rtmp_player_partial",
    "Sps.DecodeProps.C112_negation_command",
    "Sps.DecodeProps.C112_negation_change"
   ],
   "note": "Proved for streams without video command frames, for joins at which no configuration has come since the last key frame. Negations: command frames; a join between a new configuration and its key frame."
  },
  {
   "property": "C113",
   "status": "partial",
   "theorems": [
    "Sps.Log.C113_negotiation_partial",
    "Sps.Log.C113_negotiation_same",
    "Sps.Log.C113_negation_type",
    "Sps.Log.C113_rtmp_lines_partial",
    "Sps.Log.C113_exact",
    "Sps.Log.C113_printed_partial",
    "Sps.Log.C113_http_partial",
    "Sps.Log.C113_negation_http",
    "Sps.Log.C113_rtmp_partial",
    "Sps.Log.C113_negation_rtmp",
    "Sps.Log.C113_srt_partial",
    "Sps.Log.C113_negation_srt"
   ],
   "note": "The composed line is used as a format once more, so what clients send is taken for conversions. Exactly what is printed (C113_exact, every message): with every % doubled, half of them; with a % that is not doubled, undefined behaviour. Proved for clients without a % in target, URL or stream id (C113_http_partial, C113_rtmp_partial, C113_srt_partial), for every RTMP negotiation that names streams and ways of publishing without % (C113_negotiation_partial), and for both lines of an RTMP connection (C113_rtmp_lines_partial). Where an RTMP negotiation with its lines ends, it ends as without (C113_negotiation_same). The negations show that every request whose target has an escaped character, every RTMP URL or SRT stream id with a % that is not doubled, and every RTMP publish whose way of publishing has one, runs into undefined behaviour. Crash-freedom claims of other properties are about the program without its log lines. Missing: requests with %, where the claim is false; the lines about errors."
  },
  {
   "property": "C114",
   "status": "partial",
   "theorems": [
    "Sps.Time.C114_configured",
    "Sps.Time.C114_read",
    "Sps.Time.C114_in_time",
    "Sps.Time.C114_write",
    "Sps.Time.C114_write_stalled",
    "Sps.Time.C114_players",
    "Sps.Time.C114_no_limit",
    "Sps.Time.C114_negation_upstream",
    "Sps.Time.C114_upstream_tls"
   ],
   "note": "Accepted connections and players: proved in full (C114_configured, C114_read, C114_in_time, C114_write, C114_write_stalled, C114_players). Partial because the code violates the last sentence: connections to upstreams without TLS have no limit whatever is configured (C114_negation_upstream); with TLS they have one (C114_upstream_tls)."
  },
  {
   "property": "C115",
   "status": "proved",
   "theorems": [
    "Sps.EndsProps.C115_publisher",
    "Sps.EndsProps.C115_http_bound",
    "Sps.EndsProps.C115_rtmp_bound",
    "Sps.EndsProps.C115_over",
    "Sps.EndsProps.C115_players",
    "Sps.EndsProps.C115_http_complete",
    "Sps.EndsProps.C115_rtmp_complete",
    "Sps.EndsProps.C115_srt_complete"
   ],
   "note": "Publishers over HTTP with an FLV body, RTMP, and SRT with a transport stream; players over HTTP (FLV), RTMP and SRT. A turn is one pass of a handler's loop; a player's turn with nothing pending is the end of its time limit (C114). An SRT connection is taken to report its end by an error code. Other formats (which the handlers only reach through ffmpeg, not part of the build) are not covered."
  },
  {
   "property": "C116",
   "status": "proved",
   "theorems": [
    "Sps.SafeProps.C116_turn",
    "Sps.SafeProps.C116_blame",
    "Sps.SafeProps.C116_defined"
   ],
   "note": "Every execution of requests that meet conditions on them alone (Spec/Safe). The conditions are needed: C75_negation_crash, C98_negation_crash. Undefined behaviour inside the negotiation before a request is served is the subject of C46, C58, C60, C101."
  },
  {
   "property": "C117",
   "status": "partial",
   "theorems": [
    "Sps.CoIdsProps.C117_numbers_partial",
    "Sps.CoIdsProps.C117_negation_overflow"
   ],
   "note": "Missing: after 2^31 - 1 coroutines the counter, an int, overflows (C117_negation_overflow)."
  },
  {
   "property": "C118",
   "status": "partial",
   "theorems": [
    "Sps.AddrProps.C118_readable",
    "Sps.AddrProps.C118_tcp",
    "Sps.AddrProps.C118_srt_partial",
    "Sps.AddrProps.C118_waits_partial",
    "Sps.AddrProps.C118_negation_port",
    "Sps.AddrProps.C118_negation_failed"
   ],
   "note": "Proved for every address and port over TCP and TLS, with the notation shown to be readable. Over SRT the address is right but the two bytes of the port are exchanged (proved wrong unless they are equal), and a failed accept makes a connection from an address that was never written: negations."
  },
  {
   "property": "C119",
   "status": "partial",
   "theorems": [
    "Sps.HttpCase.C119_fields_partial",
    "Sps.HttpCase.C119_negation_field",
    "Sps.HttpCase.C119_negation_name"
   ],
   "note": "Proved for fields in any number and order, with names in any case except that of Host (C119_fields_partial). Missing, with witnesses: the field host in small letters (C119_negation_field), capitals in the name of the host (C119_negation_name)."
  },
  {
   "property": "C120",
   "status": "partial",
   "theorems": [
    "Sps.Log.C120_http_partial",
    "Sps.Log.C120_negation_long",
    "Sps.Log.C120_rtmp_partial",
    "Sps.Log.C120_srt_partial",
    "Sps.Log.C120_negation_srt"
   ],
   "note": "C120_http_partial: a request without % in its target whose header has at most 1500 bytes makes one line, however its bytes arrive. C120_rtmp_partial: an RTMP client whose URL has no % and at most 3000 bytes makes one line. C120_srt_partial: an SRT client whose stream id has neither % nor a line feed makes one line. Missing because false: a stream id with a line feed is printed as it is, so the client writes lines of its choice and is treated as any other (C120_negation_srt, every such id); a request whose target and query have 4022 bytes together is cut at 4095 bytes and has no end of line (C120_negation_long); a single % is undefined (C113)."
  },
  {
   "property": "C121",
   "status": "partial",
   "theorems": [
    "Sps.KeptProps.C121_kept",
    "Sps.KeptProps.C121_bound_partial",
    "Sps.KeptProps.C121_waiting",
    "Sps.KeptProps.C121_negation_raw",
    "Sps.KeptProps.C121_negation_long",
    "Sps.KeptProps.C121_server",
    "Sps.KeptProps.C121_server_bound_partial",
    "Sps.KeptProps.C121_negation_srt"
   ],
   "note": "C121_kept, C121_server: in every execution what is kept of a stream is exactly the start-up packets. C121_bound_partial, C121_server_bound_partial: at most n + 3 packets if of any n media packets one is a key frame. C121_waiting: what waits for a player that has read was published since. Missing because false: the raw copy of an SRT stream keeps every packet but the tables, from the first on (C121_negation_raw, C121_negation_srt: in every execution, for every SRT publisher); there is no bound for streams without further key frames and for players that do not read (C121_negation_long)."
  },
  {
   "property": "C122",
   "status": "partial",
   "theorems": [
    "Sps.RtpCodecProps.C122_h264",
    "Sps.RtpCodecProps.C122_read",
    "Sps.RtpCodecProps.C122_reports",
    "Sps.RtpCodecProps.C122_negation_aac",
    "Sps.RtpCodecProps.C122_refused",
    "Sps.RtpCodecProps.C122_aac_partial",
    "Sps.RtpCodecProps.C122_none",
    "Sps.RtpCodecProps.C122_units"
   ],
   "note": "C122_h264, C122_read, C122_units: H.264 in full, end to end from the datagrams to read_packet (units up to a megabyte in datagrams without padding and extension; clock and fresh memory arbitrary). C122_reports, C122_refused. C122_none: without a codec the demuxer is that of C66. C122_aac_partial: AAC units are exact if the caller ignores the error. Missing because false: init_codec for AAC reports an error, as its case has no break (C122_negation_aac, every demuxer)."
  },
  {
   "property": "C123",
   "status": "partial",
   "theorems": [
    "Sps.Main.C123_status",
    "Sps.Main.C123_serving",
    "Sps.Main.C123_starts_partial",
    "Sps.Main.C123_why",
    "Sps.Main.C123_negation_readonly",
    "Sps.Main.C123_negation_crash",
    "Sps.Main.C123_negation_name"
   ],
   "note": "C123_status: for every command line, file system, configuration and answer of the operating system the program serves, ends with a status from 1 to 255, or is undefined; C123_why: which status it is; C123_serving: serving means the file was opened and read and every server block's port is listened on. C123_starts_partial: sound configurations (C102) in a file that may be read and written serve. False of the code: a file that may only be read is refused (C123_negation_readonly), so is one whose name is no URL (C123_negation_name), and two http blocks are undefined behaviour (C123_negation_crash). In the model exit() always gives 255 (the code: 255, or 1 for unknown blocks)."
  },
  {
   "property": "C124",
   "status": "partial",
   "theorems": [
    "Sps.RtmpSkt.C124_bytes",
    "Sps.RtmpSkt.C124_failure_partial",
    "Sps.RtmpSkt.C124_handshake",
    "Sps.RtmpSkt.C124_negation_close"
   ],
   "note": "C124_bytes and C124_handshake: in full, for every library and transport. C124_failure_partial: failures are reported with their error when the library's last call is the one that failed. Otherwise they may be reported as success, without a message (C124_negation_close: a library that sends something after the failed read, as stock librtmp does when it closes a stream it plays)."
  },
  {
   "property": "C125",
   "status": "partial",
   "theorems": [
    "Sps.RtmpBody.C125_once",
    "Sps.RtmpBody.C125_lost",
    "Sps.RtmpBody.C125_back_partial",
    "Sps.RtmpBody.C125_negation_first"
   ],
   "note": "C125_once: over every program of operations on packets no body is freed twice or used after being freed, and lent memory stays. C125_lost: the memory in use at any time is that of the start, the bodies of the packets there are, and exactly one body for every failure in the first chunk of a message. C125_back_partial: nothing is left when all packets are gone, if the library never fails in the first chunk of a message. C125_negation_first: such a failure loses the body. What the library leaves in a packet on failure is an assumption about librtmp (four outcomes)."
  },
  {
   "property": "C126",
   "status": "proved",
   "theorems": [
    "Sps.RtmpChunk.C126_read",
    "Sps.RtmpChunk.C126_client"
   ],
   "note": "C126_read: a reader that follows the announcements reads back every sequence of messages. C126_client: the same for what the server sends to a client, where the chunk size stays 128. How librtmp writes headers is not modelled: headers of messages and of further chunks are symbols."
  },
  {
   "property": "C127",
   "status": "partial",
   "theorems": [
    "Sps.RtmpChunk.C127_received_partial",
    "Sps.RtmpChunk.C127_negation_lost",
    "Sps.RtmpChunk.C127_negation_zero"
   ],
   "note": "C127_received_partial: the object that receives all messages gets them, in the order of completion, with chunks of messages on different channels mixed in any way, and expects the size the client uses. Missing: a change of object. C127_negation_lost: an announcement made before the stream starts is lost with the object, so that the next message longer than 128 bytes is not received. C127_negation_zero: announcements of 0 and of 2^31 are taken. Headers are symbols, as in C126."
  },
  {
   "property": "C128",
   "status": "partial",
   "theorems": [
    "Sps.RtmpSkt.C128_order",
    "Sps.RtmpSkt.C128_seen_partial",
    "Sps.RtmpSkt.C128_negation_pipelined"
   ],
   "note": "C128_order: no byte is seen twice or out of order, and what the negotiation did not get is seen, for every program of the library. C128_seen_partial: a client that sends its stream after the answer loses nothing, if the library reads only when it needs something. C128_negation_pipelined: bytes that arrive together with the last command are lost with the first object, which the negotiation used."
  },
  {
   "property": "C129",
   "status": "partial",
   "theorems": [
    "Sps.HttpFields.C129_exact",
    "Sps.HttpFields.C129_fields_partial",
    "Sps.HttpFields.C129_negation_folded"
   ],
   "note": "C129_exact: what every list of fields gives, folded or not. C129_fields_partial: in full for fields whose values have one line. Missing because false: a value in several lines becomes several fields of that name, and asking for it gives the first line (C129_negation_folded, every such field). What http_parser calls back for a field (its name, then every line of its value) is assumed."
  }
 ]
}