{"id": "C01", "title": "Bit reader returns the next n bits, most significant first", "statement": "On a bit context over any buffer, a sequence of bit reads that stays inside the buffer returns, one after the other, the big-endian values of consecutive bit groups of the buffer, wherever the byte boundaries fall; each read of n bits lowers the number of remaining bits by exactly n.", "quantifier": "every buffer, every sequence of read widths (up to 32 bits each), every starting alignment", "why_tests_cant": "the number of alignment/width/content combinations is unbounded; a shift or mask error shows only at particular alignments", "anchors": ["src/io/sps_io_bits.cpp: BitContext::read_bits, next, size_bits"]}
{"id": "C02", "title": "A successful acquire guarantees the following reads stay in the buffer", "statement": "If acquire(n bytes) on a bit context returns success then any later reads of at most n bytes in total touch only bytes of the buffer; if it returns an error no byte is consumed. (The real code violates this for n of 2^29 and more, because the byte count is multiplied by 8 in 32 bits.)", "quantifier": "every buffer, position and requested size", "why_tests_cant": "a memory-safety guarantee over all sizes, including sizes no test buffer can have", "anchors": ["src/io/sps_io_bits.cpp: BitContext::acquire, acquire_bits, read_bits, read_bytes, skip_read_bytes"]}
{"id": "C03", "title": "Bits written are the bits read back", "statement": "Writing any sequence of values with any widths through the bit writer and reading it back with the same widths returns the same values (modulo 2^width), and bytes outside the written range are unchanged. (The real code violates this when some write leaves a 6-bit remainder for a byte: the mask for 6 bits is wrong.)", "quantifier": "every sequence of (value, width) writes, every buffer", "why_tests_cant": "round trip over all values and alignments; only one mask out of eight is wrong", "anchors": ["src/io/sps_io_bits.cpp: BitContext::write_bits, next_write, read_bits"]}
{"id": "C04", "title": "Integers are written and read in network byte order and round-trip", "statement": "write_int8/16/24/32 followed by read_int8/16/24/32 of the same width returns the value truncated to that width, the bytes in between are the big-endian representation, and nothing else in the buffer changes.", "quantifier": "every value, width and sequence of writes", "why_tests_cant": "all 2^32 values and all interleavings of widths", "anchors": ["src/io/sps_io_bytes.cpp: BytesWriter::write_int8, write_int16, write_int24, write_int32, write_bytes; BytesReader::read_int8, read_int16, read_int24, read_int32, read_bytes"]}
{"id": "C05", "title": "Buffered reading is transparent to how the transport fragments the data", "statement": "For every way the transport splits a byte stream into reads and for every sequence of acquire/read/skip calls in which reads are covered by an acquire, the bytes the caller gets are exactly the bytes of the stream, in order, none lost, repeated or changed, including across internal rewinds of the buffer.", "quantifier": "every stream, every fragmentation schedule, every call history, every buffer capacity", "why_tests_cant": "fragmentation depends on the network; the schedules are unbounded", "anchors": ["src/io/sps_io_bytes.cpp: BytesReader::acquire, read_bytes, skip_bytes; AVBuffer::rewind, skip, append"]}
{"id": "C06", "title": "acquire keeps the buffer inside its bounds and honours its contract", "statement": "acquire(n) either makes n bytes available, or reports that the buffer can never hold n bytes without performing I/O, or reports end of input/transport error; on every path the buffer never holds more bytes than its capacity and no buffered byte is lost.", "quantifier": "every state reachable by any history, every n, every transport behaviour", "why_tests_cant": "invariant over unbounded histories and adversarial transports", "anchors": ["src/io/sps_io_bytes.cpp: BytesReader::acquire; AVBuffer::size, cap_size, no_rewind_cap_size, remain"]}
{"id": "C07", "title": "The memory reader delivers the buffer once, in order, then end of file", "statement": "For every sequence of read sizes the bytes returned by the in-memory reader concatenate to a prefix of the buffer; end-of-file is returned exactly when the buffer is exhausted; read_fully either returns exactly the requested bytes or consumes nothing.", "quantifier": "every buffer and every sequence of read / read_fully calls", "why_tests_cant": "all histories of mixed calls", "anchors": ["src/io/sps_io_memory.cpp: MemoryReaderWriter::read, read_fully"]}
{"id": "C08", "title": "read_line splits a text into its lines", "statement": "Reading lines until end of file from the in-memory reader or a file returns the lines of the text, each without its newline. (The in-memory reader violates this for a newline that is the last byte of the buffer: it is kept in the line.)", "quantifier": "every text", "why_tests_cant": "all texts; the exception is at the very end only", "anchors": ["src/io/sps_io_memory.cpp: MemoryReaderWriter::read_line", "src/io/url/sps_io_url_file.cpp: FileURLProtocol::read_line"]}
{"id": "C09", "title": "Consecutive in-memory writes append", "statement": "Bytes written by consecutive write calls to the in-memory writer appear one after another in the buffer. (Violated: the write position is never advanced, so each write overwrites the previous one; a single write and the size check behave as stated.)", "quantifier": "every sequence of writes", "why_tests_cant": "history property", "anchors": ["src/io/sps_io_memory.cpp: MemoryReaderWriter::write"]}
{"id": "C10", "title": "Character buffers keep what is appended, in order, within capacity", "statement": "For every sequence of appends that fit, the content of a character buffer is the concatenation of the appended chunks and the remaining capacity shrinks by exactly the appended amount; an append that does not fit aborts. (With a non-zero reserved head area the write position ignores the head.)", "quantifier": "every sequence of appends, every capacity and head size", "why_tests_cant": "all histories and sizes", "anchors": ["src/cache/sps_cache_buffer.hpp: CharBuffer::append, skip, remain, pos, buffer, size"]}
{"id": "C11", "title": "A new player starts at the latest key frame with all headers", "statement": "After any history of packets published to a stream, a dump of the group-of-pictures cache yields the latest script packet, the latest audio header, the latest video header (each if one was ever published), then every media packet from the latest key frame on, in publication order, and nothing else; if no key frame was published, no media packet is yielded.", "quantifier": "every history of published packets", "why_tests_cant": "histories are unbounded; depends on the relative order of key frames, headers and ordinary packets", "anchors": ["src/avformat/sps_avformat_cache.cpp: AVGopCacheStream::put, AVGopCacheStream::dump", "src/avformat/sps_avformat_packet.cpp: AVPacket::is_keyframe, is_audio_sequence_header, is_video_sequence_header, is_script"]}
{"id": "C12", "title": "Every player receives every packet published after it joined, exactly once and in order", "statement": "For every interleaving of publishing, joining, reading and leaving, the concatenation of what a player has read plus what is pending for it equals the cached start-up packets at the time it joined followed by every packet published while it was joined, in publication order, without gap or duplicate; players do not influence each other.", "quantifier": "every interleaving of put, join, dump and cancel operations by any number of players", "why_tests_cant": "schedules of concurrent coroutines cannot be enumerated", "anchors": ["src/avformat/sps_avformat_cache.cpp: AVGopCacheStream::put, AVDumpCacheStream::dump", "src/sys/sps_sys_sync.hpp: Publisher, Subscriber", "src/cache/sps_cache.hpp: CacheStream, ICacheStream", "src/module/stream/sps_stream.cpp: StreamEncoder::encode"]}
{"id": "C13", "title": "A read of a player's queue removes exactly what it returns", "statement": "Dumping a queue with removal returns all pending packets in order and leaves it empty; dumping without removal returns them and leaves the queue unchanged; the returned count is the number of packets returned.", "quantifier": "every queue history", "why_tests_cant": "history property", "anchors": ["src/cache/sps_cache.hpp: CacheStream::put, dump, size", "src/avformat/sps_avformat_cache.cpp: AVDumpCacheStream::dump"]}
{"id": "C14", "title": "At most one publisher per stream key", "statement": "Under every interleaving of publish requests, player requests and disconnects, while a publisher for a stream key is active every other publish request for that key is refused and leaves the active stream untouched; after the publisher leaves, the key is free again.", "quantifier": "every interleaving of connections on any number of keys", "why_tests_cant": "scheduling races", "anchors": ["src/module/stream/sps_stream_cache.hpp: StreamCache", "src/module/stream/sps_stream_handler.cpp: StreamHandler::publish, play, get_cache_key", "src/util/sps_util_typedef.hpp: KeyRegisters"]}
{"id": "C15", "title": "Players of one key all share the publisher's stream; keys are isolated", "statement": "A player of key k is attached to the cache registered for k at that moment, packets published under one key never reach a player of another key, and different (host, application path) pairs give different keys unless the joined texts coincide.", "quantifier": "every interleaving, every pair of keys", "why_tests_cant": "isolation over all histories", "anchors": ["src/module/stream/sps_stream_handler.cpp: StreamHandler::get_cache_key, play", "src/module/stream/sps_stream_cache.hpp: StreamCache"]}
{"id": "C16", "title": "On-demand upstream pull: one puller per stream and clean release", "statement": "When several players request a stream that is not published here, exactly one upstream pull is started per key while it lasts, later players attach to the same cache, and when the pull ends its cache is removed so the next request starts a new one.", "quantifier": "every interleaving of player arrivals, pull success/failure and pull end", "why_tests_cant": "scheduling races", "anchors": ["src/module/stream/sps_stream_edge.cpp: StreamEdge, StreamEdgeEnter", "src/module/stream/sps_stream_handler.cpp: StreamHandler::play"]}
{"id": "C17", "title": "FLV mux then demux returns the same packets", "statement": "For every sequence of supported audio, video and script packets (non-empty payload, supported codec, tag body within the demuxer's 1 MiB buffer), muxing to FLV and demuxing the result returns the same sequence of packets: same type, flags, codec, packet type, payload, decode time (modulo 2^32) and composition offset (24-bit signed).", "quantifier": "every packet sequence, every payload, every timestamp in range", "why_tests_cant": "all payloads, timestamps and sequences", "anchors": ["src/avformat/sps_avformat_flvenc.cpp: FlvAVMuxer::write_header, write_packet", "src/avformat/sps_avformat_flvdec.cpp: FlvAVDemuxer::read_header, read_packet"]}
{"id": "C18", "title": "FLV output is a well-formed tag chain", "statement": "The muxer's output is the 9-byte file header followed by tags in which every previous-tag-size field equals 11 plus the payload size of the tag before it (0 for the first), every tag's size field equals its body length, and the 32-bit timestamp is split into low 24 and high 8 bits.", "quantifier": "every sequence of packets whose tag bodies fit the 24-bit size field, every filter setting, every placement of write failures", "why_tests_cant": "relation between consecutive outputs over unbounded histories", "anchors": ["src/avformat/sps_avformat_flvenc.cpp: FlvAVMuxer::write_header, write_packet"]}
{"id": "C19", "title": "FLV demuxing decides every tag as the format prescribes", "statement": "A complete tag is accepted exactly when its type is audio, video or script, its codec is supported and its body is long enough for the sub-header and non-empty; otherwise the specific error is returned. (The real code reads a sub-header of a too-short body from the bytes that follow.)", "quantifier": "every byte string", "why_tests_cant": "all malformed inputs", "anchors": ["src/avformat/sps_avformat_flvdec.cpp: FlvAVDemuxer::read_packet"]}
{"id": "C20", "title": "FLV demuxing does not depend on network fragmentation", "statement": "Demuxing the same byte stream under any two fragmentation schedules of the transport yields the same packets and the same final error.", "quantifier": "every stream and every pair of schedules", "why_tests_cant": "schedules unbounded", "anchors": ["src/avformat/sps_avformat_flvdec.cpp: FlvAVDemuxer::read_header, read_packet", "src/io/sps_io_bytes.cpp: BytesReader::acquire"]}
{"id": "C21", "title": "RTMP media messages round-trip", "statement": "A media packet converted to an RTMP message and back keeps type, flags, payload, timestamp and composition offset. (Violated for video with a non-zero composition offset: the encoder corrupts the three offset bytes.)", "quantifier": "every media packet", "why_tests_cant": "all payloads and offsets", "anchors": ["src/avformat/sps_avformat_rtmpenc.cpp: RtmpAVMuxer::write_packet", "src/avformat/sps_avformat_rtmpdec.cpp: RtmpAVDemuxer::read_packet"]}
{"id": "C22", "title": "RTMP acknowledgements follow the window", "statement": "For every sequence of received message sizes an acknowledgement is sent exactly when the bytes received since the last one reach the negotiated window, and it carries the total received so far; the window is 5,000,000 bytes until the peer sets another. (Violated after a ping, after a window set late, and from 2 GB on; the standard window message has no effect.)", "quantifier": "every history of message sizes and window updates", "why_tests_cant": "history property", "anchors": ["src/avformat/sps_avformat_librtmp.cpp: RtmpHook::ack, on_recv_packet"]}
{"id": "C23", "title": "RTMP command dispatch is by the first AMF string", "statement": "An invoke message is classified as connect, createStream, play, publish, releaseStream, FCPublish or other solely by its command name, is rejected when the arguments of that command are missing or of another type, and the result exposes exactly the fields of the message. (Violated for the publishing type of publish and for connect with a null object.)", "quantifier": "every AMF message", "why_tests_cant": "all messages", "anchors": ["src/avformat/sps_avformat_librtmp_packet.cpp: AmfRtmpPacket decoding"]}
{"id": "C24", "title": "Transport packet headers decode to the standard's fields", "statement": "For every 188-byte transport packet beginning with 0x47 the decoded error flag, unit-start flag, priority, pid, scrambling, adaptation control and continuity counter are the bit fields defined by ISO 13818-1; a packet with fewer than 188 bytes available or another first byte is rejected.", "quantifier": "all packets", "why_tests_cant": "2^24 header values times all contents", "anchors": ["src/avformat/sps_avformat_ts.cpp: TsPacket::decode"]}
{"id": "C25", "title": "Only packets of announced pids are delivered", "statement": "Starting from a fresh context only the PAT and SDT pids are known; after any packet history a pid is handled only if it is one of these or was announced by an earlier PAT or PMT; packets of other pids are ignored without error.", "quantifier": "every packet history", "why_tests_cant": "history property", "anchors": ["src/avformat/sps_avformat_ts.cpp: TsContext::TsContext, decode, get_program, add_program; TsPatProgram::psi_decode; TsPmtProgram::psi_decode"]}
{"id": "C26", "title": "The PAT announces exactly the listed programs", "statement": "For every well-formed PAT section the set of pids added is exactly the list of program-map pids in it, in order.", "quantifier": "every PAT section of any length", "why_tests_cant": "all lengths", "anchors": ["src/avformat/sps_avformat_ts.cpp: TsPsiProgram::decode, TsPatProgram::psi_decode"]}
{"id": "C27", "title": "The PMT announces exactly the supported elementary streams", "statement": "For every well-formed PMT section (any descriptors) the pids registered are exactly those of AAC, H.264 and H.265 entries not already known.", "quantifier": "every PMT section", "why_tests_cant": "all lengths", "anchors": ["src/avformat/sps_avformat_ts.cpp: TsPmtProgram::psi_decode"]}
{"id": "C28", "title": "PES payload is reassembled in order", "statement": "For every sequence of transport payload pieces of one pid with correct continuity counters, the elementary-stream data handed to the codec layer at the next unit start is the concatenation of the payload pieces of that unit, and its decode/presentation times are the 33-bit values in the PES header.", "quantifier": "every split of every unit into packets", "why_tests_cant": "unbounded splits", "anchors": ["src/avformat/sps_avformat_ts.cpp: TsPesProgram::decode, TsPesContext::dump, flush, on_payload_complete, init, reset"]}
{"id": "C29", "title": "A continuity gap is detected", "statement": "A packet of a known elementary pid whose continuity counter is not the successor of the last accepted one is rejected and contributes no byte. (After a single loss the real code keeps rejecting until the counter comes round again.)", "quantifier": "every counter history", "why_tests_cant": "history property", "anchors": ["src/avformat/sps_avformat_ts.cpp: TsPesProgram::decode"]}
{"id": "C30", "title": "PTS/DTS are the 33-bit values of the standard", "statement": "The presentation and decode time decoded from a PES header equal the 33-bit numbers encoded in the 5-byte fields, for all 2^33 values; without a DTS the DTS equals the PTS.", "quantifier": "all 2^33 timestamp values", "why_tests_cant": "value space", "anchors": ["src/avformat/sps_avformat_ts.cpp: TsPesProgram::decode"]}
{"id": "C31", "title": "TS input is processed in whole packets", "statement": "The demuxer accepts a buffer only when its size is a multiple of 188 and then processes each 188-byte packet once in order.", "quantifier": "every buffer", "why_tests_cant": "all sizes", "anchors": ["src/avformat/sps_avformat_tsdec.cpp: TsDemuxer::decode_packet"]}
{"id": "C32", "title": "RTP headers decode to the standard's fields", "statement": "For every RTP packet without extension the decoded version, padding, csrc count, marker, payload type, sequence number, timestamp, ssrc and payload are those of RFC 3550. (The extension length is taken as bytes instead of 32-bit words.)", "quantifier": "every packet", "why_tests_cant": "all header values", "anchors": ["src/avformat/sps_avformat_rtp.cpp: RtpHeader, RtpPayloadHeader decode"]}
{"id": "C33", "title": "Fragmented NAL units are reassembled", "statement": "For every NAL unit split in any way into FU fragments, feeding them in order produces exactly one NAL unit equal to the original; a missing start or a restart is reported.", "quantifier": "every NAL unit and every fragmentation", "why_tests_cant": "unbounded splits", "anchors": ["src/avformat/sps_avformat_rtpdec_h264_hevc.cpp: FuRtpDecoder::decode"]}
{"id": "C34", "title": "Aggregated NAL units are separated", "statement": "For every list of NAL units aggregated in one STAP packet, decoding yields the same list in order.", "quantifier": "every list of units", "why_tests_cant": "unbounded lists", "anchors": ["src/avformat/sps_avformat_rtpdec_h264_hevc.cpp: StapRtpDecoder::decode"]}
{"id": "C35", "title": "RTP H.264 payload dispatch follows the NAL type", "statement": "Types 1-23 are single units, 24-27 aggregates, 28-29 fragments; everything else is an error.", "quantifier": "all 256 first bytes", "why_tests_cant": "decision table, stated for all", "anchors": ["src/avformat/sps_avformat_rtpdec_h264_hevc.cpp: H264RtpDecoder::create_decoder"]}
{"id": "C36", "title": "Annex-B splitting returns the NAL units", "statement": "For every list of NAL units that contain no start code, separating them with 3- or 4-byte start codes and splitting returns the same list in order, and the parser never reads outside the buffer.", "quantifier": "every list of NAL units, every mix of start-code lengths", "why_tests_cant": "unbounded lists and contents", "anchors": ["src/avcodec/sps_avcodec_h264_parser.cpp: find_start_code, H264AVCodecParser::decode_data, AnnexbNALUCodecParser"]}
{"id": "C37", "title": "Length-prefixed NAL units round-trip", "statement": "NAL units emitted with 4-byte lengths can be split again into the same list, and the emitted frame is the concatenation of length-prefixed units in input order without parameter sets and delimiters.", "quantifier": "every list of units", "why_tests_cant": "unbounded", "anchors": ["src/avcodec/sps_avcodec_h264_parser.cpp: H264AVCodecParser::encode_avc"]}
{"id": "C38", "title": "The AVC sequence header carries exactly the current parameter sets", "statement": "Whenever a new SPS or PPS arrives the emitted AVCDecoderConfigurationRecord contains profile, compatibility and level bytes of the SPS, and exactly that SPS and PPS with their lengths; it is emitted before the frame that needs it.", "quantifier": "every history of parameter sets and slices", "why_tests_cant": "history property", "anchors": ["src/avcodec/sps_avcodec_h264_parser.cpp: H264AVCodecParser::encode_avc"]}
{"id": "C39", "title": "ADTS frames are split and stripped", "statement": "For every sequence of ADTS frames the parser emits the raw frames in order, each with exactly its header removed, and rejects a wrong sync word or a frame length beyond the buffer.", "quantifier": "every sequence of frames", "why_tests_cant": "unbounded", "anchors": ["src/avcodec/sps_avcodec_aac_parser.cpp: AdtsFixedHeader, AdtsVarHeader, AdtsHeader decode; AACCodecParser::encode_avc"]}
{"id": "C40", "title": "AudioSpecificConfig matches the ADTS header", "statement": "The emitted AAC sequence header encodes object type = profile + 1, the sampling-frequency index and the channel configuration of the ADTS header in the 5+4+4+3 bit layout.", "quantifier": "all header values", "why_tests_cant": "all field combinations", "anchors": ["src/avcodec/sps_avcodec_aac_parser.cpp: AACCodecParser::encode_avc"]}
{"id": "C41", "title": "Query parameters are split at & and =", "statement": "For every list of key/value pairs whose keys contain no '=' or '&' and values no '&', parsing the rendered query returns the same list, and looking up a key returns its first value or the empty string.", "quantifier": "every parameter list", "why_tests_cant": "all strings", "anchors": ["src/io/url/sps_io_url.cpp: RequestUrl::parse_url, get_params"]}
{"id": "C42", "title": "HTTP header reading never consumes body bytes", "statement": "For every byte stream, the header reader consumes no byte after the first CRLFCRLF, consumes at most the configured maximum, and for streams whose header uses CRLF line ends it stops exactly behind the first CRLFCRLF.", "quantifier": "every byte stream", "why_tests_cant": "all positions of the terminator relative to the 4/3/2/1-byte read pattern", "anchors": ["src/module/http/sps_http_parser.cpp: HttpParser::parse_header"]}
{"id": "C43", "title": "Chunked bodies round-trip", "statement": "For every sequence of non-empty writes to a chunked response followed by an empty write, reading the produced bytes with any sequence of buffer sizes and any transport fragmentation returns the concatenated data and then end of body. (A zero-length write in the middle ends the body.)", "quantifier": "every write sequence, every read-size sequence, every fragmentation", "why_tests_cant": "unbounded schedules", "anchors": ["src/module/http/sps_http_socket.cpp: HttpResponseSocket::write, HttpRequestSocket::read, read_chunked, read_chunked_length, read_chunked_data", "src/io/url/sps_io_url_http.cpp: HttpUrlProtocol::read, read_chunked"]}
{"id": "C44", "title": "Content-Length bodies deliver exactly the announced bytes", "statement": "For every announced length n > 0 and every fragmentation, the bytes returned by body reads are the first n bytes after the header, then end of body; bytes after them are not consumed.", "quantifier": "every length, fragmentation and read-size sequence", "why_tests_cant": "unbounded schedules", "anchors": ["src/io/url/sps_io_url_http.cpp: HttpUrlProtocol::read", "src/module/http/sps_http_socket.cpp: HttpRequestSocket::read"]}
{"id": "C45", "title": "Response header is sent once and before the body", "statement": "For every sequence of write calls the bytes on the wire are one response header followed by the encoded body; the header contains exactly one of Content-Length / chunked framing as configured.", "quantifier": "every write history", "why_tests_cant": "history property", "anchors": ["src/module/http/sps_http_socket.cpp: HttpResponseSocket::write_header, write, init"]}
{"id": "C46", "title": "Header lookup and erase act on the first match", "statement": "get_header returns the value of the first header with that name or the empty string; erase_header removes exactly that one; is_chunked and content length are derived from these values.", "quantifier": "every header list", "why_tests_cant": "all lists", "anchors": ["src/io/url/sps_io_url.cpp: RequestUrl::get_header, erase_header, is_chunked, get_content_length"]}
{"id": "C47", "title": "Proxying relays the body unchanged", "statement": "When the proxy handler relays an upstream response, the client decoding the relayed response obtains the same body bytes that the upstream sent, for any fragmentation on both sides.", "quantifier": "every body and fragmentation", "why_tests_cant": "unbounded schedules", "anchors": ["src/module/http/sps_http_proxy_phase_handler.cpp: HttpProxyPhaseHandler::handler"]}
{"id": "C48", "title": "A configuration line is classified by its tokens", "statement": "A line is empty, comment, directive, block start or block end exactly as its words say, the argument is the words behind the first joined by single spaces, and anything else is an error. (Violated: a comment with a word ending in ; { or } that is followed by another word is rejected, text directly before { is lost, and a directive on the line of a } is dropped.)", "quantifier": "every line", "why_tests_cant": "all strings", "anchors": ["src/module/sps_module.cpp: ConfInstant / IModule::parse"]}
{"id": "C49", "title": "Configuration files parse to the tree they were written from", "statement": "Rendering any tree of directives and nested blocks with known names and parsing it yields the same tree; a file with an unclosed block or an extra closing brace is rejected.", "quantifier": "every configuration tree of any depth and width", "why_tests_cant": "unbounded nesting", "anchors": ["src/module/sps_module.cpp: IModule::init_conf, parse"]}
{"id": "C50", "title": "An option has the last configured value, or its default", "statement": "After initialisation with defaults and any sequence of known and unknown directives, each option holds the value of the last directive naming it, converted to its type, or else its default; unknown directives have no effect.", "quantifier": "every sequence of directives", "why_tests_cant": "history property", "anchors": ["src/module/sps_module.cpp: IModule::set_default, init_conf", "src/module/sps_module_opt.cpp: opt_set"]}
{"id": "C51", "title": "Host routing prefers exact, then wildcard, then default", "statement": "For every set of registered hosts and every request host name, the selected host is the exact match if present, else the wildcard entry for the name's domain after the first label, else the default host, else none.", "quantifier": "every set of hosts and every name", "why_tests_cant": "all strings and sets", "anchors": ["src/module/host/sps_host_module.cpp: HostModulesRouter::find_host, register_host, get_wildcard_host"]}
{"id": "C52", "title": "Host registration rejects duplicates and keeps earlier entries", "statement": "Registering a host whose exact name, wildcard or default slot is taken, or a malformed wildcard, fails and changes nothing; after any registration history each name selects the first host registered for it.", "quantifier": "every registration history", "why_tests_cant": "history property", "anchors": ["src/module/host/sps_host_module.cpp: HostModulesRouter::register_host, merge"]}
{"id": "C53", "title": "Request phases run in order and stop at the first final result", "statement": "Phase handlers run in registration order; the first that does not ask to continue ends the request: success if it says so, otherwise its error; later handlers do not run.", "quantifier": "every list of handlers with any results", "why_tests_cant": "all lists", "anchors": ["src/module/server/sps_server_handler.cpp: ServerPhaseHandler::handler"]}
{"id": "C54", "title": "Servers sharing a port serve all their hosts", "statement": "Every host configured under any server block for a port is reachable on that port. (Violated: hosts of the second and later blocks are appended after the routing table is built.)", "quantifier": "every configuration", "why_tests_cant": "all configurations", "anchors": ["src/module/server/sps_server_module.cpp: ServerModule::merge_server, install, post_sub_module", "src/module/http/sps_http_module.cpp: HttpModule::install"]}
{"id": "C55", "title": "SRT stream ids yield their parameters", "statement": "For every list of key/value pairs in a stream id the resulting host, resource and mode are those given. (Violated for the last pair: without a trailing comma it is dropped, so a player with the usual id is taken for a publisher; and a resource that already has the schema gets it twice.)", "quantifier": "every parameter list", "why_tests_cant": "all strings", "anchors": ["src/module/srt/sps_srt_server_handler.cpp: get_url_by_streamid"]}
{"id": "C56", "title": "UDP sessions receive exactly their peer's datagrams in order", "statement": "For every arrival sequence, each session's reads return the datagrams of its own peer in arrival order, except those dropped because the queue was at its limit; a read with too small a buffer loses nothing. (Violated: the peer's address never reaches the session key, so the datagrams of all peers go to one session; and keys run the address and the port together.)", "quantifier": "every arrival and read interleaving", "why_tests_cant": "unbounded schedules", "anchors": ["src/sys/st/io/sps_sys_st_io_udp.cpp: StUdpSessionClientSocket::read, push; StUdpServerSocket::handler, generate_key, search_or_create, remove"]}
{"id": "C57", "title": "read_fully returns exactly the requested bytes", "statement": "For every fragmentation of the stream, a successful read_fully of n > 0 bytes fills the buffer with exactly the next n bytes of the stream. (The SRT socket violates this when more than one read is needed: each read overwrites the start of the buffer; plain UDP sockets lose what does not fit.)", "quantifier": "every n and every fragmentation", "why_tests_cant": "unbounded schedules", "anchors": ["src/io/sps_io_socket.cpp: Socket::read_fully", "src/sys/st/io/sps_sys_st_io_srt.cpp: StSrtSocket::read_fully", "src/sys/st/io/sps_sys_st_io_tcp.cpp: read_fully", "src/sys/st/io/sps_sys_st_io_udp.cpp: read_fully"]}
{"id": "C58", "title": "SRT writes send all data in bounded messages", "statement": "Writing any buffer sends its bytes in order as messages of at most 1316 bytes whose concatenation is the buffer.", "quantifier": "every buffer size", "why_tests_cant": "all sizes", "anchors": ["src/sys/st/io/sps_sys_st_io_srt.cpp: st_srt_write"]}
{"id": "C59", "title": "SRT readiness events wake exactly the waiting coroutines", "statement": "For every sequence of waits and epoll results a waiter is woken by an event it waits for or by an error on its socket, once, and waiters of other sockets or other events stay registered and watched. (Errors are no longer watched for the rest after one waiter of a socket has gone.)", "quantifier": "every interleaving of waits and events", "why_tests_cant": "schedules", "anchors": ["src/sys/st/io/sps_sys_st_io_srt.cpp: SrtStDispatch::st_srt_epoll, handler, get_exits_evt"]}
{"id": "C60", "title": "RTCP packets are split by their length words", "statement": "A compound RTCP buffer is processed report by report according to the length fields and never beyond the buffer; malformed lengths are rejected.", "quantifier": "every buffer", "why_tests_cant": "all contents", "anchors": ["src/avformat/sps_avformat_rtpdec_rtcp.cpp: decode functions"]}
{"id": "C61", "title": "Format selection by name, extension or schema is deterministic", "statement": "The demuxer, muxer or protocol chosen is the first registered one that matches, and none is returned when nothing matches. (Violated: the registers are ordered by address, not by registration, and an extension matches when it only begins with the registered one.)", "quantifier": "every registration list and request", "why_tests_cant": "all lists", "anchors": ["src/avformat/sps_avformat_dec.cpp: match, create", "src/avformat/sps_avformat_enc.cpp: match, create", "src/io/url/sps_io_url_protocol.cpp: match, create"]}
{"id": "C62", "title": "A player of the raw SRT stream starts at a unit start", "statement": "A player that joins the raw copy of an SRT stream is first given the latest program tables and then the packets from the latest payload unit start on. (Violated: unit starts are never recognised, so every packet since the publisher connected is kept and replayed.)", "quantifier": "every history of transport packets", "why_tests_cant": "unbounded histories", "anchors": ["src/avformat/sps_avformat_cache.cpp: MepegtsCacheStream::put, dump", "src/avformat/sps_avformat_packet.cpp: AVPacket::is_payload_unit_start_indicator", "src/avformat/sps_avformat_tsdec.cpp: TsCache::on_packet"]}
{"id": "C63", "title": "The RTMP negotiation admits exactly the prescribed conversations", "statement": "A connection gets past the negotiation exactly when its messages are: any not being connect, a connect, any not being play or publish, then play or publish. The request is for the tcUrl of the connect and the stream named last, the replies are those RTMP prescribes in order, and the connection ends up as exactly one of player and publisher; after any failure it is neither. (Violated: a chunk size announced by the peer in this phase is forgotten.)", "quantifier": "every sequence of received messages and every placement of send failures", "why_tests_cant": "unbounded conversations", "anchors": ["src/module/rtmp/sps_rtmp_server_handler.cpp: RtmpServerHandler::handler, RtmpPreRequest::connect, on_recv_*", "src/module/rtmp/sps_rtmp_server.cpp: RtmpContext::RtmpContext"]}
{"id": "C64", "title": "Transport packets are parsed inside the packet", "statement": "Decoding any transport packet reads no byte outside its 188 bytes. (Violated by sections longer than the packet and by adaptation fields without room for the fields they announce.)", "quantifier": "every packet and every decoder state", "why_tests_cant": "all contents", "anchors": ["src/avformat/sps_avformat_ts.cpp: TsPacket::decode, TsAdaptationFiled::decode, TsPsiProgram::decode, TsPatProgram::psi_decode, TsPmtProgram::psi_decode, TsPesProgram::decode, TsPesContext::dump"]}
{"id": "C65", "title": "Transport stream demuxing does not depend on how the transport fragments the stream", "statement": "The media packets returned and the error at the end are the same for every fragmentation of the same bytes; each 188-byte packet is decoded once, in order, and an incomplete one at the end is not decoded.", "quantifier": "every fragmentation of every byte stream, any number of reads", "why_tests_cant": "unbounded schedules", "anchors": ["src/avformat/sps_avformat_tsdec.cpp: TsDemuxer::read_packet, decode_packet, pop"]}
{"id": "C66", "title": "A transport stream over RTP demuxes as the transport stream", "statement": "For every sequence of RTP datagrams that carry whole transport packets, the packets a caller reads are exactly those the transport stream demuxer gives for the payloads put together, in order, then the transport's error. (Violated when the first datagram has the marker bit: it is refused.)", "quantifier": "every sequence of datagrams", "why_tests_cant": "unbounded histories", "anchors": ["src/avformat/sps_avformat_rtpdec.cpp: RtpDemuxer::read_packet, RtpContext::decode", "src/avformat/sps_avformat_rtpdec_ts.cpp"]}
{"id": "C67", "title": "AAC access units in RTP packets are cut exactly", "statement": "The payload of every RTP packet with access unit headers is cut into exactly the announced units in order; a payload that ends inside a unit gives the units before it and then an error. (Violated: units that follow each other in one packet all get the time stamp of the packet.)", "quantifier": "every list of access units", "why_tests_cant": "all lists and sizes", "anchors": ["src/avformat/sps_avformat_rtpdec_aac.cpp"]}
{"id": "C68", "title": "Transport streams yield the media packets of their elementary streams", "statement": "For every sequence of transport packets, if the completed units carry NAL units and ADTS frames, the packets for the caller are exactly those of the units, in the order in which the units were completed, with sequence headers where they are due and with the times of their unit.", "quantifier": "every history of transport packets", "why_tests_cant": "unbounded histories through three layers of parser state", "anchors": ["src/avformat/sps_avformat_tsdec.cpp: TsDemuxer::on_pes_complete", "src/avcodec/sps_avcodec_h264_parser.cpp", "src/avcodec/sps_avcodec_aac_parser.cpp"]}
{"id": "C69", "title": "A proxied request is the client's request", "statement": "The request sent to the upstream has the client's method, target, host, header fields and body. (Violated: the body is not sent although its length is announced, a second Content-Length of 0 is added.)", "quantifier": "every request", "why_tests_cant": "all requests", "anchors": ["src/io/url/sps_io_url_http.cpp: http_request, HttpUrlProtocol::open", "src/module/http/sps_http_proxy_phase_handler.cpp: handler"]}
{"id": "C70", "title": "URLs are taken apart correctly", "statement": "Scheme, host, path and query are the parts of the URL, the port is the one given or the usual one of the scheme, the request target is path and query as they were, the extension is what follows the last dot of the path. (Violated for file URLs: the first character of the file name is dropped.)", "quantifier": "every URL", "why_tests_cant": "all URLs", "anchors": ["src/io/url/sps_io_url.cpp: RequestUrl::parse_url"]}
{"id": "C71", "title": "A request is served as the type of its host says", "statement": "A request for a host of type stream, proxy or api is given to the streaming, proxy or API handler, and a host that is switched off serves nobody. (Violated: hosts of type api are served by the proxy, and the switch is never looked at.)", "quantifier": "every host configuration", "why_tests_cant": "all configurations", "anchors": ["src/module/http/sps_http_adapter_phase_handler.cpp: HttpAdapterPhaseHandler::handler", "src/module/host/sps_host_module.cpp: is_streaming, is_api, enabled"]}
{"id": "C72", "title": "Relayed requests go to the configured address", "statement": "A proxied request and an edge connection go to the address and port configured for the host, to the usual port if none is given. (Violated: an upstream block outside the host is not found by its name.)", "quantifier": "every address and port text", "why_tests_cant": "all texts", "anchors": ["src/module/host/sps_host_module.cpp: HostModule::get_proxy_info", "src/module/http/sps_http_proxy_phase_handler.cpp: handler", "src/module/stream/sps_stream_edge.cpp: StreamEdgeEnter::start_edge"]}
{"id": "C73", "title": "An edge asks its upstream for the stream the player asked for", "statement": "The URL an edge requests is the configured one, or else the player's scheme, path and query at the configured address. (Violated: with an upstream block in the host the URL has no address.)", "quantifier": "every host configuration and request", "why_tests_cant": "all requests", "anchors": ["src/module/stream/sps_stream_edge.cpp: StreamEdgeEnter::start_edge"]}
{"id": "C74", "title": "A stream request is answered by the rules of its host", "statement": "A publisher is admitted exactly when the host is no edge and its stream has no source; a player is attached exactly when there is a source (or, on an edge, one can be pulled); a refused request changes nothing. (Violated: an SRT publisher is admitted whatever the role of the host.)", "quantifier": "every host configuration, request and state", "why_tests_cant": "all states and configurations", "anchors": ["src/module/stream/sps_stream_handler.cpp: StreamHandler::publish, play, get_cache_key", "src/module/srt/sps_srt_stream_handler.cpp: SrtServerStreamHandler::publish"]}
{"id": "C75", "title": "An HTTP stream request gets one well-formed response", "statement": "For every request, a refused one gets exactly one complete response with the status that tells the reason, and an accepted player gets exactly one response head before the media. (Violated: some requests get no response at all, some a body whose length is not announced, and a player can ask for a format that crashes the server.)", "quantifier": "every request, state and upstream result", "why_tests_cant": "all requests and states", "anchors": ["src/module/http/sps_http_stream_phase_handler.cpp: HttpStreamPhaseHandler::handler", "src/module/stream/sps_stream_handler.cpp: StreamHandler::play", "src/module/stream/sps_stream.cpp: StreamEncoder::encode", "src/avformat/sps_avformat_rtmpenc.cpp: RtmpAVMuxer::write_packet"]}
{"id": "C76", "title": "A player is sent exactly the packets it is entitled to", "statement": "In every execution with any number of connections, the bytes sent to an HTTP-FLV player are a response head, one FLV header and one chain of tags, whose packets are, in order and once each, the start-up packets of its stream when it joined and those published since, as far as it has read.", "quantifier": "every interleaving of connections, arrivals, reads, failures and departures", "why_tests_cant": "unbounded schedules", "anchors": ["src/module/stream/sps_stream_handler.cpp: StreamHandler::play", "src/module/stream/sps_stream.cpp: StreamEncoder::encode", "src/avformat/sps_avformat_flvenc.cpp", "src/module/http/sps_http_stream_phase_handler.cpp"]}
{"id": "C77", "title": "What a publisher uploads is what the players of the stream get", "statement": "In every execution, the packets published by a connection that uploads FLV are the packets of the uploaded file, from its beginning, in order; and every HTTP-FLV player of that stream is sent the start-up packets among those uploaded before it joined and then those uploaded since, in order, once each, in a well-formed FLV response.", "quantifier": "every interleaving, fragmentation of the upload, and set of players", "why_tests_cant": "unbounded schedules through six layers of code", "anchors": ["src/module/stream/sps_stream_handler.cpp: StreamHandler::publish, play", "src/module/stream/sps_stream.cpp: StreamDecoder::decode, StreamEncoder::encode", "src/avformat/sps_avformat_flvdec.cpp", "src/avformat/sps_avformat_flvenc.cpp", "src/cache/sps_cache.hpp"]}
{"id": "C78", "title": "The framing of an HTTP body does not show in the stream", "statement": "When FLV is sent as an HTTP body in any division into chunks, with an announced length, or until the connection is closed, and the bytes arrive in any pieces, the demuxer on the other side (of an upload or of a pull) returns the packets of the bytes carried, in order, and then the end of the body.", "quantifier": "every body, chunking, fragmentation and side", "why_tests_cant": "all inputs and divisions", "anchors": ["src/module/http/sps_http_socket.cpp: HttpRequestSocket::read", "src/io/url/sps_io_url_http.cpp: HttpUrlProtocol::read", "src/io/sps_io_bytes.cpp: BytesReader::acquire", "src/avformat/sps_avformat_flvdec.cpp: FlvDemuxer::read_packet"]}
{"id": "C79", "title": "What arrived before a connection was lost is returned", "statement": "When the connection of a FLV stream is lost at any point, the packets whose tags had arrived completely are returned, in order, and then the error. (Violated: the packets at the end of a chunk are lost if the connection is lost before the line end behind it; a client loses what arrived of an incomplete chunk.)", "quantifier": "every point at which the connection is lost, every framing and fragmentation", "why_tests_cant": "all crash points", "anchors": ["src/module/http/sps_http_socket.cpp: HttpRequestSocket::read_chunked_data", "src/io/url/sps_io_url_http.cpp: HttpUrlProtocol::read_chunked_data", "src/io/sps_io_bytes.cpp: BytesReader::acquire"]}
{"id": "C80", "title": "A stream has the same name in every protocol", "statement": "The stream NAME of the application APP on HOST is the same whether it is published or played over RTMP (connect to rtmp://HOST[:port]/APP, then the name with any query), HTTP (/APP/NAME.ext with any query and Host: HOST[:port]) or SRT (resource HOST/APP/NAME), so that a player of one protocol is attached to the publisher of another; different streams are kept apart. (Violated: with a query in the RTMP application URL all its streams are one; a host field not spelled `Host` makes the first path segment the host.)", "quantifier": "every host, application, name, extension, port and query", "why_tests_cant": "all names and forms of request", "anchors": ["src/module/rtmp/sps_rtmp_server_handler.cpp: RtmpPrepareHandler::handler", "src/module/rtmp/sps_rtmp_stream_handler.cpp: RtmpServerStreamHandler::handler", "src/module/http/sps_http_parser.cpp: HttpParserContext::parse_request", "src/module/srt/sps_srt_stream_handler.cpp: SrtServerStreamHandler::publish", "src/module/stream/sps_stream_handler.cpp: StreamHandler::get_cache_key"]}
{"id": "C81", "title": "Every player gets the packet as published, whoever was served before", "statement": "A packet of a publisher reaches each of its players with the payload it was published with, no matter how many players there are, over which protocols (RTMP, HTTP-FLV) they play and in which order they are served; also when their sockets take the bytes in pieces and the pieces of different players alternate.", "quantifier": "all packets of any size, all sequences of RTMP and HTTP-FLV players, all interleavings of pieces of any size", "why_tests_cant": "Players share one packet in memory and the RTMP library writes into the memory it sends from; a test with one player, or with small frames, does not see it.", "anchors": ["src/avformat/sps_avformat_rtmpenc.cpp:RtmpAVMuxer::write_packet", "src/avformat/sps_avformat_flvenc.cpp:FlvAVMuxer::write_packet", "src/avformat/sps_avformat_packet.cpp:AVPacket::create", "src/cache/sps_cache_buffer.cpp"]}
{"id": "C82", "title": "Sending a packet touches only the memory of the packet", "statement": "Sending a packet to a player reads and writes only memory of that packet, and changes nothing of it but the bytes kept free before the payload, for every kind of packet and every time stamp.", "quantifier": "all packets (script, audio, video frames and commands) and all time stamps", "why_tests_cant": "The packet is shared by all players and the RTMP header grows by four bytes after 4 h 40 min; no test runs so long.", "anchors": ["src/avformat/sps_avformat_rtmpenc.cpp:RtmpAVMuxer::write_packet", "src/avformat/sps_avformat_packet.hpp:FLV_HEAD_TAG_SIZE", "src/avformat/sps_avformat_librtmp.cpp:RtmpHook::send_packet"]}
{"id": "C83", "title": "A TLS connection reads like a plain one", "statement": "Reading from an HTTPS connection (as server or as client) gives the bytes the peer sent, in order, however records and network pieces fall; no reader can tell it from a TCP connection that carries the decoded bytes, and it ends with an error only when all were read. So what holds of streams over TCP holds over HTTPS.", "quantifier": "every record layer, every fragmentation of the ciphertext into pieces, every sequence of read sizes, every client program", "why_tests_cant": "depends on all ways records and pieces can interleave with read sizes", "anchors": ["src/sys/st/io/sps_sys_st_io_ssl.cpp: StSSLSocket::read", "src/sys/st/io/sps_sys_st_io_ssl.cpp: StSSLSocket::read_fully", "src/io/sps_io_socket.cpp: Socket::read"]}
{"id": "C84", "title": "A TLS write delivers the whole buffer", "statement": "After a successful write to an HTTPS connection the peer decodes what it decoded before followed by the whole buffer; after a failed one by a part of the buffer from its start.", "quantifier": "every buffer, every way OpenSSL splits it, every point at which the transport fails", "why_tests_cant": "the split and the failing point are chosen by OpenSSL and the network", "anchors": ["src/sys/st/io/sps_sys_st_io_ssl.cpp: StSSLSocket::write"]}
{"id": "C85", "title": "A TLS handshake loses no data", "statement": "A handshake with a peer whose flights arrive in any pieces succeeds, both flights are sent, and every byte the peer sends after its last flight, in whatever pieces, is read afterwards.", "quantifier": "all flights, all pieces, all data behind the handshake", "why_tests_cant": "loss depends on which bytes arrive in one read", "anchors": ["src/sys/st/io/sps_sys_st_io_ssl.cpp: StSSLSocket::accept", "src/sys/st/io/sps_sys_st_io_ssl.cpp: StSSLSocket::handshake", "src/sys/st/io/sps_sys_st_io_ssl.cpp: handshake_util_read, handshake_util_write"]}
{"id": "C86", "title": "One client cannot keep others from being accepted", "statement": "Every client of an HTTPS port whose handshake succeeds is handed to the server once, in the order of connection, whatever the other clients do.", "quantifier": "all sequences of clients, with handshakes that succeed, fail or never end", "why_tests_cant": "quantifies over the behaviour of all other clients", "anchors": ["src/sys/st/io/sps_sys_st_io_ssl.cpp: StSSLAcceptor::handler", "src/sys/st/io/sps_sys_st_io_ssl.cpp: StSSLServerSocket::accept"]}
{"id": "C87", "title": "A client is shown the certificate of the host it asks for", "statement": "A client that names a host is shown the certificate configured for the host block that will serve that name; a client that names none is shown the server's certificate.", "quantifier": "all sets of hosts, all names", "why_tests_cant": "ranges over all configurations and names", "anchors": ["src/sys/st/io/sps_sys_st_io_ssl.cpp: servername_callback", "src/module/host/sps_host_module.cpp: HostModulesRouter::search", "src/module/server/sps_server_module.cpp: ServerModule::post_install"]}
{"id": "C88", "title": "A connection lives exactly as long as it is handled", "statement": "Every accepted connection is handled once; it stays open until its handler returns and is then closed once; a connection that cannot be accepted or handled does not disturb the others.", "quantifier": "all interleavings of arrivals, coroutine starts and ends", "why_tests_cant": "depends on the schedule and on failures of accept", "anchors": ["src/module/server/sps_server.cpp: Server::accept, IConnHandler::on_stop", "src/sys/st/sps_sys_st_co.cpp: STCo::main_co", "src/sys/st/io/sps_sys_st_io_tcp.cpp: StTcpServerSocket::accept"]}
{"id": "C89", "title": "No answer of an upstream server crashes an edge", "statement": "When an edge host pulls a stream for a player, whatever URL is pulled and however the upstream server answers, the server goes on: the pull feeds the stream exactly if the URL is an http one, the status is 200 and the extension begins with the name of an input format, and ends otherwise. (Violated: an extension without a format and status 200, every RTMP pull that can be opened, and an answer that http_parser takes nothing of make it dereference null; https streams are never relayed.)", "quantifier": "every URL, answer, and placement of the registered protocols and formats in memory", "why_tests_cant": "all URLs and answers of a server that is not under control", "anchors": ["src/module/stream/sps_stream_edge.cpp: StreamEdge::handler", "src/io/url/sps_io_url_protocol.cpp: UrlProtocol::create", "src/avformat/sps_avformat_dec.cpp: AVDemuxerFactory::create", "src/io/url/sps_io_url_rtmp.cpp: RtmpUrlProtocol::response"]}
{"id": "C90", "title": "What an upstream server sends is what the players of an edge get", "statement": "In every execution, a play request on an edge host that starts a pull makes it ask for the configured URL; from a successful answer with FLV on, the stream has a source whose packets are those of the FLV file the upstream server sends, from its beginning, in order, all of them once the pull is over; and every HTTP-FLV player that joins is sent the start-up packets among those read before it joined and then those read since, in order, once each, in a well-formed FLV response.", "quantifier": "every interleaving of any number of pulls, publishers and players, every framing and fragmentation of the upstream body", "why_tests_cant": "unbounded schedules through eight layers of code, two servers", "anchors": ["src/module/stream/sps_stream_edge.cpp: StreamEdge::handler, StreamEdgeEnter::start_edge", "src/module/stream/sps_stream.cpp: StreamDecoder::decode, StreamEncoder::encode", "src/io/url/sps_io_url_http.cpp: HttpUrlProtocol", "src/module/stream/sps_stream_handler.cpp: StreamHandler::play"]}
{"id": "C91", "title": "What an RTMP publisher sends is what is published", "statement": "In every execution, the packets in the stream of an RTMP publisher are those that its media messages carry, from the first on, each once and in order; when it has stopped, all of them up to the first malformed message. No message crashes the server. (Violated: an audio message of one byte does.)", "quantifier": "every sequence of messages and every interleaving with other clients", "why_tests_cant": "unbounded message sequences and schedules", "anchors": ["src/module/rtmp/sps_rtmp_stream_handler.cpp: RtmpServerStreamHandler::handler", "src/avformat/sps_avformat_rtmpdec.cpp: RtmpDemuxer::read_packet", "src/module/stream/sps_stream.cpp: StreamDecoder::decode"]}
{"id": "C92", "title": "An RTMP player is sent what it is entitled to", "statement": "In every execution, an RTMP player has been sent one message for each packet of the stream it is to get (start-up packets, then what was published since), in order, each carrying that packet; all but the pending ones while it plays. Playing does not crash the server. (Violated: composition offsets other than 0 to 15 are changed.)", "quantifier": "every interleaving of any number of publishers and players", "why_tests_cant": "unbounded histories and schedules", "anchors": ["src/avformat/sps_avformat_rtmpenc.cpp: RtmpAVMuxer::write_packet", "src/module/stream/sps_stream.cpp: StreamEncoder::encode", "src/module/stream/sps_stream_handler.cpp: StreamHandler::play"]}
{"id": "C93", "title": "From an RTMP publisher to RTMP players", "statement": "In every execution, an RTMP player of an RTMP publisher's stream that decodes the messages sent to it gets the start-up packets among those published before it joined and then those published since, exactly as the publisher's messages carry them, in order, once each. (Violated for composition offsets other than 0 to 15.)", "quantifier": "every interleaving, every message sequence", "why_tests_cant": "unbounded schedules through all layers", "anchors": ["src/module/rtmp/sps_rtmp_stream_handler.cpp: RtmpServerStreamHandler::handler", "src/module/stream/sps_stream_handler.cpp: StreamHandler::publish, play", "src/avformat/sps_avformat_rtmpenc.cpp: RtmpAVMuxer::write_packet"]}
{"id": "C94", "title": "Between RTMP and HTTP", "statement": "In every execution, an HTTP-FLV player of an RTMP publisher's stream is sent a well-formed FLV response with the start-up packets and what followed of the packets of the publisher's messages; an RTMP player of an HTTP publisher's stream, or of one pulled from an upstream server, is sent messages that carry those of the FLV file. An RTMP player of an edge is served like an HTTP one. (Violated: a stream that an RTMP player makes an edge pull crashes it.)", "quantifier": "every interleaving, every message sequence and every framing of bodies", "why_tests_cant": "unbounded schedules through all layers of two protocols", "anchors": ["src/module/stream/sps_stream_handler.cpp: StreamHandler::publish, play", "src/module/stream/sps_stream_edge.cpp: StreamEdge::handler", "src/avformat/sps_avformat_rtmpenc.cpp: RtmpAVMuxer::write_packet", "src/avformat/sps_avformat_flvenc.cpp: FlvAVMuxer::write_packet"]}
{"id": "C95", "title": "From an SRT publisher to SRT players", "statement": "In every execution, an SRT player is sent, of the 188-byte packets of the publisher of its stream, a start (the latest program association, the latest program map, the rest since the last unit start) and then every packet that follows, unchanged, in order, once each; everything if it has read its queue, an initial part otherwise; publishing twice and playing what is not published are refused without an effect on others. (Violated: packets of unknown pids and clock-only packets are dropped; the start is all that was ever sent; one bad block ends the stream.)", "quantifier": "every byte stream of the publisher, every interleaving with other clients, every join time", "why_tests_cant": "unbounded packet sequences and schedules", "anchors": ["src/module/srt/sps_srt_stream_handler.cpp: SrtServerStreamHandler::publish, play", "src/avformat/sps_avformat_tsdec.cpp: TsCache::on_packet, TsDemuxer::read_packet", "src/avformat/sps_avformat_cache.cpp: MepegtsCacheStream"]}
{"id": "C96", "title": "What an SRT publisher's transport stream carries is what is published", "statement": "In every execution, the packets in the audio and video stream of an SRT publisher are those of the units (NAL units, ADTS frames) that its transport stream has completed, in the order of completion, each once; when it has stopped, all of them up to the first packet that is not accepted; the completed units of a stream are those that its packets carry. No packet crashes the server. (Violated: two crafted packets do; the last unit of each stream is lost.)", "quantifier": "every byte stream of the publisher, every interleaving with other clients", "why_tests_cant": "unbounded packet sequences and schedules", "anchors": ["src/module/srt/sps_srt_stream_handler.cpp: SrtServerStreamHandler::publish", "src/avformat/sps_avformat_tsdec.cpp: TsDemuxer::read_packet, on_pes_complete, on_h264, on_aac", "src/avformat/sps_avformat_ts.cpp: TsContext::decode"]}
{"id": "C97", "title": "From an SRT publisher to HTTP and RTMP players", "statement": "In every execution, an HTTP-FLV or RTMP player of the stream of an SRT publisher gets the start-up packets among the frames published before it joined and then those published since, in order, once each, in a form that its format's readers read as these frames. (Violated for supplemental information units.)", "quantifier": "every byte stream of the publisher, every interleaving, every join time", "why_tests_cant": "unbounded schedules through all layers", "anchors": ["src/module/srt/sps_srt_stream_handler.cpp: SrtServerStreamHandler::publish", "src/module/stream/sps_stream_handler.cpp: StreamHandler::play", "src/avformat/sps_avformat_flvenc.cpp: FlvAVMuxer::write_packet", "src/avformat/sps_avformat_rtmpenc.cpp: RtmpAVMuxer::write_packet"]}
{"id": "C98", "title": "A player does not affect anyone else", "statement": "In every execution, whether, when and how often a player takes its packets, and how writing to it fails, changes nothing for the other clients: the other connections are written the same bytes or messages, the same packets are published, and the same streams can be played.", "quantifier": "all executions and all requests to play in them, over HTTP, RTMP and SRT; all schedules", "why_tests_cant": "A test compares a few interleavings of a slow or broken player with others; the claim is about every schedule.", "anchors": ["src/module/stream/sps_stream_handler.cpp:StreamHandler::play", "src/cache/sps_cache.hpp:CacheStream", "src/sys/sps_sys_sync.hpp:Publisher::publish", "src/module/srt/sps_srt_stream_handler.cpp:SrtServerStreamHandler::play"]}
{"id": "C99", "title": "Every request of an HTTP connection gets its answer", "statement": "On an HTTP connection, however the bytes are cut into pieces and however many requests are pipelined: each request is answered exactly once and in order, with 404 if no host matches, with the upstream's status and body if the host is proxied; every answer carries a length or chunks so that the client can tell it from the next; each proxied request is sent to the configured upstream exactly once with its method, target and fields; nothing else is written; the connection ends when the client closes it, and no input ends the process.", "quantifier": "every list of requests, every cutting of their bytes, every set of hosts, every behaviour of the upstreams", "why_tests_cant": "any number of pipelined requests, any arrival schedule, hostile clients and upstreams", "anchors": ["src/module/http/sps_http_phase_handler.cpp: HttpParsePhaseHandler, Http404PhaseHandler", "src/module/host/sps_host_router_handler.cpp: HostRouterPhaseHandler", "src/module/http/sps_http_proxy_phase_handler.cpp: HttpProxyPhaseHandler", "src/module/server/sps_server_handler.cpp: ConnHandler, ServerPhaseHandler"]}
{"id": "C100", "title": "Opening a port or a connection opens one socket or none", "statement": "Listening on a port gives exactly one new socket, which listens on that port, or an error; connecting to a name and port gives exactly one new socket, connected to that port at an address the name resolves to, or no connection. When any system call on the way fails, every socket opened on the way is closed again: the sockets open afterwards are those that were open before. It succeeds exactly when no call fails.", "quantifier": "every transport, every port, every state of the open sockets, every result of every system call", "why_tests_cant": "a test cannot make each system call fail in turn, in every combination, and see what stays open", "anchors": ["src/sys/st/io/sps_sys_st_io_tcp.cpp: st_tcp_create_fd, st_tcp_listen, st_tcp_connect", "src/sys/st/io/sps_sys_st_io_srt.cpp: st_srt_listen, st_srt_connect, StSrtServerSocket::listen", "src/sys/st/io/sps_sys_st_io_udp.cpp: UdpFd::create_fd", "src/io/sps_io_socket.cpp: ClientSocketFactory::create_ss, ServerSocketFactory::create_ss"]}
{"id": "C101", "title": "The answers of the RTMP negotiation can be read", "statement": "Every answer an RTMP server sends while a client connects, creates a stream and plays or publishes is a well-formed message that says what is owed to the command: the window, bandwidth and chunk size announced on connect, a result with the command's transaction number and the stream's number, the status that playing or publishing has begun, and the begin of the stream; in the order of the commands, nothing else, and no answer overruns the memory it is built in.", "quantifier": "every sequence of messages a client sends, every transaction number, every window and bandwidth the connection has", "why_tests_cant": "transaction numbers are arbitrary doubles and commands arrive in any order and number; a test reads back the answers to one client", "anchors": ["src/avformat/sps_avformat_librtmp.cpp: RtmpHook::send_connect_result, RtmpHook::send_result, RtmpHook::send_play_start, RtmpHook::send_publish_start, RtmpHook::send_stream_begin", "src/module/rtmp/sps_rtmp_server_handler.cpp: RtmpPreRequest::connect"]}
{"id": "C102", "title": "What the configuration file says is what clients get", "statement": "Whatever the layout of a configuration file (blank lines, comments, indentation), the program started with it answers every request as its text says. On the port of every `server` block, the request for a name is served by the `host` block for the name, else by the one for its domain, else by the default, among those of the server block and of the `globalhost` blocks; every option of that host has the value of its last directive, or its documented default. Over HTTP, every request on a connection is answered in order: those no host block serves with 404, and those of a `proxy` host with the answer of the upstream at the address the file names, which gets the request.", "quantifier": "all legal configuration files in every layout, all server and host blocks and requested names, and all sequences of HTTP requests, upstream answers and arrival patterns", "why_tests_cant": "the path goes from the bytes of the file through parsing, merging, registration and routing to the bytes on a connection; a test follows it for one file and one request", "anchors": ["src/module/sps_module.cpp: ConfModuleBase parsing (init_conf, parse)", "src/module/server/sps_server_module.cpp: ServerModule::install", "src/module/host/sps_host_router_handler.cpp: HostRouterPhaseHandler", "src/module/http/sps_http_proxy_phase_handler.cpp: HttpProxyPhaseHandler"]}
{"id": "C103", "title": "Remuxing with FFmpeg keeps every packet, its stream and its times", "statement": "In builds with FFmpeg, what is read from one container and written to another is the same media: every packet of a stream that the output takes is handed to the output's muxer once and in order, with the same content, in the output stream that stands for its stream, and at the same time to within half a unit of the output's clock; times in order stay in order; a failing write is reported and ends the output. (Violated: an attachment before the media shifts the streams, and a packet without a time or before time zero ends the process.)", "quantifier": "all containers and their streams, all packets and times, all clocks of input and output, all results of writing", "why_tests_cant": "unbounded sequences of packets, and all 64-bit times and ratios of clocks", "anchors": ["src/avformat/sps_avformat_ffmpeg_dec.cpp: FFmpegAVDemuxer::read_packet", "src/avformat/sps_avformat_ffmpeg_enc.cpp: FFmpegAVMuxer::on_av_stream, set_av_ctx, write_header, write_packet", "src/avformat/sps_avformat_ffmpeg.cpp: FFmpegPacket"]}
{"id": "C104", "title": "With FFmpeg, an RTMP connection reads and writes as an FLV file", "statement": "In builds with FFmpeg, an RTMP publisher is read and an RTMP player is written as an FLV file. In whatever pieces it is read, what is read is an FLV file with one tag for each audio, video and script message of the publisher, in order, with its type, time and body; no read returns more than asked for, and the end of the connection is reported after the last byte. In whatever pieces it is written, each tag of an FLV file reaches the player as one message of its type, time and body, and a message that cannot be sent is reported. (Violated: reads below four bytes can stop for ever, a write that ends inside a tag fails, tags carry a stream number other than zero, AMF3 data gets an unknown tag type.)", "quantifier": "all sequences of messages, all sequences of read sizes, all tags, all ways of cutting the written bytes, all results of sending", "why_tests_cant": "unbounded sequences of messages and of sizes of reads and writes", "anchors": ["src/io/url/sps_io_url_rtmp_ffmpeg.cpp: FFmpegRtmpUrlProtocol::read, write, write_flv_tag, parser_flv_head", "src/module/rtmp/sps_rtmp_stream_handler.cpp: RtmpStreamPhaseHandler"]}
{"id": "C105", "title": "An RTMP client's first command decides what players get", "statement": "A client that connects to rtmp://HOST[:port]/APP and plays or publishes NAME[?query] is served by the host block that is to serve HOST, for the stream that other clients know as HOST/APP/NAME. It is let to publish if the host block takes publishers and no one publishes the stream. While it publishes, every RTMP player of rtmp://HOST/APP/NAME is sent one message for each of the start-up packets of what was published when it came and of the packets published since, in order, and every HTTP player of /APP/NAME.flv at HOST gets an FLV file with the same packets; what is published are the packets of the publisher's messages, in order, and all of them when it has stopped.", "quantifier": "all conversations of publisher and player up to play or publish, all streams, ports and queries, all message sequences of the publisher, all interleavings of all connections before, while and after the player comes, all send failures", "why_tests_cant": "depends on the conversation of one client, the messages of another and the schedule of all connections", "anchors": ["src/module/rtmp/sps_rtmp_server_handler.cpp:RtmpPrepareHandler::handler", "src/module/host/sps_host_router_handler.cpp:HostRouterPhaseHandler::handler", "src/module/rtmp/sps_rtmp_stream_handler.cpp:RtmpServerStreamHandler::handler", "src/stream/sps_stream_handler.cpp:StreamHandler::publish,StreamHandler::play"]}
{"id": "C106", "title": "The bytes of a POST become the bytes of every GET", "statement": "A client that sends a POST request for /APP/NAME.flv to HOST, whose header arrives in whatever pieces and whose body is in chunks, of a given length or up to the end of the connection, is let to publish the stream HOST/APP/NAME if the host block for HOST takes publishers of FLV and no one publishes it. It then publishes the packets of the FLV file in its body, in order, all of them in the end. While someone publishes a stream, over HTTP, RTMP or SRT, every client that requests /APP/NAME.flv of HOST gets a response with an FLV file of the start-up packets of what was published when it came and of the packets published since, in order; an RTMP player gets messages with the same packets. While no one publishes it, the request is answered 404.", "quantifier": "all requests in the grammar of RFC 7230 with any further fields, all framings, chunks and pieces, all streams, ports and queries, all interleavings of all connections before, while and after the player comes, all write failures", "why_tests_cant": "depends on how the bytes of one connection are cut into pieces, on the framing and on the schedule of all connections", "anchors": ["src/module/http/sps_http_phase_handler.cpp:HttpParsePhaseHandler::handler", "src/module/host/sps_host_router_handler.cpp:HostRouterPhaseHandler::handler", "src/module/http/sps_http_adapter_phase_handler.cpp:HttpAdapterPhaseHandler::handler", "src/module/http/sps_http_stream_phase_handler.cpp:HttpStreamPhaseHandler::handler", "src/stream/sps_stream_handler.cpp:StreamHandler::publish,StreamHandler::play"]}
{"id": "C107", "title": "What an SRT client sends under a stream id is what players of that stream get", "statement": "A client that connects over SRT with a stream id that names HOST/APP/NAME and a mode other than request is let to publish the stream HOST/APP/NAME if there is a host block for HOST and no one publishes it over whatever protocol; otherwise it is turned away. While it publishes, every SRT client whose id names the stream and the mode request is sent the tables and the packets that had been passed on when it came, and then every packet that is passed on, unchanged, in order and once each; every client that requests /APP/NAME.flv of HOST gets the audio and video in these packets as FLV. A client that asks to play over SRT a stream that is not published over SRT is turned away.", "quantifier": "all stream ids with any pairs in any order, all streams, all pieces in which the publisher's bytes arrive, all transport streams, all interleavings of all connections before, while and after the player comes, all write failures", "why_tests_cant": "depends on the schedule of all connections and on how the id and the transport stream are put together", "anchors": ["src/module/srt/sps_srt_server_handler.cpp:SrtPrepareHandler::handler", "src/module/srt/sps_srt_server_handler.cpp:get_url_by_streamid", "src/module/srt/sps_srt_module.cpp:SrtModule::install", "src/module/host/sps_host_router_handler.cpp:HostRouterPhaseHandler::handler", "src/module/srt/sps_srt_stream_handler.cpp:SrtServerStreamHandler::handler"]}
{"id": "C108", "title": "An edge relays what the server it pulls from sends", "statement": "A player over HTTP that asks an edge for a stream makes it connect to the configured server and ask it for the same path and query; that server takes it for a player of the stream that its own publishers send under its name, and the stream that the pull makes at the edge consists of the packets that this server sends a player, from its start-up packets on, each once, in order, and as FLV keeps them. Players of the edge get FLV files of those packets. If all has been sent and read and the pull is over, nothing is left out.", "quantifier": "every player's request, every execution of both servers, every pace and division of the bytes between them, every point at which the connection ends", "why_tests_cant": "two servers, their clients and the network between them, at any pace", "anchors": ["src/module/stream/sps_stream_edge.cpp: StreamEdge::handler", "src/module/stream/sps_stream_edge.cpp: StreamEdgeEnter::start_edge", "src/io/url/sps_io_url_http.cpp: HttpUrlProtocol::open", "src/module/stream/sps_stream_handler.cpp: StreamHandler::handler"]}
{"id": "C109", "title": "A UDP socket writes to its peer", "statement": "A write to a UDP socket (that of a session, or one made for an address and port) sends the buffer as one datagram to the peer the socket was made for; an error of the system is reported; a write of nothing sends nothing. (Violated: the destination is made without the peer's address, so that every datagram goes to this machine, and what is written to a session goes to port 0.)", "quantifier": "every peer, buffer and everything the system does", "why_tests_cant": "all buffers and failures of system calls", "anchors": ["src/sys/st/io/sps_sys_st_io_udp.cpp: StUdpClientSocket::StUdpClientSocket, connect, write; StUdpServerSocket::search_or_create"]}
{"id": "C110", "title": "The configuration file decides who may publish and who may play", "statement": "On the port of each server block of the configuration file the streams of a host are published and played as the file says of the host block that is to serve it. Over RTMP a client publishes if the block says role source and edge_avformat all or - and no one publishes the stream; over HTTP if it says type stream, role source and edge_avformat all or flv; over SRT likewise; everyone else is refused, and clients of names that no block serves are turned away. Players of any protocol are sent what is published, whoever published it; players of a stream that no one publishes get a 404, or, where the block says role edge and pass_proxy, make the program ask the server given there, which, running with its own file, takes it for a player of the stream of the same path.", "quantifier": "every sound configuration file and layout of it, every server block, every client and stream, every history of the program up to the client's arrival, every way the client's bytes arrive", "why_tests_cant": "the claim joins the configuration parser, start-up, routing, three protocols' connection handling and the stream registry; a test fixes one file and one client", "anchors": ["src/module/sps_module.cpp: ConfModuleBase parsing (init_conf, parse)", "src/module/server/sps_server_module.cpp: ServerModule::install", "src/module/host/sps_host_module.cpp:HostModule::publish, HostModule::support_publish, HostModule::edge", "src/module/stream/sps_stream_handler.cpp:StreamHandler::handler", "src/module/rtmp/sps_rtmp_stream_handler.cpp:RtmpServerStreamHandler::handler", "src/module/http/sps_http_stream_phase_handler.cpp:HttpStreamPhaseHandler::handler", "src/module/srt/sps_srt_stream_handler.cpp:SrtServerStreamHandler::handler"]}
{"id": "C111", "title": "A stream crosses any number of servers", "statement": "If servers pull a stream from one another, each from the one before, then the last of them has of it what a server that pulls from the first would have: an initial part of the first server's start-up packets at some point and of all that was published from then on, in order, none twice and none left out; all of it, if each server has sent all, all has arrived and the pulls are over. A player of the last server is sent the same FLV file, byte for byte, that a player of the first is sent who came at some point. (Violated for supplemental information units of SRT publishers: behind an edge they take the place of the decoder configuration.)", "quantifier": "every number of servers in a row, every execution at each of them, every way in which the bytes between them travel, every publisher over RTMP or HTTP", "why_tests_cant": "the start-up packets of start-up packets, at every server anew and at any time, over chains of any length", "anchors": ["src/module/stream/sps_stream_edge.cpp: StreamEdge", "src/avformat/sps_avformat_cache.cpp: AVGopCacheStream::put, dump", "src/avformat/sps_avformat_flvdec.cpp: FlvDemuxer", "src/avformat/sps_avformat_flvenc.cpp: FlvAVMuxer"]}
{"id": "C112", "title": "A player that joins late decodes every frame with its own configuration", "statement": "Whenever a player joins a stream, over HTTP or RTMP, what a decoder gets out of what it is sent is a final part of the stream: every picture and every audio frame is decoded with the decoder configuration that it has in the publisher's stream, and the video begins with a key frame. (Violated: a video command frame takes the place of the configuration; between a new configuration and its key frame, players that join get the old pictures with the new configuration.)", "quantifier": "every history of a stream, every moment of joining, everything published afterwards", "why_tests_cant": "configurations change at any time relative to key frames and joins", "anchors": ["src/avformat/sps_avformat_cache.cpp: AVGopCacheStream::put, dump", "src/avformat/sps_avformat_packet.cpp: AVPacket::is_video_sequence_header, is_audio_sequence_header, is_keyframe", "src/avformat/sps_avformat_rtmpdec.cpp", "src/avformat/sps_avformat_flvdec.cpp"]}
{"id": "C113", "title": "Requests are logged as the clients sent them, and logging has no other effect", "statement": "For every HTTP request, RTMP connection and SRT connection the server accepts, the line it writes to its log holds the fields of the request as the client sent them (method, host, target, query; URL; stream id and mode), after the time, the place in the program and the coroutine, cut at 4095 bytes; and what becomes of the client is what would become of it without logging.", "quantifier": "every request or connection of every client, with any bytes in its target, URL or stream id, however they arrive; every time and coroutine; every message put together from fixed text, texts and numbers", "why_tests_cant": "A log line goes through two formatting steps; whether the second takes the client's bytes for conversions depends on every byte a client can send, and the effect of a wrong one is undefined, so that a test run may or may not show it.", "anchors": ["src/log/sps_log.cpp: ConsoleLog::printf", "src/log/sps_log.hpp: sp_info, sp_trace", "src/module/http/sps_http_phase_handler.cpp: HttpParsePhaseHandler::handler", "src/module/rtmp/sps_rtmp_server_handler.cpp: RtmpServerHandler::handle", "src/module/srt/sps_srt_server_handler.cpp: get_url_by_streamid"]}
{"id": "C114", "title": "Time limits", "statement": "A server's recv_timeout and send_timeout end exactly the waits that last as long: a connection accepted by a server has the limits stated in its server block and none otherwise; a peer that keeps sending (or taking) data in time is never cut off and is served as if there were no limits; a read from a peer that is silent for as long as the limit, or a write to one that takes nothing for as long, fails with the time limit's error by then; a player is given up only when no packet came for 10 s, and has then been sent everything that came before. Connections that the server opens to upstreams are also limited.", "quantifier": "for every configuration file, limit, time at which data or room appears, program of reads and writes with any pauses, and arrival times of packets", "why_tests_cant": "Which wait runs into a limit depends on the times of every piece of data and every pause of the program; tests use a few schedules and cannot wait for hours.", "anchors": ["/repo/src/module/server/sps_server.cpp: Server::init, Server::accept", "/repo/src/module/server/sps_server_module.cpp: ServerModule::install", "/repo/src/sys/st/io/sps_sys_st_io_tcp.cpp: StTcpSocket::read, StTcpSocket::write", "/repo/src/io/sps_io_socket.cpp: ClientSocketFactory::create_ss", "/repo/src/avformat/sps_avformat_cache.cpp: AVDumpCacheStream::dump"]}
{"id": "C115", "title": "Streams end: publishers whose input ends finish, and their players get the rest and finish", "statement": "Whatever a publisher sends (an FLV body over HTTP, RTMP messages, a transport stream over SRT), and however its handler's turns are interleaved with those of every other connection, the handler returns after finitely many turns once the input has come to its end: for HTTP within two turns and one per 15 bytes received, for RTMP within one turn and one per message. It then takes its stream down: the key is no longer published by it and nothing is ever added to the stream. Every connection that plays the stream ends within two more turns of its own. A player to whom every write succeeds (and, over HTTP, whose stream holds only audio, video and script packets) ends by the time limit with the complete stream: the start-up packets of the time it joined and every packet published after that, in order, once each.", "quantifier": "every execution of the server: any number of connections over HTTP, RTMP and SRT, any contents and framing of what they send, any failures, every interleaving of the turns; any moment at which the publisher's handler has returned", "why_tests_cant": "termination is a statement about all continuations of all executions; a test sees one schedule and one input, and cannot distinguish a handler that would loop on some malformed input, or a player that loses the tail of its queue when the publisher leaves at an unlucky moment", "anchors": ["src/module/stream/sps_stream_handler.cpp:StreamHandler::publish,play", "src/module/stream/sps_stream.cpp:StreamEncoder::encode", "src/avformat/sps_avformat_cache.cpp:AVDumpCacheStream::dump", "src/module/srt/sps_srt_stream_handler.cpp:SrtServerStreamHandler::publish,play", "src/avformat/sps_avformat_flvdec.cpp:FlvDemuxer::read_packet", "src/avformat/sps_avformat_rtmpdec.cpp:RtmpDemuxer::read_packet"]}
{"id": "C116", "title": "Serving is defined for clients that keep to the formats", "statement": "As long as every client keeps to the formats - HTTP uploads of FLV whose audio and video tags have room for their headers (or that end early), HTTP players that do not name the raw RTMP format, RTMP publishers whose AAC messages have two bytes, SRT publishers whose transport stream keeps tables and headers inside their packets - the server never reads outside a buffer or uses a null, in whatever order requests arrive, take turns, wait for pulls and leave. And if serving is ever undefined, it is in a turn of a client that did not keep to them: no other client's requests, and no arrival, departure or pull, can cause it.", "quantifier": "every number of requests over HTTP, RTMP and SRT, every order of their arrivals and turns, every content and end of their connections", "why_tests_cant": "Crashes depend on combinations of requests and on the order of their turns; tests try some orders with well-behaved clients", "anchors": ["src/module/http/sps_http_stream_phase_handler.cpp", "src/module/stream/sps_stream_handler.cpp", "src/module/rtmp/sps_rtmp_stream_handler.cpp", "src/module/srt/sps_srt_stream_handler.cpp", "src/avformat/sps_avformat_flvdec.cpp", "src/avformat/sps_avformat_tsdec.cpp"]}
{"id": "C117", "title": "Log lines tell connections apart", "statement": "Every log line carries a number. Two lines have the same number exactly if the same coroutine (connection handler, pull, listener) wrote them; lines that no coroutine wrote have -1. A number is never used for two connections, also not when the second runs on the memory of the first.", "quantifier": "every number of coroutines, every order of their starts, ends and log lines, every reuse of threads", "why_tests_cant": "Reuse of threads and numbers needs long histories", "anchors": ["src/sys/st/sps_sys_st_co.cpp:STContext", "src/sys/st/sps_sys_st_co.cpp:STCo::main_co", "src/log/sps_log.hpp:sp_info"]}
{"id": "C118", "title": "Addresses of clients", "statement": "The line that is logged when a connection is accepted, and everything else that asks a connection for its peer, shows the IPv4 address and the port of the client, over TCP, TLS and SRT; addresses in that notation can be read back. Waiting for an SRT connection ends with the connection that comes, and a failed accept makes no connection.", "quantifier": "every address and port, every number of waits before a connection or a failure", "why_tests_cant": "Addresses and ports are too many to try, and a port with two equal bytes hides a wrong byte order.", "anchors": ["src/io/sps_io_socket.cpp: addr2string", "src/sys/st/io/sps_sys_st_io_tcp.cpp: StTcpServerSocket::accept", "src/sys/st/io/sps_sys_st_io_srt.cpp: st_srt_accept, StSrtServerSocket::accept", "src/sys/st/io/sps_sys_st_io_ssl.cpp: StSSLAcceptor::handler"]}
{"id": "C119", "title": "The way a header is written does not matter", "statement": "Two HTTP requests with the same method, target and host are served by the same host block for the same stream, whatever other fields their headers have, in whatever order the fields come, in whatever case field names and the host name are written and in whatever pieces the bytes arrive. (Violated: a field host in small letters is not found and the first path segment becomes the host; host names are compared with their case.)", "quantifier": "all pairs of well-formed requests of at most 2048 bytes, all ways to cut them into pieces, all configurations of hosts", "why_tests_cant": "There are unboundedly many headers with the same meaning; a test compares a few pairs.", "anchors": ["src/module/http/sps_http_parser.cpp HttpParserContext::parse_request, contains", "src/module/host/sps_host_module.cpp HostModulesRouter::find_host", "src/io/url/sps_io_url.cpp RequestUrl::get_header"]}
{"id": "C120", "title": "A request makes one line of the log", "statement": "What the server prints about a request of a client (HTTP, RTMP or SRT) is one line: it ends with an end of line and has no other line end in it. A client cannot write lines of its own into the log, and two requests never share a line.", "quantifier": "every request a client can send, every way its bytes arrive, every time and coroutine", "why_tests_cant": "the texts of clients are unbounded and reach the line unescaped, and the line has a fixed room; tests try a few short names", "anchors": ["src/log/sps_log.cpp: ConsoleLog::printf", "src/module/http/sps_http_phase_handler.cpp: HttpParsePhaseHandler::handler", "src/module/rtmp/sps_rtmp_server_handler.cpp: RtmpServerHandler::handle", "src/module/srt/sps_srt_server_handler.cpp: get_url_by_streamid"]}
{"id": "C121", "title": "The memory of a stream is bounded by its groups of pictures", "statement": "In every execution, what the server keeps of a stream is what a player that joins now would be given: the latest configurations and the media since the latest key frame. If key frames come at least every n packets, it never keeps more than n + 3 packets of the stream, however long the stream lasts; and what waits for a player is what was published since it last read.", "quantifier": "every sequence of publishers, packets, players, reads and pulls, of any length; every connection of every protocol", "why_tests_cant": "a stream lasts for days; a cache that forgets one case keeps everything and shows it only after the test has ended", "anchors": ["src/avformat/sps_avformat_cache.cpp: AVGopCacheStream::put, MepegtsCacheStream::put, AVDumpCacheStream::dump", "src/cache/sps_cache.hpp: CacheStream"]}
{"id": "C122", "title": "Media over RTP with an agreed codec", "statement": "A caller that tells the RTP demuxer the codec, H.264 or AAC, is told success, and then reads from the transport exactly the media of the datagrams, in order and once each, and then the transport's error: for H.264 every unit, whether sent in a packet of its own or in fragments cut anywhere; for AAC every access unit. Reports between the media change nothing; unknown codecs are refused.", "quantifier": "all datagram sequences with dynamic payload types, all units, all ways of cutting them, all clocks and contents of fresh memory", "why_tests_cant": "the demuxer, the payload decoders and the reassembly are separate pieces; units are cut by the sender at any byte", "anchors": ["src/avformat/sps_avformat_rtpdec.cpp: RtpDemuxer::init_codec, RtpDemuxer::read_packet", "src/avformat/sps_avformat_rtpdec_h264_hevc.cpp: H264RtpDecoder::decode", "src/avformat/sps_avformat_rtpdec_aac.cpp: AacRtpDecoder::decode"]}
{"id": "C123", "title": "Start of the program and exit status", "statement": "When the program is started it either serves (it has read the configuration file it was called with, and listens on the port of every server block in it) or it ends with an exit status other than 0, so that whoever started it can tell; it never ends with status 0. Every sound configuration in a file it may read makes it serve when the ports are free.", "quantifier": "all command lines, all files and their permissions, all configurations, all answers of the operating system to the calls for listening", "why_tests_cant": "the failures come from every line and block of every configuration and from every call to the operating system, and the exit status keeps only the lowest byte of the error code", "anchors": ["src/main/sps_main_sps.cpp:main", "src/main/sps_main_sps.cpp:init_config", "src/io/url/sps_io_url_file.cpp:FileURLProtocol::open", "src/module/sps_module.cpp:IModule::init_conf", "src/module/server/sps_server_module.cpp:ServerModule::install"]}
{"id": "C124", "title": "The RTMP library sees the connection as it is, and its failures are reported", "statement": "Whatever the RTMP library does with the functions it is given, the bytes it gets are those arriving on the connection, in order and once each, never more than it has room for, and what it is told is sent is what was written. When it gives up, the operation that needed it (handshake, receiving or sending a message) is reported as failed, with the error of the connection.", "quantifier": "all programs over the two calls (the library), all transports with any errors and any fragmentation, all results of writes", "why_tests_cant": "the library decides at run time which calls it makes; no set of tests covers all its behaviours together with all failures of the network", "anchors": ["src/avformat/sps_avformat_librtmp.cpp:RtmpHook::SPS_RTMPSockBuf_Fill", "src/avformat/sps_avformat_librtmp.cpp:RtmpHook::SPS_RTMPSockBuf_Send", "src/avformat/sps_avformat_librtmp.cpp:RtmpHook::recv_packet", "src/avformat/sps_avformat_librtmp.cpp:RtmpHook::send_packet", "src/avformat/sps_avformat_librtmp.cpp:RtmpHook::server_handshake"]}
{"id": "C125", "title": "The memory of a received RTMP message is given back, once", "statement": "Each RTMP message that is received is held in memory of its own until the packet it was received into is used again or goes away; then that memory is given back. It is never given back twice and never looked at afterwards, the memory of a media packet that is being sent to an RTMP player is never given back by the sender, and when all packets are gone nothing is left of the messages.", "quantifier": "every sequence of making, receiving into, lending memory to, looking at and dropping packets, on any number of connections in any order, with every way in which receiving succeeds or fails", "why_tests_cant": "The failures that decide who owns a body happen between two chunks of one message, and the effect of a wrong choice (a double free or a slow loss of memory) shows only in particular histories.", "anchors": ["src/avformat/sps_avformat_librtmp_packet.cpp: WrapRtmpPacket::reset, ~WrapRtmpPacket", "src/avformat/sps_avformat_librtmp.cpp: RtmpHook::recv_packet", "src/avformat/sps_avformat_rtmpdec.cpp: RtmpDemuxer::read_packet", "src/avformat/sps_avformat_rtmpenc.cpp: RtmpAVMuxer::write_packet"]}
{"id": "C126", "title": "What an RTMP client is sent can be read in chunks of the announced size", "statement": "Messages are sent in chunks whose size is 128 until another one is announced, and is the announced one from the next message on. A client that reads chunks of the size it was last told gets exactly the messages that were sent, in the order they were sent: answers to its commands, acknowledgements, answers to pings, and media.", "quantifier": "every sequence of messages of any sizes, with any announcements of chunk sizes between 1 and 2^31 - 1 among them, and every sequence of what the server sends to a client", "why_tests_cant": "Whether the two sides agree depends on all announcements before a message and on its length; a disagreement shows only in messages longer than a chunk after a change of size.", "anchors": ["src/avformat/sps_avformat_librtmp.cpp: RtmpHook::on_send_packet, RtmpHook::send_packet, RtmpHook::send_set_chunked_size", "src/avformat/sps_avformat_rtmpenc.cpp: RtmpAVMuxer::write_packet"]}
{"id": "C127", "title": "What a client sends in chunks of the size it announced is received", "statement": "A client may announce the size of its chunks at any time. From the next message on the server reads chunks of that size: whatever messages a client sends, they are received, complete and in order, also those after announcements and those of a stream that starts after the announcement.", "quantifier": "every sequence of messages of any sizes from a client that uses chunks of the size it announced last, with any announcements in between", "why_tests_cant": "The two sides get out of step only for messages longer than the smaller of two chunk sizes, after an announcement at the right place of the conversation.", "anchors": ["src/avformat/sps_avformat_librtmp.cpp: RtmpHook::recv_packet, RtmpHook::on_recv_packet", "src/module/rtmp/sps_rtmp_server_handler.cpp: RtmpPreRequest::connect"]}
{"id": "C128", "title": "What a client sends after the RTMP negotiation reaches its stream", "statement": "Everything an RTMP client sends after the command that starts its stream is seen by the stream, from the first byte on, in order and once, however the bytes arrive on the connection.", "quantifier": "every way in which what a client sends is cut into pieces on arrival, and every behaviour of the RTMP library on top of reading and writing, during the negotiation and after it", "why_tests_cant": "Whether bytes of the stream arrive in one piece with the last command depends on the network and on the client; a test on one machine sees one way of cutting.", "anchors": ["src/module/rtmp/sps_rtmp_server_handler.cpp: RtmpPrepareHandler::handler", "src/module/rtmp/sps_rtmp_server.cpp: RtmpContext::RtmpContext", "src/avformat/sps_avformat_librtmp.cpp: RtmpHook::SPS_RTMPSockBuf_Fill"]}
{"id": "C129", "title": "The header fields of a message are those that were sent", "statement": "The fields of a request or response that this program works with are the fields the peer sent, each once, in order, with name and value; asking for a name gives the value of the first field of that name, also when the value was sent in several lines.", "quantifier": "every list of fields, with values of any number of lines", "why_tests_cant": "all lists of fields and every way of folding values", "anchors": ["src/module/http/sps_http_parser.cpp: HttpParser::on_header_field, on_header_value", "src/io/url/sps_io_url.cpp: RequestUrl::get_header"]}
