{
 "C01": [
  "proved",
  "all buffers, all read programs; reads past the end are undefined behaviour in the model"
 ],
 "C02": [
  "partial",
  "proved for requests below 2^29 bytes; negation proved for 2^29 (32-bit multiplication wraps)"
 ],
 "C03": [
  "partial",
  "proved for all field lists without a six bit piece, for all byte-wide writers, and for bytes written and left out in any order (C03_skip). Missing because false: six bit pieces (mask 0x2f, negation)"
 ],
 "C04": [
  "proved",
  "all write programs that fit, and the overflow side as undefined behaviour; read-back through the reader"
 ],
 "C05": [
  "proved",
  "all transports, fragmentations, error placements, buffers below 2^63 bytes and client programs"
 ],
 "C06": [
  "proved",
  "in every state reachable by any client program over any transport"
 ],
 "C07": [
  "partial",
  "all buffers and read programs with sizes below 2^31; negation proved for 2^31 (size cast to int)"
 ],
 "C08": [
  "partial",
  "file reader proved for all contents; memory reader proved for buffers not ending in a bare newline; for every buffer no call reads outside it and nothing but newlines is lost; negation proved"
 ],
 "C09": [
  "partial",
  "single write proved; negation proved: a second write overwrites the first"
 ],
 "C10": [
  "partial",
  "appends, and bytes counted with skip, proved for buffers without reserved head; negation proved for reserved heads"
 ],
 "C100": [
  "partial",
  "Proved for every list of results of the system calls: C100_listen_partial (TCP, TLS, SRT), C100_udp, C100_connect (full). Missing, because the code does otherwise: ports above 65535 are cut to 16 bits (C100_negation_port), a transport that was not built in is a null call (C100_negation_transport), the second way to bind an SRT listener never works (C100_negation_second)."
 ],
 "C101": [
  "partial",
  "C101_answers_partial: for every sequence of messages with one connect whose play/publish transaction number is an integer of int range, every answer fits its array, is read back by an independent AMF0/control reader and is exactly what is owed to each command, in order. Missing: other transaction numbers of play/publish, for which the code is undefined or answers another number, and further connects, which get no answer (negations proved)."
 ],
 "C102": [
  "partial",
  "For files with at most one http block, a port per server block, and distinct host names; over HTTP for hosts that are proxies. C102_negation_port: of two server blocks on one port the hosts of the second are not served; C102_negation_mixed: the same with an rtmp and an http block; C102_negation_override: a host with the name of a global one keeps the program from starting. Streaming hosts are C110."
 ],
 "C103": [
  "partial",
  "Proved for inputs whose streams are all kept except some last ones and for packets whose times are not negative; what packets say they are: C103_kinds_partial (audio packets do not say that they are audio). C103_negation_attachment: an ignored stream before the media shifts the streams, or is undefined; C103_negation_exit: a packet without a decoding time or before zero ends the process, for every input; C103_negation_ms: the times of packets are in the units of the container, not in milliseconds."
 ],
 "C104": [
  "partial",
  "Proved for every sequence of messages and every sequence of read sizes that the bytes read are the beginning of the FLV file of the audio, video and script messages and within the size asked for, and with sizes from 13 that every read makes progress and the end comes exactly after the whole file (C104_read_partial); that writes of whole tags send exactly the tags' messages (C104_write_partial); what any write does, whole tags or not, accepted or refused (C104_any_write); and the way through both (C104_roundtrip). Missing because the code violates it: reads of up to three bytes may stop for ever (C104_negation_stall), a write that ends inside a tag fails (C104_negation_cut), stream numbers and AMF3 data in tags (C104_negation_standard). A media message without body gives no tag. Sizes are below 2^31; librtmp's failures without an error of the transport are messages without body."
 ],
 "C105": [
  "partial",
  "Missing: after the negotiation the program replaces the RTMP object, so that media are read in chunks of 128 bytes whatever size the publisher has announced (C63_negation_chunk_size), and the theorems speak of what is read that way; pulls of the stream keep apart from its publishers (C14). The answers are those of C101 (integer transaction numbers, one connect). RTMP players: composition times as in C92."
 ],
 "C106": [
  "partial",
  "Missing: field names are recognised in the spelling Host, Content-Length, Transfer-Encoding only (C46_case), headers are at most 2048 bytes (C42), pulls of the stream keep apart from its publishers (C14) and are prompt (C16); a publisher gets no response (C75_negation_post); extensions other than flv: C75, C76."
 ],
 "C107": [
  "partial",
  "Missing: the code ignores what follows the last comma of an id, so a client with the usual id h=...,m=request becomes a publisher (C107_negation_mode); resources with srt:// (C55_negation_schema); pulls of the stream keep apart from its publishers (C14), and nobody has published the key of its raw copy by name (C15, C16); tables that give pid 0 to a program map (C95); units of other shape than NAL units and ADTS frames (C96_any for their packets)."
 ],
 "C108": [
  "partial",
  "Missing: pulls of the stream that get in the way of its publishers at the server asked (C14, C16); RTMP pulls (they crash, C89)."
 ],
 "C109": [
  "partial",
  "All of it except for the address of the destination: C109_negation_peer, C109_negation_session."
 ],
 "C11": [
  "proved",
  "every history; the returned list"
 ],
 "C110": [
  "partial",
  "For files that are sound as in C102 and up to the limits of C105-C108 (among them: pulls of the stream keep apart from its publishers). Players of absent streams: a 404 over HTTP, turned away over RTMP and SRT without a word (C110_rtmp_absent_partial, C110_srt_absent_partial; over RTMP the answers to the commands have said that the stream starts). Over SRT the settings of the block are not looked at: everyone may publish (C74_negation_srt)."
 ],
 "C111": [
  "partial",
  "Proved for streams whose packets FLV keeps as far as the cache looks at them (kept), which holds for all RTMP and HTTP publishers (C111_kept). Negation: supplemental information units of SRT publishers. As in C108: HTTP between the servers, FLV."
 ],
 "C112": [
  "partial",
  "Proved for streams without video command frames, for joins at which no configuration has come since the last key frame. Negations: command frames; a join between a new configuration and its key frame."
 ],
 "C113": [
  "partial",
  "The composed line is used as a format once more, so what clients send is taken for conversions. Exactly what is printed (C113_exact, every message): with every % doubled, half of them; with a % that is not doubled, undefined behaviour. Proved for clients without a % in target, URL or stream id (C113_http_partial, C113_rtmp_partial, C113_srt_partial), for every RTMP negotiation that names streams and ways of publishing without % (C113_negotiation_partial), and for both lines of an RTMP connection (C113_rtmp_lines_partial). Where an RTMP negotiation with its lines ends, it ends as without (C113_negotiation_same). The negations show that every request whose target has an escaped character, every RTMP URL or SRT stream id with a % that is not doubled, and every RTMP publish whose way of publishing has one, runs into undefined behaviour. Crash-freedom claims of other properties are about the program without its log lines. Missing: requests with %, where the claim is false; the lines about errors."
 ],
 "C114": [
  "partial",
  "Accepted connections and players: proved in full (C114_configured, C114_read, C114_in_time, C114_write, C114_write_stalled, C114_players). Partial because the code violates the last sentence: connections to upstreams without TLS have no limit whatever is configured (C114_negation_upstream); with TLS they have one (C114_upstream_tls)."
 ],
 "C115": [
  "proved",
  "Publishers over HTTP with an FLV body, RTMP, and SRT with a transport stream; players over HTTP (FLV), RTMP and SRT. A turn is one pass of a handler's loop; a player's turn with nothing pending is the end of its time limit (C114). An SRT connection is taken to report its end by an error code. Other formats (which the handlers only reach through ffmpeg, not part of the build) are not covered."
 ],
 "C116": [
  "proved",
  "Every execution of requests that meet conditions on them alone (Spec/Safe). The conditions are needed: C75_negation_crash, C98_negation_crash. Undefined behaviour inside the negotiation before a request is served is the subject of C46, C58, C60, C101."
 ],
 "C117": [
  "partial",
  "Missing: after 2^31 - 1 coroutines the counter, an int, overflows (C117_negation_overflow)."
 ],
 "C118": [
  "partial",
  "Proved for every address and port over TCP and TLS, with the notation shown to be readable. Over SRT the address is right but the two bytes of the port are exchanged (proved wrong unless they are equal), and a failed accept makes a connection from an address that was never written: negations."
 ],
 "C119": [
  "partial",
  "Proved for fields in any number and order, with names in any case except that of Host (C119_fields_partial). Missing, with witnesses: the field host in small letters (C119_negation_field), capitals in the name of the host (C119_negation_name)."
 ],
 "C12": [
  "proved",
  "every interleaving of publish, put, play, dump, leave and pull pieces by any number of players"
 ],
 "C120": [
  "partial",
  "C120_http_partial: a request without % in its target whose header has at most 1500 bytes makes one line, however its bytes arrive. C120_rtmp_partial: an RTMP client whose URL has no % and at most 3000 bytes makes one line. C120_srt_partial: an SRT client whose stream id has neither % nor a line feed makes one line. Missing because false: a stream id with a line feed is printed as it is, so the client writes lines of its choice and is treated as any other (C120_negation_srt, every such id); a request whose target and query have 4022 bytes together is cut at 4095 bytes and has no end of line (C120_negation_long); a single % is undefined (C113)."
 ],
 "C121": [
  "partial",
  "C121_kept, C121_server: in every execution what is kept of a stream is exactly the start-up packets. C121_bound_partial, C121_server_bound_partial: at most n + 3 packets if of any n media packets one is a key frame. C121_waiting: what waits for a player that has read was published since. Missing because false: the raw copy of an SRT stream keeps every packet but the tables, from the first on (C121_negation_raw, C121_negation_srt: in every execution, for every SRT publisher); there is no bound for streams without further key frames and for players that do not read (C121_negation_long)."
 ],
 "C122": [
  "partial",
  "C122_h264, C122_read, C122_units: H.264 in full, end to end from the datagrams to read_packet (units up to a megabyte in datagrams without padding and extension; clock and fresh memory arbitrary). C122_reports, C122_refused. C122_none: without a codec the demuxer is that of C66. C122_aac_partial: AAC units are exact if the caller ignores the error. Missing because false: init_codec for AAC reports an error, as its case has no break (C122_negation_aac, every demuxer)."
 ],
 "C123": [
  "partial",
  "C123_status: for every command line, file system, configuration and answer of the operating system the program serves, ends with a status from 1 to 255, or is undefined; C123_why: which status it is; C123_serving: serving means the file was opened and read and every server block's port is listened on. C123_starts_partial: sound configurations (C102) in a file that may be read and written serve. False of the code: a file that may only be read is refused (C123_negation_readonly), so is one whose name is no URL (C123_negation_name), and two http blocks are undefined behaviour (C123_negation_crash). In the model exit() always gives 255 (the code: 255, or 1 for unknown blocks)."
 ],
 "C124": [
  "partial",
  "C124_bytes and C124_handshake: in full, for every library and transport. C124_failure_partial: failures are reported with their error when the library's last call is the one that failed. Otherwise they may be reported as success, without a message (C124_negation_close: a library that sends something after the failed read, as stock librtmp does when it closes a stream it plays)."
 ],
 "C125": [
  "partial",
  "C125_once: over every program of operations on packets no body is freed twice or used after being freed, and lent memory stays. C125_lost: the memory in use at any time is that of the start, the bodies of the packets there are, and exactly one body for every failure in the first chunk of a message. C125_back_partial: nothing is left when all packets are gone, if the library never fails in the first chunk of a message. C125_negation_first: such a failure loses the body. What the library leaves in a packet on failure is an assumption about librtmp (four outcomes)."
 ],
 "C126": [
  "proved",
  "C126_read: a reader that follows the announcements reads back every sequence of messages. C126_client: the same for what the server sends to a client, where the chunk size stays 128. How librtmp writes headers is not modelled: headers of messages and of further chunks are symbols."
 ],
 "C127": [
  "partial",
  "C127_received_partial: the object that receives all messages gets them, in the order of completion, with chunks of messages on different channels mixed in any way, and expects the size the client uses. Missing: a change of object. C127_negation_lost: an announcement made before the stream starts is lost with the object, so that the next message longer than 128 bytes is not received. C127_negation_zero: announcements of 0 and of 2^31 are taken. Headers are symbols, as in C126."
 ],
 "C128": [
  "partial",
  "C128_order: no byte is seen twice or out of order, and what the negotiation did not get is seen, for every program of the library. C128_seen_partial: a client that sends its stream after the answer loses nothing, if the library reads only when it needs something. C128_negation_pipelined: bytes that arrive together with the last command are lost with the first object, which the negotiation used."
 ],
 "C129": [
  "partial",
  "C129_exact: what every list of fields gives, folded or not. C129_fields_partial: in full for fields whose values have one line. Missing because false: a value in several lines becomes several fields of that name, and asking for it gives the first line (C129_negation_folded, every such field). What http_parser calls back for a field (its name, then every line of its value) is assumed."
 ],
 "C13": [
  "partial",
  "queues proved; negation proved for the count returned by the group-of-pictures cache (headers are not counted)"
 ],
 "C14": [
  "partial",
  "every interleaving, for a key that does not start with ts:// and whose pulls keep apart from its publishers (no pull of it opens or gives its key up while a publisher of it is connected; other keys may be pulled as they like); negations proved: a pull and a publisher of the same key race (C14_negation_pull), an ended pull whose starting player goes on late frees the key of the publisher that followed (C14_negation_late)"
 ],
 "C15": [
  "partial",
  "isolation and key distinctness for every interleaving; attachment to the connected publisher for keys whose pulls keep apart from their publishers (C14 without; C15_negation_pull shows two players of one key on different streams), to a pull as in C16; no source for every interleaving"
 ],
 "C16": [
  "partial",
  "release for every interleaving; a pull starts, and publishers are admitted, whenever nobody publishes and no pull is going on, for every interleaving (C16_free); one pull per key for every interleaving in which the player that started a pull of that key goes on before the next pull of the key starts (prompt k; other keys are free), negation without (C16_negation_two_pulls); sharing for every pull that opens while no publisher of its key is connected, whatever happens afterwards, negation with one (C14_negation_pull)"
 ],
 "C17": [
  "proved",
  "every packet sequence, header, fragmentation and tag buffer memory; packets come back in their wire form, supported packets unchanged"
 ],
 "C18": [
  "proved",
  "every sequence of carried packets with bodies below 2^24 bytes, filters and write failures; other packets are refused"
 ],
 "C19": [
  "partial",
  "acceptance proved for every complete tag; the error proved except for empty audio and video bodies; negations proved: the error depends on the following byte, and the read may leave the buffer"
 ],
 "C20": [
  "partial",
  "every pair of fragmentations and initial memories: same packets, same error unless the stream reaches a body too short for its sub-header; negation proved"
 ],
 "C21": [
  "partial",
  "proved for composition offsets 0..15; exactly which offsets survive is proved (C21_what_survives), other offsets refuted; the decision of the demuxer is proved for every message; one-byte audio reads past its body"
 ],
 "C22": [
  "partial",
  "proved for every history without pings and with windows set before the first acknowledgement, below 2 GB; the four exceptions refuted"
 ],
 "C23": [
  "partial",
  "equivalence with the RTMP command grammar proved for every property list except publish with exactly five properties and connect with a null object, both refuted"
 ],
 "C24": [
  "proved",
  "All header fields equal the bit fields of the standard for every packet; position of the payload for packets whose adaptation field has room for the fields it announces; shorter buffers and other first bytes are rejected without effect."
 ],
 "C25": [
  "proved",
  "Over every history of 188-byte packets including rejected ones (replay), every handled pid is derivable from the announcements (inductive Announced); other pids are ignored."
 ],
 "C26": [
  "partial",
  "Sections within one packet directly after a pointer field of 0, any number of programs that fits. Negations: a later section start (pointer field not followed), sections of several packets (rejected), network pid taken for a program map."
 ],
 "C27": [
  "partial",
  "Sections within one packet directly after a pointer field of 0, any descriptors and entries. Negation for later section starts."
 ],
 "C28": [
  "partial",
  "Any interleaving with other pids, any split, full PES header syntax. Missing: H.264 units with an announced length or of 64 KiB and more (negations: the codec is given bytes behind the data, or loses the unit), streams whose first counter is not 0 (negation)."
 ],
 "C29": [
  "proved",
  "After every accepted history the next packet with another counter is rejected with no effect on handlers, streams or programs; any number of such packets leaves everything as it was (no resynchronisation until the counter comes round)."
 ],
 "C30": [
  "proved",
  "All 33-bit values of PTS and DTS, through the complete packet path; without a DTS it equals the PTS."
 ],
 "C31": [
  "proved",
  "decodeAll equals packet-by-packet decoding on multiples of 188 and never succeeds on other sizes."
 ],
 "C32": [
  "partial",
  "Header fields for every valid packet (C32_fields), payload for every valid packet without padding and extension (C32_payload_partial), refusal of short packets (C32_short), no read outside (C32_inside). Missing because false of the code: padding is never removed, the extension length is taken as bytes (C32_negation_*)."
 ],
 "C33": [
  "partial",
  "Fragments put together give exactly what the single unit packet gives, for every way of cutting a unit below 1 MiB. Missing because false of the code: a lost or repeated start fragment is not noticed, units above 1 MiB (C33_negation_*)."
 ],
 "C34": [
  "partial",
  "C34_exact_partial says what the code makes of every aggregation payload; it is not what RFC 6184 says (C34_negation_stap): the header byte is not skipped, sizes are one byte, and a nested unit takes everything left."
 ],
 "C35": [
  "proved",
  "Dispatch on the five type bits for every payload and every history of packets."
 ],
 "C36": [
  "partial",
  "All separators are covered; the unit before a 4-byte start code keeps one trailing zero byte (negation proved), equal up to trailing zeros otherwise. For every buffer whatever the answer is exact: accepted with the units us if and only if the specification finds us in it (C36_any), refused otherwise (C36_refused). Safety proved for every buffer."
 ],
 "C37": [
  "partial",
  "Round trip of 4-byte lengths proved; emission proved for unit types 1,5,6,7,8,9; other types are dropped by the code (negation)."
 ],
 "C38": [
  "partial",
  "Whole-history theorem; compatibility byte is always 0, a lone PPS is not announced, and the record cannot be read back (negations). Exactly which records are read: C38_reads_partial (sets behind four byte lengths, counted in half); no record of the standard with an SPS is among them (C38_negation_reads). The reading of records is an interface of the parser that the server does not use."
 ],
 "C39": [
  "partial",
  "Splitting and sync rejection proved; whatever buffer is accepted is a sequence of ADTS frames and the answer is their payloads (C39_any). Frame length beyond the buffer, below the header size and missing checksum are undefined behaviour (negations)."
 ],
 "C40": [
  "proved",
  "Every emitted AudioSpecificConfig, in every parser state."
 ],
 "C41": [
  "proved",
  "Every parameter list (keys without '=', values without '&'), through the URL parser; lookup finds the first. A flag without '=' is glued to the next key (C41_negation_flag)."
 ],
 "C42": [
  "proved",
  "Every transport: at most the maximum, never past the first CRLFCRLF. Exact for every header with CRLF line ends, every fragmentation; too large and cut short reported. Other line ends may stop it inside the header (C42_negation_bare)."
 ],
 "C43": [
  "proved",
  "Writer, both readers and their composition with the header reader, every fragmentation and read sizes, any valid size lines up to 31 characters; connections that end early never look complete (C43_cut). Empty write in the middle: C43_negation_empty."
 ],
 "C44": [
  "partial",
  "Every n with 0 < n < 2^31 (the length is kept in an int); on every transport with errors never more than announced. n = 0 gives an error instead of the end (C44_negation_zero)."
 ],
 "C45": [
  "partial",
  "Every write history without failures; header fields given by the caller must not repeat the framing field, which proxied responses do (C45_negation_twice); after a failed header write the body goes out without header (C45_negation_failed)."
 ],
 "C46": [
  "proved",
  "Every header list; lengths below 2^31. Names are compared case-sensitively (C46_case)."
 ],
 "C47": [
  "proved",
  "Chunked (any chunks), announced length below 2^31, until close, and empty; every fragmentation on both sides. The header sent is described by C45."
 ],
 "C48": [
  "proved",
  "Every line: parse agrees with the relation LineSays (words, comments, final marks); the three quirks of the format are negations."
 ],
 "C49": [
  "proved",
  "C49_file characterises exactly the accepted files (blocks root in the file excluded: negation) and their modules; C49_render is the round trip."
 ],
 "C50": [
  "partial",
  "Every option of a block has the meaning of the last directive naming it, or its documented default (table in Spec/Conf), for every block text. Missing: booleans accept any text beginning with on (negation)."
 ],
 "C51": [
  "proved",
  "Every list of registered hosts and every requested name."
 ],
 "C52": [
  "proved",
  "Success exactly when the slot is free and the name allowed; failures change nothing; the first stays. merge forgets the default host (negation; nobody calls it)."
 ],
 "C53": [
  "proved",
  "Handlers are arbitrary functions on an arbitrary connection state that return, crash or never return."
 ],
 "C54": [
  "partial",
  "Proved for distinct ports and one http block, starting and selection; for every configuration, that it listens on every port when it starts; second block on a port, two http blocks: negations."
 ],
 "C55": [
  "partial",
  "For every list of pairs each followed by a comma the URL and the mode are those of the last h and m; in general a last pair without a comma is ignored (C55_negation_last, C55_negation_player), and a schema in the resource is doubled (C55_negation_schema)."
 ],
 "C56": [
  "partial",
  "For every history the datagrams queued for a session are read in order, drops happen only at 4000 waiting, failed reads change nothing, living sessions have different keys, sessions are accepted once in order; but the session is not that of the peer: C56_negation_peer (every two peers share a session), C56_negation_mixed, C56_negation_key. Datagrams of more than 4096 bytes are cut (C56_negation_long)."
 ],
 "C57": [
  "partial",
  "Socket::read_fully is exact over every reader that hands out bytes in order (TCP, SRT, UDP sessions), and returns; the transport's own SRT read_fully overwrites (C57_negation_srt, right only if one read suffices: C57_one_partial) and plain UDP loses bytes (C57_negation_udp)."
 ],
 "C58": [
  "proved",
  "Messages have at most 1316 bytes and concatenate to the buffer; a failed write sent a prefix; success if libsrt keeps taking bytes. libsrt's calls are arbitrary lists of outcomes."
 ],
 "C59": [
  "partial",
  "Exact effect of every event; over all histories each waiter returns at most once, with a cause in the history, a notified waiter does return, and what it waits for is watched. Missing: the error flag is dropped from the watch when another waiter goes (C59_negation_error), so the rest is not woken by errors."
 ],
 "C60": [
  "partial",
  "The first packet of every buffer decodes to its fields (C60_first_partial, C60_reports) and inside the buffer (C60_inside); the rest of a compound buffer is never looked at, SDES is undefined behaviour, report blocks are read without their source (C60_negation_*)."
 ],
 "C61": [
  "partial",
  "For all registers, extensions and memory after them: the choice matches, is the first by address, none only if nothing matches; independent of the order when no extension begins another, as for the installed formats; protocols by exact schema. C61_negation_order, C61_negation_prefix."
 ],
 "C62": [
  "partial",
  "what the cache yields is proved for every history; the claim about unit starts is refuted"
 ],
 "C63": [
  "proved",
  "exact characterisation for every message sequence when sends succeed; exactly-one-role for every placement of send failures; the lost chunk size and the read past a command of one byte that is not AMF are refuted remarks"
 ],
 "C64": [
  "partial",
  "Elementary streams and unknown pids: any payload. Negations with witnesses for sections longer than the packet and contradictory adaptation fields."
 ],
 "C65": [
  "proved",
  "readPacket over the modelled 188-byte BytesReader buffer on any two transports with the same bytes gives the same session; one call decodes the whole packets in order."
 ],
 "C66": [
  "partial",
  "Every sequence of datagrams without marker bit, padding or extension, RTCP packets anywhere in between; refused with the marker bit on the first (C66_negation_marker)."
 ],
 "C67": [
  "partial",
  "Exact cutting and the error are proved; the times are not those of the units (C67_negation_times)."
 ],
 "C68": [
  "proved",
  "For every history the transport layer accepts, composed from C28-style reassembly reports, H.264 and AAC parsers; C68_any has no condition on the content of the units (each under 512 MiB): every accepted unit says something and the packets are exactly those of what the units say; C68_refused: the rest is refused."
 ],
 "C69": [
  "partial",
  "First line, host and fields in order; the body is lost and fields are added (C69_negation_body)."
 ],
 "C70": [
  "partial",
  "Every URL but file:, given the fields found by the external http_parser; file: loses a character (C70_negation_file)."
 ],
 "C71": [
  "partial",
  "stream and proxy hosts; api and enabled are negations."
 ],
 "C72": [
  "proved",
  "All addresses with decimal ports below 2^31; upstream names are not resolved (negation)."
 ],
 "C73": [
  "partial",
  "Hosts with pass_proxy or pass_url; with an upstream block the URL lacks its host (negation)."
 ],
 "C74": [
  "partial",
  "Admission of publishers and players is decided exactly as stated, refused requests change nothing. Missing: SRT publishers are admitted whatever the host's role (negation)."
 ],
 "C75": [
  "partial",
  "403, 404 and 200 responses are exactly one well-formed head. Missing (negations): silent refusals, no length on refusals, publishers never answered, crash through the format -."
 ],
 "C76": [
  "proved",
  "Every execution of any number of connections, for HTTP-FLV players."
 ],
 "C77": [
  "proved",
  "Every execution; uploads in FLV in any HTTP framing and fragmentation, complete or cut off where the connection is lost; HTTP-FLV players; other formats are covered by their own theorems."
 ],
 "C78": [
  "proved",
  "Both sides, every framing and fragmentation."
 ],
 "C79": [
  "partial",
  "Proved without HTTP, until close, with a length, and in chunks for uploads lost in a size line or in the data of a chunk; lost in the line end behind a chunk, and the client's chunks: negations."
 ],
 "C80": [
  "partial",
  "names proved equal for all three protocols and distinct for distinct streams, for every URL parser that finds the parts of a URL (a parser is given and proved to); attaching an HTTP player to the publisher or the pull as in C15 and C16; negations: query in the application URL, host field not spelled Host"
 ],
 "C81": [
  "proved",
  "Any packet; players one after another (C81_sequence) and with their pieces in any order (C81_interleaved, C81_progress). Rests on the contract of m_pktReadonly of the librtmp fork, whose source is not in the repository; C81_without_switch and C81_without_switch_large say what stock librtmp would do."
 ],
 "C82": [
  "proved",
  "Any packet and time. Rests on the contract of m_pktReadonly; C82_without_switch says when stock librtmp would stay inside the packet."
 ],
 "C83": [
  "proved",
  "The record layer of OpenSSL is a parameter that must be lawful (more ciphertext never takes back plaintext; SSL_read returns at least one byte when there is one). C83_like_tcp covers every program that reads; C83_flv is the FLV demuxer. C57_negation_tls: read_fully of the TLS class itself overwrites the start of the buffer; it is not the one the wrapping socket uses."
 ],
 "C84": [
  "proved",
  "Sealing is a parameter; non-empty buffers."
 ],
 "C85": [
  "partial",
  "Neither side reports success before its handshake is finished (C85_sound). Proved for servers whose client waits for the last flight, and for clients fully. Data that arrives in the same read as the client's last flight is dropped (C85_negation_early, for all such data)."
 ],
 "C86": [
  "partial",
  "Proved when every handshake ends. The handshake runs inside the accept loop without a time limit, so a silent client blocks all later ones (C86_negation_stalls)."
 ],
 "C87": [
  "partial",
  "Proved for clients that name a host. The server's own certificate is never used (C87_negation_own)."
 ],
 "C88": [
  "partial",
  "Proved while accept does not fail. A failed accept dereferences a null pointer (C88_negation_fails)."
 ],
 "C89": [
  "partial",
  "Exact conditions for feeding and crashing for every URL and answer; safe for http URLs with a known extension and answers that http_parser takes something of. Missing (negations): unknown extension, RTMP pulls, https, and answers that are not HTTP (C89_negation_garbage)."
 ],
 "C90": [
  "proved",
  "Every execution; FLV pulls in any framing and fragmentation, answered by any HTTP server with or without Content-Length or chunked, or cut off inside a body that is not chunked (C90_http_server, C90_http_packets); HTTP-FLV players."
 ],
 "C91": [
  "partial",
  "Every execution and message sequence; the crash-freedom part excludes one-byte audio messages, for which C91_negation_crash shows that it fails."
 ],
 "C92": [
  "partial",
  "Every execution, for packets RTMP can carry; playing never crashes (C92_defined). Offsets other than 0 to 15 excluded, with a negation."
 ],
 "C93": [
  "partial",
  "Every execution; exact for composition offsets 0 to 15."
 ],
 "C94": [
  "partial",
  "RTMP to HTTP fully; HTTP and upstream to RTMP up to composition offsets; RTMP pulls crash (C94_negation_pull)."
 ],
 "C95": [
  "partial",
  "Proved for every byte stream (whose tables do not map pid 0), every interleaving and every join time: which packets are passed on, what a player is sent (an initial part, all when nothing is pending), own stream, refusals, playing never crashes; Relayed is proved deterministic. Missing, with witnesses: null, unannounced and clock-only packets are dropped, the start of a late player is everything since the publisher began, one bad block ends the stream."
 ],
 "C96": [
  "partial",
  "Proved: the published frames are those of the completed units, all of them when the publisher has stopped, and the completed units of an announced stream with counters in sequence are those its packets carry; for units of any content in C96_any (under 512 MiB each). Missing, with witnesses: two crafted packets crash the server; the last unit is lost."
 ],
 "C97": [
  "partial",
  "Proved: HTTP and RTMP players are sent the start-up frames and what follows, in order and once each. For RTMP the units must be of the supported kinds: a condition on the publisher's transport stream (C97_srt_units_to_rtmp_partial for well-formed units, C97_srt_any_to_rtmp_partial for units of any content below 512 MiB: no SEI, display times less than 2^23 ms from decoding times). Negation: SEI units are written as command frames (C97_negation_sei)."
 ],
 "C98": [
  "partial",
  "Noninterference: an execution and the same execution without the turns of one player agree for everyone else (simulation, Lemmas/Twin). Missing: the case that the player crashes the server (C98_negation_crash); the pending packets of a hanging player are unbounded (C98_negation_queue)."
 ],
 "C99": [
  "partial",
  "Proved for requests without a body whose fields say nothing about connection and framing, to unknown hosts and to proxied hosts whose upstream answers with a non-empty sized or a chunked body (C99_answers_partial); every connection ends for every input if http_parser takes a byte of every header (C99_ends_partial). False in full: a header the parser refuses at its first byte crashes the process or replays the request before; bodies are taken for requests; unreachable upstreams give no answer; refusals of the stream handler are unframed; Connection: close is ignored; headers over 2048 bytes are not answered. http_parser is a parameter (Reads), with an instance that meets it."
 ]
}