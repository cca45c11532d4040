# Formal model of byrcoder/sps in Lean 4

The subject is the C++ media server in `/repo/src` at the pinned commit. The code was read as text only; it was not built or run.

## Layout

| Path | Content |
|---|---|
| `properties.jsonl` | the English properties C01, C02, ... (generated by `tools/mkprops.py`) |
| `lean/Verif/Model/*.lean` | the model: executable definitions, each citing the file and lines of `/repo/src` it models |
| `lean/Verif/Spec/*.lean` | small specifications that do not use the model's helpers (bit lists, tag chains, RFC grammars, tables) |
| `lean/Verif/Lemmas/*.lean` | helper lemmas: invariants, simulations, induction steps |
| `lean/Verif/Props/*.lean` | the property theorems `Cnn_*`, the `example`s that show their hypotheses are met, and the negations `Cnn_negation_*` |
| `MANIFEST.json` | property -> theorem names and status (generated by `tools/mkmanifest.py` from the theorem names and `tools/notes.json`) |
| `AXIOMS.md` | the axioms each of these theorems depends on (generated by `tools/axioms.py` from `#print axioms`) |
| `seeded/LOG.jsonl` | log of the wrong-program experiments made with `tools/mutate.py` |

Reading order for one property: the statement in `properties.jsonl`, the definitions it uses in `Spec`, the theorem in `Props`,
the cited model definitions. `Lemmas` need not be read.

## Modelling conventions

* Bytes are `UInt8`. Byte strings, C++ strings, configuration text and host names are `List UInt8` (`Text`). Lengths, positions and
  error codes are `Nat`. Where C++ arithmetic truncates or wraps (casts to u8/u16/u32/int, `nbyte * 8` in 32 bits) the model says so
  with an explicit `% 2^k` or `UInt8.ofNat`.
* A C++ function that mutates an object becomes a function returning the new state.
* Out-of-bounds access, failed `assert`, null dereference, use of an `end()` iterator and calls that terminate the process are a distinct
  outcome (`none`, `.ub`, `.undef`, `.exit`; said in each definition), never a default value. Uninitialised or foreign memory that
  the program reads is an arbitrary parameter, so theorems hold for every content.
* A transport (`IReaderWriter`) is a *schedule* (`Io`): the list of results the successive `read` calls will give (a non-empty piece of
  data no longer than asked for, or an error). All theorems about input quantify over all schedules; a writer is a list of results too.
* State-threads coroutines are cooperative: code between two blocking calls runs atomically. Concurrency is an arbitrary list of
  such atomic operations and theorems quantify over every list (any number of clients, any interleaving).
* Loops of the code are recursive functions with a fuel argument or structural in the remaining data. Where fuel is used, the
  theorems give an explicit fuel bound that suffices, or hold for every fuel, and running out is a distinct outcome.
* Maps (`std::map`, `std::set`) are association lists (`Assoc`) with the lookup laws proved; where the address order of a `std::set` is
  observable (C61) addresses are part of the model.
* Error codes are the numbers of `sps_error.hpp` (`Model/Err.lean`).

## Plan per property

"Spec" names what the theorem is compared with. Status is in `MANIFEST.json`.

| Id | What is modelled | Spec and method of proof |
|---|---|---|
| C01 | `BitContext` position, remaining bits, cached value, `read_bits` loop (`Model/Bits`) | list of bits of the buffer; simulation, induction over read programs |
| C02 | `acquire`, `acquire_bits`, all reads, out of bounds as an outcome | bit count; from C01. The 32-bit wrap at 2^29 bytes is a negation |
| C03 | `write_bits`, `next_write` with the mask table of the code; `write_bytes`, `skip_write_bytes` | concatenated field bits; simulation. Mask 0x2f for six bits is a negation |
| C04 | `BytesWriter`/`BytesReader` over one `AVBuffer` (`Model/Bytes`) | base-256 digits; induction over write/read programs |
| C05, C06 | `AVBuffer` (memory, cap, ptr, end), `rewind`, `acquire` loop | "delivered ++ buffered ++ unread = stream" by induction over client programs (`Model/RProg`) and schedules |
| C07–C09 | `MemoryReaderWriter`, file reader (`Model/Memory`) | slices of the buffer; induction over read programs; negations for huge sizes, last newline, second write |
| C10 | `CharBuffer` memory with head offset | list append; negation with a reserved head |
| C11, C13, C62 | `AVGopCacheStream`, `AVRingCacheStream`, raw cache (`Model/Cache`) | the start-up list as a function of the history; induction over histories |
| C12, C14–C16 | publishers, players, `StreamCache`, `StreamEdge` as a transition system of atomic pieces (`Model/Stream`) | ghost histories; invariants over all operation lists; negation for a pull racing a publisher |
| C17–C20 | FLV muxer and demuxer on bytes and on a transport (`Model/Flv`) | FLV tag grammar (`Spec/Flv`); induction on packets; demuxer on a schedule = demuxer on the stream |
| C21 | RTMP media packet conversion | FLV/RTMP field layout; arithmetic; negation with composition offsets above 15 |
| C22 | `RtmpHook::ack` | counter specification over histories |
| C23, C63 | AMF command dispatch, handshake and negotiation loops (`Model/Rtmp`) | command grammar, conversation automaton; case analysis, induction over message lists |
| C24–C31, C64, C65, C68 | `TsPacket`, PSI, PAT, PMT, PES, `TsContext`, `TsDemuxer` on the bit reader of C01 (`Model/Ts`) | standard's bit fields (`Spec/Ts`); field equations from C01, history induction, reachability by announcements; C68 also for units of any content (`Spec.TsCodec.says`) |
| C32–C35, C60, C66, C67 | RTP header, FU/STAP/MTAP, RTCP, AAC over RTP, TS over RTP (`Model/Rtp`) | RFC 3550/6184/3640 layouts (`Spec/Rtp`); induction over fragments |
| C36–C40 | H.264 and ADTS parsers (`Model/H264`, `Model/Aac`) | Annex B / length-prefix grammars, the units of any buffer (`Spec.H264.Found`); induction over unit lists; bit writer of C03 for AudioSpecificConfig |
| C41, C70 | `RequestUrl` (`Model/Url`) | rendering of parameters and URL parts; split lemmas. `http_parser_parse_url` is external: its field offsets are hypotheses |
| C42–C47, C69 | header scanner, chunk reader/writer, length reader, response header, proxy loop (`Model/Http`) | byte-stream specifications (`Spec/Http`); simulation over every schedule |
| C48–C50 | tokenizer, line parser, recursive `init_conf`, option tables (`Model/Conf`) | relation `LineSays`, inductive tree grammar, last-value specification; induction over lines and trees |
| C51–C54, C71–C73 | router, phase chain, server installation, host dispatch, upstream addresses (`Model/Server`) | decision tables; induction over registrations, handlers, blocks |
| C55–C59 | SRT stream ids, `Socket::read_fully`, SRT/UDP sockets, UDP sessions, SRT dispatcher (`Model/Net`) | rendering of ids; reader contract `Sound`; per-session ghost queues; waiter histories |
| C74–C77 | `StreamHandler`, `StreamDecoder`, `StreamEncoder`, `HttpStreamPhaseHandler` on top of the stream world, the FLV (de)muxer and the HTTP response (`Model/Serve`) | decision tables; `flvResponse`, `uploaded` (`Spec/Serve`); invariant over all executions of any number of connections (`Lemmas/ServeInv`) |
| C78, C79 | `BytesReader` and the FLV demuxer over the HTTP body readers of both sides (`Model/Source`) | framing `BodyArrives`, `BodyCut` (`Spec/Http`); simulation of the demuxer over every source that delivers a byte string (`Serves`) |
| C61 | registers of formats and protocols (`Model/Register`) | first match; independence of address order |
| C80 | how RTMP, HTTP and SRT requests become stream keys (`Model/Names`); `http_parser_parse_url` is any function that finds the parts of a URL (`ReadsUrls`) | string equations over all names; a concrete parser is proved to meet the assumption; C15 for the attachment |
| C81, C82 | the memory of a packet shared by its players, and players being sent pieces of it in any order (`Model/Shared`) | invariant over all interleavings: the sub-header is always the same bytes at the same place; what librtmp without its switch would do (`C81_without_switch`) by induction over chunks and players |
| C83–C87 | `StSSLSocket` (both handshakes, `read`, `read_fully`, `write` with its memory BIOs), the accept loop, certificate choice (`Model/Tls`); OpenSSL's record layer and the lengths of the flights are parameters | simulation of every reading program by one over TCP; induction over pieces, records and clients |
| C88 | `Server::accept`, connection registry, coroutine start and end (`Model/Accept`) | invariant over all interleavings; counts over the history |
| C89, C90 | `StreamEdge::handler` with the protocol and demuxer registers, `start_edge`'s URL, and the decode loop on the upstream body, on top of `Model/Serve` (`Model/Relay`) | exact characterisation of feeding, ending and crashing; every execution with pulls is one of `Model/Serve`; invariant over all executions (`Lemmas/Relay`) |
| C91-C94 | RTMP publishers and players as further clients in `Model/Serve` (`rtmpRequest`, `runRtmpPub`, `runRtmpView`), with the RTMP demuxer and muxer of `Model/Rtmp`; pulls for them through `Model/Relay` | the invariant of `Lemmas/ServeInv` extended to them; `judge`/`media`/`Carries` (`Spec/Rtmp`) say what messages mean |
| C95-C97 | SRT publishers and players as further clients in `Model/Serve` (`srtRequest`, `runSrtPub`, `runSrtView`), with the transport stream demuxer of `Model/Ts` and its copy to the raw stream (`Model/TsTap`) | the invariant of `Lemmas/ServeInv` extended to them; `Relayed` and `played` (`Spec/Srt`) say which packets a player is sent, and are proved deterministic; `areUnits`/`flow` (`Spec/TsCodec`) say which frames a publisher's packets carry |
| C98 | nothing new in the model; `asksToPlay` and `without` (`Spec/Serve`) | a simulation between an execution and the same without one player's turns: worlds that differ only in one client (`Lemmas/Isolate`, `Same`), the shape of every piece (`Lemmas/Isolation`), systems that differ only in one player (`Lemmas/Twin`) |
| C99 | `HttpParsePhaseHandler`, `Http404PhaseHandler`, router, adapter, proxy and `HttpUrlProtocol::open` as phases over a connection state (`Model/HttpConn`); http_parser is a parameter | requests and answers put together from their parts, `Reads`, `Served` (`Spec/HttpConn`); induction over the requests; every read takes bytes (`Lemmas/HttpEnds`); a parser that meets `Reads` (`Lemmas/HttpReaders`) |
| C100 | `st_tcp_listen`, `st_tcp_connect`, `UdpFd::create_fd`, `st_srt_listen`, `st_srt_connect`, the socket factories and `Server::listen` over a system of open sockets whose calls succeed or fail as a list says (`Model/Sockets`) | one socket more or the same sockets, and how many calls must succeed (`Spec/Sockets`); each step keeps "the old sockets and one more" |
| C101 | the bytes of every message the server sends in a negotiation: `RtmpHook::send_*` with the AMF encoder bounded by the array on the stack, doubles as their bits, `double` to `int` (`Model/RtmpMsgs`) | a reader of AMF0 and of control messages, and what is owed to each command (`Spec/RtmpMsgs`); what is written is read back, composed with C63 |
| C102 | the chain of C49 (file), C54 (setup), C51 (routing) and C99 (connection), with the configuration read off the directives and blocks of the file by a small specification (`Spec/SiteFile.lean`) | composition: the modules that parsing builds are those the specification lists (structural induction over the blocks), routing of built hosts is choice among host blocks, and proxies of the file are proxies of the modules; partial: files with one `http` block at most, every server block its own port, distinct names of hosts; `C102_negation_port`, `…_mixed` and `…_override` for files that are not |
| C103 | `FFmpegAVDemuxer::read_packet`, `FFmpegAVMuxer::set_av_ctx`, `write_header`, `write_packet` with `stream_mapping` (`Model/Ffmpeg`); of FFmpeg only the rounding of `av_rescale_q`, and that a muxer takes packets and chooses time bases | nearness of rescaled times by integer division; induction over streams (mapping) and packets; order from monotone rescaling |
| C104 | `FFmpegRtmpUrlProtocol::read` and `write` (`Model/FlvIo`), with `write_flv_tag` and `parser_flv_head`; received messages and the answers of sending are parameters | the FLV file of a list of messages (`Spec/FlvIo`); "what is left" shrinks by exactly the bytes returned, by induction over reads; reading a tag and writing it are inverse; partial: the negations |
| C105 | the phases of an RTMP connection, `RtmpSite.arrive` (`Model/RtmpConn`), followed by the request of `Model/Serve`; what librtmp takes from the connection is a parameter, as a function of the chunk size that the new object expects | composition of C63, C101, C80, C51, C74, C15, C91-C94 over `Sys.run`; the log is split at the player's request; connections keep their kind by induction over the run |
| C106 | the phases of an HTTP connection up to the stream handler, `HttpSite.arrive` (`Model/HttpLive`), followed by the request of `Model/Serve`; `http_parser` is a parameter that is right about requests put together from their parts (`ReadsSends`, met by the parser of the examples) | composition of C42, C46, C80, C51, C71, C74, C75, C77, C15, C12 over `Sys.run`, for any stream that a publisher or a pull feeds (`isStream`); `C106_phases` ties `arrive` to the phases of C99 |
| C107 | the phases of an SRT connection, `SrtSite.arrive` (`Model/SrtLive`), followed by the request of `Model/Serve`; ids are lists of pairs with any further pairs and any text behind the last comma (`Spec/SrtLive`) | composition of C55, C80, C51, C95, C96, C14, C15, C12 and, for HTTP players, C106 over `Sys.run`; the registry invariant says that a raw stream is registered exactly while an SRT publisher runs; what was passed on when the player came is a prefix of what is passed on (`relayed_prefix`) |
| C108 | two servers: the stream server of C106 and an edge of it (`Model/Relay`), whose pull is answered by what `HttpUrlProtocol::open` makes of the bytes that have come from the other (`Answer.get`, of `Model/HttpConn`) | composition of C72, C90 and C106: the request of the edge is one that C106 is about (`Spec/Edge`: `pulled`), the response of C106 is a head whose body ends with the connection, and the tags of the packets give back what FLV keeps of them (`back`) |
| C109 | the constructor of `StUdpClientSocket`, `connect`, `write`, and the socket `search_or_create` makes for a session (`Model/Net`) | induction over the calls of the system; negations: the destination |
| C110 | nothing new: the program of C102 with the connection handling of C105–C107 and the edge of C108 | composition of `SiteFile.starts` (the router of each port, from the text of the file) with the admission, publisher and player theorems of C105–C108; the settings of the host block are read off the file (`Stated`, `PullsIn`) |
| C111 | nothing new: any number of servers as in C108, each an execution of `Relay.run` of its own; what one has sent reaches the next in any pieces (`Link`, `Chain` in `Props/EdgeChain`) | induction over the chain from C108; start-up packets of start-up packets (`startup_append`, `startup_prefix`), FLV's loss is idempotent (`back_back`) and does not touch what the cache looks at (`kept`); the bytes of the last server are those of the first (`chain_back`) |
| C112 | nothing new: the cache of C12; a decoder is a fold over packets (`Spec/Decode`) | what the decoder makes of start-up packets is a suffix of what it makes of the history; composed with C106 for HTTP and RTMP players; negations for command frames and for joins between a configuration and its key frame |
| C113 | `ConsoleLog::printf` and the lines about requests (`Model/Log`): the formats `%s`, `%d`, `%%`, the buffer of 4096 bytes and the second pass through `printf`; the handlers with their lines; the negotiation of RTMP with its lines about the stream named (`Model/LogTalk`) | the format of a message is read back as its parts (`format_pieces`); the second pass by induction over the line (`format_iff`); composed with C42/C99, C63/C105 and C55/C107 |
| C114 | Waits with time (`Model/Time`): pieces of data, room for data and packets appear at given times; `StTcpSocket::read`/`write` with their limits, `AVDumpCacheStream::dump` with its 10 s; the way of the options of a server block to the accepted sockets | any program of reads over pieces that come in time has the result it has over the transport without times (induction over the program with the invariant that the last piece came before now); each wait by cases; players by induction over their passes; the configuration from C49 |
| C115 | The server of C74 to C97 (`Model/Serve`): passes of publishers and players in any interleaving | every pass of a publisher that does not end it uses up 15 bytes of its input, a message, or a piece of the transport stream or a waiting packet (a measure on jobs, `Within`, by induction); other connections' passes leave the job alone; for players: a stream that is closed gains nothing (C12's accounting), so one pass empties the queue and the next waits in vain; what was sent by then is C76/C92/C95 at the state before the last pass |
| C116 | The server of C74 to C97 (`Model/Serve`); undefined behaviour is the outcome `none` of a pass | conditions on the requests alone (`Spec/Safe`: `Keeps`, `KeepsSmall`); every pass of a request that meets them is defined, from the invariant of C76/C77/C91/C96 that says how much of its input each job has used (`C116_turn`); so an undefined pass is the fault of the request whose turn it was (`C116_blame`), and by induction over the execution every execution of such requests is defined (`C116_defined`), which also gives `fitsFlv`. The negations are C75_negation_crash, C94's and C98_negation_crash |
| C117 | `Model/CoIds`: `STContext` and its calls in `STCo::main_co` | the specification names a coroutine by how many started before it and says from the history which one runs on a thread; invariant: the map of the program agrees with it; holds up to 2^31 - 1 coroutines, then the number overflows (`C117_negation_overflow`) |
| C118 | `Model/Addr`: `addr2string`, `inet_ntop` for IPv4, `accept` of TCP, TLS and SRT as far as addresses go, `st_srt_accept` | the specification says what dotted notation is and what the operating system writes for an end; arithmetic on the two bytes of the port, induction on the waits of `st_srt_accept`; SRT ports and failed SRT accepts: negations |
| C119 | `HttpSite.arrive` on well-formed requests (`Send`) | pairs of requests, same block and same URL (`Spec.HttpLive.Alike`); the URL depends on the header through `Host` only; case of `host` and of host names: negations |
| C120 | `Log.printf`, `parseLogged`, `arriveLogged` (RTMP, SRT) | `Spec.Log.OneLine`; induction over the parts of the line with an upper and a lower bound of its length; ids with a line feed and requests that do not fit: negations |
| C121 | `World` (caches, players' queues), `Sys` | `Spec.Kept`: packets a cache refers to; corollary of the invariant of C11/C12 (`Inv.store`) and of `SInv.world`; raw copies of SRT streams, long groups and players that do not read: negations |
| C122 | `RtpCodecDemuxer` (`init_codec`, all three decoders) | `Spec.RtpCodec`: `heard` (RFC 6184 per payload), `Sent` (a sender that cuts units); refinement `arrive_heard` by induction over the datagrams, then reading as for C66; AAC: negation |
| C123 | `main`, `init_config`, `FileURLProtocol::open` (`Model/Main`), with the configuration (C49), the installation (C54) and the calls of C100 | outcome of the program: it serves, ends with a status (lowest byte of the result), or is undefined; every error of reading, building the routers and listening is found by induction over lines and blocks, none is a multiple of 256 |
| C124 | the functions librtmp is given (`SPS_RTMPSockBuf_Fill`, `_Send`) and what `recv_packet`, `send_packet`, `server_handshake` make of its failures (`Model/RtmpIo`) | the library is any program over these calls (`RtmpLib`, a tree that branches on what it sees); induction over programs, on the list of calls and results |
| C125 | `WrapRtmpPacket` (constructor, `reset`, destructor), the part of `recv_packet` that decides about the body, the uses of packets (`Model/RtmpBody`) | memory is a set of blocks in use, `free` of another block is undefined; invariant over every program of operations: owning packets hold different blocks in use, lent ones hold blocks of the start; librtmp's result is one of four (complete, failed without a body, failed with a body only the packet has, failed with a body it gave back itself), which is an assumption about the library |
| C126 | `RtmpHook::on_send_packet` and `send_packet`, with the chunk loop of librtmp over symbols (header of a message, header of a further chunk, byte) (`Model/RtmpChunk`) | a reader of chunks that follows announcements (`Spec/RtmpChunk`); induction over the chunks of a message and over the messages, with the sizes of both sides equal; composed with the messages of C101 and C22 |
| C127 | `RtmpHook::recv_packet` with the reading of chunks by librtmp over the symbols of C126, `on_recv_packet` (`Model/RtmpTake`, `Model/Rtmp`) | what a client sends, as a relation (`Spec/RtmpTake`); chunks of messages on different channels mixed in any way; induction over it: the size of both sides stays equal, and what the library has of each message is what the client has sent of it; the hand-over to a new object (C63) as a negation |
| C128 | `RtmpPrepareHandler::handler` with `RtmpContext`: two `RtmpHook`s on one socket, one after the other (`Model/RtmpHand` on `Model/RtmpIo`) | the library is any program over its calls, as in C124; a library that reads only when it needs something as a condition on the calls (`Spec/RtmpHand`), induction over the program with the pieces of the negotiation as a prefix of the events |
| C129 | `HttpParser::on_header_field` and `on_header_value` (`HttpHead.calls` in `Model/Http`) on the calls `http_parser` makes for a list of fields (`Spec/HttpFields`) | induction over the fields; negation for every value in several lines |

## Trusted base

* The Lean 4.33.0 kernel. No axioms are added. Every theorem listed in `MANIFEST.json` depends at most on `propext`,
  `Classical.choice` and `Quot.sound`; `AXIOMS.md` lists them theorem by theorem. No `sorry`, `admit`, `native_decide`, `bv_decide`,
  `implemented_by` or `unsafe`. Concrete witnesses use `decide +kernel`, which the kernel evaluates.
* The reading of the C++ code. The model is tied to the code only by the citations in each definition. The two ends where this
  can go wrong are a misread line and a simplification; simplifications are said where they are made and collected below.
* The environment: transports obey the contract of `Io` (a successful read returns between 1 and the requested number of bytes), coroutines
  switch only in blocking calls, `std::map/set/list/string` behave as specified, allocation succeeds.

## Modelled code

`io/sps_io_bits`, `io/sps_io_bytes`, `io/sps_io_memory`, `io/sps_io_socket` (reading), `io/url/sps_io_url`, `io/url/sps_io_url_http`,
`io/url/sps_io_url_file` (reading), `io/url/sps_io_url_protocol`, `cache/*`, `avformat/sps_avformat_{packet,cache,flv*,rtmpdec,rtmpenc,ts,tsdec,rtp,rtpdec*}`,
`avformat/sps_avformat_{dec,enc}` (registers), `avformat/sps_avformat_librtmp*` (hook, its input and output, command packets, server side replies),
`avcodec/*`, `module/sps_module*`, `module/host/*`, `module/http/*`, `module/server/*` (install, handlers), `module/stream/*`,
`module/rtmp/*`, `module/srt/*`, `module/upstream/*`, `sys/st/io/sps_sys_st_io_{srt,udp,tcp,ssl}` (read, write, accept, sessions, dispatcher), `install/*`,
`util/sps_util_typedef` (registers), `sys/st/sps_sys_st_co`.

## Not modelled

* Third-party code, whose sources are not in the repository: librtmp (handshake, chunking, AMF coding; also its own BYTES_READ reports),
  http_parser, libsrt, state threads, OpenSSL, FFmpeg. What they return is a parameter of the model. Exception: `Model/Shared` describes what
  `RTMP_SendPacket` does to the memory it is given. The repository uses a fork of librtmp with a switch `m_pktReadonly` ("not change the packet"), which the code
  turns on (`sps_avformat_librtmp.cpp:104`); C81 and C82 trust that it keeps what its name says. `Model/RtmpMsgs` describes librtmp's functions `AMF_Encode…`. `Model/RtmpBody` assumes four results of `RTMP_ReadPacket` with respect to the body (C125), `Model/RtmpChunk` and `Model/RtmpTake` describe its chunk loops over symbols instead of header bytes (C126, C127). `C81_without_switch…`, `C82_without_switch…` say what stock librtmp would do.
* `*sctp*`, `log/*` but `ConsoleLog::printf` (C113), `util/sps_util_time`, `main` but `sps_main_sps.cpp` (C123), test
  and tool programs. The model takes `SRT_ENABLED` and `OPENSSL_ENABLED` as defined and `FFMPEG_ENABLED` as not defined; only `Model/Ffmpeg` (C103, remuxing)
  and `Model/FlvIo` (C104, RTMP as a file) are about builds with it. Opening and probing with FFmpeg (`FFmpegAVDemuxer::read_header`, the AVIO callbacks) is not modelled.
* Memory exhaustion, thread scheduling below coroutines, wall-clock time but for the waits with limits (C114), destructors' order beyond what the cited code does.
* Log messages other than the lines about requests and about the streams named in an RTMP negotiation (C113); arguments of debug output, but for the bytes of an RTMP command that is not AMF, `sps_avformat_librtmp_packet.cpp:195-197` (C63). What other properties say about the absence of undefined behaviour is about the program without its log lines; C113 shows that these can be undefined.

## Simplifications, by area

* Streams: the `Publisher` set is ordered by weak pointers; expired pointers would break the order, but handlers cancel before the queue dies
  (`sps_stream_handler.cpp:116`, `sps_srt_stream_handler.cpp:120`), so it is modelled as a set. A condition `signal` wakes all waiters
  (`sys/st/sps_sys_st_sync.hpp:43-45`); as pieces of an execution may come in any order this is no restriction. C14 and C15 assume
  stream keys that do not start with `ts://` (`plainKey`; those of parsed hosts do not) and whose pulls keep apart from its publishers (`apart`: no pull of the key opens or gives its key up while a publisher of the key is connected); players of a key are attached to what feeds it, a publisher or a pull (`isStream`, C16_stream). The reference of the waiting player to the pull it started is a field of the state
  (`held`) and dropped by a piece of its own; C16 assumes that it is dropped before the next pull of the key starts (`prompt`).
* FLV: `readHeader` consumes nine bytes even when the probe fails. A failed write appends nothing to the sink.
* RTMP: `p_UTCoffset` of AMF properties is not observed. A `BProg` skip beyond the buffer counts as undefined.
* TS: reads made only for `dump` output are ignored.
* HTTP: body lengths are kept in an `int` by the code; theorems assume below 2^31.
* Configuration: option types DOUBLE, FLOAT, INT64, CSTRING are used by no table and not modelled. Strings are cut at NUL as the code does.
* Server: host names containing NUL are excluded.
* Network: `EINTR` retries are not modelled.
* Serving: the muxers write through `HttpResponseSocket::write`. A pass of a publisher's or player's loop is
  one piece; the writes of one pass are one piece (others running in between see the same queue state as if they ran before or after).
  Publishers whose format is not FLV are pieces of `other`.
* Relaying: the connection to the upstream server and the parsing of the response head are one piece (`answer`); the demuxer's reads are those of C78. The
  passes of pulls with another demuxer are pieces of `other`. A pull whose URL cannot be parsed is made and ends at once.
* Registers: `memcmp` may read beyond the extension's terminator; the bytes there are arbitrary and the result is proved not to depend on them.
* `Model/Serve`, RTMP: the messages of a client are those librtmp has put together (handshake, chunking and commands are C22, C23, C63 and librtmp); sending a message
  does not change the packet in memory (C81, C82). FFmpeg's muxers are not part of it (C103).
* `Model/Serve`, SRT: the connection is a byte stream (messages of SRT are C57); one pass of the loop in `TsDemuxer::read_packet` is one piece, and so are the writes of one pass of
  a player. The buffer of a publisher has 188 bytes (`ReqOk`), as `TsDemuxer` makes it. `ownsPidZero` excludes tables that give their own pid to a program map.

## Disagreements between code and property

Each is a theorem `Cnn_negation_*` with a concrete witness; the property's remaining part is proved and named `_partial` or restricted in its
statement.

* C02 `acquire` of 2^29 bytes wraps to 0 bits. C03 the mask for six bits is 0x2f. C07 sizes are cast to `int`. C08 the memory reader loses the last
  line's newline case. C09 a second in-memory write overwrites the first. C10 appends ignore a reserved head. C13 the count returned by the GOP
  cache leaves the headers out.
* C14/C16 a pull and a publisher of the same key both become publisher. The player that started a pull keeps a reference to it while it waits; if the
  pull ends first, `~StreamEdge` runs when that player goes on and takes the keys from whoever has them by then: two pulls of one stream, a
  second publisher beside the first. Also seen, not a theorem: other players wait on the condition of the pull through a raw pointer
  (`wait_edge`, `sps_stream_edge.cpp:116-123`) and may be woken after it is gone.
* C19/C20 an FLV tag with an empty audio or video body reads a byte behind it. C21 composition offsets above 15 are lost; a one-byte audio message
  is over-read. C22 windows set after the first acknowledgement, type 5 messages, pings and counters beyond 2 GB break the window. C23 `publish`
  with five properties, `connect` with null. C63 the negotiated chunk size is lost; a command of one byte that is not AMF is read past its end (for the log).
* C26–C28 pointer fields are not followed, multi-packet sections are rejected, the network pid is taken for a program map, H.264 units with announced
  length, units of 64 KiB and more, first continuity counter other than 0. C62 a raw player may start inside a unit. C64 over-reads by long sections
  and contradictory adaptation fields. Also seen, not theorems: CRC and `current_next` are never checked; PCR is cut to 32 bits;
  after a decode error the 188-byte buffer is kept; `TsCache::on_packet` computes `pusi >> 31` (`sps_avformat_tsdec.cpp:42-50`).
* C32 RTP padding never removed, extension length taken as bytes. C33 lost and repeated FU starts unnoticed, units above 1 MiB overflow. C34 STAP/MTAP
  are cut with one-byte sizes. C60 only the first RTCP packet is read, SDES uses an `end()` iterator. C66 the marker bit is part of the payload
  type. C67 times of AAC units.
* C36 a unit before a four-byte start code keeps a zero. C37 other unit types are dropped. C38 compatibility byte 0, a lone PPS is not announced, the
  record cannot be read back, as no record of the standard can (`C38_negation_reads`; `C38_reads_partial` says which can). C39 no bound checks in ADTS.
* C41 a flag parameter is glued to the next key. C42 a bare LF or CR ends the header early. C43 an empty write ends a chunked body. C44 length 0 is an
  error. C45 the framing field is doubled in proxied responses; a body goes out after a failed header. C69 the proxied request loses its body.
  C70 `file://` loses a character.
* C48 a word glued to `{` is lost; a directive before `}` is dropped; a `;` inside a comment. C49 nested `root`; `location` has no end mark in its
  table. C50 booleans are true for any text beginning with "on". C52 `merge` forgets the default host. C54 second server block on a port; two
  http blocks. C71 `api` hosts are proxied, `enabled off` is ignored. C72 upstream names are not resolved. C73 the edge URL has no host.
* C55 the last pair of a stream id is dropped, the schema is doubled. C56 the UDP peer is not part of the session key. C57 the SRT `read_fully`
  overwrites, plain UDP truncates. C59 the error flag leaves the watch with another waiter. C61 extensions match by prefix; the order is by address.
* C74 SRT publishers are not checked against the host. C75 several refusals are silent, refusals and FLV responses have no length, publishers are never
  answered, and `GET /live/x.-a` on a live stream makes the RTMP muxer dereference null. C79 data read together with the line end of a chunk is lost when the
  connection is lost there; the client reads chunks with `read_fully` and loses all it read. C80 a query in the RTMP application URL swallows the
  stream name; header names are compared case-sensitively.
* C85 data that comes in the same read as the end of the client's handshake is thrown away (`BIO_reset`). C86 the handshake runs in the accept loop without
  a time limit: a silent client blocks the port. C87 the server's own certificate is never used; a client without a name is shown none. C57
  `read_fully` of the TLS class overwrites. C88 a failed `accept` (no descriptors left) dereferences null.
* C89 `StreamEdge::handler` uses `response()` of the RTMP and file protocols, which is null, and a demuxer that may be null: one HTTP request for an
  unknown extension on an edge host, or any RTMP player there, ends the server; so does an upstream answer that `http_parser` takes nothing of, where `response()` of the HTTP protocol is null. https streams are never relayed (no protocol).
* C109 `peer_addr` of a UDP socket is made with `INADDR_ANY`, whatever the peer; a session has no peer at all.
* C91 an audio message of one byte from an RTMP publisher makes the server read outside of the message. C92 composition offsets other than 0 to 15 reach RTMP
  players changed. C94 a stream that an RTMP player makes an edge pull
  crashes it.
* C99 a header http_parser takes nothing of makes `parse_header` return 0, which is `SPS_PHASE_CONTINUE`: on a new connection the router dereferences a null context
  (eight bytes end the server), on a used one the request before is served again; the same from an upstream ends the server in the proxy. Bodies of requests for unknown or
  proxied hosts are taken for the next request. 403 and 404 of the stream handler have no length. `Connection: close` is ignored.
* C100 ports above 65535 are cut to 16 bits; a transport that was not built in is called through null; the length of the address in the fallback `srt_bind` is a comparison (0),
  so the fallback never works.
* C101 the transaction number of `play` and `publish` is converted to `int`: undefined from 2147483648 on, and 5.5 is answered as 5; the status of a stream is sent on message stream 0, for `publish` with
  the number of the command instead of 0; a second `connect` gets no answer; a ping's time is not sent back; the array of the client's `connect` (unused) is too small for long URLs.
* C102 of two `server` blocks on one port only the hosts of the first are served; with two protocols on one port one of them is served by the other's hosts; a host that
  overrides a global one keeps the program from starting.
* C103 an attachment before the media streams shifts the mapping; a packet without time or with a negative one ends the process (`exit(0)`); times are in the stream's clock, not milliseconds;
  `create2` for an unknown format deletes an object whose `pb` is null; `is_audio` of an FFmpeg packet is always false; no trailer is written.
* C111 an SEI unit of an SRT publisher (packet type 1, frame type 5) is written to FLV without packet type and read back with packet type 0, which the cache of an edge takes for the decoder configuration.
* C113 `ConsoleLog::printf` gives the composed line to `printf` as the format: a `%` in a request target, RTMP URL or SRT stream id is undefined behaviour (`/live/my%20stream.flv` is enough), a doubled one is printed once. So is a `%` in the way of publishing of an RTMP `publish`, which has no other effect (`C113_negation_type`).
* C114 Connections to upstreams over TCP (pulls, proxying) have no time limit for reading or writing (`ClientSocketFactory::create_ss` uses the limit of the URL for connecting only): a silent upstream is waited for for ever.
* C112 `is_video_sequence_header` does not look at the frame type: a command frame (which the readers give packet type 0) replaces the cached decoder configuration. A new configuration is given to
  joining players together with the pictures of the old one until its key frame comes.
* C117 the number of coroutines in log lines is an `int` that is only counted up: undefined behaviour after 2^31 connections.
* C110 players of a stream that no one publishes: only HTTP players are told (404). RTMP players are answered that the stream starts, before it is looked for, and then disconnected; SRT players are disconnected.
* C118 SRT: `addr.sin_port` is shown without `ntohs`, so the port of a client at 50000 is logged as 20675; when `srt_accept` fails the result is not looked at, and a `Socket` is made from an address that was never written.
* C119 `contains("Host", …)` and the table of hosts compare bytes: `host: a.com` and `Host: A.com` are not requests for the block `host a.com`.
* C120 Stream ids of SRT are printed unescaped: one with a line feed writes further lines into the log. A line is cut at 4095 bytes with its end; target and query of an HTTP request are both printed, so that a request of 2048 bytes can do this.
* C121 `MepegtsCacheStream::put` clears its packets at a unit start, which it never recognises (see C62): the server keeps the whole transport stream of an SRT publisher while it is connected. Queues of players have no limit.
* C122 `RtpDemuxer::init_codec` has no `break` after the case for AAC: the decoder is made, but the caller gets `ERROR_RTP_PROBE`.
* C123 The configuration file is opened with `in | out`: one that the program may read but not write (owned by root, on a read-only disk) is refused with `ERROR_FILE_OPEN`. The name is also parsed as a URL first, although the result is not used: names that do not make one (a space, say) are refused.
* C123 With two `http` blocks the start is undefined (see C54).
* C124 `recv_packet` and `send_packet` return the error of the *last* call to the transport when librtmp reports a failure. Stock librtmp closes a stream it plays when a read fails, and sends a message for that; if this message can be sent (the peer has shut down its direction only) the failed receive is reported as a success with no body.
* C125 When `RTMP_ReadPacket` fails, `recv_packet` forgets the body without giving it back. That is right for a message that failed in a later chunk (librtmp has the same pointer in its table of channels, and frees it), but in the first chunk only the packet has the body, so it is lost: a client that announces a message of 16 MB and disconnects in the first chunk costs 16 MB (`C125_negation_first`).
* C127 The chunk size a client announced during the negotiation is not known to the object that receives its stream (the state behind it is `C63_negation_chunk_size`), so that the first message longer than 128 bytes is cut wrongly (`C127_negation_lost`). Announced sizes are not checked: after 0 or 2^31 nothing more is received (`C127_negation_zero`).
* C128 The negotiation and the stream use different `RtmpHook`s. librtmp reads into a buffer, so that what arrives together with the last command of the negotiation is lost with the first of them: a client that does not wait for the answer to `publish` loses the beginning of its stream, and what follows is cut wrongly (`C128_negation_pipelined`).
* C129 Every line of a header value becomes a field of its own: of a value that is folded into several lines `get_header` returns the first line.
* C104 reads below four bytes can stop for ever, writes must end with a tag, stream numbers of messages and AMF3 data reach the file.
* C98 a hanging player's queue grows without bound, and one of the players can crash the server (C75, C92).
* C95 null packets, packets of unannounced pids and packets with nothing but a clock reference are not passed on; a late player starts with everything since the
  publisher began; one block without sync byte ends the stream. C96 a table and an overlong program map crash the server; the last unit of each stream
  is lost. C97 SEI units go out as command frames without the header that readers expect.
