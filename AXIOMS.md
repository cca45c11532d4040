# Axioms per theorem

Generated by `tools/axioms.py` from Lean's `#print axioms` over every theorem of `MANIFEST.json`.

## none

* C07: `Sps.MemProps.C07_negation_huge_size`
* C08: `Sps.MemProps.C08_negation_last_newline`
* C10: `Sps.MemProps.C10_negation_head_ignored`
* C53: `Sps.C53_gone`
* C53: `Sps.C53_all`
* C57: `Sps.Tls.C57_negation_tls`
* C57: `Sps.C57_negation_srt`
* C57: `Sps.C57_negation_udp`
* C67: `Sps.C67_negation_times`
* C100: `Sps.Sockets.C100_negation_transport`
* C122: `Sps.RtpCodecProps.C122_negation_aac`
* C122: `Sps.RtpCodecProps.C122_refused`
* C124: `Sps.RtmpSkt.C124_negation_close`
* C125: `Sps.RtmpBody.C125_negation_first`
* C128: `Sps.RtmpSkt.C128_negation_pipelined`

## propext

* C02: `Sps.BitProps.C02_negation_acquire_wraps`
* C03: `Sps.BitProps.C03_negation_six_bit_mask`
* C13: `Sps.StreamProps.C13_queue_read`
* C13: `Sps.StreamProps.C13_negation_gop_count`
* C15: `Sps.StreamProps.C15_keys_distinct`
* C18: `Sps.FlvProps.C18_refuses`
* C19: `Sps.FlvProps.C19_negation_empty_body`
* C19: `Sps.FlvProps.C19_negation_memory`
* C20: `Sps.FlvProps.C20_negation_empty_body`
* C21: `Sps.RtmpProps.C21_negation_short_audio`
* C22: `Sps.RtmpProps.C22_negation_window_after_ack`
* C22: `Sps.RtmpProps.C22_negation_ping`
* C22: `Sps.RtmpProps.C22_negation_overflow`
* C28: `Sps.TsProps.C28_codec_input`
* C28: `Sps.TsProps.C28_negation_large`
* C30: `Sps.TsProps.C30_no_times`
* C36: `Sps.C36_negation_four_byte`
* C37: `Sps.C37_negation_dropped`
* C37: `Sps.C37_negation_short_lengths`
* C38: `Sps.C38_negation_pps_only`
* C38: `Sps.C38_negation_read_back`
* C38: `Sps.C38_negation_over_read`
* C39: `Sps.C39_negation_beyond`
* C39: `Sps.C39_negation_small`
* C39: `Sps.C39_negation_checksum`
* C41: `Sps.C41_lookup`
* C44: `Sps.C44_negation_zero`
* C46: `Sps.C46_first`
* C53: `Sps.C53_stop`
* C56: `Sps.C56_read`
* C59: `Sps.C59_negation_error`
* C60: `Sps.C60_negation_block`
* C60: `Sps.C60_negation_length`
* C63: `Sps.RtmpProps.C63_negation_chunk_size`
* C80: `Sps.Names.C80_distinct`
* C86: `Sps.Tls.C86_all_partial`
* C86: `Sps.Tls.C86_negation_stalls`
* C97: `Sps.SrtServe.C97_negation_sei`
* C100: `Sps.Sockets.C100_negation_port`
* C101: `Sps.RtmpMsgs.C101_negation_pong`
* C103: `Sps.Ffmpeg.C103_negation_attachment`
* C104: `Verif.C104_negation_stall`
* C109: `Sps.C109_datagram`
* C111: `Sps.EdgeChain.C111_negation_sei`
* C118: `Sps.AddrProps.C118_waits_partial`
* C118: `Sps.AddrProps.C118_negation_failed`
* C124: `Sps.RtmpSkt.C124_handshake`
* C127: `Sps.RtmpChunk.C127_negation_lost`
* C127: `Sps.RtmpChunk.C127_negation_zero`
* C129: `Sps.HttpFields.C129_exact`
* C129: `Sps.HttpFields.C129_fields_partial`

## propext Classical.choice Quot.sound

* C01: `Sps.BitProps.C01_reads_are_consecutive_bit_groups`
* C01: `Sps.BitProps.C01_wide_read_truncates`
* C01: `Sps.BitProps.C01_read_past_end_is_undefined`
* C02: `Sps.BitProps.C02_acquire_guards_reads_partial`
* C03: `Sps.BitProps.C03_write_then_read_partial`
* C03: `Sps.BitProps.C03_write_ints_round_trip`
* C03: `Sps.BitSkip.C03_skip`
* C04: `Sps.ByteProg.C04_writes_are_network_order`
* C04: `Sps.ByteProg.C04_write_read_round_trip`
* C04: `Sps.ByteProg.C04_overflow_is_undefined`
* C04: `Sps.ByteProg.C04_reverse_bytes`
* C05: `Sps.ByteProg.C05_reads_account_for_the_stream`
* C05: `Sps.ByteProg.C05_fragmentation_does_not_matter`
* C06: `Sps.ByteProg.C06_acquire_contract`
* C07: `Sps.MemProps.C07_reader_delivers_buffer_partial`
* C07: `Sps.MemProps.C07_read_fully_all_or_nothing_partial`
* C08: `Sps.MemProps.C08_memory_safe_partial`
* C11: `Sps.StreamProps.C11_dump_is_startup`
* C11: `Sps.StreamProps.C11_dump_again`
* C12: `Sps.StreamProps.C12_delivery`
* C12: `Sps.StreamProps.C12_players_are_independent`
* C14: `Sps.StreamProps.C14_one_publisher_partial`
* C15: `Sps.StreamProps.C15_isolation`
* C15: `Sps.StreamProps.C15_player_attaches_partial`
* C16: `Sps.StreamProps.C16_one_pull_per_key_partial`
* C16: `Sps.StreamProps.C16_free`
* C16: `Sps.StreamProps.C16_end_releases`
* C16: `Sps.StreamProps.C16_players_share_pull_partial`
* C16: `Sps.StreamProps.C16_stream`
* C17: `Sps.FlvProps.C17_mux_demux`
* C18: `Sps.FlvProps.C18_tag_chain`
* C19: `Sps.FlvProps.C19_accepts_iff`
* C19: `Sps.FlvProps.C19_decision_partial`
* C20: `Sps.FlvProps.C20_stream_function_partial`
* C20: `Sps.FlvProps.C20_fragmentation_partial`
* C21: `Sps.RtmpProps.C21_round_trip_partial`
* C21: `Sps.RtmpProps.C21_what_survives`
* C21: `Sps.RtmpProps.C21_negation_offset`
* C21: `Sps.RtmpProps.C21_demux_decision`
* C22: `Sps.RtmpProps.C22_negation_type5`
* C23: `Sps.RtmpProps.C23_dispatch_partial`
* C23: `Sps.RtmpProps.C23_negation_publish_type`
* C23: `Sps.RtmpProps.C23_negation_connect_null`
* C24: `Sps.TsProps.C24_fields`
* C24: `Sps.TsProps.C24_accepted`
* C24: `Sps.TsProps.C24_rejected`
* C25: `Sps.TsProps.C25_announced`
* C25: `Sps.TsProps.C25_ignored`
* C26: `Sps.TsProps.C26_pat_partial`
* C27: `Sps.TsProps.C27_pmt_partial`
* C28: `Sps.TsProps.C28_reassembly_partial`
* C28: `Sps.TsProps.C28_accepted`
* C29: `Sps.TsProps.C29_gap`
* C29: `Sps.TsProps.C29_no_resync`
* C30: `Sps.TsProps.C30_times`
* C31: `Sps.TsProps.C31_whole`
* C31: `Sps.TsProps.C31_rejected`
* C32: `Sps.C32_payload_partial`
* C32: `Sps.C32_fields`
* C32: `Sps.C32_empty_extension`
* C32: `Sps.C32_short`
* C32: `Sps.C32_inside`
* C32: `Sps.C32_negation_padding`
* C32: `Sps.C32_negation_extension`
* C33: `Sps.C33_reassembled_partial`
* C33: `Sps.C33_same_as_single`
* C33: `Sps.C33_negation_restart`
* C33: `Sps.C33_negation_large`
* C34: `Sps.C34_exact_partial`
* C34: `Sps.C34_negation_stap`
* C34: `Sps.C34_negation_inside`
* C35: `Sps.C35_dispatch`
* C35: `Sps.C35_single`
* C35: `Sps.C35_refused`
* C35: `Sps.C35_undisturbed`
* C36: `Sps.C36_up_to_zeros`
* C36: `Sps.C36_inside`
* C36: `Sps.C36_any`
* C36: `Sps.C36_refused`
* C37: `Sps.C37_emitted_partial`
* C37: `Sps.C37_prefixed_round_trip`
* C38: `Sps.C38_reads_partial`
* C38: `Sps.C38_negation_reads`
* C38: `Sps.C38_history_partial`
* C38: `Sps.C38_header_first`
* C38: `Sps.C38_negation_compatibility`
* C39: `Sps.C39_frames_partial`
* C39: `Sps.C39_rejected`
* C39: `Sps.C39_any`
* C40: `Sps.C40_config`
* C40: `Sps.C40_first`
* C41: `Sps.C41_query`
* C41: `Sps.C41_negation_flag`
* C42: `Sps.C42_never_past`
* C42: `Sps.C42_exact`
* C42: `Sps.C42_cut`
* C42: `Sps.C42_negation_bare`
* C43: `Sps.C43_read`
* C43: `Sps.C43_cut`
* C43: `Sps.C43_written`
* C43: `Sps.C43_round_trip`
* C43: `Sps.C43_negation_empty`
* C44: `Sps.C44_exact_partial`
* C44: `Sps.C44_never_more`
* C44: `Sps.C44_unlimited`
* C45: `Sps.C45_once`
* C45: `Sps.C45_again`
* C45: `Sps.C45_header_partial`
* C45: `Sps.C45_negation_twice`
* C45: `Sps.C45_negation_failed`
* C46: `Sps.C46_derived`
* C46: `Sps.C46_case`
* C47: `Sps.C47_chunked`
* C47: `Sps.C47_length`
* C47: `Sps.C47_unlimited`
* C47: `Sps.C47_empty`
* C48: `Sps.C48_line`
* C48: `Sps.C48_error`
* C48: `Sps.C48_negation_glued`
* C48: `Sps.C48_negation_comment`
* C48: `Sps.C48_negation_close`
* C49: `Sps.C49_file`
* C49: `Sps.C49_render`
* C49: `Sps.C49_balanced`
* C49: `Sps.C49_negation_root`
* C49: `Sps.C49_negation_location`
* C50: `Sps.C50_options`
* C50: `Sps.C50_defaults`
* C50: `Sps.C50_documented`
* C50: `Sps.C50_negation_bool`
* C51: `Sps.C51_find`
* C51: `Sps.C51_choose`
* C52: `Sps.C52_register`
* C52: `Sps.C52_first`
* C52: `Sps.C52_negation_merge`
* C53: `Sps.C53_cases`
* C53: `Sps.C53_connection`
* C54: `Sps.C54_reachable_partial`
* C54: `Sps.C54_listening`
* C54: `Sps.C54_negation_port`
* C54: `Sps.C54_negation_global`
* C54: `Sps.C54_negation_twice`
* C55: `Sps.C55_params_partial`
* C55: `Sps.C55_negation_last`
* C55: `Sps.C55_negation_player`
* C55: `Sps.C55_negation_schema`
* C55: `Sps.C55_short`
* C56: `Sps.C56_fifo`
* C56: `Sps.C56_arrival`
* C56: `Sps.C56_sessions`
* C56: `Sps.C56_accept`
* C56: `Sps.C56_negation_peer`
* C56: `Sps.C56_negation_mixed`
* C56: `Sps.C56_negation_long`
* C56: `Sps.C56_negation_key`
* C58: `Sps.C58_messages`
* C58: `Sps.C58_whole`
* C60: `Sps.C60_first_partial`
* C60: `Sps.C60_reports`
* C60: `Sps.C60_inside`
* C60: `Sps.C60_negation_sdes`
* C60: `Sps.C60_negation_compound`
* C61: `Sps.C61_installed`
* C61: `Sps.C61_negation_order`
* C61: `Sps.C61_negation_prefix`
* C61: `Sps.C61_negation_ts`
* C63: `Sps.RtmpProps.C63_negotiation`
* C63: `Sps.RtmpProps.C63_one_role`
* C63: `Sps.RtmpProps.C63_negation_one_byte`
* C64: `Sps.TsProps.C64_inside_partial`
* C65: `Sps.TsProps.C65_fragmentation`
* C65: `Sps.TsProps.C65_packets`
* C66: `Sps.C66_same_as_ts`
* C66: `Sps.C66_read`
* C66: `Sps.C66_reports`
* C67: `Sps.C67_units`
* C68: `Sps.C68_flow`
* C68: `Sps.C68_any`
* C68: `Sps.C68_refused`
* C69: `Sps.C69_request_partial`
* C69: `Sps.C69_negation_body`
* C70: `Sps.C70_parts_partial`
* C70: `Sps.C70_ext`
* C70: `Sps.C70_negation_file`
* C71: `Sps.C71_dispatch_partial`
* C71: `Sps.C71_negation_api`
* C71: `Sps.C71_negation_enabled`
* C72: `Sps.C72_address`
* C72: `Sps.C72_negation_name`
* C73: `Sps.C73_url_partial`
* C73: `Sps.C73_negation_upstream`
* C74: `Sps.ServeProps.C74_admitted`
* C74: `Sps.ServeProps.C74_effect`
* C74: `Sps.ServeProps.C74_refused`
* C74: `Sps.ServeProps.C74_play`
* C74: `Sps.ServeProps.C74_negation_srt`
* C75: `Sps.ServeProps.C75_forbidden_partial`
* C75: `Sps.ServeProps.C75_absent_partial`
* C75: `Sps.ServeProps.C75_pull_failed_partial`
* C75: `Sps.ServeProps.C75_playing_partial`
* C75: `Sps.ServeProps.C75_negation_silent`
* C75: `Sps.ServeProps.C75_negation_length`
* C75: `Sps.ServeProps.C75_negation_crash`
* C75: `Sps.ServeProps.C75_negation_post`
* C76: `Sps.ServeProps.C76_playing`
* C76: `Sps.ServeProps.C76_played`
* C76: `Sps.ServeProps.C76_defined`
* C77: `Sps.ServeProps.C77_published`
* C77: `Sps.ServeProps.C77_complete`
* C77: `Sps.ServeProps.C77_end_to_end`
* C78: `Sps.SourceProps.C78_bytes`
* C78: `Sps.SourceProps.C78_packets`
* C79: `Sps.SourceProps.C79_lost_partial`
* C79: `Sps.SourceProps.C79_socket`
* C79: `Sps.SourceProps.C79_negation_crlf`
* C79: `Sps.SourceProps.C79_negation_client`
* C80: `Sps.Names.C80_rtmp`
* C80: `Sps.Names.C80_http`
* C80: `Sps.Names.C80_srt`
* C80: `Sps.Names.C80_player_partial`
* C80: `Sps.Names.C80_negation_app_query`
* C80: `Sps.Names.C80_negation_host_case`
* C81: `Sps.Shared.C81_interleaved`
* C81: `Sps.Shared.C81_progress`
* C81: `Sps.Shared.C81_without_switch`
* C81: `Sps.Shared.C81_without_switch_large`
* C82: `Sps.Shared.C82_without_switch`
* C83: `Sps.Tls.C83_like_tcp`
* C83: `Sps.Tls.C83_read`
* C83: `Sps.Tls.C83_flv`
* C85: `Sps.Tls.C85_negation_early`
* C85: `Sps.Tls.C85_connect`
* C87: `Sps.Tls.C87_named_partial`
* C87: `Sps.Tls.C87_negation_own`
* C88: `Sps.Accept.C88_lifetime_partial`
* C88: `Sps.Accept.C88_progress_partial`
* C89: `Sps.EdgeLive.C89_negation_garbage`
* C89: `Sps.RelayProps.C89_feeds`
* C89: `Sps.RelayProps.C89_crashes`
* C89: `Sps.RelayProps.C89_safe_partial`
* C89: `Sps.RelayProps.C89_negation_https`
* C89: `Sps.RelayProps.C89_negation_extension`
* C89: `Sps.RelayProps.C89_negation_rtmp`
* C90: `Sps.RelayProps.C90_asks`
* C90: `Sps.RelayProps.C90_opens`
* C90: `Sps.RelayProps.C90_relayed`
* C90: `Sps.RelayProps.C90_complete`
* C90: `Sps.RelayProps.C90_end_to_end`
* C90: `Sps.PullHttp.C90_http_server`
* C90: `Sps.PullHttp.C90_http_packets`
* C91: `Sps.RtmpServe.C91_published`
* C91: `Sps.RtmpServe.C91_complete`
* C91: `Sps.RtmpServe.C91_defined_partial`
* C91: `Sps.RtmpServe.C91_negation_crash`
* C92: `Sps.RtmpServe.C92_played_partial`
* C92: `Sps.RtmpServe.C92_defined`
* C92: `Sps.RtmpServe.C92_negation_offset`
* C93: `Sps.RtmpServe.C93_end_to_end_partial`
* C93: `Sps.RtmpServe.C93_exact_partial`
* C94: `Sps.RtmpServe.C94_rtmp_to_http`
* C94: `Sps.RtmpServe.C94_http_to_rtmp_partial`
* C94: `Sps.RtmpServe.C94_pull_to_rtmp_partial`
* C94: `Sps.RtmpServe.C94_negation_pull`
* C95: `Sps.SrtServe.C95_published_partial`
* C95: `Sps.SrtServe.C95_end_to_end_partial`
* C95: `Sps.SrtServe.C95_own_stream`
* C95: `Sps.SrtServe.C95_refused`
* C95: `Sps.SrtServe.C95_player_defined`
* C95: `Sps.SrtServe.C95_negation_dropped`
* C95: `Sps.SrtServe.C95_negation_history`
* C95: `Sps.SrtServe.C95_negation_resync`
* C96: `Sps.SrtServe.C96_published_partial`
* C96: `Sps.SrtServe.C96_any`
* C96: `Sps.SrtServe.C96_units_partial`
* C96: `Sps.SrtServe.C96_negation_crash`
* C96: `Sps.SrtServe.C96_negation_last`
* C97: `Sps.SrtServe.C97_srt_to_http_partial`
* C97: `Sps.SrtServe.C97_srt_to_rtmp_partial`
* C97: `Sps.SrtServe.C97_srt_units_to_rtmp_partial`
* C97: `Sps.SrtServe.C97_srt_any_to_rtmp_partial`
* C98: `Sps.Isolation.C98_isolated_partial`
* C98: `Sps.Isolation.C98_schedules_partial`
* C98: `Sps.Isolation.C98_negation_crash`
* C98: `Sps.Isolation.C98_negation_queue`
* C99: `Sps.HttpConn.C99_answers_partial`
* C99: `Sps.HttpConn.C99_ends_partial`
* C99: `Sps.HttpConn.C99_negation_crash`
* C99: `Sps.HttpConn.C99_negation_replay`
* C99: `Sps.HttpConn.C99_negation_body`
* C99: `Sps.HttpConn.C99_negation_down`
* C99: `Sps.HttpConn.C99_negation_upstream`
* C99: `Sps.HttpConn.C99_negation_empty`
* C99: `Sps.HttpConn.C99_negation_close`
* C99: `Sps.HttpConn.C99_negation_long`
* C99: `Sps.HttpConn.C99_negation_unframed`
* C101: `Sps.RtmpMsgs.C101_answers_partial`
* C101: `Sps.RtmpMsgs.C101_negation_undefined`
* C101: `Sps.RtmpMsgs.C101_negation_fraction`
* C101: `Sps.RtmpMsgs.C101_negation_status`
* C101: `Sps.RtmpMsgs.C101_negation_connect`
* C101: `Sps.RtmpMsgs.C101_negation_room`
* C102: `Sps.SiteFile.C102_starts_partial`
* C102: `Sps.SiteFile.C102_http_partial`
* C102: `Sps.SiteFile.C102_negation_port`
* C102: `Sps.SiteFile.C102_negation_mixed`
* C102: `Sps.SiteFile.C102_negation_override`
* C103: `Sps.Ffmpeg.C103_remux_partial`
* C103: `Sps.Ffmpeg.C103_order_partial`
* C103: `Sps.Ffmpeg.C103_negation_exit`
* C104: `Verif.C104_read_partial`
* C104: `Verif.C104_write_partial`
* C104: `Verif.C104_any_write`
* C104: `Verif.C104_roundtrip`
* C105: `Sps.RtmpConn.C105_admission_partial`
* C105: `Sps.RtmpConn.C105_rtmp_partial`
* C105: `Sps.RtmpConn.C105_http_partial`
* C105: `Sps.RtmpConn.C105_absent_partial`
* C105: `Sps.RtmpConn.C105_publisher_partial`
* C106: `Sps.HttpLive.C106_phases`
* C106: `Sps.HttpLive.C106_admission_partial`
* C106: `Sps.HttpLive.C106_player_partial`
* C106: `Sps.HttpLive.C106_absent_partial`
* C106: `Sps.HttpLive.C106_publisher_partial`
* C106: `Sps.HttpLive.C106_published_partial`
* C106: `Sps.HttpLive.C106_rtmp_player_partial`
* C107: `Sps.SrtLive.C107_admission_partial`
* C107: `Sps.SrtLive.C107_negation_mode`
* C107: `Sps.SrtLive.C107_publisher_partial`
* C107: `Sps.SrtLive.C107_published_partial`
* C107: `Sps.SrtLive.C107_player_partial`
* C107: `Sps.SrtLive.C107_absent_partial`
* C107: `Sps.SrtLive.C107_http_player_partial`
* C108: `Sps.EdgeLive.C108_begins`
* C108: `Sps.EdgeLive.C108_asks`
* C108: `Sps.EdgeLive.C108_admitted`
* C108: `Sps.EdgeLive.C108_relayed_partial`
* C108: `Sps.EdgeLive.C108_complete_partial`
* C108: `Sps.EdgeLive.C108_player_partial`
* C108: `Sps.EdgeLive.C108_opens`
* C109: `Sps.C109_port_partial`
* C109: `Sps.C109_negation_peer`
* C109: `Sps.C109_negation_session`
* C110: `Sps.SiteLive.C110_rtmp_publisher_partial`
* C110: `Sps.SiteLive.C110_http_publisher_partial`
* C110: `Sps.SiteLive.C110_http_player_partial`
* C110: `Sps.SiteLive.C110_rtmp_player_partial`
* C110: `Sps.SiteLive.C110_rtmp_absent_partial`
* C110: `Sps.SiteLive.C110_srt_publisher_partial`
* C110: `Sps.SiteLive.C110_srt_player_partial`
* C110: `Sps.SiteLive.C110_srt_absent_partial`
* C110: `Sps.SiteLive.C110_edge_partial`
* C111: `Sps.EdgeChain.C111_relayed_partial`
* C111: `Sps.EdgeChain.C111_complete_partial`
* C111: `Sps.EdgeChain.C111_player_partial`
* C111: `Sps.EdgeChain.C111_kept`
* C112: `Sps.DecodeProps.C112_startup_partial`
* C112: `Sps.DecodeProps.C112_http_player_partial`
* C112: `Sps.DecodeProps.C112_rtmp_player_partial`
* C113: `Sps.Log.C113_negotiation_partial`
* C113: `Sps.Log.C113_negotiation_same`
* C113: `Sps.Log.C113_negation_type`
* C113: `Sps.Log.C113_rtmp_lines_partial`
* C113: `Sps.Log.C113_exact`
* C113: `Sps.Log.C113_printed_partial`
* C113: `Sps.Log.C113_http_partial`
* C113: `Sps.Log.C113_negation_http`
* C113: `Sps.Log.C113_rtmp_partial`
* C113: `Sps.Log.C113_negation_rtmp`
* C113: `Sps.Log.C113_srt_partial`
* C113: `Sps.Log.C113_negation_srt`
* C114: `Sps.Time.C114_configured`
* C114: `Sps.Time.C114_write`
* C114: `Sps.Time.C114_players`
* C115: `Sps.EndsProps.C115_publisher`
* C115: `Sps.EndsProps.C115_http_bound`
* C115: `Sps.EndsProps.C115_rtmp_bound`
* C115: `Sps.EndsProps.C115_over`
* C115: `Sps.EndsProps.C115_players`
* C115: `Sps.EndsProps.C115_http_complete`
* C115: `Sps.EndsProps.C115_rtmp_complete`
* C115: `Sps.EndsProps.C115_srt_complete`
* C116: `Sps.SafeProps.C116_turn`
* C116: `Sps.SafeProps.C116_blame`
* C116: `Sps.SafeProps.C116_defined`
* C117: `Sps.CoIdsProps.C117_numbers_partial`
* C118: `Sps.AddrProps.C118_readable`
* C118: `Sps.AddrProps.C118_tcp`
* C118: `Sps.AddrProps.C118_srt_partial`
* C118: `Sps.AddrProps.C118_negation_port`
* C119: `Sps.HttpCase.C119_fields_partial`
* C119: `Sps.HttpCase.C119_negation_field`
* C119: `Sps.HttpCase.C119_negation_name`
* C120: `Sps.Log.C120_http_partial`
* C120: `Sps.Log.C120_negation_long`
* C120: `Sps.Log.C120_rtmp_partial`
* C120: `Sps.Log.C120_srt_partial`
* C120: `Sps.Log.C120_negation_srt`
* C121: `Sps.KeptProps.C121_kept`
* C121: `Sps.KeptProps.C121_bound_partial`
* C121: `Sps.KeptProps.C121_waiting`
* C121: `Sps.KeptProps.C121_negation_raw`
* C121: `Sps.KeptProps.C121_negation_long`
* C121: `Sps.KeptProps.C121_server`
* C121: `Sps.KeptProps.C121_server_bound_partial`
* C121: `Sps.KeptProps.C121_negation_srt`
* C122: `Sps.RtpCodecProps.C122_h264`
* C122: `Sps.RtpCodecProps.C122_read`
* C122: `Sps.RtpCodecProps.C122_reports`
* C122: `Sps.RtpCodecProps.C122_aac_partial`
* C122: `Sps.RtpCodecProps.C122_units`
* C123: `Sps.Main.C123_status`
* C123: `Sps.Main.C123_serving`
* C123: `Sps.Main.C123_starts_partial`
* C123: `Sps.Main.C123_why`
* C123: `Sps.Main.C123_negation_readonly`
* C123: `Sps.Main.C123_negation_crash`
* C123: `Sps.Main.C123_negation_name`
* C125: `Sps.RtmpBody.C125_back_partial`
* C126: `Sps.RtmpChunk.C126_client`

## propext Quot.sound

* C08: `Sps.MemProps.C08_lines_meaning`
* C08: `Sps.MemProps.C08_file_read_line`
* C08: `Sps.MemProps.C08_memory_read_line_partial`
* C09: `Sps.MemProps.C09_single_write_partial`
* C09: `Sps.MemProps.C09_negation_writes_overwrite`
* C10: `Sps.MemProps.C10_appends_concatenate_partial`
* C10: `Sps.MemProps.C10_skip_partial`
* C10: `Sps.MemProps.C10_deep_copy`
* C10: `Sps.MemProps.C10_content_with_head_partial`
* C11: `Sps.StreamProps.C11_startup_meaning`
* C14: `Sps.StreamProps.C14_negation_pull`
* C14: `Sps.StreamProps.C14_negation_late`
* C15: `Sps.StreamProps.C15_negation_pull`
* C16: `Sps.StreamProps.C16_negation_two_pulls`
* C17: `Sps.FlvProps.C17_supported_unchanged`
* C22: `Sps.RtmpProps.C22_ack_window_partial`
* C25: `Sps.TsProps.C25_fresh`
* C26: `Sps.TsProps.C26_negation_pointer`
* C26: `Sps.TsProps.C26_negation_long`
* C26: `Sps.TsProps.C26_negation_network`
* C27: `Sps.TsProps.C27_negation_pointer`
* C28: `Sps.TsProps.C28_negation_announced_length`
* C28: `Sps.TsProps.C28_negation_first_counter`
* C33: `Sps.C33_negation_missing_start`
* C36: `Sps.C36_split_partial`
* C36: `Sps.C36_three_byte`
* C36: `Sps.C36_no_start_code`
* C56: `Sps.C56_client_reads`
* C57: `Sps.C57_fully_partial`
* C57: `Sps.C57_tcp_partial`
* C57: `Sps.C57_srt_partial`
* C57: `Sps.C57_session_partial`
* C57: `Sps.C57_one_partial`
* C58: `Sps.C58_returns`
* C59: `Sps.C59_event`
* C59: `Sps.C59_once`
* C59: `Sps.C59_cause`
* C59: `Sps.C59_resume`
* C59: `Sps.C59_watched_partial`
* C61: `Sps.C61_register`
* C61: `Sps.C61_format_partial`
* C61: `Sps.C61_unique_partial`
* C61: `Sps.C61_protocol`
* C62: `Sps.StreamProps.C62_raw_dump`
* C62: `Sps.StreamProps.C62_raw_dump_again`
* C62: `Sps.StreamProps.C62_negation_unit_start`
* C64: `Sps.TsProps.C64_negation_section`
* C64: `Sps.TsProps.C64_negation_adaptation`
* C66: `Sps.C66_negation_marker`
* C67: `Sps.C67_short`
* C81: `Sps.Shared.C81_sequence`
* C82: `Sps.Shared.C82_inside`
* C82: `Sps.Shared.C82_without_switch_video`
* C84: `Sps.Tls.C84_write`
* C85: `Sps.Tls.C85_accept_partial`
* C85: `Sps.Tls.C85_sound`
* C88: `Sps.Accept.C88_negation_fails`
* C100: `Sps.Sockets.C100_listen_partial`
* C100: `Sps.Sockets.C100_udp`
* C100: `Sps.Sockets.C100_connect`
* C100: `Sps.Sockets.C100_negation_second`
* C103: `Sps.Ffmpeg.C103_negation_ms`
* C103: `Sps.Ffmpeg.C103_kinds_partial`
* C104: `Verif.C104_negation_cut`
* C104: `Verif.C104_negation_standard`
* C109: `Sps.C109_bytes`
* C112: `Sps.DecodeProps.C112_negation_command`
* C112: `Sps.DecodeProps.C112_negation_change`
* C114: `Sps.Time.C114_read`
* C114: `Sps.Time.C114_in_time`
* C114: `Sps.Time.C114_write_stalled`
* C114: `Sps.Time.C114_no_limit`
* C114: `Sps.Time.C114_negation_upstream`
* C114: `Sps.Time.C114_upstream_tls`
* C117: `Sps.CoIdsProps.C117_negation_overflow`
* C122: `Sps.RtpCodecProps.C122_none`
* C124: `Sps.RtmpSkt.C124_bytes`
* C124: `Sps.RtmpSkt.C124_failure_partial`
* C125: `Sps.RtmpBody.C125_once`
* C125: `Sps.RtmpBody.C125_lost`
* C126: `Sps.RtmpChunk.C126_read`
* C127: `Sps.RtmpChunk.C127_received_partial`
* C128: `Sps.RtmpSkt.C128_order`
* C128: `Sps.RtmpSkt.C128_seen_partial`
* C129: `Sps.HttpFields.C129_negation_folded`
