/-!
# Error codes

Generated from the `#define`s of `/repo/src/sps_error.hpp:29-170`. `error_t` is `int`
(`/repo/src/util/sps_util_typedef.hpp:38`); every code is non-negative, so a code is a `Nat` here.
-/
namespace Sps

/-- `error_t` (`sps_util_typedef.hpp:38`). `0` is success. -/
abbrev Err := Nat

namespace Err

/-- `sps_error.hpp:29` -/
abbrev SUCCESS : Err := 0
/-- `sps_error.hpp:31` -/
abbrev ERROR_CO_CREATE : Err := 50
/-- `sps_error.hpp:33` -/
abbrev ERROR_CONFIG_ITEM : Err := 91
/-- `sps_error.hpp:34` -/
abbrev ERROR_CONFIG_SUBMODULE : Err := 92
/-- `sps_error.hpp:35` -/
abbrev ERROR_CONFIG_PARSE_INVALID : Err := 93
/-- `sps_error.hpp:37` -/
abbrev ERROR_CONFIG_OPT_SET : Err := 100
/-- `sps_error.hpp:38` -/
abbrev ERROR_CONFIG_OPT_TYPE : Err := 101
/-- `sps_error.hpp:39` -/
abbrev ERROR_CONFIG_FACTORY_DUP : Err := 102
/-- `sps_error.hpp:41` -/
abbrev ERROR_CONFIG_INSTALL : Err := 103
/-- `sps_error.hpp:43` -/
abbrev ERROR_MODULE_TYPE_NOT_MATCH : Err := 200
/-- `sps_error.hpp:46` -/
abbrev ERROR_SOCKET_CREATE : Err := 1000
/-- `sps_error.hpp:47` -/
abbrev ERROR_SOCKET_SETREUSE : Err := 1001
/-- `sps_error.hpp:48` -/
abbrev ERROR_SOCKET_BIND : Err := 1002
/-- `sps_error.hpp:49` -/
abbrev ERROR_SOCKET_LISTEN : Err := 1003
/-- `sps_error.hpp:50` -/
abbrev ERROR_SOCKET_CLOSED : Err := 1004
/-- `sps_error.hpp:51` -/
abbrev ERROR_SOCKET_READ : Err := 1007
/-- `sps_error.hpp:52` -/
abbrev ERROR_SOCKET_READ_FULLY : Err := 1008
/-- `sps_error.hpp:53` -/
abbrev ERROR_SOCKET_WRITE : Err := 1009
/-- `sps_error.hpp:54` -/
abbrev ERROR_SOCKET_TIMEOUT : Err := 1011
/-- `sps_error.hpp:55` -/
abbrev ERROR_SOCKET_EINTR : Err := 1065
/-- `sps_error.hpp:56` -/
abbrev ERROR_SOCKET_BUFFER_SMALL : Err := 1066
/-- `sps_error.hpp:58` -/
abbrev ERROR_ST_OPEN_SOCKET : Err := 1200
/-- `sps_error.hpp:59` -/
abbrev ERROR_ST_CONNECT : Err := 1201
/-- `sps_error.hpp:62` -/
abbrev ERROR_SRT_SOCKET_CREATE : Err := 1300
/-- `sps_error.hpp:63` -/
abbrev ERROR_SRT_SOCKET_CONNECT : Err := 1301
/-- `sps_error.hpp:64` -/
abbrev ERROR_SRT_SOCKET_TIMEOUT : Err := 1304
/-- `sps_error.hpp:65` -/
abbrev ERROR_SRT_SOCKET_CLOSED : Err := 1305
/-- `sps_error.hpp:66` -/
abbrev ERROR_SRT_SOCKET_BROKEN : Err := 1306
/-- `sps_error.hpp:67` -/
abbrev ERROR_SRT_SOCKET_CLOSING : Err := 1307
/-- `sps_error.hpp:68` -/
abbrev ERROR_SRT_SOCKET_NOTEXITS : Err := 1308
/-- `sps_error.hpp:69` -/
abbrev ERROR_SRT_SOCKET_STATUS_OK : Err := 1309
/-- `sps_error.hpp:70` -/
abbrev ERROR_SRT_SOCKET_BIND : Err := 1310
/-- `sps_error.hpp:71` -/
abbrev ERROR_SRT_SOCKET_LISTEN : Err := 1311
/-- `sps_error.hpp:72` -/
abbrev ERROR_SRT_SOCKET_UNKNOWN : Err := 1320
/-- `sps_error.hpp:73` -/
abbrev ERROR_SRT_NOT_SUPPORT_FAST_OPEN : Err := 1321
/-- `sps_error.hpp:74` -/
abbrev ERROR_SRT_STREAM_ID : Err := 1322
/-- `sps_error.hpp:77` -/
abbrev ERROR_SSL_READ : Err := 1330
/-- `sps_error.hpp:78` -/
abbrev ERROR_SSL_WRITE : Err := 1331
/-- `sps_error.hpp:79` -/
abbrev ERROR_SSL_HANDSHAKE : Err := 1332
/-- `sps_error.hpp:80` -/
abbrev ERROR_SSL_HANDSHAKE_CONTINUE : Err := 1333
/-- `sps_error.hpp:81` -/
abbrev ERROR_SSL_CERT_NOT_FOUND : Err := 1334
/-- `sps_error.hpp:83` -/
abbrev ERROR_URL_PROTOCOL_NOT_EXISTS : Err := 1340
/-- `sps_error.hpp:85` -/
abbrev ERROR_FILE_OPEN : Err := 1350
/-- `sps_error.hpp:86` -/
abbrev ERROR_FILE_READ : Err := 1351
/-- `sps_error.hpp:87` -/
abbrev ERROR_FILE_WRITE : Err := 1352
/-- `sps_error.hpp:88` -/
abbrev ERROR_IO_EOF : Err := 1353
/-- `sps_error.hpp:89` -/
abbrev ERROR_IO_BUFFER_FULL : Err := 1354
/-- `sps_error.hpp:90` -/
abbrev ERROR_IO_NOT_ENOUGH : Err := 1355
/-- `sps_error.hpp:93` -/
abbrev ERROR_SYSTEM_IP_INVALID : Err := 1500
/-- `sps_error.hpp:96` -/
abbrev ERROR_MEM_OVERFLOW : Err := 1600
/-- `sps_error.hpp:97` -/
abbrev ERROR_MEM_SOCKET_READ : Err := 1601
/-- `sps_error.hpp:98` -/
abbrev ERROR_MEM_SOCKET_WRITE : Err := 1602
/-- `sps_error.hpp:101` -/
abbrev ERROR_HTTP_SOCKET_CREATE : Err := 1700
/-- `sps_error.hpp:102` -/
abbrev ERROR_HTTP_SOCKET_CONNECT : Err := 1701
/-- `sps_error.hpp:103` -/
abbrev ERROR_HTTP_HEADER_PARSE : Err := 1703
/-- `sps_error.hpp:104` -/
abbrev ERROR_HTTP_RSP_NOT_OK : Err := 1704
/-- `sps_error.hpp:105` -/
abbrev ERROR_HTTP_RES_EOF : Err := 1705
/-- `sps_error.hpp:106` -/
abbrev ERROR_HTTP_UPSTREAM_NOT_FOUND : Err := 1706
/-- `sps_error.hpp:107` -/
abbrev ERROR_HTTP_CHUNKED_LENGTH_LARGE : Err := 1707
/-- `sps_error.hpp:108` -/
abbrev ERROR_HTTP_CHUNKED_INVALID : Err := 1708
/-- `sps_error.hpp:109` -/
abbrev ERROR_HTTP_HAS_SOURCE : Err := 1709
/-- `sps_error.hpp:112` -/
abbrev ERROR_HOST_NOT_EXISTS : Err := 1800
/-- `sps_error.hpp:114` -/
abbrev ERROR_UPSTREAM_NOT_FOUND : Err := 1900
/-- `sps_error.hpp:115` -/
abbrev ERROR_RTMP_NOT_IMPL : Err := 1901
/-- `sps_error.hpp:116` -/
abbrev ERROR_RTMP_NOT_CONNECT : Err := 1902
/-- `sps_error.hpp:117` -/
abbrev ERROR_RTMP_HANDSHAKE : Err := 1903
/-- `sps_error.hpp:118` -/
abbrev ERROR_RTMP_AMF_DECODE : Err := 1904
/-- `sps_error.hpp:119` -/
abbrev ERROR_RTMP_AMF_CMD_CONVERT : Err := 1905
/-- `sps_error.hpp:120` -/
abbrev ERROR_RTMP_AMF_PROP_NOT_FOUND : Err := 1906
/-- `sps_error.hpp:121` -/
abbrev ERROR_RTMP_AMF_PROP_TYPE : Err := 1907
/-- `sps_error.hpp:122` -/
abbrev ERROR_RTMP_CONNECT : Err := 1908
/-- `sps_error.hpp:123` -/
abbrev ERROR_RTMP_ROLE : Err := 1909
/-- `sps_error.hpp:124` -/
abbrev ERROR_RTMP_NO_SOURCE : Err := 1910
/-- `sps_error.hpp:125` -/
abbrev ERROR_RTMP_HAS_SOURCE : Err := 1911
/-- `sps_error.hpp:126` -/
abbrev ERROR_RTMP_HEAD_TOO_SHORT : Err := 1912
/-- `sps_error.hpp:130` -/
abbrev ERROR_STREAM_EOF : Err := 3000
/-- `sps_error.hpp:131` -/
abbrev ERROR_STREAM_NOT_IMPL : Err := 3001
/-- `sps_error.hpp:132` -/
abbrev ERROR_STREAM_NOT_CONF : Err := 3002
/-- `sps_error.hpp:133` -/
abbrev ERROR_STREAM_IO_FAIL : Err := 3003
/-- `sps_error.hpp:134` -/
abbrev ERROR_STREAM_PUBLISH_NOT_SUPPORT : Err := 3004
/-- `sps_error.hpp:135` -/
abbrev ERROR_STREAM_SOURCE_NOT_EXITS : Err := 3005
/-- `sps_error.hpp:137` -/
abbrev ERROR_STREAM_EDGE_NOT_START : Err := 3010
/-- `sps_error.hpp:139` -/
abbrev ERROR_AVFORMAT_ENCODER_NOT_EXISTS : Err := 3100
/-- `sps_error.hpp:140` -/
abbrev ERROR_AVFORMAT_DEMUX_NOT_EXISTS : Err := 3101
/-- `sps_error.hpp:141` -/
abbrev ERROR_AVFORMAT_RTMP_IO_NULL : Err := 3104
/-- `sps_error.hpp:144` -/
abbrev ERROR_FLV_PROBE : Err := 3201
/-- `sps_error.hpp:145` -/
abbrev ERROR_FLV_BUFFER_OVERFLOW : Err := 3202
/-- `sps_error.hpp:146` -/
abbrev ERROR_FLV_TAG : Err := 3203
/-- `sps_error.hpp:147` -/
abbrev ERROR_FLV_AUDIO_CODECID : Err := 3204
/-- `sps_error.hpp:148` -/
abbrev ERROR_FLV_VIDEO_CODECID : Err := 3205
/-- `sps_error.hpp:149` -/
abbrev ERROR_FLV_UNKNOWN_TAG_TYPE : Err := 3206
/-- `sps_error.hpp:151` -/
abbrev ERROR_TS_PACKET_SIZE : Err := 3300
/-- `sps_error.hpp:152` -/
abbrev ERROR_TS_PACKET_DECODE : Err := 3301
/-- `sps_error.hpp:153` -/
abbrev ERROR_TS_PACKET_CC_CONTINUE : Err := 3302
/-- `sps_error.hpp:155` -/
abbrev ERROR_RTP_PROBE : Err := 3350
/-- `sps_error.hpp:156` -/
abbrev ERROR_RTP_NOT_SUPPORT : Err := 3351
/-- `sps_error.hpp:157` -/
abbrev ERROR_RTP_PAYLOAD_TYPE : Err := 3352
/-- `sps_error.hpp:158` -/
abbrev ERROR_RTP_DECODER_H264 : Err := 3353
/-- `sps_error.hpp:160` -/
abbrev ERROR_H264_DECODER : Err := 3500
/-- `sps_error.hpp:161` -/
abbrev ERROR_H264_ENCODER : Err := 3501
/-- `sps_error.hpp:162` -/
abbrev ERROR_H264_NOT_IMPL : Err := 3502
/-- `sps_error.hpp:164` -/
abbrev ERROR_AAC_DECODER : Err := 3600
/-- `sps_error.hpp:168` -/
abbrev ERROR_FFMPEG_OPEN : Err := 5000
/-- `sps_error.hpp:169` -/
abbrev ERROR_FFMPEG_READ : Err := 5001
/-- `sps_error.hpp:170` -/
abbrev ERROR_FFMPEG_WRITE : Err := 5002

end Err
end Sps
