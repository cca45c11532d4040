import Verif.Props.Bits
import Verif.Props.Bytes
import Verif.Props.Memory
import Verif.Props.Stream
import Verif.Props.Flv
import Verif.Props.Rtmp
import Verif.Props.Ts
import Verif.Props.Codec
import Verif.Props.Rtp
import Verif.Props.Http
import Verif.Props.Conf
import Verif.Props.Server
import Verif.Props.Net
import Verif.Props.Register
import Verif.Props.Serve
import Verif.Props.Source
import Verif.Props.Names
import Verif.Props.Shared
import Verif.Props.Tls
import Verif.Props.Accept
import Verif.Props.Relay
import Verif.Props.RtmpServe
import Verif.Props.SrtServe
import Verif.Props.Isolation
import Verif.Props.HttpConn
import Verif.Props.Sockets
import Verif.Props.RtmpMsgs
import Verif.Props.RtmpConn
import Verif.Props.HttpLive
import Verif.Props.HttpCase
import Verif.Props.SrtLive
import Verif.Props.EdgeLive
import Verif.Props.SiteFile
import Verif.Props.Ffmpeg
import Verif.Props.FlvIo
import Verif.Props.SiteLive
import Verif.Props.PullHttp
import Verif.Props.EdgeChain
import Verif.Props.Decode
import Verif.Props.Log
import Verif.Props.LogLine
import Verif.Props.Kept
import Verif.Props.RtpCodec
import Verif.Props.Time
import Verif.Props.Ends
import Verif.Props.Safe
import Verif.Props.CoIds
import Verif.Props.Addr
import Verif.Props.LogTalk
import Verif.Props.AvcRecord
import Verif.Props.Main
import Verif.Props.RtmpIo
import Verif.Props.RtmpBody
import Verif.Props.RtmpChunk
import Verif.Props.RtmpTake
import Verif.Props.RtmpHand
import Verif.Props.HttpFields
import Verif.Props.BitSkip
