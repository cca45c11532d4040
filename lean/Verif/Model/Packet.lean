import Verif.Model.Num
/-!
# Model of `AVPacket` (`/repo/src/avformat/sps_avformat_packet.{hpp,cpp}`)

The packet's `number` (a log counter) and `duration` (never read) are left out.
-/
namespace Sps

/-- `AVStreamType`, `sps_avformat_packet.hpp:50-60`. -/
inductive StreamType
  | video | audio | subtitle | data | psi | pes | nb
deriving DecidableEq, Repr

/-- `AVMessageType`, `sps_avformat_packet.hpp:43-48`. -/
inductive MsgType
  | header | data | tail | nb
deriving DecidableEq, Repr

/-- `AVPacket`, `sps_avformat_packet.hpp:90-181`; `payload` is `buffer()` up to `size()`. -/
structure AVPkt where
  msg : MsgType := .data
  stream : StreamType
  pktType : Int
  payload : List UInt8
  dts : Int
  pts : Int
  flags : Int
  codec : Int
deriving DecidableEq, Repr

/-- `x & mask` of an `int` with a non-negative mask, through the 32-bit two's complement representation. -/
def landInt (x : Int) (mask : Nat) : Nat := (x % (2 ^ 32 : Int)).toNat &&& mask

namespace AVPkt

/-- `is_video`, `sps_avformat_packet.cpp:82-84`. -/
def isVideo (p : AVPkt) : Bool := p.stream == .video
/-- `is_audio`, `sps_avformat_packet.cpp:86-88`. -/
def isAudio (p : AVPkt) : Bool := p.stream == .audio
/-- `is_script`, `sps_avformat_packet.cpp:90-92`. -/
def isScript (p : AVPkt) : Bool := p.stream == .subtitle
/-- `is_keyframe`, `sps_avformat_packet.cpp:94-99`; `flags >> 4` is an arithmetic shift. -/
def isKeyframe (p : AVPkt) : Bool := p.isVideo && (landInt (p.flags / 16) 0x0F == 1)
/-- `is_video_sequence_header`, `sps_avformat_packet.cpp:101-106`. -/
def isVideoHeader (p : AVPkt) : Bool := p.isVideo && p.pktType == 0
/-- `is_audio_sequence_header`, `sps_avformat_packet.cpp:108-113`. -/
def isAudioHeader (p : AVPkt) : Bool := p.isAudio && p.pktType == 0
/-- `is_pat`, `sps_avformat_packet.cpp:115-117`; `TS_PROGRAM_PAT` is 2 (`sps_avformat_ts.hpp:90-96`). -/
def isPat (p : AVPkt) : Bool := p.stream == .psi && landInt p.pktType 0x8FFFFF == 2
/-- `is_pmt`, `sps_avformat_packet.cpp:119-121`; `TS_PROGRAM_PMT` is 3. -/
def isPmt (p : AVPkt) : Bool := p.stream == .psi && landInt p.pktType 0x8FFFFF == 3
/-- `is_payload_unit_start_indicator`, `sps_avformat_packet.cpp:123-125`. -/
def isPusi (p : AVPkt) : Bool := p.stream == .pes && landInt p.pktType 0x80000000 == 1

end AVPkt
end Sps
