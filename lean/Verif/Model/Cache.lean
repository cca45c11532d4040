import Verif.Model.Packet
/-!
# Model of the packet caches (`/repo/src/cache/sps_cache.hpp`, `/repo/src/avformat/sps_avformat_cache.cpp`)

Publishing to subscribers is modelled in `Verif/Model/Stream.lean`.
-/
namespace Sps

/-- `CacheStream` as a queue, `sps_cache.hpp:70-120`. -/
structure Queue where
  pbs : List AVPkt
deriving DecidableEq, Repr

namespace Queue
/-- `CacheStream::put`, `sps_cache.hpp:73-79`; `none` is the null pointer. -/
def put (q : Queue) : Option AVPkt → Queue
  | none => q
  | some p => ⟨q.pbs ++ [p]⟩
/-- `CacheStream::dump`, `sps_cache.hpp:86-94`: appends to the caller's list, returns the count. -/
def dump (q : Queue) (vpb : List AVPkt) (remove : Bool) : List AVPkt × Nat × Queue :=
  (vpb ++ q.pbs, q.pbs.length, if remove then ⟨[]⟩ else q)
/-- `size`, `sps_cache.hpp:96-98`. -/
def size (q : Queue) : Nat := q.pbs.length
/-- `AVDumpCacheStream::dump` after its wait, `sps_avformat_cache.cpp:106-115`; the caller's `remove` is ignored. -/
def dumpClient (q : Queue) (vpb : List AVPkt) : List AVPkt × Nat × Queue :=
  if q.size = 0 then (vpb, 0, q) else q.dump vpb true
end Queue

/-- `AVGopCacheStream`, `sps_avformat_cache.hpp:35-46`. -/
structure Gop where
  video : Option AVPkt
  audio : Option AVPkt
  script : Option AVPkt
  q : Queue
deriving DecidableEq, Repr

namespace Gop
/-- A new cache. -/
def empty : Gop := ⟨none, none, none, ⟨[]⟩⟩
/-- `AVGopCacheStream::put`, `sps_avformat_cache.cpp:32-57` (without the publishing). -/
def put (g : Gop) (p : AVPkt) : Gop :=
  if p.isAudioHeader then { g with audio := some p }
  else if p.isVideoHeader then { g with video := some p }
  else if p.isScript then { g with script := some p }
  else if p.isKeyframe then { g with q := ⟨[p]⟩ }
  else if g.q.pbs.isEmpty then g
  else { g with q := ⟨g.q.pbs ++ [p]⟩ }
/-- `AVGopCacheStream::dump`, `sps_avformat_cache.cpp:59-73`: the caller's list, the count and the cache afterwards. -/
def dump (g : Gop) (vpb : List AVPkt) : List AVPkt × Nat × Gop :=
  let vpb := vpb ++ g.script.toList
  let vpb := vpb ++ g.audio.toList
  let vpb := vpb ++ g.video.toList
  let (v, n, q) := g.q.dump vpb false
  (v, n, { g with q := q })
end Gop

/-- `MepegtsCacheStream`, `sps_avformat_cache.hpp:49-58`. -/
structure RawTs where
  pat : Option AVPkt
  pmt : Option AVPkt
  q : Queue
deriving DecidableEq, Repr

namespace RawTs
/-- A new cache. -/
def empty : RawTs := ⟨none, none, ⟨[]⟩⟩
/-- `MepegtsCacheStream::put`, `sps_avformat_cache.cpp:75-88`. -/
def put (g : RawTs) (p : AVPkt) : RawTs :=
  if p.isPat then { g with pat := some p }
  else if p.isPmt then { g with pmt := some p }
  else if p.isPusi then { g with q := ⟨[p]⟩ }
  else { g with q := ⟨g.q.pbs ++ [p]⟩ }
/-- `MepegtsCacheStream::dump`, `sps_avformat_cache.cpp:90-100`. -/
def dump (g : RawTs) (vpb : List AVPkt) : List AVPkt × Nat × RawTs :=
  let vpb := vpb ++ g.pat.toList
  let vpb := vpb ++ g.pmt.toList
  let (v, n, q) := g.q.dump vpb false
  (v, n, { g with q := q })
end RawTs

/-- The two kinds of publisher-side cache. -/
inductive Store
  | av (g : Gop)
  | raw (r : RawTs)
deriving DecidableEq, Repr

namespace Store
/-- `put` of either kind. -/
def put : Store → AVPkt → Store
  | av g, p => av (g.put p)
  | raw r, p => raw (r.put p)
/-- `dump` of either kind into an empty list. -/
def dump : Store → List AVPkt × Nat × Store
  | av g => match g.dump [] with | (v, n, g) => (v, n, av g)
  | raw r => match r.dump [] with | (v, n, r) => (v, n, raw r)
end Store
end Sps
