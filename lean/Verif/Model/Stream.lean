import Verif.Model.Assoc
import Verif.Model.Cache
import Verif.Model.Err
/-!
# Model of stream publishing, playing and on-demand pulling

`/repo/src/module/stream/*`, `/repo/src/module/srt/sps_srt_stream_handler.cpp`, `/repo/src/sys/sps_sys_sync.hpp`.

Coroutines are cooperative: between two points where a coroutine waits (socket reads and writes, condition waits) its
code runs alone. An execution is therefore a sequence of the atomic pieces below, in any order. Reads of media by
the publisher and writes to the player's socket are the points where other pieces run; what they return is not
modelled here (it is in the demuxer and muxer models).

`Publisher::subs` is an ordered set of weak pointers. Every handler cancels its subscription before its queue dies
(`sps_stream_handler.cpp:116`, `sps_srt_stream_handler.cpp:120`), so no pointer in the set is ever expired and the
order of the set only decides the order in which queues are extended, which no queue can observe. The set is modelled
as a list of queue numbers.
-/
namespace Sps

/-- A stream key. -/
abbrev Key := List UInt8

/-- `"ts://" + url`, `sps_srt_stream_handler.cpp:55`. -/
def tsKey (k : Key) : Key := [116, 115, 58, 47, 47] ++ k

/-- Who feeds a cache. -/
inductive Src
  | plain              -- `StreamHandler::publish`
  | srtAv              -- `SrtServerStreamHandler::publish`, the demuxed cache; the raw one has the next number
  | srtRaw             -- the raw cache of an SRT publisher
  | edge (e : Nat)     -- `StreamEdge` number `e`
deriving DecidableEq, Repr

/-- A cache object: the store, its subscribers, and whether its source is still running. -/
structure Cache where
  key : Key
  src : Src
  isOpen : Bool
  store : Store
  subs : List Nat
deriving DecidableEq, Repr

/-- A player's queue (`AVDumpCacheStream`): the cache it subscribed to, what is pending, whether it left. -/
structure Client where
  cache : Nat
  q : Queue
  left : Bool
deriving DecidableEq, Repr

/-- Phases of a `StreamEdge`. -/
inductive EdgePhase
  | starting           -- started and registered, upstream not open yet
  | running (cid : Nat)
  | done
deriving DecidableEq, Repr

/-- A `StreamEdge`, `sps_stream_edge.hpp:37-57`. -/
structure Edge where
  key : Key
  phase : EdgePhase
deriving DecidableEq, Repr

/-- All stream state. Objects are numbered by creation; `reg` is the `StreamCache` map
(`sps_stream_cache.hpp:38`, `sps_cache.hpp:138-166`), `edgeReg` the `StreamEdgeManager` map
(`sps_stream_edge.hpp:34`, `sps_util_typedef.hpp:84-102`). -/
structure World where
  caches : List Cache
  clients : List Client
  edges : List Edge
  reg : Assoc Key Nat
  edgeReg : Assoc Key Nat
  held : List Nat                 -- pulls whose starter is still waiting
deriving DecidableEq, Repr

/-- The atomic pieces. -/
inductive WOp
  | publish (k : Key)
  | publishSrt (k : Key)
  | put (cid : Nat) (p : AVPkt)
  | unpublish (cid : Nat)
  | play (k : Key)
  | dump (c : Nat)
  | leave (c : Nat)
  | edgeRequest (k : Key)
  | edgeOpen (e : Nat)
  | edgeEnd (e : Nat)
  | edgeDrop (e : Nat)
deriving DecidableEq, Repr

/-- What a piece answers. -/
inductive WOut
  | published (cid : Nat)      -- new cache
  | refused                    -- the key has a source
  | ok
  | joined (c cid : Nat)       -- new player queue `c` on cache `cid`
  | noSource
  | pkts (l : List AVPkt)
  | edgeStarted (e : Nat)
  | edgeWaits (e : Nat)
  | hasCache                   -- a cache is there, no pull needed
  | bad                        -- not a possible piece in this state
deriving DecidableEq, Repr

namespace World

/-- Nothing published. -/
def init : World := ⟨[], [], [], [], [], []⟩

/-- `create_av_streamcache` / `create_raw_streamcache`, `sps_stream_cache.hpp:48-58`: a new cache replaces whatever the
map holds for the key. -/
def newCache (w : World) (k : Key) (src : Src) (s : Store) : World :=
  { w with caches := w.caches ++ [⟨k, src, true, s, []⟩], reg := w.reg.insert k w.caches.length }

/-- Delivery of one packet to the subscribers: `Publisher::publish`, `sps_sys_sync.hpp:106-119`, with
`Subscriber::on_event` `:78-82`, `CacheStream::do_event` and `put`, `sps_cache.hpp:73-79,113-115`. -/
def deliver (clients : List Client) (subs : List Nat) (p : AVPkt) : List Client :=
  subs.foldl (fun cs s => cs.modify s fun c => { c with q := c.q.put (some p) }) clients

/-- `StreamHandler::publish` up to the decode loop, `sps_stream_handler.cpp:69-81`. -/
def publish (w : World) (k : Key) : World × WOut :=
  match w.reg.find k with
  | some _ => (w, .refused)
  | none => (w.newCache k .plain (.av Gop.empty), .published w.caches.length)

/-- `SrtServerStreamHandler::publish` up to the demux loop, `sps_srt_stream_handler.cpp:52-70`. -/
def publishSrt (w : World) (k : Key) : World × WOut :=
  match w.reg.find k with
  | some _ => (w, .refused)
  | none => ((w.newCache k .srtAv (.av Gop.empty)).newCache (tsKey k) .srtRaw (.raw RawTs.empty),
      .published w.caches.length)

/-- One packet put into a cache by its source: `StreamDecoder::decode`, `sps_stream.cpp:49-57`,
`sps_srt_stream_handler.cpp:72-79`, `TsCache::on_packet`, `sps_avformat_tsdec.cpp:42-50`. -/
def put (w : World) (cid : Nat) (p : AVPkt) : World × WOut :=
  match w.caches[cid]? with
  | none => (w, .bad)
  | some c =>
    if c.isOpen then
      ({ w with caches := w.caches.modify cid fun c => { c with store := c.store.put p },
                clients := deliver w.clients c.subs p }, .ok)
    else (w, .bad)

/-- Mark a cache's source as finished. -/
def closeCache (w : World) (cid : Nat) : World :=
  { w with caches := w.caches.modify cid fun c => { c with isOpen := false } }

/-- A publisher's loop ends: `sps_stream_handler.cpp:82-84`, `sps_srt_stream_handler.cpp:81-84`. -/
def unpublish (w : World) (cid : Nat) : World × WOut :=
  match w.caches[cid]? with
  | none => (w, .bad)
  | some c =>
    if c.isOpen then
      match c.src with
      | .plain => ({ w.closeCache cid with reg := w.reg.erase c.key }, .ok)
      | .srtAv => ({ (w.closeCache cid).closeCache (cid + 1) with
                      reg := (w.reg.erase c.key).erase (tsKey c.key) }, .ok)
      | _ => (w, .bad)
    else (w, .bad)

/-- A player finds its cache and joins: `StreamHandler::play`, `sps_stream_handler.cpp:87-115`,
`SrtServerStreamHandler::play`, `sps_srt_stream_handler.cpp:87-98`, `get_client_streamcache`,
`sps_stream_cache.hpp:64-74` (subscribe, then copy the cache's dump). -/
def play (w : World) (k : Key) : World × WOut :=
  match w.reg.find k with
  | none => (w, .noSource)
  | some cid =>
    match w.caches[cid]? with
    | none => (w, .bad)
    | some c =>
      ({ w with caches := w.caches.modify cid fun c => { c with subs := c.subs ++ [w.clients.length], store := c.store.dump.2.2 },
                clients := w.clients ++ [⟨cid, ⟨c.store.dump.1⟩, false⟩] },
        .joined w.clients.length cid)

/-- A player takes what is pending: `AVDumpCacheStream::dump` in `StreamEncoder::encode`, `sps_stream.cpp:81-89`. -/
def dump (w : World) (c : Nat) : World × WOut :=
  match w.clients[c]? with
  | none => (w, .bad)
  | some cl =>
    if cl.left then (w, .bad)
    else
      let r := cl.q.dumpClient []
      ({ w with clients := w.clients.modify c fun cl => { cl with q := r.2.2 } }, .pkts r.1)

/-- A player leaves: `cache->cancel(cc)`, `sps_stream_handler.cpp:116`, `Publisher::cancel`,
`sps_sys_sync.hpp:125-127`. -/
def leave (w : World) (c : Nat) : World × WOut :=
  match w.clients[c]? with
  | none => (w, .bad)
  | some cl =>
    if cl.left then (w, .bad)
    else
      ({ w with caches := w.caches.modify cl.cache fun k => { k with subs := k.subs.erase c },
                clients := w.clients.modify c fun cl => { cl with left := true } }, .ok)

/-- A player without a cache asks for a pull: `StreamEdgeEnter::start_edge` up to the wait,
`sps_stream_edge.cpp:116-156`, and `StreamEdge::start`, `:83-92`. The player's `play` after the wait is a separate
piece. The player that starts a pull keeps a reference to it while it waits (`edge`, line 135). -/
def edgeRequest (w : World) (k : Key) : World × WOut :=
  match w.reg.find k with
  | some _ => (w, .hasCache)
  | none =>
    match w.edgeReg.find k with
    | some e => (w, .edgeWaits e)
    | none =>
      ({ w with edges := w.edges ++ [⟨k, .starting⟩], edgeReg := w.edgeReg.insert k w.edges.length, held := w.held ++ [w.edges.length] },
        .edgeStarted w.edges.length)

/-- The upstream of a pull opens: `StreamEdge::handler`, `sps_stream_edge.cpp:60-74`. -/
def edgeOpen (w : World) (e : Nat) : World × WOut :=
  match w.edges[e]? with
  | none => (w, .bad)
  | some ed =>
    match ed.phase with
    | .starting =>
      ({ w.newCache ed.key (.edge e) (.av Gop.empty) with
          edges := w.edges.modify e fun d => { d with phase := .running w.caches.length } },
        .published w.caches.length)
    | _ => (w, .bad)

/-- A pull fails to open or ends: `StreamEdge::stop`, `sps_stream_edge.cpp:78-109`. If nobody else has a reference to the pull, its
destructor, lines 41-43, calls `stop` again in the same piece, to no further effect; otherwise see `edgeDrop`. -/
def edgeEnd (w : World) (e : Nat) : World × WOut :=
  match w.edges[e]? with
  | none => (w, .bad)
  | some ed =>
    match ed.phase with
    | .starting =>
      ({ w with edgeReg := w.edgeReg.erase ed.key, edges := w.edges.modify e fun d => { d with phase := .done } }, .ok)
    | .running cid =>
      ({ w.closeCache cid with
          reg := w.reg.erase ed.key, edgeReg := w.edgeReg.erase ed.key,
          edges := w.edges.modify e fun d => { d with phase := .done } }, .ok)
    | .done => (w, .bad)

/-- The wait of the player that started a pull is over and it drops its reference, `sps_stream_edge.cpp:153-156`. If the pull has ended
in between, this is the last reference: the destructor, lines 41-43, calls `stop`, lines 94-109, which releases the stream key (if the pull had
opened) and the entry of the pull, whoever has them now. -/
def edgeDrop (w : World) (e : Nat) : World × WOut :=
  match w.edges[e]? with
  | none => (w, .bad)
  | some ed =>
    if e ∈ w.held then
      if ed.phase = .done then
        ({ w with held := w.held.erase e, edgeReg := w.edgeReg.erase ed.key,
                  reg := if w.caches.any fun c => c.src = .edge e then w.reg.erase ed.key else w.reg }, .ok)
      else ({ w with held := w.held.erase e }, .ok)
    else (w, .bad)

/-- One piece. -/
def step (w : World) : WOp → World × WOut
  | .publish k => w.publish k
  | .publishSrt k => w.publishSrt k
  | .put cid p => w.put cid p
  | .unpublish cid => w.unpublish cid
  | .play k => w.play k
  | .dump c => w.dump c
  | .leave c => w.leave c
  | .edgeRequest k => w.edgeRequest k
  | .edgeOpen e => w.edgeOpen e
  | .edgeEnd e => w.edgeEnd e
  | .edgeDrop e => w.edgeDrop e

/-- An execution: the final state and the log of pieces with their answers. -/
def run : World → List WOp → World × List (WOp × WOut)
  | w, [] => (w, [])
  | w, op :: ops =>
    let (w1, o) := w.step op
    let (w2, log) := run w1 ops
    (w2, (op, o) :: log)

end World

/-- `StreamHandler::get_cache_key`, `sps_stream_handler.cpp:38-43`. `path.substr(0, path.size() - ext.size() - 1)` takes the
whole path when the subtraction wraps. -/
def cacheKey (host path ext : List UInt8) : Key :=
  host ++ (if ext = [45] ∨ ext = [] then path
           else if ext.length + 1 ≤ path.length then path.take (path.length - ext.length - 1) else path)

end Sps
