import Verif.Lemmas.Names
import Verif.Props.Net
import Verif.Props.Serve
/-! # C80: a stream has the same name in every protocol -/
namespace Sps.Names
open Spec Spec.Names

/-- **C80** (RTMP). A client connects with the URL of the application, on any port, and plays or publishes the name, with any query behind it: the
stream it asks for is the host followed by the path. -/
theorem C80_rtmp (parser : Text → Option UrlFields) (hp : ReadsUrls parser) (s : Stream) (ok : s.Ok) (port query : Option Text) (hport : portOk port)
    (hq : queryOk query) (pre : PreRequest) (hook : RtmpHook) (htc : pre.tcUrl = Parts.text ⟨ascii "rtmp", s.host, port, s.app, none⟩)
    (hst : pre.streamParams = ascii "/" ++ s.name ++ opt 63 query) :
    (rtmp parser (RtmpPrepared.prepare hook pre)).map StreamHandler.key = some (s.host ++ s.path) := by
  have e : pre.tcUrl ++ pre.streamParams = Parts.text ⟨ascii "rtmp", s.host, port, s.path, query⟩ := by
    rw [htc, hst]
    have : ascii "/" = [47] := by decide
    simp [Parts.text, opt, Stream.path, this]
  have hok : Parts.Ok ⟨ascii "rtmp", s.host, port, s.path, query⟩ :=
    ⟨schema_rtmp.1, ok.host, hport, Stream.pathOk ok, hq⟩
  obtain ⟨r, h1, h2, h3, -⟩ := parseUrl_parts hp hok schema_rtmp.2 {}
  unfold rtmp RtmpPrepared.prepare
  simp only
  rw [e, h1]
  simp only [Option.map_some, StreamHandler.key, cacheKey, h2, h3]
  rw [if_pos (Or.inl (by decide))]

/-- **C80** (HTTP). A request for the path with an extension, with any query, to the host on any port, asks for the same stream. -/
theorem C80_http (parser : Text → Option UrlFields) (hp : ReadsUrls parser) (s : Stream) (ok : s.Ok) (ext : Text) (he : extOk ext)
    (port query : Option Text) (hport : portOk port) (hq : queryOk query) (method : Text) (headers : List Header)
    (hh : Url.lookup (ascii "Host") headers = s.host ++ opt 58 port) :
    StreamHandler.key (http parser method (s.path ++ ascii "." ++ ext ++ opt 63 query) headers) = s.host ++ s.path := by
  have e : ascii "http://" ++ Url.lookup (ascii "Host") headers ++ (s.path ++ ascii "." ++ ext ++ opt 63 query) =
      Parts.text ⟨ascii "http", s.host, port, s.path ++ 46 :: ext, query⟩ := by
    have h1 : ascii "http://" = ascii "http" ++ ascii "://" := by decide
    have h2 : ascii "." = [46] := by decide
    rw [hh, h1, h2]
    simp [Parts.text]
  have hok : Parts.Ok ⟨ascii "http", s.host, port, s.path ++ 46 :: ext, query⟩ :=
    ⟨schema_http.1, ok.host, hport, pathOk_append (Stream.pathOk ok) (dot_chars he.2.2.1), hq⟩
  obtain ⟨r, h1, h2, h3, h4, -⟩ := parseUrl_parts hp hok schema_http.2 { method := method, headers := headers }
  have hne : Url.lookup (ascii "Host") headers ≠ [] := by
    rw [hh]
    intro h
    exact ok.host.1 (List.append_eq_nil_iff.1 h).1
  unfold http
  simp only [ne_eq, hne, not_false_eq_true, if_true]
  rw [e, h1]
  rw [Text.afterLast_at 46 _ _ he.2.2.2.1] at h4
  simp only [Option.getD_some, StreamHandler.key, h2, h3, h4]
  exact key_ext _ _ _ he.1 he.2.1

/-- **C80** (SRT). A stream id whose resource (the last `h`) is host and path asks for the same stream. -/
theorem C80_srt (parser : Text → Option UrlFields) (hp : ReadsUrls parser) (s : Stream) (ok : s.Ok) (pre : Text) (hpre : pre.length = 4)
    (ps : List Header) (hne : ps ≠ []) (hw : ∀ p ∈ ps, Net.word p.1 ∧ Net.word p.2) (m : Text) (hl : Net.Last (ascii "h") ps (s.host ++ s.path))
    (hm : Net.Last (ascii "m") ps m) : (srt parser (pre ++ Net.renderTrail ps)).map srtKey = some (s.host ++ s.path) := by
  obtain ⟨method, h1, -⟩ := C55_params_partial pre hpre ps hne hw _ m hl hm
  have e : ascii "srt://" ++ (s.host ++ s.path) = Parts.text ⟨ascii "srt", s.host, none, s.path, none⟩ := by
    have : ascii "srt://" = ascii "srt" ++ ascii "://" := by decide
    rw [this]
    simp [Parts.text, opt]
  have hok : Parts.Ok ⟨ascii "srt", s.host, none, s.path, none⟩ :=
    ⟨schema_srt.1, ok.host, fun t h => by simp at h, Stream.pathOk ok, fun t h => by simp at h⟩
  obtain ⟨r, h2, h3, h4, -⟩ := parseUrl_parts hp hok schema_srt.2 {}
  unfold srt
  rw [h1]
  simp only [Option.bind_eq_bind, Option.bind_some]
  rw [e, h2]
  simp [srtKey, h3, h4]

/-- **C80**, different streams have different keys. -/
theorem C80_distinct (s t : Stream) (hs : s.Ok) (ht : t.Ok) : s.host ++ s.path = t.host ++ t.path ↔ s.host = t.host ∧ s.app = t.app ∧ s.name = t.name := by
  constructor
  · intro h
    obtain ⟨a, ha⟩ := pathOk.slash (Stream.pathOk hs)
    obtain ⟨b, hb⟩ := pathOk.slash (Stream.pathOk ht)
    rw [ha, hb] at h
    obtain ⟨h1, h2⟩ := split_slash (hostOk.noSlash hs.host) (hostOk.noSlash ht.host) h
    have hpath : s.app ++ 47 :: s.name = t.app ++ 47 :: t.name := by
      show s.path = t.path
      rw [ha, hb, h2]
    have hr := congrArg List.reverse hpath
    simp only [List.reverse_append, List.reverse_cons, List.append_assoc, List.cons_append, List.nil_append] at hr
    obtain ⟨h3, h4⟩ := split_slash (by simpa using hs.name.2.2) (by simpa using ht.name.2.2) hr
    exact ⟨h1, by simpa using h4, by simpa using h3⟩
  · rintro ⟨h1, h2, h3⟩
    simp [Stream.path, h1, h2, h3]

/-- The name of a stream is none of those that are kept for raw SRT streams. -/
theorem not_raw {st : Stream} (ok : st.Ok) : plainKey (st.host ++ st.path) = true := by
  unfold plainKey
  rw [Bool.not_eq_true']
  obtain ⟨⟨hne, hh⟩, ⟨ha, -⟩, -⟩ := ok
  have hc : ∀ b ∈ st.host, b ≠ 58 := by
    intro b hb e
    have := hh b hb
    subst e
    revert this
    unfold hostChar letter
    decide
  obtain ⟨a, happ⟩ : ∃ a, st.app = 47 :: a := by
    cases hx : st.app with
    | nil => rw [hx] at ha; simp at ha
    | cons x a => rw [hx] at ha; simp at ha; exact ⟨a, by rw [ha]⟩
  have e : tsKey [] = [116, 115, 58, 47, 47] := by decide +kernel
  rw [e, Stream.path, happ]
  cases hx : (st.host ++ (47 :: a ++ 47 :: st.name)) with
  | nil => rfl
  | cons x t =>
    cases hb : List.isPrefixOf [116, 115, 58, 47, 47] (x :: t) with
    | false => rfl
    | true =>
      exfalso
      rw [List.isPrefixOf_iff_prefix] at hb
      obtain ⟨r, hb⟩ := hb
      rw [← hb] at hx
      rcases hs : st.host with _ | ⟨b0, _ | ⟨b1, _ | ⟨b2, tl⟩⟩⟩
      · exact hne hs
      · rw [hs] at hx; simp at hx
      · rw [hs] at hx; simp at hx
      · have := hc b2 (by rw [hs]; simp)
        rw [hs] at hx
        simp at hx
        exact this hx.2.2.1

/-- **C80**, from end to end: while a publisher of the stream is connected (by whatever protocol), or a pull of it goes on, an HTTP player of the stream, on a host that serves it and in a
format there is a muxer for, is attached to that publisher or pull. (`isStream`: as in C15 and C16.)

Missing: a query in the application URL, and a host field not spelled `Host` (the negations of
C80). -/
theorem C80_player_partial (ops : List WOp) (cid : Nat) (parser : Text → Option UrlFields)
    (hp : ReadsUrls parser) (s : Stream) (ok : s.Ok) (ha : isStream cid (s.host ++ s.path) (World.init.run ops).2) (ext : Text)
    (he : extOk ext) (port query : Option Text) (hport : portOk port) (hq : queryOk query) (method : Text) (headers : List Header)
    (hh : Url.lookup (ascii "Host") headers = s.host ++ opt 58 port) (outs : List Reg) (junk : Text) (h : Conf.Module) (f : Reg)
    (hf : Format.create outs (http parser method (s.path ++ ascii "." ++ ext ++ opt 63 query) headers).ext junk = some f) :
    ∃ w', StreamHandler.play outs junk h (http parser method (s.path ++ ascii "." ++ ext ++ opt 63 query) headers) (World.init.run ops).1 =
      (.joined (World.init.run ops).1.clients.length cid f, w') := by
  have hk := C80_http parser hp s ok ext he port query hport hq method headers hh
  have hj := (StreamProps.C16_stream ops (s.host ++ s.path) cid (not_raw ok) ha).1
  generalize http parser method (s.path ++ ascii "." ++ ext ++ opt 63 query) headers = u at *
  generalize (World.init.run ops).1 = w at *
  unfold StreamHandler.play StreamHandler.attach
  have hr : (w.reg.find (StreamHandler.key u)).isNone = false := by
    rw [hk]
    cases hc : w.reg.find (s.host ++ s.path) with
    | none => simp [World.step, World.play_eq, hc] at hj
    | some c => rfl
  rw [hr]
  simp only [Bool.false_eq_true, false_and, if_false, ne_eq, not_true_eq_false, or_self, hf]
  rw [hk]
  have hj : (w.play (s.host ++ s.path)).2 = .joined w.clients.length cid := hj
  cases hx : w.play (s.host ++ s.path) with
  | mk w' o =>
    rw [hx] at hj
    simp only at hj
    subst hj
    exact ⟨w', rfl⟩

/-- **C80**: with a query in the URL of the application, as clients send that pass the virtual host this way, the name of the stream becomes part of the
query: all streams of the application are one. -/
theorem C80_negation_app_query (parser : Text → Option UrlFields) (hp : ReadsUrls parser) (s : Stream) (ok : s.Ok) (q : Text) (hq : queryOk (some q))
    (pre : PreRequest) (hook : RtmpHook) (htc : pre.tcUrl = Parts.text ⟨ascii "rtmp", s.host, none, s.app, some q⟩)
    (hst : pre.streamParams = ascii "/" ++ s.name) :
    (rtmp parser (RtmpPrepared.prepare hook pre)).map StreamHandler.key = some (s.host ++ s.app) := by
  have e : pre.tcUrl ++ pre.streamParams = Parts.text ⟨ascii "rtmp", s.host, none, s.app, some (q ++ 47 :: s.name)⟩ := by
    rw [htc, hst]
    have : ascii "/" = [47] := by decide
    simp [Parts.text, opt, this]
  have hok : Parts.Ok ⟨ascii "rtmp", s.host, none, s.app, some (q ++ 47 :: s.name)⟩ := by
    refine ⟨schema_rtmp.1, ok.host, fun t h => by simp at h, ok.app, ?_⟩
    intro t ht
    simp only [Option.some.injEq] at ht
    subst ht
    refine ⟨by simp, fun b hb => ?_⟩
    rcases List.mem_append.1 hb with h | h
    · exact (hq q rfl).2 b h
    · rcases List.mem_cons.1 h with rfl | h
      · unfold graph; decide
      · exact ⟨(ok.name.2.1 b h).1, (ok.name.2.1 b h).2.2⟩
  obtain ⟨r, h1, h2, h3, -⟩ := parseUrl_parts hp hok schema_rtmp.2 {}
  unfold rtmp RtmpPrepared.prepare
  simp only
  rw [e, h1]
  simp only [Option.map_some, StreamHandler.key, cacheKey, h2, h3]
  rw [if_pos (Or.inl (by decide))]

/-- **C80**: field names are compared as they are written. A request whose host field is not spelled `Host` is taken to have none, and the first
segment of its path becomes the host. -/
theorem C80_negation_host_case (parser : Text → Option UrlFields) (hp : ReadsUrls parser) (s : Stream) (ok : s.Ok) (seg : Text) (hseg : hostOk seg)
    (rest : Text) (hrest : pathOk rest) (happ : s.app = 47 :: (seg ++ rest)) (ext : Text) (he : extOk ext) :
    StreamHandler.key (http parser (ascii "GET") (s.path ++ ascii "." ++ ext) [(ascii "host", s.host)]) = seg ++ (rest ++ 47 :: s.name) := by
  have hl : Url.lookup (ascii "Host") [(ascii "host", s.host)] = [] := by
    unfold Url.lookup Url.lookup
    rw [if_neg (show ascii "host" ≠ ascii "Host" by decide)]
  have e : ascii "http:/" ++ (s.path ++ ascii "." ++ ext) = Parts.text ⟨ascii "http", seg, none, rest ++ 47 :: s.name ++ 46 :: ext, none⟩ := by
    have h1 : ascii "http:/" ++ [47] = ascii "http" ++ ascii "://" := by decide
    have h2 : ascii "." = [46] := by decide
    rw [Stream.path, happ, h2]
    have h3 : ascii "http:/" ++ (47 :: (seg ++ rest) ++ 47 :: s.name ++ [46] ++ ext) =
      (ascii "http:/" ++ [47]) ++ (seg ++ rest ++ 47 :: s.name ++ [46] ++ ext) := by simp
    rw [h3, h1]
    simp [Parts.text, opt]
  have hn : pathChars (47 :: s.name) := by
    intro b hb
    rcases List.mem_cons.1 hb with rfl | h
    · unfold graph; decide
    · exact ok.name.2.1 b h
  have hok : Parts.Ok ⟨ascii "http", seg, none, rest ++ 47 :: s.name ++ 46 :: ext, none⟩ :=
    ⟨schema_http.1, hseg, fun t h => by simp at h,
      pathOk_append (pathOk_append hrest hn) (dot_chars he.2.2.1), fun t h => by simp at h⟩
  obtain ⟨r, h1, h2, h3, h4, -⟩ := parseUrl_parts hp hok schema_http.2 { method := ascii "GET", headers := [(ascii "host", s.host)] }
  unfold http
  rw [hl]
  simp only [ne_eq, not_true_eq_false, if_false]
  rw [e, h1]
  rw [Text.afterLast_at 46 _ _ he.2.2.2.1] at h4
  simp only [Option.getD_some, StreamHandler.key, h2, h3, h4]
  exact key_ext _ _ _ he.1 he.2.1

/-! ### The hypotheses can be met -/

/-- A parser that reads URLs. -/
def readUrl (t : Text) : Option UrlFields := do
  let (schema, r) ← Text.cut 58 t
  let r := r.drop 2
  let host := r.takeWhile fun b => b ≠ 58 && b ≠ 47
  let r := r.drop host.length
  let dig := if r.head? = some 58 then (r.drop 1).takeWhile (· ≠ 47) else []
  let r := if r.head? = some 58 then r.drop (1 + dig.length) else r
  let path := r.takeWhile (· ≠ 63)
  let q := (r.drop path.length).drop 1
  some { schema := some schema, host := some host, port := if dig = [] then none else Http.decValue 0 dig, path := some path,
         query := if q = [] then none else some q }

theorem readsUrls_readUrl : ReadsUrls readUrl := by
  intro p ok
  obtain ⟨schema, host, port, path, query⟩ := p
  obtain ⟨⟨-, h1⟩, h2, h3, h4, h5⟩ := ok
  simp only at h1 h2 h3 h4 h5
  have hs : (58 : UInt8) ∉ schema := fun hm => by
    have := h1 _ hm
    unfold letter at this
    revert this; decide
  obtain ⟨path, rfl⟩ := pathOk.slash h4
  have e3 : ascii "://" = [58, 47, 47] := by decide
  have hcut : Text.cut 58 (Parts.text ⟨schema, host, port, 47 :: path, query⟩) =
      some (schema, [47, 47] ++ (host ++ (opt 58 port ++ (47 :: (path ++ opt 63 query))))) := by
    rw [Parts.text, e3]
    simp only [List.append_assoc, List.cons_append, List.nil_append]
    exact Text.cut_at 58 schema _ hs
  have hh : ∀ r, (host ++ 47 :: r).takeWhile (fun b => b ≠ 58 && b ≠ 47) = host ∧ (host ++ 58 :: r).takeWhile (fun b => b ≠ 58 && b ≠ 47) = host := by
    intro r
    have hc : ∀ b ∈ host, (b ≠ 58 && b ≠ 47) = true := by
      intro b hb
      have a1 : b ≠ 58 := fun h => hostOk.noColon h2 (h ▸ hb)
      have a2 : b ≠ 47 := fun h => hostOk.noSlash h2 (h ▸ hb)
      simp [a1, a2]
    rw [List.takeWhile_append_of_pos hc, List.takeWhile_append_of_pos hc]
    simp
  have hpath : (47 :: (path ++ opt 63 query)).takeWhile (· ≠ 63) = 47 :: path := by
    have hc : ∀ b ∈ 47 :: path, (decide (b ≠ 63)) = true := by
      intro b hb
      simp [(h4.2 b hb).2.1]
    rw [← List.cons_append, List.takeWhile_append_of_pos hc]
    cases query <;> simp [opt]
  have hq : (if ((47 :: (path ++ opt 63 query)).drop (47 :: path).length).drop 1 = [] then none
      else some (((47 :: (path ++ opt 63 query)).drop (47 :: path).length).drop 1)) = query := by
    rw [← List.cons_append, List.drop_left]
    cases query with
    | none => simp [opt]
    | some q => simp [opt, (h5 q rfl).1]
  unfold readUrl
  rw [hcut]
  simp only [Option.bind_eq_bind, Option.bind_some, Parts.fields, Option.some.injEq, UrlFields.mk.injEq, true_and]
  have hdrop : ([47, 47] ++ (host ++ (opt 58 port ++ (47 :: (path ++ opt 63 query))))).drop 2 =
    host ++ (opt 58 port ++ (47 :: (path ++ opt 63 query))) := rfl
  rw [hdrop]
  clear hcut hdrop
  generalize opt 63 query = tl at *
  cases port with
  | none =>
    simp only [opt, List.nil_append, (hh _).1, List.drop_left, List.head?_cons, if_neg (show ¬ some (47 : UInt8) = some 58 by decide)]
    exact ⟨trivial, by simp, hpath, by rw [hpath]; exact hq⟩
  | some d =>
    obtain ⟨n, -, hn1, hn2⟩ := h3 d rfl
    have hd : ∀ b ∈ d, (decide (b ≠ 47)) = true := by
      intro b hb
      simp only [decide_eq_true_eq]
      rintro rfl
      obtain ⟨a, c, rfl⟩ := List.append_of_mem hb
      have : ∀ (a c : Text) (acc : Nat), Http.decValue acc (a ++ 47 :: c) = none := by
        intro a
        induction a with
        | nil => intro c acc; rfl
        | cons x a ih =>
          intro c acc
          simp only [List.cons_append, Http.decValue]
          cases Http.decDigit x with
          | none => rfl
          | some v => exact ih c _
      rw [this] at hn2
      cases hn2
    have hdig : ((58 :: (d ++ 47 :: (path ++ tl))).drop 1).takeWhile (· ≠ 47) = d := by
      rw [List.drop_one, List.tail_cons, List.takeWhile_append_of_pos hd]
      simp
    simp only [opt, List.cons_append, (hh _).2, List.drop_left, List.head?_cons, if_true, hdig]
    rw [show (58 :: (d ++ 47 :: (path ++ tl))).drop (1 + d.length) = 47 :: (path ++ tl) by
      rw [Nat.add_comm, List.drop_succ_cons, List.drop_left]]
    exact ⟨trivial, by rw [if_neg hn1]; rfl, hpath, by rw [hpath]; exact hq⟩

/-- The stream `a.com/live/x`. -/
def sample : Stream := ⟨ascii "a.com", ascii "/live", ascii "x"⟩

example : sample.Ok := ⟨by decide +kernel, by decide +kernel, by decide +kernel⟩
example : extOk (ascii "flv") := by unfold extOk; decide +kernel
example : portOk (some (ascii "8080")) := fun t h => by cases h; exact ⟨8080, by decide +kernel⟩
example : queryOk (some (ascii "token=1")) := fun t h => by cases h; exact ⟨by decide +kernel, by unfold graph; decide +kernel⟩

/-- The three requests with that parser. -/
example : StreamHandler.key (http readUrl (ascii "GET") (ascii "/live/x.flv?token=1") [(ascii "Host", ascii "a.com:8080")]) = ascii "a.com/live/x" ∧
    (rtmp readUrl (RtmpPrepared.prepare {} { tcUrl := ascii "rtmp://a.com:1935/live", streamParams := ascii "/x?k=2" })).map StreamHandler.key =
      some (ascii "a.com/live/x") ∧
    (srt readUrl (ascii "#!::h=a.com/live/x,m=request,")).map srtKey = some (ascii "a.com/live/x") ∧
    (rtmp readUrl (RtmpPrepared.prepare {} { tcUrl := ascii "rtmp://a.com/live?vhost=b", streamParams := ascii "/x" })).map StreamHandler.key =
      some (ascii "a.com/live") ∧
    StreamHandler.key (http readUrl (ascii "GET") (ascii "/live/x/y.flv") [(ascii "host", ascii "a.com")]) = ascii "live/x/y" := by decide +kernel

/-- A publisher of the stream is connected. -/
example : isStream 0 (sample.host ++ sample.path) (World.init.run [.publish (ascii "a.com/live/x")]).2 ∧
    Format.create ServeProps.site.outs (http readUrl (ascii "GET") (ascii "/live/x.flv") [(ascii "Host", ascii "a.com")]).ext ServeProps.site.junk =
      some ⟨1, ascii "flv"⟩ := ⟨.inl ⟨by decide +kernel, (World.apart_of_none (by decide +kernel)).1⟩, by decide +kernel⟩

end Sps.Names
