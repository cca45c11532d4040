import Verif.Lemmas.TlsHs
import Verif.Props.Flv
import Verif.Props.Server
import Mathlib.Data.List.TakeWhile
/-!
# TLS (C83–C87)
-/
namespace Sps.Tls
open Spec Spec.Tls

/-! ## A record layer for the examples

Every byte is a record, its value plus one; a zero is the closing alert. -/

/-- Decoding. -/
def toy : Records where
  plain w := (w.takeWhile (· ≠ 0)).map (· - 1)
  ended w := w.any (· = 0)
  cut _ avail size := min 2 (min avail size)

/-- Encoding. -/
def toySeal : Seal where
  wrap _ d := d.map (· + 1)

theorem toy_lawful : Lawful toy where
  more a b := by
    simp only [toy, List.takeWhile_append]
    split
    · rename_i hl
      rw [(List.takeWhile_prefix _).eq_of_length hl, List.map_append]
      exact List.prefix_append _ _
    · exact List.prefix_refl _
  ended a b h := by
    simp only [toy] at h ⊢
    refine ⟨?_, by simp only [List.any_append, h, Bool.true_or]⟩
    rw [List.takeWhile_append, if_neg]
    intro hl
    have hall : a.takeWhile (fun x => decide (x ≠ 0)) = a := (List.takeWhile_prefix _).eq_of_length hl
    rw [List.any_eq_true] at h
    obtain ⟨x, hx, hx0⟩ := h
    rw [← hall] at hx
    have := List.mem_takeWhile_imp hx
    simp_all
  cut a avail size h1 h2 := by simp only [toy]; omega

/-! ## C83: reading -/

/-- **C83.** No program that reads can tell a TLS connection from a plain one: its result is the result it has over a TCP connection on which the decoded bytes
arrive (in some fragmentation), and the connection ends for it in the same way. So whatever holds over every TCP connection holds over TLS. -/
theorem C83_like_tcp (c : Records) (hc : Lawful c) (t : Tls) (p : List UInt8) (cl : Err) (hcl : cl ≠ 0) (h : Carries c t p cl) {α : Type} (prog : Prog α) :
    ∃ io a, Arrives io p cl ∧ prog.result (fun io n => some (Io.read io n)) io = some a ∧ prog.result (Tls.read c) t = some a :=
  like_tcp hc prog t p cl hcl h

/-- **C83**, one read: it returns the next bytes of what the peer sent, at least one and at most as many as asked for; it fails only when all were read. -/
theorem C83_read (c : Records) (hc : Lawful c) (t : Tls) (p : List UInt8) (cl : Err) (h : Carries c t p cl) (n : Nat) (hn : 0 < n) :
    ∃ x t' p', t.read c n = some (x, t') ∧ Carries c t' p' cl ∧
      ((∃ d, x = .ok d ∧ d ≠ [] ∧ d.length ≤ n ∧ p = d ++ p') ∨ (x = .err cl ∧ p = [] ∧ p' = [])) := by
  obtain ⟨x, t', p', h1, h2, h3⟩ := read_serves hc n hn t p cl h
  refine ⟨x, t', p', h1, h2, ?_⟩
  cases x with
  | ok d => exact .inl ⟨d, rfl, h3.2.2, h3.1, h3.2.1⟩
  | err e => exact .inr ⟨by rw [h3.1], h3.2.1, h3.2.2⟩

/-- A TLS socket as the reader of a demuxer. -/
@[reducible] def src (c : Records) : Source Tls := ⟨Tls.read c⟩

/-- **C83**, streams: the FLV demuxer over TLS returns the packets of the bytes carried. -/
theorem C83_flv (c : Records) (hc : Lawful c) (t : Tls) (body : List UInt8) (cl : Err) (hcl : cl ≠ 0) (h : Carries c t body cl)
    (mem0 : List UInt8) (hm : 15 ≤ mem0.length) (hm2 : mem0.length < 2 ^ 63) (n : Nat) (ps : List AVPkt) (e : Err)
    (hf : Flv.file mem0.length cl n body = (ps, [e], false)) :
    letI := src c
    ∃ r, (FlvDemuxer.session n).runOn (SReader.on mem0 t) = some ((ps, e), r) := by
  letI := src c
  have hs : Serves (σ := Tls) cl fun _ t p => Carries c t p cl := by
    intro k s rest n hn hk
    obtain ⟨x, t', p', h1, h2, h3⟩ := read_serves hc n hn s rest cl hk
    refine ⟨x, t', k, p', h1, h2, ?_⟩
    cases x with
    | ok d => exact ⟨h3.1, h3.2.1, id, fun hd => absurd hd h3.2.2⟩
    | err e => exact h3
  have := FlvDemuxer.session_sim (RProg.sim_source hs mem0.length) hcl hm n (SReader.Holds.init hm2 (k := false) h)
  rw [hf] at this
  rcases this with ⟨x, _⟩ | ⟨e', r, c1, c2⟩
  · cases x
  · simp only [List.mem_singleton] at c2
    subst c2
    exact ⟨r, c1⟩

/-- C57 does not hold of `read_fully` of the TLS socket itself (the socket that wraps it has its own): each read goes to the start of the buffer. -/
theorem C57_negation_tls : (fully toy 9 (Tls.new [] ⟨[.data [2, 3, 4, 5]], 1004⟩ ⟨[], []⟩) 4 0 [0, 0, 0, 0]).map (fun r => (r.1, r.2.1, r.2.2.1)) =
    some (Err.SUCCESS, 4, [3, 4, 0, 0]) := by decide +kernel

-- Two pieces that carry 1 2 3, and then the end.
example : Carries toy (Tls.new [] ⟨[.data [2, 3], .data [4, 0]], 1004⟩ ⟨[], []⟩) [1, 2, 3] Err.ERROR_SSL_READ :=
  ⟨[2, 3, 4, 0], 1004, ⟨rfl, rfl, rfl, rfl⟩, by decide, by decide, by decide⟩
example : ((Tls.new [] ⟨[.data [2, 3], .data [4, 0]], 1004⟩ ⟨[], []⟩).read toy 10).map (·.1) = some (.ok [1, 2]) := by decide +kernel

/-! ## C84: writing -/

/-- **C84.** What the peer decodes after a successful write is what it decoded before and the buffer, whole; a failed write adds a part of it from the
start. -/
theorem C84_write (s : Seal) (peer : List UInt8 → List UInt8) (sent : Nat → List UInt8 → Prop) (ho : Opens s peer sent)
    (calls : List (Option Nat)) (hc : ∀ k, some k ∈ calls → 1 ≤ k) (i : Nat) (t : Tls) (hw : t.wbio = []) (hs : sent i t.snk.out)
    (buf : List UInt8) (hb : buf ≠ []) (e : Err) (j : Nat) (t' : Tls) (h : t.write s calls i buf = some (e, j, t')) :
    ∃ d, d <+: buf ∧ peer t'.snk.out = peer t.snk.out ++ d ∧ (e = Err.SUCCESS → d = buf ∧ t'.wbio = [] ∧ sent j t'.snk.out) := by
  unfold write at h
  rw [if_neg hb] at h
  obtain ⟨d, h1, h2, h3, h4⟩ := writeLoop_spec ho calls i t buf e j t' hc hb hw hs h
  exact ⟨d, h1, h3, fun he => ⟨(h2 he).1, (h2 he).2, h4 he⟩⟩

theorem toy_opens : Opens toySeal (fun w => w.map (· - 1)) fun _ _ => True := by
  intro i w d _ _
  refine ⟨trivial, ?_⟩
  simp only [toySeal, List.map_append, List.map_map]
  congr 1
  conv => rhs; rw [← List.map_id d]
  apply List.map_congr_left
  intro x _
  simp only [Function.comp, id, UInt8.add_sub_cancel]

-- Three records; and a transport that fails at the second one.
example : ((Tls.new [] ⟨[], 1004⟩ ⟨[9], []⟩).write toySeal [some 2, some 2, some 1] 0 [1, 2, 3, 4, 5]).map (fun r => (r.1, r.2.2.snk.out)) =
    some (Err.SUCCESS, [9, 2, 3, 4, 5, 6]) := by decide +kernel
example : ((Tls.new [] ⟨[], 1004⟩ ⟨[9], [0, 7]⟩).write toySeal [some 2, some 2, some 1] 0 [1, 2, 3, 4, 5]).map (fun r => (r.1, r.2.2.snk.out)) =
    some (7, [9, 2, 3]) := by decide +kernel

/-! ## C85: handshakes -/

/-- **C85** (part): a client whose flights arrive in any pieces, and which waits for the last flight of the server before it sends data, is accepted: the server
sends its two flights, and then every byte of data is still to be read.

Missing: data that arrives in the same read as the last flight of the client
(`C85_negation_early`). -/
theorem C85_accept_partial (c : Records) (f1 g1 f2 g2 : List UInt8) (h1 : f1 ≠ []) (h2 : g1 ≠ []) (h3 : f2 ≠ []) (h4 : g2 ≠ [])
    (es1 es2 more : List IoEv) (cl : Err) (p1 : Pieces es1 f1) (p2 : Pieces es2 f2) (a : List UInt8) (hm : Arrives ⟨more, cl⟩ a cl)
    (fuel : Nat) (hf1 : f1.length < fuel) (hf2 : f2.length < fuel) (out : List UInt8) :
    ∃ t, (Tls.new [.recv f1.length, .send g1, .recv f2.length, .send g2] ⟨es1 ++ (es2 ++ more), cl⟩ ⟨out, []⟩).accept fuel = some (Err.SUCCESS, t) ∧
      t.snk.out = out ++ g1 ++ g2 ∧ t.wbio = [] ∧
      Carries c t (c.plain a) (if c.ended a then Err.ERROR_SSL_READ else cl) := by
  rw [accept_steps f1 g1 f2 g2 h1 h2 h3 h4 es1 (es2 ++ more) cl p1 fuel hf1 out]
  rw [receiveLoop_flight [.send g2] cl more Err.SUCCESS [] g2 (by simp [advance]) (.inl rfl) fuel es2 f2 _ hf2 h3 p2 rfl rfl rfl rfl]
  simp only [Option.bind_some]
  rw [show goOn Err.SUCCESS = true by decide, if_pos rfl]
  rw [send_last g2 h4]
  exact ⟨_, rfl, rfl, rfl, a, cl, hm, by simp, by simp, by simp⟩

/-- **C85** (negation): data that arrives together with the end of the client's last flight (a client that does not wait, as TLS allows) is thrown away: for every
such data the outcome is the same as without it. -/
theorem C85_negation_early (f1 g1 f2 g2 : List UInt8) (h1 : f1 ≠ []) (h2 : g1 ≠ []) (h3 : f2 ≠ []) (h4 : g2 ≠ []) (es1 more : List IoEv) (cl : Err)
    (p1 : Pieces es1 f1) (early : List UInt8) (hl : (f2 ++ early).length ≤ 1024) (fuel : Nat) (hf1 : f1.length < fuel) (hf2 : f2.length < fuel)
    (out : List UInt8) :
    ∃ t, (Tls.new [.recv f1.length, .send g1, .recv f2.length, .send g2] ⟨es1 ++ (.data (f2 ++ early) :: more), cl⟩ ⟨out, []⟩).accept fuel = some (Err.SUCCESS, t) ∧
      (Tls.new [.recv f1.length, .send g1, .recv f2.length, .send g2] ⟨es1 ++ (.data f2 :: more), cl⟩ ⟨out, []⟩).accept fuel = some (Err.SUCCESS, t) := by
  have key : ∀ early : List UInt8, (f2 ++ early).length ≤ 1024 →
      (Tls.new [.recv f1.length, .send g1, .recv f2.length, .send g2] ⟨es1 ++ (.data (f2 ++ early) :: more), cl⟩ ⟨out, []⟩).accept fuel =
        some (Err.SUCCESS, ⟨[], [], [], [], 0, ⟨more, cl⟩, ⟨out ++ g1 ++ g2, []⟩⟩) := by
    intro early hl
    rw [accept_steps f1 g1 f2 g2 h1 h2 h3 h4 es1 _ cl p1 fuel hf1 out]
    have : receiveLoop fuel ⟨[.recv f2.length, .send g2], [], [], [], 0, ⟨.data (f2 ++ early) :: more, cl⟩, ⟨out ++ g1, []⟩⟩ =
        some (Err.SUCCESS, ⟨[], early, g2, [], 0, ⟨more, cl⟩, ⟨out ++ g1, []⟩⟩) := by
      cases fuel with
      | zero => omega
      | succ fuel =>
        unfold receiveLoop
        have hr : Io.read ⟨.data (f2 ++ early) :: more, cl⟩ 1024 = (.ok (f2 ++ early), ⟨more, cl⟩) := by
          unfold Io.read
          rw [if_neg (by omega)]
          simp only
          rw [if_pos hl]
        simp only [hr]
        rw [if_neg (by simp [h3])]
        simp [doHandshake, advance]
    rw [this]
    simp only [Option.bind_some]
    rw [show goOn Err.SUCCESS = true by decide, if_pos rfl, send_last g2 h4]
  have k0 := key [] (by simp only [List.length_append] at hl; simp; omega)
  rw [List.append_nil] at k0
  exact ⟨_, key early hl, k0⟩

/-- **C85**, the client's side (a pull over HTTPS): whatever follows the server's last flight, in the same pieces or later, is still to be read. -/
theorem C85_connect (c : Records) (g0 f1 g1 f2 a : List UInt8) (h0 : g0 ≠ []) (h1 : f1 ≠ []) (h2 : g1 ≠ []) (h3 : f2 ≠ []) (es1 more : List IoEv) (cl : Err)
    (hp : Pieces es1 f1) (hm : Arrives ⟨more, cl⟩ (f2 ++ a) cl) (fuel : Nat) (hf1 : f1.length < fuel) (hf2 : f2.length < fuel) (out : List UInt8) :
    ∃ t, (Tls.new [.send g0, .recv f1.length, .send g1, .recv f2.length] ⟨es1 ++ more, cl⟩ ⟨out, []⟩).connect fuel = some (Err.SUCCESS, t) ∧
      t.snk.out = out ++ g0 ++ g1 ∧ t.wbio = [] ∧
      Carries c t (c.plain a) (if c.ended a then Err.ERROR_SSL_READ else cl) := by
  obtain ⟨a1, a2, io', q1, q2, q3⟩ := connect_steps g0 f1 g1 f2 a h0 h1 h2 h3 es1 more cl hp hm fuel hf1 hf2 out
  refine ⟨_, q3, rfl, rfl, a2, cl, q2, ?_, by simp, ?_⟩
  · simp [q1]
  · simp [q1]

theorem advance_done : ∀ (s : List Hs) (r w : List UInt8), (advance s r w).1 = Err.SUCCESS → (advance s r w).2.1 = []
  | [], _, _, _ => rfl
  | .send b :: s, r, w, h => by
    simp only [advance] at h ⊢
    exact advance_done s r (w ++ b) h
  | .recv n :: s, r, w, h => by
    simp only [advance] at h ⊢
    split at h
    · rename_i hn
      rw [if_pos hn]
      exact advance_done s _ w h
    · exact absurd h (by simp [Err.ERROR_SSL_HANDSHAKE_CONTINUE, Err.SUCCESS])
  | .bad :: s, r, w, h => absurd h (by simp [advance, Err.ERROR_SSL_HANDSHAKE, Err.SUCCESS])

theorem doHandshake_done (t : Tls) (h : t.doHandshake.1 = Err.SUCCESS) : t.doHandshake.2.script = [] :=
  advance_done t.script t.rbio t.wbio h

theorem send_done (t : Tls) (h : t.send.1 = Err.SUCCESS) : t.send.2.script = [] := by
  have hd := doHandshake_done t
  unfold send at h ⊢
  generalize t.doHandshake = x at h hd ⊢
  obtain ⟨e, t1⟩ := x
  simp only at h hd ⊢
  split at h
  · rename_i hc; exact absurd h hc.1
  · rename_i hc
    rw [if_neg hc]
    split at h
    · exact absurd h (by simp [Err.ERROR_SSL_HANDSHAKE, Err.SUCCESS])
    · rename_i hw
      rw [if_neg hw]
      split at h
      · rename_i hx; exact absurd h hx
      · rename_i hx
        rw [if_neg hx]
        exact hd h

theorem send_io (t : Tls) : t.send.2.io = t.io := by
  unfold send doHandshake
  simp only
  split
  · rfl
  · split
    · rfl
    · split <;> rfl

/-- Reading never reports success as an error. -/
def Honest (io : Io) : Prop := io.closed ≠ Err.SUCCESS ∧ ∀ e, .err e ∈ io.evs → e ≠ Err.SUCCESS

theorem Honest.read {io : Io} (h : Honest io) (n : Nat) : Honest (io.read n).2 ∧ ∀ e, (io.read n).1 = .err e → e ≠ Err.SUCCESS := by
  obtain ⟨evs, cl⟩ := io
  obtain ⟨h1, h2⟩ := h
  simp only at h1 h2
  unfold Io.read
  split
  · exact ⟨⟨h1, h2⟩, fun e he => by injection he with he; subst he; simp [Err.ERROR_IO_BUFFER_FULL, Err.SUCCESS]⟩
  · cases evs with
    | nil => exact ⟨⟨h1, h2⟩, fun e he => by injection he with he; subst he; exact h1⟩
    | cons ev evs =>
      cases ev with
      | err x =>
        exact ⟨⟨h1, fun e he => h2 e (List.mem_cons_of_mem _ he)⟩, fun e he => by injection he with he; subst he; exact h2 _ (by simp)⟩
      | data p =>
        simp only
        split
        · exact ⟨⟨h1, fun e he => h2 e (List.mem_cons_of_mem _ he)⟩, fun e he => nomatch he⟩
        · refine ⟨⟨h1, fun e he => ?_⟩, fun e he => nomatch he⟩
          simp only [List.mem_cons] at he
          rcases he with he | he
          · exact nomatch he
          · exact h2 e (by simp [he])

theorem receiveLoop_done : ∀ (fuel : Nat) (t : Tls) (e : Err) (t' : Tls), Honest t.io → receiveLoop fuel t = some (e, t') →
    Honest t'.io ∧ (e = Err.SUCCESS → t'.script = [])
  | 0, _, _, _, _, h => nomatch h
  | fuel + 1, t, e, t', ho, h => by
    have hr := ho.read 1024
    unfold receiveLoop at h
    generalize Io.read t.io 1024 = x at h hr
    obtain ⟨res, io⟩ := x
    cases res with
    | err e1 =>
      simp only [Option.some.injEq, Prod.mk.injEq] at h
      obtain ⟨rfl, rfl⟩ := h
      exact ⟨hr.1, fun he => absurd he (hr.2 _ rfl)⟩
    | ok d =>
      simp only at h hr
      split at h
      · simp only [Option.some.injEq, Prod.mk.injEq] at h
        obtain ⟨rfl, rfl⟩ := h
        exact ⟨hr.1, fun he => absurd he (by simp [Err.ERROR_SSL_HANDSHAKE, Err.SUCCESS])⟩
      · have hd := doHandshake_done { t with io := io, rbio := t.rbio ++ d }
        have hio : (doHandshake { t with io := io, rbio := t.rbio ++ d }).2.io = io := rfl
        generalize doHandshake { t with io := io, rbio := t.rbio ++ d } = y at h hd hio
        obtain ⟨e1, t1⟩ := y
        simp only at h hd hio
        split at h
        · rename_i h1
          simp only [Option.some.injEq, Prod.mk.injEq] at h
          obtain ⟨rfl, rfl⟩ := h
          exact ⟨hio ▸ hr.1, hd⟩
        · rename_i h1
          split at h
          · simp only [Option.some.injEq, Prod.mk.injEq] at h
            obtain ⟨rfl, rfl⟩ := h
            exact ⟨hio ▸ hr.1, hd⟩
          · split at h
            · simp only [Option.some.injEq, Prod.mk.injEq] at h
              obtain ⟨rfl, rfl⟩ := h
              exact ⟨hio ▸ hr.1, fun he => absurd he h1⟩
            · exact receiveLoop_done fuel t1 e t' (hio ▸ hr.1) h

theorem receive_done (fuel : Nat) (t : Tls) (e : Err) (t' : Tls) (ho : Honest t.io) (h : t.receive fuel = some (e, t')) :
    Honest t'.io ∧ (e = Err.SUCCESS → t'.script = []) := by
  unfold receive at h
  have hd := doHandshake_done t
  have hio : t.doHandshake.2.io = t.io := rfl
  generalize t.doHandshake = y at h hd hio
  obtain ⟨e1, t1⟩ := y
  simp only at h hd hio
  split at h
  · simp only [Option.some.injEq, Prod.mk.injEq] at h
    obtain ⟨rfl, rfl⟩ := h
    exact ⟨hio ▸ ho, hd⟩
  · split at h
    · simp only [Option.some.injEq, Prod.mk.injEq] at h
      obtain ⟨rfl, rfl⟩ := h
      exact ⟨hio ▸ ho, hd⟩
    · exact receiveLoop_done fuel t1 e t' (hio ▸ ho) h

theorem goOn_of_not {e : Err} (h : (!goOn e) = true) : e ≠ Err.SUCCESS := by
  rintro rfl
  simp [goOn] at h

/-- **C85**: whatever the peer does, whatever the handshake asks for and however the connection fails, neither side reports success before the handshake is over. -/
theorem C85_sound (fuel : Nat) (script : List Hs) (io : Io) (ho : Honest io) (snk : Sink) (t : Tls) :
    ((Tls.new script io snk).accept fuel = some (Err.SUCCESS, t) → t.script = []) ∧
    ((Tls.new script io snk).connect fuel = some (Err.SUCCESS, t) → t.script = []) := by
  constructor
  · intro h
    unfold accept at h
    simp only [Option.bind_eq_bind, Option.pure_def] at h
    rw [Option.bind_eq_some_iff] at h
    obtain ⟨⟨e1, t1⟩, h1, h⟩ := h
    have q1 := receive_done fuel _ e1 t1 (by exact ho) h1
    simp only at h
    split at h
    · rename_i hg
      simp only [Option.some.injEq, Prod.mk.injEq] at h
      exact absurd h.1 (goOn_of_not hg)
    · have q2 := send_io t1
      have q3 := send_done t1
      generalize t1.send = y at h q2 q3
      obtain ⟨e2, t2⟩ := y
      simp only at h q2 q3
      split at h
      · rename_i hg
        simp only [Option.some.injEq, Prod.mk.injEq] at h
        exact absurd h.1 (goOn_of_not hg)
      · rw [Option.bind_eq_some_iff] at h
        obtain ⟨⟨e3, t3⟩, h3, h⟩ := h
        simp only at h
        split at h
        · rename_i hg
          simp only [Option.some.injEq, Prod.mk.injEq] at h
          exact absurd h.1 (goOn_of_not hg)
        · have q4 := send_done t3
          simp only [Option.some.injEq] at h
          rw [h] at q4
          exact q4 rfl
  · intro h
    unfold connect at h
    simp only [Option.bind_eq_bind, Option.pure_def] at h
    have q1 := send_io (Tls.new script io snk)
    generalize (Tls.new script io snk).send = y at h q1
    obtain ⟨e1, t1⟩ := y
    simp only at h q1
    have o1 : Honest t1.io := by rw [q1]; exact ho
    split at h
    · rename_i hg
      simp only [Option.some.injEq, Prod.mk.injEq] at h
      exact absurd h.1 (goOn_of_not hg)
    · rw [Option.bind_eq_some_iff] at h
      obtain ⟨⟨e2, t2⟩, h2, h⟩ := h
      have q2 := receive_done fuel _ e2 t2 o1 h2
      simp only at h
      split at h
      · rename_i hg
        simp only [Option.some.injEq, Prod.mk.injEq] at h
        exact absurd h.1 (goOn_of_not hg)
      · have q3 := send_io t2
        generalize t2.send = y at h q3
        obtain ⟨e3, t3⟩ := y
        simp only at h q3
        split at h
        · rename_i hg
          simp only [Option.some.injEq, Prod.mk.injEq] at h
          exact absurd h.1 (goOn_of_not hg)
        · rw [Option.bind_eq_some_iff] at h
          obtain ⟨⟨e4, t4⟩, h4, h⟩ := h
          have q4 := receive_done fuel _ e4 t4 (by rw [q3]; exact q2.1) h4
          simp only at h
          split at h
          · rename_i hg
            simp only [Option.some.injEq, Prod.mk.injEq] at h
            exact absurd h.1 hg
          · split at h
            · simp only [Option.some.injEq, Prod.mk.injEq] at h
              obtain ⟨rfl, rfl⟩ := h
              exact q4.2 rfl
            · simp only [Option.some.injEq, Prod.mk.injEq] at h
              obtain ⟨rfl, rfl⟩ := h
              exact q4.2 rfl

-- A peer that closes within its flight; and one whose message is bad.
example : ((Tls.new [.recv 3, .send [7], .recv 2, .send [8]] ⟨[.data [1, 1]], 1004⟩ ⟨[], []⟩).accept 9).map (·.1) = some 1004 := by decide +kernel
example : ((Tls.new [.send [7], .bad] ⟨[.data [1, 1]], 1004⟩ ⟨[], []⟩).connect 9).map (·.1) = some Err.ERROR_SSL_HANDSHAKE := by decide +kernel
example : Honest ⟨[.data [1], .err 7], 1004⟩ := ⟨by decide, by simp [Err.SUCCESS]⟩

-- A handshake of both sides; and the server with data that came early.
example : ((Tls.new [.recv 3, .send [7], .recv 2, .send [8]] ⟨[.data [1, 1], .data [1], .data [2, 2], .data [5, 6]], 1004⟩ ⟨[], []⟩).accept 9).map
    (fun r => (r.1, r.2.snk.out, r.2.rbio, r.2.io.evs)) = some (Err.SUCCESS, [7, 8], [], [.data [5, 6]]) := by decide +kernel
example : ((Tls.new [.recv 3, .send [7], .recv 2, .send [8]] ⟨[.data [1, 1], .data [1], .data [2, 2, 5], .data [6]], 1004⟩ ⟨[], []⟩).accept 9).map
    (fun r => (r.1, r.2.snk.out, r.2.rbio, r.2.io.evs)) = some (Err.SUCCESS, [7, 8], [], [.data [6]]) := by decide +kernel
example : ((Tls.new [.send [9], .recv 3, .send [7], .recv 2] ⟨[.data [1, 1], .data [1], .data [2, 2, 5], .data [6]], 1004⟩ ⟨[], []⟩).connect 9).map
    (fun r => (r.1, r.2.snk.out, r.2.rbio, r.2.io.evs)) = some (Err.SUCCESS, [9, 7], [5], [.data [6]]) := by decide +kernel
example : Pieces [.data [1, 1], .data [1]] [1, 1, 1] ∧ Arrives ⟨[.data [5, 6]], 1004⟩ [5, 6] 1004 := ⟨⟨rfl, rfl, rfl⟩, ⟨rfl, rfl, rfl, rfl⟩⟩

/-! ## C86: accepting -/

/-- **C86** (part): when every handshake ends, the clients whose handshake succeeds are handed to the server, each once and in the order in which they connected.

Missing: handshakes that do not end (`C86_negation_stalls`). -/
theorem C86_all_partial (cs : List Client) (h : ∀ i, .stalls i ∉ cs) :
    acceptor cs = cs.filterMap fun c => match c with | .fine i => some i | _ => none := by
  induction cs with
  | nil => rfl
  | cons c cs ih =>
    have ih := ih fun i hi => h i (List.mem_cons_of_mem _ hi)
    cases c with
    | fine i => simp [acceptor, ih]
    | fails i => simp [acceptor, ih]
    | stalls i => exact absurd (List.mem_cons_self ..) (h i)

/-- **C86** (negation): a client that connects and sends nothing keeps every client after it from being served. -/
theorem C86_negation_stalls (before after : List Client) (i : Nat) : acceptor (before ++ .stalls i :: after) = acceptor before := by
  induction before with
  | nil => rfl
  | cons c cs ih => cases c <;> simp [acceptor, ih]

example : ∀ i, Client.stalls i ∉ [Client.fine 1, .fails 2, .fine 3] := by intro i; simp
example : acceptor [.fine 1, .fails 2, .fine 3] = [1, 3] ∧ acceptor [.fine 1, .stalls 2, .fine 3] = [1] := by decide +kernel

/-! ## C87: certificates -/

/-- **C87** (part): a client that names a host is shown the certificate of the host that will serve its requests (C51) if that host has one, and none if there is no such host or it
has none.

Missing: the certificate of the server itself (`C87_negation_own`). -/
theorem C87_named_partial (server : Conf.Module) (hs : List Conf.Module) (hz : ∀ h ∈ hs, (0 : UInt8) ∉ h.name) (usable : Text → Text → Bool) (name : Text) :
    (∀ h crt key, Server.choose hs name = some h → Has h crt key → usable crt key = true →
      shown server (Router.new.history hs) usable (some name) = some (some (crt, key))) ∧
    (∀ x, shown server (Router.new.history hs) usable (some name) = some (some x) →
      ∃ h, Server.choose hs name = some h ∧ Has h x.1 x.2 ∧ usable x.1 x.2 = true) := by
  have hfind : (Router.new.history hs).find name = Server.choose hs name := C51_find hs hz name
  constructor
  · intro h crt key hc ⟨a1, a2, a3, a4⟩ hu
    simp [shown, certificate, onName, search, hfind, hc, Host.text, a1, a2, a3, a4, hu]
  · intro x hx
    simp only [shown, certificate, onName, search, hfind, Option.some.injEq] at hx
    cases hc : Server.choose hs name with
    | none => simp [hc] at hx
    | some h =>
      refine ⟨h, rfl, ?_⟩
      simp only [hc] at hx
      by_cases hk : Host.text h (ascii "ssl_key_file") = [] ∨ Host.text h (ascii "ssl_crt_file") = []
      · rw [if_pos hk] at hx
        simp at hx
      · rw [if_neg hk] at hx
        rw [not_or] at hk
        simp only [ne_eq, not_true, if_false] at hx
        split at hx
        · rename_i hu
          simp only [Option.some.injEq] at hx
          subst hx
          refine ⟨⟨?_, ?_, hk.2, hk.1⟩, hu⟩
          · have := hk.2
            unfold Host.text at this ⊢
            split at this
            · rename_i s hs; rw [hs]
            · exact absurd rfl this
          · have := hk.1
            unfold Host.text at this ⊢
            split at this
            · rename_i s hs; rw [hs]
            · exact absurd rfl this
        · simp at hx

/-- **C87** (negation): the certificate in the server's own configuration is shown to nobody; a client that does not name a host is shown none. -/
theorem C87_negation_own (server : Conf.Module) (r : Router) (usable : Text → Text → Bool) :
    shown server r usable none = some none ∧
    ∀ server' sni, shown server r usable sni = shown server' r usable sni :=
  ⟨rfl, fun _ _ => rfl⟩

/-- A server with a certificate of its own and two hosts, the first with a certificate. -/
def sample : Conf.Module := ((Setup.all (Setup.ofFile
  "http {\nserver {\nlisten_port 443;\nssl_crt_file s.crt;\nssl_key_file s.key;\nhost a.com {\nssl_crt_file a.crt;\nssl_key_file a.key;\n}\nhost b.com {\n}\n}\n}\n")).head?).getD
    (.mk .root [] (fun _ => none) [])

example : Has (sample.inner.headD (.mk .root [] (fun _ => none) [])) (ascii "a.crt") (ascii "a.key") := by
  refine ⟨?_, ?_, ?_, ?_⟩ <;> decide +kernel
example : (Server.choose sample.inner (ascii "a.com")).map Conf.Module.name = some (ascii "a.com") := by decide +kernel
example : [some (ascii "a.com"), some (ascii "b.com"), some (ascii "c.com"), none].map
    (shown sample (Router.new.history sample.inner) (fun _ _ => true)) = [some (some (ascii "a.crt", ascii "a.key")), some none, some none, some none] := by decide +kernel
example : Host.text sample (ascii "ssl_crt_file") = ascii "s.crt" := by decide +kernel

end Sps.Tls
