import Verif.Lemmas.RtmpCmd
/-! # Lemmas for RTMP acknowledgements and the negotiation -/
namespace Sps.RtmpHook
open Spec Rtmp

theorem encodeInt32_eq (n : Nat) (h : n < 2 ^ 32) : encodeInt32 n = beBytes 4 n := by
  have : FlvMuxer.low 32 (n : Int) = n := by unfold FlvMuxer.low; omega
  unfold encodeInt32
  rw [this]
  simp [beBytes]

theorem int32At_be (w : Nat) (r : List UInt8) (h : w < 2 ^ 31) : int32At (beBytes 4 w ++ r) 0 = some (w : Int) := by
  simp only [int32At, beBytes, List.cons_append, List.nil_append, List.drop_zero, Option.some.injEq, UInt8.toNat_ofNat']
  unfold i32
  split <;> omega

theorem int32At_some (b : List UInt8) (h : 4 ≤ b.length) : ∃ x, int32At b 0 = some x := by
  match b, h with
  | a :: b :: c :: d :: r, _ => exact ⟨_, rfl⟩

/-- One message. -/
theorem onRecv_data {m : RtmpRecv} (h6 : m.type ≠ 6) (h4 : ¬ (m.type = 4 ∧ m.body.take 2 = [0, 6]))
    (h5 : m.type = 5 → 4 ≤ m.body.length) (h : RtmpHook) (ho : h.bytesIn + m.nIn < 2 ^ 31) :
    ∃ h1 : RtmpHook, h1.bytesIn = h.bytesIn + m.nIn ∧ h1.clientBW = h.clientBW ∧ h1.nextAcked = h.nextAcked ∧
      h.onRecv m = h1.ack.map fun x => (Err.SUCCESS, x.1, x.2) := by
  unfold onRecv
  rw [if_neg (by omega)]
  simp only
  rw [if_neg (by intro ⟨a, _, b⟩; exact h4 ⟨a, b⟩)]
  by_cases t1 : m.type = 1
  · rw [if_pos t1]
    by_cases hl : m.body.length ≥ 4
    · rw [if_pos hl]
      obtain ⟨x, hx⟩ := int32At_some m.body hl
      rw [hx]
      refine ⟨{ h with bytesIn := h.bytesIn + m.nIn, inChunk := x }, rfl, rfl, rfl, ?_⟩
      simp only [Option.map_some, Option.bind_eq_bind, Option.bind_some]
      cases ack _ <;> rfl
    · rw [if_neg hl]
      refine ⟨{ h with bytesIn := h.bytesIn + m.nIn }, rfl, rfl, rfl, ?_⟩
      simp only [Option.bind_eq_bind, Option.bind_some]
      cases ack _ <;> rfl
  · rw [if_neg t1]
    by_cases t5 : m.type = 5
    · rw [if_pos t5]
      obtain ⟨x, hx⟩ := int32At_some m.body (h5 t5)
      rw [hx]
      refine ⟨{ h with bytesIn := h.bytesIn + m.nIn, serverBW := x }, rfl, rfl, rfl, ?_⟩
      simp only [Option.map_some, Option.bind_eq_bind, Option.bind_some]
      cases ack _ <;> rfl
    · rw [if_neg t5, if_neg h6]
      refine ⟨{ h with bytesIn := h.bytesIn + m.nIn }, rfl, rfl, rfl, ?_⟩
      simp only [Option.bind_eq_bind, Option.bind_some]
      cases ack _ <;> rfl

theorem onRecv_window {m : RtmpRecv} {w : Nat} {r : List UInt8} (h6 : m.type = 6) (hb : m.body = beBytes 4 w ++ r)
    (hw : w < 2 ^ 31) (h : RtmpHook) (ho : h.bytesIn + m.nIn < 2 ^ 31) :
    ∃ h1 : RtmpHook, h1.bytesIn = h.bytesIn + m.nIn ∧ h1.clientBW = w ∧ h1.nextAcked = w ∧
      h.onRecv m = h1.ack.map fun x => (Err.SUCCESS, x.1, x.2) := by
  unfold onRecv
  rw [if_neg (by omega)]
  simp only
  rw [if_neg (by rw [h6]; simp), if_neg (by rw [h6]; simp), if_neg (by rw [h6]; simp), if_pos h6, hb, int32At_be w r hw]
  refine ⟨{ h with bytesIn := h.bytesIn + m.nIn, clientBW := w, nextAcked := w }, rfl, rfl, rfl, ?_⟩
  simp only [Option.map_some, Option.bind_eq_bind, Option.bind_some]
  cases ack _ <;> rfl

theorem ack_spec (h : RtmpHook) (w last total : Nat) (hb : h.bytesIn = total) (hc : h.clientBW = w)
    (hn : h.nextAcked = (last + w : Nat)) (hle : last ≤ total) (ho : total + w < 2 ^ 31) :
    (total - last ≥ w → ∃ h' : RtmpHook, h.ack = some (h', [.ack (beBytes 4 total)]) ∧ h'.bytesIn = total ∧ h'.clientBW = w ∧
      h'.nextAcked = (total + w : Nat)) ∧ (¬ total - last ≥ w → h.ack = some (h, [])) := by
  constructor
  · intro hd
    unfold ack
    rw [if_neg (by omega), if_neg (by omega), hb, hc, encodeInt32_eq _ (by omega)]
    exact ⟨_, rfl, rfl, rfl, by push_cast; rfl⟩
  · intro hd
    unfold ack
    rw [if_pos (by omega)]

theorem recvAll_spec (b : Nat) {ms : List RtmpRecv} {es : List Ev} (hm : List.Forall₂ Means ms es) :
    ∀ (w last total : Nat) (h : RtmpHook), h.bytesIn = total → h.clientBW = w → h.nextAcked = (last + w : Nat) → last ≤ total →
      w ≤ b → windowsBelow b es = true → total + received es + b < 2 ^ 31 →
      (∀ i n w', es[i]? = some (.window n w') → last = 0 ∧ acks w 0 total (es.take i) = []) →
      ∃ h', recvAll h ms = some (Err.SUCCESS, h', (acks w last total es).map fun n => .ack (beBytes 4 n)) := by
  induction hm with
  | nil => intro w last total h _ _ _ _ _ _ _ _; exact ⟨h, rfl⟩
  | @cons m e ms es h1 _ ih =>
    intro w last total h hb hc hn hle hwb hbl hov hwin
    cases h1 with
    | data h6 h4 h5 =>
      simp only [received, windowsBelow] at hov hbl
      obtain ⟨k, kb, kc, kn, ke⟩ := onRecv_data h6 h4 h5 h (by omega)
      have hk : k.bytesIn = (total + m.nIn : Nat) := by rw [kb, hb]; push_cast; rfl
      obtain ⟨a1, a2⟩ := ack_spec k w last (total + m.nIn) hk (kc.trans hc) (kn.trans hn) (by omega) (by omega)
      unfold recvAll acks
      rw [ke]
      by_cases hd : total + m.nIn - last ≥ w
      · obtain ⟨k', e1, e2, e3, e4⟩ := a1 hd
        rw [e1, if_pos hd]
        obtain ⟨h', e5⟩ := ih w (total + m.nIn) (total + m.nIn) k' e2 e3 e4 (Nat.le_refl _) hwb hbl (by omega) (by
          intro i n w' hi
          have := hwin (i + 1) n w' (by simpa using hi)
          obtain ⟨rfl, hz⟩ := this
          rw [List.take_succ_cons, acks, if_pos hd] at hz
          simp at hz)
        exact ⟨h', by simp [e5]⟩
      · rw [a2 hd, if_neg hd]
        obtain ⟨h', e5⟩ := ih w last (total + m.nIn) k hk (kc.trans hc) (kn.trans hn) (by omega) hwb hbl (by omega) (by
          intro i n w' hi
          have := hwin (i + 1) n w' (by simpa using hi)
          obtain ⟨rfl, hz⟩ := this
          rw [List.take_succ_cons, acks, if_neg hd] at hz
          exact ⟨rfl, hz⟩)
        exact ⟨h', by simp [e5]⟩
    | @window w' r h6 hbd hw' =>
      simp only [received, windowsBelow, Bool.and_eq_true, decide_eq_true_eq] at hov hbl
      obtain ⟨rfl, _⟩ := hwin 0 m.nIn w' rfl
      obtain ⟨k, kb, kc, kn, ke⟩ := onRecv_window h6 hbd hw' h (by omega)
      have hk : k.bytesIn = (total + m.nIn : Nat) := by rw [kb, hb]; push_cast; rfl
      obtain ⟨a1, a2⟩ := ack_spec k w' 0 (total + m.nIn) hk kc (by rw [kn]; simp) (by omega) (by omega)
      unfold recvAll acks
      rw [ke]
      by_cases hd : total + m.nIn - 0 ≥ w'
      · obtain ⟨k', e1, e2, e3, e4⟩ := a1 hd
        rw [e1, if_pos hd]
        obtain ⟨h', e5⟩ := ih w' (total + m.nIn) (total + m.nIn) k' e2 e3 e4 (Nat.le_refl _) hbl.1 hbl.2 (by omega) (by
          intro i n w' hi
          have := hwin (i + 1) n w' (by simpa using hi)
          obtain ⟨_, hz⟩ := this
          rw [List.take_succ_cons, acks, if_pos hd] at hz
          simp at hz)
        exact ⟨h', by simp [e5]⟩
      · rw [a2 hd, if_neg hd]
        obtain ⟨h', e5⟩ := ih w' 0 (total + m.nIn) k hk kc (by rw [kn]; simp) (by omega) hbl.1 hbl.2 (by omega) (by
          intro i n w' hi
          have := hwin (i + 1) n w' (by simpa using hi)
          obtain ⟨_, hz⟩ := this
          rw [List.take_succ_cons, acks, if_neg hd] at hz
          exact ⟨rfl, hz⟩)
        exact ⟨h', by simp [e5]⟩

end Sps.RtmpHook

namespace Sps.PreRequest
open Spec Rtmp

theorem sendAll_ok (s : PreRequest) (hf : s.fails = []) (rs : List RtmpReply) :
    s.sendAll rs = (Err.SUCCESS, { s with sent := s.sent ++ rs }) := by
  induction rs generalizing s with
  | nil => simp [sendAll]
  | cons r rs ih =>
    simp only [sendAll, send, hf]
    rw [if_neg (by simp), ih _ (by simp [hf])]
    simp

theorem sendAll_keeps (s : PreRequest) (rs : List RtmpReply) :
    (s.sendAll rs).2.playing = s.playing ∧ (s.sendAll rs).2.publishing = s.publishing := by
  induction rs generalizing s with
  | nil => simp [sendAll]
  | cons r rs ih =>
    unfold sendAll send
    cases s.fails with
    | nil => simp only; split
             · exact ⟨rfl, rfl⟩
             · exact ih _
    | cons e fs => simp only; split
                   · exact ⟨rfl, rfl⟩
                   · exact ih _

theorem send_keeps (s : PreRequest) (r : RtmpReply) :
    (s.send r).2.playing = s.playing ∧ (s.send r).2.publishing = s.publishing := by
  unfold send; split <;> exact ⟨rfl, rfl⟩

theorem send_ok (s : PreRequest) (hf : s.fails = []) (r : RtmpReply) : s.send r = (Err.SUCCESS, { s with sent := s.sent ++ [r] }) := by
  unfold send; rw [hf]

/-- The first loop. -/
theorem waitConnect_spec (closed : Err) (hc : closed ≠ Err.SUCCESS) (s : PreRequest) (ms : List AmfMsg) (txn : Nat) (s' : PreRequest)
    (rest : List AmfMsg) :
    waitConnect closed s ms = some (Err.SUCCESS, txn, s', rest) ↔
      ∃ pre m app url, ms = pre ++ m :: rest ∧ (∀ x ∈ pre, idle x) ∧
        decoded m = some (Err.SUCCESS, some (.connect txn app url)) ∧ s' = { s with tcUrl := url } := by
  induction ms with
  | nil => simp [waitConnect, hc]
  | cons m ms ih =>
    unfold waitConnect
    rcases hd : RtmpCmd.decode m.type m.amf m.len with _ | ⟨e, c⟩
    · simp only [Option.bind_eq_bind, Option.bind_none]
      constructor
      · simp
      · rintro ⟨pre, m', app, url, h1, h2, h3, _⟩
        rcases pre with _ | ⟨x, pre⟩
        · simp at h1; rw [← h1.1] at h3; simp [decoded, hd] at h3
        · simp at h1
          obtain ⟨c, hx, _⟩ := h2 x (by simp)
          rw [← h1.1] at hx; simp [decoded, hd] at hx
    · simp only [Option.bind_eq_bind, Option.bind_some]
      by_cases he : e = Err.SUCCESS
      · rw [if_neg (by simpa using he)]
        have skip : (∀ t a u, c ≠ some (.connect t a u)) → ((∃ pre m' app url, m :: ms = pre ++ m' :: rest ∧ (∀ x ∈ pre, idle x) ∧
            decoded m' = some (Err.SUCCESS, some (.connect txn app url)) ∧ s' = { s with tcUrl := url }) ↔
            ∃ pre m app url, ms = pre ++ m :: rest ∧ (∀ x ∈ pre, idle x) ∧
            decoded m = some (Err.SUCCESS, some (.connect txn app url)) ∧ s' = { s with tcUrl := url }) := by
          intro hn
          constructor
          · rintro ⟨pre, m', app, url, h1, h2, h3, h4⟩
            rcases pre with _ | ⟨x, pre⟩
            · simp at h1; rw [← h1.1] at h3; simp [decoded, hd] at h3
              exact absurd h3.2 (hn _ _ _)
            · simp at h1
              exact ⟨pre, m', app, url, h1.2, fun y hy => h2 y (by simp [hy]), h3, h4⟩
          · rintro ⟨pre, m', app, url, h1, h2, h3, h4⟩
            refine ⟨m :: pre, m', app, url, by simp [h1], ?_, h3, h4⟩
            intro y hy
            rcases List.mem_cons.1 hy with rfl | hy
            · exact ⟨c, by simp [decoded, hd, he], hn⟩
            · exact h2 y hy
        split
        · rename_i t a u
          simp only [Option.pure_def, Option.some.injEq, Prod.mk.injEq, true_and]
          constructor
          · rintro ⟨rfl, rfl, rfl⟩
            exact ⟨[], m, a, u, rfl, by simp, by simp [decoded, hd, he], rfl⟩
          · rintro ⟨pre, m', app, url, h1, h2, h3, h4⟩
            rcases pre with _ | ⟨x, pre⟩
            · simp at h1; rw [← h1.1] at h3; simp [decoded, hd] at h3
              exact ⟨h3.2.1, by rw [h4, h3.2.2.2], h1.2⟩
            · simp at h1
              obtain ⟨c, hx, hn⟩ := h2 x (by simp)
              rw [← h1.1] at hx; simp [decoded, hd] at hx
              exact absurd hx.2.symm (hn _ _ _)
        · rename_i hn
          rw [ih, skip (by intro t a u h; exact hn t a u h)]
      · rw [if_pos (by simpa using he)]
        simp only [Option.pure_def, Option.some.injEq, Prod.mk.injEq, he, false_and, false_iff]
        rintro ⟨pre, m', app, url, h1, h2, h3, h4⟩
        rcases pre with _ | ⟨x, pre⟩
        · simp at h1; rw [← h1.1] at h3; simp [decoded, hd, he] at h3
        · simp at h1
          obtain ⟨c, hx, hn⟩ := h2 x (by simp)
          rw [← h1.1] at hx; simp [decoded, hd, he] at hx

theorem waitConnect_keeps (closed : Err) (s : PreRequest) (ms : List AmfMsg) {e : Err} {txn : Nat} {s' : PreRequest}
    {rest : List AmfMsg} (h : waitConnect closed s ms = some (e, txn, s', rest)) :
    s'.playing = s.playing ∧ s'.publishing = s.publishing ∧ s'.fails = s.fails ∧ s'.sent = s.sent := by
  induction ms with
  | nil => simp only [waitConnect, Option.some.injEq, Prod.mk.injEq] at h; obtain ⟨_, _, rfl, _⟩ := h; exact ⟨rfl, rfl, rfl, rfl⟩
  | cons m ms ih =>
    unfold waitConnect at h
    rcases hd : RtmpCmd.decode m.type m.amf m.len with _ | ⟨e', c⟩
    · simp [hd] at h
    · simp only [hd, Option.bind_eq_bind, Option.bind_some] at h
      split at h
      · simp at h; obtain ⟨_, _, rfl, _⟩ := h; exact ⟨rfl, rfl, rfl, rfl⟩
      · split at h
        · simp at h; obtain ⟨_, _, rfl, _⟩ := h; exact ⟨rfl, rfl, rfl, rfl⟩
        · exact ih h

/-- What the second loop has to find. -/
def Found (s : PreRequest) (ms : List AmfMsg) (s' : PreRequest) (rest : List AmfMsg) : Prop :=
  ∃ mid m st play fin, ms = mid ++ m :: rest ∧ (∀ x ∈ mid, setup x) ∧ Starts m st play fin ∧
    s' = { s with streamParams := 47 :: st, sent := s.sent ++ mid.flatMap replies ++ fin,
                  playing := s.playing || play, publishing := s.publishing || !play }

theorem Found.skip {s s' : PreRequest} {m : AmfMsg} {ms rest : List AmfMsg} (c : Option RtmpCmd) (hd : decoded m = some (Err.SUCCESS, c))
    (h1 : ∀ t s, c ≠ some (.play t s)) (h2 : ∀ t s y, c ≠ some (.publish t s y)) :
    Found s (m :: ms) s' rest ↔ Found ({ s with sent := s.sent ++ replies m }) ms s' rest := by
  constructor
  · rintro ⟨mid, m', st, play, fin, e1, e2, e3, e4⟩
    rcases mid with _ | ⟨x, mid⟩
    · simp at e1
      rw [← e1.1] at e3
      cases e3 with
      | play h => rw [hd] at h; simp at h; exact absurd h (h1 _ _)
      | publish h => rw [hd] at h; simp at h; exact absurd h (h2 _ _ _)
    · simp at e1
      refine ⟨mid, m', st, play, fin, e1.2, fun y hy => e2 y (by simp [hy]), e3, ?_⟩
      rw [e4, e1.1]; simp
  · rintro ⟨mid, m', st, play, fin, e1, e2, e3, e4⟩
    refine ⟨m :: mid, m', st, play, fin, by simp [e1], ?_, e3, by rw [e4]; simp⟩
    intro y hy
    rcases List.mem_cons.1 hy with rfl | hy
    · exact ⟨c, hd, h1, h2⟩
    · exact e2 y hy

theorem Found.head {s s' : PreRequest} {m : AmfMsg} {ms rest : List AmfMsg} {st : List UInt8} {play : Bool} {fin : List RtmpReply}
    (hs : Starts m st play fin) :
    Found s (m :: ms) s' rest ↔ rest = ms ∧
      s' = { s with streamParams := 47 :: st, sent := s.sent ++ fin, playing := s.playing || play, publishing := s.publishing || !play } := by
  constructor
  · rintro ⟨mid, m', st', play', fin', e1, e2, e3, e4⟩
    rcases mid with _ | ⟨x, mid⟩
    · simp at e1
      rw [← e1.1] at e3
      refine ⟨e1.2.symm, ?_⟩
      have : st' = st ∧ play' = play ∧ fin' = fin := by
        cases hs with
        | play h => cases e3 with
          | play h' => rw [h] at h'; simp at h'; exact ⟨h'.2.symm, rfl, by rw [h'.1]⟩
          | publish h' => rw [h] at h'; simp at h'
        | publish h => cases e3 with
          | play h' => rw [h] at h'; simp at h'
          | publish h' => rw [h] at h'; simp at h'; exact ⟨h'.2.1.symm, rfl, by rw [h'.1]⟩
      rw [e4, this.1, this.2.1, this.2.2]; simp
    · simp at e1
      obtain ⟨c, hc, g1, g2⟩ := e2 x (by simp)
      rw [← e1.1] at hc
      cases hs with
      | play h => rw [h] at hc; simp at hc; exact absurd hc.symm (g1 _ _)
      | publish h => rw [h] at hc; simp at hc; exact absurd hc.symm (g2 _ _ _)
  · rintro ⟨rfl, rfl⟩
    exact ⟨[], m, st, play, fin, rfl, by simp, hs, by simp⟩

theorem serve_spec (closed : Err) (hc : closed ≠ Err.SUCCESS) (ms : List AmfMsg) :
    ∀ (s : PreRequest), s.fails = [] → ∀ (s' : PreRequest) (rest : List AmfMsg),
      serve closed s ms = some (Err.SUCCESS, s', rest) ↔ Found s ms s' rest := by
  induction ms with
  | nil => intro s _ s' rest; simp [serve, Found, hc]
  | cons m ms ih =>
    intro s hf s' rest
    unfold serve
    have bad : ∀ x, RtmpCmd.decode m.type m.amf m.len = x → (∀ c, x ≠ some (Err.SUCCESS, c)) → ¬ Found s (m :: ms) s' rest := by
      rintro x hx hn ⟨mid, m', st, play, fin, e1, e2, e3, e4⟩
      rcases mid with _ | ⟨y, mid⟩
      · simp at e1
        rw [← e1.1] at e3
        cases e3 with
        | play h => rw [decoded, hx] at h; exact hn _ h
        | publish h => rw [decoded, hx] at h; exact hn _ h
      · simp at e1
        obtain ⟨c, hc, _⟩ := e2 y (by simp)
        rw [← e1.1, decoded, hx] at hc
        exact hn _ hc
    rcases hd : RtmpCmd.decode m.type m.amf m.len with _ | ⟨e, c⟩
    · simp only [Option.bind_eq_bind, Option.bind_none]
      have := bad none hd (by simp)
      simp [this]
    · simp only [Option.bind_eq_bind, Option.bind_some]
      by_cases he : e = Err.SUCCESS
      · rw [if_neg (by simpa using he)]
        subst he
        have hdd : decoded m = some (Err.SUCCESS, c) := hd
        have step : ∀ r, replies m = [r] → (∀ t s, c ≠ some (.play t s)) → (∀ t s y, c ≠ some (.publish t s y)) →
            ((if (s.send r).1 ≠ Err.SUCCESS then pure ((s.send r).1, (s.send r).2, ms) else serve closed (s.send r).2 ms) =
              some (Err.SUCCESS, s', rest) ↔ Found s (m :: ms) s' rest) := by
          intro r hr h1 h2
          rw [send_ok s hf, if_neg (by simp), ih _ (by simpa using hf), Found.skip c hdd h1 h2, hr]
        have hrep : ∀ r, (match decoded m with
            | some (_, some (.createStream t)) => [RtmpReply.result t 1]
            | some (_, some (.releaseStream t _)) => [.result t 0]
            | some (_, some (.fcPublish t _)) => [.result t 0]
            | _ => []) = r → replies m = r := fun r h => h
        split
        · rename_i t
          exact step (.result t 1) (hrep _ (by rw [hdd])) (by simp) (by simp)
        · rename_i t st
          rw [sendAll_ok _ (by simpa using hf), Found.head (Starts.play hdd)]
          simp only [ne_eq, not_true_eq_false, if_false, Option.pure_def, Option.some.injEq, Prod.mk.injEq, true_and]
          constructor
          · rintro ⟨rfl, rfl⟩; exact ⟨rfl, by simp⟩
          · rintro ⟨rfl, rfl⟩; exact ⟨by simp, rfl⟩
        · rename_i t st
          exact step (.result t 0) (hrep _ (by rw [hdd])) (by simp) (by simp)
        · rename_i t st
          exact step (.result t 0) (hrep _ (by rw [hdd])) (by simp) (by simp)
        · rename_i t st y
          rw [sendAll_ok _ (by simpa using hf), Found.head (Starts.publish hdd)]
          simp only [ne_eq, not_true_eq_false, if_false, Option.pure_def, Option.some.injEq, Prod.mk.injEq, true_and]
          constructor
          · rintro ⟨rfl, rfl⟩; exact ⟨rfl, by simp⟩
          · rintro ⟨rfl, rfl⟩; exact ⟨by simp, rfl⟩
        · rename_i n1 n2 n3 n4 n5
          have hr : replies m = [] := hrep _ (by
            rw [hdd]
            rcases c with _ | c
            · rfl
            · cases c <;> first | rfl | (exfalso; first | exact n1 _ rfl | exact n3 _ _ rfl | exact n4 _ _ rfl))
          rw [ih _ hf, Found.skip c hdd n2 n5, hr]
          simp
      · rw [if_pos (by simpa using he)]
        have := bad _ hd (by simp [he])
        simp [this, he]

/-- The flags, whatever the sends return. -/
theorem serve_flags (closed : Err) (hc : closed ≠ Err.SUCCESS) (ms : List AmfMsg) :
    ∀ (s : PreRequest), s.playing = false → s.publishing = false → ∀ {e : Err} {s' : PreRequest} {rest : List AmfMsg},
      serve closed s ms = some (e, s', rest) →
      (e ≠ Err.SUCCESS → s'.playing = false ∧ s'.publishing = false) ∧ (e = Err.SUCCESS → s'.playing = !s'.publishing) := by
  induction ms with
  | nil =>
    intro s h1 h2 e s' rest h
    simp only [serve, Option.some.injEq, Prod.mk.injEq] at h
    obtain ⟨rfl, rfl, _⟩ := h
    exact ⟨fun _ => ⟨h1, h2⟩, fun h => absurd h hc⟩
  | cons m ms ih =>
    intro s h1 h2 e s' rest h
    unfold serve at h
    rcases hd : RtmpCmd.decode m.type m.amf m.len with _ | ⟨e', c⟩
    · simp [hd] at h
    · simp only [hd, Option.bind_eq_bind, Option.bind_some] at h
      split at h
      · rename_i he
        simp at h; obtain ⟨rfl, rfl, _⟩ := h
        exact ⟨fun _ => ⟨h1, h2⟩, fun h => absurd h he⟩
      · have step : ∀ r, (if (s.send r).1 ≠ Err.SUCCESS then pure ((s.send r).1, (s.send r).2, ms) else serve closed (s.send r).2 ms) =
              some (e, s', rest) →
            (e ≠ Err.SUCCESS → s'.playing = false ∧ s'.publishing = false) ∧ (e = Err.SUCCESS → s'.playing = !s'.publishing) := by
          intro r h
          have k := send_keeps s r
          split at h
          · rename_i he
            simp at h; obtain ⟨rfl, rfl, _⟩ := h
            exact ⟨fun _ => ⟨k.1.trans h1, k.2.trans h2⟩, fun h => absurd h he⟩
          · exact ih _ (k.1.trans h1) (k.2.trans h2) h
        split at h
        · exact step _ h
        · rename_i t st
          have k := sendAll_keeps { s with streamParams := 47 :: st } [.playStart t, .sampleAccess, .streamBegin]
          split at h
          · rename_i he
            simp at h; obtain ⟨rfl, rfl, _⟩ := h
            exact ⟨fun _ => ⟨k.1.trans h1, k.2.trans h2⟩, fun h => absurd h he⟩
          · simp at h; obtain ⟨rfl, rfl, _⟩ := h
            exact ⟨fun h => absurd rfl h, fun _ => by
              have := k.2.trans h2
              show true = !(_ : Bool)
              rw [this]; rfl⟩
        · exact step _ h
        · exact step _ h
        · rename_i t st y
          have k := sendAll_keeps { s with streamParams := 47 :: st } [.publishStart t, .streamBegin]
          split at h
          · rename_i he
            simp at h; obtain ⟨rfl, rfl, _⟩ := h
            exact ⟨fun _ => ⟨k.1.trans h1, k.2.trans h2⟩, fun h => absurd h he⟩
          · simp at h; obtain ⟨rfl, rfl, _⟩ := h
            exact ⟨fun h => absurd rfl h, fun _ => by
              have := k.1.trans h1
              show (_ : Bool) = !true
              rw [this]; rfl⟩
        · exact ih _ h1 h2 h

end Sps.PreRequest
