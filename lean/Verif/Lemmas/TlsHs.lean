import Verif.Lemmas.Tls
/-!
# Lemmas on TLS handshakes
-/
namespace Sps.Tls
open Spec Spec.Tls

/-- Reading from pieces of `f` that are followed by other events. -/
theorem pieces_read {es more : List IoEv} {f : List UInt8} (h : Pieces es f) (hf : f ≠ []) (cl : Err) (n : Nat) (hn : 0 < n) :
    ∃ d f' es', Io.read ⟨es ++ more, cl⟩ n = (.ok d, ⟨es' ++ more, cl⟩) ∧ f = d ++ f' ∧ d ≠ [] ∧ Pieces es' f' := by
  obtain ⟨h1, h2, h3⟩ := h
  cases es with
  | nil => exact absurd h3.symm hf
  | cons ev es =>
    cases ev with
    | err e => simp [noErr] at h2
    | data p =>
      simp only [List.all_cons, Bool.and_eq_true] at h1
      have hp : p ≠ [] := by simpa [evOk] using h1.1
      have h2' : noErr es = true := by simpa [noErr] using h2
      have h3' : p ++ streamOf es = f := h3
      unfold Io.read
      rw [if_neg (by omega)]
      simp only [List.cons_append]
      by_cases hl : p.length ≤ n
      · rw [if_pos hl]
        exact ⟨p, streamOf es, es, rfl, h3'.symm, hp, h1.2, h2', rfl⟩
      · rw [if_neg hl]
        refine ⟨p.take n, p.drop n ++ streamOf es, .data (p.drop n) :: es, rfl, ?_, ?_, ?_, ?_, rfl⟩
        · rw [← List.append_assoc, List.take_append_drop]; exact h3'.symm
        · intro hnil; rw [List.take_eq_nil_iff] at hnil; rcases hnil with h | h
          · omega
          · exact hp h
        · simp only [List.all_cons, Bool.and_eq_true]
          refine ⟨?_, h1.2⟩
          have : p.drop n ≠ [] := by intro hnil; rw [List.drop_eq_nil_iff] at hnil; omega
          simpa [evOk] using this
        · simpa [noErr] using h2'

/-- A flight arrives, and nothing else before the answer: it is taken whole. -/
theorem receiveLoop_flight (s : List Hs) (cl : Err) (more : List IoEv) (e : Err) (s' : List Hs) (w : List UInt8)
    (hadv : advance s [] [] = (e, s', [], w)) (hstop : e = Err.SUCCESS ∨ e = Err.ERROR_SSL_HANDSHAKE_CONTINUE ∧ w ≠ []) :
    ∀ (fuel : Nat) (es : List IoEv) (f : List UInt8) (t : Tls), f.length < fuel → f ≠ [] → Pieces es f → t.io = ⟨es ++ more, cl⟩ → t.script = .recv f.length :: s →
      t.rbio = [] → t.wbio = [] → receiveLoop fuel t = some (e, { t with io := ⟨more, cl⟩, script := s', rbio := [], wbio := w })
  | 0, _, _, _, h, _, _, _, _, _, _ => absurd h (Nat.not_lt_zero _)
  | fuel + 1, es, f, t, hfu, hf, hp, hio, hsc, hr, hw => by
    obtain ⟨d, f', es', r1, r2, r3, r4⟩ := pieces_read (more := more) hp hf cl 1024 (by decide)
    unfold receiveLoop
    rw [hio, r1]
    simp only
    rw [if_neg r3]
    simp only [doHandshake, hsc, hr, hw, List.nil_append]
    have hdpos : 0 < d.length := List.length_pos_iff.2 r3
    by_cases hf' : f' = []
    · subst hf'
      simp only [List.append_nil] at r2
      subst r2
      have hes : es' = [] := by
        obtain ⟨q1, q2, q3⟩ := r4
        cases es' with
        | nil => rfl
        | cons ev es' =>
          cases ev with
          | err e => simp [noErr] at q2
          | data p =>
            have q3' : p ++ streamOf es' = [] := q3
            rw [List.append_eq_nil_iff] at q3'
            simp [evOk, q3'.1] at q1
      subst hes
      have : advance (.recv f.length :: s) f [] = (e, s', [], w) := by
        simp only [advance, Nat.le_refl, if_true, List.drop_length]
        exact hadv
      rw [this]
      simp only [List.nil_append]
      rcases hstop with rfl | ⟨rfl, hw'⟩
      · rw [if_pos rfl]
      · rw [if_neg (by decide), if_neg (by simp), if_pos hw']
    · have hpos : 0 < f'.length := List.length_pos_iff.2 hf'
      have hlen : f.length = d.length + f'.length := by rw [r2, List.length_append]
      have : advance (.recv f.length :: s) d [] = (Err.ERROR_SSL_HANDSHAKE_CONTINUE, .recv f'.length :: s, [], []) := by
        simp only [advance]
        rw [if_neg (by omega), show f.length - d.length = f'.length by omega]
      rw [this]
      simp only
      rw [if_neg (by decide), if_neg (by simp), if_neg (by simp)]
      rw [receiveLoop_flight s cl more e s' w hadv hstop fuel es' f' _ (by omega) hf' r4 rfl rfl rfl rfl]

/-- As above, with data behind the flight in the same pieces; for the step that ends the handshake. -/
theorem receiveLoop_last (w : List UInt8) (s : List Hs) (hadv : ∀ r, advance s r [] = (Err.SUCCESS, [], r, w)) (cl : Err) :
    ∀ (fuel : Nat) (f a : List UInt8) (t : Tls), f.length < fuel → f ≠ [] → Arrives t.io (f ++ a) cl → t.script = .recv f.length :: s →
      t.rbio = [] → t.wbio = [] →
      ∃ a1 a2 io', a = a1 ++ a2 ∧ Arrives io' a2 cl ∧ receiveLoop fuel t = some (Err.SUCCESS, { t with io := io', script := [], rbio := a1, wbio := w })
  | 0, _, _, _, h, _, _, _, _, _ => absurd h (Nat.not_lt_zero _)
  | fuel + 1, f, a, t, hfu, hf, hio, hsc, hr, hw => by
    obtain ⟨d, f', io', r1, r2, r3, r4, r5⟩ := Io.read_on hio (by simp [hf]) 1024 (by decide)
    unfold receiveLoop
    rw [r1]
    simp only
    rw [if_neg r3]
    simp only [doHandshake, hsc, hr, hw, List.nil_append]
    have hdpos : 0 < d.length := List.length_pos_iff.2 r3
    by_cases hl : f.length ≤ d.length
    · have hd : d = f ++ d.drop f.length := by
        have h1 : (f ++ a).take f.length = (d ++ f').take f.length := by rw [r2]
        rw [List.take_append_of_le_length (Nat.le_refl _), List.take_append_of_le_length hl, List.take_length] at h1
        conv => lhs; rw [← List.take_append_drop f.length d]
        rw [← h1]
      have ha : a = d.drop f.length ++ f' := by
        rw [hd, List.append_assoc] at r2
        exact List.append_cancel_left r2
      refine ⟨d.drop f.length, f', io', ha, r5, ?_⟩
      have : advance (.recv f.length :: s) d [] = (Err.SUCCESS, [], d.drop f.length, w) := by
        simp only [advance]
        rw [if_pos hl, hadv]
      rw [this]
      simp
    · obtain ⟨f2, hf2⟩ : ∃ f2, f = d ++ f2 := by
        refine ⟨f.drop d.length, ?_⟩
        have h1 : (f ++ a).take d.length = (d ++ f').take d.length := by rw [r2]
        rw [List.take_append_of_le_length (by omega), List.take_append_of_le_length (Nat.le_refl _), List.take_length] at h1
        conv => lhs; rw [← List.take_append_drop d.length f]
        rw [h1]
      have hlen : f.length = d.length + f2.length := by rw [hf2, List.length_append]
      have hfa : f' = f2 ++ a := by
        rw [hf2, List.append_assoc] at r2
        exact (List.append_cancel_left r2).symm
      have : advance (.recv f.length :: s) d [] = (Err.ERROR_SSL_HANDSHAKE_CONTINUE, .recv f2.length :: s, [], []) := by
        simp only [advance]
        rw [if_neg hl, show f.length - d.length = f2.length by omega]
      rw [this]
      simp only
      rw [if_neg (by decide), if_neg (by simp), if_neg (by simp)]
      obtain ⟨a1, a2, io2, q1, q2, q3⟩ := receiveLoop_last w s hadv cl fuel f2 a { t with io := io', script := .recv f2.length :: s, rbio := [], wbio := [] } (by omega)
        (by intro h; rw [h] at hlen; simp at hlen; omega) (by rw [← hfa]; exact r5) rfl rfl rfl
      exact ⟨a1, a2, io2, q1, q2, by rw [q3]⟩

/-- The server's side: first flight, answer, second flight, answer. -/
theorem accept_steps (f1 g1 f2 g2 : List UInt8) (h1 : f1 ≠ []) (h2 : g1 ≠ []) (h3 : f2 ≠ []) (h4 : g2 ≠ []) (es1 more : List IoEv) (cl : Err)
    (hp : Pieces es1 f1) (fuel : Nat) (hf1 : f1.length < fuel) (out : List UInt8) :
    (Tls.new [.recv f1.length, .send g1, .recv f2.length, .send g2] ⟨es1 ++ more, cl⟩ ⟨out, []⟩).accept fuel =
      (receiveLoop fuel ⟨[.recv f2.length, .send g2], [], [], [], 0, ⟨more, cl⟩, ⟨out ++ g1, []⟩⟩).bind fun r =>
        if goOn r.1 then some r.2.send else some r := by
  have l1 : 0 < f1.length := List.length_pos_iff.2 h1
  have l2 : 0 < f2.length := List.length_pos_iff.2 h3
  unfold accept receive
  have e1 : (Tls.new [.recv f1.length, .send g1, .recv f2.length, .send g2] ⟨es1 ++ more, cl⟩ ⟨out, []⟩).doHandshake =
      (Err.ERROR_SSL_HANDSHAKE_CONTINUE, Tls.new [.recv f1.length, .send g1, .recv f2.length, .send g2] ⟨es1 ++ more, cl⟩ ⟨out, []⟩) := by
    simp only [doHandshake, Tls.new, advance, List.length_nil, Nat.sub_zero]
    rw [if_neg (by omega)]
  rw [e1]
  simp only
  rw [if_neg (by decide), if_neg (by simp)]
  rw [receiveLoop_flight [.send g1, .recv f2.length, .send g2] cl more Err.ERROR_SSL_HANDSHAKE_CONTINUE [.recv f2.length, .send g2] g1
    (by simp only [advance, List.nil_append, List.length_nil, Nat.sub_zero]; rw [if_neg (by omega)]) (.inr ⟨rfl, h2⟩) fuel es1 f1 _ hf1 h1 hp rfl rfl rfl rfl]
  simp only [Option.bind_eq_bind, Option.bind_some]
  rw [show goOn Err.ERROR_SSL_HANDSHAKE_CONTINUE = true by decide]
  simp only [Bool.not_true, Bool.false_eq_true, if_false]
  have e2 : Tls.send { Tls.new [.recv f1.length, .send g1, .recv f2.length, .send g2] ⟨es1 ++ more, cl⟩ ⟨out, []⟩ with
      io := ⟨more, cl⟩, script := [.recv f2.length, .send g2], rbio := [], wbio := g1 } =
      (Err.ERROR_SSL_HANDSHAKE_CONTINUE, ⟨[.recv f2.length, .send g2], [], [], [], 0, ⟨more, cl⟩, ⟨out ++ g1, []⟩⟩) := by
    have e0 : advance [.recv f2.length, .send g2] [] g1 = (Err.ERROR_SSL_HANDSHAKE_CONTINUE, [.recv f2.length, .send g2], [], g1) := by
      simp only [advance, List.length_nil, Nat.sub_zero]
      rw [if_neg (by omega)]
    unfold Tls.send
    simp only [doHandshake, Tls.new, e0]
    rw [if_neg (by simp), if_neg h2]
    simp [Sink.write]
  rw [e2]
  simp only
  rw [show goOn Err.ERROR_SSL_HANDSHAKE_CONTINUE = true by decide]
  simp only [Bool.not_true, Bool.false_eq_true, if_false]
  have e3 : (⟨[.recv f2.length, .send g2], [], [], [], 0, ⟨more, cl⟩, ⟨out ++ g1, []⟩⟩ : Tls).doHandshake =
      (Err.ERROR_SSL_HANDSHAKE_CONTINUE, ⟨[.recv f2.length, .send g2], [], [], [], 0, ⟨more, cl⟩, ⟨out ++ g1, []⟩⟩) := by
    simp only [doHandshake, advance, List.length_nil, Nat.sub_zero]
    rw [if_neg (by omega)]
  rw [e3]
  simp only
  rw [if_neg (by decide), if_neg (by simp)]
  congr 1
  funext r
  obtain ⟨e, t⟩ := r
  simp only
  cases goOn e <;> rfl

theorem send_last (g : List UInt8) (hg : g ≠ []) (rbio : List UInt8) (io : Io) (out : List UInt8) :
    Tls.send ⟨[], rbio, g, [], 0, io, ⟨out, []⟩⟩ = (Err.SUCCESS, ⟨[], [], [], [], 0, io, ⟨out ++ g, []⟩⟩) := by
  simp [Tls.send, doHandshake, advance, hg, Sink.write]

/-- The client's side: first flight, answer, second flight, answer, perhaps with data behind it. -/
theorem connect_steps (g0 f1 g1 f2 a : List UInt8) (h0 : g0 ≠ []) (h1 : f1 ≠ []) (h2 : g1 ≠ []) (h3 : f2 ≠ []) (es1 more : List IoEv) (cl : Err)
    (hp : Pieces es1 f1) (hm : Arrives ⟨more, cl⟩ (f2 ++ a) cl) (fuel : Nat) (hf1 : f1.length < fuel) (hf2 : f2.length < fuel) (out : List UInt8) :
    ∃ a1 a2 io', a = a1 ++ a2 ∧ Arrives io' a2 cl ∧
      (Tls.new [.send g0, .recv f1.length, .send g1, .recv f2.length] ⟨es1 ++ more, cl⟩ ⟨out, []⟩).connect fuel =
        some (Err.SUCCESS, ⟨[], a1, [], [], 0, io', ⟨out ++ g0 ++ g1, []⟩⟩) := by
  have l1 : 0 < f1.length := List.length_pos_iff.2 h1
  have l2 : 0 < f2.length := List.length_pos_iff.2 h3
  have goc : goOn Err.ERROR_SSL_HANDSHAKE_CONTINUE = true := by decide
  unfold connect
  have e1 : (Tls.new [.send g0, .recv f1.length, .send g1, .recv f2.length] ⟨es1 ++ more, cl⟩ ⟨out, []⟩).send =
      (Err.ERROR_SSL_HANDSHAKE_CONTINUE, ⟨[.recv f1.length, .send g1, .recv f2.length], [], [], [], 0, ⟨es1 ++ more, cl⟩, ⟨out ++ g0, []⟩⟩) := by
    have e0 : advance [.send g0, .recv f1.length, .send g1, .recv f2.length] [] [] =
        (Err.ERROR_SSL_HANDSHAKE_CONTINUE, [.recv f1.length, .send g1, .recv f2.length], [], g0) := by
      simp only [advance, List.length_nil, Nat.sub_zero, List.nil_append]
      rw [if_neg (by omega)]
    unfold Tls.send
    simp only [doHandshake, Tls.new, e0]
    rw [if_neg (by simp), if_neg h0]
    simp [Sink.write]
  rw [e1]
  simp only [goc, Bool.not_true, Bool.false_eq_true, if_false]
  have e2 : Tls.receive fuel ⟨[.recv f1.length, .send g1, .recv f2.length], [], [], [], 0, ⟨es1 ++ more, cl⟩, ⟨out ++ g0, []⟩⟩ =
      some (Err.ERROR_SSL_HANDSHAKE_CONTINUE, ⟨[.recv f2.length], [], g1, [], 0, ⟨more, cl⟩, ⟨out ++ g0, []⟩⟩) := by
    have e0 : advance [.recv f1.length, .send g1, .recv f2.length] [] [] =
        (Err.ERROR_SSL_HANDSHAKE_CONTINUE, [.recv f1.length, .send g1, .recv f2.length], [], []) := by
      simp only [advance, List.length_nil, Nat.sub_zero]
      rw [if_neg (by omega)]
    unfold receive
    simp only [doHandshake, e0]
    rw [if_neg (by decide), if_neg (by simp)]
    rw [receiveLoop_flight [.send g1, .recv f2.length] cl more Err.ERROR_SSL_HANDSHAKE_CONTINUE [.recv f2.length] g1
      (by simp only [advance, List.nil_append, List.length_nil, Nat.sub_zero]; rw [if_neg (by omega)]) (.inr ⟨rfl, h2⟩) fuel es1 f1 _ hf1 h1 hp rfl rfl rfl rfl]
  rw [e2]
  simp only [Option.bind_eq_bind, Option.bind_some, goc, Bool.not_true, Bool.false_eq_true, if_false]
  have e3 : Tls.send ⟨[.recv f2.length], [], g1, [], 0, ⟨more, cl⟩, ⟨out ++ g0, []⟩⟩ =
      (Err.ERROR_SSL_HANDSHAKE_CONTINUE, ⟨[.recv f2.length], [], [], [], 0, ⟨more, cl⟩, ⟨out ++ g0 ++ g1, []⟩⟩) := by
    have e0 : advance [.recv f2.length] [] g1 = (Err.ERROR_SSL_HANDSHAKE_CONTINUE, [.recv f2.length], [], g1) := by
      simp only [advance, List.length_nil, Nat.sub_zero]
      rw [if_neg (by omega)]
    unfold Tls.send
    simp only [doHandshake, e0]
    rw [if_neg (by simp), if_neg h2]
    simp [Sink.write]
  rw [e3]
  simp only [goc, Bool.not_true, Bool.false_eq_true, if_false]
  obtain ⟨a1, a2, io', q1, q2, q3⟩ := receiveLoop_last [] [] (fun r => rfl) cl fuel f2 a
    ⟨[.recv f2.length], [], [], [], 0, ⟨more, cl⟩, ⟨out ++ g0 ++ g1, []⟩⟩ hf2 h3 hm rfl rfl rfl
  refine ⟨a1, a2, io', q1, q2, ?_⟩
  have e4 : Tls.receive fuel ⟨[.recv f2.length], [], [], [], 0, ⟨more, cl⟩, ⟨out ++ g0 ++ g1, []⟩⟩ =
      some (Err.SUCCESS, ⟨[], a1, [], [], 0, io', ⟨out ++ g0 ++ g1, []⟩⟩) := by
    have e0 : advance [.recv f2.length] [] [] = (Err.ERROR_SSL_HANDSHAKE_CONTINUE, [.recv f2.length], [], []) := by
      simp only [advance, List.length_nil, Nat.sub_zero]
      rw [if_neg (by omega)]
    unfold receive
    simp only [doHandshake, e0]
    rw [if_neg (by decide), if_neg (by simp), q3]
  rw [e4]
  simp

end Sps.Tls
