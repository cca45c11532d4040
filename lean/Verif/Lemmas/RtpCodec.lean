import Verif.Spec.RtpCodec
import Verif.Lemmas.RtpTs
import Verif.Lemmas.RtpH264
namespace Sps
open Spec Spec.Rtp

namespace RtpCodecDemuxer

/-- The packets that wait do not influence what a decoder does. -/
theorem decode_queue (env : Nat → List UInt8 × Int) (x : RtpDecoder) (s : Option RtpDecoder) (m : Nat) (a b : List AVPkt) (p : List UInt8) :
    decode env x { dec := s, n := m, queue := a ++ b } p =
      (decode env x { dec := s, n := m, queue := b } p).map fun y => (y.1, { y.2 with queue := a ++ y.2.queue }) := by
  cases x with
  | ts c => obtain ⟨c, st⟩ := c; simp [decode, Option.map_map, Function.comp_def]
  | h264 pkt => simp [decode, Option.map_map, Function.comp_def]
  | aac => simp [decode, Option.map_map, Function.comp_def]

theorem datagram_queue (env : Nat → List UInt8 × Int) (s : Option RtpDecoder) (m : Nat) (a b : List AVPkt) (p : List UInt8) :
    datagram env { dec := s, n := m, queue := a ++ b } p =
      (datagram env { dec := s, n := m, queue := b } p).map fun y => (y.1, { y.2 with queue := a ++ y.2.queue }) := by
  unfold datagram
  cases p[1]? with
  | none => rfl
  | some c =>
    simp only
    split
    · rw [Option.map_map]; congr 1; funext r; cases r <;> rfl
    · cases s with
      | none =>
        simp only
        split
        · rfl
        · exact decode_queue env _ none m a b p
      | some x => exact decode_queue env x (some x) m a b p

theorem arrive_queue (env : Nat → List UInt8 × Int) (a : List AVPkt) : ∀ (ds : List (List UInt8)) (s : Option RtpDecoder) (m : Nat) (b : List AVPkt),
    arrive env { dec := s, n := m, queue := a ++ b } ds =
      (arrive env { dec := s, n := m, queue := b } ds).map fun x => (x.1, { x.2 with queue := a ++ x.2.queue })
  | [], _, _, _ => rfl
  | p :: ds, s, m, b => by
    rw [arrive, arrive, datagram_queue]
    cases datagram env { dec := s, n := m, queue := b } p with
    | none => rfl
    | some x =>
      obtain ⟨e, d⟩ := x
      simp only [Option.map_some, Option.bind_some]
      split
      · rfl
      · rw [arrive_queue env a ds d.dec d.n d.queue]

open RtpDemuxer (On acquire_closed acquire_datagram)

/-- One call of `read_packet`: the next packet, or the end of the transport. -/
theorem readPacket_all (env : Nat → List UInt8 × Int) (cl : Err) (hcl : cl ≠ Err.SUCCESS) : ∀ (ds : List (List UInt8)) (fuel : Nat) (r : Reader) (d d' : RtpCodecDemuxer),
    ds.length < fuel → On r ds cl → arrive env d ds = some (Err.SUCCESS, d') →
    (d'.queue = [] ∧ ∃ r', readPacket env fuel r d = some (cl, none, r', d')) ∨
    (∃ a ds2 r2 d2 d3, readPacket env fuel r d = some (Err.SUCCESS, some a, r2, d2) ∧ ds2.length ≤ ds.length ∧ On r2 ds2 cl ∧
      arrive env d2 ds2 = some (Err.SUCCESS, d3) ∧ d' = { d3 with queue := a :: d3.queue })
  | ds, 0, _, _, _, hf, _, _ => by omega
  | ds, fuel + 1, r, { dec := s, n := m, queue := a :: q }, d', hf, hr, hd => by
    refine Or.inr ⟨a, ds, { r with buf := r.buf.clear }, { dec := s, n := m, queue := q }, ?_⟩
    have hq := arrive_queue env [a] ds s m q
    rw [List.singleton_append, hd] at hq
    cases h3 : arrive env { dec := s, n := m, queue := q } ds with
    | none => rw [h3] at hq; cases hq
    | some x =>
      obtain ⟨e, d3⟩ := x
      rw [h3] at hq
      simp only [Option.map_some, Option.some.injEq, Prod.mk.injEq] at hq
      obtain ⟨he, hd3⟩ := hq
      subst he
      exact ⟨d3, rfl, Nat.le_refl _, ⟨hr.io, hr.cap, hr.cap_lt, hr.fit⟩, rfl, hd3⟩
  | [], fuel + 1, r, { dec := s, n := m, queue := [] }, d', hf, hr, hd => by
    cases hd
    obtain ⟨r', h1⟩ := acquire_closed r cl hr
    refine Or.inl ⟨rfl, r', ?_⟩
    rw [readPacket]
    simp only [h1, Option.bind_some]
    rw [if_pos hcl]
  | p :: ds, fuel + 1, r, { dec := s, n := m, queue := [] }, d', hf, hr, hd => by
    obtain ⟨h12, hfit⟩ := hr.fit p (by simp)
    obtain ⟨r', h1, ⟨r'', h2⟩, h3, h4, h5⟩ := acquire_datagram r p _ cl hr.io h12 hfit hr.cap_lt
    rw [arrive] at hd
    cases hp : datagram env { dec := s, n := m, queue := [] } p with
    | none => rw [hp] at hd; cases hd
    | some x =>
      obtain ⟨e, d1⟩ := x
      rw [hp] at hd
      simp only [Option.bind_some] at hd
      split at hd
      · rename_i he; cases hd; exact absurd rfl he
      · rename_i he
        simp only [List.length_cons] at hf
        have := readPacket_all env cl hcl ds fuel r' d1 d' (by omega)
          ⟨h3, h4 ▸ hr.cap, h4 ▸ hr.cap_lt, fun q hq => h4 ▸ hr.fit q (by simp [hq])⟩ hd
        have hstep : readPacket env (fuel + 1) r { dec := s, n := m, queue := [] } = readPacket env fuel r' d1 := by
          rw [readPacket]
          simp only [h1, Option.bind_some, ne_eq, not_true_eq_false, if_false, h2, hp, he]
        rw [hstep]
        rcases this with h | ⟨a, ds2, r2, d2, d3, g1, g2, g3⟩
        · exact Or.inl h
        · exact Or.inr ⟨a, ds2, r2, d2, d3, g1, by simp only [List.length_cons]; omega, g3⟩

/-- Reading until the transport is closed returns the packets of all the datagrams in order. -/
theorem session_all (env : Nat → List UInt8 × Int) (cl : Err) (hcl : cl ≠ Err.SUCCESS) (fuel : Nat) : ∀ (n : Nat) (ds : List (List UInt8)) (r : Reader) (d d' : RtpCodecDemuxer),
    ds.length < fuel → On r ds cl → arrive env d ds = some (Err.SUCCESS, d') → n = d'.queue.length →
    session env fuel (n + 1) r d = some (cl, d'.queue, { d' with queue := [] })
  | n, ds, r, d, d', hf, hr, hd, hn => by
    rw [session]
    rcases readPacket_all env cl hcl ds fuel r d d' hf hr hd with ⟨h1, r', h2⟩ | ⟨a, ds2, r2, d2, d3, g1, g2, g3, g4, g5⟩
    · rw [h2]
      simp only [Option.bind_some]
      rw [if_pos hcl, h1]
      obtain ⟨t, m, q⟩ := d'
      simp only at h1
      rw [h1]
    · subst g5
      simp only [List.length_cons] at hn
      match n, hn with
      | n + 1, hn =>
        rw [g1]
        simp only [Option.bind_some, ne_eq, not_true_eq_false, if_false]
        rw [session_all env cl hcl fuel n ds2 r2 d2 d3 (by omega) g3 g4 (by omega)]
        rfl

end RtpCodecDemuxer
end Sps
