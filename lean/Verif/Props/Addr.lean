import Verif.Spec.Addr
import Verif.Lemmas.Log
import Verif.Lemmas.HttpConn
/-! # The addresses of clients (C118) -/
namespace Sps.AddrProps
open Spec.Addr Sps.Addr

theorem split_point : ∀ (a a' r r' : Text), (46 : UInt8) ∉ a → (46 : UInt8) ∉ a' → a ++ 46 :: r = a' ++ 46 :: r' → a = a' ∧ r = r'
  | [], [], r, r', _, _, h => by simpa using h
  | [], b :: a', r, r', _, h', h => by
    simp only [List.nil_append, List.cons_append, List.cons.injEq] at h
    exact absurd (by rw [h.1]; exact List.mem_cons_self) h'
  | b :: a, [], r, r', h', _, h => by
    simp only [List.nil_append, List.cons_append, List.cons.injEq] at h
    exact absurd (by rw [h.1]; exact List.mem_cons_self) h'
  | b :: a, b' :: a', r, r', h1, h2, h => by
    simp only [List.cons_append, List.cons.injEq] at h
    obtain ⟨e1, e2⟩ := split_point a a' r r' (fun x => h1 (List.mem_cons_of_mem _ x)) (fun x => h2 (List.mem_cons_of_mem _ x)) h.2
    exact ⟨by rw [h.1, e1], e2⟩

theorem no_point {n : Nat} {t : Text} (h : Spec.Log.Digits n t) : (46 : UInt8) ∉ t := fun hm => by
  have := Sps.HttpConn.dec_chars t 0 n h.2.1 _ hm
  simp at this

theorem digits_value {n m : Nat} {t : Text} (h : Spec.Log.Digits n t) (h' : Spec.Log.Digits m t) : n = m := by
  have := h.2.1.symm.trans h'.2.1
  simpa using this

/-- The notation can be read back: different addresses look different. -/
theorem C118_readable (ip ip' : Ip) (t : Text) (h : Dotted ip t) (h' : Dotted ip' t) : ip = ip' := by
  obtain ⟨a, b, c, d, rfl, ha, hb, hc, hd⟩ := h
  obtain ⟨a', b', c', d', he, ha', hb', hc', hd'⟩ := h'
  simp only [List.append_assoc, List.singleton_append, List.cons_append, List.nil_append] at he
  obtain ⟨rfl, he2⟩ := split_point _ _ _ _ (no_point ha) (no_point ha') he
  obtain ⟨rfl, he3⟩ := split_point _ _ _ _ (no_point hb) (no_point hb') he2
  obtain ⟨rfl, rfl⟩ := split_point _ _ _ _ (no_point hc) (no_point hc') he3
  have e1 := UInt8.toNat_inj.1 (digits_value ha ha')
  have e2 := UInt8.toNat_inj.1 (digits_value hb hb')
  have e3 := UInt8.toNat_inj.1 (digits_value hc hc')
  have e4 := UInt8.toNat_inj.1 (digits_value hd hd')
  obtain ⟨x, y, z, w⟩ := ip
  obtain ⟨x', y', z', w'⟩ := ip'
  simp_all

theorem ntop_dotted (ip : Ip) : ∃ t, inetNtop AF_INET ip = some t ∧ Dotted ip t := by
  refine ⟨_, by rw [inetNtop, if_pos rfl], _, _, _, _, rfl, ?_, ?_, ?_, ?_⟩ <;>
    exact Sps.Log.dec_decimal _ (Nat.lt_of_lt_of_le (UInt8.toNat_lt _) (by decide))

theorem wire_bytes (port : UInt16) : (UInt8.ofNat (port.toNat / 256)).toNat = port.toNat / 256 ∧ (UInt8.ofNat (port.toNat % 256)).toNat = port.toNat % 256 := by
  have := port.toNat_lt
  constructor <;> rw [UInt8.toNat_ofNat'] <;> omega

theorem addr_shown (ip : Ip) (port : UInt16) (i : Text) (p : Int) : ∃ t, addr2string (wire ip port) i p = (t, (port.toNat : Int)) ∧ Dotted ip t := by
  obtain ⟨t, h1, h2⟩ := ntop_dotted ip
  refine ⟨t, ?_, h2⟩
  have hp : ntohs (wire ip port).sinPort = port.toNat := by
    have hb := wire_bytes port
    have := port.toNat_lt
    simp only [ntohs, SockAddr.sinPort, wire, hb.1, hb.2]
    have h1 : (port.toNat / 256 + 256 * (port.toNat % 256)) % 256 = port.toNat / 256 := by omega
    have h2 : (port.toNat / 256 + 256 * (port.toNat % 256)) / 256 = port.toNat % 256 := by omega
    rw [h1, h2]
    omega
  simp only [addr2string]
  rw [show inetNtop (wire ip port).family (wire ip port).ip = some t from h1, hp]

/-- **C118** for TCP and TLS: a connection is shown with the address and the port of its client, and a TCP connection also with those it came to. -/
theorem C118_tcp (ip self : Ip) (port sport : UInt16) :
    (∃ t s, tcpAccept (wire ip port) (wire self sport) = ⟨t, port.toNat, s, sport.toNat⟩ ∧ Dotted ip t ∧ Dotted self s) ∧
    (∃ t, sslAccept (wire ip port) (wire self sport) = { peerIp := t, peerPort := port.toNat } ∧ Dotted ip t) := by
  obtain ⟨t, h1, h2⟩ := addr_shown ip port [] 0
  obtain ⟨s, h3, h4⟩ := addr_shown self sport [] 0
  have ht : tcpAccept (wire ip port) (wire self sport) = ⟨t, port.toNat, s, sport.toNat⟩ := by
    simp only [tcpAccept, h1, h3]
  exact ⟨⟨t, s, ht, h2, h4⟩, t, by rw [sslAccept, ht], h2⟩

/-- **C118** for SRT (part): however often there was nothing to accept before, the connection that comes is the one that is given on, with its client's address. Its port is shown
only if its two bytes are the same.

Missing: the port over SRT, and connections that a failed `accept` makes (the negations of C118). -/
theorem C118_srt_partial (fd : Nat) (ip : Ip) (port : UInt16) (k : Nat) (later : List Call) :
    ∃ t p, srtAccept (List.replicate k (.again 0) ++ .conn fd (wire ip port) :: later) = .socket fd { peerIp := t, peerPort := p } ∧ Dotted ip t ∧
      (p = port.toNat ↔ port.toNat / 256 = port.toNat % 256) := by
  obtain ⟨t, h1, h2⟩ := ntop_dotted ip
  have hs : ∀ k, stSrtAccept (List.replicate k (.again 0) ++ .conn fd (wire ip port) :: later) = some ((fd : Int), some (wire ip port)) := by
    intro k
    induction k with
    | zero => rfl
    | succ k ih => rw [List.replicate_succ, List.cons_append, stSrtAccept, if_neg (by decide), ih]
  refine ⟨t, (wire ip port).sinPort, ?_, h2, ?_⟩
  · simp only [srtAccept, hs]
    rw [show inetNtop (wire ip port).family (wire ip port).ip = some t from h1, Option.getD_some]
  · have hb := wire_bytes port
    have := port.toNat_lt
    simp only [SockAddr.sinPort, wire, hb.1, hb.2]
    omega

/-- As long as there is nothing to accept the coroutine waits.

Missing: the port over SRT, and connections that a failed `accept` makes (the negations of C118). -/
theorem C118_waits_partial (k : Nat) : srtAccept (List.replicate k (.again 0)) = .waits := by
  have hs : ∀ k, stSrtAccept (List.replicate k (.again 0)) = none := by
    intro k
    induction k with
    | zero => rfl
    | succ k ih => rw [List.replicate_succ, stSrtAccept, if_neg (by decide), ih]
  simp only [srtAccept, hs]

/-- **C118** (negation): an SRT client at port 50000 is shown with port 20675. -/
theorem C118_negation_port : srtAccept [.again 0, .conn 77 (wire (10, 0, 0, 7) 50000)] = .socket 77 { peerIp := ascii "10.0.0.7", peerPort := 20675 } := by decide +kernel

/-- **C118** (negation): when accepting an SRT connection fails, now or after any number of waits, a connection is made all the same, from an address that was never written. -/
theorem C118_negation_failed (k : Nat) (c : Call) (hc : c = .fail ∨ ∃ r, r ≠ 0 ∧ c = .again r) (later : List Call) :
    srtAccept (List.replicate k (.again 0) ++ c :: later) = .undef := by
  have hs : ∀ k, ∃ r, stSrtAccept (List.replicate k (.again 0) ++ c :: later) = some (r, none) := by
    intro k
    induction k with
    | zero =>
      rcases hc with rfl | ⟨r, hr, rfl⟩
      · exact ⟨_, rfl⟩
      · exact ⟨r, by rw [List.replicate_zero, List.nil_append, stSrtAccept, if_pos hr]⟩
    | succ k ih => rw [List.replicate_succ, List.cons_append, stSrtAccept, if_neg (by decide)]; exact ih
  obtain ⟨r, h⟩ := hs k
  simp only [srtAccept, h]

example : tcpAccept (wire (192, 168, 0, 17) 50000) (wire (10, 0, 0, 1) 1935) = ⟨ascii "192.168.0.17", 50000, ascii "10.0.0.1", 1935⟩ := by decide +kernel
example : sslAccept (wire (192, 168, 0, 17) 50000) (wire (10, 0, 0, 1) 443) = ⟨ascii "192.168.0.17", 50000, [], -1⟩ := by decide +kernel
example : srtAccept [.again 0, .again 0, .conn 5 (wire (1, 2, 3, 4) 0x1212)] = .socket 5 ⟨ascii "1.2.3.4", 0x1212, [], -1⟩ := by decide +kernel

end Sps.AddrProps
