import Verif.Props.Nested
import Verif.Props.Padding
import Verif.Samples

/-!
# C101: changing addresses under a transport checksum

The UDP and TCP checksums cover the addresses of the IP header.  `checked()` of the IP packet updates only the
header checksum, so after an address has changed the transport checksum is as a rule stale.  Exactly when?
-/

namespace Verif.Props
open Verif Verif.Spec

/-- The two 16-bit words of an address, added. -/
def addressWords (a : Nat) : Nat := a / 65536 + a % 65536

/-- What the addresses of an IPv4 header (bits 96–127 and 128–159) contribute to the sum over the pseudo
header. -/
def addressSum (p : Bytes) : Nat := addressWords (field p 96 32) + addressWords (field p 128 32)

theorem addressWords_field (p : Bytes) (s : Nat) : addressWords (field p s 32) = field p s 16 + field p (s + 16) 16 := by
  have a := field_add p s 16 16
  have l := field_lt p (s + 16) 16
  have e : (2 : Nat) ^ 16 = 65536 := rfl
  simp only [Nat.reduceAdd] at a
  unfold addressWords
  rw [e] at a l
  rw [a]
  omega

theorem pseudoSum_addresses {p : Bytes} (h : 20 ≤ p.length) (proto : U8) (n : Nat) :
    pseudoSum p proto n = addressSum p + proto.toNat + n % 65536 := by
  rw [pseudoSum_len h]
  unfold addressSum
  rw [addressWords_field, addressWords_field]
  have f1 := field_u16 p 12; have f2 := field_u16 p 14; have f3 := field_u16 p 16; have f4 := field_u16 p 18
  simp only [Nat.reduceMul, Nat.reduceAdd] at f1 f2 f3 f4 ⊢
  rw [f1, f2, f3, f4]
  unfold pseudoSum pseudoHeader
  rw [take4_drop (by omega), take4_drop (by omega)]
  simp only [List.cons_append, List.nil_append, words, List.sum_cons, List.sum_nil]
  have h0 : (BitVec.ofNat 8 (0 / 256)).toNat * 256 + (BitVec.ofNat 8 0).toNat = 0 := rfl
  rw [h0]
  simp only [Nat.reduceAdd]
  generalize n % 65536 = m
  have hz : (0#8 : U8).toNat * 256 = 0 := rfl
  rw [hz]
  simp only [Nat.zero_add, Nat.add_zero]
  ac_rfl

theorem stale_core {a a' r : Nat} {s : U16} (hr : 0 < r) (h : ckOf (a + r) = s) :
    (ckOf (a' + r) == s) = decide (a' % 65535 = a % 65535) := by
  rw [← h]
  have : ckOf (a' + r) = ckOf (a + r) ↔ a' % 65535 = a % 65535 := by
    rw [ckOf_inj, norm_eq_iff]
    omega
  by_cases hd : a' % 65535 = a % 65535
  · rw [decide_eq_true hd]; exact beq_iff_eq.2 (this.2 hd)
  · rw [decide_eq_false hd]; exact beq_eq_false_iff_ne.2 (fun h => hd (this.1 h))

/-- C101, UDP: a datagram that verifies against one IPv4 header verifies against another one exactly if the
addresses have the same sum modulo 65535.  (Any datagram, any headers, whatever their other fields.) -/
theorem C101_udp_readdressed (cfg : Cfg) (p p' u : Bytes) (h : 20 ≤ p.length) (h' : 20 ≤ p'.length)
    (hv : Udp.isValid cfg (.v4 p) u = .ok true) :
    Udp.isValid cfg (.v4 p') u = .ok (decide (addressSum p' % 65535 = addressSum p % 65535)) := by
  unfold Udp.isValid at hv ⊢
  rw [Udp.checksumOf_eq cfg p u h, pseudoSum_addresses h] at hv
  rw [Udp.checksumOf_eq cfg p' u h', pseudoSum_addresses h']
  obtain ⟨s, s1, s2⟩ := bind_ok_inv (f := fun s => .ok (ckOf _ == s)) hv
  rw [s1]
  have s2 := beq_iff_eq.1 (Outcome.ok.inj s2)
  show Outcome.ok (ckOf _ == s) = _
  have e17 : (17#8 : U8).toNat = 17 := rfl
  rw [e17] at s2 ⊢
  generalize (if cfg.eofAdvances = true then 0 else oddWord u) = z at *
  simp only [Nat.add_assoc] at s2 ⊢
  rw [stale_core (by omega) s2]

/-- A concrete case that meets the hypotheses. -/
example (cfg : Cfg) := C101_udp_readdressed cfg Sample.udpPacket Sample.echoPacket Sample.udp (by decide) (by decide)
    (by in_every_build)

/-- C101, TCP: the same. -/
theorem C101_tcp_readdressed (cfg : Cfg) (p p' u : Bytes) (h : 20 ≤ p.length) (h' : 20 ≤ p'.length)
    (hu : u.length ≤ 65535) (hv : Tcp.isValid cfg (.v4 p) u = .ok true) :
    Tcp.isValid cfg (.v4 p') u = .ok (decide (addressSum p' % 65535 = addressSum p % 65535)) := by
  unfold Tcp.isValid at hv ⊢
  rw [Tcp.checksumOf_eq cfg p u h (by omega), pseudoSum_addresses h] at hv
  rw [Tcp.checksumOf_eq cfg p' u h' (by omega), pseudoSum_addresses h']
  by_cases hc : u.length % 2 = 1 ∧ cfg.eofAdvances = true
  · rw [if_pos hc] at hv; cases hv
  rw [if_neg hc] at hv ⊢
  obtain ⟨s, s1, s2⟩ := bind_ok_inv (f := fun s => .ok (ckOf _ == s)) hv
  rw [s1]
  have s2 := beq_iff_eq.1 (Outcome.ok.inj s2)
  show Outcome.ok (ckOf _ == s) = _
  have e17 : (6#8 : U8).toNat = 6 := rfl
  rw [e17] at s2 ⊢
  simp only [Nat.add_assoc] at s2 ⊢
  rw [stale_core (by omega) s2]

/-- A concrete case that meets the hypotheses. -/
example (cfg : Cfg) := C101_tcp_readdressed cfg Sample.tcpPacket Sample.echoPacket Sample.tcp (by decide) (by decide)
    (by decide) (by in_every_build)

theorem addressSum_edited {vops : List V4.Set} {p p' : Bytes} (h : HeaderEdited vops p p') :
    addressSum p' = addressWords (v4Last 96 (field p 96 32) vops) + addressWords (v4Last 128 (field p 128 32) vops) := by
  unfold addressSum
  rw [h.fields 96 32 (by simp), h.fields 128 32 (by simp)]

/-- C101, readdressing a UDP packet: after any history of calls through `checked()` of the IPv4 packet, the
header verifies and the datagram is byte for byte the old one; its checksum still verifies exactly if the new
addresses have the same sum modulo 65535 as the old ones. -/
theorem C101_udp_stale (cfg : Cfg) (p u : Bytes) (hp : V4.new p = .ok p) (h5 : 5 ≤ field p 4 4)
    (hu : V4.payload p = .ok u) (hv : Udp.isValid cfg (.v4 p) u = .ok true) (vops : List V4.Set) :
    ∃ p', V4.checkedRun cfg vops p = (.ok (), p') ∧ V4.isValid cfg p' = .ok true ∧ V4.payload p' = .ok u ∧
      Udp.isValid cfg (.v4 p') u = .ok (decide (
        (addressWords (v4Last 96 (field p 96 32) vops) + addressWords (v4Last 128 (field p 128 32) vops)) % 65535 =
        (addressWords (field p 96 32) + addressWords (field p 128 32)) % 65535)) := by
  obtain ⟨p', c1, c2, c3, c4, c5⟩ := v4_edited cfg p hp h5 vops
  have hl := (V4.new_ok_iff.1 hp).2.long
  refine ⟨p', c1, c3, c4.trans hu, ?_⟩
  rw [C101_udp_readdressed cfg p p' u hl (by rw [c5.length]; exact hl) hv, addressSum_edited c5]
  rfl

/-- A concrete case that meets the hypotheses. -/
example (cfg : Cfg) := C101_udp_stale cfg Sample.udpPacket Sample.udp (by decide) (by decide) (by decide)
    (by in_every_build)

/-- C101, readdressing a TCP packet. -/
theorem C101_tcp_stale (cfg : Cfg) (p u : Bytes) (hp : V4.new p = .ok p) (h5 : 5 ≤ field p 4 4)
    (hu : V4.payload p = .ok u) (hv : Tcp.isValid cfg (.v4 p) u = .ok true) (vops : List V4.Set) :
    ∃ p', V4.checkedRun cfg vops p = (.ok (), p') ∧ V4.isValid cfg p' = .ok true ∧ V4.payload p' = .ok u ∧
      Tcp.isValid cfg (.v4 p') u = .ok (decide (
        (addressWords (v4Last 96 (field p 96 32) vops) + addressWords (v4Last 128 (field p 128 32) vops)) % 65535 =
        (addressWords (field p 96 32) + addressWords (field p 128 32)) % 65535)) := by
  obtain ⟨p', c1, c2, c3, c4, c5⟩ := v4_edited cfg p hp h5 vops
  have hok := (V4.new_ok_iff.1 hp).2
  have hl := hok.long
  have hul : u.length ≤ 65535 := by
    have hh := hok.header
    rw [V4.payload_eq (by omega) (by omega)] at hu
    rw [← Outcome.ok.inj hu, List.length_take]
    have := field_lt p 16 16
    have e : (2 : Nat) ^ 16 = 65536 := rfl
    omega
  refine ⟨p', c1, c3, c4.trans hu, ?_⟩
  rw [C101_tcp_readdressed cfg p p' u hl (by rw [c5.length]; exact hl) hul hv, addressSum_edited c5]
  rfl

/-- A concrete case that meets the hypotheses. -/
example (cfg : Cfg) := C101_tcp_stale cfg Sample.tcpPacket Sample.tcp (by decide) (by decide) (by decide)
    (by in_every_build)

/-- C101, the everyday case: giving the packet one new address that is not congruent to the old one makes the
datagram fail its check. -/
theorem C101_new_source (cfg : Cfg) (p u : Bytes) (hp : V4.new p = .ok p) (h5 : 5 ≤ field p 4 4)
    (hu : V4.payload p = .ok u) (hv : Udp.isValid cfg (.v4 p) u = .ok true) (a : Ipv4Addr)
    (ha : addressWords (beNat a.octets) % 65535 ≠ addressWords (field p 96 32) % 65535) :
    ∃ p', V4.checkedRun cfg [.source a] p = (.ok (), p') ∧ V4.isValid cfg p' = .ok true ∧ V4.payload p' = .ok u ∧
      Udp.isValid cfg (.v4 p') u = .ok false := by
  obtain ⟨p', c1, c2, c3, c4⟩ := C101_udp_stale cfg p u hp h5 hu hv [.source a]
  refine ⟨p', c1, c2, c3, ?_⟩
  rw [c4]
  congr 1
  apply decide_eq_false
  have e1 : v4Last 96 (field p 96 32) [.source a] = beNat a.octets := rfl
  have e2 : v4Last 128 (field p 128 32) [.source a] = field p 128 32 := rfl
  rw [e1, e2]
  omega

/-- The hypotheses are met; `192.168.0.1` is not congruent to `10.0.0.1`, while swapping the halves of an address
(`0.1.10.0`) goes unnoticed. -/
example (cfg : Cfg) (p u : Bytes)
    (hp : p = [69, 185, 0, 30, 0, 1, 0, 3, 64, 17, 102, 16, 10, 0, 0, 1, 10, 0, 0, 2, 0, 1, 0, 2, 0, 10, 228, 204, 7, 8])
    (hu : u = [0, 1, 0, 2, 0, 10, 228, 204, 7, 8]) :
    V4.new p = .ok p ∧ 5 ≤ field p 4 4 ∧ V4.payload p = .ok u ∧ Udp.isValid cfg (.v4 p) u = .ok true ∧
      addressWords (beNat (Ipv4Addr.mk 192 168 0 1).octets) % 65535 ≠ addressWords (field p 96 32) % 65535 ∧
      addressWords (beNat (Ipv4Addr.mk 0 1 10 0).octets) % 65535 = addressWords (field p 96 32) % 65535 := by
  subst hp hu
  obtain ⟨oc, ea, nw⟩ := cfg
  cases oc <;> cases ea <;> cases nw <;> decide +kernel

end Verif.Props
