import Verif.Props.Checksum
import Verif.Lemmas.Transport
import Verif.Samples

/-!
# C62: `is_valid` and the receiver's check of the RFCs

RFC 1071 (and 791, 768, 793, 792) has a receiver add up everything, checksum included, and accept if the
one's complement sum is all ones (`Spec.verifies`).  The crate recomputes the checksum and compares.
-/

namespace Verif.Props
open Verif Verif.Spec

theorem words_stored {m : Bytes} {k : Nat} {s : U16} (h : readU16At m (2 * k) = .ok s)
    (hl : 2 * k + 2 ≤ m.length) : (words m).sum = (words (zeroed m (2 * k))).sum + s.toNat := by
  rw [← words_put16 k m s hl]
  rw [readU16At_ok hl] at h
  injection h with h
  rw [← h, be16_fromBe16, put_self (by simpa using hl)]
  intro i hi
  match i, hi with
  | 0, _ => simp [List.getD_eq_getElem?_getD, List.getElem?_eq_getElem (show 2 * k < m.length by omega)]
  | 1, _ => simp [List.getD_eq_getElem?_getD, List.getElem?_eq_getElem (show 2 * k + 1 < m.length by omega)]
  | i + 2, hi => exact absurd hi (by simp)

theorem complement_iff {n s : Nat} (hn : n ≠ 0) (hs : s ≤ 65535) :
    65535 - norm n = s ↔ norm (n + s) = 65535 ∧ s ≠ 65535 := by
  unfold norm
  split <;> split <;> omega

/-- Recomputing and comparing against adding everything up. -/
theorem receiver_iff {pre m : Bytes} {k : Nat} {s : U16} (hpre : pre.length % 2 = 0)
    (h : readU16At m (2 * k) = .ok s) (hl : 2 * k + 2 ≤ m.length)
    (hn : ∃ w ∈ words (pre ++ zeroed m (2 * k)), w ≠ 0) :
    inetChecksum (pre ++ zeroed m (2 * k)) = s ↔ verifies (pre ++ m) ∧ s ≠ 0xffff#16 := by
  have hn : (words (pre ++ zeroed m (2 * k))).sum ≠ 0 := by
    obtain ⟨w, hw, hw0⟩ := hn
    intro h
    exact hw0 (List.sum_eq_zero_iff_forall_eq_nat.1 h w hw)
  have hsum : (words (pre ++ m)).sum = (words (pre ++ zeroed m (2 * k))).sum + s.toNat := by
    rw [words_append hpre, words_append hpre, List.sum_append, List.sum_append, words_stored h hl]
    omega
  have hs : s.toNat ≤ 65535 := by have := s.isLt; omega
  have key := complement_iff hn hs
  unfold verifies
  rw [ocSum_words, hsum, inetChecksum_eq]
  constructor
  · intro e
    have e1 := congrArg BitVec.toNat e
    rw [ckOf_toNat] at e1
    have := key.1 e1
    exact ⟨this.1, fun e => this.2 (by rw [e]; rfl)⟩
  · intro ⟨h1, h2⟩
    apply BitVec.eq_of_toNat_eq
    rw [ckOf_toNat]
    exact key.2 ⟨h1, fun e => h2 (BitVec.eq_of_toNat_eq e)⟩

theorem beq_ok_true {a b : U16} : (Outcome.ok (a == b) : Outcome Bool) = .ok true ↔ a = b := by simp

/-- C62 for IPv4: for every accepted packet with at least the fixed header, `is_valid()` holds exactly if
the header verifies by RFC 1071 and the stored checksum is not the all-ones word (whose meaning, in one's
complement, is the same as zero; a correct sender never stores it). -/
theorem C62_v4_is_valid_iff_verifies (cfg : Cfg) (b : Bytes) (h : V4.noPayload b = .ok b)
    (h5 : 3 ≤ field b 4 4) :
    V4.isValid cfg b = .ok true ↔
      verifies (b.take (4 * field b 4 4)) ∧ V4.checksum b ≠ .ok 0xffff#16 := by
  have hok := (V4.noPayload_ok_iff.1 h).2
  have hlong := hok.long; have hh := hok.header; have hv := hok.version
  obtain ⟨hd, e1, e2, e3⟩ := C04_v4_header_checksum_rfc cfg b h h5
  have hl : hd.length = 4 * field b 4 4 := by rw [e2, List.length_take]; omega
  obtain ⟨s, hs⟩ : ∃ s, V4.checksum b = .ok s := ⟨_, readU16At_ok (by omega)⟩
  have hs' : readU16At hd (2 * 5) = .ok s := by
    have hs : readU16At b 10 = .ok s := hs
    rw [readU16At_ok (by omega)] at hs ⊢
    rw [← hs, e2]
    simp only [List.getD_eq_getElem?_getD]
    rw [List.getElem?_take_of_lt (by omega), List.getElem?_take_of_lt (by omega)]
  have hz : ∃ w ∈ words (([] : Bytes) ++ zeroed hd (2 * 5)), w ≠ 0 := by
    have e0 : hd.getD 0 0#8 = b.getD 0 0#8 := by
      rw [e2, List.getD_eq_getElem?_getD, List.getElem?_take_of_lt (by omega)]
      rfl
    match hd with
    | [] => simp at hl; omega
    | [_] => simp at hl; omega
    | x :: y :: rest =>
      refine ⟨x.toNat * 256 + y.toNat, by simp [zeroed, words], ?_⟩
      have := field_hi4 b 0
      simp only [Nat.mul_zero, hv] at this
      rw [← e0] at this
      simp only [List.getD_cons_zero] at this
      omega
  have := receiver_iff (pre := []) (by rfl) hs' (by omega) hz
  unfold V4.isValid
  rw [e1, Outcome.ok_bind, e3, Outcome.ok_bind, hs, Outcome.ok_bind, beq_ok_true, ← e2]
  simp only [List.nil_append] at this
  rw [this]
  simp

example : V4.noPayload (put (zeros 20) 0 [0x45#8]) = .ok (put (zeros 20) 0 [0x45#8]) ∧
    3 ≤ field (put (zeros 20) 0 [0x45#8]) 4 4 := by decide

theorem pseudo_nonzero (p : Bytes) (hp : 20 ≤ p.length) (proto : U8) (hproto : proto ≠ 0) (n : Nat)
    (rest : Bytes) :
    ∃ w ∈ words (pseudoHeader ((p.drop 12).take 4) ((p.drop 16).take 4) proto n ++ rest), w ≠ 0 := by
  rw [words_append (by rw [pseudoHeader_length hp])]
  refine ⟨proto.toNat, List.mem_append_left _ ?_, fun e => hproto (BitVec.eq_of_toNat_eq e)⟩
  unfold pseudoHeader
  rw [words_append (by simp [List.length_take, List.length_drop]; omega)]
  apply List.mem_append_right
  simp [words]

/-- C62 for UDP over IPv4, with an even length or a `std` whose failed `read_exact` does not move the
cursor: exactly if the datagram with its pseudo header verifies and the stored checksum is not all ones. -/
theorem C62_udp_is_valid_iff_verifies (cfg : Cfg) (ip b : Bytes) (hip : 20 ≤ ip.length)
    (hb : 8 ≤ b.length) (hodd : b.length % 2 = 0 ∨ cfg.eofAdvances = false) :
    Udp.isValid cfg (.v4 ip) b = .ok true ↔
      verifies (pseudoHeader ((ip.drop 12).take 4) ((ip.drop 16).take 4) 17#8 b.length ++ b) ∧
        Udp.checksum b ≠ .ok 0xffff#16 := by
  obtain ⟨s, hs⟩ : ∃ s, Udp.checksum b = .ok s := ⟨_, readU16At_ok (by omega)⟩
  have := receiver_iff (pre := pseudoHeader ((ip.drop 12).take 4) ((ip.drop 16).take 4) 17#8 b.length)
    (m := b) (k := 3) (s := s) (by rw [pseudoHeader_length hip]) hs (by omega)
    (pseudo_nonzero ip hip _ (by decide) _ _)
  unfold Udp.isValid
  rw [C06_udp_checksum_rfc cfg ip b hip hb hodd, Outcome.ok_bind, hs, Outcome.ok_bind, beq_ok_true]
  unfold udpMessage
  rw [this]
  simp

/-- A concrete case that meets the hypotheses. -/
example (cfg : Cfg) := C62_udp_is_valid_iff_verifies cfg Sample.udpPacket Sample.udp (by decide) (by decide)
    (.inl (by decide))

/-- C62 for TCP over IPv4, under the same condition and up to 65535 bytes. -/
theorem C62_tcp_is_valid_iff_verifies (cfg : Cfg) (ip b : Bytes) (hip : 20 ≤ ip.length)
    (hb : 20 ≤ b.length) (hb' : b.length ≤ 65535) (hodd : b.length % 2 = 0 ∨ cfg.eofAdvances = false) :
    Tcp.isValid cfg (.v4 ip) b = .ok true ↔
      verifies (pseudoHeader ((ip.drop 12).take 4) ((ip.drop 16).take 4) 6#8 b.length ++ b) ∧
        Tcp.checksum b ≠ .ok 0xffff#16 := by
  obtain ⟨s, hs⟩ : ∃ s, Tcp.checksum b = .ok s := ⟨_, readU16At_ok (by omega)⟩
  have := receiver_iff (pre := pseudoHeader ((ip.drop 12).take 4) ((ip.drop 16).take 4) 6#8 b.length)
    (m := b) (k := 8) (s := s) (by rw [pseudoHeader_length hip]) hs (by omega)
    (pseudo_nonzero ip hip _ (by decide) _ _)
  unfold Tcp.isValid
  rw [C07_tcp_checksum_rfc cfg ip b hip hb hb' hodd, Outcome.ok_bind, hs, Outcome.ok_bind,
    beq_ok_true]
  unfold tcpMessage
  rw [this]
  simp

/-- A concrete case that meets the hypotheses. -/
example (cfg : Cfg) := C62_tcp_is_valid_iff_verifies cfg Sample.tcpPacket Sample.tcp (by decide) (by decide)
    (by decide) (.inl (by decide))

/-- C62 for ICMP, with an even length and at least one non-zero word besides the checksum. -/
theorem C62_icmp_is_valid_iff_verifies (cfg : Cfg) (b : Bytes) (hb : 4 ≤ b.length)
    (heven : b.length % 2 = 0) (hnz : ∃ w ∈ words (zeroed b 2), w ≠ 0) :
    Icmp.isValid cfg b = .ok true ↔ verifies b ∧ Icmp.checksum b ≠ .ok 0xffff#16 := by
  obtain ⟨s, hs⟩ : ∃ s, Icmp.checksum b = .ok s := ⟨_, readU16At_ok (by omega)⟩
  have := receiver_iff (pre := []) (m := b) (k := 1) (s := s) rfl hs (by omega) hnz
  unfold Icmp.isValid
  rw [C05_icmp_checksum_rfc cfg b hb heven hnz, Outcome.ok_bind, hs, Outcome.ok_bind, beq_ok_true]
  simp only [List.nil_append] at this
  rw [this]
  simp

example : ∃ w ∈ words (zeroed ([8, 0, 0, 0, 0, 1, 0, 2] : Bytes) 2), w ≠ 0 := by decide

/-- C66 is false of the code for UDP: a datagram whose checksum computes to zero is sent with all ones
(RFC 768), verifies at every receiver, and is rejected by `is_valid`. -/
theorem C66_udp_all_ones_refuted (cfg : Cfg) : ∃ ip b : Bytes, V4.new ip = .ok ip ∧ Udp.new b = .ok b ∧
    verifies (pseudoHeader ((ip.drop 12).take 4) ((ip.drop 16).take 4) 17#8 b.length ++ b) ∧
    inetChecksum (udpMessage ip b) = 0#16 ∧ Udp.checksum b = .ok (udpChecksum ip b) ∧
    Udp.isValid cfg (.v4 ip) b = .ok false := by
  refine ⟨[0x45, 0, 0, 28] ++ zeros 16 ++ [0xff, 0xde, 0, 0, 0, 8, 0xff, 0xff],
    [0xff, 0xde, 0, 0, 0, 8, 0xff, 0xff], by decide, by decide, by unfold verifies; decide, by decide,
    by decide, ?_⟩
  obtain ⟨oc, ea, nw⟩ := cfg
  cases oc <;> cases ea <;> cases nw <;> decide

/-- C66 is false of the code for UDP: a datagram sent without a checksum (zero, RFC 768) is rejected. -/
theorem C66_udp_no_checksum_refuted (cfg : Cfg) : ∃ ip b : Bytes, V4.new ip = .ok ip ∧ Udp.new b = .ok b ∧
    Udp.checksum b = .ok 0#16 ∧ Udp.isValid cfg (.v4 ip) b = .ok false := by
  refine ⟨[0x45, 0, 0, 28] ++ zeros 16 ++ [0, 1, 0, 2, 0, 8, 0, 0], [0, 1, 0, 2, 0, 8, 0, 0], by decide, by decide, by decide, ?_⟩
  obtain ⟨oc, ea, nw⟩ := cfg
  cases oc <;> cases ea <;> cases nw <;> decide

/-- C65 is false of the code for ICMP: an echo reply of zeros with the right checksum is rejected. -/
theorem C65_icmp_zero_valid_refuted (cfg : Cfg) : ∃ b : Bytes, Icmp.new b = .ok b ∧ verifies b ∧
    Icmp.checksum b = .ok (inetChecksum (zeroed b 2)) ∧ Icmp.isValid cfg b = .ok false := by
  refine ⟨[0, 0, 0xff, 0xff, 0, 0, 0, 0], by decide, by unfold verifies; decide, by decide, ?_⟩
  obtain ⟨oc, ea, nw⟩ := cfg
  cases oc <;> cases ea <;> cases nw <;> decide

end Verif.Props
