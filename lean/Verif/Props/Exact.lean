import Verif.Props.Encode
import Verif.Samples

/-!
# C60, C65, C66: exactly which packets the checksum defects touch
-/

namespace Verif.Props
open Verif Verif.Spec

theorem oddWord_last (b : Bytes) :
    oddWord b = if b.length % 2 = 1 then (b.getD (b.length - 1) 0#8).toNat * 256 else 0 := by
  unfold oddWord
  rw [oddTail_eq]
  by_cases h : b.length % 2 = 1
  · rw [if_pos h]
    have hl : (b.drop (b.length - b.length % 2)).length = 1 := by rw [List.length_drop]; omega
    have hg : (b.drop (b.length - b.length % 2))[0]? = b[b.length - 1]? := by
      rw [List.getElem?_drop]; congr 1; omega
    generalize b.drop (b.length - b.length % 2) = d at hl hg
    match d, hl, hg with
    | [a], _, hg => rw [List.getD_eq_getElem?_getD, ← hg]; rfl
  · rw [if_neg h]
    have hl : (b.drop (b.length - b.length % 2)).length = 0 := by rw [List.length_drop]; omega
    rw [List.length_eq_zero_iff.1 hl]

theorem sum_nonzero (ws : List Nat) : ws.sum ≠ 0 ↔ ∃ w ∈ ws, w ≠ 0 := by
  constructor
  · intro h
    apply Decidable.byContradiction
    intro hn
    exact h (List.sum_eq_zero_iff_forall_eq_nat.2 fun w hw =>
      Decidable.byContradiction fun h0 => hn ⟨w, hw, h0⟩)
  · intro ⟨w, hw, h0⟩ h
    exact h0 (List.sum_eq_zero_iff_forall_eq_nat.1 h w hw)

/-- The pseudo header of UDP is never all zero: it holds the protocol number. -/
theorem pseudoSum_udp {ip : Bytes} (hip : 20 ≤ ip.length) (n : Nat) : 17 ≤ pseudoSum ip 17#8 n := by
  unfold pseudoSum pseudoHeader
  rw [take4_drop (by omega), take4_drop (by omega)]
  simp only [List.cons_append, List.nil_append, words, List.sum_cons, List.sum_nil]
  have : (0#8).toNat * 256 + (17#8).toNat = 17 := rfl
  rw [this]
  simp only [Nat.add_zero]
  refine Nat.le_trans ?_ (Nat.le_add_left _ _)
  refine Nat.le_trans ?_ (Nat.le_add_left _ _)
  refine Nat.le_trans ?_ (Nat.le_add_left _ _)
  refine Nat.le_trans ?_ (Nat.le_add_left _ _)
  exact Nat.le_add_right _ _

/-- C65, exactly: the ICMP checksum is that of RFC 792 if and only if the message has no odd last byte other than
zero and is not all zero outside the checksum. -/
theorem C65_icmp_checksum_iff_partial (cfg : Cfg) (b : Bytes) (hb : 4 ≤ b.length) :
    Icmp.checksumOf cfg b = .ok (inetChecksum (zeroed b 2)) ↔
      (b.length % 2 = 1 → b.getD (b.length - 1) 0#8 = 0#8) ∧ ∃ w ∈ words (zeroed b 2), w ≠ 0 := by
  have hl := loopWords_zeroed 1 b 0 hb
  simp only [Nat.zero_add, Nat.reduceMul, Nat.reduceAdd] at hl
  have ho := oddWord_last b
  have hlt := (b.getD (b.length - 1) 0#8).isLt
  have hz : (b.getD (b.length - 1) 0#8 = 0#8) ↔ (b.getD (b.length - 1) 0#8).toNat = 0 :=
    ⟨fun h => by rw [h]; rfl, fun h => BitVec.eq_of_toNat_eq h⟩
  rw [Icmp.checksumOf_eq, inetChecksum_eq, ← sum_nonzero, Outcome.ok.injEq, ckOf_inj, norm_eq_iff, hz, ← hl]
  generalize (b.getD (b.length - 1) 0#8).toNat = x at *
  generalize (loopWords 4 b 0).sum = y at *
  generalize oddWord b = z at *
  split at ho <;> omega

/-- A concrete case that meets the hypotheses. -/
example (cfg : Cfg) := C65_icmp_checksum_iff_partial cfg Sample.echo (by decide)

/-- C65: the last byte of every message of odd length plays no role for `is_valid()`; no change of it is ever
detected. -/
theorem C65_icmp_odd_ignored_refuted (cfg : Cfg) (b : Bytes) (x y : U8) (hb : 4 ≤ b.length) (heven : b.length % 2 = 0) :
    Icmp.isValid cfg (b ++ [x]) = Icmp.isValid cfg (b ++ [y]) := by
  unfold Icmp.isValid
  rw [C05_icmp_checksum_odd cfg b x heven, C05_icmp_checksum_odd cfg b y heven]
  have : ∀ z : U8, Icmp.checksum (b ++ [z]) = Icmp.checksum b := by
    intro z
    show readU16At (b ++ [z]) 2 = readU16At b 2
    rw [readU16At_field (by simp; omega), readU16At_field (by omega)]
    congr 2
    apply field_congr
    intro i hi1 hi2
    apply bitAt_congr
    rw [List.getElem?_append_left (by omega)]
  rw [this, this]

/-- A concrete case that meets the hypotheses. -/
example (cfg : Cfg) (x : U8) (y : U8) := C65_icmp_odd_ignored_refuted cfg Sample.echo x y (by decide) (by decide)

/-- C65: a message whose bytes are all zero outside the checksum verifies with checksum 0 and with no other; RFC 792
asks for 0xffff. -/
theorem C65_icmp_zero_valid_iff_refuted (cfg : Cfg) (b : Bytes) (hb : 4 ≤ b.length)
    (hz : ∀ w ∈ words (zeroed b 2), w = 0) :
    inetChecksum (zeroed b 2) = 0xffff#16 ∧
    (Icmp.isValid cfg b = .ok true ↔ Icmp.checksum b = .ok 0#16) := by
  have hl := loopWords_zeroed 1 b 0 hb
  simp only [Nat.zero_add, Nat.reduceMul, Nat.reduceAdd] at hl
  have h0 := List.sum_eq_zero_iff_forall_eq_nat.2 hz
  refine ⟨by rw [inetChecksum_eq, h0]; rfl, ?_⟩
  unfold Icmp.isValid
  rw [Icmp.checksumOf_eq, show (loopWords 4 b 0).sum = 0 by omega]
  have r : Icmp.checksum b = .ok (BitVec.ofNat 16 (field b 16 16)) := readU16At_field (by omega)
  rw [r]
  simp only [Outcome.ok_bind, Outcome.ok.injEq, beq_iff_eq]
  rw [show ckOf (65535 + 0) = 0#16 from by decide]
  exact eq_comm

/-- A concrete case that meets the hypotheses. -/
example (cfg : Cfg) := C65_icmp_zero_valid_iff_refuted cfg (zeros 8) (by decide) (by decide)

/-- C66, exactly: the UDP checksum is that of RFC 768 if and only if the computed sum is not zero. -/
theorem C66_udp_checksum_iff_partial (cfg : Cfg) (ip b : Bytes) (hip : 20 ≤ ip.length)
    (hb : 8 ≤ b.length) (hodd : b.length % 2 = 0 ∨ cfg.eofAdvances = false) :
    Udp.checksumOf cfg (.v4 ip) b = .ok (udpChecksum ip b) ↔ inetChecksum (udpMessage ip b) ≠ 0#16 := by
  rw [C06_udp_checksum_rfc cfg ip b hip hb hodd, Outcome.ok.injEq, udpChecksum]
  constructor
  · intro h h0
    rw [if_pos h0, h0] at h
    cases h
  · intro h0
    rw [if_neg h0]

/-- A concrete case that meets the hypotheses. -/
example (cfg : Cfg) := C66_udp_checksum_iff_partial cfg Sample.udpPacket Sample.udp (by decide) (by decide)
    (.inl (by decide))

/-- C66: no datagram with checksum 0xffff verifies, and one without a checksum (0) does so exactly if the sum of
its other words happens to be 0xffff. -/
theorem C66_udp_is_valid_special_refuted (cfg : Cfg) (ip b : Bytes) (hip : 20 ≤ ip.length) (hb : 8 ≤ b.length)
    (hodd : b.length % 2 = 0 ∨ cfg.eofAdvances = false) :
    (Udp.checksum b = .ok 0xffff#16 → Udp.isValid cfg (.v4 ip) b = .ok false) ∧
    (Udp.checksum b = .ok 0#16 →
      Udp.isValid cfg (.v4 ip) b = .ok (decide (inetChecksum (udpMessage ip b) = 0#16))) := by
  have e := C06_udp_checksum_rfc cfg ip b hip hb hodd
  have hne : inetChecksum (udpMessage ip b) ≠ 0xffff#16 := by
    intro h
    rw [inetChecksum_eq] at h
    rw [udpMessage_sum hip hb] at h
    have hp := pseudoSum_udp hip b.length
    have h1 := congrArg BitVec.toNat h
    rw [ckOf_toNat] at h1
    have h2 : (0xffff#16).toNat = 65535 := rfl
    rw [h2] at h1
    generalize pseudoSum ip 17#8 b.length = k at *
    unfold norm at h1
    split at h1 <;> omega
  constructor
  · intro h
    unfold Udp.isValid
    rw [e, h]
    simp only [Outcome.ok_bind]
    congr 1
    exact beq_false_of_ne hne
  · intro h
    unfold Udp.isValid
    rw [e, h]
    simp only [Outcome.ok_bind]
    congr 1

/-- A concrete case that meets the hypotheses. -/
example (cfg : Cfg) := C66_udp_is_valid_special_refuted cfg Sample.udpPacket Sample.udp (by decide) (by decide)
    (.inl (by decide))

/-- C60, exactly: the two cursor behaviours give the same UDP checksum if and only if the odd last byte is zero. -/
theorem C60_udp_odd_iff_partial (oc nw : Bool) (ip b : Bytes) (x : U8) (hip : 20 ≤ ip.length) (hb : 8 ≤ b.length)
    (heven : b.length % 2 = 0) :
    Udp.checksumOf ⟨oc, true, nw⟩ (.v4 ip) (b ++ [x]) = Udp.checksumOf ⟨oc, false, nw⟩ (.v4 ip) (b ++ [x]) ↔ x = 0#8 := by
  have ho := oddWord_last (b ++ [x])
  rw [if_pos (by simp; omega)] at ho
  have hx : (b ++ [x]).getD ((b ++ [x]).length - 1) 0#8 = x := by simp
  rw [hx] at ho
  have hlt := x.isLt
  rw [Udp.checksumOf_eq _ _ _ hip, Udp.checksumOf_eq _ _ _ hip]
  simp only [if_true, Bool.false_eq_true, if_false]
  rw [Outcome.ok.injEq, ckOf_inj, norm_eq_iff, ho]
  have hp := pseudoSum_udp hip (b ++ [x]).length
  have hz : (x = 0#8) ↔ x.toNat = 0 := ⟨fun h => by rw [h]; rfl, fun h => BitVec.eq_of_toNat_eq h⟩
  rw [hz]
  generalize x.toNat = x at *
  generalize pseudoSum ip 17#8 (b ++ [_]).length = k at *
  omega

/-- The hypotheses of the three theorems on special contents are met: an odd message with a last byte, a message of
zeros with a checksum, a datagram whose sum is 0xffff. -/
example : (∃ b : Bytes, Icmp.new b = .ok b ∧ b.length % 2 = 1 ∧ b.getD (b.length - 1) 0#8 ≠ 0#8) ∧
    (∃ b : Bytes, Icmp.new b = .ok b ∧ Icmp.checksum b = .ok 0xffff#16 ∧ ∀ w ∈ words (zeroed b 2), w = 0) ∧
    (∃ ip b : Bytes, 20 ≤ ip.length ∧ Udp.new b = .ok b ∧ b.length % 2 = 0 ∧ Udp.checksum b = .ok 0#16 ∧
      inetChecksum (udpMessage ip b) = 0#16) :=
  ⟨⟨[8, 0, 0xf7, 0xff, 0, 0, 0, 0, 0x61], by decide, by decide, by decide⟩,
    ⟨[0, 0, 0xff, 0xff, 0, 0, 0, 0], by decide, by decide, by decide⟩,
    ⟨zeros 20, [0xff, 0xde, 0, 0, 0, 8, 0, 0], by decide, by decide, by decide, by decide, by decide⟩⟩

end Verif.Props
