import Verif.Lemmas.Transport
import Verif.Samples

/-!
# C04-C09, C59, C60: checksums

`inetChecksum`, `verifies`, `zeroed` and `pseudoHeader` are the RFC 1071/768/793 definitions of
`Verif/Spec/Checksum.lean`.  A header, message or datagram is a byte string; `.v4 ip` is an
`ip::Packet::V4` whose buffer is `ip`.
-/

namespace Verif.Props
open Verif Spec

/-! ## C04: `ip::v4::checksum` -/

/-- C04, first half: the function never panics, whatever it is given. -/
theorem C04_v4_checksum_total (cfg : Cfg) (b : Bytes) : ∃ c, V4.checksumOf cfg b = .ok c :=
  ⟨_, V4.checksumOf_eq cfg b⟩

/-- C04: on every even-length string that has room for the checksum field and a non-zero word outside
it, the result is the Internet checksum with that field counted as zero. -/
theorem C04_v4_checksum_rfc (cfg : Cfg) (b : Bytes) (hlen : 12 ≤ b.length) (heven : b.length % 2 = 0)
    (hnz : ∃ w ∈ words (zeroed b 10), w ≠ 0) :
    V4.checksumOf cfg b = .ok (inetChecksum (zeroed b 10)) := by
  have hl := loopWords_zeroed 5 b 0 hlen
  rw [oddWord_even heven] at hl
  have h0 : (words (zeroed b 10)).sum ≠ 0 := by
    obtain ⟨w, hw, hw0⟩ := hnz
    intro h
    exact hw0 (List.sum_eq_zero_iff_forall_eq_nat.1 h w hw)
  simp only [Nat.zero_add, Nat.reduceMul, Nat.reduceAdd, Nat.add_zero] at hl
  rw [V4.checksumOf_eq, inetChecksum_eq, hl, ckOf_inj.2 (norm_add_65535 h0)]

/-- A concrete case that meets the hypotheses. -/
example (cfg : Cfg) := C04_v4_checksum_rfc cfg Sample.udpPacket (by decide) (by decide) (by decide)

/-- C04 for the header of any packet that `ip::v4::Packet` accepts, if the header is long enough to
contain the checksum field. -/
theorem C04_v4_header_checksum_rfc (cfg : Cfg) (b : Bytes) (h : V4.noPayload b = .ok b)
    (h5 : 3 ≤ field b 4 4) :
    ∃ hd, V4.header b = .ok hd ∧ hd = b.take (4 * field b 4 4) ∧
      V4.checksumOf cfg hd = .ok (inetChecksum (zeroed hd 10)) := by
  have hok := (V4.noPayload_ok_iff.1 h).2
  have hlong := hok.long; have hh := hok.header; have hv := hok.version
  rw [Nat.mul_comm]
  refine ⟨_, V4.header_eq (by omega) hh, rfl, ?_⟩
  have hl : (b.take (field b 4 4 * 4)).length = field b 4 4 * 4 := by rw [List.length_take]; omega
  apply C04_v4_checksum_rfc _ _ (by omega) (by omega)
  match b with
  | [] => simp at hlong
  | [_] => simp at hlong
  | x :: y :: rest =>
    have hz : zeroed ((x :: y :: rest).take (field (x :: y :: rest) 4 4 * 4)) 10
        = x :: y :: zeroed (rest.take (field (x :: y :: rest) 4 4 * 4 - 2)) 8 := by
      obtain ⟨n, hn⟩ : ∃ n, field (x :: y :: rest) 4 4 * 4 = n + 2 := ⟨field (x :: y :: rest) 4 4 * 4 - 2, by omega⟩
      rw [hn]; simp [zeroed]
    rw [hz, words]
    refine ⟨_, List.mem_cons_self, ?_⟩
    have := field_hi4 (x :: y :: rest) 0
    simp only [Nat.mul_zero, hv, List.getD_cons_zero] at this
    omega

/-- The hypotheses of C04 are met by an ordinary header. -/
example : V4.noPayload ([0x45, 0, 0, 20, 0, 0, 0, 0, 64, 17, 0, 0, 10, 0, 0, 1, 10, 0, 0, 2] : Bytes)
    = .ok [0x45, 0, 0, 20, 0, 0, 0, 0, 64, 17, 0, 0, 10, 0, 0, 1, 10, 0, 0, 2] ∧
    3 ≤ field ([0x45, 0, 0, 20, 0, 0, 0, 0, 64, 17, 0, 0, 10, 0, 0, 1, 10, 0, 0, 2] : Bytes) 4 4 := by
  decide

/-! ## C05: `icmp::checksum` -/

/-- C05: total on every message. -/
theorem C05_icmp_checksum_total (cfg : Cfg) (b : Bytes) : ∃ c, Icmp.checksumOf cfg b = .ok c :=
  ⟨_, Icmp.checksumOf_eq cfg b⟩

/-- C05: messages of even length that are not entirely zero. Not part of this claim: odd lengths
(the last byte is ignored) and the all-zero message. -/
theorem C05_icmp_checksum_rfc (cfg : Cfg) (b : Bytes) (hlen : 4 ≤ b.length)
    (heven : b.length % 2 = 0) (hnz : ∃ w ∈ words (zeroed b 2), w ≠ 0) :
    Icmp.checksumOf cfg b = .ok (inetChecksum (zeroed b 2)) := by
  have hl := loopWords_zeroed 1 b 0 hlen
  rw [oddWord_even heven] at hl
  have h0 : (words (zeroed b 2)).sum ≠ 0 := by
    obtain ⟨w, hw, hw0⟩ := hnz
    intro h
    exact hw0 (List.sum_eq_zero_iff_forall_eq_nat.1 h w hw)
  simp only [Nat.zero_add, Nat.reduceMul, Nat.reduceAdd, Nat.add_zero] at hl
  rw [Icmp.checksumOf_eq, inetChecksum_eq, hl, ckOf_inj.2 (norm_add_65535 h0)]

example : ∃ w ∈ words (zeroed ([8, 0, 0, 0, 0x12, 0x34, 0, 1] : Bytes) 2), w ≠ 0 := by decide

/-- An odd last byte is not part of the words the loops read. -/
theorem loopWords_snoc (skip : Nat) (x : U8) (b : Bytes) (pos : Nat) (hb : b.length % 2 = 0) :
    loopWords skip (b ++ [x]) pos = loopWords skip b pos := by
  induction b, pos using loopWords.induct skip with
  | case1 a b rest pos h ih =>
    have := ih (by simp only [List.length_cons] at hb; omega)
    simp only [List.cons_append, loopWords, if_pos h, this]
  | case2 a b rest pos h ih =>
    have := ih (by simp only [List.length_cons] at hb; omega)
    simp only [List.cons_append, loopWords, if_neg h, this]
  | case3 t pos h =>
    match t with
    | [] => simp [loopWords]
    | [a] => simp at hb
    | a :: b :: r => exact absurd rfl (h a b r)

/-- C05, what the function computes for an odd length: the checksum of the message without its last byte. -/
theorem C05_icmp_checksum_odd (cfg : Cfg) (b : Bytes) (x : U8) (heven : b.length % 2 = 0) :
    Icmp.checksumOf cfg (b ++ [x]) = Icmp.checksumOf cfg b := by
  rw [Icmp.checksumOf_eq, Icmp.checksumOf_eq, loopWords_snoc 4 x b 0 heven]

/-- A concrete case that meets the hypotheses. -/
example (cfg : Cfg) (x : U8) := C05_icmp_checksum_odd cfg Sample.echo x (by decide)

/-- C65 is false of the code for odd lengths (an echo request with a one-byte payload). -/
theorem C65_icmp_odd_refuted (cfg : Cfg) : ∃ b : Bytes, 8 ≤ b.length ∧
    Icmp.checksumOf cfg b ≠ .ok (inetChecksum (zeroed b 2)) := by
  refine ⟨[8, 0, 0, 0, 0, 0, 0, 0, 0x61], by decide, ?_⟩
  rw [Icmp.checksumOf_eq]; decide

/-- C65 is false of the code for the all-zero message (an echo reply with identifier and sequence 0). -/
theorem C65_icmp_zero_refuted (cfg : Cfg) : ∃ b : Bytes, 8 ≤ b.length ∧ b.length % 2 = 0 ∧
    Icmp.checksumOf cfg b ≠ .ok (inetChecksum (zeroed b 2)) := by
  refine ⟨[0, 0, 0, 0, 0, 0, 0, 0], by decide, by decide, ?_⟩
  rw [Icmp.checksumOf_eq]; decide

/-! ## C06: `udp::checksum` -/

theorem udpMessage_sum {ip b : Bytes} (hip : 20 ≤ ip.length) (hb : 8 ≤ b.length) :
    (words (udpMessage ip b)).sum = pseudoSum ip 17#8 b.length + (loopWords 8 b 0).sum + oddWord b := by
  unfold udpMessage
  rw [words_append (by rw [pseudoHeader_length hip]), List.sum_append]
  have := loopWords_zeroed 3 b 0 hb
  simp only [Nat.zero_add, Nat.reduceMul, Nat.reduceAdd] at this
  rw [← this, pseudoSum, Nat.add_assoc]

/-- C06: even lengths, or a `std` whose failed `read_exact` does not move the
cursor. Not part of this claim: odd lengths on a recent `std`, and the zero rule. -/
theorem C06_udp_checksum_rfc (cfg : Cfg) (ip b : Bytes) (hip : 20 ≤ ip.length)
    (hb : 8 ≤ b.length) (hodd : b.length % 2 = 0 ∨ cfg.eofAdvances = false) :
    Udp.checksumOf cfg (.v4 ip) b = .ok (inetChecksum (udpMessage ip b)) := by
  rw [Udp.checksumOf_eq cfg ip b hip, inetChecksum_eq, udpMessage_sum hip hb]
  congr 3
  rcases hodd with h | h
  · rw [oddWord_even h]; split <;> rfl
  · simp [h]

/-- C66 including the zero rule, wherever the computed checksum is not zero. -/
theorem C66_udp_checksum_nonzero_partial (cfg : Cfg) (ip b : Bytes) (hip : 20 ≤ ip.length)
    (hb : 8 ≤ b.length) (hodd : b.length % 2 = 0 ∨ cfg.eofAdvances = false)
    (hz : inetChecksum (udpMessage ip b) ≠ 0#16) :
    Udp.checksumOf cfg (.v4 ip) b = .ok (udpChecksum ip b) := by
  rw [C06_udp_checksum_rfc cfg ip b hip hb hodd, udpChecksum, if_neg hz]

example : inetChecksum (udpMessage (List.replicate 20 1#8) [0, 1, 0, 2, 0, 9, 0, 0, 7]) ≠ 0#16 := by
  decide

/-- The zero rule is not implemented: there is a datagram whose computed checksum is 0. -/
theorem C66_udp_zero_rule_refuted (cfg : Cfg) : ∃ ip b : Bytes, 20 ≤ ip.length ∧ 8 ≤ b.length ∧
    b.length % 2 = 0 ∧ Udp.checksumOf cfg (.v4 ip) b ≠ .ok (udpChecksum ip b) := by
  refine ⟨zeros 20, [0xff, 0xde, 0, 0, 0, 8, 0, 0], by decide, by decide, by decide, ?_⟩
  rw [C06_udp_checksum_rfc cfg _ _ (by decide) (by decide) (Or.inl (by decide))]
  decide

theorem oddTail_snoc_zero (b : Bytes) : b.length % 2 = 0 → oddTail (b ++ [0#8]) = [0#8] := by
  intro h
  induction b using oddTail.induct with
  | case1 a b rest ih =>
    simp only [List.cons_append, oddTail]
    exact ih (by simp only [List.length_cons] at h; omega)
  | case2 t ht =>
    match t with
    | [] => rfl
    | [a] => simp at h
    | a :: b :: r => exact absurd rfl (ht a b r)

/-- C60, what `udp::checksum` computes for an odd length on a recent `std`: the checksum of the datagram with
its last byte replaced by zero. -/
theorem C60_udp_odd_exact (cfg : Cfg) (h : cfg.eofAdvances = true) (ip b : Bytes) (x : U8)
    (hip : 20 ≤ ip.length) (hb : 8 ≤ b.length) (heven : b.length % 2 = 0) :
    Udp.checksumOf cfg (.v4 ip) (b ++ [x]) = .ok (inetChecksum (udpMessage ip (b ++ [0]))) := by
  rw [Udp.checksumOf_eq cfg ip _ hip, inetChecksum_eq, udpMessage_sum hip (by simp; omega),
    loopWords_snoc 8 x b 0 heven, loopWords_snoc 8 0 b 0 heven]
  have h0 : oddWord (b ++ [0]) = 0 := by
    unfold oddWord
    rw [show (b ++ [0] : Bytes) = b ++ [0#8] from rfl, oddTail_snoc_zero b heven]
    rfl
  simp only [h, if_true, h0, List.length_append, List.length_cons, List.length_nil]

/-- A concrete case that meets the hypotheses. -/
example (x : U8) := C60_udp_odd_exact ⟨true, true, false⟩ rfl Sample.udpPacket Sample.udp x (by decide) (by decide)
    (by decide)

/-- The odd last byte is ignored on a recent `std`. -/
theorem C60_udp_odd_refuted (cfg : Cfg) (h : cfg.eofAdvances = true) : ∃ ip b : Bytes,
    20 ≤ ip.length ∧ 8 ≤ b.length ∧ Udp.checksumOf cfg (.v4 ip) b ≠ .ok (udpChecksum ip b) := by
  refine ⟨zeros 20, [0, 1, 0, 2, 0, 9, 0, 0, 7], by decide, by decide, ?_⟩
  rw [Udp.checksumOf_eq _ _ _ (by decide)]
  simp only [h, if_true]
  decide

/-- A concrete case that meets the hypotheses. -/
example := C60_udp_odd_refuted ⟨true, true, false⟩ rfl

/-! ## C07: `tcp::checksum` -/

theorem tcpMessage_sum {ip b : Bytes} (hip : 20 ≤ ip.length) (hb : 18 ≤ b.length) :
    (words (tcpMessage ip b)).sum = pseudoSum ip 6#8 b.length + (loopWords 18 b 0).sum + oddWord b := by
  unfold tcpMessage
  rw [words_append (by rw [pseudoHeader_length hip]), List.sum_append]
  have := loopWords_zeroed 8 b 0 hb
  simp only [Nat.zero_add, Nat.reduceMul, Nat.reduceAdd] at this
  rw [← this, pseudoSum, Nat.add_assoc]

/-- C07: every segment up to 65535 bytes, both overflow profiles; even lengths, or
a `std` whose failed `read_exact` does not move the cursor. Not part of this claim: odd lengths on a recent `std`. -/
theorem C07_tcp_checksum_rfc (cfg : Cfg) (ip b : Bytes) (hip : 20 ≤ ip.length)
    (hb : 20 ≤ b.length) (hb' : b.length ≤ 65535)
    (hodd : b.length % 2 = 0 ∨ cfg.eofAdvances = false) :
    Tcp.checksumOf cfg (.v4 ip) b = .ok (inetChecksum (tcpMessage ip b)) := by
  rw [Tcp.checksumOf_eq cfg ip b hip (by omega), inetChecksum_eq, tcpMessage_sum hip (by omega), if_neg]
  rintro ⟨h1, h2⟩
  rcases hodd with h | h
  · omega
  · simp [h] at h2

/-- On a recent `std` the checksum of every odd-length segment panics. -/
theorem C60_tcp_odd_panics (cfg : Cfg) (h : cfg.eofAdvances = true) (ip b : Bytes)
    (hip : 20 ≤ ip.length) (hb' : b.length ≤ 65535) (hodd : b.length % 2 = 1) :
    Tcp.checksumOf cfg (.v4 ip) b = .panic := by
  rw [Tcp.checksumOf_eq cfg ip b hip (by omega), if_pos ⟨hodd, h⟩]

/-- A concrete case that meets the hypotheses. -/
example := C60_tcp_odd_panics ⟨true, true, false⟩ rfl Sample.tcpPacket (Sample.tcp ++ [7]) (by decide) (by decide)
    (by decide)

/-- C60 is false of the code on a recent `std`. -/
theorem C60_tcp_odd_refuted (cfg : Cfg) (h : cfg.eofAdvances = true) : ∃ ip b : Bytes,
    20 ≤ ip.length ∧ 20 ≤ b.length ∧ b.length ≤ 65535 ∧
    Tcp.checksumOf cfg (.v4 ip) b ≠ .ok (inetChecksum (tcpMessage ip b)) :=
  ⟨zeros 20, zeros 21, by decide, by decide, by decide, by
    rw [C60_tcp_odd_panics cfg h _ _ (by decide) (by decide) (by decide)]; exact fun h => by cases h⟩

/-- A concrete case that meets the hypotheses. -/
example := C60_tcp_odd_refuted ⟨true, true, false⟩ rfl

/-! ## C60: odd lengths and the version of `std` -/

/-- C60 for UDP, even lengths: the two cursor behaviours agree. -/
theorem C60_udp_odd_partial (oc nw : Bool) (ip b : Bytes) (hip : 20 ≤ ip.length) (heven : b.length % 2 = 0) :
    Udp.checksumOf ⟨oc, true, nw⟩ (.v4 ip) b = Udp.checksumOf ⟨oc, false, nw⟩ (.v4 ip) b := by
  rw [Udp.checksumOf_eq _ _ _ hip, Udp.checksumOf_eq _ _ _ hip, oddWord_even heven]
  simp

/-- A concrete case that meets the hypotheses. -/
example (oc nw : Bool) := C60_udp_odd_partial oc nw Sample.udpPacket Sample.udp (by decide) (by decide)

/-- C60 for TCP, even lengths. -/
theorem C60_tcp_odd_partial (oc nw : Bool) (ip b : Bytes) (hip : 20 ≤ ip.length) (heven : b.length % 2 = 0)
    (hb' : b.length ≤ 65535) :
    Tcp.checksumOf ⟨oc, true, nw⟩ (.v4 ip) b = Tcp.checksumOf ⟨oc, false, nw⟩ (.v4 ip) b := by
  rw [Tcp.checksumOf_eq _ _ _ hip (by omega), Tcp.checksumOf_eq _ _ _ hip (by omega),
    if_neg (by omega), if_neg (by omega)]

/-- A concrete case that meets the hypotheses. -/
example (oc nw : Bool) := C60_tcp_odd_partial oc nw Sample.tcpPacket Sample.tcp (by decide) (by decide) (by decide)

/-- C60 is false of the code: a one-byte UDP payload is checksummed differently. -/
theorem C60_refuted (oc nw : Bool) : ∃ ip b : Bytes, 20 ≤ ip.length ∧ 8 ≤ b.length ∧
    Udp.checksumOf ⟨oc, true, nw⟩ (.v4 ip) b ≠ Udp.checksumOf ⟨oc, false, nw⟩ (.v4 ip) b := by
  refine ⟨zeros 20, [0, 1, 0, 2, 0, 9, 0, 0, 7], by decide, by decide, ?_⟩
  rw [Udp.checksumOf_eq _ _ _ (by decide), Udp.checksumOf_eq _ _ _ (by decide)]
  simp only [if_true, Bool.false_eq_true, if_false]
  decide

/-! ## C08: `update_checksum` and `is_valid` -/

theorem loopWords_put16 (k : Nat) (m : Bytes) (v : U16) (h : 2 * k + 2 ≤ m.length) :
    loopWords (2 * k + 2) (put m (2 * k) (be16 v)) 0 = loopWords (2 * k + 2) m 0 := by
  have := loopWords_put k m 0 (BitVec.ofNat 8 (v.toNat / 256)) (BitVec.ofNat 8 v.toNat) h
  simpa [be16] using this

theorem readU16At_put16 {b : Bytes} {off : Nat} {v : U16} (h : off + 2 ≤ b.length) :
    readU16At (put b off (be16 v)) off = .ok v := by
  have hl : off + (be16 v).length ≤ b.length := h
  rw [readU16At_ok (by rw [length_put hl]; omega), getD_put hl, getD_put hl]
  rw [if_neg (by omega), if_pos (by rw [be16_length]; omega), if_neg (by omega),
    if_pos (by rw [be16_length]; omega), Nat.sub_self, show off + 1 - off = 1 by omega]
  exact congrArg Outcome.ok (fromBe16_be16 v)

theorem take_put {b : Bytes} {n off : Nat} {bs : Bytes} (h : off + bs.length ≤ n) (hn : n ≤ b.length) :
    (put b off bs).take n = put (b.take n) off bs := by
  have hl : (b.take n).length = n := by rw [List.length_take]; omega
  have h1 : (put (b.take n) off bs).length = n := by rw [length_put (by omega), hl]
  rw [← put_append_drop h, List.take_append_of_le_length (by omega), List.take_of_length_le (by omega)]

/-- What `update_checksum` does as long as the checksum field is part of the header. -/
theorem v4_update (cfg : Cfg) (b : Bytes) (h : V4.noPayload b = .ok b)
    (h3 : 3 ≤ field b 4 4) :
    ∃ b', V4.updateChecksum cfg b = (.ok (), b') ∧ V4.isValid cfg b' = .ok true ∧
      verifies (b'.take (4 * field b 4 4)) ∧
      V4.updateChecksum cfg b' = (.ok (), b') ∧ SameOutside b b' 10 12 := by
  have hok := (V4.noPayload_ok_iff.1 h).2
  have hlong := hok.long; have hh := hok.header; have hv := hok.version
  have hl : (b.take (field b 4 4 * 4)).length = field b 4 4 * 4 := by rw [List.length_take]; omega
  -- the value stored
  obtain ⟨c, hc⟩ : ∃ c, V4.checksumOf cfg (b.take (field b 4 4 * 4)) = .ok c := ⟨_, V4.checksumOf_eq _ _⟩
  have hput : 10 + (be16 c).length ≤ b.length := by rw [be16_length]; omega
  have hfield : ∀ s w, s + w ≤ 80 ∨ 96 ≤ s → field (put b 10 (be16 c)) s w = field b s w :=
    fun s w hd => (setsField_put16 (b := b) (off := 10) (v := c) (by omega)).other (by omega)
  have hlen' : (put b 10 (be16 c)).length = b.length := length_put hput
  have hupd : V4.updateChecksum cfg b = (.ok (), put b 10 (be16 c)) := by
    unfold V4.updateChecksum
    refine (Mut.bind_ok (a := c) (s' := b) ?_).trans (V4.setChecksum_eq (by omega) hh (by omega))
    simp [Mut.read, V4.header_eq (show 4 ≤ b.length by omega) hh, hc]
  have hih : field (put b 10 (be16 c)) 4 4 = field b 4 4 := hfield 4 4 (by omega)
  have htake : (put b 10 (be16 c)).take (field b 4 4 * 4) = put (b.take (field b 4 4 * 4)) 10 (be16 c) :=
    take_put (by rw [be16_length]; omega) hh
  have hhdr : V4.header (put b 10 (be16 c)) = .ok (put (b.take (field b 4 4 * 4)) 10 (be16 c)) := by
    rw [V4.header_eq (by omega) (by omega), hih, htake]
  have hck : V4.checksumOf cfg (put (b.take (field b 4 4 * 4)) 10 (be16 c)) = .ok c := by
    rw [V4.checksumOf_eq] at hc ⊢
    rw [loopWords_put16 5 _ _ (by omega)]
    exact hc
  have hidem : put (put b 10 (be16 c)) 10 (be16 c) = put b 10 (be16 c) := put_put_same hput rfl
  refine ⟨_, hupd, ?_, ?_, ?_, sameOutside_put hput⟩
  · unfold V4.isValid V4.checksum
    rw [hhdr, Outcome.ok_bind, hck, Outcome.ok_bind, readU16At_put16 (by omega)]
    simp
  · rw [Nat.mul_comm, htake]
    unfold verifies
    obtain ⟨hd, he, rfl, hrfc⟩ := C04_v4_header_checksum_rfc cfg b h (by omega)
    rw [Nat.mul_comm, hc, inetChecksum_eq] at hrfc
    injection hrfc with hrfc
    rw [ocSum_words, words_put16 5 _ _ (by omega)]
    rw [hrfc]
    exact norm_complement _
  · unfold V4.updateChecksum
    refine (Mut.bind_ok (a := c) (s' := put b 10 (be16 c)) ?_).trans ?_
    · simp only [Mut.read, hhdr, Outcome.ok_bind, hck]
    · rw [V4.setChecksum_eq (by omega) (by omega) (by omega), hidem]

/-- C08 for IPv4: on an accepted packet whose header has at least the 20 fixed bytes, `update_checksum`
succeeds; afterwards `is_valid()` is true, the header verifies the way RFC 1071 tells a receiver to,
a second `update_checksum` changes nothing, and only bytes 10 and 11 changed. -/
theorem C08_v4_update_checksum (cfg : Cfg) (b : Bytes) (h : V4.noPayload b = .ok b)
    (h5 : 5 ≤ field b 4 4) :
    ∃ b', V4.updateChecksum cfg b = (.ok (), b') ∧ V4.isValid cfg b' = .ok true ∧
      verifies (b'.take (4 * field b 4 4)) ∧
      V4.updateChecksum cfg b' = (.ok (), b') ∧ SameOutside b b' 10 12 :=
  v4_update cfg b h (by omega)

/-- A concrete case that meets the hypotheses. -/
example (cfg : Cfg) := C08_v4_update_checksum cfg Sample.udpPacket (by decide) (by decide)

theorem zeroed_put16_sum {ip b : Bytes} {proto : U8} {k : Nat} (hip : 20 ≤ ip.length)
    (hk : 2 * k + 2 ≤ b.length) (v : U16) :
    (words (pseudoHeader ((ip.drop 12).take 4) ((ip.drop 16).take 4) proto b.length
      ++ put b (2 * k) (be16 v))).sum
    = (words (pseudoHeader ((ip.drop 12).take 4) ((ip.drop 16).take 4) proto b.length
      ++ zeroed b (2 * k))).sum + v.toNat := by
  rw [words_append (by rw [pseudoHeader_length hip]), List.sum_append,
    words_append (by rw [pseudoHeader_length hip]), List.sum_append, words_put16 k b v hk]
  omega

/-- C08 for UDP, any enclosing IPv4 header. The receiver-side statement needs an even length or a `std`
whose failed `read_exact` does not move the cursor; the rest holds always. -/
theorem C08_udp_update_checksum (cfg : Cfg) (ip b : Bytes) (hip : 20 ≤ ip.length)
    (h : Udp.noPayload b = .ok b) :
    ∃ b', Udp.updateChecksum cfg (.v4 ip) b = (.ok (), b') ∧ Udp.isValid cfg (.v4 ip) b' = .ok true ∧
      Udp.updateChecksum cfg (.v4 ip) b' = (.ok (), b') ∧ SameOutside b b' 6 8 ∧
      (b.length % 2 = 0 ∨ cfg.eofAdvances = false →
        verifies (pseudoHeader ((ip.drop 12).take 4) ((ip.drop 16).take 4) 17#8 b'.length ++ b')) := by
  have hb : 8 ≤ b.length := by
    rw [Udp.noPayload_eq] at h; split at h
    · cases h
    · omega
  obtain ⟨c, hc⟩ : ∃ c, Udp.checksumOf cfg (.v4 ip) b = .ok c := ⟨_, Udp.checksumOf_eq _ _ _ hip⟩
  have hput : 6 + (be16 c).length ≤ b.length := by rw [be16_length]; omega
  have hlen' : (put b 6 (be16 c)).length = b.length := length_put hput
  have hupd : Udp.updateChecksum cfg (.v4 ip) b = (.ok (), put b 6 (be16 c)) := by
    unfold Udp.updateChecksum
    refine (Mut.bind_ok (a := c) (s' := b) ?_).trans (Udp.setChecksum_eq hb)
    simp [Mut.read, hc]
  have hck : Udp.checksumOf cfg (.v4 ip) (put b 6 (be16 c)) = .ok c := by
    rw [Udp.checksumOf_eq _ _ _ hip] at hc ⊢
    rw [hlen', loopWords_put16 3 _ _ (by omega),
      oddWord_put (by rw [be16_length]; omega)]
    exact hc
  have hidem : put (put b 6 (be16 c)) 6 (be16 c) = put b 6 (be16 c) := put_put_same hput rfl
  refine ⟨_, hupd, ?_, ?_, sameOutside_put hput, ?_⟩
  · unfold Udp.isValid Udp.checksum
    rw [hck, Outcome.ok_bind, readU16At_put16 (by omega)]
    simp
  · unfold Udp.updateChecksum
    refine (Mut.bind_ok (a := c) (s' := put b 6 (be16 c)) ?_).trans ?_
    · simp only [Mut.read, hck]
    · rw [Udp.setChecksum_eq (by omega), hidem]
  · intro hodd
    have hrfc := C06_udp_checksum_rfc cfg ip b hip hb hodd
    rw [hc, inetChecksum_eq] at hrfc
    injection hrfc with hrfc
    unfold verifies
    rw [ocSum_words, hlen', zeroed_put16_sum (k := 3) hip (by omega), hrfc]
    exact norm_complement _

/-- A concrete case that meets the hypotheses. -/
example (cfg : Cfg) := C08_udp_update_checksum cfg Sample.udpPacket Sample.udp (by decide) (by decide)

/-- C08 for TCP, any enclosing IPv4 header, every accepted segment with data offset at least 5 for which
the checksum can be computed at all (even length, or a `std` whose failed `read_exact` does not move the
cursor; up to 65535 bytes). -/
theorem C08_tcp_update_checksum (cfg : Cfg) (ip b : Bytes) (hip : 20 ≤ ip.length)
    (h : Tcp.new b = .ok b) (h5 : 5 ≤ field b 96 4) (hb' : b.length ≤ 65535)
    (hodd : b.length % 2 = 0 ∨ cfg.eofAdvances = false) :
    ∃ b', Tcp.updateChecksum cfg (.v4 ip) b = (.ok (), b') ∧ Tcp.isValid cfg (.v4 ip) b' = .ok true ∧
      Tcp.updateChecksum cfg (.v4 ip) b' = (.ok (), b') ∧ SameOutside b b' 16 18 ∧
      verifies (pseudoHeader ((ip.drop 12).take 4) ((ip.drop 16).take 4) 6#8 b'.length ++ b') := by
  obtain ⟨-, hb, hh⟩ := Tcp.new_ok_iff.1 h
  have hseg : Tcp.SegOk b := ⟨hb, hh, h5⟩
  have hrfc := C07_tcp_checksum_rfc cfg ip b hip hb hb' hodd
  obtain ⟨c, hc⟩ : ∃ c, Tcp.checksumOf cfg (.v4 ip) b = .ok c := ⟨_, hrfc⟩
  have hput : 16 + (be16 c).length ≤ b.length := by rw [be16_length]; omega
  have hlen' : (put b 16 (be16 c)).length = b.length := length_put hput
  have hseg' : Tcp.SegOk (put b 16 (be16 c)) := hseg.put hput (Or.inr (by omega))
  have hupd : Tcp.updateChecksum cfg (.v4 ip) b = (.ok (), put b 16 (be16 c)) := by
    unfold Tcp.updateChecksum
    refine (Mut.bind_ok (a := c) (s' := b) ?_).trans (Tcp.set16_eq hseg (by omega))
    simp [Mut.read, hc]
  have hck : Tcp.checksumOf cfg (.v4 ip) (put b 16 (be16 c)) = .ok c := by
    rw [Tcp.checksumOf_eq _ _ _ hip (by omega)] at hc ⊢
    rw [hlen', loopWords_put16 8 _ _ (by omega),
      oddWord_put (by rw [be16_length]; omega)]
    exact hc
  have hidem : put (put b 16 (be16 c)) 16 (be16 c) = put b 16 (be16 c) := put_put_same hput rfl
  refine ⟨_, hupd, ?_, ?_, sameOutside_put hput, ?_⟩
  · unfold Tcp.isValid Tcp.checksum
    rw [hck, Outcome.ok_bind, readU16At_put16 (by omega)]
    simp
  · unfold Tcp.updateChecksum
    refine (Mut.bind_ok (a := c) (s' := put b 16 (be16 c)) ?_).trans ?_
    · simp only [Mut.read, hck]
    · exact (Tcp.set16_eq hseg' (by omega)).trans (by rw [hidem])
  · rw [hc, inetChecksum_eq] at hrfc
    injection hrfc with hrfc
    unfold verifies
    rw [ocSum_words, hlen', zeroed_put16_sum (k := 8) hip (by omega), hrfc]
    exact norm_complement _

example : Tcp.new (put (zeros 20) 12 [0x50#8]) = .ok (put (zeros 20) 12 [0x50#8]) ∧
    5 ≤ field (put (zeros 20) 12 [0x50#8]) 96 4 := by decide

/-! ## C09: single-byte corruption -/

theorem zeroed_put8 {m : Bytes} {off i : Nat} {x : U8} (ho : off + 2 ≤ m.length) (hi : i < m.length)
    (hd : i < off ∨ off + 2 ≤ i) : zeroed (put m i [x]) off = put (zeroed m off) i [x] := by
  rw [zeroed_eq_put, zeroed_eq_put]
  have h1 : i + [x].length ≤ m.length := hi
  have h2 : off + [0#8, 0#8].length ≤ m.length := ho
  have l1 := length_put h1
  have l2 := length_put h2
  apply List.ext_getElem?
  intro j
  rw [getElem?_put (b := put m i [x]) (by omega), getElem?_put (b := m) (bs := [x]) h1,
    getElem?_put (b := put m off _) (bs := [x]) (by omega), getElem?_put (b := m) h2]
  simp only [List.length_cons, List.length_nil, Nat.zero_add, Nat.reduceAdd]
  repeat' split
  all_goals first | rfl | omega

/-- The heart of C09: one changed byte outside the checksum field changes the checksum. -/
theorem ck_changes {m : Bytes} {k i : Nat} {x : U8} (d e : Nat) (ho : 2 * k + 2 ≤ m.length)
    (hi : i < m.length) (hx : x ≠ m.getD i 0#8) (hd : i < 2 * k ∨ 2 * k + 2 ≤ i) {c c' : Nat}
    (hc : c + e = d + (words (zeroed (put m i [x]) (2 * k))).sum)
    (hc' : c' + e = d + (words (zeroed m (2 * k))).sum) : ckOf c ≠ ckOf c' := by
  have hz : (zeroed m (2 * k)).length = m.length := by
    rw [zeroed_eq_put]; exact length_put ho
  have hg : (zeroed m (2 * k)).getD i 0#8 = m.getD i 0#8 := by
    rw [zeroed_eq_put, getD_put ho]
    split
    · rfl
    · rw [if_neg (by simp; omega)]
  rw [zeroed_put8 ho hi hd] at hc
  intro heq
  have h1 := (norm_eq_iff.1 (ckOf_inj.1 heq)).1
  have h2 := words_put8 (zeroed m (2 * k)) i x (by omega)
  rw [hg] at h2
  have h3 : x.toNat ≠ (m.getD i 0#8).toNat := fun h => hx (BitVec.eq_of_toNat_eq h)
  have := x.isLt; have := (m.getD i 0#8).isLt
  split at h2 <;> omega

/-- A changed byte inside a big-endian word changes the word. -/
theorem readU16At_put8_ne {b : Bytes} {off i : Nat} {x : U8} (h : off + 2 ≤ b.length)
    (hx : x ≠ b.getD i 0#8) (hi : off ≤ i) (hi' : i < off + 2) {v v' : U16}
    (hv : readU16At b off = .ok v) (hv' : readU16At (put b i [x]) off = .ok v') : v' ≠ v := by
  have h1 : i + [x].length ≤ b.length := by simp; omega
  rw [readU16At_ok h] at hv
  rw [readU16At_ok (by rw [length_put h1]; omega), getD_put h1, getD_put h1] at hv'
  injection hv with hv
  injection hv' with hv'
  intro heq
  have h3 : x.toNat ≠ (b.getD i 0#8).toNat := fun h => hx (BitVec.eq_of_toNat_eq h)
  have h4 := congrArg BitVec.toNat (hv'.trans (heq.trans hv.symm))
  rw [fromBe16_toNat, fromBe16_toNat] at h4
  have := x.isLt
  have := (b.getD off 0#8).isLt; have := (b.getD (off + 1) 0#8).isLt
  rcases (by omega : i = off ∨ i = off + 1) with rfl | rfl
  · simp only [Nat.lt_irrefl, if_false, List.length_singleton, Nat.sub_self, List.getD_cons_zero,
      Nat.lt_add_one, if_true, show ¬ i + 1 < i by omega] at h4
    omega
  · simp only [show off < off + 1 by omega, if_true, Nat.lt_irrefl, if_false, List.length_singleton,
      Nat.sub_self, List.getD_cons_zero, Nat.lt_add_one] at h4
    omega

theorem readU16At_put8_same {b : Bytes} {off i : Nat} {x : U8} (h : off + 2 ≤ b.length)
    (hi : i < b.length) (hd : i < off ∨ off + 2 ≤ i) :
    readU16At (put b i [x]) off = readU16At b off := by
  have h1 : i + [x].length ≤ b.length := hi
  rw [readU16At_ok (by rw [length_put h1]; omega), readU16At_ok h, getD_put h1, getD_put h1]
  simp only [List.length_singleton]
  congr 2
  · split
    · rfl
    · rw [if_neg (by omega)]
  · split
    · rfl
    · rw [if_neg (by omega)]

theorem beq_false_of_ne {a b : U16} (h : a ≠ b) : (a == b) = false := by simpa using h

theorem corruption_core {m : Bytes} {k i : Nat} {x : U8} (d e : Nat) (ho : 2 * k + 2 ≤ m.length)
    (hi : i < m.length) (hx : x ≠ m.getD i 0#8) {c c' : Nat} {s s' : U16}
    (hs : readU16At m (2 * k) = .ok s) (hs' : readU16At (put m i [x]) (2 * k) = .ok s')
    (hc : c + e = d + (words (zeroed (put m i [x]) (2 * k))).sum)
    (hc' : c' + e = d + (words (zeroed m (2 * k))).sum)
    (hvalid : ckOf c' = s) : ckOf c ≠ s' := by
  by_cases hd : i < 2 * k ∨ 2 * k + 2 ≤ i
  · have h1 := ck_changes d e ho hi hx hd hc hc'
    rw [readU16At_put8_same ho hi hd, hs] at hs'
    injection hs' with hs'
    subst hs'
    rw [← hvalid]
    exact h1
  · have h1 := readU16At_put8_ne ho hx (by omega) (by omega) hs hs'
    have hz : zeroed (put m i [x]) (2 * k) = zeroed m (2 * k) := by
      have l1 : i + [x].length ≤ m.length := hi
      rw [zeroed_eq_put, zeroed_eq_put]
      apply List.ext_getElem?
      intro j
      rw [getElem?_put (by rw [length_put l1]; exact ho), getElem?_put (b := m) (bs := [x]) l1,
        getElem?_put (b := m) ho]
      simp only [List.length_cons, List.length_nil]
      repeat' split
      all_goals first | rfl | omega
    rw [hz] at hc
    have : c = c' := by omega
    rw [this, hvalid]
    exact fun h => h1 h.symm

/-- C09 for IPv4: in an accepted packet whose checksum verifies, changing one byte of the header to
another value makes `is_valid()` false, unless the change is to the IHL nibble (which changes what the
checksum covers; see `C09_v4_ihl_undetected`). -/
theorem C09_v4_corruption_detected (cfg : Cfg) (b : Bytes) (h : V4.noPayload b = .ok b)
    (h5 : 3 ≤ field b 4 4) (hvalid : V4.isValid cfg b = .ok true) (i : Nat) (hi : i < 4 * field b 4 4)
    (x : U8) (hx : x ≠ b.getD i 0#8) (hihl : field (put b i [x]) 4 4 = field b 4 4) :
    V4.isValid cfg (put b i [x]) = .ok false := by
  have hok := (V4.noPayload_ok_iff.1 h).2
  have hlong := hok.long; have hh := hok.header
  have hib : i + [x].length ≤ b.length := by simp; omega
  have hl : (b.take (field b 4 4 * 4)).length = field b 4 4 * 4 := by rw [List.length_take]; omega
  have hlen' : (put b i [x]).length = b.length := length_put hib
  have htake : (put b i [x]).take (field b 4 4 * 4) = put (b.take (field b 4 4 * 4)) i [x] :=
    take_put (by simp; omega) hh
  have hl' : (put (b.take (field b 4 4 * 4)) i [x]).length = field b 4 4 * 4 := by
    rw [length_put (by rw [hl]; simp; omega), hl]
  have hrd : ∀ c : Bytes, c.length = b.length → readU16At c 10 = readU16At (c.take (field b 4 4 * 4)) 10 := by
    intro c hc
    rw [readU16At_ok (by omega), readU16At_ok (by rw [List.length_take]; omega)]
    have : ∀ j, j < 12 → (c.take (field b 4 4 * 4)).getD j 0#8 = c.getD j 0#8 := by
      intro j hj; simp only [List.getD, List.getElem?_take_of_lt (show j < field b 4 4 * 4 by omega)]
    rw [this 10 (by omega), this 11 (by omega)]
  unfold V4.isValid V4.checksum at hvalid ⊢
  rw [V4.header_eq (by omega) hh, Outcome.ok_bind, V4.checksumOf_eq, Outcome.ok_bind, hrd b rfl] at hvalid
  rw [V4.header_eq (by omega) (by omega), Outcome.ok_bind, V4.checksumOf_eq, Outcome.ok_bind, hihl,
    hrd _ hlen', htake]
  obtain ⟨s, hs⟩ : ∃ s, readU16At (b.take (field b 4 4 * 4)) 10 = .ok s := ⟨_, readU16At_ok (by omega)⟩
  obtain ⟨s', hs'⟩ : ∃ s, readU16At (put (b.take (field b 4 4 * 4)) i [x]) 10 = .ok s :=
    ⟨_, readU16At_ok (by omega)⟩
  rw [hs] at hvalid
  rw [hs']
  simp only [Outcome.ok_bind, Outcome.ok.injEq, beq_iff_eq] at hvalid ⊢
  apply beq_false_of_ne
  have hg : (b.take (field b 4 4 * 4)).getD i 0#8 = b.getD i 0#8 := by
    simp only [List.getD, List.getElem?_take_of_lt (show i < field b 4 4 * 4 by omega)]
  have e1 := loopWords_zeroed 5 (b.take (field b 4 4 * 4)) 0 (by omega)
  have e2 := loopWords_zeroed 5 (put (b.take (field b 4 4 * 4)) i [x]) 0 (by omega)
  rw [oddWord_even (by omega)] at e1 e2
  simp only [Nat.zero_add, Nat.reduceMul, Nat.reduceAdd, Nat.add_zero] at e1 e2
  exact corruption_core (k := 5) 65535 0 (by omega) (by omega) (by rw [hg]; exact hx) hs hs' (by simp only [Nat.reduceMul]; omega)
    (by simp only [Nat.reduceMul]; omega) hvalid

/-- A concrete case that meets the hypotheses. -/
example (cfg : Cfg) := C09_v4_corruption_detected cfg Sample.udpPacket (by decide) (by decide) (by in_every_build) 8
    (by decide) 63 (by decide) (by decide)

/-- Why C09 excludes the IHL nibble: the change moves the end of the covered range, and there are valid
packets for which that is not noticed. -/
theorem C09_v4_ihl_undetected (cfg : Cfg) : ∃ (b : Bytes) (x : U8), V4.new b = .ok b ∧
    V4.isValid cfg b = .ok true ∧ x ≠ b.getD 0 0#8 ∧ V4.new (put b 0 [x]) = .ok (put b 0 [x]) ∧
    V4.isValid cfg (put b 0 [x]) = .ok true := by
  refine ⟨[0x45, 0, 0, 24, 0, 0, 0, 0, 64, 17, 102, 211, 10, 0, 0, 1, 10, 0, 0, 2, 0xfe, 0xff, 0, 0],
    0x46, by decide, ?_, by decide, by decide, ?_⟩
  · unfold V4.isValid
    rw [V4.header_eq (by decide) (by decide), Outcome.ok_bind, V4.checksumOf_eq]; decide
  · unfold V4.isValid
    rw [V4.header_eq (by decide) (by decide), Outcome.ok_bind, V4.checksumOf_eq]; decide

/-- C09 for ICMP: any byte of the 16-bit words the checksum reads. Not part of this claim: the last
byte of a message of odd length, which the code does not read. -/
theorem C09_icmp_corruption_detected (cfg : Cfg) (b : Bytes) (h : Icmp.new b = .ok b)
    (hvalid : Icmp.isValid cfg b = .ok true) (i : Nat) (hi : i < b.length - b.length % 2)
    (x : U8) (hx : x ≠ b.getD i 0#8) : Icmp.isValid cfg (put b i [x]) = .ok false := by
  have hb : 4 ≤ b.length := by
    unfold Icmp.new Icmp.headerMin at h; split at h
    · cases h
    · omega
  have hib : i + [x].length ≤ b.length := by simp; omega
  have hlen' : (put b i [x]).length = b.length := length_put hib
  unfold Icmp.isValid Icmp.checksum at hvalid ⊢
  rw [Icmp.checksumOf_eq, Outcome.ok_bind] at hvalid ⊢
  obtain ⟨s, hs⟩ : ∃ s, readU16At b 2 = .ok s := ⟨_, readU16At_ok (by omega)⟩
  obtain ⟨s', hs'⟩ : ∃ s, readU16At (put b i [x]) 2 = .ok s := ⟨_, readU16At_ok (by omega)⟩
  rw [hs] at hvalid
  rw [hs']
  simp only [Outcome.ok_bind, Outcome.ok.injEq, beq_iff_eq] at hvalid ⊢
  apply beq_false_of_ne
  have e1 := loopWords_zeroed 1 b 0 (by omega)
  have e2 := loopWords_zeroed 1 (put b i [x]) 0 (by omega)
  rw [oddWord_put (by simp; omega)] at e2
  simp only [Nat.zero_add, Nat.reduceMul, Nat.reduceAdd] at e1 e2
  exact corruption_core (k := 1) 65535 (oddWord b) (by omega) (by omega) hx hs hs' (by simp only [Nat.reduceMul]; omega)
    (by simp only [Nat.reduceMul]; omega) hvalid

/-- A concrete case that meets the hypotheses. -/
example (cfg : Cfg) := C09_icmp_corruption_detected cfg Sample.echo (by decide) (by in_every_build) 8 (by decide) 63
    (by decide)

/-- C65 is false of the code for the last byte of an odd-length ICMP message. -/
theorem C65_icmp_odd_corruption_refuted (cfg : Cfg) : ∃ (b : Bytes) (i : Nat) (x : U8), Icmp.new b = .ok b ∧
    Icmp.isValid cfg b = .ok true ∧ i < b.length ∧ x ≠ b.getD i 0#8 ∧
    Icmp.isValid cfg (put b i [x]) = .ok true := by
  refine ⟨[8, 0, 0xf7, 0xff, 0x61], 4, 0x62, by decide, ?_, by decide, by decide, ?_⟩
  · unfold Icmp.isValid
    rw [Icmp.checksumOf_eq]; decide
  · unfold Icmp.isValid
    rw [Icmp.checksumOf_eq]; decide

/-- C09 for UDP: any byte of the datagram, except, on a `std` whose failed `read_exact` moves the cursor, the
last byte of a datagram of odd length (which is not read then, see C60). -/
theorem C09_udp_corruption_detected (cfg : Cfg) (ip b : Bytes) (hip : 20 ≤ ip.length)
    (h : Udp.noPayload b = .ok b)
    (hvalid : Udp.isValid cfg (.v4 ip) b = .ok true) (i : Nat) (hi : i < b.length)
    (hlast : b.length % 2 = 0 ∨ cfg.eofAdvances = false ∨ i + 1 < b.length)
    (x : U8) (hx : x ≠ b.getD i 0#8) : Udp.isValid cfg (.v4 ip) (put b i [x]) = .ok false := by
  have hb : 8 ≤ b.length := by
    rw [Udp.noPayload_eq] at h; split at h
    · cases h
    · omega
  have hib : i + [x].length ≤ b.length := hi
  have hlen' : (put b i [x]).length = b.length := length_put hib
  unfold Udp.isValid Udp.checksum at hvalid ⊢
  rw [Udp.checksumOf_eq cfg ip _ hip, Outcome.ok_bind] at hvalid ⊢
  rw [hlen']
  obtain ⟨s, hs⟩ : ∃ s, readU16At b 6 = .ok s := ⟨_, readU16At_ok (by omega)⟩
  obtain ⟨s', hs'⟩ : ∃ s, readU16At (put b i [x]) 6 = .ok s := ⟨_, readU16At_ok (by omega)⟩
  rw [hs] at hvalid
  rw [hs']
  simp only [Outcome.ok_bind, Outcome.ok.injEq, beq_iff_eq] at hvalid ⊢
  apply beq_false_of_ne
  have e1 := loopWords_zeroed 3 b 0 (by omega)
  have e2 := loopWords_zeroed 3 (put b i [x]) 0 (by omega)
  simp only [Nat.zero_add, Nat.reduceMul, Nat.reduceAdd] at e1 e2
  cases hc : cfg.eofAdvances with
  | false =>
    simp only [hc, Bool.false_eq_true, if_false] at hvalid ⊢
    exact corruption_core (k := 3) (pseudoSum ip 17#8 b.length) 0 (by omega) hi hx hs hs'
      (by simp only [Nat.reduceMul]; omega) (by simp only [Nat.reduceMul]; omega) hvalid
  | true =>
    simp only [hc, if_true, Nat.add_zero] at hvalid ⊢
    have hlt : i + [x].length ≤ b.length - b.length % 2 := by
      have : [x].length = 1 := rfl
      rw [hc] at hlast
      rcases hlast with h | h | h
      · omega
      · cases h
      · omega
    rw [oddWord_put hlt] at e2
    exact corruption_core (k := 3) (pseudoSum ip 17#8 b.length) (oddWord b) (by omega) hi hx hs hs'
      (by simp only [Nat.reduceMul]; omega) (by simp only [Nat.reduceMul]; omega) hvalid

/-- A concrete case that meets the hypotheses. -/
example (cfg : Cfg) := C09_udp_corruption_detected cfg Sample.udpPacket Sample.udp (by decide) (by decide)
    (by in_every_build) 8 (by decide) (.inl (by decide)) 63 (by decide)

/-- C09 for TCP (even length, or a `std` whose failed `read_exact` does not move the cursor). -/
theorem C09_tcp_corruption_detected (cfg : Cfg) (ip b : Bytes) (hip : 20 ≤ ip.length)
    (h : Tcp.new b = .ok b) (hb' : b.length ≤ 65535)
    (hodd : b.length % 2 = 0 ∨ cfg.eofAdvances = false)
    (hvalid : Tcp.isValid cfg (.v4 ip) b = .ok true) (i : Nat) (hi : i < b.length)
    (x : U8) (hx : x ≠ b.getD i 0#8) : Tcp.isValid cfg (.v4 ip) (put b i [x]) = .ok false := by
  obtain ⟨-, hb, -⟩ := Tcp.new_ok_iff.1 h
  have hib : i + [x].length ≤ b.length := hi
  have hlen' : (put b i [x]).length = b.length := length_put hib
  unfold Tcp.isValid Tcp.checksum at hvalid ⊢
  rw [C07_tcp_checksum_rfc cfg ip b hip hb hb' hodd, Outcome.ok_bind, inetChecksum_eq,
    tcpMessage_sum hip (by omega)] at hvalid
  rw [C07_tcp_checksum_rfc cfg ip _ hip (by omega) (by omega) (by rw [hlen']; exact hodd),
    Outcome.ok_bind, inetChecksum_eq, tcpMessage_sum hip (by omega), hlen']
  obtain ⟨s, hs⟩ : ∃ s, readU16At b 16 = .ok s := ⟨_, readU16At_ok (by omega)⟩
  obtain ⟨s', hs'⟩ : ∃ s, readU16At (put b i [x]) 16 = .ok s := ⟨_, readU16At_ok (by omega)⟩
  rw [hs] at hvalid
  rw [hs']
  simp only [Outcome.ok_bind, Outcome.ok.injEq, beq_iff_eq] at hvalid ⊢
  apply beq_false_of_ne
  have e1 := loopWords_zeroed 8 b 0 (by omega)
  have e2 := loopWords_zeroed 8 (put b i [x]) 0 (by omega)
  simp only [Nat.zero_add, Nat.reduceMul, Nat.reduceAdd] at e1 e2
  exact corruption_core (k := 8) (pseudoSum ip 6#8 b.length) 0 (by omega) hi hx hs hs' (by simp only [Nat.reduceMul]; omega)
    (by simp only [Nat.reduceMul]; omega) hvalid

/-- The hypotheses of C09 are met: a valid IPv4 packet, a valid ICMP message, a valid UDP datagram and a
valid TCP segment exist. -/
example (cfg : Cfg) :
    V4.isValid cfg [0x45, 0, 0, 24, 0, 0, 0, 0, 64, 17, 102, 211, 10, 0, 0, 1, 10, 0, 0, 2] = .ok true := by
  unfold V4.isValid
  rw [V4.header_eq (by decide) (by decide), Outcome.ok_bind, V4.checksumOf_eq]; decide
example (cfg : Cfg) : Udp.isValid cfg (.v4 (zeros 20)) [0, 1, 0, 2, 0, 8, 0xff, 0xdb] = .ok true := by
  unfold Udp.isValid
  rw [C06_udp_checksum_rfc cfg _ _ (by decide) (by decide) (Or.inl (by decide))]; decide
example (cfg : Cfg) :
    Tcp.new ([0, 0, 0, 0, 0, 0, 0, 0, 0, 0, 0, 0, 0x50, 0, 0, 0, 0xaf, 0xe5, 0, 0] : Bytes)
      = .ok [0, 0, 0, 0, 0, 0, 0, 0, 0, 0, 0, 0, 0x50, 0, 0, 0, 0xaf, 0xe5, 0, 0] ∧
    Tcp.isValid cfg (.v4 (zeros 20)) [0, 0, 0, 0, 0, 0, 0, 0, 0, 0, 0, 0, 0x50, 0, 0, 0, 0xaf, 0xe5, 0, 0]
      = .ok true := by
  refine ⟨by decide, ?_⟩
  unfold Tcp.isValid
  rw [C07_tcp_checksum_rfc cfg _ _ (by decide) (by decide) (by decide) (Or.inl (by decide))]; decide

/-! ## C59: verification is total -/

/-- C59 for IPv4 enclosing packets, UDP: `is_valid` returns for every accepted datagram. -/
theorem C59_udp_is_valid_total (cfg : Cfg) (ip b : Bytes) (hip : 20 ≤ ip.length)
    (hb : 8 ≤ b.length) : ∃ v, Udp.isValid cfg (.v4 ip) b = .ok v := by
  unfold Udp.isValid Udp.checksum
  rw [Udp.checksumOf_eq _ _ _ hip, Outcome.ok_bind, readU16At_ok (by omega)]
  exact ⟨_, rfl⟩

/-- A concrete case that meets the hypotheses. -/
example (cfg : Cfg) := C59_udp_is_valid_total cfg Sample.udpPacket Sample.udp (by decide) (by decide)

/-- C59 for IPv4 enclosing packets, TCP. -/
theorem C59_tcp_is_valid_total (cfg : Cfg) (ip b : Bytes) (hip : 20 ≤ ip.length)
    (hb : 20 ≤ b.length) (hb' : b.length ≤ 65535)
    (hodd : b.length % 2 = 0 ∨ cfg.eofAdvances = false) : ∃ v, Tcp.isValid cfg (.v4 ip) b = .ok v := by
  unfold Tcp.isValid Tcp.checksum
  rw [C07_tcp_checksum_rfc _ _ _ hip hb hb' hodd, Outcome.ok_bind, readU16At_ok (by omega)]
  exact ⟨_, rfl⟩

/-- A concrete case that meets the hypotheses. -/
example (cfg : Cfg) := C59_tcp_is_valid_total cfg Sample.tcpPacket Sample.tcp (by decide) (by decide) (by decide)
    (.inl (by decide))

/-- C83 is false of the code: verification against any IPv6 packet panics. -/
theorem C83_v6_refuted (cfg : Cfg) (ip b : Bytes) :
    Udp.isValid cfg (.v6 ip) b = .panic ∧ Tcp.isValid cfg (.v6 ip) b = .panic := ⟨rfl, rfl⟩

end Verif.Props
