import Verif.Props.Burst
import Verif.Props.Exact
import Verif.Props.V4
import Verif.Samples

/-!
# C110: exactly which changes a checksum misses

C09 and C84 name changes that are always detected.  Here is the whole truth: a packet that verifies goes on doing so
exactly if the sum of its 16-bit words is the same modulo 65535 afterwards.
-/

namespace Verif.Spec

/-- The bytes of a message that make whole 16-bit words. -/
def evenPart (b : Bytes) : Bytes := b.take (b.length - b.length % 2)

/-- What the UDP checksum reads of a datagram: everything, or, on a `std` whose failed `read_exact` moves the cursor
(C60), not an odd last byte. -/
def udpCovered (cfg : Cfg) (b : Bytes) : Bytes := if cfg.eofAdvances then evenPart b else b

/-- The sum of the 16-bit words of a message modulo 65535. -/
def wordSum (m : Bytes) : Nat := (words m).sum % 65535

end Verif.Spec

namespace Verif.Props
open Verif Verif.Spec

theorem evenPart_length (b : Bytes) : (evenPart b).length = b.length - b.length % 2 := by
  unfold evenPart; rw [List.length_take]; omega

theorem words_evenPart (b : Bytes) : (words (evenPart b)).sum + oddWord b = (words b).sum := by
  have h : words b = words (evenPart b) ++ words (b.drop (b.length - b.length % 2)) := by
    rw [← words_append (by rw [evenPart_length]; omega), evenPart, List.take_append_drop]
  rw [h, List.sum_append]
  congr 1
  unfold oddWord
  rw [oddTail_eq]
  have hl : (b.drop (b.length - b.length % 2)).length ≤ 1 := by rw [List.length_drop]; omega
  match b.drop (b.length - b.length % 2), hl with
  | [], _ => rfl
  | [a], _ => simp [words]
  | _ :: _ :: _, hl => simp at hl

theorem ck_iff {c : Nat} {v : U16} (hc : c ≠ 0) :
    (ckOf c == v) = decide ((c + v.toNat) % 65535 = 0 ∧ v.toNat ≠ 65535) := by
  have hs : v.toNat ≤ 65535 := by have := v.isLt; omega
  have key := complement_iff hc hs
  have hn : norm (c + v.toNat) = 65535 ↔ (c + v.toNat) % 65535 = 0 := by unfold norm; split <;> omega
  rw [hn] at key
  by_cases h : (c + v.toNat) % 65535 = 0 ∧ v.toNat ≠ 65535
  · rw [decide_eq_true h, beq_iff_eq]
    apply BitVec.eq_of_toNat_eq
    rw [ckOf_toNat]
    exact key.2 h
  · rw [decide_eq_false h, beq_eq_false_iff_ne]
    intro e
    apply h
    apply key.1
    rw [← ckOf_toNat, e]

theorem stored_field {m : Bytes} {k : Nat} (h : k + 2 ≤ m.length) :
    readU16At m k = .ok (BitVec.ofNat 16 (field m (8 * k) 16)) := readU16At_field h

theorem field16_toNat (m : Bytes) (s : Nat) : (BitVec.ofNat 16 (field m s 16)).toNat = field m s 16 := by
  rw [BitVec.toNat_ofNat, Nat.mod_eq_of_lt (field_lt m s 16)]

/-- The words of a message are those with one of them zeroed, and that one. -/
theorem words_zeroed {m : Bytes} {k : Nat} (h : 2 * k + 2 ≤ m.length) :
    (words m).sum = (words (zeroed m (2 * k))).sum + field m (8 * (2 * k)) 16 := by
  rw [words_stored (stored_field h) h, field16_toNat]

/-- C110, exactly when an IPv4 header verifies. -/
theorem C110_v4_exact (cfg : Cfg) (b : Bytes) (h : V4.noPayload b = .ok b) (h5 : 3 ≤ field b 4 4) :
    V4.isValid cfg b = .ok (decide (wordSum (b.take (4 * field b 4 4)) = 0 ∧ field b 80 16 ≠ 65535)) := by
  have hok := (V4.noPayload_ok_iff.1 h).2
  have hlong := hok.long; have hh := hok.header
  have hl : (b.take (field b 4 4 * 4)).length = field b 4 4 * 4 := by rw [List.length_take]; omega
  unfold V4.isValid V4.checksum
  rw [V4.header_eq (by omega) hh, Outcome.ok_bind, V4.checksumOf_eq, Outcome.ok_bind, stored_field (by omega),
    Outcome.ok_bind, ck_iff (by omega), field16_toNat, Nat.mul_comm 4]
  have e1 := loopWords_zeroed 5 (b.take (field b 4 4 * 4)) 0 (by omega)
  have e2 := words_zeroed (m := b.take (field b 4 4 * 4)) (k := 5) (by omega)
  have e3 : field (b.take (field b 4 4 * 4)) 80 16 = field b 80 16 := by
    apply field_congr
    intro i _ hi
    unfold bitAt
    rw [List.getD_eq_getElem?_getD, List.getD_eq_getElem?_getD, List.getElem?_take_of_lt (by omega)]
  rw [oddWord_even (by omega)] at e1
  simp only [Nat.reduceMul, Nat.zero_add, Nat.reduceAdd] at e1 e2 ⊢
  rw [e3] at e2
  unfold wordSum
  congr 2
  apply propext
  constructor <;> rintro ⟨a, b⟩ <;> exact ⟨by omega, b⟩

/-- C110, exactly when an ICMP message verifies (an odd last byte is not read, C65). -/
theorem C110_icmp_exact (cfg : Cfg) (b : Bytes) (hb : 4 ≤ b.length) :
    Icmp.isValid cfg b = .ok (decide (wordSum (evenPart b) = 0 ∧ field b 16 16 ≠ 65535)) := by
  unfold Icmp.isValid Icmp.checksum
  rw [Icmp.checksumOf_eq, Outcome.ok_bind, stored_field (by omega), Outcome.ok_bind, ck_iff (by omega), field16_toNat]
  have e1 := loopWords_zeroed 1 b 0 (by omega)
  have e2 := words_zeroed (m := b) (k := 1) (by omega)
  have e3 := words_evenPart b
  simp only [Nat.reduceMul, Nat.zero_add, Nat.reduceAdd] at e1 e2 ⊢
  unfold wordSum
  congr 2
  apply propext
  constructor <;> rintro ⟨a, b⟩ <;> exact ⟨by omega, b⟩

theorem pseudoSum_pos {ip : Bytes} (hip : 20 ≤ ip.length) (p : U8) (hp : p ≠ 0#8) (n : Nat) : pseudoSum ip p n ≠ 0 := by
  unfold pseudoSum pseudoHeader
  rw [take4_drop (by omega), take4_drop (by omega)]
  simp only [List.cons_append, List.nil_append, words, List.sum_cons]
  have : p.toNat ≠ 0 := fun h => hp (BitVec.eq_of_toNat_eq h)
  omega

/-- C110, exactly when a UDP datagram verifies. -/
theorem C110_udp_exact (cfg : Cfg) (ip b : Bytes) (hip : 20 ≤ ip.length) (hb : 8 ≤ b.length) :
    Udp.isValid cfg (.v4 ip) b = .ok (decide (wordSum (pseudoHeader ((ip.drop 12).take 4) ((ip.drop 16).take 4) 17#8
      b.length ++ udpCovered cfg b) = 0 ∧ field b 48 16 ≠ 65535)) := by
  have hp := pseudoSum_pos hip 17#8 (by decide) b.length
  unfold Udp.isValid Udp.checksum
  rw [Udp.checksumOf_eq cfg ip b hip, Outcome.ok_bind, stored_field (by omega), Outcome.ok_bind, ck_iff (by omega),
    field16_toNat]
  have e1 := loopWords_zeroed 3 b 0 (by omega)
  have e2 := words_zeroed (m := b) (k := 3) (by omega)
  have e3 := words_evenPart b
  simp only [Nat.reduceMul, Nat.zero_add, Nat.reduceAdd] at e1 e2 ⊢
  unfold wordSum udpCovered
  rw [words_append (by rw [pseudoHeader_length hip]), List.sum_append]
  change _ = Outcome.ok (decide ((pseudoSum ip 17#8 b.length + _) % 65535 = 0 ∧ _))
  congr 2
  apply propext
  cases cfg.eofAdvances with
  | true =>
    simp only [if_true]
    constructor <;> rintro ⟨a, b⟩ <;> exact ⟨by omega, b⟩
  | false =>
    simp only [Bool.false_eq_true, if_false]
    constructor <;> rintro ⟨a, b⟩ <;> exact ⟨by omega, b⟩

/-- C110, exactly when a TCP segment verifies. -/
theorem C110_tcp_exact (cfg : Cfg) (ip b : Bytes) (hip : 20 ≤ ip.length) (hb : 20 ≤ b.length)
    (hb' : b.length ≤ 65535) (hodd : b.length % 2 = 0 ∨ cfg.eofAdvances = false) :
    Tcp.isValid cfg (.v4 ip) b = .ok (decide (wordSum (pseudoHeader ((ip.drop 12).take 4) ((ip.drop 16).take 4) 6#8
      b.length ++ b) = 0 ∧ field b 128 16 ≠ 65535)) := by
  have hp := pseudoSum_pos hip 6#8 (by decide) b.length
  unfold Tcp.isValid Tcp.checksum
  rw [Tcp.checksumOf_eq cfg ip b hip (by omega), if_neg (by rintro ⟨a, c⟩; rcases hodd with h | h; (· omega); (· rw [h] at c; cases c)),
    Outcome.ok_bind, stored_field (by omega), Outcome.ok_bind, ck_iff (by omega), field16_toNat]
  have e1 := loopWords_zeroed 8 b 0 (by omega)
  have e2 := words_zeroed (m := b) (k := 8) (by omega)
  simp only [Nat.reduceMul, Nat.zero_add, Nat.reduceAdd] at e1 e2 ⊢
  unfold wordSum
  rw [words_append (by rw [pseudoHeader_length hip]), List.sum_append]
  change _ = Outcome.ok (decide ((pseudoSum ip 6#8 b.length + _) % 65535 = 0 ∧ _))
  congr 2
  apply propext
  constructor <;> rintro ⟨a, b⟩ <;> exact ⟨by omega, b⟩

/-! ## Any change -/

/-- C110, IPv4: a packet that verifies, changed in any way that keeps the header length, still verifies exactly if the
word sum of the header is the same (and the checksum field is not all ones). -/
theorem C110_v4_missed (cfg : Cfg) (b b' : Bytes) (h : V4.noPayload b = .ok b) (h' : V4.noPayload b' = .ok b')
    (h5 : 3 ≤ field b 4 4) (hihl : field b' 4 4 = field b 4 4) (hv : V4.isValid cfg b = .ok true) :
    V4.isValid cfg b' = .ok (decide (wordSum (b'.take (4 * field b 4 4)) = wordSum (b.take (4 * field b 4 4)) ∧
      field b' 80 16 ≠ 65535)) := by
  rw [C110_v4_exact cfg b h h5] at hv
  have hz := of_decide_eq_true (Outcome.ok.inj hv)
  rw [C110_v4_exact cfg b' h' (by omega), hihl, hz.1]

/-- A concrete case that meets the hypotheses. -/
example (cfg : Cfg) := C110_v4_missed cfg Sample.udpPacket Sample.udpBack (by decide) (by decide) (by decide)
    (by decide) (by in_every_build)

/-- C110, ICMP. -/
theorem C110_icmp_missed (cfg : Cfg) (b b' : Bytes) (hb : 4 ≤ b.length) (hb' : 4 ≤ b'.length)
    (hv : Icmp.isValid cfg b = .ok true) :
    Icmp.isValid cfg b' = .ok (decide (wordSum (evenPart b') = wordSum (evenPart b) ∧ field b' 16 16 ≠ 65535)) := by
  rw [C110_icmp_exact cfg b hb] at hv
  have hz := of_decide_eq_true (Outcome.ok.inj hv)
  rw [C110_icmp_exact cfg b' hb', hz.1]

/-- A concrete case that meets the hypotheses. -/
example (cfg : Cfg) := C110_icmp_missed cfg Sample.echo Sample.echoSwapped (by decide) (by decide) (by in_every_build)

theorem wordSum_behind {pre m m' : Bytes} (hp : pre.length % 2 = 0) :
    wordSum (pre ++ m') = wordSum (pre ++ m) ↔ wordSum m' = wordSum m := by
  unfold wordSum
  rw [words_append hp, words_append hp, List.sum_append, List.sum_append]
  omega

/-- C110, UDP: against the same addresses, any change of the datagram that keeps its length. -/
theorem C110_udp_missed (cfg : Cfg) (ip b b' : Bytes) (hip : 20 ≤ ip.length) (hb : 8 ≤ b.length)
    (hl : b'.length = b.length) (hv : Udp.isValid cfg (.v4 ip) b = .ok true) :
    Udp.isValid cfg (.v4 ip) b' = .ok (decide (wordSum (udpCovered cfg b') = wordSum (udpCovered cfg b) ∧
      field b' 48 16 ≠ 65535)) := by
  rw [C110_udp_exact cfg ip b hip hb] at hv
  have hz := of_decide_eq_true (Outcome.ok.inj hv)
  rw [C110_udp_exact cfg ip b' hip (by omega), hl, ← hz.1]
  congr 2
  rw [wordSum_behind (by rw [pseudoHeader_length hip])]

/-- A concrete case that meets the hypotheses. -/
example (cfg : Cfg) := C110_udp_missed cfg Sample.udpPacket Sample.udp Sample.udpSwapped (by decide) (by decide)
    (by decide) (by in_every_build)

/-- C110, TCP. -/
theorem C110_tcp_missed (cfg : Cfg) (ip b b' : Bytes) (hip : 20 ≤ ip.length) (hb : 20 ≤ b.length)
    (hb' : b.length ≤ 65535) (hodd : b.length % 2 = 0 ∨ cfg.eofAdvances = false)
    (hl : b'.length = b.length) (hv : Tcp.isValid cfg (.v4 ip) b = .ok true) :
    Tcp.isValid cfg (.v4 ip) b' = .ok (decide (wordSum b' = wordSum b ∧ field b' 128 16 ≠ 65535)) := by
  rw [C110_tcp_exact cfg ip b hip hb hb' hodd] at hv
  have hz := of_decide_eq_true (Outcome.ok.inj hv)
  rw [C110_tcp_exact cfg ip b' hip (by omega) (by omega) (by rw [hl]; exact hodd), hl, ← hz.1]
  congr 2
  rw [wordSum_behind (by rw [pseudoHeader_length hip])]

/-- A concrete case that meets the hypotheses. -/
example (cfg : Cfg) := C110_tcp_missed cfg Sample.tcpPacket Sample.tcp Sample.tcpSwapped (by decide) (by decide)
    (by decide) (.inl (by decide)) (by decide) (by in_every_build)

/-- C110: putting the 16-bit words of a message into another order does not change their sum: a TCP segment whose words
are reordered in any way that leaves the checksum word where it is goes on verifying. -/
theorem C110_tcp_reordered (cfg : Cfg) (ip b b' : Bytes) (hip : 20 ≤ ip.length) (hb : 20 ≤ b.length)
    (hb' : b.length ≤ 65535) (hodd : b.length % 2 = 0 ∨ cfg.eofAdvances = false)
    (hl : b'.length = b.length) (hck : field b' 128 16 = field b 128 16) (hp : (words b').Perm (words b))
    (hv : Tcp.isValid cfg (.v4 ip) b = .ok true) : Tcp.isValid cfg (.v4 ip) b' = .ok true := by
  rw [C110_tcp_missed cfg ip b b' hip hb hb' hodd hl hv]
  rw [C110_tcp_exact cfg ip b hip hb hb' hodd] at hv
  have hz := of_decide_eq_true (Outcome.ok.inj hv)
  congr 1
  apply decide_eq_true
  refine ⟨?_, by rw [hck]; exact hz.2⟩
  unfold wordSum
  rw [hp.sum_nat]

/-! ## One field -/

theorem dvd_pow_two {x y A B r : Nat} (h : x ≤ y) :
    (A + (x * 2 ^ r + B)) % 65535 = (A + (y * 2 ^ r + B)) % 65535 ↔ x % 65535 = y % 65535 := by
  have hcop : Nat.Coprime 65535 (2 ^ r) := Nat.Coprime.pow_right _ (by decide)
  have hle : x * 2 ^ r ≤ y * 2 ^ r := Nat.mul_le_mul_right _ h
  have e : (y - x) * 2 ^ r = y * 2 ^ r - x * 2 ^ r := Nat.sub_mul ..
  constructor
  · intro he
    have hdvd : 65535 ∣ (y - x) * 2 ^ r := by
      rw [e]
      apply Nat.dvd_of_mod_eq_zero
      omega
    obtain ⟨k, hk⟩ := hcop.dvd_of_dvd_mul_right hdvd
    omega
  · intro he
    have hdvd : 65535 ∣ y - x := Nat.dvd_of_mod_eq_zero (by omega)
    obtain ⟨k, hk⟩ := Nat.dvd_trans hdvd (Nat.dvd_mul_right _ (2 ^ r))
    rw [e] at hk
    generalize x * 2 ^ r = X at *
    generalize y * 2 ^ r = Y at *
    omega

/-- Setting a field of a message keeps its word sum exactly if the old and the new value are the same modulo 65535. -/
theorem wordSum_set {b b' : Bytes} {s w v : Nat} (h : SetsField b b' s w v) (hin : s + w ≤ 8 * b.length) :
    wordSum b' = wordSum b ↔ v % 65535 = field b s w % 65535 := by
  unfold wordSum
  rw [words_sum_mod, words_sum_mod, h.length]
  obtain ⟨r, hr⟩ : ∃ r, 16 * ((b.length + 1) / 2) = s + (w + r) := ⟨16 * ((b.length + 1) / 2) - s - w, by omega⟩
  have split : ∀ c : Bytes, field c 0 (s + (w + r)) = field c 0 s * 2 ^ (w + r) +
      (field c s w * 2 ^ r + field c (s + w) r) := by
    intro c
    rw [field_add, field_add, Nat.zero_add]
  rw [hr, split, split, field_congr (b := b) (b' := b') (s := 0) (w := s) (fun i _ hi => h.frame i (by omega)),
    field_congr (b := b) (b' := b') (s := s + w) (w := r) (fun i hi _ => h.frame i (by omega)), h.value]
  rcases Nat.le_total v (field b s w) with hle | hle
  · exact dvd_pow_two hle
  · rw [eq_comm, dvd_pow_two hle, eq_comm]

theorem bitAt_take {b : Bytes} {n i : Nat} (h : i < 8 * n) : bitAt (b.take n) i = bitAt b i := by
  unfold bitAt
  rw [List.getD_eq_getElem?_getD, List.getD_eq_getElem?_getD, List.getElem?_take_of_lt (by omega)]

theorem bitAt_past {b : Bytes} {i : Nat} (h : 8 * b.length ≤ i) : bitAt b i = false := by
  unfold bitAt
  rw [List.getD_eq_getElem?_getD, List.getElem?_eq_none (by omega)]
  simp

theorem setsField_take {b b' : Bytes} {s w v : Nat} (n : Nat) (h : SetsField b b' s w v) (hn : n ≤ b.length)
    (hin : s + w ≤ 8 * n) : SetsField (b.take n) (b'.take n) s w v := by
  have hl := h.length
  have l1 : (b.take n).length = n := by rw [List.length_take]; omega
  have l2 : (b'.take n).length = n := by rw [List.length_take]; omega
  refine ⟨by omega, ?_, ?_⟩
  · rw [field_congr (b' := b'.take n) (b := b') fun i _ hi => bitAt_take (by omega)]
    exact h.value
  · intro i hi
    by_cases hlt : i < 8 * n
    · rw [bitAt_take hlt, bitAt_take hlt]
      exact h.frame i hi
    · rw [bitAt_past (by omega), bitAt_past (by omega)]

theorem field_take' {b : Bytes} {n s w : Nat} (h : s + w ≤ 8 * n) : field (b.take n) s w = field b s w :=
  field_congr fun i _ hi => bitAt_take (by omega)

/-- C110, IPv4: when one header field other than header length and checksum is set to another value without the guard,
the packet goes on verifying exactly if the two values are the same modulo 65535. -/
theorem C110_v4_field (cfg : Cfg) (b b' : Bytes) (s w v : Nat) (h : V4.noPayload b = .ok b)
    (h5 : 3 ≤ field b 4 4) (hv : V4.isValid cfg b = .ok true)
    (hs : SetsField b b' s w v) (hin : s + w ≤ 32 * field b 4 4) (hihl : 8 ≤ s) (hck : s + w ≤ 80 ∨ 96 ≤ s) :
    V4.isValid cfg b' = .ok (decide (v % 65535 = field b s w % 65535)) := by
  have hok := (V4.noPayload_ok_iff.1 h).2
  have hh := hok.header
  have e : field b' 4 4 = field b 4 4 := hs.other (by omega)
  have e0 : field b' 0 4 = field b 0 4 := hs.other (by omega)
  have h' : V4.noPayload b' = .ok b' := V4.noPayload_ok_iff.2 ⟨rfl, by rw [hs.length]; exact hok.long,
    by rw [e0]; exact hok.version, by rw [e, hs.length]; exact hh⟩
  have hz := hv
  rw [C110_v4_exact cfg b h h5] at hz
  have hz := of_decide_eq_true (Outcome.ok.inj hz)
  have hst := setsField_take (4 * field b 4 4) hs (by omega) (by omega)
  have hw := wordSum_set hst (by rw [List.length_take]; omega)
  rw [field_take' (by omega)] at hw
  have hc : field b' 80 16 = field b 80 16 := hs.other (by omega)
  rw [C110_v4_missed cfg b b' h h' h5 e hv, hc]
  exact congrArg Outcome.ok (decide_eq_decide.2 ⟨fun h => hw.1 h.1, fun h => ⟨hw.2 h, hz.2⟩⟩)

/-- A concrete case that meets the hypotheses. -/
example (cfg : Cfg) := C110_v4_field cfg Sample.udpPacket (put Sample.udpPacket 4 [255, 255]) 32 16 65535 (by decide)
    (by decide) (by in_every_build) ⟨by decide, by decide, Sample.outside (by decide) (by decide +kernel)⟩ (by decide)
    (by decide) (by decide)

/-- C110, ICMP: one field among the words the checksum reads. -/
theorem C110_icmp_field (cfg : Cfg) (b b' : Bytes) (s w v : Nat) (hb : 4 ≤ b.length)
    (hv : Icmp.isValid cfg b = .ok true) (hs : SetsField b b' s w v) (hin : s + w ≤ 8 * (b.length - b.length % 2))
    (hck : s + w ≤ 16 ∨ 32 ≤ s) :
    Icmp.isValid cfg b' = .ok (decide (v % 65535 = field b s w % 65535)) := by
  have hz := hv
  rw [C110_icmp_exact cfg b hb] at hz
  have hz := of_decide_eq_true (Outcome.ok.inj hz)
  have hl := hs.length
  have hst := setsField_take (b.length - b.length % 2) hs (by omega) hin
  have hw := wordSum_set hst (by rw [List.length_take]; omega)
  rw [field_take' hin] at hw
  have hc : field b' 16 16 = field b 16 16 := hs.other (by omega)
  rw [C110_icmp_missed cfg b b' hb (by omega) hv, hc]
  unfold evenPart
  rw [hl]
  exact congrArg Outcome.ok (decide_eq_decide.2 ⟨fun h => hw.1 h.1, fun h => ⟨hw.2 h, hz.2⟩⟩)

/-- A concrete case that meets the hypotheses. -/
example (cfg : Cfg) := C110_icmp_field cfg Sample.echo (put Sample.echo 4 [255, 255]) 32 16 65535 (by decide)
    (by in_every_build) ⟨by decide, by decide, Sample.outside (by decide) (by decide +kernel)⟩ (by decide) (by decide)

/-- C110, UDP: one field among the bytes the checksum reads. -/
theorem C110_udp_field (cfg : Cfg) (ip b b' : Bytes) (s w v : Nat) (hip : 20 ≤ ip.length) (hb : 8 ≤ b.length)
    (hv : Udp.isValid cfg (.v4 ip) b = .ok true) (hs : SetsField b b' s w v)
    (hin : s + w ≤ 8 * (udpCovered cfg b).length) (hck : s + w ≤ 48 ∨ 64 ≤ s) :
    Udp.isValid cfg (.v4 ip) b' = .ok (decide (v % 65535 = field b s w % 65535)) := by
  have hz := hv
  rw [C110_udp_exact cfg ip b hip hb] at hz
  have hz := of_decide_eq_true (Outcome.ok.inj hz)
  have hl := hs.length
  have hw : wordSum (udpCovered cfg b') = wordSum (udpCovered cfg b) ↔ v % 65535 = field b s w % 65535 := by
    unfold udpCovered at hin ⊢
    cases hc : cfg.eofAdvances with
    | true =>
      rw [hc] at hin
      simp only [if_true] at hin ⊢
      rw [evenPart_length] at hin
      have hst := setsField_take (b.length - b.length % 2) hs (by omega) hin
      have hw := wordSum_set hst (by rw [List.length_take]; omega)
      rw [field_take' hin] at hw
      unfold evenPart
      rw [hl]
      exact hw
    | false =>
      rw [hc] at hin
      simp only [Bool.false_eq_true, if_false] at hin ⊢
      exact wordSum_set hs hin
  have hc : field b' 48 16 = field b 48 16 := hs.other (by omega)
  rw [C110_udp_missed cfg ip b b' hip hb hl hv, hc]
  exact congrArg Outcome.ok (decide_eq_decide.2 ⟨fun h => hw.1 h.1, fun h => ⟨hw.2 h, hz.2⟩⟩)

/-- A concrete case that meets the hypotheses. -/
example (cfg : Cfg) := C110_udp_field cfg Sample.udpPacket Sample.udp (put Sample.udp 0 [255, 255]) 0 16 65535
    (by decide) (by decide) (by in_every_build) ⟨by decide, by decide, Sample.outside (by decide) (by decide +kernel)⟩
    (by in_every_build) (by decide)

/-- C110, TCP: one field anywhere in the segment. -/
theorem C110_tcp_field (cfg : Cfg) (ip b b' : Bytes) (s w v : Nat) (hip : 20 ≤ ip.length) (hb : 20 ≤ b.length)
    (hb' : b.length ≤ 65535) (hodd : b.length % 2 = 0 ∨ cfg.eofAdvances = false)
    (hv : Tcp.isValid cfg (.v4 ip) b = .ok true) (hs : SetsField b b' s w v)
    (hin : s + w ≤ 8 * b.length) (hck : s + w ≤ 128 ∨ 144 ≤ s) :
    Tcp.isValid cfg (.v4 ip) b' = .ok (decide (v % 65535 = field b s w % 65535)) := by
  have hz := hv
  rw [C110_tcp_exact cfg ip b hip hb hb' hodd] at hz
  have hz := of_decide_eq_true (Outcome.ok.inj hz)
  have hw := wordSum_set hs hin
  have hc : field b' 128 16 = field b 128 16 := hs.other (by omega)
  rw [C110_tcp_missed cfg ip b b' hip hb hb' hodd hs.length hv, hc]
  exact congrArg Outcome.ok (decide_eq_decide.2 ⟨fun h => hw.1 h.1, fun h => ⟨hw.2 h, hz.2⟩⟩)

/-- A concrete case that meets the hypotheses. -/
example (cfg : Cfg) := C110_tcp_field cfg Sample.tcpPacket Sample.tcp (put Sample.tcp 0 [255, 255]) 0 16 65535
    (by decide) (by decide) (by decide) (.inl (by decide)) (by in_every_build)
    ⟨by decide, by decide, Sample.outside (by decide) (by decide +kernel)⟩ (by decide) (by decide)

/-! ## The setters, called without the guard -/

/-- C110, IPv4: which unguarded setter calls leave `is_valid()` true. -/
theorem C110_v4_setters (cfg : Cfg) (b : Bytes) (h : Legal b) (hv : V4.isValid cfg b = .ok true) :
    (∀ v : U8, v.toNat ≤ 63 → ∃ b', V4.setDscp v b = (.ok (), b') ∧
      V4.isValid cfg b' = .ok (decide (v.toNat = field b 8 6))) ∧
    (∀ v : U8, v.toNat ≤ 3 → ∃ b', V4.setEcn v b = (.ok (), b') ∧
      V4.isValid cfg b' = .ok (decide (field b 8 6 < 16 ∧ (field b 14 2 ||| v.toNat) = field b 14 2))) ∧
    (∀ v : U16, ∃ b', V4.setId v b = (.ok (), b') ∧
      V4.isValid cfg b' = .ok (decide (v.toNat % 65535 = field b 32 16 % 65535))) ∧
    (∀ f : V4Flags, ∃ b', V4.setFlags f b = (.ok (), b') ∧
      V4.isValid cfg b' = .ok (decide (f.bits.toNat % 65535 = field b 48 16 % 65535))) ∧
    (∀ v : U16, ∃ b', V4.setOffset v b = (.ok (), b') ∧
      V4.isValid cfg b' = .ok (decide (v.toNat % 65535 = field b 48 16 % 65535))) ∧
    (∀ v : U8, ∃ b', V4.setTtl v b = (.ok (), b') ∧
      V4.isValid cfg b' = .ok (decide (v.toNat = field b 64 8))) ∧
    (∀ v : IpProtocol, ∃ b', V4.setProtocol v b = (.ok (), b') ∧
      V4.isValid cfg b' = .ok (decide (v.toWire.toNat = field b 72 8))) ∧
    (∀ v : Ipv4Addr, ∃ b', V4.setSource v b = (.ok (), b') ∧
      V4.isValid cfg b' = .ok (decide (beNat v.octets % 65535 = field b 96 32 % 65535))) ∧
    (∀ v : Ipv4Addr, ∃ b', V4.setDestination v b = (.ok (), b') ∧
      V4.isValid cfg b' = .ok (decide (beNat v.octets % 65535 = field b 128 32 % 65535))) := by
  have h5 := h.2
  obtain ⟨s1, s2, s3, s4, s5, s6, -⟩ := C16_v4_setters b h
  obtain ⟨s7, s8⟩ := C77_v4_set_flags_offset_exact b h
  have key : ∀ {b' : Bytes} {s w v : Nat}, SetsField b b' s w v → s + w ≤ 160 → 8 ≤ s → (s + w ≤ 80 ∨ 96 ≤ s) →
      V4.isValid cfg b' = .ok (decide (v % 65535 = field b s w % 65535)) := fun hs h1 h2 h3 =>
    C110_v4_field cfg b _ _ _ _ h.1 (by omega) hv hs (by omega) h2 h3
  have small : ∀ {x y : Nat}, x < 65535 → y < 65535 → (x % 65535 = y % 65535 ↔ x = y) := by
    intro x y _ _; omega
  have p8 : (2 : Nat) ^ 8 = 256 := rfl
  have p6 : (2 : Nat) ^ 6 = 64 := rfl
  refine ⟨fun v hvv => ?_, fun v hvv => ?_, fun v => ?_, fun v => ?_, fun v => ?_, fun v => ?_, fun v => ?_, fun v => ?_,
    fun v => ?_⟩
  · obtain ⟨b', a1, a2, -⟩ := s1 v hvv
    refine ⟨b', a1, (key a2 (by omega) (by omega) (by omega)).trans (congrArg Outcome.ok (decide_eq_decide.2 (small ?_ ?_)))⟩
    · omega
    · have := field_lt b 8 6; omega
  · have hl := h.ok.1
    refine ⟨_, v4_setEcn_eq hl hvv, ?_⟩
    have hs := setsField_put8 (b := b) (off := 1) (v := (b.getD 1 0#8 &&& 0b111111#8) ||| v) (by omega)
    rw [key hs (by omega) (by omega) (by omega), ecnByte _ _ hvv, field_byte, dscp_field, ecn_field]
    have hor : ((b.getD 1 0#8).toNat % 4) ||| v.toNat < 2 ^ 2 := Nat.or_lt_two_pow (by omega) (by omega)
    have := (b.getD 1 0#8).isLt
    refine congrArg Outcome.ok (decide_eq_decide.2 ?_)
    generalize ((b.getD 1 0#8).toNat % 4) ||| v.toNat = z at *
    generalize (b.getD 1 0#8).toNat = x at *
    rw [small (by omega) (by omega)]
    constructor
    · intro e
      have : z = x % 4 := by omega
      exact ⟨by omega, this⟩
    · rintro ⟨a, rfl⟩
      omega
  · obtain ⟨b', a1, a2, -⟩ := s2 v
    exact ⟨b', a1, key a2 (by omega) (by omega) (by omega)⟩
  · obtain ⟨b', a1, a2⟩ := s7 v
    exact ⟨b', a1, key a2 (by omega) (by omega) (by omega)⟩
  · obtain ⟨b', a1, a2⟩ := s8 v
    exact ⟨b', a1, key a2 (by omega) (by omega) (by omega)⟩
  · obtain ⟨b', a1, a2, -⟩ := s3 v
    refine ⟨b', a1, (key a2 (by omega) (by omega) (by omega)).trans (congrArg Outcome.ok (decide_eq_decide.2 (small ?_ ?_)))⟩
    · have := v.isLt; omega
    · have := field_lt b 64 8; omega
  · obtain ⟨b', a1, a2, -⟩ := s6 v
    refine ⟨b', a1, (key a2 (by omega) (by omega) (by omega)).trans (congrArg Outcome.ok (decide_eq_decide.2 (small ?_ ?_)))⟩
    · have := v.toWire.isLt; omega
    · have := field_lt b 72 8; omega
  · obtain ⟨b', a1, a2, -⟩ := s4 v
    exact ⟨b', a1, key a2 (by omega) (by omega) (by omega)⟩
  · obtain ⟨b', a1, a2, -⟩ := s5 v
    exact ⟨b', a1, key a2 (by omega) (by omega) (by omega)⟩

/-- C110, UDP: which unguarded setter calls leave `is_valid(ip)` true. -/
theorem C110_udp_setters (cfg : Cfg) (ip b : Bytes) (hip : 20 ≤ ip.length) (h : Udp.noPayload b = .ok b)
    (hv : Udp.isValid cfg (.v4 ip) b = .ok true) (v : U16) :
    (∃ b', Udp.setSource v b = (.ok (), b') ∧
      Udp.isValid cfg (.v4 ip) b' = .ok (decide (v.toNat % 65535 = field b 0 16 % 65535))) ∧
    (∃ b', Udp.setDestination v b = (.ok (), b') ∧
      Udp.isValid cfg (.v4 ip) b' = .ok (decide (v.toNat % 65535 = field b 16 16 % 65535))) := by
  obtain ⟨⟨b1, a1, a2, -⟩, ⟨b2, c1, c2, -⟩, -⟩ := C22_udp_setters b h v
  have hb : 8 ≤ b.length := by
    rw [Udp.noPayload_eq] at h; split at h
    · cases h
    · omega
  have hc : 8 ≤ (udpCovered cfg b).length := by
    unfold udpCovered
    split
    · rw [evenPart_length]; omega
    · exact hb
  exact ⟨⟨b1, a1, C110_udp_field cfg ip b b1 _ _ _ hip hb hv a2 (by omega) (by omega)⟩,
    ⟨b2, c1, C110_udp_field cfg ip b b2 _ _ _ hip hb hv c2 (by omega) (by omega)⟩⟩

/-- A concrete case that meets the hypotheses. -/
example (cfg : Cfg) := C110_udp_setters cfg Sample.udpPacket Sample.udp (by decide) (by decide) (by in_every_build)

/-- C110, TCP: which unguarded setter calls leave `is_valid(ip)` true. -/
theorem C110_tcp_setters (cfg : Cfg) (ip b : Bytes) (hip : 20 ≤ ip.length) (h : Tcp.new b = .ok b)
    (h5 : 5 ≤ field b 96 4) (hb' : b.length ≤ 65535) (hodd : b.length % 2 = 0 ∨ cfg.eofAdvances = false)
    (hv : Tcp.isValid cfg (.v4 ip) b = .ok true) :
    (∀ v, ∃ b', Tcp.setSource v b = (.ok (), b') ∧
      Tcp.isValid cfg (.v4 ip) b' = .ok (decide (v.toNat % 65535 = field b 0 16 % 65535))) ∧
    (∀ v, ∃ b', Tcp.setDestination v b = (.ok (), b') ∧
      Tcp.isValid cfg (.v4 ip) b' = .ok (decide (v.toNat % 65535 = field b 16 16 % 65535))) ∧
    (∀ v, ∃ b', Tcp.setSequence v b = (.ok (), b') ∧
      Tcp.isValid cfg (.v4 ip) b' = .ok (decide (v.toNat % 65535 = field b 32 32 % 65535))) ∧
    (∀ v, ∃ b', Tcp.setAcknowledgment v b = (.ok (), b') ∧
      Tcp.isValid cfg (.v4 ip) b' = .ok (decide (v.toNat % 65535 = field b 64 32 % 65535))) ∧
    (∀ f, ∃ b', Tcp.setFlags f b = (.ok (), b') ∧
      Tcp.isValid cfg (.v4 ip) b' = .ok (decide (f.bits.toNat % 65535 = field b 96 16 % 65535))) ∧
    (∀ v, ∃ b', Tcp.setWindow v b = (.ok (), b') ∧
      Tcp.isValid cfg (.v4 ip) b' = .ok (decide (v.toNat % 65535 = field b 112 16 % 65535))) ∧
    (∀ v, ∃ b', Tcp.setPointer v b = (.ok (), b') ∧
      Tcp.isValid cfg (.v4 ip) b' = .ok (decide (v.toNat % 65535 = field b 144 16 % 65535))) := by
  obtain ⟨s1, s2, s3, s4, s5, s6, -⟩ := C26_tcp_setters b h h5
  have hl := (Tcp.new_ok_iff.1 h).2.1
  have key : ∀ {b' : Bytes} {s w v : Nat}, SetsField b b' s w v → s + w ≤ 160 → (s + w ≤ 128 ∨ 144 ≤ s) →
      Tcp.isValid cfg (.v4 ip) b' = .ok (decide (v % 65535 = field b s w % 65535)) := fun hs h1 h3 =>
    C110_tcp_field cfg ip b _ _ _ _ hip (by omega) hb' hodd hv hs (by omega) h3
  refine ⟨fun v => ?_, fun v => ?_, fun v => ?_, fun v => ?_, fun v => ?_, fun v => ?_, fun v => ?_⟩
  · obtain ⟨b', a1, a2, -⟩ := s1 v
    exact ⟨b', a1, key a2 (by omega) (by omega)⟩
  · obtain ⟨b', a1, a2, -⟩ := s2 v
    exact ⟨b', a1, key a2 (by omega) (by omega)⟩
  · obtain ⟨b', a1, a2, -⟩ := s3 v
    exact ⟨b', a1, key a2 (by omega) (by omega)⟩
  · obtain ⟨b', a1, a2, -⟩ := s4 v
    exact ⟨b', a1, key a2 (by omega) (by omega)⟩
  · exact ⟨_, tcp_setFlags_eq (segOk h h5) v, key (setsField_put16 (off := 12) (by omega)) (by omega) (by omega)⟩
  · obtain ⟨b', a1, a2, -⟩ := s5 v
    exact ⟨b', a1, key a2 (by omega) (by omega)⟩
  · obtain ⟨b', a1, a2, -⟩ := s6 v
    exact ⟨b', a1, key a2 (by omega) (by omega)⟩

/-- A concrete case that meets the hypotheses. -/
example (cfg : Cfg) := C110_tcp_setters cfg Sample.tcpPacket Sample.tcp (by decide) (by decide) (by decide)
    (by decide) (.inl (by decide)) (by in_every_build)

/-- C110, ICMP: which unguarded setter calls on the typed views leave `is_valid()` of the message true. -/
theorem C110_icmp_setters (cfg : Cfg) (b : Bytes) (hv : Icmp.isValid cfg b = .ok true) :
    (Echo.new b = .ok b →
      (∃ b', Echo.makeRequest b = (.ok (), b') ∧ Icmp.isValid cfg b' = .ok (decide (field b 0 8 = 8))) ∧
      (∃ b', Echo.makeReply b = (.ok (), b') ∧ Icmp.isValid cfg b' = .ok (decide (field b 0 8 = 0))) ∧
      (∀ v, ∃ b', Echo.setIdentifier v b = (.ok (), b') ∧
        Icmp.isValid cfg b' = .ok (decide (v.toNat % 65535 = field b 32 16 % 65535))) ∧
      (∀ v, ∃ b', Echo.setSequence v b = (.ok (), b') ∧
        Icmp.isValid cfg b' = .ok (decide (v.toNat % 65535 = field b 48 16 % 65535)))) ∧
    (Timestamp.new b = .ok b →
      (∀ v, ∃ b', Timestamp.setIdentifier v b = (.ok (), b') ∧
        Icmp.isValid cfg b' = .ok (decide (v.toNat % 65535 = field b 32 16 % 65535))) ∧
      (∀ v, ∃ b', Timestamp.setSequence v b = (.ok (), b') ∧
        Icmp.isValid cfg b' = .ok (decide (v.toNat % 65535 = field b 48 16 % 65535))) ∧
      (∀ v, ∃ b', Timestamp.setOriginate v b = (.ok (), b') ∧
        Icmp.isValid cfg b' = .ok (decide (v.toNat % 65535 = field b 64 32 % 65535))) ∧
      (∀ v, ∃ b', Timestamp.setReceive v b = (.ok (), b') ∧
        Icmp.isValid cfg b' = .ok (decide (v.toNat % 65535 = field b 96 32 % 65535))) ∧
      (∀ v, ∃ b', Timestamp.setTransmit v b = (.ok (), b') ∧
        Icmp.isValid cfg b' = .ok (decide (v.toNat % 65535 = field b 128 32 % 65535)))) ∧
    (Information.new b = .ok b →
      (∀ v, ∃ b', Information.setIdentifier v b = (.ok (), b') ∧
        Icmp.isValid cfg b' = .ok (decide (v.toNat % 65535 = field b 32 16 % 65535))) ∧
      (∀ v, ∃ b', Information.setSequence v b = (.ok (), b') ∧
        Icmp.isValid cfg b' = .ok (decide (v.toNat % 65535 = field b 48 16 % 65535)))) := by
  have key : ∀ {b' : Bytes} {s w v n : Nat}, SetsField b b' s w v → 8 ≤ n → n ≤ b.length → n % 2 = 0 → s + w ≤ 8 * n →
      (s + w ≤ 16 ∨ 32 ≤ s) → Icmp.isValid cfg b' = .ok (decide (v % 65535 = field b s w % 65535)) :=
    fun hs h0 h1 h2 h3 h4 => C110_icmp_field cfg b _ _ _ _ (by omega) hv hs (by omega) h4
  refine ⟨fun h => ?_, fun h => ?_, fun h => ?_⟩
  · have hl := (echo_ok h).1
    obtain ⟨⟨b1, a1, a2, -⟩, ⟨b2, c1, c2, -⟩, s1, s2⟩ := C36_echo_setters b h
    have f8 := field_lt b 0 8
    have p8 : (2 : Nat) ^ 8 = 256 := rfl
    refine ⟨⟨b1, a1, (key a2 (Nat.le_refl 8) hl (by omega) (by omega) (by omega)).trans
        (congrArg Outcome.ok (decide_eq_decide.2 (by omega)))⟩,
      ⟨b2, c1, (key c2 (Nat.le_refl 8) hl (by omega) (by omega) (by omega)).trans
        (congrArg Outcome.ok (decide_eq_decide.2 (by omega)))⟩, fun v => ?_, fun v => ?_⟩
    · obtain ⟨b', a1, a2, -⟩ := s1 v
      exact ⟨b', a1, key a2 (Nat.le_refl 8) hl (by omega) (by omega) (by omega)⟩
    · obtain ⟨b', a1, a2, -⟩ := s2 v
      exact ⟨b', a1, key a2 (Nat.le_refl 8) hl (by omega) (by omega) (by omega)⟩
  · have hl := (timestamp_ok h).1
    obtain ⟨-, -, -, -, -, -, -, s1, s2, s3, s4, s5⟩ := C37_timestamp b h
    refine ⟨fun v => ?_, fun v => ?_, fun v => ?_, fun v => ?_, fun v => ?_⟩
    · obtain ⟨b', a1, a2, -⟩ := s1 v
      exact ⟨b', a1, key a2 (n := 20) (by omega) hl (by omega) (by omega) (by omega)⟩
    · obtain ⟨b', a1, a2, -⟩ := s2 v
      exact ⟨b', a1, key a2 (n := 20) (by omega) hl (by omega) (by omega) (by omega)⟩
    · obtain ⟨b', a1, a2, -⟩ := s3 v
      exact ⟨b', a1, key a2 (n := 20) (by omega) hl (by omega) (by omega) (by omega)⟩
    · obtain ⟨b', a1, a2, -⟩ := s4 v
      exact ⟨b', a1, key a2 (n := 20) (by omega) hl (by omega) (by omega) (by omega)⟩
    · obtain ⟨b', a1, a2, -⟩ := s5 v
      exact ⟨b', a1, key a2 (n := 20) (by omega) hl (by omega) (by omega) (by omega)⟩
  · have hl := (information_ok h).1
    obtain ⟨-, -, -, -, s1, s2⟩ := C37_information b h
    refine ⟨fun v => ?_, fun v => ?_⟩
    · obtain ⟨b', a1, a2, -⟩ := s1 v
      exact ⟨b', a1, key a2 (Nat.le_refl 8) hl (by omega) (by omega) (by omega)⟩
    · obtain ⟨b', a1, a2, -⟩ := s2 v
      exact ⟨b', a1, key a2 (Nat.le_refl 8) hl (by omega) (by omega) (by omega)⟩

/-! Non-vacuity: packets that verify; a change that is missed (an identification of zero becomes all ones) and one that
is not (TTL). -/

def missedHeader : Bytes := [0x45, 0, 0, 20, 0, 0, 0, 0, 64, 17, 0x66, 0xd7, 10, 0, 0, 1, 10, 0, 0, 2]

example (cfg : Cfg) : Legal missedHeader ∧ V4.isValid cfg missedHeader = .ok true ∧
    (∃ b', V4.setId 0xffff#16 missedHeader = (.ok (), b') ∧ b' ≠ missedHeader ∧ V4.isValid cfg b' = .ok true) ∧
    (∃ b', V4.setTtl 63#8 missedHeader = (.ok (), b') ∧ V4.isValid cfg b' = .ok false) := by
  have hl : Legal missedHeader := by unfold Legal; decide
  have hv : V4.isValid cfg missedHeader = .ok true := by
    rw [C110_v4_exact cfg _ hl.1 (by decide)]; decide +kernel
  obtain ⟨-, -, s1, -, -, s2, -⟩ := C110_v4_setters cfg _ hl hv
  obtain ⟨b1, a1, a2⟩ := s1 0xffff#16
  obtain ⟨b2, c1, c2⟩ := s2 63#8
  refine ⟨hl, hv, ⟨b1, a1, ?_, a2.trans (by decide +kernel)⟩, ⟨b2, c1, c2.trans (by decide +kernel)⟩⟩
  rintro rfl
  revert a1
  decide +kernel

/-- A UDP datagram and a TCP segment that verify against `missedHeader`, and an echo request that verifies. -/
def missedUdp : Bytes := [0, 53, 0, 54, 0, 10, 0xea, 0x6a, 1, 2]

example (cfg : Cfg) : Udp.noPayload missedUdp = .ok missedUdp ∧ 20 ≤ missedHeader.length ∧
    Udp.isValid cfg (.v4 missedHeader) missedUdp = .ok true := by
  refine ⟨by decide, by decide, ?_⟩
  rw [C110_udp_exact cfg _ _ (by decide) (by decide)]
  obtain ⟨oc, ea, nw⟩ := cfg
  cases oc <;> cases ea <;> cases nw <;> decide +kernel

def missedTcp : Bytes := [0, 53, 0, 54, 0, 0, 0, 1, 0, 0, 0, 2, 0x50, 0x10, 0, 9, 0x97, 0x51, 0, 0, 1, 2, 3, 4]

example (cfg : Cfg) : Tcp.new missedTcp = .ok missedTcp ∧ 5 ≤ field missedTcp 96 4 ∧
    Tcp.isValid cfg (.v4 missedHeader) missedTcp = .ok true ∧
    -- the last two words exchanged
    Tcp.isValid cfg (.v4 missedHeader) [0, 53, 0, 54, 0, 0, 0, 1, 0, 0, 0, 2, 0x50, 0x10, 0, 9, 0x97, 0x51, 0, 0, 3, 4, 1, 2]
      = .ok true := by
  have hv : Tcp.isValid cfg (.v4 missedHeader) missedTcp = .ok true := by
    rw [C110_tcp_exact cfg _ _ (by decide) (by decide) (by decide) (.inl (by decide))]
    decide +kernel
  refine ⟨by decide, by decide, hv, ?_⟩
  refine C110_tcp_reordered cfg _ missedTcp _ (by decide) (by decide) (by decide) (.inl (by decide)) (by decide)
    (by decide +kernel) ?_ hv
  decide +kernel

example (cfg : Cfg) : Echo.new [8, 0, 0xf7, 0xfc, 0, 1, 0, 2] = .ok [8, 0, 0xf7, 0xfc, 0, 1, 0, 2] ∧
    Icmp.isValid cfg [8, 0, 0xf7, 0xfc, 0, 1, 0, 2] = .ok true := by
  refine ⟨by decide, ?_⟩
  rw [C110_icmp_exact cfg _ (by decide)]
  decide +kernel

end Verif.Props
