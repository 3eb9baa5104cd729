import Verif.Props.Verify
import Verif.Props.Icmp
import Verif.Samples

/-!
# C84: burst errors

The one's complement sum is the message, read as one large number, modulo 65535; a burst error changes that
number by a multiple of a power of two.
-/

namespace Verif.Spec

/-- `b'` is `b` after a burst error in the `w` bits from bit `s` on (at most 16, at any bit position): some
bit of the window changed, none outside it, and the window is not a whole 16 bits that went from all zeros to
all ones or back (the two representations of zero in one's complement). -/
structure Burst (b b' : Bytes) (s w : Nat) : Prop where
  length : b'.length = b.length
  short : w ≤ 16
  frame : ∀ i, i < s ∨ s + w ≤ i → bitAt b' i = bitAt b i
  changed : field b' s w ≠ field b s w
  notZeros : ¬ (field b s w = 0 ∧ field b' s w = 65535)
  notOnes : ¬ (field b s w = 65535 ∧ field b' s w = 0)

end Verif.Spec

namespace Verif.Props
open Verif Verif.Spec

theorem field_shift2 (x y : U8) (rest : Bytes) (w : Nat) : field (x :: y :: rest) 16 w = field rest 0 w := by
  induction w with
  | zero => rfl
  | succ n ih =>
    have : bitAt (x :: y :: rest) (16 + n) = bitAt rest (0 + n) := by
      unfold bitAt
      rw [show (16 + n) / 8 = (0 + n) / 8 + 2 by omega, show (16 + n) % 8 = (0 + n) % 8 by omega]
      simp [List.getD_cons_succ]
    rw [field, field, ih, this]

theorem pow16_mod (k : Nat) : 2 ^ (16 * k) % 65535 = 1 := by
  rw [Nat.pow_mul, Nat.pow_mod]
  simp

/-- The sum of the words is the whole message as a number, modulo 65535. -/
theorem words_sum_mod (m : Bytes) :
    (words m).sum % 65535 = field m 0 (16 * ((m.length + 1) / 2)) % 65535 := by
  induction m using words.induct with
  | case1 a b rest ih =>
    rw [show (a :: b :: rest).length = rest.length + 2 from rfl,
      show 16 * ((rest.length + 2 + 1) / 2) = 16 + 16 * ((rest.length + 1) / 2) by omega, field_add,
      Nat.zero_add, field_shift2, words, List.sum_cons]
    have h0 : field (a :: b :: rest) 0 16 = a.toNat * 256 + b.toNat := by
      have := field_u16 (a :: b :: rest) 0
      simpa using this
    have h1 := pow16_mod ((rest.length + 1) / 2)
    have h2 : ((a.toNat * 256 + b.toNat) * 2 ^ (16 * ((rest.length + 1) / 2))) % 65535 =
        (a.toNat * 256 + b.toNat) % 65535 := by
      rw [Nat.mul_mod, h1]; simp
    rw [h0]
    generalize (a.toNat * 256 + b.toNat) * 2 ^ (16 * ((rest.length + 1) / 2)) = X at *
    omega
  | case2 a =>
    have h0 : field [a] 0 16 = a.toNat * 256 + 0 := by
      have := field_u16 [a] 0
      simpa using this
    simp [words, h0]
  | case3 => rfl

/-- A burst changes the sum modulo 65535. -/
theorem burst_sum {b b' : Bytes} {s w : Nat} (h : Burst b b' s w) (hin : s + w ≤ 8 * b.length) :
    (words b').sum % 65535 ≠ (words b).sum % 65535 := by
  rw [words_sum_mod, words_sum_mod, h.length]
  obtain ⟨r, hr⟩ : ∃ r, 16 * ((b.length + 1) / 2) = s + (w + r) := ⟨16 * ((b.length + 1) / 2) - s - w, by omega⟩
  have split : ∀ c : Bytes, field c 0 (s + (w + r)) = field c 0 s * 2 ^ (w + r) +
      (field c s w * 2 ^ r + field c (s + w) r) := by
    intro c
    rw [field_add, field_add, Nat.zero_add]
  rw [hr, split, split, field_congr (b := b) (b' := b') (s := 0) (w := s) (fun i _ hi => h.frame i (by omega)),
    field_congr (b := b) (b' := b') (s := s + w) (w := r) (fun i hi _ => h.frame i (by omega))]
  intro heq
  have hcop : Nat.Coprime 65535 (2 ^ r) := Nat.Coprime.pow_right _ (by decide)
  have l1 := field_lt b s w
  have l2 := field_lt b' s w
  have l3 : 2 ^ w ≤ 65536 := by
    have := Nat.pow_le_pow_right (n := 2) (by omega) h.short
    simpa using this
  have hd := h.changed
  have n1 := h.notZeros
  have n2 := h.notOnes
  generalize field b s w = F at *
  generalize field b' s w = F' at *
  generalize field b 0 s * 2 ^ (w + r) = A at *
  generalize field b (s + w) r = B at *
  have key : ∀ {x y : Nat}, x < y → y < 65536 → ¬ (x = 0 ∧ y = 65535) →
      (A + (x * 2 ^ r + B)) % 65535 ≠ (A + (y * 2 ^ r + B)) % 65535 := by
    intro x y hxy hy hn he
    have hdvd : 65535 ∣ (y - x) * 2 ^ r := by
      rw [Nat.sub_mul]
      have hle : x * 2 ^ r ≤ y * 2 ^ r := Nat.mul_le_mul_right _ (by omega)
      apply Nat.dvd_of_mod_eq_zero
      omega
    have := hcop.dvd_of_dvd_mul_right hdvd
    have := Nat.le_of_dvd (by omega) this
    omega
  rcases Nat.lt_or_gt_of_ne hd with hlt | hgt
  · exact key hlt (by omega) (by omega) heq
  · exact key hgt (by omega) (by omega) heq.symm

/-- What a verified checksum says about the sum of everything. -/
theorem valid_mod {m : Bytes} {k c d e : Nat} {s : U16} (hl : 2 * k + 2 ≤ m.length)
    (hs : readU16At m (2 * k) = .ok s) (hc : c + e = d + (words (zeroed m (2 * k))).sum) (hv : ckOf c = s) :
    (d + (words m).sum) % 65535 = e % 65535 := by
  have h1 := words_stored hs hl
  have h2 := norm_complement c
  rw [hv] at h2
  have h3 : (c + s.toNat) % 65535 = 0 := by
    revert h2; unfold norm; split <;> omega
  omega

theorem oddWord_burst {b b' : Bytes} {s w : Nat} (h : Burst b b' s w)
    (hin : s + w ≤ 8 * (b.length - b.length % 2)) : oddWord b' = oddWord b := by
  unfold oddWord
  rw [oddTail_eq, oddTail_eq, h.length, drop_of_bits h.length (fun i hi => h.frame i (by omega))]

theorem burst_core {m m' : Bytes} {k s w : Nat} (h : Burst m m' s w) (hin : s + w ≤ 8 * m.length) (d e : Nat)
    (ho : 2 * k + 2 ≤ m.length) {c c' : Nat} {v v' : U16}
    (hs : readU16At m (2 * k) = .ok v) (hs' : readU16At m' (2 * k) = .ok v')
    (hc : c + e = d + (words (zeroed m' (2 * k))).sum)
    (hc' : c' + e = d + (words (zeroed m (2 * k))).sum)
    (hvalid : ckOf c' = v) : ckOf c ≠ v' := by
  intro hbad
  have h1 := valid_mod ho hs hc' hvalid
  have h2 := valid_mod (by rw [h.length]; exact ho) hs' hc hbad
  have := burst_sum h hin
  omega

/-- C84 for IPv4: in an accepted packet whose header checksum verifies, a burst error anywhere in the header
makes `is_valid()` false, unless it changes the header length (which moves the end of the covered range). -/
theorem C84_v4_burst_detected (cfg : Cfg) (b b' : Bytes) (s w : Nat) (h : V4.noPayload b = .ok b)
    (h5 : 3 ≤ field b 4 4) (hvalid : V4.isValid cfg b = .ok true) (hburst : Burst b b' s w)
    (hin : s + w ≤ 32 * field b 4 4) (hihl : field b' 4 4 = field b 4 4) :
    V4.isValid cfg b' = .ok false := by
  have hok := (V4.noPayload_ok_iff.1 h).2
  have hlong := hok.long; have hh := hok.header
  have hlen' := hburst.length
  have hl : ∀ c : Bytes, c.length = b.length → (c.take (field b 4 4 * 4)).length = field b 4 4 * 4 := by
    intro c hc; rw [List.length_take]; omega
  have hget : ∀ (c : Bytes) (j : Nat), j < field b 4 4 * 4 → (c.take (field b 4 4 * 4)).getD j 0#8 = c.getD j 0#8 := by
    intro c j hj; simp only [List.getD, List.getElem?_take_of_lt hj]
  have hrd : ∀ c : Bytes, c.length = b.length → readU16At c 10 = readU16At (c.take (field b 4 4 * 4)) 10 := by
    intro c hc
    rw [readU16At_ok (by omega), readU16At_ok (by rw [hl c hc]; omega), hget c 10 (by omega), hget c 11 (by omega)]
  have hbit : ∀ (c : Bytes) (i : Nat), i < 32 * field b 4 4 → bitAt (c.take (field b 4 4 * 4)) i = bitAt c i := by
    intro c i hi
    unfold bitAt
    rw [hget c (i / 8) (by omega)]
  have hout : ∀ (c : Bytes) (i : Nat), c.length = b.length → 32 * field b 4 4 ≤ i →
      bitAt (c.take (field b 4 4 * 4)) i = false := by
    intro c i hc hi
    unfold bitAt
    have := hl c hc
    rw [List.getD, List.getElem?_eq_none (by omega)]
    simp
  have hfield : ∀ c : Bytes, field (c.take (field b 4 4 * 4)) s w = field c s w :=
    fun c => field_congr fun i _ hi => hbit c i (by omega)
  have hbt : Burst (b.take (field b 4 4 * 4)) (b'.take (field b 4 4 * 4)) s w := by
    refine ⟨by rw [hl b rfl, hl b' hlen'], hburst.short, ?_, ?_, ?_, ?_⟩
    · intro i hi
      by_cases hlt : i < 32 * field b 4 4
      · rw [hbit _ _ hlt, hbit _ _ hlt]; exact hburst.frame i hi
      · rw [hout _ _ rfl (by omega), hout _ _ hlen' (by omega)]
    · rw [hfield, hfield]; exact hburst.changed
    · rw [hfield, hfield]; exact hburst.notZeros
    · rw [hfield, hfield]; exact hburst.notOnes
  have hl1 := hl b rfl
  have hl2 := hl b' hlen'
  unfold V4.isValid V4.checksum at hvalid ⊢
  rw [V4.header_eq (by omega) hh, Outcome.ok_bind, V4.checksumOf_eq, Outcome.ok_bind, hrd b rfl] at hvalid
  rw [V4.header_eq (by omega) (by omega), Outcome.ok_bind, V4.checksumOf_eq, Outcome.ok_bind, hihl,
    hrd _ hlen']
  obtain ⟨v, hs⟩ : ∃ s, readU16At (b.take (field b 4 4 * 4)) 10 = .ok s := ⟨_, readU16At_ok (by omega)⟩
  obtain ⟨v', hs'⟩ : ∃ s, readU16At (b'.take (field b 4 4 * 4)) 10 = .ok s := ⟨_, readU16At_ok (by omega)⟩
  rw [hs] at hvalid
  rw [hs']
  simp only [Outcome.ok_bind, Outcome.ok.injEq, beq_iff_eq] at hvalid ⊢
  apply beq_false_of_ne
  have e1 := loopWords_zeroed 5 (b.take (field b 4 4 * 4)) 0 (by omega)
  have e2 := loopWords_zeroed 5 (b'.take (field b 4 4 * 4)) 0 (by omega)
  rw [oddWord_even (by omega)] at e1 e2
  simp only [Nat.zero_add, Nat.reduceMul, Nat.reduceAdd, Nat.add_zero] at e1 e2
  exact burst_core (k := 5) hbt (by omega) 65535 0 (by omega) hs hs' (by simp only [Nat.reduceMul]; omega)
    (by simp only [Nat.reduceMul]; omega) hvalid

/-- A concrete case that meets the hypotheses. -/
example (cfg : Cfg) := C84_v4_burst_detected cfg Sample.udpPacket (put Sample.udpPacket 8 [63]) 64 8 (by decide)
    (by decide) (by in_every_build)
    ⟨by decide, by decide, Sample.outside (by decide) (by decide +kernel), by decide, by decide, by decide⟩
    (by decide) (by decide)

/-- C84 for ICMP: a burst error in the 16-bit words the checksum reads (all of an even-length message). -/
theorem C84_icmp_burst_detected (cfg : Cfg) (b b' : Bytes) (s w : Nat) (h : Icmp.new b = .ok b)
    (hvalid : Icmp.isValid cfg b = .ok true) (hburst : Burst b b' s w)
    (hin : s + w ≤ 8 * (b.length - b.length % 2)) : Icmp.isValid cfg b' = .ok false := by
  have hb : 4 ≤ b.length := by
    unfold Icmp.new Icmp.headerMin at h; split at h
    · cases h
    · omega
  have hlen' := hburst.length
  unfold Icmp.isValid Icmp.checksum at hvalid ⊢
  rw [Icmp.checksumOf_eq, Outcome.ok_bind] at hvalid ⊢
  obtain ⟨v, hs⟩ : ∃ s, readU16At b 2 = .ok s := ⟨_, readU16At_ok (by omega)⟩
  obtain ⟨v', hs'⟩ : ∃ s, readU16At b' 2 = .ok s := ⟨_, readU16At_ok (by omega)⟩
  rw [hs] at hvalid
  rw [hs']
  simp only [Outcome.ok_bind, Outcome.ok.injEq, beq_iff_eq] at hvalid ⊢
  apply beq_false_of_ne
  have e1 := loopWords_zeroed 1 b 0 (by omega)
  have e2 := loopWords_zeroed 1 b' 0 (by omega)
  rw [oddWord_burst hburst hin] at e2
  simp only [Nat.zero_add, Nat.reduceMul, Nat.reduceAdd] at e1 e2
  exact burst_core (k := 1) hburst (by omega) 65535 (oddWord b) (by omega) hs hs'
    (by simp only [Nat.reduceMul]; omega) (by simp only [Nat.reduceMul]; omega) hvalid

/-- A concrete case that meets the hypotheses. -/
example (cfg : Cfg) := C84_icmp_burst_detected cfg Sample.echo (put Sample.echo 5 [43, 1]) 44 12 (by decide)
    (by in_every_build)
    ⟨by decide, by decide, Sample.outside (by decide) (by decide +kernel), by decide, by decide, by decide⟩
    (by decide)

/-- C84 for UDP: a burst error anywhere in the datagram, except, on a `std` whose failed `read_exact` moves
the cursor, in the last byte of a datagram of odd length (which is not read then, see C60). -/
theorem C84_udp_burst_detected (cfg : Cfg) (ip b b' : Bytes) (s w : Nat) (hip : 20 ≤ ip.length)
    (h : Udp.noPayload b = .ok b) (hvalid : Udp.isValid cfg (.v4 ip) b = .ok true) (hburst : Burst b b' s w)
    (hin : s + w ≤ 8 * (if cfg.eofAdvances then b.length - b.length % 2 else b.length)) :
    Udp.isValid cfg (.v4 ip) b' = .ok false := by
  have hb : 8 ≤ b.length := by
    rw [Udp.noPayload_eq] at h; split at h
    · cases h
    · omega
  have hlen' := hburst.length
  unfold Udp.isValid Udp.checksum at hvalid ⊢
  rw [Udp.checksumOf_eq cfg ip _ hip, Outcome.ok_bind] at hvalid ⊢
  rw [hlen']
  obtain ⟨v, hs⟩ : ∃ s, readU16At b 6 = .ok s := ⟨_, readU16At_ok (by omega)⟩
  obtain ⟨v', hs'⟩ : ∃ s, readU16At b' 6 = .ok s := ⟨_, readU16At_ok (by omega)⟩
  rw [hs] at hvalid
  rw [hs']
  simp only [Outcome.ok_bind, Outcome.ok.injEq, beq_iff_eq] at hvalid ⊢
  apply beq_false_of_ne
  have e1 := loopWords_zeroed 3 b 0 (by omega)
  have e2 := loopWords_zeroed 3 b' 0 (by omega)
  simp only [Nat.zero_add, Nat.reduceMul, Nat.reduceAdd] at e1 e2
  cases hc : cfg.eofAdvances with
  | false =>
    simp only [hc, Bool.false_eq_true, if_false] at hvalid hin ⊢
    exact burst_core (k := 3) hburst (by omega) (pseudoSum ip 17#8 b.length) 0 (by omega) hs hs'
      (by simp only [Nat.reduceMul]; omega) (by simp only [Nat.reduceMul]; omega) hvalid
  | true =>
    simp only [hc, if_true, Nat.add_zero] at hvalid hin ⊢
    rw [oddWord_burst hburst hin] at e2
    exact burst_core (k := 3) hburst (by omega) (pseudoSum ip 17#8 b.length) (oddWord b) (by omega) hs hs'
      (by simp only [Nat.reduceMul]; omega) (by simp only [Nat.reduceMul]; omega) hvalid

/-- A concrete case that meets the hypotheses. -/
example (cfg : Cfg) := C84_udp_burst_detected cfg Sample.udpPacket Sample.udp (put Sample.udp 9 [7]) 72 8 (by decide)
    (by decide) (by in_every_build)
    ⟨by decide, by decide, Sample.outside (by decide) (by decide +kernel), by decide, by decide, by decide⟩
    (by in_every_build)

/-- C84 for TCP (even length, or a `std` whose failed `read_exact` does not move the cursor). -/
theorem C84_tcp_burst_detected (cfg : Cfg) (ip b b' : Bytes) (s w : Nat) (hip : 20 ≤ ip.length)
    (h : Tcp.new b = .ok b) (hb' : b.length ≤ 65535) (hodd : b.length % 2 = 0 ∨ cfg.eofAdvances = false)
    (hvalid : Tcp.isValid cfg (.v4 ip) b = .ok true) (hburst : Burst b b' s w) (hin : s + w ≤ 8 * b.length) :
    Tcp.isValid cfg (.v4 ip) b' = .ok false := by
  obtain ⟨-, hb, -⟩ := Tcp.new_ok_iff.1 h
  have hlen' := hburst.length
  unfold Tcp.isValid Tcp.checksum at hvalid ⊢
  rw [C07_tcp_checksum_rfc cfg ip b hip hb hb' hodd, Outcome.ok_bind, inetChecksum_eq,
    tcpMessage_sum hip (by omega)] at hvalid
  rw [C07_tcp_checksum_rfc cfg ip _ hip (by omega) (by omega) (by rw [hlen']; exact hodd),
    Outcome.ok_bind, inetChecksum_eq, tcpMessage_sum hip (by omega), hlen']
  obtain ⟨v, hs⟩ : ∃ s, readU16At b 16 = .ok s := ⟨_, readU16At_ok (by omega)⟩
  obtain ⟨v', hs'⟩ : ∃ s, readU16At b' 16 = .ok s := ⟨_, readU16At_ok (by omega)⟩
  rw [hs] at hvalid
  rw [hs']
  simp only [Outcome.ok_bind, Outcome.ok.injEq, beq_iff_eq] at hvalid ⊢
  apply beq_false_of_ne
  have e1 := loopWords_zeroed 8 b 0 (by omega)
  have e2 := loopWords_zeroed 8 b' 0 (by omega)
  simp only [Nat.zero_add, Nat.reduceMul, Nat.reduceAdd] at e1 e2
  exact burst_core (k := 8) hburst hin (pseudoSum ip 6#8 b.length) 0 (by omega) hs hs'
    (by simp only [Nat.reduceMul]; omega) (by simp only [Nat.reduceMul]; omega) hvalid

/-- A concrete case that meets the hypotheses. -/
example (cfg : Cfg) := C84_tcp_burst_detected cfg Sample.tcpPacket Sample.tcp (put Sample.tcp 9 [7]) 72 8 (by decide)
    (by decide) (by decide) (.inl (by decide)) (by in_every_build)
    ⟨by decide, by decide, Sample.outside (by decide) (by decide +kernel), by decide, by decide, by decide⟩
    (by decide)

/-! ### Misdelivery: the addresses of the enclosing packet -/

/-- The pseudo header's first 64 bits are bits 96 to 159 of the IPv4 header. -/
theorem pseudo_bits {ip : Bytes} (hip : 20 ≤ ip.length) (proto : U8) (n i : Nat) (hi : i < 64) :
    bitAt (pseudoHeader ((ip.drop 12).take 4) ((ip.drop 16).take 4) proto n) i = bitAt ip (96 + i) := by
  unfold bitAt pseudoHeader
  rw [show (96 + i) / 8 = 12 + i / 8 by omega, show (96 + i) % 8 = i % 8 by omega]
  congr 1
  simp only [List.getD_eq_getElem?_getD]
  congr 1
  have h1 : ((ip.drop 12).take 4).length = 4 := by rw [List.length_take, List.length_drop]; omega
  have h2 : ((ip.drop 16).take 4).length = 4 := by rw [List.length_take, List.length_drop]; omega
  rw [List.getElem?_append_left (by rw [List.length_append]; omega)]
  by_cases h : i / 8 < 4
  · rw [List.getElem?_append_left (by omega), List.getElem?_take_of_lt h, List.getElem?_drop]
  · rw [List.getElem?_append_right (by omega), h1, List.getElem?_take_of_lt (by omega), List.getElem?_drop]
    congr 1; omega

/-- A burst in the addresses changes the pseudo header's sum modulo 65535. -/
theorem pseudoSum_burst {ip ip' : Bytes} {s w : Nat} (hip : 20 ≤ ip.length) (h : Burst ip ip' s w)
    (h1 : 96 ≤ s) (h2 : s + w ≤ 160) (proto : U8) (n : Nat) :
    pseudoSum ip' proto n % 65535 ≠ pseudoSum ip proto n % 65535 := by
  have hl := h.length
  have hip' : 20 ≤ ip'.length := by omega
  have e1 := pseudoHeader_length hip proto n
  have e2 := pseudoHeader_length hip' proto n
  have hf : ∀ {c : Bytes}, 20 ≤ c.length →
      field (pseudoHeader ((c.drop 12).take 4) ((c.drop 16).take 4) proto n) (s - 96) w = field c s w := by
    intro c hc
    have : ∀ k, s - 96 + k ≤ 64 →
        field (pseudoHeader ((c.drop 12).take 4) ((c.drop 16).take 4) proto n) (s - 96) k = field c s k := by
      intro k
      induction k with
      | zero => intro _; rfl
      | succ k ih =>
        intro hk
        rw [field, field, ih (by omega), pseudo_bits hc _ _ _ (by omega),
          show 96 + (s - 96 + k) = s + k by omega]
    exact this w (by omega)
  unfold pseudoSum
  apply burst_sum (s := s - 96) (w := w) _ (by omega)
  refine ⟨by omega, h.short, ?_, by rw [hf hip, hf hip']; exact h.changed, by rw [hf hip, hf hip']; exact h.notZeros,
    by rw [hf hip, hf hip']; exact h.notOnes⟩
  intro i hi
  by_cases h64 : i < 64
  · rw [pseudo_bits hip _ _ _ h64, pseudo_bits hip' _ _ _ h64]
    exact h.frame _ (by omega)
  · unfold bitAt pseudoHeader
    have h1 : ∀ {c : Bytes}, 20 ≤ c.length → ((c.drop 12).take 4 ++ (c.drop 16).take 4).length = 8 := by
      intro c hc
      rw [List.length_append, List.length_take, List.length_take, List.length_drop, List.length_drop]; omega
    simp only [List.getD_eq_getElem?_getD]
    rw [List.getElem?_append_right (by rw [h1 hip']; omega), List.getElem?_append_right (by rw [h1 hip]; omega),
      h1 hip, h1 hip']

/-- C84 for UDP: a datagram that verifies under one IPv4 header does not verify under a header whose
source and destination addresses differ by a burst error. -/
theorem C84_udp_address_detected (cfg : Cfg) (ip ip' b : Bytes) (s w : Nat) (hip : 20 ≤ ip.length)
    (h : Udp.noPayload b = .ok b) (hvalid : Udp.isValid cfg (.v4 ip) b = .ok true) (hburst : Burst ip ip' s w)
    (h1 : 96 ≤ s) (h2 : s + w ≤ 160) : Udp.isValid cfg (.v4 ip') b = .ok false := by
  have hb : 8 ≤ b.length := by
    rw [Udp.noPayload_eq] at h; split at h
    · cases h
    · omega
  have hne := pseudoSum_burst hip hburst h1 h2 17#8 b.length
  have hlen' := hburst.length
  unfold Udp.isValid Udp.checksum at hvalid ⊢
  rw [Udp.checksumOf_eq cfg ip _ hip, Outcome.ok_bind] at hvalid
  rw [Udp.checksumOf_eq cfg ip' _ (by omega), Outcome.ok_bind]
  obtain ⟨v, hs⟩ : ∃ s, readU16At b 6 = .ok s := ⟨_, readU16At_ok (by omega)⟩
  rw [hs] at hvalid ⊢
  simp only [Outcome.ok_bind, Outcome.ok.injEq, beq_iff_eq] at hvalid ⊢
  apply beq_false_of_ne
  intro hbad
  have := (norm_eq_iff.1 (ckOf_inj.1 (hbad.trans hvalid.symm))).1
  omega

/-- A concrete case that meets the hypotheses. -/
example (cfg : Cfg) := C84_udp_address_detected cfg Sample.udpPacket (put Sample.udpPacket 13 [7]) Sample.udp 104 8
    (by decide) (by decide) (by in_every_build)
    ⟨by decide, by decide, Sample.outside (by decide) (by decide +kernel), by decide, by decide, by decide⟩
    (by decide) (by decide)

/-- The same for TCP. -/
theorem C84_tcp_address_detected (cfg : Cfg) (ip ip' b : Bytes) (s w : Nat) (hip : 20 ≤ ip.length)
    (h : Tcp.new b = .ok b) (hb' : b.length ≤ 65535)
    (hvalid : Tcp.isValid cfg (.v4 ip) b = .ok true) (hburst : Burst ip ip' s w)
    (h1 : 96 ≤ s) (h2 : s + w ≤ 160) : Tcp.isValid cfg (.v4 ip') b = .ok false := by
  obtain ⟨-, hb, -⟩ := Tcp.new_ok_iff.1 h
  have hne := pseudoSum_burst hip hburst h1 h2 6#8 b.length
  have hlen' := hburst.length
  unfold Tcp.isValid Tcp.checksum at hvalid ⊢
  rw [Tcp.checksumOf_eq cfg ip _ hip (by omega)] at hvalid
  rw [Tcp.checksumOf_eq cfg ip' _ (by omega) (by omega)]
  obtain ⟨v, hs⟩ : ∃ s, readU16At b 16 = .ok s := ⟨_, readU16At_ok (by omega)⟩
  by_cases hp : b.length % 2 = 1 ∧ cfg.eofAdvances = true
  · rw [if_pos hp] at hvalid; cases hvalid
  · rw [if_neg hp, Outcome.ok_bind, hs] at hvalid ⊢
    simp only [Outcome.ok_bind, Outcome.ok.injEq, beq_iff_eq] at hvalid ⊢
    apply beq_false_of_ne
    intro hbad
    have := (norm_eq_iff.1 (ckOf_inj.1 (hbad.trans hvalid.symm))).1
    omega

/-- A concrete case that meets the hypotheses. -/
example (cfg : Cfg) := C84_tcp_address_detected cfg Sample.tcpPacket (put Sample.tcpPacket 13 [7]) Sample.tcp 104 8
    (by decide) (by decide) (by decide) (by in_every_build)
    ⟨by decide, by decide, Sample.outside (by decide) (by decide +kernel), by decide, by decide, by decide⟩
    (by decide) (by decide)

/-- Why the window must not swap the two zeros of one's complement: the same datagram under another address
verifies.  (And a window of 17 bits is not always noticed.) -/
theorem C84_exception (cfg : Cfg) : ∃ ip ip' b : Bytes, V4.new ip = .ok ip ∧ V4.new ip' = .ok ip' ∧ ip ≠ ip' ∧
    Udp.new b = .ok b ∧ Udp.isValid cfg (.v4 ip) b = .ok true ∧ Udp.isValid cfg (.v4 ip') b = .ok true := by
  refine ⟨[0x45, 0, 0, 20, 0, 0, 0, 0, 64, 17, 0, 0, 10, 0, 0, 0, 10, 0, 0, 2],
    [0x45, 0, 0, 20, 0, 0, 0, 0, 64, 17, 0, 0, 10, 0, 0xff, 0xff, 10, 0, 0, 2], [0, 1, 0, 2, 0, 8, 0xeb, 0xd9],
    by decide, by decide, by decide, by decide, ?_, ?_⟩ <;>
  · unfold Udp.isValid
    rw [C06_udp_checksum_rfc cfg _ _ (by decide) (by decide) (Or.inl (by decide))]; decide

/-- The hypotheses are met by an unaligned burst over three bytes of a valid datagram. -/
example : Burst [0, 1, 0, 2, 0, 8, 0xff, 0xdb] [0, 1, 0x07, 0xfd, 0x80, 8, 0xff, 0xdb] 21 12 := by
  refine ⟨by decide, by decide, ?_, by decide, by decide, by decide⟩
  intro i hi
  by_cases h : i < 64
  · have : ∀ j, j < 64 → (j < 21 ∨ 21 + 12 ≤ j) → bitAt [0, 1, 0x07, 0xfd, 0x80, 8, 0xff, 0xdb] j =
      bitAt [0, 1, 0, 2, 0, 8, 0xff, 0xdb] j := by decide
    exact this i h hi
  · unfold bitAt
    simp only [List.getD_eq_getElem?_getD]
    rw [List.getElem?_eq_none (by simp; omega), List.getElem?_eq_none (by simp; omega)]

end Verif.Props
