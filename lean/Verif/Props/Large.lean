import Verif.Props.Padding
import Verif.Samples

/-!
# Checksums of segments of any size (C91), and of replies (C90)
-/

namespace Verif.Props
open Verif Verif.Spec

/-- The accumulating loop in both overflow profiles, without a bound on what it adds. -/
theorem plainLoop_any (cfg : Cfg) (skip : Nat) (b : Bytes) (pos n : Nat) (r : U32) :
    plainLoop cfg skip b pos n r =
      if cfg.overflowChecks = true ∧ 2 ^ 32 ≤ r.toNat + (loopWords skip b pos).sum then .panic
      else .ok (BitVec.ofNat 32 (r.toNat + (loopWords skip b pos).sum), n + (b.length - b.length % 2),
        Cursor.atEof cfg ⟨oddTail b, pos + (b.length - b.length % 2)⟩) := by
  induction b, pos, n, r using plainLoop.induct skip with
  | case1 a b rest pos n r h ih =>
    rw [loopWords, if_pos h]
    rw [plainLoop, if_pos h, ih]
    simp only [List.length_cons, oddTail]
    rw [show n + 2 + (rest.length - rest.length % 2)
        = n + (rest.length + 1 + 1 - (rest.length + 1 + 1) % 2) by omega,
      show pos + 2 + (rest.length - rest.length % 2)
        = pos + (rest.length + 1 + 1 - (rest.length + 1 + 1) % 2) by omega]
  | case2 a b rest pos n r h ih =>
    have hv := fromBe16_toNat a b
    have h1 := (fromBe16 a b).isLt
    have hz : ((fromBe16 a b).zeroExtend 32).toNat = a.toNat * 256 + b.toNat := by
      simp [BitVec.zeroExtend, hv]; omega
    rw [loopWords, if_neg h, List.sum_cons, plainLoop, if_neg h]
    obtain ⟨w, hw⟩ : ∃ w, w = a.toNat * 256 + b.toNat := ⟨_, rfl⟩
    obtain ⟨s, hs⟩ : ∃ s, s = (loopWords skip rest (pos + 2)).sum := ⟨_, rfl⟩
    rw [← hw] at hz
    rw [← hw, ← hs]
    rw [← hs] at ih
    by_cases hlt : r.toNat + w < 2 ^ 32
    · have hadd : (r + (fromBe16 a b).zeroExtend 32).toNat = r.toNat + w := by
        rw [BitVec.toNat_add, hz]; omega
      have : addU32 cfg r ((fromBe16 a b).zeroExtend 32) = .ok (r + (fromBe16 a b).zeroExtend 32) := by
        unfold addU32; rw [if_pos (by omega)]
      rw [this, Outcome.ok_bind, ih, hadd]
      simp only [List.length_cons, oddTail]
      rw [show r.toNat + w + s = r.toNat + (w + s) by omega,
        show n + 2 + (rest.length - rest.length % 2)
          = n + (rest.length + 1 + 1 - (rest.length + 1 + 1) % 2) by omega,
        show pos + 2 + (rest.length - rest.length % 2)
          = pos + (rest.length + 1 + 1 - (rest.length + 1 + 1) % 2) by omega]
    · by_cases ho : cfg.overflowChecks
      · have : addU32 cfg r ((fromBe16 a b).zeroExtend 32) = .panic := by
          unfold addU32; rw [if_neg (by omega), if_pos ho]
        rw [this, Outcome.panic_bind, if_pos ⟨ho, by omega⟩]
      · have hadd : (r + (fromBe16 a b).zeroExtend 32).toNat = r.toNat + w - 2 ^ 32 := by
          have := r.isLt
          rw [BitVec.toNat_add, hz]; omega
        have : addU32 cfg r ((fromBe16 a b).zeroExtend 32) = .ok (r + (fromBe16 a b).zeroExtend 32) := by
          unfold addU32; rw [if_neg (by omega), if_neg ho]
        rw [this, Outcome.ok_bind, ih, hadd, if_neg (fun h => ho h.1), if_neg (fun h => ho h.1)]
        simp only [List.length_cons, oddTail]
        rw [show n + 2 + (rest.length - rest.length % 2)
            = n + (rest.length + 1 + 1 - (rest.length + 1 + 1) % 2) by omega,
          show pos + 2 + (rest.length - rest.length % 2)
            = pos + (rest.length + 1 + 1 - (rest.length + 1 + 1) % 2) by omega]
        have : BitVec.ofNat 32 (r.toNat + w - 2 ^ 32 + s) = BitVec.ofNat 32 (r.toNat + (w + s)) := by
          apply BitVec.eq_of_toNat_eq
          simp only [BitVec.toNat_ofNat]
          omega
        rw [this]
  | case3 t pos n r h =>
    have hs : (loopWords skip t pos).sum = 0 := by
      match t with
      | [] => simp [loopWords]
      | [a] => simp [loopWords]
      | a :: b :: r => exact absurd rfl (h a b r)
    have hr := r.isLt
    rw [if_neg (by omega), hs]
    match t with
    | [] => simp [plainLoop, oddTail]
    | [a] => simp [plainLoop, oddTail]
    | a :: b :: r => exact absurd rfl (h a b r)

/-- `tcp::checksum` on every segment, of any size, in every configuration. -/
theorem tcp_checksum_any (cfg : Cfg) (p b : Bytes) (h : 20 ≤ p.length) :
    Tcp.checksumOf cfg (.v4 p) b =
      if (b.length % 2 = 1 ∧ cfg.eofAdvances = true) ∨ (cfg.overflowChecks = true ∧
          2 ^ 32 ≤ pseudoSum p 6#8 b.length + (loopWords 18 b 0).sum + oddWord b) then .panic
      else .ok (ckOf ((pseudoSum p 6#8 b.length + (loopWords 18 b 0).sum + oddWord b) % 2 ^ 32)) := by
  obtain ⟨s, hs⟩ : ∃ s, V4.source p = .ok s := ⟨_, V4.source_eq h⟩
  obtain ⟨d, hd⟩ : ∃ d, V4.destination p = .ok d := ⟨_, V4.destination_eq h⟩
  have hpre := pseudoPrefix_eq h hs hd .tcp b.length
  have hlen := pseudoHeader_length h IpProtocol.tcp.toWire b.length
  have hw : IpProtocol.tcp.toWire = 6#8 := rfl
  rw [hw] at hpre hlen
  have hps := pseudoSum_le h 6#8 b.length
  unfold Tcp.checksumOf
  simp only [hs, hd, Outcome.ok_bind, hpre]
  have hl0 : (loopWords 0 (pseudoHeader ((p.drop 12).take 4) ((p.drop 16).take 4) 6#8 b.length) 0).sum
      = pseudoSum p 6#8 b.length := loopWords_zero _ (by omega)
  have z0 : (0#32).toNat = 0 := rfl
  rw [plainLoop_eq _ _ _ _ _ _ (by rw [hl0, z0]; omega)]
  simp only [Outcome.ok_bind]
  rw [hl0, z0, Nat.zero_add]
  have hto : (BitVec.ofNat 32 (pseudoSum p 6#8 b.length)).toNat = pseudoSum p 6#8 b.length := by
    simp; omega
  rw [plainLoop_any, hto]
  generalize pseudoSum p 6#8 b.length + (loopWords 18 b 0).sum = S
  by_cases hov : cfg.overflowChecks = true ∧ 2 ^ 32 ≤ S
  · rw [if_pos hov, Outcome.panic_bind, if_pos (Or.inr ⟨hov.1, by omega⟩)]
  · rw [if_neg hov]
    simp only [Outcome.ok_bind]
    have hto2 : (BitVec.ofNat 32 S).toNat = S % 2 ^ 32 := by simp
    rcases oddTail_cases b with ⟨ht, hl⟩ | ⟨a, ht, hl, _⟩
    · have ho : oddWord b = 0 := by simp [oddWord, ht]
      rw [if_neg (by omega), notU16_carryFold, hto2, ho, Nat.add_zero, if_neg]
      rintro (h1 | h1)
      · omega
      · exact hov h1
    · have ho : oddWord b = a.toNat * 256 := by simp [oddWord, ht]
      rw [if_pos (by omega)]
      by_cases he : cfg.eofAdvances
      · rw [if_pos (Or.inl ⟨hl, he⟩)]
        simp [Cursor.atEof, he, Cursor.readU8]
      · have hz := zext32_shl8_toNat a
        have ha := a.isLt
        simp only [Cursor.atEof, he, ht, Cursor.readU8, Bool.false_eq_true, if_false, Outcome.unwrap_ok,
          Outcome.ok_bind]
        by_cases hlt : S % 2 ^ 32 + a.toNat * 256 < 2 ^ 32
        · have : addU32 cfg (BitVec.ofNat 32 S) (a.zeroExtend 32 <<< 8) =
              .ok (BitVec.ofNat 32 S + (a.zeroExtend 32 <<< 8)) := by
            unfold addU32; rw [if_pos (by omega)]
          rw [this, Outcome.ok_bind, notU16_carryFold, BitVec.toNat_add, hto2, hz, ho, if_neg]
          · congr 2; omega
          · rintro (h1 | h1)
            · exact h1.2
            · exact hov ⟨h1.1, by omega⟩
        · by_cases hoc : cfg.overflowChecks
          · have : addU32 cfg (BitVec.ofNat 32 S) (a.zeroExtend 32 <<< 8) = .panic := by
              unfold addU32; rw [if_neg (by omega), if_pos hoc]
            rw [this, Outcome.panic_bind, if_pos (Or.inr ⟨hoc, by omega⟩)]
          · have : addU32 cfg (BitVec.ofNat 32 S) (a.zeroExtend 32 <<< 8) =
                .ok (BitVec.ofNat 32 S + (a.zeroExtend 32 <<< 8)) := by
              unfold addU32; rw [if_neg (by omega), if_neg hoc]
            rw [this, Outcome.ok_bind, notU16_carryFold, BitVec.toNat_add, hto2, hz, ho, if_neg]
            · congr 2; omega
            · rintro (h1 | h1)
              · exact h1.2
              · exact hoc h1.1

/-! ## C91 -/

/-- C91 where it holds: as long as the 16-bit words of pseudo header and segment sum to less than 2^32
(every segment of up to 131060 bytes, and longer ones with small words). -/
theorem C91_tcp_checksum_fits_partial (cfg : Cfg) (ip b : Bytes) (hip : 20 ≤ ip.length) (hb : 20 ≤ b.length)
    (hodd : b.length % 2 = 0 ∨ cfg.eofAdvances = false) (hsum : (words (tcpMessage ip b)).sum < 2 ^ 32) :
    Tcp.checksumOf cfg (.v4 ip) b = .ok (inetChecksum (tcpMessage ip b)) := by
  rw [tcp_checksum_any cfg ip b hip, inetChecksum_eq]
  rw [tcpMessage_sum hip (by omega)] at hsum ⊢
  rw [if_neg, Nat.mod_eq_of_lt hsum]
  rintro (h1 | h1)
  · rcases hodd with h | h
    · omega
    · rw [h] at h1; exact absurd h1.2 (by decide)
  · omega

/-- A concrete case that meets the hypotheses. -/
example (cfg : Cfg) := C91_tcp_checksum_fits_partial cfg Sample.tcpPacket Sample.tcp (by decide) (by decide)
    (.inl (by decide)) (by decide)

/-- The sum is below 2^32 for every segment of up to 131060 bytes. -/
theorem C91_tcp_checksum_small_partial (cfg : Cfg) (ip b : Bytes) (hip : 20 ≤ ip.length) (hb : 20 ≤ b.length)
    (hb' : b.length ≤ 131060) (hodd : b.length % 2 = 0 ∨ cfg.eofAdvances = false) :
    Tcp.checksumOf cfg (.v4 ip) b = .ok (inetChecksum (tcpMessage ip b)) := by
  apply C91_tcp_checksum_fits_partial cfg ip b hip hb hodd
  have h1 := words_sum_le (tcpMessage ip b)
  have hl : (tcpMessage ip b).length = 12 + b.length := by
    unfold tcpMessage
    rw [List.length_append, pseudoHeader_length hip]
    simp only [zeroed, List.length_append, List.length_take, List.length_drop, List.length_cons, List.length_nil]
    omega
  have : ((tcpMessage ip b).length + 1) / 2 * 65535 ≤ 65536 * 65535 := Nat.mul_le_mul_right _ (by omega)
  omega

/-- A concrete case that meets the hypotheses. -/
example (cfg : Cfg) := C91_tcp_checksum_small_partial cfg Sample.tcpPacket Sample.tcp (by decide) (by decide)
    (by decide) (.inl (by decide))

/-- C91 is false of the code beyond that: with overflow checks `checksum` panics, without them the result is
not the Internet checksum (one is lost for every wrap of the 32-bit accumulator). -/
theorem C91_tcp_checksum_large_refuted (cfg : Cfg) (ip b : Bytes) (hip : 20 ≤ ip.length) (hb : 20 ≤ b.length)
    (hodd : b.length % 2 = 0 ∨ cfg.eofAdvances = false) (hsum : 2 ^ 32 ≤ (words (tcpMessage ip b)).sum) :
    (cfg.overflowChecks = true → Tcp.checksumOf cfg (.v4 ip) b = .panic) ∧
    (cfg.overflowChecks = false → (words (tcpMessage ip b)).sum < 65535 * 2 ^ 32 →
      ∃ c, Tcp.checksumOf cfg (.v4 ip) b = .ok c ∧ c ≠ inetChecksum (tcpMessage ip b)) := by
  rw [tcp_checksum_any cfg ip b hip, inetChecksum_eq]
  have hpos : 0 < pseudoSum ip 6#8 b.length := by
    unfold pseudoSum pseudoHeader
    rw [take4_drop (by omega), take4_drop (by omega)]
    simp only [List.cons_append, List.nil_append, words, List.sum_cons, List.sum_nil]
    have : (0#8).toNat * 256 + (6#8).toNat = 6 := rfl
    rw [this]
    refine Nat.lt_of_lt_of_le (show 0 < 6 by decide) ?_
    refine Nat.le_trans ?_ (Nat.le_add_left _ _)
    refine Nat.le_trans ?_ (Nat.le_add_left _ _)
    refine Nat.le_trans ?_ (Nat.le_add_left _ _)
    refine Nat.le_trans ?_ (Nat.le_add_left _ _)
    exact Nat.le_add_right _ _
  rw [tcpMessage_sum hip (by omega)] at hsum ⊢
  generalize pseudoSum ip 6#8 b.length + (loopWords 18 b 0).sum + oddWord b = S at hsum ⊢
  constructor
  · intro ho
    rw [if_pos (Or.inr ⟨ho, hsum⟩)]
  · intro ho hlt
    refine ⟨_, if_neg ?_, ?_⟩
    · rintro (h1 | h1)
      · rcases hodd with h | h
        · omega
        · rw [h] at h1; exact absurd h1.2 (by decide)
      · rw [ho] at h1; exact absurd h1.1 (by decide)
    · intro hc
      rw [ckOf_inj, norm_eq_iff] at hc
      omega

theorem words_ones : ∀ n, (words (List.replicate (2 * n) 0xff#8)).sum = n * 65535
  | 0 => rfl
  | n + 1 => by
    rw [show 2 * (n + 1) = 2 * n + 2 by omega, List.replicate_succ, List.replicate_succ, words, List.sum_cons,
      words_ones n]
    have : (0xff#8).toNat * 256 + (0xff#8).toNat = 65535 := rfl
    rw [this, Nat.succ_mul, Nat.add_comm]

/-- Such a segment: 140000 bytes, all ones. -/
theorem large_segment : ∃ ip b : Bytes, V4.new ip = .ok ip ∧ Tcp.new b = .ok b ∧ b.length % 2 = 0 ∧
    2 ^ 32 ≤ (words (tcpMessage ip b)).sum ∧ (words (tcpMessage ip b)).sum < 65535 * 2 ^ 32 := by
  have hl : (List.replicate 140000 0xff#8).length = 140000 := List.length_replicate ..
  have hip : V4.new [0x45, 0, 0, 20, 0, 0, 0, 0, 64, 6, 0, 0, 10, 0, 0, 1, 10, 0, 0, 2] =
    .ok [0x45, 0, 0, 20, 0, 0, 0, 0, 64, 6, 0, 0, 10, 0, 0, 1, 10, 0, 0, 2] := by decide +kernel
  refine ⟨_, List.replicate 140000 0xff#8, hip, ?_, by rw [hl], ?_⟩
  · refine Tcp.new_ok_iff.2 ⟨rfl, by omega, ?_⟩
    have := field_lt (List.replicate 140000 0xff#8) 96 4
    omega
  · have hw := words_ones 69990
    have hz : zeroed (List.replicate 140000 0xff#8) 16 =
        List.replicate (2 * 8) 0xff#8 ++ ([0#8, 0#8] ++ List.replicate (2 * 69991) 0xff#8) := by
      unfold zeroed
      rw [List.take_replicate, List.drop_replicate, List.append_assoc, show min 16 140000 = 2 * 8 by decide,
        show 140000 - (16 + 2) = 2 * 69991 by decide]
    have h1 := words_ones 8
    have h2 := words_ones 69991
    unfold tcpMessage
    rw [words_append (by rw [pseudoHeader_length (by decide)]), List.sum_append, hz,
      words_append (by rw [List.length_replicate]), List.sum_append, h1,
      words_append (x := [0#8, 0#8]) (by rfl), List.sum_append, h2]
    have hp := pseudoSum_le (p := [0x45, 0, 0, 20, 0, 0, 0, 0, 64, 6, 0, 0, 10, 0, 0, 1, 10, 0, 0, 2])
      (by decide) 6#8 (List.replicate 140000 0xff#8).length
    unfold pseudoSum at hp
    have hzz : (words [0#8, 0#8]).sum = 0 := rfl
    rw [hzz]
    omega

end Verif.Props
