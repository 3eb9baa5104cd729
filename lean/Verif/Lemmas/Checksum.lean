import Verif.Lemmas.Sum
import Verif.Lemmas.V4
import Verif.Model.Udp
import Verif.Model.Tcp
import Verif.Model.Icmp

/-! # What the four checksum functions compute -/

namespace Verif
open Spec

theorem zeroed_eq_put (m : Bytes) (off : Nat) : zeroed m off = put m off [0#8, 0#8] := by
  simp [zeroed, put]

theorem words_append {x y : Bytes} (h : x.length % 2 = 0) : words (x ++ y) = words x ++ words y := by
  induction x using words.induct with
  | case1 a b rest ih =>
    simp only [List.cons_append, words]
    rw [ih (by simp only [List.length_cons] at h; omega)]
  | case2 a => simp at h
  | case3 => rfl

/-- Writing a word at an even offset. -/
theorem words_put16 (k : Nat) : ∀ (m : Bytes) (v : U16), 2 * k + 2 ≤ m.length →
    (words (put m (2 * k) (be16 v))).sum = (words (zeroed m (2 * k))).sum + v.toNat := by
  induction k with
  | zero =>
    intro m v h
    match m with
    | [] => simp at h
    | [a] => simp at h
    | a :: b :: rest =>
      have := v.isLt
      simp [put, zeroed, words, be16]
      omega
  | succ k ih =>
    intro m v h
    match m with
    | [] => simp at h
    | [a] => simp at h
    | a :: b :: rest =>
      have hl : 2 * k + 2 ≤ rest.length := by simp only [List.length_cons] at h; omega
      have := ih rest v hl
      have hz : zeroed (a :: b :: rest) (2 * (k + 1)) = a :: b :: zeroed rest (2 * k) := by
        simp [zeroed, Nat.mul_add]
      have hp : put (a :: b :: rest) (2 * (k + 1)) (be16 v) = a :: b :: put rest (2 * k) (be16 v) := by
        simp [put, Nat.mul_add, be16]
      rw [hz, hp, words, words, List.sum_cons, List.sum_cons, this]
      omega

theorem zeroed_put16 {m : Bytes} {off : Nat} {v : U16} (h : off + 2 ≤ m.length) :
    zeroed (put m off (be16 v)) off = zeroed m off := by
  rw [zeroed_eq_put, zeroed_eq_put, put_put_same (by simpa [be16] using h) (by simp [be16])]

/-- Storing the checksum of the rest makes the receiver's sum all ones. -/
theorem norm_complement (n : Nat) : norm (n + (ckOf n).toNat) = 65535 := by
  rw [ckOf_toNat]
  unfold norm
  split <;> split <;> omega

/-- Changing one byte changes the sum of the words by the difference, weighted 256 or 1. -/
theorem words_put8 : ∀ (m : Bytes) (i : Nat) (x : U8), i < m.length →
    (words (put m i [x])).sum + (if i % 2 = 0 then 256 else 1) * (m.getD i 0#8).toNat
      = (words m).sum + (if i % 2 = 0 then 256 else 1) * x.toNat := by
  intro m
  induction m using words.induct with
  | case1 a b rest ih =>
    intro i x h
    match i with
    | 0 => simp [put, words]; omega
    | 1 => simp [put, words]; omega
    | i + 2 =>
      have := ih i x (by simp only [List.length_cons] at h; omega)
      have hp : put (a :: b :: rest) (i + 2) [x] = a :: b :: put rest i [x] := by
        simp [put]
      rw [hp, words, words, List.sum_cons, List.sum_cons, show (i + 2) % 2 = i % 2 by omega]
      simp only [List.getD_cons_succ]
      omega
  | case2 a =>
    intro i x h
    have : i = 0 := by simpa using h
    subst this
    simp [put, words]; omega
  | case3 => intro i x h; simp at h

/-- A changed byte changes the one's complement checksum. -/
theorem ckOf_words_put8_ne {c d : Nat} {m : Bytes} {i : Nat} {x : U8} (h : i < m.length)
    (hx : x ≠ m.getD i 0#8) (hcd : d + (words (put m i [x])).sum = c) {c' : Nat}
    (hcd' : d + (words m).sum = c') : ckOf c ≠ ckOf c' := by
  intro heq
  have h1 := (norm_eq_iff.1 (ckOf_inj.1 heq)).1
  have h2 := words_put8 m i x h
  have h3 : x.toNat ≠ (m.getD i 0#8).toNat := fun h => hx (BitVec.eq_of_toNat_eq h)
  have := x.isLt; have := (m.getD i 0#8).isLt
  split at h2 <;> omega

theorem V4.checksumOf_eq (cfg : Cfg) (b : Bytes) :
    V4.checksumOf cfg b = .ok (ckOf (65535 + (loopWords 12 b 0).sum)) := by
  unfold V4.checksumOf
  rw [sumLoop_eq _ _ _ _ _ (by decide)]
  simp only [Outcome.ok_bind]
  have : (0xffff#32).toNat = norm 65535 := by decide
  rw [this, foldl_ocAdd (loopWords_le _ _ _), notU16_ofNat (norm_le _)]
  rfl

theorem Icmp.checksumOf_eq (cfg : Cfg) (b : Bytes) :
    Icmp.checksumOf cfg b = .ok (ckOf (65535 + (loopWords 4 b 0).sum)) := by
  unfold Icmp.checksumOf
  rw [sumLoop_eq _ _ _ _ _ (by decide)]
  simp only [Outcome.ok_bind]
  have : (0xffff#32).toNat = norm 65535 := by decide
  rw [this, foldl_ocAdd (loopWords_le _ _ _), notU16_ofNat (norm_le _)]
  rfl

theorem V4.source_eq {p : Bytes} (h : 20 ≤ p.length) :
    V4.source p = .ok ⟨p.getD 12 0#8, p.getD 13 0#8, p.getD 14 0#8, p.getD 15 0#8⟩ := by
  unfold V4.source
  rw [idx_ok (by omega), idx_ok (by omega), idx_ok (by omega), idx_ok (by omega)]
  rfl

theorem V4.destination_eq {p : Bytes} (h : 20 ≤ p.length) :
    V4.destination p = .ok ⟨p.getD 16 0#8, p.getD 17 0#8, p.getD 18 0#8, p.getD 19 0#8⟩ := by
  unfold V4.destination
  rw [idx_ok (by omega), idx_ok (by omega), idx_ok (by omega), idx_ok (by omega)]
  rfl

theorem take4_drop {p : Bytes} {k : Nat} (h : k + 4 ≤ p.length) :
    (p.drop k).take 4 = [p.getD k 0#8, p.getD (k + 1) 0#8, p.getD (k + 2) 0#8, p.getD (k + 3) 0#8] := by
  have : p.drop k = p.getD k 0#8 :: p.getD (k + 1) 0#8 :: p.getD (k + 2) 0#8
      :: p.getD (k + 3) 0#8 :: p.drop (k + 4) := by
    rw [List.drop_eq_getElem_cons (by omega), List.drop_eq_getElem_cons (by omega),
      List.drop_eq_getElem_cons (by omega), List.drop_eq_getElem_cons (by omega)]
    simp [List.getD, List.getElem?_eq_getElem (show k < p.length by omega),
      List.getElem?_eq_getElem (show k + 1 < p.length by omega),
      List.getElem?_eq_getElem (show k + 2 < p.length by omega),
      List.getElem?_eq_getElem (show k + 3 < p.length by omega)]
  rw [this]; rfl

theorem be16_ofNat (n : Nat) :
    be16 (BitVec.ofNat 16 n) = [BitVec.ofNat 8 (n / 256), BitVec.ofNat 8 n] := by
  have h1 : BitVec.ofNat 8 ((BitVec.ofNat 16 n).toNat / 256) = BitVec.ofNat 8 (n / 256) := by
    apply BitVec.eq_of_toNat_eq; simp; omega
  have h2 : BitVec.ofNat 8 (BitVec.ofNat 16 n).toNat = BitVec.ofNat 8 n := by
    apply BitVec.eq_of_toNat_eq; simp
  rw [be16, h1, h2]

/-- The model's pseudo header is the RFC one, for the addresses stored in the IP header `p`. -/
theorem pseudoPrefix_eq {p : Bytes} (h : 20 ≤ p.length) {s d : Ipv4Addr} (hs : V4.source p = .ok s)
    (hd : V4.destination p = .ok d) (proto : IpProtocol) (n : Nat) :
    pseudoPrefix s d proto n
      = pseudoHeader ((p.drop 12).take 4) ((p.drop 16).take 4) proto.toWire n := by
  rw [V4.source_eq h] at hs
  rw [V4.destination_eq h] at hd
  cases hs; cases hd
  rw [take4_drop (by omega), take4_drop (by omega), pseudoPrefix, be16_ofNat]
  rfl

theorem loopWords_zero (b : Bytes) (hb : b.length % 2 = 0) : (loopWords 0 b 0).sum = (words b).sum := by
  have := loopWords_past (skip := 0) (pos := 0) (by omega) b
  rw [oddWord_even hb] at this
  omega

theorem zext_shl8_toNat (v : U8) : ((v.zeroExtend 16) <<< 8 : U16).toNat = v.toNat * 256 := by
  have := v.isLt
  simp [BitVec.zeroExtend, BitVec.toNat_shiftLeft, Nat.shiftLeft_eq]; omega

theorem zext32_shl8_toNat (v : U8) : ((v.zeroExtend 32) <<< 8 : U32).toNat = v.toNat * 256 := by
  have := v.isLt
  simp [BitVec.zeroExtend, BitVec.toNat_shiftLeft, Nat.shiftLeft_eq]; omega

theorem ofNat32_toNat {n : Nat} (h : n ≤ 65535) : (BitVec.ofNat 32 n).toNat = n := by
  simp; omega

/-- The sum the pseudo header contributes. -/
def pseudoSum (p : Bytes) (proto : U8) (n : Nat) : Nat :=
  (words (pseudoHeader ((p.drop 12).take 4) ((p.drop 16).take 4) proto n)).sum

theorem pseudoHeader_length {p : Bytes} (h : 20 ≤ p.length) (proto : U8) (n : Nat) :
    (pseudoHeader ((p.drop 12).take 4) ((p.drop 16).take 4) proto n).length = 12 := by
  simp [pseudoHeader, List.length_take, List.length_drop]; omega

theorem Udp.checksumOf_eq (cfg : Cfg) (p b : Bytes) (h : 20 ≤ p.length) :
    Udp.checksumOf cfg (.v4 p) b = .ok (ckOf (pseudoSum p 17#8 b.length + (loopWords 8 b 0).sum
      + if cfg.eofAdvances then 0 else oddWord b)) := by
  obtain ⟨s, hs⟩ : ∃ s, V4.source p = .ok s := ⟨_, V4.source_eq h⟩
  obtain ⟨d, hd⟩ : ∃ d, V4.destination p = .ok d := ⟨_, V4.destination_eq h⟩
  have hpre := pseudoPrefix_eq h hs hd .udp b.length
  have hlen := pseudoHeader_length h IpProtocol.udp.toWire b.length
  have hw : IpProtocol.udp.toWire = 17#8 := rfl
  rw [hw] at hpre hlen
  have n0 : (0x0000#32).toNat = norm 0 := by decide
  unfold Udp.checksumOf
  simp only [hs, hd, Outcome.ok_bind, hpre]
  rw [sumLoop_eq _ _ _ _ _ (by decide)]
  simp only [Outcome.ok_bind]
  rw [n0, foldl_ocAdd (loopWords_le _ _ _), Nat.zero_add, loopWords_zero _ (by omega)]
  rw [sumLoop_eq _ _ _ _ _ (by rw [ofNat32_toNat (norm_le _)]; exact norm_le _)]
  simp only [Outcome.ok_bind]
  rw [ofNat32_toNat (norm_le _), foldl_ocAdd (loopWords_le _ _ _)]
  change (match (Cursor.readU8 cfg (Cursor.atEof cfg ⟨oddTail b, _⟩)).1 with
    | .ok v => _
    | _ => _) = _
  by_cases he : cfg.eofAdvances
  · simp only [Cursor.atEof, he, if_true, Cursor.readU8]
    rw [notU16_ofNat (norm_le _)]
    simp only [Nat.add_zero, pseudoSum]; rfl
  · simp only [Cursor.atEof, he, Cursor.readU8]
    rcases oddTail_cases b with ⟨ht, _⟩ | ⟨a, ht, _, _⟩
    · have : oddWord b = 0 := by simp [oddWord, ht]
      simp only [ht, this]
      simp only [Bool.false_eq_true, if_false, Nat.add_zero]
      rw [notU16_ofNat (norm_le _)]
      rfl
    · have ho : oddWord b = a.toNat * 256 := by simp [oddWord, ht]
      have := a.isLt
      simp only [ht, ho]
      simp only [Bool.false_eq_true, if_false]
      rw [addFold_eq (by rw [ofNat32_toNat (norm_le _)]; exact norm_le _), Outcome.ok_bind,
        ofNat32_toNat (norm_le _), zext_shl8_toNat, ocAdd_norm (by omega), notU16_ofNat (norm_le _)]
      simp only [pseudoSum]
      rfl

theorem loopWords_length (skip : Nat) (b : Bytes) (pos : Nat) :
    (loopWords skip b pos).length ≤ b.length / 2 := by
  induction b, pos using loopWords.induct skip with
  | case1 a b rest pos h ih =>
    rw [loopWords, if_pos h]; simp only [List.length_cons]; omega
  | case2 a b rest pos h ih =>
    rw [loopWords, if_neg h]; simp only [List.length_cons]; omega
  | case3 t pos h =>
    rw [loopWords]
    · simp
    · exact h

theorem sum_le_of_le {ws : List Nat} {m : Nat} (h : ∀ w ∈ ws, w ≤ m) : ws.sum ≤ ws.length * m := by
  induction ws with
  | nil => simp
  | cons w ws ih =>
    have := h w (by simp)
    have := ih (fun x hx => h x (by simp [hx]))
    rw [List.sum_cons, List.length_cons, Nat.succ_mul]
    omega

theorem loopWords_sum_le (skip : Nat) (b : Bytes) (pos : Nat) :
    (loopWords skip b pos).sum ≤ b.length / 2 * 65535 :=
  Nat.le_trans (sum_le_of_le (loopWords_le skip b pos))
    (Nat.mul_le_mul_right _ (loopWords_length skip b pos))

theorem oddWord_le (b : Bytes) : oddWord b ≤ 65280 := by
  unfold oddWord
  split
  · rename_i a _; have := a.isLt; omega
  · omega

theorem words_sum_le (m : Bytes) : (words m).sum ≤ (m.length + 1) / 2 * 65535 := by
  refine Nat.le_trans (sum_le_of_le (words_le m)) (Nat.mul_le_mul_right _ ?_)
  induction m using words.induct with
  | case1 a b rest ih => simp only [words, List.length_cons]; omega
  | case2 a => simp [words]
  | case3 => simp [words]

theorem pseudoSum_le {p : Bytes} (h : 20 ≤ p.length) (proto : U8) (n : Nat) :
    pseudoSum p proto n ≤ 6 * 65535 := by
  have h1 := words_sum_le (pseudoHeader ((p.drop 12).take 4) ((p.drop 16).take 4) proto n)
  rw [pseudoHeader_length h] at h1
  exact h1

theorem Tcp.checksumOf_eq (cfg : Cfg) (p b : Bytes) (h : 20 ≤ p.length) (hb : b.length ≤ 131000) :
    Tcp.checksumOf cfg (.v4 p) b =
      if b.length % 2 = 1 ∧ cfg.eofAdvances = true then .panic
      else .ok (ckOf (pseudoSum p 6#8 b.length + (loopWords 18 b 0).sum + oddWord b)) := by
  obtain ⟨s, hs⟩ : ∃ s, V4.source p = .ok s := ⟨_, V4.source_eq h⟩
  obtain ⟨d, hd⟩ : ∃ d, V4.destination p = .ok d := ⟨_, V4.destination_eq h⟩
  have hpre := pseudoPrefix_eq h hs hd .tcp b.length
  have hlen := pseudoHeader_length h IpProtocol.tcp.toWire b.length
  have hw : IpProtocol.tcp.toWire = 6#8 := rfl
  rw [hw] at hpre hlen
  have hps := pseudoSum_le h 6#8 b.length
  have hls := loopWords_sum_le 18 b 0
  have hov := oddWord_le b
  have hmul : b.length / 2 * 65535 ≤ 65500 * 65535 := Nat.mul_le_mul_right _ (by omega)
  have hbound : pseudoSum p 6#8 b.length + (loopWords 18 b 0).sum + oddWord b < 2 ^ 32 := by omega
  unfold Tcp.checksumOf
  simp only [hs, hd, Outcome.ok_bind, hpre]
  have hl0 : (loopWords 0 (pseudoHeader ((p.drop 12).take 4) ((p.drop 16).take 4) 6#8 b.length) 0).sum
      = pseudoSum p 6#8 b.length := loopWords_zero _ (by omega)
  have z0 : (0#32).toNat = 0 := rfl
  rw [plainLoop_eq _ _ _ _ _ _ (by rw [hl0, z0]; omega)]
  simp only [Outcome.ok_bind]
  rw [hl0, z0, Nat.zero_add]
  have hto : (BitVec.ofNat 32 (pseudoSum p 6#8 b.length)).toNat = pseudoSum p 6#8 b.length := by
    simp; omega
  rw [plainLoop_eq _ _ _ _ _ _ (by rw [hto]; omega)]
  simp only [Outcome.ok_bind]
  rw [hto]
  have hto2 : (BitVec.ofNat 32 (pseudoSum p 6#8 b.length + (loopWords 18 b 0).sum)).toNat
      = pseudoSum p 6#8 b.length + (loopWords 18 b 0).sum := by
    simp; omega
  rcases oddTail_cases b with ⟨ht, hl⟩ | ⟨a, ht, hl, _⟩
  · have ho : oddWord b = 0 := by simp [oddWord, ht]
    rw [if_neg (by omega), if_neg (by omega), notU16_carryFold, hto2, ho, Nat.add_zero]
  · have ho : oddWord b = a.toNat * 256 := by simp [oddWord, ht]
    rw [if_pos (by omega)]
    by_cases he : cfg.eofAdvances
    · rw [if_pos ⟨hl, he⟩]
      simp [Cursor.atEof, he, Cursor.readU8]
    · rw [if_neg (by simp [he])]
      have hz := zext32_shl8_toNat a
      have : addU32 cfg (BitVec.ofNat 32 (pseudoSum p 6#8 b.length + (loopWords 18 b 0).sum))
          (a.zeroExtend 32 <<< 8) =
          .ok (BitVec.ofNat 32 (pseudoSum p 6#8 b.length + (loopWords 18 b 0).sum) + (a.zeroExtend 32 <<< 8)) := by
        unfold addU32; rw [if_pos (by omega)]
      simp only [Cursor.atEof, he, ht, Cursor.readU8, Bool.false_eq_true, if_false, Outcome.unwrap_ok,
        Outcome.ok_bind, this]
      rw [notU16_carryFold, BitVec.toNat_add, hto2, hz, ho, Nat.mod_eq_of_lt (by omega)]

end Verif
