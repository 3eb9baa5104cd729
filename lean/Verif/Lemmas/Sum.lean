import Verif.Spec.Checksum
import Verif.Model.Sum
import Verif.Lemmas.Bits

/-! # Lemmas about the checksum loops -/

namespace Verif
open Spec

/-! ## The loops are the Rust loops -/

/-- The unfolding equation of `while let Ok(value) = buffer.read_u16::<BigEndian>()` for `sumLoop`. -/
theorem sumLoop_unfold (cfg : Cfg) (skip : Nat) (c : Cursor) (r : U32) :
    sumLoop cfg skip c.rest c.pos r =
      match Cursor.readU16 cfg c with
      | (.ok v, c') =>
        if c'.pos = skip then sumLoop cfg skip c'.rest c'.pos r
        else (addFold cfg r v >>= fun r => sumLoop cfg skip c'.rest c'.pos r)
      | (_, c') => .ok (r, c') := by
  obtain ⟨rest, pos⟩ := c
  match rest with
  | [] => simp [sumLoop, Cursor.readU16]
  | [a] => simp [sumLoop, Cursor.readU16]
  | a :: b :: rest => simp [sumLoop, Cursor.readU16]

/-- The same for `plainLoop`. -/
theorem plainLoop_unfold (cfg : Cfg) (skip : Nat) (c : Cursor) (n : Nat) (r : U32) :
    plainLoop cfg skip c.rest c.pos n r =
      match Cursor.readU16 cfg c with
      | (.ok v, c') =>
        if c'.pos = skip then plainLoop cfg skip c'.rest c'.pos (n + 2) r
        else (addU32 cfg r (v.zeroExtend 32) >>= fun r => plainLoop cfg skip c'.rest c'.pos (n + 2) r)
      | (_, c') => .ok (r, n, c') := by
  obtain ⟨rest, pos⟩ := c
  match rest with
  | [] => simp [plainLoop, Cursor.readU16]
  | [a] => simp [plainLoop, Cursor.readU16]
  | a :: b :: rest => simp [plainLoop, Cursor.readU16]

/-! ## One's complement arithmetic -/

/-- The representative of `n` modulo 65535 that a one's complement sum of total `n` has. -/
def norm (n : Nat) : Nat := if n = 0 then 0 else (n - 1) % 65535 + 1

theorem norm_le (n : Nat) : norm n ≤ 65535 := by unfold norm; split <;> omega

theorem norm_of_le {n : Nat} (h : n ≤ 65535) : norm n = n := by unfold norm; split <;> omega

theorem ocAdd_norm {a w : Nat} (hw : w ≤ 65535) : ocAdd (norm a) w = norm (a + w) := by
  unfold ocAdd norm
  split <;> split <;> split <;> omega

theorem foldl_ocAdd {ws : List Nat} (h : ∀ w ∈ ws, w ≤ 65535) (a : Nat) :
    ws.foldl ocAdd (norm a) = norm (a + ws.sum) := by
  induction ws generalizing a with
  | nil => simp
  | cons w ws ih =>
    rw [List.foldl_cons, ocAdd_norm (h w (by simp)), ih (fun x hx => h x (by simp [hx])),
      List.sum_cons, Nat.add_assoc]

theorem norm_eq_iff {a b : Nat} : norm a = norm b ↔ a % 65535 = b % 65535 ∧ (a = 0 ↔ b = 0) := by
  unfold norm
  split <;> split <;> omega

theorem norm_add_65535 {a : Nat} (h : a ≠ 0) : norm (65535 + a) = norm a := by
  unfold norm; rw [if_neg (by omega), if_neg h]; omega

theorem words_le (m : Bytes) : ∀ w ∈ words m, w ≤ 65535 := by
  intro w hw
  induction m using words.induct with
  | case1 a b rest ih =>
    have := a.isLt; have := b.isLt
    simp only [words, List.mem_cons] at hw
    rcases hw with rfl | hw
    · omega
    · exact ih hw
  | case2 a =>
    have := a.isLt
    simp only [words, List.mem_singleton] at hw
    omega
  | case3 => simp [words] at hw

theorem ocSum_words (m : Bytes) : ocSum (words m) = norm (words m).sum := by
  have := foldl_ocAdd (words_le m) 0
  simpa [ocSum, norm] using this

/-- The checksum of a message whose words add up to `n`. -/
def ckOf (n : Nat) : U16 := BitVec.ofNat 16 (65535 - norm n)

theorem inetChecksum_eq (m : Bytes) : inetChecksum m = ckOf (words m).sum := by
  simp [inetChecksum, ckOf, ocSum_words]

theorem ckOf_toNat (n : Nat) : (ckOf n).toNat = 65535 - norm n := by
  have := norm_le n
  simp only [ckOf, BitVec.toNat_ofNat]
  omega

theorem ckOf_inj {a b : Nat} : ckOf a = ckOf b ↔ norm a = norm b := by
  constructor
  · intro h
    have := congrArg BitVec.toNat h
    rw [ckOf_toNat, ckOf_toNat] at this
    have := norm_le a; have := norm_le b
    omega
  · intro h; simp [ckOf, h]

theorem notU16_ofNat {n : Nat} (h : n ≤ 65535) :
    notU16 (BitVec.ofNat 32 n) = BitVec.ofNat 16 (65535 - n) := by
  apply BitVec.eq_of_toNat_eq
  simp only [notU16, BitVec.truncate_eq_setWidth, BitVec.toNat_setWidth, BitVec.toNat_not,
    BitVec.toNat_ofNat]
  omega

/-! ## What the loops compute -/

/-- The words the loop adds: the complete 16-bit words, except the one that ends at `skip`. -/
def loopWords (skip : Nat) : Bytes → Nat → List Nat
  | a :: b :: rest, pos =>
    if pos + 2 = skip then loopWords skip rest (pos + 2)
    else (a.toNat * 256 + b.toNat) :: loopWords skip rest (pos + 2)
  | _, _ => []

/-- The odd byte at the end, if there is one. -/
def oddTail : Bytes → Bytes
  | _ :: _ :: rest => oddTail rest
  | r => r

/-- The odd byte at the end, padded with zero, as a word. -/
def oddWord (b : Bytes) : Nat :=
  match oddTail b with
  | [a] => a.toNat * 256
  | _ => 0

theorem loopWords_le (skip : Nat) (b : Bytes) (pos : Nat) : ∀ w ∈ loopWords skip b pos, w ≤ 65535 := by
  induction b, pos using loopWords.induct skip with
  | case1 a b rest pos h ih => rw [loopWords, if_pos h]; exact ih
  | case2 a b rest pos h ih =>
    rw [loopWords, if_neg h]
    intro w hw
    have := a.isLt; have := b.isLt
    rcases List.mem_cons.1 hw with rfl | hw
    · omega
    · exact ih w hw
  | case3 t pos h =>
    rw [loopWords]
    · simp
    · exact h

theorem oddTail_cases (b : Bytes) :
    (oddTail b = [] ∧ b.length % 2 = 0) ∨ (∃ a, oddTail b = [a] ∧ b.length % 2 = 1 ∧ b.getLast? = some a) := by
  induction b using oddTail.induct with
  | case1 a b rest ih =>
    simp only [oddTail]
    rcases ih with ⟨h, h'⟩ | ⟨x, h, h', hl⟩
    · left; refine ⟨h, ?_⟩; simp only [List.length_cons]; omega
    · right; refine ⟨x, h, ?_, ?_⟩
      · simp only [List.length_cons]; omega
      · cases rest with
        | nil => simp at h'
        | cons y ys => simpa [List.getLast?_cons_cons] using hl
  | case2 t h =>
    match t with
    | [] => left; simp [oddTail]
    | [a] => right; exact ⟨a, by simp [oddTail]⟩
    | a :: b :: r => exact absurd rfl (h a b r)

theorem oddTail_length (b : Bytes) : (oddTail b).length = b.length % 2 := by
  rcases oddTail_cases b with ⟨h, h'⟩ | ⟨a, h, h', _⟩ <;> simp [h, h']

theorem oddWord_even {b : Bytes} (h : b.length % 2 = 0) : oddWord b = 0 := by
  rcases oddTail_cases b with ⟨h', _⟩ | ⟨a, _, h', _⟩
  · simp [oddWord, h']
  · omega

theorem addFold_eq {cfg : Cfg} {r : U32} {v : U16} (hr : r.toNat ≤ 65535) :
    addFold cfg r v = .ok (BitVec.ofNat 32 (ocAdd r.toNat v.toNat)) := by
  have hv := v.isLt
  have hz : (v.zeroExtend 32).toNat = v.toNat := by
    simp [BitVec.zeroExtend]; omega
  have hsum : (r + v.zeroExtend 32).toNat = r.toNat + v.toNat := by
    rw [BitVec.toNat_add, hz]; omega
  have hadd : addU32 cfg r (v.zeroExtend 32) = .ok (r + v.zeroExtend 32) := by
    unfold addU32; rw [if_pos (by omega)]
  unfold addFold
  rw [hadd]
  simp only [Outcome.ok_bind]
  by_cases h : r.toNat + v.toNat < 65536
  · have : ¬ (r + v.zeroExtend 32 > 0xffff#32) := by
      simp only [GT.gt, BitVec.lt_def, hsum]; simp; omega
    rw [if_neg this]
    congr 1
    apply BitVec.eq_of_toNat_eq
    rw [hsum, ocAdd, if_pos h]; simp; omega
  · have : r + v.zeroExtend 32 > 0xffff#32 := by
      simp only [GT.gt, BitVec.lt_def, hsum]; simp; omega
    rw [if_pos this]
    unfold subU32
    rw [if_pos (by rw [hsum]; simp; omega)]
    congr 1
    apply BitVec.eq_of_toNat_eq
    rw [BitVec.toNat_sub, hsum, ocAdd, if_neg h]; simp; omega

theorem ocAdd_le {a w : Nat} (ha : a ≤ 65535) (hw : w ≤ 65535) : ocAdd a w ≤ 65535 := by
  unfold ocAdd; split <;> omega

theorem sumLoop_eq (cfg : Cfg) (skip : Nat) (b : Bytes) (pos : Nat) (r : U32) (hr : r.toNat ≤ 65535) :
    sumLoop cfg skip b pos r =
      .ok (BitVec.ofNat 32 ((loopWords skip b pos).foldl ocAdd r.toNat),
        Cursor.atEof cfg ⟨oddTail b, pos + (b.length - b.length % 2)⟩) := by
  induction b, pos, r using sumLoop.induct skip with
  | case1 a b rest pos r h ih =>
    rw [sumLoop, if_pos h, ih hr, loopWords, if_pos h]
    congr 4
    simp only [List.length_cons]; omega
  | case2 a b rest pos r h ih =>
    have hv := fromBe16_toNat a b
    have h1 := (fromBe16 a b).isLt
    have hle : ocAdd r.toNat (a.toNat * 256 + b.toNat) ≤ 65535 := ocAdd_le hr (by omega)
    rw [sumLoop, if_neg h, addFold_eq hr, Outcome.ok_bind, hv, ih _ (by simp; omega),
      loopWords, if_neg h]
    congr 3
    · rw [List.foldl_cons]; congr 2; simp; omega
    · congr 1; simp only [List.length_cons]; omega
  | case3 t pos r h =>
    match t with
    | [] => simp [sumLoop, loopWords, oddTail]
    | [a] => simp [sumLoop, loopWords, oddTail]
    | a :: b :: r => exact absurd rfl (h a b r)

theorem plainLoop_eq (cfg : Cfg) (skip : Nat) (b : Bytes) (pos n : Nat) (r : U32)
    (hr : r.toNat + (loopWords skip b pos).sum < 2 ^ 32) :
    plainLoop cfg skip b pos n r =
      .ok (BitVec.ofNat 32 (r.toNat + (loopWords skip b pos).sum), n + (b.length - b.length % 2),
        Cursor.atEof cfg ⟨oddTail b, pos + (b.length - b.length % 2)⟩) := by
  induction b, pos, n, r using plainLoop.induct skip with
  | case1 a b rest pos n r h ih =>
    rw [loopWords, if_pos h] at hr ⊢
    rw [plainLoop, if_pos h, ih hr]
    simp only [List.length_cons, oddTail]
    congr 3
    · omega
    · congr 2; omega
  | case2 a b rest pos n r h ih =>
    have hv := fromBe16_toNat a b
    have h1 := (fromBe16 a b).isLt
    have hz : ((fromBe16 a b).zeroExtend 32).toNat = a.toNat * 256 + b.toNat := by
      simp [BitVec.zeroExtend, hv]; omega
    rw [loopWords, if_neg h, List.sum_cons] at hr ⊢
    have hadd : (r + (fromBe16 a b).zeroExtend 32).toNat = r.toNat + (a.toNat * 256 + b.toNat) := by
      rw [BitVec.toNat_add, hz]; omega
    have : addU32 cfg r ((fromBe16 a b).zeroExtend 32) = .ok (r + (fromBe16 a b).zeroExtend 32) := by
      unfold addU32; rw [if_pos (by omega)]
    rw [plainLoop, if_neg h, this, Outcome.ok_bind, ih _ (by omega), hadd]
    simp only [List.length_cons, oddTail]
    rw [show r.toNat + (a.toNat * 256 + b.toNat) + (loopWords skip rest (pos + 2)).sum
        = r.toNat + (a.toNat * 256 + b.toNat + (loopWords skip rest (pos + 2)).sum) by omega,
      show n + 2 + (rest.length - rest.length % 2)
        = n + (rest.length + 1 + 1 - (rest.length + 1 + 1) % 2) by omega,
      show pos + 2 + (rest.length - rest.length % 2)
        = pos + (rest.length + 1 + 1 - (rest.length + 1 + 1) % 2) by omega]
  | case3 t pos n r h =>
    match t with
    | [] => simp [plainLoop, loopWords, oddTail]
    | [a] => simp [plainLoop, loopWords, oddTail]
    | a :: b :: r => exact absurd rfl (h a b r)

theorem carryFold_toNat (r : U32) : (carryFold r).toNat = norm r.toNat := by
  induction r using carryFold.induct with
  | case1 r h ih =>
    rw [carryFold, dif_pos h, ih]
    have _ := r.isLt
    have h16 : (r >>> 16).toNat = r.toNat / 65536 := by
      simp [BitVec.toNat_ushiftRight, Nat.shiftRight_eq_div_pow]
    have hand : (r &&& 0xffff#32).toNat = r.toNat % 65536 := by
      have : (r &&& 0xffff#32).toNat = r.toNat &&& (2 ^ 16 - 1) := by simp [BitVec.toNat_and]
      rw [this, Nat.and_two_pow_sub_one_eq_mod]
    rw [BitVec.toNat_add, h16, hand, Nat.mod_eq_of_lt (by omega), norm_eq_iff]
    omega
  | case2 r h =>
    rw [carryFold, dif_neg h]
    have _ := r.isLt
    have h16 : (r >>> 16).toNat = r.toNat / 65536 := by
      simp [BitVec.toNat_ushiftRight, Nat.shiftRight_eq_div_pow]
    have : r >>> 16 = 0#32 := Classical.not_not.1 h
    rw [this] at h16
    have : r.toNat / 65536 = 0 := by simpa using h16.symm
    rw [norm_of_le (by omega)]

theorem notU16_carryFold (r : U32) : notU16 (carryFold r) = ckOf r.toNat := by
  have h : carryFold r = BitVec.ofNat 32 (norm r.toNat) := by
    apply BitVec.eq_of_toNat_eq
    rw [carryFold_toNat]
    have := norm_le r.toNat
    simp; omega
  rw [h, notU16_ofNat (norm_le _)]; rfl

/-! ## From loop words to the words of the RFC -/

theorem loopWords_past {skip pos : Nat} (h : skip ≤ pos) (b : Bytes) :
    (loopWords skip b pos).sum + oddWord b = (words b).sum := by
  induction b using words.induct generalizing pos with
  | case1 a b rest ih =>
    rw [loopWords, if_neg (by omega), List.sum_cons, words, List.sum_cons, ← ih (pos := pos + 2) (by omega)]
    simp [oddWord, oddTail, Nat.add_assoc]
  | case2 a => simp [loopWords, oddWord, oddTail, words]
  | case3 => simp [loopWords, oddWord, oddTail, words]

theorem loopWords_zeroed (k : Nat) : ∀ (m : Bytes) (pos : Nat), 2 * k + 2 ≤ m.length →
    (loopWords (pos + 2 * k + 2) m pos).sum + oddWord m = (words (zeroed m (2 * k))).sum := by
  induction k with
  | zero =>
    intro m pos h
    match m with
    | [] => simp at h
    | [a] => simp at h
    | a :: b :: rest =>
      rw [loopWords, if_pos (by omega)]
      have := loopWords_past (skip := pos + 2 * 0 + 2) (pos := pos + 2) (by omega) rest
      simp [zeroed, words]
      simpa [oddWord, oddTail] using this
  | succ k ih =>
    intro m pos h
    match m with
    | [] => simp at h
    | [a] => simp at h
    | a :: b :: rest =>
      rw [loopWords, if_neg (by omega), List.sum_cons]
      have hl : 2 * k + 2 ≤ rest.length := by simp only [List.length_cons] at h; omega
      have := ih rest (pos + 2) hl
      rw [show pos + 2 * (k + 1) + 2 = pos + 2 + 2 * k + 2 by omega]
      have hz : zeroed (a :: b :: rest) (2 * (k + 1)) = a :: b :: zeroed rest (2 * k) := by
        simp [zeroed, Nat.mul_add]
      rw [hz, words, List.sum_cons, ← this, Nat.add_assoc]
      simp [oddWord, oddTail]

/-- The loop does not read the word that ends at `skip`. -/
theorem loopWords_put (k : Nat) : ∀ (m : Bytes) (pos : Nat) (x y : U8), 2 * k + 2 ≤ m.length →
    loopWords (pos + 2 * k + 2) (put m (2 * k) [x, y]) pos = loopWords (pos + 2 * k + 2) m pos := by
  induction k with
  | zero =>
    intro m pos x y h
    match m with
    | [] => simp at h
    | [a] => simp at h
    | a :: b :: rest => simp [put, loopWords]
  | succ k ih =>
    intro m pos x y h
    match m with
    | [] => simp at h
    | [a] => simp at h
    | a :: b :: rest =>
      have hl : 2 * k + 2 ≤ rest.length := by simp only [List.length_cons] at h; omega
      have hz : put (a :: b :: rest) (2 * (k + 1)) [x, y] = a :: b :: put rest (2 * k) [x, y] := by
        simp [put, Nat.mul_add]
      rw [hz, loopWords, loopWords, if_neg (by omega), if_neg (by omega)]
      rw [show pos + 2 * (k + 1) + 2 = pos + 2 + 2 * k + 2 by omega, ih rest (pos + 2) x y hl]

theorem oddTail_eq (b : Bytes) : oddTail b = b.drop (b.length - b.length % 2) := by
  induction b using oddTail.induct with
  | case1 a b rest ih =>
    simp only [oddTail, List.length_cons]
    rw [show rest.length + 1 + 1 - (rest.length + 1 + 1) % 2 = (rest.length - rest.length % 2) + 1 + 1 by omega]
    simpa using ih
  | case2 t h =>
    match t with
    | [] => simp [oddTail]
    | [a] => simp [oddTail]
    | a :: b :: r => exact absurd rfl (h a b r)

theorem oddWord_put {m : Bytes} {off : Nat} {bs : Bytes} (h : off + bs.length ≤ m.length - m.length % 2) :
    oddWord (put m off bs) = oddWord m := by
  have hl : (put m off bs).length = m.length := length_put (by omega)
  unfold oddWord
  have : oddTail (put m off bs) = oddTail m := by
    rw [oddTail_eq, oddTail_eq, hl]
    apply List.ext_getElem?
    intro i
    rw [List.getElem?_drop, List.getElem?_drop, getElem?_put (by omega), if_neg (by omega), if_neg (by omega)]
  rw [this]

end Verif
