import Verif.Props.Nested
import Verif.Props.Checksum
import Verif.Props.Transport
import Verif.Props.Icmp
import Verif.Props.V4
import Verif.Props.Readdress
import Verif.Props.WriteBack
import Verif.Samples

/-!
# C103: checked sessions depend on the values given, not on order, repetition or grouping
-/

namespace Verif.Props
open Verif Verif.Spec

/-! ## From fields to bytes -/

theorem field_outside {b b' : Bytes} {lo hi s w : Nat} (h : SameOutside b b' lo hi) (hsw : s + w ≤ 8 * lo ∨ 8 * hi ≤ s) :
    field b' s w = field b s w :=
  field_congr fun i _ _ => bitAt_congr (h.frame _ (by omega))

theorem bits_of_drop {b b' : Bytes} {n : Nat} (h : b'.drop n = b.drop n) (i : Nat) (hi : 8 * n ≤ i) :
    bitAt b' i = bitAt b i := bitAt_congr (getElem?_of_drop h _ (by omega))

theorem sameOutside_of_bits {b b' : Bytes} (hl : b'.length = b.length) {lo hi : Nat}
    (h : ∀ i, i < 8 * lo ∨ 8 * hi ≤ i → bitAt b' i = bitAt b i) : SameOutside b b' lo hi := by
  refine ⟨hl, ?_⟩
  intro i hi
  by_cases hib : i < b.length
  · rw [List.getElem?_eq_getElem (by omega), List.getElem?_eq_getElem hib]
    congr 1
    have e : ∀ (c : Bytes) (hc : i < c.length), c[i] = c.getD i 0#8 := by
      intro c hc
      rw [List.getD_eq_getElem?_getD, List.getElem?_eq_getElem hc]; rfl
    rw [e b' (by omega), e b hib]
    apply BitVec.eq_of_getMsbD_eq
    intro j hj
    have := h (8 * i + j) (by omega)
    unfold bitAt at this
    rwa [show (8 * i + j) / 8 = i by omega, show (8 * i + j) % 8 = j by omega] at this
  · rw [List.getElem?_eq_none (by omega), List.getElem?_eq_none (by omega)]

/-- A message that differs from another at most in one 16-bit word. -/
theorem sameOutside_word {b b' : Bytes} {k : Nat} (h : SameOutside b b' k (k + 2)) (hk : k + 2 ≤ b.length) :
    ∃ c, b' = put b k (be16 c) ∧ readU16At b' k = .ok c := by
  have hl := h.length
  refine ⟨fromBe16 (b'.getD k 0#8) (b'.getD (k + 1) 0#8), ?_, readU16At_ok (by omega)⟩
  rw [be16_fromBe16]
  apply List.ext_getElem?
  intro i
  rw [getElem?_put (by simp; omega)]
  simp only [List.length_cons, List.length_nil, Nat.zero_add, Nat.reduceAdd]
  by_cases h1 : i < k
  · rw [if_pos h1]; exact h.frame i (.inl h1)
  · rw [if_neg h1]
    by_cases h2 : i < k + 2
    · rw [if_pos h2]
      have hi : i = k ∨ i = k + 1 := by omega
      rcases hi with rfl | rfl
      · rw [Nat.sub_self, List.getD_eq_getElem?_getD, List.getElem?_eq_getElem (by omega)]; rfl
      · rw [show k + 1 - k = 1 by omega, List.getD_eq_getElem?_getD (i := k + 1), List.getElem?_eq_getElem (by omega)]; rfl
    · rw [if_neg h2]; exact h.frame i (.inr (by omega))

theorem sameOutside_symm {b b' : Bytes} {lo hi : Nat} (h : SameOutside b b' lo hi) : SameOutside b' b lo hi :=
  ⟨h.length.symm, fun i hi => (h.frame i hi).symm⟩

theorem last_last {Op α : Type} (f : Op → Option α) (d : α) (xs ys : List Op) :
    last f (last f d xs) ys = last f d (xs ++ ys) := by
  unfold last
  rw [List.filterMap_append, List.getLast?_append]
  cases (ys.filterMap f).getLast? <;> simp

/-! ## At most one checksum verifies -/

theorem v4_unique (cfg : Cfg) {b b' : Bytes} (h : V4.noPayload b = .ok b) (h5 : 5 ≤ field b 4 4)
    (hs : SameOutside b b' 10 12) (hv : V4.isValid cfg b = .ok true) (hv' : V4.isValid cfg b' = .ok true) : b' = b := by
  have hok := (V4.noPayload_ok_iff.1 h).2
  have hlong := hok.long; have hh := hok.header
  obtain ⟨c, rfl, hc⟩ := sameOutside_word hs (by omega)
  obtain ⟨d, e, hd⟩ := sameOutside_word (sameOutside_symm hs) (by rw [hs.length]; omega)
  rw [put_put_same (xs := be16 c) (ys := be16 d) (by rw [be16_length]; omega) rfl] at e
  have hih : field (put b 10 (be16 c)) 4 4 = field b 4 4 :=
    (setsField_put16 (b := b) (off := 10) (v := c) (by omega)).other (by omega)
  have hl : (b.take (field b 4 4 * 4)).length = field b 4 4 * 4 := by rw [List.length_take]; omega
  have hln : (put b 10 (be16 c)).length = b.length := hs.length
  have hcs : V4.checksumOf cfg (put (b.take (field b 4 4 * 4)) 10 (be16 c)) = V4.checksumOf cfg (b.take (field b 4 4 * 4)) := by
    rw [V4.checksumOf_eq, V4.checksumOf_eq, loopWords_put16 5 _ _ (by omega)]
  unfold V4.isValid V4.checksum at hv hv'
  rw [V4.header_eq (by omega) hh, Outcome.ok_bind, hd] at hv
  rw [V4.header_eq (by omega) (by omega), hih, take_put (by rw [be16_length]; omega) hh, Outcome.ok_bind, hcs, hc] at hv'
  rw [V4.checksumOf_eq] at hv hv'
  simp only [Outcome.ok_bind] at hv hv'
  have e1 := beq_ok_true.1 hv; have e2 := beq_ok_true.1 hv'
  have : c = d := e2.symm.trans e1
  rw [this]; exact e.symm

theorem udp_unique (cfg : Cfg) {ip b b' : Bytes} (hip : 20 ≤ ip.length) (hb : 8 ≤ b.length)
    (hs : SameOutside b b' 6 8) (hv : Udp.isValid cfg (.v4 ip) b = .ok true)
    (hv' : Udp.isValid cfg (.v4 ip) b' = .ok true) : b' = b := by
  obtain ⟨c, rfl, hc⟩ := sameOutside_word hs (by omega)
  obtain ⟨d, e, hd⟩ := sameOutside_word (sameOutside_symm hs) (by rw [hs.length]; omega)
  rw [put_put_same (xs := be16 c) (ys := be16 d) (by rw [be16_length]; omega) rfl] at e
  have hcs : Udp.checksumOf cfg (.v4 ip) (put b 6 (be16 c)) = Udp.checksumOf cfg (.v4 ip) b := by
    rw [Udp.checksumOf_eq _ _ _ hip, Udp.checksumOf_eq _ _ _ hip, length_put (by rw [be16_length]; omega),
      loopWords_put16 3 _ _ (by omega), oddWord_put (by rw [be16_length]; omega)]
  unfold Udp.isValid Udp.checksum at hv hv'
  rw [hd] at hv
  rw [hcs, hc] at hv'
  cases hck : Udp.checksumOf cfg (.v4 ip) b with
  | ok x =>
    rw [hck] at hv hv'
    simp only [Outcome.ok_bind] at hv hv'
    have e1 := beq_ok_true.1 hv; have e2 := beq_ok_true.1 hv'
    have : c = d := e2.symm.trans e1
    rw [this]; exact e.symm
  | err x => rw [hck] at hv; cases hv
  | panic => rw [hck] at hv; cases hv

theorem tcp_unique (cfg : Cfg) {ip b b' : Bytes} (hip : 20 ≤ ip.length) (hb : 20 ≤ b.length) (hb' : b.length ≤ 65535)
    (hs : SameOutside b b' 16 18) (hv : Tcp.isValid cfg (.v4 ip) b = .ok true)
    (hv' : Tcp.isValid cfg (.v4 ip) b' = .ok true) : b' = b := by
  obtain ⟨c, rfl, hc⟩ := sameOutside_word hs (by omega)
  obtain ⟨d, e, hd⟩ := sameOutside_word (sameOutside_symm hs) (by rw [hs.length]; omega)
  rw [put_put_same (xs := be16 c) (ys := be16 d) (by rw [be16_length]; omega) rfl] at e
  have hpl : 16 + (be16 c).length ≤ b.length := by rw [be16_length]; omega
  have hcs : Tcp.checksumOf cfg (.v4 ip) (put b 16 (be16 c)) = Tcp.checksumOf cfg (.v4 ip) b := by
    rw [Tcp.checksumOf_eq _ _ _ hip (by rw [length_put hpl]; omega), Tcp.checksumOf_eq _ _ _ hip (by omega),
      length_put hpl, loopWords_put16 8 _ _ (by omega), oddWord_put (by rw [be16_length]; omega)]
  unfold Tcp.isValid Tcp.checksum at hv hv'
  rw [hd] at hv
  rw [hcs, hc] at hv'
  cases hck : Tcp.checksumOf cfg (.v4 ip) b with
  | ok x =>
    rw [hck] at hv hv'
    simp only [Outcome.ok_bind] at hv hv'
    have e1 := beq_ok_true.1 hv; have e2 := beq_ok_true.1 hv'
    have : c = d := e2.symm.trans e1
    rw [this]; exact e.symm
  | err x => rw [hck] at hv; cases hv
  | panic => rw [hck] at hv; cases hv

theorem icmp_unique (cfg : Cfg) {b b' : Bytes} (hb : 4 ≤ b.length)
    (hs : SameOutside b b' 2 4) (hv : Icmp.isValid cfg b = .ok true)
    (hv' : Icmp.isValid cfg b' = .ok true) : b' = b := by
  obtain ⟨c, rfl, hc⟩ := sameOutside_word hs (by omega)
  obtain ⟨d, e, hd⟩ := sameOutside_word (sameOutside_symm hs) (by rw [hs.length]; omega)
  rw [put_put_same (xs := be16 c) (ys := be16 d) (by rw [be16_length]; omega) rfl] at e
  have hcs := icmp_checksum_skip cfg b hb c
  unfold Icmp.isValid Icmp.checksum at hv hv'
  rw [hd] at hv
  rw [hcs, hc] at hv'
  rw [Icmp.checksumOf_eq] at hv hv'
  simp only [Outcome.ok_bind] at hv hv'
  have e1 := beq_ok_true.1 hv; have e2 := beq_ok_true.1 hv'
  have : c = d := e2.symm.trans e1
  rw [this]; exact e.symm

theorem udp_long {b : Bytes} (h : Udp.noPayload b = .ok b) : 8 ≤ b.length := by
  rw [Udp.noPayload_eq] at h
  split at h
  · cases h
  · omega

/-! ## The claims -/

/-- C103 for IPv4, `is_valid` and `update_checksum`: the one says exactly whether the other would change anything. -/
theorem C103_v4_valid_iff_stable (cfg : Cfg) (b : Bytes) (h : Legal b) :
    V4.isValid cfg b = .ok true ↔ V4.updateChecksum cfg b = (.ok (), b) := by
  obtain ⟨b', u1, u2, -, u3, u4⟩ := C08_v4_update_checksum cfg b h.1 h.2
  constructor
  · intro hv
    rw [u1, v4_unique cfg h.1 h.2 u4 hv u2]
  · intro hu
    rw [u1] at hu
    have hu : b' = b := congrArg Prod.snd hu
    rw [← hu]
    exact u2

/-- A concrete case that meets the hypotheses. -/
example (cfg : Cfg) := C103_v4_valid_iff_stable cfg Sample.udpPacket ⟨by decide, by decide⟩

/-- The same for UDP. -/
theorem C103_udp_valid_iff_stable (cfg : Cfg) (ip b : Bytes) (hip : 20 ≤ ip.length) (h : Udp.noPayload b = .ok b) :
    Udp.isValid cfg (.v4 ip) b = .ok true ↔ Udp.updateChecksum cfg (.v4 ip) b = (.ok (), b) := by
  obtain ⟨b', u1, u2, u3, u4, -⟩ := C08_udp_update_checksum cfg ip b hip h
  have hb := udp_long h
  constructor
  · intro hv
    rw [u1, udp_unique cfg hip hb u4 hv u2]
  · intro hu
    rw [u1] at hu
    have hu : b' = b := congrArg Prod.snd hu
    rw [← hu]
    exact u2

/-- A concrete case that meets the hypotheses. -/
example (cfg : Cfg) := C103_udp_valid_iff_stable cfg Sample.udpPacket Sample.udp (by decide) (by decide)

/-- The same for TCP. -/
theorem C103_tcp_valid_iff_stable (cfg : Cfg) (ip b : Bytes) (hip : 20 ≤ ip.length)
    (h : Tcp.new b = .ok b) (h5 : 5 ≤ field b 96 4) (hb' : b.length ≤ 65535)
    (hodd : b.length % 2 = 0 ∨ cfg.eofAdvances = false) :
    Tcp.isValid cfg (.v4 ip) b = .ok true ↔ Tcp.updateChecksum cfg (.v4 ip) b = (.ok (), b) := by
  obtain ⟨b', u1, u2, u3, u4, -⟩ := C08_tcp_update_checksum cfg ip b hip h h5 hb' hodd
  have hb := Tcp.new_ok_iff.1 h
  constructor
  · intro hv
    rw [u1, tcp_unique cfg hip hb.2.1 hb' u4 hv u2]
  · intro hu
    rw [u1] at hu
    have hu : b' = b := congrArg Prod.snd hu
    rw [← hu]
    exact u2

/-- A concrete case that meets the hypotheses. -/
example (cfg : Cfg) := C103_tcp_valid_iff_stable cfg Sample.tcpPacket Sample.tcp (by decide) (by decide) (by decide)
    (by decide) (.inl (by decide))

/-- C103 for IPv4: two histories of calls through `checked()` on two packets that agree in length, version, header length,
total length and everything behind the fixed header, and that end in the same values, leave the same bytes. -/
theorem C103_v4_same_bytes (cfg : Cfg) (b c : Bytes) (hb : Legal b) (hc : Legal c) (hlen : c.length = b.length)
    (hfirst : field c 0 8 = field b 0 8) (htotal : field c 16 16 = field b 16 16) (hrest : c.drop 20 = b.drop 20)
    (ops ops' : List V4.Set)
    (hsame : ∀ s w, (s, w) ∈ v4Fields → v4Last s (field b s w) ops = v4Last s (field c s w) ops')
    (htos : ops.foldl tosStep (field b 8 6, field b 14 2) = ops'.foldl tosStep (field c 8 6, field c 14 2)) :
    ∃ r, V4.checkedRun cfg ops b = (.ok (), r) ∧ V4.checkedRun cfg ops' c = (.ok (), r) := by
  obtain ⟨r, r1, r2, r3, -⟩ := C19_v4_checked cfg b hb ops
  obtain ⟨r', f1, f2, f3, f4, f5, f6, f7, -⟩ := C19_v4_checked_fields cfg b hb ops
  obtain ⟨q, q1, q2, q3, -⟩ := C19_v4_checked cfg c hc ops'
  obtain ⟨q', g1, g2, g3, g4, g5, g6, g7, -⟩ := C19_v4_checked_fields cfg c hc ops'
  have : r' = r := by rw [r1] at f1; exact (congrArg Prod.snd f1).symm
  subst this
  have : q' = q := by rw [q1] at g1; exact (congrArg Prod.snd g1).symm
  subst this
  refine ⟨r', r1, ?_⟩
  rw [q1]
  have : q' = r' := by
    refine v4_unique cfg r3.1 r3.2 (sameOutside_of_bits (by rw [f2, g2, hlen]) ?_) r2 q2
    have hlist : ∀ s w, (s, w) ∈ v4Fields → ∀ i, s ≤ i → i < s + w → bitAt q' i = bitAt r' i := by
      intro s w hsw
      refine bits_of_field ?_
      rw [g6 s w hsw, f6 s w hsw]
      exact (hsame s w hsw).symm
    rw [← htos, ← f7] at g7
    have t1 := congrArg Prod.fst g7; have t2 := congrArg Prod.snd g7
    simp only at t1 t2
    intro i hi
    by_cases h0 : i < 8
    · exact bits_of_field (s := 0) (w := 8) (by rw [g4, f4, hfirst]) i (by omega) h0
    by_cases h1 : i < 14
    · exact bits_of_field t1 i (by omega) (by omega)
    by_cases h2 : i < 16
    · exact bits_of_field t2 i (by omega) (by omega)
    by_cases h3 : i < 32
    · exact bits_of_field (s := 16) (w := 16) (by rw [g5, f5, htotal]) i (by omega) (by omega)
    by_cases h4 : i < 48
    · exact hlist 32 16 (by decide) i (by omega) (by omega)
    by_cases h4 : i < 64
    · exact hlist 48 16 (by decide) i (by omega) (by omega)
    by_cases h4 : i < 72
    · exact hlist 64 8 (by decide) i (by omega) (by omega)
    by_cases h4 : i < 80
    · exact hlist 72 8 (by decide) i (by omega) (by omega)
    by_cases h4 : i < 128
    · exact hlist 96 32 (by decide) i (by omega) (by omega)
    by_cases h4 : i < 160
    · exact hlist 128 32 (by decide) i (by omega) (by omega)
    · exact bits_of_drop (n := 20) (by rw [g3, f3, hrest]) i (by omega)
  rw [this]

/-- A concrete case that meets the hypotheses. -/
example (cfg : Cfg) := C103_v4_same_bytes cfg Sample.udpPacket (put Sample.udpPacket 8 [63]) ⟨by decide, by decide⟩
    ⟨by decide, by decide⟩ (by decide) (by decide) (by decide) (by decide) [.id 9, .ttl 5] [.ttl 5, .id 9]
    (Sample.pairs (by decide)) (by decide)

/-- C103 for IPv4: two sessions one after the other are one session with all the calls. -/
theorem C103_v4_sessions (cfg : Cfg) (b : Bytes) (h : Legal b) (ops ops' : List V4.Set) :
    (V4.checkedRun cfg ops >>= fun _ => V4.checkedRun cfg ops') b = V4.checkedRun cfg (ops ++ ops') b := by
  obtain ⟨r, r1, r2, r3, -⟩ := C19_v4_checked cfg b h ops
  obtain ⟨r', f1, f2, f3, f4, f5, f6, f7, -⟩ := C19_v4_checked_fields cfg b h ops
  have : r' = r := by rw [r1] at f1; exact (congrArg Prod.snd f1).symm
  subst this
  rw [Mut.bind_ok r1]
  obtain ⟨q, q1, q2⟩ := C103_v4_same_bytes cfg b r' h r3 f2 f4 f5 f3 (ops ++ ops') ops' (by
    intro s w hsw
    rw [f6 s w hsw]
    exact (last_last _ _ _ _).symm) (by rw [f7, List.foldl_append])
  rw [q1, q2]

/-- A concrete case that meets the hypotheses. -/
example (cfg : Cfg) := C103_v4_sessions cfg Sample.udpPacket ⟨by decide, by decide⟩

/-- C103 for UDP; the two sessions may also be given different IPv4 packets with the same addresses. -/
theorem C103_udp_same_bytes (cfg : Cfg) (ip ip' b c : Bytes) (hip : 20 ≤ ip.length) (hip' : 20 ≤ ip'.length)
    (hsrc : V4.source ip' = V4.source ip) (hdst : V4.destination ip' = V4.destination ip)
    (hb : Udp.noPayload b = .ok b) (hlen : c.length = b.length) (hlenf : field c 32 16 = field b 32 16)
    (hrest : c.drop 8 = b.drop 8) (ops ops' : List Udp.Set)
    (h1 : last (fun | .source v => some v.toNat | _ => none) (field b 0 16) ops =
      last (fun | .source v => some v.toNat | _ => none) (field c 0 16) ops')
    (h2 : last (fun | .destination v => some v.toNat | _ => none) (field b 16 16) ops =
      last (fun | .destination v => some v.toNat | _ => none) (field c 16 16) ops') :
    ∃ r, Udp.checkedRun cfg (.v4 ip) ops b = (.ok (), r) ∧ Udp.checkedRun cfg (.v4 ip') ops' c = (.ok (), r) := by
  have hl := udp_long hb
  have hlc : Udp.noPayload c = .ok c := by rw [Udp.noPayload_eq, if_neg (by omega)]
  obtain ⟨r, r1, r2, r3, r4, r5, r6, r7, r8⟩ := C23_udp_checked cfg ip b hip hb ops
  obtain ⟨q, q1, q2, q3, q4, q5, q6, q7, q8⟩ := C23_udp_checked cfg ip' c hip' hlc ops'
  rw [udp_valid_same cfg hsrc hdst] at q2
  refine ⟨r, r1, ?_⟩
  rw [q1]
  have : q = r := by
    refine udp_unique cfg hip (by omega) (sameOutside_of_bits (by omega) ?_) r2 q2
    have e7 : field q 0 16 = field r 0 16 := (q7.trans h1.symm).trans r7.symm
    have e8 : field q 16 16 = field r 16 16 := (q8.trans h2.symm).trans r8.symm
    have e6 : field q 32 16 = field r 32 16 := (q6.trans hlenf).trans r6.symm
    intro i hi
    by_cases h0 : i < 16
    · exact bits_of_field e7 i (by omega) (by omega)
    by_cases h0 : i < 32
    · exact bits_of_field e8 i (by omega) (by omega)
    by_cases h0 : i < 48
    · exact bits_of_field e6 i (by omega) (by omega)
    · exact bits_of_drop (n := 8) (by rw [q5, r5, hrest]) i (by omega)
  rw [this]

/-- A concrete case that meets the hypotheses. -/
example (cfg : Cfg) := C103_udp_same_bytes cfg Sample.udpPacket Sample.tcpPacket Sample.udp (put Sample.udp 0 [0, 54])
    (by decide) (by decide) (by decide) (by decide) (by decide) (by decide) (by decide) (by decide) [.source 9]
    [.source 7, .source 9] (by decide) (by decide)

/-- C103 for UDP: two sessions one after the other are one session with all the calls. -/
theorem C103_udp_sessions (cfg : Cfg) (ip b : Bytes) (hip : 20 ≤ ip.length) (h : Udp.noPayload b = .ok b)
    (ops ops' : List Udp.Set) :
    (Udp.checkedRun cfg (.v4 ip) ops >>= fun _ => Udp.checkedRun cfg (.v4 ip) ops') b =
      Udp.checkedRun cfg (.v4 ip) (ops ++ ops') b := by
  obtain ⟨r, r1, r2, r3, r4, r5, r6, r7, r8⟩ := C23_udp_checked cfg ip b hip h ops
  rw [Mut.bind_ok r1]
  obtain ⟨q, q1, q2⟩ := C103_udp_same_bytes cfg ip ip b r hip hip rfl rfl h r4 r6 r5 (ops ++ ops') ops'
    (by rw [r7]; exact (last_last _ _ _ _).symm) (by rw [r8]; exact (last_last _ _ _ _).symm)
  rw [q1, q2]

/-- A concrete case that meets the hypotheses. -/
example (cfg : Cfg) := C103_udp_sessions cfg Sample.udpPacket Sample.udp (by decide) (by decide)

/-- C103 for TCP, histories without `set_flags` (C27), sizes and lengths as in C28. -/
theorem C103_tcp_same_bytes (cfg : Cfg) (ip ip' b c : Bytes) (hip : 20 ≤ ip.length) (hip' : 20 ≤ ip'.length)
    (hsrc : V4.source ip' = V4.source ip) (hdst : V4.destination ip' = V4.destination ip)
    (hb : Tcp.new b = .ok b) (hlen : c.length = b.length) (hword : field c 96 16 = field b 96 16)
    (hrest : c.drop 20 = b.drop 20) (h5 : 5 ≤ field b 96 4) (hmax : b.length ≤ 65535)
    (hodd : b.length % 2 = 0 ∨ cfg.eofAdvances = false) (ops ops' : List Tcp.Set)
    (hops : ∀ op ∈ ops, notFlags op) (hops' : ∀ op ∈ ops', notFlags op)
    (hsame : ∀ s w, (s, w) ∈ [(0, 16), (16, 16), (32, 32), (64, 32), (112, 16), (144, 16)] →
      tcpLast s (field b s w) ops = tcpLast s (field c s w) ops') :
    ∃ r, Tcp.checkedRun cfg (.v4 ip) ops b = (.ok (), r) ∧ Tcp.checkedRun cfg (.v4 ip') ops' c = (.ok (), r) := by
  obtain ⟨-, hl, ho⟩ := Tcp.new_ok_iff.1 hb
  have hoff : field c 96 4 = field b 96 4 :=
    field_congr fun i h1 h2 => bits_of_field hword i h1 (by omega)
  have hc : Tcp.new c = .ok c := Tcp.new_ok_iff.2 ⟨rfl, by omega, by omega⟩
  obtain ⟨r, r1, r2, r3, r4, r5, r6, r7, r8, r9, r10, r11, r12⟩ := C28_tcp_checked cfg ip b hip hb h5 hmax hodd ops hops
  obtain ⟨q, q1, q2, q3, q4, q5, q6, q7, q8, q9, q10, q11, q12⟩ := C28_tcp_checked cfg ip' c hip' hc
    (by omega) (by omega) (by rw [hlen]; exact hodd) ops' hops'
  rw [tcp_valid_same cfg hsrc hdst] at q2
  refine ⟨r, r1, ?_⟩
  rw [q1]
  have : q = r := by
    refine tcp_unique cfg hip (by omega) (by omega) (sameOutside_of_bits (by omega) ?_) r2 q2
    rw [← hsame 0 16 (by decide), ← r6] at q6
    rw [← hsame 16 16 (by decide), ← r7] at q7
    rw [← hsame 32 32 (by decide), ← r8] at q8
    rw [← hsame 64 32 (by decide), ← r9] at q9
    rw [← hsame 112 16 (by decide), ← r10] at q10
    rw [← hsame 144 16 (by decide), ← r11] at q11
    rw [hword, ← r12] at q12
    intro i hi
    by_cases h0 : i < 16
    · exact bits_of_field q6 i (by omega) (by omega)
    by_cases h0 : i < 32
    · exact bits_of_field q7 i (by omega) (by omega)
    by_cases h0 : i < 64
    · exact bits_of_field q8 i (by omega) (by omega)
    by_cases h0 : i < 96
    · exact bits_of_field q9 i (by omega) (by omega)
    by_cases h0 : i < 112
    · exact bits_of_field q12 i (by omega) (by omega)
    by_cases h0 : i < 128
    · exact bits_of_field q10 i (by omega) (by omega)
    by_cases h0 : i < 160
    · exact bits_of_field q11 i (by omega) (by omega)
    · exact bits_of_drop (n := 20) (by rw [q5, r5, hrest]) i (by omega)
  rw [this]

/-- A concrete case that meets the hypotheses. -/
example (cfg : Cfg) := C103_tcp_same_bytes cfg Sample.tcpPacket Sample.udpPacket Sample.tcp (put Sample.tcp 0 [0, 54])
    (by decide) (by decide) (by decide) (by decide) (by decide) (by decide) (by decide) (by decide) (by decide)
    (by decide) (.inl (by decide)) [.window 7, .source 9] [.source 9, .window 7] (by simp [notFlags])
    (by simp [notFlags]) (Sample.pairs (by decide))

/-- C103 for TCP: two sessions one after the other are one session with all the calls. -/
theorem C103_tcp_sessions (cfg : Cfg) (ip b : Bytes) (hip : 20 ≤ ip.length)
    (hb : Tcp.new b = .ok b) (h5 : 5 ≤ field b 96 4) (hmax : b.length ≤ 65535)
    (hodd : b.length % 2 = 0 ∨ cfg.eofAdvances = false) (ops ops' : List Tcp.Set)
    (hops : ∀ op ∈ ops, notFlags op) (hops' : ∀ op ∈ ops', notFlags op) :
    (Tcp.checkedRun cfg (.v4 ip) ops >>= fun _ => Tcp.checkedRun cfg (.v4 ip) ops') b =
      Tcp.checkedRun cfg (.v4 ip) (ops ++ ops') b := by
  obtain ⟨r, r1, r2, r3, r4, r5, r6, r7, r8, r9, r10, r11, r12⟩ := C28_tcp_checked cfg ip b hip hb h5 hmax hodd ops hops
  rw [Mut.bind_ok r1]
  obtain ⟨q, q1, q2⟩ := C103_tcp_same_bytes cfg ip ip b r hip hip rfl rfl hb r4 r12 r5 h5 hmax hodd (ops ++ ops') ops' (by
      intro op hop
      rcases List.mem_append.1 hop with h | h
      · exact hops op h
      · exact hops' op h) hops' (by
    intro s w hsw
    have : field r s w = tcpLast s (field b s w) ops := by
      simp only [List.mem_cons, Prod.mk.injEq, List.not_mem_nil, or_false] at hsw
      rcases hsw with ⟨rfl, rfl⟩ | ⟨rfl, rfl⟩ | ⟨rfl, rfl⟩ | ⟨rfl, rfl⟩ | ⟨rfl, rfl⟩ | ⟨rfl, rfl⟩ <;> assumption
    rw [this]
    exact (last_last _ _ _ _).symm)
  rw [q1, q2]

/-- A concrete case that meets the hypotheses. -/
example (cfg : Cfg) := C103_tcp_sessions cfg Sample.tcpPacket Sample.tcp (by decide) (by decide) (by decide)
    (by decide) (.inl (by decide)) [.window 7, .source 9] [.source 9, .window 7] (by simp [notFlags])
    (by simp [notFlags])

/-- What the three ICMP guards have in common: the view is the first `n` bytes, `fields` are the fields a setter can
write, and together with type, code, checksum and the rest they are the whole message. -/
theorem icmp_same_bytes (cfg : Cfg) {Op : Type} (run : List Op → Mut Bytes Unit) (written : Op → Nat × Nat × Nat)
    (fields : List (Nat × Nat)) (m : Nat) (hm : 4 ≤ m)
    (hcov : ∀ i, i < 8 ∨ (32 ≤ i ∧ i < 8 * m) → ∃ s w, (s, w) ∈ fields ∧ s ≤ i ∧ i < s + w)
    {b c : Bytes} {n : Nat} (hn : m ≤ n) (hnb : n ≤ b.length) (hlen : c.length = b.length)
    (hcode : field c 8 8 = field b 8 8) (hrest : c.drop m = b.drop m) (ops ops' : List Op)
    (hr : ∃ r, run ops b = (.ok (), r) ∧ Icmp.isValid cfg (r.take n) = .ok true ∧ r.length = b.length ∧
      r.drop m = b.drop m ∧ field r 8 8 = field b 8 8 ∧
      (∀ s w, (s, w) ∈ fields → field r s w = lastWritten written s (field b s w) ops))
    (hq : ∃ r, run ops' c = (.ok (), r) ∧ Icmp.isValid cfg (r.take n) = .ok true ∧ r.length = c.length ∧
      r.drop m = c.drop m ∧ field r 8 8 = field c 8 8 ∧
      (∀ s w, (s, w) ∈ fields → field r s w = lastWritten written s (field c s w) ops'))
    (hsame : ∀ s w, (s, w) ∈ fields →
      lastWritten written s (field b s w) ops = lastWritten written s (field c s w) ops') :
    ∃ r, run ops b = (.ok (), r) ∧ run ops' c = (.ok (), r) := by
  obtain ⟨r, r1, r2, r3, r4, r5, r6⟩ := hr
  obtain ⟨q, q1, q2, q3, q4, q5, q6⟩ := hq
  refine ⟨r, r1, ?_⟩
  rw [q1]
  have hbits : ∀ i, i < 8 * 2 ∨ 8 * 4 ≤ i → bitAt q i = bitAt r i := by
    intro i hi
    by_cases h1 : 8 * m ≤ i
    · exact bits_of_drop (n := m) (by rw [q4, r4, hrest]) i h1
    by_cases h2 : 8 ≤ i ∧ i < 16
    · exact bits_of_field (s := 8) (w := 8) (by rw [q5, r5, hcode]) i (by omega) (by omega)
    · obtain ⟨s, w, hsw, h3, h4⟩ := hcov i (by omega)
      refine bits_of_field ?_ i h3 h4
      rw [q6 s w hsw, r6 s w hsw, hsame s w hsw]
  have hso : SameOutside r q 2 4 := sameOutside_of_bits (by omega) hbits
  have htk : SameOutside (r.take n) (q.take n) 2 4 := by
    refine ⟨by rw [List.length_take, List.length_take, hso.length], ?_⟩
    intro i hi
    rw [List.getElem?_take, List.getElem?_take]
    split
    · exact hso.frame i hi
    · rfl
  have e := icmp_unique cfg (by rw [List.length_take]; omega) htk r2 q2
  have : q = r := by
    rw [← List.take_append_drop n q, ← List.take_append_drop n r, e]
    congr 1
    have hd := congrArg (List.drop (n - m)) (q4.trans (hrest.trans r4.symm))
    rwa [List.drop_drop, List.drop_drop, show m + (n - m) = n by omega] at hd
  rw [this]

/-- What `checked()` does to an echo message. -/
theorem echo_checked_all (cfg : Cfg) (b : Bytes) (hl : 8 ≤ b.length) (hb : b.length < cfg.usizeMod) (ops : List Echo.Set) :
    ∃ b', Echo.checkedRun cfg ops b = (.ok (), b') ∧ Icmp.isValid cfg (b'.take b.length) = .ok true ∧
      b'.length = b.length ∧ b'.drop 8 = b.drop 8 ∧ field b' 8 8 = field b 8 8 ∧
      (∀ s w, (s, w) ∈ [(0, 8), (32, 16), (48, 16)] →
        field b' s w = lastWritten echoWritten s (field b s w) ops) := by
  refine checked_all cfg Echo.Set.run echoWritten _ 8 b.length (by omega) (by decide) (by decide) (by decide)
    (fun op => by cases op <;> simp [echoWritten]) ?_ (Echo.size cfg) b hl (Nat.le_refl _) ?_ ops
  · intro op c hc
    cases op with
    | request => exact ⟨_, setIdx_ok (by omega), setsField_put8 (off := 0) (by omega)⟩
    | reply => exact ⟨_, setIdx_ok (by omega), setsField_put8 (off := 0) (by omega)⟩
    | identifier v => exact ⟨_, writeU16_ok (by omega), setsField_put16 (off := 4) (by omega)⟩
    | sequence v => exact ⟨_, writeU16_ok (by omega), setsField_put16 (off := 6) (by omega)⟩
  · intro c hc
    unfold Echo.size Echo.payloadSize
    simp only [Echo.headerSize, Outcome.ok_bind]
    rw [subUsize_ok (by omega), Outcome.ok_bind, addUsize_ok (by omega)]
    congr 1; omega

/-- What `checked()` does to a timestamp message. -/
theorem timestamp_checked_all (cfg : Cfg) (b : Bytes) (hl : 20 ≤ b.length) (ops : List Timestamp.Set) :
    ∃ b', Timestamp.checkedRun cfg ops b = (.ok (), b') ∧ Icmp.isValid cfg (b'.take 20) = .ok true ∧
      b'.length = b.length ∧ b'.drop 20 = b.drop 20 ∧ field b' 8 8 = field b 8 8 ∧
      (∀ s w, (s, w) ∈ [(0, 8), (32, 16), (48, 16), (64, 32), (96, 32), (128, 32)] →
        field b' s w = lastWritten timestampWritten s (field b s w) ops) := by
  refine checked_all cfg Timestamp.Set.run timestampWritten _ 20 20 (by omega) (by decide) (by decide)
    (by decide) (fun op => by cases op <;> simp [timestampWritten]) ?_ Timestamp.size b (Nat.le_refl _) hl
    (fun _ _ => rfl) ops
  intro op c hc
  cases op with
  | request => exact ⟨_, setIdx_ok (by omega), setsField_put8 (off := 0) (by omega)⟩
  | reply => exact ⟨_, setIdx_ok (by omega), setsField_put8 (off := 0) (by omega)⟩
  | identifier v => exact ⟨_, writeU16_ok (by omega), setsField_put16 (off := 4) (by omega)⟩
  | sequence v => exact ⟨_, writeU16_ok (by omega), setsField_put16 (off := 6) (by omega)⟩
  | originate v => exact ⟨_, writeU32_ok (by omega), setsField_put32 (off := 8) (by omega)⟩
  | receive v => exact ⟨_, writeU32_ok (by omega), setsField_put32 (off := 12) (by omega)⟩
  | transmit v => exact ⟨_, writeU32_ok (by omega), setsField_put32 (off := 16) (by omega)⟩

/-- What `checked()` does to an information message. -/
theorem information_checked_all (cfg : Cfg) (b : Bytes) (hl : 8 ≤ b.length) (ops : List Information.Set) :
    ∃ b', Information.checkedRun cfg ops b = (.ok (), b') ∧ Icmp.isValid cfg (b'.take 8) = .ok true ∧
      b'.length = b.length ∧ b'.drop 8 = b.drop 8 ∧ field b' 8 8 = field b 8 8 ∧
      (∀ s w, (s, w) ∈ [(0, 8), (32, 16), (48, 16)] →
        field b' s w = lastWritten informationWritten s (field b s w) ops) := by
  refine checked_all cfg Information.Set.run informationWritten _ 8 8 (by omega) (by decide) (by decide)
    (by decide) (fun op => by cases op <;> simp [informationWritten]) ?_ Information.size b (Nat.le_refl _) hl
    (fun _ _ => rfl) ops
  intro op c hc
  cases op with
  | request => exact ⟨_, setIdx_ok (by omega), setsField_put8 (off := 0) (by omega)⟩
  | reply => exact ⟨_, setIdx_ok (by omega), setsField_put8 (off := 0) (by omega)⟩
  | identifier v => exact ⟨_, writeU16_ok (by omega), setsField_put16 (off := 4) (by omega)⟩
  | sequence v => exact ⟨_, writeU16_ok (by omega), setsField_put16 (off := 6) (by omega)⟩

theorem cover8 (i : Nat) (h : i < 8 ∨ (32 ≤ i ∧ i < 8 * 8)) :
    ∃ s w, (s, w) ∈ [(0, 8), (32, 16), (48, 16)] ∧ s ≤ i ∧ i < s + w := by
  by_cases h1 : i < 8
  · exact ⟨0, 8, by decide, by omega, by omega⟩
  by_cases h1 : i < 48
  · exact ⟨32, 16, by decide, by omega, by omega⟩
  · exact ⟨48, 16, by decide, by omega, by omega⟩

theorem cover20 (i : Nat) (h : i < 8 ∨ (32 ≤ i ∧ i < 8 * 20)) :
    ∃ s w, (s, w) ∈ [(0, 8), (32, 16), (48, 16), (64, 32), (96, 32), (128, 32)] ∧ s ≤ i ∧ i < s + w := by
  by_cases h1 : i < 64
  · obtain ⟨s, w, hsw, h2⟩ := cover8 i (by omega)
    refine ⟨s, w, ?_, h2⟩
    simp only [List.mem_cons, List.not_mem_nil, or_false] at hsw ⊢
    rcases hsw with h | h | h <;> simp [h]
  by_cases h1 : i < 96
  · exact ⟨64, 32, by decide, by omega, by omega⟩
  by_cases h1 : i < 128
  · exact ⟨96, 32, by decide, by omega, by omega⟩
  · exact ⟨128, 32, by decide, by omega, by omega⟩

theorem drop_stable (cfg : Cfg) {b : Bytes} {n : Nat} {view : Bytes → Outcome Nat} (h4 : 4 ≤ n) (hn : n ≤ b.length)
    (hv : view b = .ok n) :
    Icmp.isValid cfg (b.take n) = .ok true ↔ Icmp.dropChecked cfg view b = (.ok (), b) := by
  obtain ⟨b', u1, u2, u3⟩ := dropChecked_ok cfg h4 hn hv
  constructor
  · intro hvalid
    have htk : SameOutside (b.take n) (b'.take n) 2 4 := by
      refine ⟨by rw [List.length_take, List.length_take, u2.length], ?_⟩
      intro i hi
      rw [List.getElem?_take, List.getElem?_take]
      split
      · exact u2.frame i hi
      · rfl
    have e := icmp_unique cfg (by rw [List.length_take]; omega) htk hvalid u3
    have : b' = b := by
      rw [← List.take_append_drop n b', ← List.take_append_drop n b, e]
      congr 1
      apply List.ext_getElem?
      intro i
      rw [List.getElem?_drop, List.getElem?_drop, u2.frame _ (.inr (by omega))]
    rw [u1, this]
  · intro hu
    rw [u1] at hu
    have hu : b' = b := congrArg Prod.snd hu
    rw [← hu]
    exact u3

/-- C103 for ICMP: a session without calls changes nothing exactly if the message is valid. -/
theorem C103_icmp_valid_iff_stable (cfg : Cfg) (b : Bytes) (hb : b.length < cfg.usizeMod) :
    (8 ≤ b.length → (Icmp.isValid cfg b = .ok true ↔ Echo.checkedRun cfg [] b = (.ok (), b))) ∧
    (20 ≤ b.length → (Icmp.isValid cfg (b.take 20) = .ok true ↔ Timestamp.checkedRun cfg [] b = (.ok (), b))) ∧
    (8 ≤ b.length → (Icmp.isValid cfg (b.take 8) = .ok true ↔ Information.checkedRun cfg [] b = (.ok (), b))) := by
  refine ⟨fun hl => ?_, fun hl => ?_, fun hl => ?_⟩
  · have := drop_stable cfg (b := b) (n := b.length) (view := Echo.size cfg) (by omega) (Nat.le_refl _) (by
      unfold Echo.size Echo.payloadSize
      simp only [Echo.headerSize, Outcome.ok_bind]
      rw [subUsize_ok (by omega), Outcome.ok_bind, addUsize_ok (by omega)]
      congr 1; omega)
    rwa [List.take_length] at this
  · exact drop_stable cfg (n := 20) (view := Timestamp.size) (by omega) hl rfl
  · exact drop_stable cfg (n := 8) (view := Information.size) (by omega) hl rfl

/-- A concrete case that meets the hypotheses. -/
example (cfg : Cfg) := C103_icmp_valid_iff_stable cfg Sample.echo (by in_every_build)

/-- C103 for echo messages. -/
theorem C103_echo_same_bytes (cfg : Cfg) (b c : Bytes) (hl : 8 ≤ b.length) (hb : b.length < cfg.usizeMod)
    (hlen : c.length = b.length) (hcode : field c 8 8 = field b 8 8) (hrest : c.drop 8 = b.drop 8)
    (ops ops' : List Echo.Set)
    (hsame : ∀ s w, (s, w) ∈ [(0, 8), (32, 16), (48, 16)] →
      lastWritten echoWritten s (field b s w) ops = lastWritten echoWritten s (field c s w) ops') :
    ∃ r, Echo.checkedRun cfg ops b = (.ok (), r) ∧ Echo.checkedRun cfg ops' c = (.ok (), r) := by
  have hc := echo_checked_all cfg c (by omega) (by omega) ops'
  rw [hlen] at hc
  exact icmp_same_bytes cfg (Echo.checkedRun cfg) echoWritten [(0, 8), (32, 16), (48, 16)] 8 (by omega) cover8 (n := b.length) hl (Nat.le_refl _) hlen hcode
    hrest ops ops' (echo_checked_all cfg b hl hb ops) (by rw [hlen]; exact hc) hsame

/-- A concrete case that meets the hypotheses. -/
example (cfg : Cfg) := C103_echo_same_bytes cfg Sample.echo (put Sample.echo 4 [0, 54]) (by decide) (by in_every_build)
    (by decide) (by decide) (by decide) [.identifier 9, .sequence 5] [.sequence 5, .identifier 9]
    (Sample.pairs (by decide))

/-- C103 for timestamp messages. -/
theorem C103_timestamp_same_bytes (cfg : Cfg) (b c : Bytes) (hl : 20 ≤ b.length)
    (hlen : c.length = b.length) (hcode : field c 8 8 = field b 8 8) (hrest : c.drop 20 = b.drop 20)
    (ops ops' : List Timestamp.Set)
    (hsame : ∀ s w, (s, w) ∈ [(0, 8), (32, 16), (48, 16), (64, 32), (96, 32), (128, 32)] →
      lastWritten timestampWritten s (field b s w) ops = lastWritten timestampWritten s (field c s w) ops') :
    ∃ r, Timestamp.checkedRun cfg ops b = (.ok (), r) ∧ Timestamp.checkedRun cfg ops' c = (.ok (), r) :=
  icmp_same_bytes cfg (Timestamp.checkedRun cfg) timestampWritten [(0, 8), (32, 16), (48, 16), (64, 32), (96, 32), (128, 32)] 20 (by omega) cover20 (n := 20) (Nat.le_refl _) hl hlen hcode
    hrest ops ops' (timestamp_checked_all cfg b hl ops) (timestamp_checked_all cfg c (by omega) ops') hsame

/-- A concrete case that meets the hypotheses. -/
example (cfg : Cfg) := C103_timestamp_same_bytes cfg Sample.timestamp (put Sample.timestamp 4 [0, 54]) (by decide)
    (by decide) (by decide) (by decide) [.identifier 9, .sequence 5] [.sequence 5, .identifier 9]
    (Sample.pairs (by decide))

/-- C103 for information messages. -/
theorem C103_information_same_bytes (cfg : Cfg) (b c : Bytes) (hl : 8 ≤ b.length)
    (hlen : c.length = b.length) (hcode : field c 8 8 = field b 8 8) (hrest : c.drop 8 = b.drop 8)
    (ops ops' : List Information.Set)
    (hsame : ∀ s w, (s, w) ∈ [(0, 8), (32, 16), (48, 16)] →
      lastWritten informationWritten s (field b s w) ops = lastWritten informationWritten s (field c s w) ops') :
    ∃ r, Information.checkedRun cfg ops b = (.ok (), r) ∧ Information.checkedRun cfg ops' c = (.ok (), r) :=
  icmp_same_bytes cfg (Information.checkedRun cfg) informationWritten [(0, 8), (32, 16), (48, 16)] 8 (by omega) cover8 (n := 8) (Nat.le_refl _) hl hlen hcode
    hrest ops ops' (information_checked_all cfg b hl ops) (information_checked_all cfg c (by omega) ops') hsame

/-- A concrete case that meets the hypotheses. -/
example (cfg : Cfg) := C103_information_same_bytes cfg Sample.information (put Sample.information 4 [0, 54])
    (by decide) (by decide) (by decide) (by decide) [.identifier 9, .sequence 5] [.sequence 5, .identifier 9]
    (Sample.pairs (by decide))

/-- C103 for the three ICMP guards: two sessions one after the other are one session with all the calls. -/
theorem C103_icmp_sessions (cfg : Cfg) (b : Bytes) (hb : b.length < cfg.usizeMod) :
    (8 ≤ b.length → ∀ ops ops' : List Echo.Set,
      (Echo.checkedRun cfg ops >>= fun _ => Echo.checkedRun cfg ops') b = Echo.checkedRun cfg (ops ++ ops') b) ∧
    (20 ≤ b.length → ∀ ops ops' : List Timestamp.Set,
      (Timestamp.checkedRun cfg ops >>= fun _ => Timestamp.checkedRun cfg ops') b =
        Timestamp.checkedRun cfg (ops ++ ops') b) ∧
    (8 ≤ b.length → ∀ ops ops' : List Information.Set,
      (Information.checkedRun cfg ops >>= fun _ => Information.checkedRun cfg ops') b =
        Information.checkedRun cfg (ops ++ ops') b) := by
  refine ⟨?_, ?_, ?_⟩
  · intro hl ops ops'
    obtain ⟨r, r1, -, r3, r4, r5, r6⟩ := echo_checked_all cfg b hl hb ops
    rw [Mut.bind_ok r1]
    obtain ⟨q, q1, q2⟩ := C103_echo_same_bytes cfg b r hl hb r3 r5 r4 (ops ++ ops') ops' (by
      intro s w hsw
      rw [r6 s w hsw]
      exact (last_last _ _ _ _).symm)
    rw [q1, q2]
  · intro hl ops ops'
    obtain ⟨r, r1, -, r3, r4, r5, r6⟩ := timestamp_checked_all cfg b hl ops
    rw [Mut.bind_ok r1]
    obtain ⟨q, q1, q2⟩ := C103_timestamp_same_bytes cfg b r hl r3 r5 r4 (ops ++ ops') ops' (by
      intro s w hsw
      rw [r6 s w hsw]
      exact (last_last _ _ _ _).symm)
    rw [q1, q2]
  · intro hl ops ops'
    obtain ⟨r, r1, -, r3, r4, r5, r6⟩ := information_checked_all cfg b hl ops
    rw [Mut.bind_ok r1]
    obtain ⟨q, q1, q2⟩ := C103_information_same_bytes cfg b r hl r3 r5 r4 (ops ++ ops') ops' (by
      intro s w hsw
      rw [r6 s w hsw]
      exact (last_last _ _ _ _).symm)
    rw [q1, q2]

/-- Two histories in different order, with a repeated call and a refused one, on packets with different wrong checksums. -/
example : ∃ b c : Bytes, Legal b ∧ Legal c ∧ b ≠ c ∧ c.length = b.length ∧ c.drop 20 = b.drop 20 ∧
    V4.checkedRun ⟨true, true, false⟩ [.ttl 3, .dscp 46, .id 9, .ttl 64, .dscp 64] b =
      V4.checkedRun ⟨true, true, false⟩ [.dscp 46, .ttl 64, .id 9] c ∧
    V4.isValid ⟨true, true, false⟩ b = .ok false ∧ V4.isValid ⟨true, true, false⟩ c = .ok false := by
  refine ⟨[0x45, 0, 0, 20, 0, 1, 0, 0, 1, 17, 1, 2, 10, 0, 0, 1, 10, 0, 0, 2],
    [0x45, 0, 0, 20, 0, 2, 0, 0, 5, 17, 3, 4, 10, 0, 0, 1, 10, 0, 0, 2], ⟨by decide, by decide⟩, ⟨by decide, by decide⟩,
    by decide, by decide, by decide, ?_, by decide +kernel, by decide +kernel⟩
  first | rfl | decide +kernel

end Verif.Props
