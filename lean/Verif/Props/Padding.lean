import Verif.Props.Verify
import Verif.Props.V4
import Verif.Props.Transport
import Verif.Props.Ether
import Verif.Samples

/-!
# Bytes behind a packet (C88, C89)

Ethernet pads short frames, and receive buffers are longer than what was received.
-/

namespace Verif.Props
open Verif Verif.Spec

/-! ## Reading in a longer buffer -/

theorem idx_pad {b : Bytes} (pad : Bytes) {i : Nat} (h : i < b.length) : idx (b ++ pad) i = idx b i := by
  unfold idx; rw [List.getElem?_append_left h]

theorem readU16At_pad {b : Bytes} (pad : Bytes) {i : Nat} (h : i + 2 ≤ b.length) :
    readU16At (b ++ pad) i = readU16At b i := by
  rw [readU16At_ok (by simp; omega), readU16At_ok h]
  simp only [List.getD, List.getElem?_append_left (show i < b.length by omega),
    List.getElem?_append_left (show i + 1 < b.length by omega)]

theorem readU32At_pad {b : Bytes} (pad : Bytes) {i : Nat} (h : i + 4 ≤ b.length) :
    readU32At (b ++ pad) i = readU32At b i := by
  rw [readU32At_ok (by simp; omega), readU32At_ok h]
  simp only [List.getD, List.getElem?_append_left (show i < b.length by omega),
    List.getElem?_append_left (show i + 1 < b.length by omega),
    List.getElem?_append_left (show i + 2 < b.length by omega),
    List.getElem?_append_left (show i + 3 < b.length by omega)]

theorem field_pad {b : Bytes} (pad : Bytes) {s w : Nat} (h : s + w ≤ 8 * b.length) :
    field (b ++ pad) s w = field b s w :=
  field_congr fun i _ hi => bitAt_congr (List.getElem?_append_left (by omega))

theorem slice_pad {b : Bytes} (pad : Bytes) {i j : Nat} (h : j ≤ b.length) :
    slice (b ++ pad) i j = slice b i j := by
  unfold slice
  have h' : j ≤ (b ++ pad).length := by simp; omega
  rw [List.take_append_of_le_length h]
  simp only [h, h', and_true]

theorem sliceTo_pad {b : Bytes} (pad : Bytes) {j : Nat} (h : j ≤ b.length) :
    sliceTo (b ++ pad) j = sliceTo b j := by
  rw [sliceTo_ok (by simp; omega), sliceTo_ok h, List.take_append_of_le_length h]

theorem drop_take_pad {b : Bytes} (pad : Bytes) {i n : Nat} (h : i + n ≤ b.length) :
    ((b ++ pad).drop i).take n = (b.drop i).take n := by
  rw [List.drop_append_of_le_length (by omega), List.take_append_of_le_length (by simp; omega)]

theorem v4_isValid_pad (cfg : Cfg) {b : Bytes} (pad : Bytes) (hh : V4.header (b ++ pad) = V4.header b)
    (h : 20 ≤ b.length) : V4.isValid cfg (b ++ pad) = V4.isValid cfg b := by
  have : V4.checksum (b ++ pad) = V4.checksum b := readU16At_pad pad (by omega)
  simp only [V4.isValid, hh, this]

/-! ## C88 -/

/-- C88 for IPv4: whatever follows an accepted packet in the buffer, the longer buffer is accepted and every
accessor and view returns the same. -/
theorem C88_v4_padding (cfg : Cfg) (b pad : Bytes) (h : V4.new b = .ok b) :
    V4.new (b ++ pad) = .ok (b ++ pad) ∧
    V4.version (b ++ pad) = V4.version b ∧ V4.ihl (b ++ pad) = V4.ihl b ∧
    V4.dscp (b ++ pad) = V4.dscp b ∧ V4.ecn (b ++ pad) = V4.ecn b ∧
    V4.length (b ++ pad) = V4.length b ∧ V4.id (b ++ pad) = V4.id b ∧
    V4.flags (b ++ pad) = V4.flags b ∧ V4.offset (b ++ pad) = V4.offset b ∧
    V4.ttl (b ++ pad) = V4.ttl b ∧ V4.protocol (b ++ pad) = V4.protocol b ∧
    V4.checksum (b ++ pad) = V4.checksum b ∧ V4.source (b ++ pad) = V4.source b ∧
    V4.destination (b ++ pad) = V4.destination b ∧ V4.header (b ++ pad) = V4.header b ∧
    V4.payload (b ++ pad) = V4.payload b ∧ V4.options (b ++ pad) = V4.options b ∧
    V4.asRef (b ++ pad) = V4.asRef b ∧ V4.headerSize (b ++ pad) = V4.headerSize b ∧
    V4.payloadSize (b ++ pad) = V4.payloadSize b ∧ V4.isValid cfg (b ++ pad) = V4.isValid cfg b := by
  obtain ⟨_, ⟨hl, hv, hh⟩, ht⟩ := V4.new_ok_iff.1 h
  have i0 : idx (b ++ pad) 0 = idx b 0 := idx_pad pad (by omega)
  have i1 : idx (b ++ pad) 1 = idx b 1 := idx_pad pad (by omega)
  have hihl : V4.ihl (b ++ pad) = V4.ihl b := by simp only [V4.ihl, i0]
  have hlen : V4.length (b ++ pad) = V4.length b := readU16At_pad pad (by omega)
  have f0 : field (b ++ pad) 0 4 = field b 0 4 := field_pad pad (by omega)
  have f4 : field (b ++ pad) 4 4 = field b 4 4 := field_pad pad (by omega)
  have f16 : field (b ++ pad) 16 16 = field b 16 16 := field_pad pad (by omega)
  have hsz : V4.size b = .ok (field b 4 4 * 4 + (field b 16 16 - field b 4 4 * 4)) := by
    simp only [V4.size, V4.headerSize_eq (show 4 ≤ b.length by omega),
      V4.payloadSize_eq (show 4 ≤ b.length by omega), Outcome.ok_bind]
  have hhs : V4.headerSize (b ++ pad) = V4.headerSize b := by simp only [V4.headerSize, hihl]
  have hps : V4.payloadSize (b ++ pad) = V4.payloadSize b := by simp only [V4.payloadSize, hihl, hlen]
  have hsz' : V4.size (b ++ pad) = V4.size b := by simp only [V4.size, hhs, hps]
  have hhd : V4.header (b ++ pad) = V4.header b := by
    rw [V4.header_eq (by simp; omega) (by rw [f4]; simp; omega), V4.header_eq (by omega) hh, f4,
      List.take_append_of_le_length hh]
  refine ⟨V4.new_ok_iff.2 ⟨rfl, ⟨by simp; omega, by omega, by simp; omega⟩, by simp; omega⟩, ?_, hihl, ?_, ?_,
    hlen, ?_, ?_, ?_, ?_, ?_, ?_, ?_, ?_, hhd, ?_, ?_, ?_, hhs, hps, v4_isValid_pad cfg pad hhd hl⟩
  · simp only [V4.version, i0]
  · simp only [V4.dscp, i1]
  · simp only [V4.ecn, i1]
  · exact readU16At_pad pad (by omega)
  · simp only [V4.flags, readU16At_pad pad (show 6 + 2 ≤ b.length by omega)]
  · simp only [V4.offset, readU16At_pad pad (show 6 + 2 ≤ b.length by omega)]
  · exact idx_pad pad (by omega)
  · simp only [V4.protocol, idx_pad pad (show 9 < b.length by omega)]
  · exact readU16At_pad pad (by omega)
  · simp only [V4.source, idx_pad pad (show 12 < b.length by omega), idx_pad pad (show 13 < b.length by omega),
      idx_pad pad (show 14 < b.length by omega), idx_pad pad (show 15 < b.length by omega)]
  · simp only [V4.destination, idx_pad pad (show 16 < b.length by omega),
      idx_pad pad (show 17 < b.length by omega), idx_pad pad (show 18 < b.length by omega),
      idx_pad pad (show 19 < b.length by omega)]
  · rw [V4.payload_eq (by simp; omega) (by rw [f4]; simp; omega), V4.payload_eq (by omega) hh, f4, f16]
    by_cases hz : field b 16 16 ≤ field b 4 4 * 4
    · rw [show field b 16 16 - field b 4 4 * 4 = 0 by omega]; simp
    · rw [drop_take_pad pad (by omega)]
  · unfold V4.options
    rw [hihl, V4.ihl_field (by omega)]
    simp only [Outcome.ok_bind, V4.ihl_toNat]
    exact slice_pad pad hh
  · unfold V4.asRef
    rw [hsz', hsz]
    simp only [Outcome.ok_bind]
    exact sliceTo_pad pad (by omega)

/-- A concrete case that meets the hypotheses. -/
example (cfg : Cfg) (pad : Bytes) := C88_v4_padding cfg Sample.udpPacket pad (by decide)

/-- C88 for UDP: acceptance, fields and views. Not part of this claim: `is_valid`, see C89. -/
theorem C88_udp_padding (b pad : Bytes) (h : Udp.new b = .ok b) :
    Udp.new (b ++ pad) = .ok (b ++ pad) ∧
    Udp.source (b ++ pad) = Udp.source b ∧ Udp.destination (b ++ pad) = Udp.destination b ∧
    Udp.length (b ++ pad) = Udp.length b ∧ Udp.checksum (b ++ pad) = Udp.checksum b ∧
    Udp.header (b ++ pad) = Udp.header b ∧ Udp.payload (b ++ pad) = Udp.payload b ∧
    Udp.asRef (b ++ pad) = Udp.asRef b ∧ Udp.payloadSize (b ++ pad) = Udp.payloadSize b := by
  obtain ⟨_, hl, ht⟩ := Udp.new_ok_iff.1 h
  have f : field (b ++ pad) 32 16 = field b 32 16 := field_pad pad (by omega)
  have hsp : Udp.split (b ++ pad) = Udp.split b := by
    rw [Udp.split_eq (by simp; omega), Udp.split_eq hl, f, List.take_append_of_le_length hl]
    by_cases hz : field b 32 16 ≤ 8
    · rw [show field b 32 16 - 8 = 0 by omega]; simp
    · rw [drop_take_pad pad (by omega)]
  have hps : Udp.payloadSize (b ++ pad) = Udp.payloadSize b := by
    rw [Udp.payloadSize_eq (by simp; omega), Udp.payloadSize_eq hl, f]
  refine ⟨Udp.new_ok_iff.2 ⟨rfl, by simp; omega, by simp; omega⟩, readU16At_pad pad (by omega),
    readU16At_pad pad (by omega), readU16At_pad pad (by omega), readU16At_pad pad (by omega), ?_, ?_, ?_, hps⟩
  · simp only [Udp.header, hsp]
  · simp only [Udp.payload, hsp]
  · simp only [Udp.asRef, Udp.size, Udp.headerSize, hps, Outcome.ok_bind, Udp.payloadSize_eq hl]
    exact sliceTo_pad pad (by omega)

/-- A concrete case that meets the hypotheses. -/
example (pad : Bytes) := C88_udp_padding Sample.udp pad (by decide)

/-- C88 for TCP, which has no length of its own: the header is the same, and what follows is payload. -/
theorem C88_tcp_padding (b pad : Bytes) (h : Tcp.new b = .ok b) :
    Tcp.new (b ++ pad) = .ok (b ++ pad) ∧
    Tcp.source (b ++ pad) = Tcp.source b ∧ Tcp.destination (b ++ pad) = Tcp.destination b ∧
    Tcp.sequence (b ++ pad) = Tcp.sequence b ∧ Tcp.acknowledgment (b ++ pad) = Tcp.acknowledgment b ∧
    Tcp.offset (b ++ pad) = Tcp.offset b ∧ Tcp.flags (b ++ pad) = Tcp.flags b ∧
    Tcp.window (b ++ pad) = Tcp.window b ∧ Tcp.checksum (b ++ pad) = Tcp.checksum b ∧
    Tcp.pointer (b ++ pad) = Tcp.pointer b ∧ Tcp.options (b ++ pad) = Tcp.options b ∧
    Tcp.header (b ++ pad) = Tcp.header b ∧
    ∃ p, Tcp.payload b = .ok p ∧ Tcp.payload (b ++ pad) = .ok (p ++ pad) := by
  obtain ⟨_, hl, ht⟩ := Tcp.new_ok_iff.1 h
  have f : field (b ++ pad) 96 4 = field b 96 4 := field_pad pad (by omega)
  have hof : Tcp.offset (b ++ pad) = Tcp.offset b := by
    simp only [Tcp.offset, idx_pad pad (show 12 < b.length by omega)]
  have s1 := Tcp.split_eq hl ht
  have s2 := Tcp.split_eq (b := b ++ pad) (by simp; omega) (by rw [f]; simp; omega)
  rw [f, List.take_append_of_le_length ht, List.drop_append_of_le_length ht] at s2
  refine ⟨Tcp.new_ok_iff.2 ⟨rfl, by simp; omega, by rw [f]; simp; omega⟩, readU16At_pad pad (by omega),
    readU16At_pad pad (by omega), readU32At_pad pad (by omega), readU32At_pad pad (by omega), hof, ?_,
    readU16At_pad pad (by omega), readU16At_pad pad (by omega), readU16At_pad pad (by omega), ?_, ?_, ?_⟩
  · simp only [Tcp.flags, readU16At_pad pad (show 12 + 2 ≤ b.length by omega)]
  · unfold Tcp.options
    rw [hof, Tcp.offset_field (by omega)]
    simp only [Outcome.ok_bind, Tcp.offset_toNat]
    exact slice_pad pad ht
  · simp only [Tcp.header, s1, s2, Outcome.ok_bind]
  · exact ⟨b.drop (field b 96 4 * 4), by simp only [Tcp.payload, s1, Outcome.ok_bind],
      by simp only [Tcp.payload, s2, Outcome.ok_bind]⟩

/-- A concrete case that meets the hypotheses. -/
example (pad : Bytes) := C88_tcp_padding Sample.tcp pad (by decide)

/-- C88 for a whole frame: an Ethernet frame carrying an accepted IPv4 packet, with any padding behind it.
The transport layer's buffer, and with it every view of the inner packet, is the same, and so is every
verification against the enclosing IPv4 packet. -/
theorem C88_frame_padding (cfg : Cfg) (f pad p : Bytes) (hf : Ether.new f = .ok f)
    (hp : Ether.payload f = .ok p) (h4 : V4.new p = .ok p) :
    Ether.new (f ++ pad) = .ok (f ++ pad) ∧ Ether.header (f ++ pad) = Ether.header f ∧
    Ether.destination (f ++ pad) = Ether.destination f ∧ Ether.source (f ++ pad) = Ether.source f ∧
    Ether.protocol (f ++ pad) = Ether.protocol f ∧
    ∃ q, Ether.payload (f ++ pad) = .ok q ∧ IpPacket.new q = .ok (.v4 q) ∧
      V4.header q = V4.header p ∧ V4.payload q = V4.payload p ∧ V4.isValid cfg q = V4.isValid cfg p ∧
      (∀ t, Udp.isValid cfg (.v4 q) t = Udp.isValid cfg (.v4 p) t) ∧
      (∀ t, Tcp.isValid cfg (.v4 q) t = Tcp.isValid cfg (.v4 p) t) := by
  have hl : 14 ≤ f.length := by
    rw [C10_ether_accept] at hf
    split at hf
    · assumption
    · cases hf
  have hsp : Ether.split f = .ok (f.take 14, f.drop 14) := splitAt_ok hl
  have hsp' : Ether.split (f ++ pad) = .ok (f.take 14, f.drop 14 ++ pad) := by
    unfold Ether.split
    rw [splitAt_ok (by simp; omega), List.take_append_of_le_length hl, List.drop_append_of_le_length hl]
  have hpe : p = f.drop 14 := by
    simp only [Ether.payload, hsp, Outcome.ok_bind] at hp
    cases hp; rfl
  have h := C88_v4_padding cfg p pad h4
  obtain ⟨k1, k2, -, -, -, -, -, -, -, -, -, -, k3, k4, k5, k6, -, -, -, -, k7⟩ := h
  have h4l : 20 ≤ p.length := (V4.new_ok_iff.1 h4).2.long
  have h4v : field p 0 4 = 4 := (V4.new_ok_iff.1 h4).2.version
  refine ⟨by rw [C10_ether_accept, if_pos (by simp; omega)], ?_, ?_, ?_, ?_, p ++ pad, ?_, ?_, k5, k6, k7, ?_, ?_⟩
  · simp only [Ether.header, hsp, hsp', Outcome.ok_bind]
  · simp only [Ether.destination, slice_pad pad (show 6 ≤ f.length by omega)]
  · simp only [Ether.source, slice_pad pad (show 12 ≤ f.length by omega)]
  · simp only [Ether.protocol, readU16At_pad pad (show 12 + 2 ≤ f.length by omega)]
  · simp only [Ether.payload, hsp', Outcome.ok_bind, hpe]
  · have hx : (p.getD 0 0#8) >>> 4 = 4#8 := by
      have hv := field_hi4 p 0
      simp only [Nat.mul_zero] at hv
      rw [h4v] at hv
      apply BitVec.eq_of_toNat_eq
      rw [shr4_toNat, ← hv]; rfl
    simp only [IpPacket.new, idx_pad pad (show 0 < p.length by omega), idx_ok (show 0 < p.length by omega),
      Outcome.ok_bind, hx, if_true, k1]
  · intro t; simp only [Udp.isValid, Udp.checksumOf, k3, k4]
  · intro t; simp only [Tcp.isValid, Tcp.checksumOf, k3, k4]

/-- A padded frame: 14 bytes of Ethernet, an IPv4 packet of 28 bytes with a UDP datagram, 4 bytes of padding. -/
example : ∃ f pad p q t : Bytes, pad ≠ [] ∧ Ether.new f = .ok f ∧ Ether.payload f = .ok p ∧
    V4.new p = .ok p ∧ Ether.payload (f ++ pad) = .ok q ∧ V4.payload q = .ok t ∧ Udp.new t = .ok t ∧
    t.length = 8 :=
  ⟨[1, 2, 3, 4, 5, 6, 7, 8, 9, 10, 11, 12, 8, 0,
    0x45, 0, 0, 28, 0, 0, 0, 0, 64, 17, 0, 0, 10, 0, 0, 1, 10, 0, 0, 2, 0, 53, 0, 53, 0, 8, 0, 0],
   [0, 0, 0, 0], _, _, _, by decide, rfl, rfl, rfl, rfl, rfl, rfl, rfl⟩

/-! ## C89: a UDP datagram followed by something else -/

theorem loopWords_append (skip : Nat) : ∀ (x : Bytes) (y : Bytes) (pos : Nat), x.length % 2 = 0 →
    loopWords skip (x ++ y) pos = loopWords skip x pos ++ loopWords skip y (pos + x.length)
  | [], y, pos, _ => by simp [loopWords]
  | [a], y, pos, h => by simp at h
  | a :: b :: x, y, pos, h => by
    have ih := loopWords_append skip x y (pos + 2) (by simp only [List.length_cons] at h; omega)
    have he : pos + 2 + x.length = pos + (a :: b :: x).length := by simp only [List.length_cons]; omega
    simp only [List.cons_append, loopWords]
    split
    · rw [ih, he]
    · rw [ih, he]; rfl

theorem loopWords_zeros (skip : Nat) : ∀ (n pos : Nat), (loopWords skip (zeros n) pos).sum = 0
  | 0, pos => by simp [zeros, loopWords]
  | 1, pos => by simp [zeros, loopWords]
  | n + 2, pos => by
    have ih := loopWords_zeros skip n (pos + 2)
    rw [show zeros (n + 2) = 0#8 :: 0#8 :: zeros n from rfl, loopWords]
    split
    · exact ih
    · simp [ih]

theorem oddWord_append {x : Bytes} (y : Bytes) (h : x.length % 2 = 0) : oddWord (x ++ y) = oddWord y := by
  have : ∀ x : Bytes, x.length % 2 = 0 → oddTail (x ++ y) = oddTail y := by
    intro x
    induction x using oddTail.induct with
    | case1 a b rest ih =>
      intro h
      simp only [List.cons_append, oddTail]
      exact ih (by simp only [List.length_cons] at h; omega)
    | case2 r hr =>
      intro h
      match r with
      | [] => rfl
      | [a] => simp at h
      | a :: b :: r => exact absurd rfl (hr a b r)
  unfold oddWord
  rw [this x h]

theorem pseudoSum_len {p : Bytes} (h : 20 ≤ p.length) (proto : U8) (n : Nat) :
    pseudoSum p proto n = pseudoSum p proto 0 + n % 65536 := by
  unfold pseudoSum pseudoHeader
  rw [take4_drop (by omega), take4_drop (by omega)]
  simp only [List.cons_append, List.nil_append, words, List.sum_cons, List.sum_nil]
  have : (BitVec.ofNat 8 (n / 256)).toNat * 256 + (BitVec.ofNat 8 n).toNat = n % 65536 := by
    simp only [BitVec.toNat_ofNat]; omega
  have h0 : (BitVec.ofNat 8 (0 / 256)).toNat * 256 + (BitVec.ofNat 8 0).toNat = 0 := rfl
  rw [this, h0]
  simp only [Nat.add_zero]
  generalize n % 65536 = m
  simp only [← Nat.add_assoc]

/-- The bytes behind a datagram of even length: the lengths in the pseudo header differ. -/
theorem udp_sum_zeros {ip b : Bytes} (hip : 20 ≤ ip.length) (heven : b.length % 2 = 0) {n : Nat} (hn : n % 2 = 0)
    (hmax : b.length + n < 65536) (cfg : Cfg) :
    ∃ k, Udp.checksumOf cfg (.v4 ip) b = .ok (ckOf k) ∧
      Udp.checksumOf cfg (.v4 ip) (b ++ zeros n) = .ok (ckOf (k + n)) ∧ 17 ≤ k := by
  have hz : (zeros n).length = n := List.length_replicate ..
  refine ⟨pseudoSum ip 17#8 b.length + (loopWords 8 b 0).sum, ?_, ?_, ?_⟩
  · rw [Udp.checksumOf_eq cfg ip b hip, oddWord_even heven, ite_self, Nat.add_zero]
  · rw [Udp.checksumOf_eq cfg ip _ hip, oddWord_even (by simp only [List.length_append, hz]; omega), ite_self,
      Nat.add_zero, loopWords_append _ _ _ _ heven, List.sum_append, loopWords_zeros, Nat.add_zero,
      pseudoSum_len hip _ b.length, pseudoSum_len hip _ (b ++ zeros n).length]
    have : (b ++ zeros n).length % 65536 = b.length % 65536 + n := by
      simp only [List.length_append, hz]; omega
    rw [this]
    congr 2
    generalize pseudoSum ip 17#8 0 = x
    omega
  · have : 17 ≤ pseudoSum ip 17#8 b.length := by
      unfold pseudoSum pseudoHeader
      rw [take4_drop (by omega), take4_drop (by omega)]
      simp only [List.cons_append, List.nil_append, words, List.sum_cons, List.sum_nil]
      have : (0#8).toNat * 256 + (17#8).toNat = 17 := rfl
      rw [this]
      simp only [Nat.add_zero]
      refine Nat.le_trans ?_ (Nat.le_add_left _ _)
      refine Nat.le_trans ?_ (Nat.le_add_left _ _)
      refine Nat.le_trans ?_ (Nat.le_add_left _ _)
      refine Nat.le_trans ?_ (Nat.le_add_left _ _)
      exact Nat.le_add_right _ _
    omega

theorem ckOf_add_ne {k n : Nat} (hk : 17 ≤ k) (hn : 0 < n) (hn' : n < 65535) : ckOf (k + n) ≠ ckOf k := by
  intro h
  rw [ckOf_inj, norm_eq_iff] at h
  omega

/-- C89 is false of the code for `is_valid`: a verified datagram (its buffer exactly as long as its length
field says, any even length) stops verifying as soon as the buffer goes on behind it, although `as_ref()`, the
datagram, is the same (C88).  `n` zero bytes are enough, any even `n` that keeps the buffer below 65534 bytes. -/
theorem C89_udp_surplus_refuted (cfg : Cfg) (ip b : Bytes) (hip : 20 ≤ ip.length) (h : Udp.new b = .ok b)
    (heven : b.length % 2 = 0) (hv : Udp.isValid cfg (.v4 ip) b = .ok true) (n : Nat) (hn : n % 2 = 0)
    (hn0 : 0 < n) (hmax : b.length + n < 65534) :
    Udp.asRef (b ++ zeros n) = Udp.asRef b ∧ Udp.isValid cfg (.v4 ip) (b ++ zeros n) = .ok false := by
  obtain ⟨-, -, -, -, hc, -, -, ha, -⟩ := C88_udp_padding b (zeros n) h
  obtain ⟨k, h1, h2, hk⟩ := udp_sum_zeros hip heven hn (by omega) cfg
  obtain ⟨_, hl, -⟩ := Udp.new_ok_iff.1 h
  refine ⟨ha, ?_⟩
  have hck : ∃ c, Udp.checksum b = .ok c := ⟨_, readU16At_ok (by omega)⟩
  obtain ⟨c, hc'⟩ := hck
  simp only [Udp.isValid, h1, hc', Outcome.ok_bind] at hv
  have hkc : ckOf k = c := by simpa using hv
  simp only [Udp.isValid, h2, hc, hc', Outcome.ok_bind]
  have := ckOf_add_ne hk hn0 (by omega)
  rw [hkc] at this
  simp [this]

/-- A concrete case that meets the hypotheses. -/
example (cfg : Cfg) := C89_udp_surplus_refuted cfg Sample.udpPacket Sample.udp (by decide) (by decide) (by decide)
    (by in_every_build) 2 (by decide) (by decide) (by decide)

/-- C89 is false of the code for `update_checksum`: with bytes behind the datagram it stores a checksum with
which the datagram itself does not verify. -/
theorem C89_udp_update_refuted (cfg : Cfg) (ip b : Bytes) (hip : 20 ≤ ip.length) (h : Udp.new b = .ok b)
    (heven : b.length % 2 = 0) (hlen : Udp.length b = .ok (BitVec.ofNat 16 b.length)) (n : Nat) (hn : n % 2 = 0)
    (hn0 : 0 < n) (hmax : b.length + n < 65534) :
    ∃ b', Udp.updateChecksum cfg (.v4 ip) (b ++ zeros n) = (.ok (), b' ++ zeros n) ∧
      Udp.asRef (b' ++ zeros n) = .ok b' ∧ Udp.isValid cfg (.v4 ip) b' = .ok false := by
  obtain ⟨_, hl, hf⟩ := Udp.new_ok_iff.1 h
  obtain ⟨k, h1, h2, hk⟩ := udp_sum_zeros hip heven hn (by omega) cfg
  have hne := ckOf_add_ne hk hn0 (by omega)
  generalize hc : ckOf (k + n) = c at h2 hne
  have hb2 : (be16 c).length = 2 := rfl
  have hput : put (b ++ zeros n) 6 (be16 c) = put b 6 (be16 c) ++ zeros n := by
    unfold put
    rw [List.take_append_of_le_length (by omega), List.drop_append_of_le_length (by rw [hb2]; omega)]
    simp only [List.append_assoc]
  have hlp : (put b 6 (be16 c)).length = b.length := length_put (by rw [hb2]; omega)
  have hf' : field (put b 6 (be16 c)) 32 16 = field b 32 16 :=
    (setsField_put16 (b := b) (off := 6) (v := c) (by omega)).other (by omega)
  have hfl : field b 32 16 = b.length := by
    rw [Udp.length_field (by omega)] at hlen
    have := congrArg BitVec.toNat (Outcome.ok.inj hlen)
    rw [ofNat_field_toNat, BitVec.toNat_ofNat] at this
    omega
  have hnew : Udp.new (put b 6 (be16 c)) = .ok (put b 6 (be16 c)) :=
    Udp.new_ok_iff.2 ⟨rfl, by omega, by omega⟩
  refine ⟨put b 6 (be16 c), ?_, ?_, ?_⟩
  · unfold Udp.updateChecksum
    rw [Mut.bind_ok (a := c) (s' := b ++ zeros n) (by simp only [Mut.read, h2]),
      Udp.setChecksum_eq (by simp; omega), hput]
  · obtain ⟨-, -, -, -, -, -, -, ha, -⟩ := C88_udp_padding _ (zeros n) hnew
    rw [ha]
    simp only [Udp.asRef, Udp.size, Udp.headerSize, Udp.payloadSize_eq (show 8 ≤ (put b 6 (be16 c)).length by omega),
      Outcome.ok_bind, hf', hfl]
    rw [sliceTo_ok (by omega), List.take_of_length_le (by omega)]
  · have hs : Udp.checksumOf cfg (.v4 ip) (put b 6 (be16 c)) = Udp.checksumOf cfg (.v4 ip) b := by
      rw [Udp.checksumOf_eq cfg ip _ hip, Udp.checksumOf_eq cfg ip b hip, hlp, oddWord_even heven,
        oddWord_even (by omega)]
      congr 4
      exact congrArg List.sum (loopWords_put 3 b 0 _ _ (by omega))
    have hcs : Udp.checksum (put b 6 (be16 c)) = .ok c := readU16At_put (by omega)
    simp only [Udp.isValid, hs, h1, hcs, Outcome.ok_bind]
    simp [Ne.symm hne]

/-- A concrete case that meets the hypotheses. -/
example (cfg : Cfg) := C89_udp_update_refuted cfg Sample.udpPacket Sample.udp (by decide) (by decide) (by decide)
    (by decide) 2 (by decide) (by decide) (by decide)

/-- C89 where it holds: the buffer ends where the length field says. -/
theorem C89_udp_exact_partial (cfg : Cfg) (ip b : Bytes) (hip : 20 ≤ ip.length) (h : Udp.new b = .ok b)
    (hlen : field b 32 16 = b.length) (hodd : b.length % 2 = 0 ∨ cfg.eofAdvances = false) :
    Udp.asRef b = .ok b ∧ (Udp.isValid cfg (.v4 ip) b = .ok true ↔
      verifies (pseudoHeader ((ip.drop 12).take 4) ((ip.drop 16).take 4) 17#8 (field b 32 16) ++
        b.take (field b 32 16)) ∧ Udp.checksum b ≠ .ok 0xffff#16) := by
  obtain ⟨_, hl, hf⟩ := Udp.new_ok_iff.1 h
  constructor
  · simp only [Udp.asRef, Udp.size, Udp.headerSize, Udp.payloadSize_eq hl, Outcome.ok_bind]
    rw [sliceTo_ok (by omega), List.take_of_length_le (by omega)]
  · rw [hlen, List.take_of_length_le (Nat.le_refl _)]
    exact C62_udp_is_valid_iff_verifies cfg ip b hip hl hodd

/-- The hypotheses are met by a datagram of ten bytes and two bytes behind it. -/
example : ∃ ip b : Bytes, V4.new ip = .ok ip ∧ Udp.new b = .ok b ∧ b.length % 2 = 0 ∧ field b 32 16 = b.length ∧
    (∀ cfg, Udp.isValid cfg (.v4 ip) b = .ok true) ∧ b.length + 2 < 65534 :=
  ⟨[0x45, 0, 0, 20, 0, 0, 0, 0, 64, 17, 0, 0, 10, 0, 0, 1, 10, 0, 0, 2],
   [0, 53, 0, 53, 0, 10, 0x8a, 0x0b, 0x61, 0x62], by decide +kernel, by decide +kernel, by decide, by decide +kernel,
   (fun cfg => by obtain ⟨oc, ea, nw⟩ := cfg; cases oc <;> cases ea <;> cases nw <;> decide +kernel), by decide⟩

end Verif.Props
