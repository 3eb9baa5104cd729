import Verif.Props.Large
import Verif.Samples

/-!
# Turning a packet around (C90)

Answering a packet in place swaps the addresses and the ports.  The Internet checksum does not depend on the
order of the 16-bit words, so all checksums stay as valid as they were.
-/

namespace Verif.Props
open Verif Verif.Spec

theorem loopWords_perm {skip : Nat} {x s d z : Bytes} (hx : x.length % 2 = 0) (hs : s.length % 2 = 0)
    (hd : d.length % 2 = 0) (he : s.length = d.length) (h : skip ≤ x.length ∨ x.length + 2 * s.length < skip) :
    (loopWords skip (x ++ (s ++ (d ++ z))) 0).sum = (loopWords skip (x ++ (d ++ (s ++ z))) 0).sum := by
  have key : ∀ (t : Bytes) (p q : Nat), (skip ≤ p ∨ p + t.length < skip) → (skip ≤ q ∨ q + t.length < skip) →
      (loopWords skip t p).sum = (loopWords skip t q).sum := by
    intro t
    induction t using words.induct with
    | case1 a b rest ih =>
      intro p q hp hq
      simp only [List.length_cons] at hp hq
      rw [loopWords, loopWords, if_neg (by omega), if_neg (by omega), List.sum_cons, List.sum_cons,
        ih (p + 2) (q + 2) (by omega) (by omega)]
    | case2 a => intros; simp [loopWords]
    | case3 => intros; simp [loopWords]
  rw [loopWords_append skip x _ _ hx, loopWords_append skip s _ _ hs, loopWords_append skip d _ _ hd,
    loopWords_append skip x _ _ hx, loopWords_append skip d _ _ hd, loopWords_append skip s _ _ hs]
  simp only [List.sum_append, Nat.zero_add]
  rw [key s x.length (x.length + d.length) (by omega) (by omega),
    key d (x.length + s.length) x.length (by omega) (by omega), he]
  omega

theorem oddWord_perm {x s d z : Bytes} (hx : x.length % 2 = 0) (hs : s.length % 2 = 0) (hd : d.length % 2 = 0) :
    oddWord (x ++ (s ++ (d ++ z))) = oddWord (x ++ (d ++ (s ++ z))) := by
  rw [oddWord_append _ hx, oddWord_append _ hs, oddWord_append _ hd, oddWord_append _ hx, oddWord_append _ hd,
    oddWord_append _ hs]

/-- Two writes next to each other. -/
theorem put_two {b u v : Bytes} {i : Nat} (h : i + u.length + v.length ≤ b.length) :
    put (put b i u) (i + u.length) v = b.take i ++ (u ++ (v ++ b.drop (i + u.length + v.length))) := by
  have hl : (b.take i).length = i := by rw [List.length_take]; omega
  unfold put
  have e1 : (b.take i ++ u ++ b.drop (i + u.length)).take (i + u.length) = b.take i ++ u := by
    rw [List.take_append_of_le_length (by simp; omega), List.take_of_length_le (by simp; omega)]
  have e2 : (b.take i ++ u ++ b.drop (i + u.length)).drop (i + u.length + v.length) =
      b.drop (i + u.length + v.length) := by
    rw [List.drop_append, List.drop_of_length_le (by simp; omega), List.nil_append, List.drop_drop]
    congr 1
    simp only [List.length_append, hl]
    omega
  rw [e1, e2]
  simp only [List.append_assoc]

theorem cut_two {b : Bytes} {i n m : Nat} (h : i + n + m ≤ b.length) :
    b = b.take i ++ ((b.drop i).take n ++ ((b.drop (i + n)).take m ++ b.drop (i + n + m))) := by
  have h1 : b.drop (i + n) = (b.drop (i + n)).take m ++ b.drop (i + n + m) := by
    conv => lhs; rw [← List.take_append_drop m (b.drop (i + n))]
    rw [List.drop_drop]
  have h2 : b.drop i = (b.drop i).take n ++ b.drop (i + n) := by
    conv => lhs; rw [← List.take_append_drop n (b.drop i)]
    rw [List.drop_drop]
  rw [← h1, ← h2, List.take_append_drop]

theorem words_swap (a b c d e f g h : U8) (t : Bytes) :
    (words ([a, b, c, d] ++ [e, f, g, h] ++ t)).sum = (words ([e, f, g, h] ++ [a, b, c, d] ++ t)).sum := by
  simp only [List.cons_append, List.nil_append, words, List.sum_cons]
  omega

/-- The pseudo header sum does not depend on which address is which. -/
theorem pseudoSum_swap {ip ip' : Bytes} (h : 20 ≤ ip.length) (h' : 20 ≤ ip'.length)
    (hs : V4.source ip' = V4.destination ip) (hd : V4.destination ip' = V4.source ip) (proto : U8) (n : Nat) :
    pseudoSum ip' proto n = pseudoSum ip proto n := by
  rw [V4.source_eq h', V4.destination_eq h] at hs
  rw [V4.source_eq h, V4.destination_eq h'] at hd
  have hs := Outcome.ok.inj hs
  have hd := Outcome.ok.inj hd
  simp only [Ipv4Addr.mk.injEq] at hs hd
  obtain ⟨s1, s2, s3, s4⟩ := hs
  obtain ⟨d1, d2, d3, d4⟩ := hd
  unfold pseudoSum pseudoHeader
  rw [take4_drop (by omega), take4_drop (by omega), take4_drop (by omega), take4_drop (by omega)]
  rw [s1, s2, s3, s4, d1, d2, d3, d4]
  exact words_swap ..

theorem udp_checksum_swap (cfg : Cfg) {ip ip' : Bytes} (h : 20 ≤ ip.length) (h' : 20 ≤ ip'.length)
    (hs : V4.source ip' = V4.destination ip) (hd : V4.destination ip' = V4.source ip) {b c : Bytes}
    (hl : c.length = b.length) (hw : (loopWords 8 c 0).sum = (loopWords 8 b 0).sum) (ho : oddWord c = oddWord b) :
    Udp.checksumOf cfg (.v4 ip') c = Udp.checksumOf cfg (.v4 ip) b := by
  rw [Udp.checksumOf_eq cfg ip' c h', Udp.checksumOf_eq cfg ip b h, pseudoSum_swap h h' hs hd, hl, hw, ho]

theorem tcp_checksum_swap (cfg : Cfg) {ip ip' : Bytes} (h : 20 ≤ ip.length) (h' : 20 ≤ ip'.length)
    (hs : V4.source ip' = V4.destination ip) (hd : V4.destination ip' = V4.source ip) {b c : Bytes}
    (hl : c.length = b.length) (hw : (loopWords 18 c 0).sum = (loopWords 18 b 0).sum) (ho : oddWord c = oddWord b) :
    Tcp.checksumOf cfg (.v4 ip') c = Tcp.checksumOf cfg (.v4 ip) b := by
  rw [tcp_checksum_any cfg ip' c h', tcp_checksum_any cfg ip b h, pseudoSum_swap h h' hs hd, hl, hw, ho]

theorem take_parts {x s d z : Bytes} {n : Nat} (h : x.length + (s.length + d.length) ≤ n) :
    (x ++ (s ++ (d ++ z))).take n = x ++ (s ++ (d ++ z.take (n - (x.length + (s.length + d.length))))) := by
  rw [List.take_append, List.take_of_length_le (by omega), List.take_append, List.take_of_length_le (by omega),
    List.take_append, List.take_of_length_le (by omega)]
  rw [show n - x.length - s.length - d.length = n - (x.length + (s.length + d.length)) by omega]

theorem drop_parts {x s d z : Bytes} {n : Nat} (h : x.length + (s.length + d.length) ≤ n) :
    (x ++ (s ++ (d ++ z))).drop n = z.drop (n - (x.length + (s.length + d.length))) := by
  rw [List.drop_append, List.drop_of_length_le (by omega), List.nil_append, List.drop_append,
    List.drop_of_length_le (by omega), List.nil_append, List.drop_append, List.drop_of_length_le (by omega),
    List.nil_append,
    show n - x.length - s.length - d.length = n - (x.length + (s.length + d.length)) by omega]

theorem ports_put {b : Bytes} (hl : 8 ≤ b.length) {s d : U16} :
    put (put b 0 (be16 d)) 2 (be16 s) = be16 d ++ (be16 s ++ b.drop 4) := by
  have := put_two (b := b) (u := be16 d) (v := be16 s) (i := 0) (by rw [be16_length, be16_length]; omega)
  rw [be16_length, be16_length] at this
  simpa using this

theorem ports_eq {b : Bytes} (hl : 8 ≤ b.length) {s d : U16} (hs : readU16At b 0 = .ok s)
    (hd : readU16At b 2 = .ok d) : b = be16 s ++ (be16 d ++ b.drop 4) := by
  rw [readU16At_ok (by omega)] at hs hd
  have hs := Outcome.ok.inj hs
  have hd := Outcome.ok.inj hd
  rw [← hs, ← hd, be16_fromBe16, be16_fromBe16]
  clear hs hd
  rcases b with _ | ⟨w, _ | ⟨x, _ | ⟨y, _ | ⟨z, t⟩⟩⟩⟩
  · simp at hl
  · simp at hl
  · simp at hl
  · simp at hl
  · rfl

/-! ## C90 -/

/-- C90 for IPv4: exchanging the addresses of a packet keeps the header checksum exactly as valid as it was. -/
theorem C90_v4_swap (cfg : Cfg) (b : Bytes) (h : Legal b) :
    ∃ s d b1 b2, V4.source b = .ok s ∧ V4.destination b = .ok d ∧
      V4.setSource d b = (.ok (), b1) ∧ V4.setDestination s b1 = (.ok (), b2) ∧
      V4.source b2 = .ok d ∧ V4.destination b2 = .ok s ∧ V4.isValid cfg b2 = V4.isValid cfg b ∧
      V4.payload b2 = V4.payload b ∧ Legal b2 := by
  obtain ⟨h1, h2, h3⟩ := h.ok
  obtain ⟨s, hs⟩ : ∃ s, V4.source b = .ok s := ⟨_, V4.source_eq h1⟩
  obtain ⟨d, hd⟩ : ∃ d, V4.destination b = .ok d := ⟨_, V4.destination_eq h1⟩
  have hso : s.octets = (b.drop 12).take 4 := by
    rw [V4.source_eq h1] at hs; cases hs; rw [take4_drop (by omega)]; rfl
  have hdo : d.octets = (b.drop 16).take 4 := by
    rw [V4.destination_eq h1] at hd; cases hd; rw [take4_drop (by omega)]; rfl
  have hsl : s.octets.length = 4 := rfl
  have hdl : d.octets.length = 4 := rfl
  have hL1 : Legal (put b 12 d.octets) := h.put (by omega) (by rw [hdl]; omega)
  have hl1 : (put b 12 d.octets).length = b.length := length_put (by rw [hdl]; omega)
  have hL2 : Legal (put (put b 12 d.octets) 16 s.octets) := hL1.put (by omega) (by rw [hsl]; omega)
  have e2 : put (put b 12 d.octets) 16 s.octets = b.take 12 ++ (d.octets ++ (s.octets ++ b.drop 20)) := by
    have := put_two (b := b) (u := d.octets) (v := s.octets) (i := 12) (by rw [hsl, hdl]; omega)
    rw [hsl, hdl] at this
    exact this
  have e0 : b = b.take 12 ++ (s.octets ++ (d.octets ++ b.drop 20)) := by
    rw [hso, hdo]; exact cut_two (by omega)
  have hx : (b.take 12).length = 12 := by rw [List.length_take]; omega
  refine ⟨s, d, put b 12 d.octets, put (put b 12 d.octets) 16 s.octets, hs, hd,
    hdr_set h (by rw [hdl]; omega) (fun c hc => copyRange_ok rfl hc),
    hdr_set hL1 (by rw [hsl]; omega) (fun c hc => copyRange_ok rfl hc), ?_, ?_, ?_, ?_, hL2⟩
  · obtain ⟨-, hh, -⟩ := hL2.ok
    rw [V4.source_eq hL2.ok.1, e2]
    have := hx
    have g : ∀ k, k < 4 → (b.take 12 ++ (d.octets ++ (s.octets ++ b.drop 20))).getD (12 + k) 0#8 =
        d.octets.getD k 0#8 := by
      intro k hk
      simp only [List.getD]
      rw [List.getElem?_append_right (by omega), List.getElem?_append_left (by rw [hdl]; omega), hx]
      congr 2; omega
    rw [show (13 : Nat) = 12 + 1 from rfl, show (14 : Nat) = 12 + 2 from rfl, show (15 : Nat) = 12 + 3 from rfl]
    have g0 := g 0 (by omega)
    rw [Nat.add_zero] at g0
    rw [g0, g 1 (by omega), g 2 (by omega), g 3 (by omega)]
    rfl
  · rw [V4.destination_eq hL2.ok.1, e2]
    have g : ∀ k, k < 4 → (b.take 12 ++ (d.octets ++ (s.octets ++ b.drop 20))).getD (16 + k) 0#8 =
        s.octets.getD k 0#8 := by
      intro k hk
      simp only [List.getD]
      rw [List.getElem?_append_right (by omega), List.getElem?_append_right (by rw [hdl]; omega),
        List.getElem?_append_left (by rw [hdl, hsl]; omega), hx, hdl]
      congr 2; omega
    rw [show (17 : Nat) = 16 + 1 from rfl, show (18 : Nat) = 16 + 2 from rfl, show (19 : Nat) = 16 + 3 from rfl]
    have g0 := g 0 (by omega)
    rw [Nat.add_zero] at g0
    rw [g0, g 1 (by omega), g 2 (by omega), g 3 (by omega)]
    rfl
  · obtain ⟨k1, k2, k3⟩ := hL2.ok
    have f4 : field (put (put b 12 d.octets) 16 s.octets) 4 4 = field b 4 4 := by
      rw [(setsField_put (b := put b 12 d.octets) (off := 16) (bs := s.octets) (by rw [hsl]; omega)).other (by omega),
        (setsField_put (b := b) (off := 12) (bs := d.octets) (by rw [hdl]; omega)).other (by omega)]
    have hck : V4.checksum (put (put b 12 d.octets) 16 s.octets) = V4.checksum b := by
      have k1' := k1
      rw [e2] at k1 ⊢
      conv => rhs; rw [e0]
      unfold V4.checksum
      rw [readU16At_ok (by omega), readU16At_ok (by rw [← e0]; omega)]
      simp only [List.getD, List.getElem?_append_left (show 10 < (b.take 12).length by omega),
        List.getElem?_append_left (show 10 + 1 < (b.take 12).length by omega)]
    simp only [V4.isValid, V4.header_eq (show 4 ≤ b.length by omega) h2,
      V4.header_eq (show 4 ≤ (put (put b 12 d.octets) 16 s.octets).length by omega) k2, Outcome.ok_bind,
      V4.checksumOf_eq, hck, f4]
    have : (loopWords 12 ((put (put b 12 d.octets) 16 s.octets).take (field b 4 4 * 4)) 0).sum =
        (loopWords 12 (b.take (field b 4 4 * 4)) 0).sum := by
      have e0' := congrArg (List.take (field b 4 4 * 4)) e0
      rw [take_parts (by rw [hx, hsl, hdl]; omega)] at e0'
      rw [e0', e2, take_parts (by rw [hx, hsl, hdl]; omega), hx, hsl, hdl]
      exact loopWords_perm (by rw [hx]) (by rw [hdl]) (by rw [hsl]) (by rw [hsl, hdl]) (Or.inl (by omega))
    rw [this]
  · obtain ⟨k1, k2, k3⟩ := hL2.ok
    have f4 : field (put (put b 12 d.octets) 16 s.octets) 4 4 = field b 4 4 := by
      rw [(setsField_put (b := put b 12 d.octets) (off := 16) (bs := s.octets) (by rw [hsl]; omega)).other (by omega),
        (setsField_put (b := b) (off := 12) (bs := d.octets) (by rw [hdl]; omega)).other (by omega)]
    have f16 : field (put (put b 12 d.octets) 16 s.octets) 16 16 = field b 16 16 := by
      rw [(setsField_put (b := put b 12 d.octets) (off := 16) (bs := s.octets) (by rw [hsl]; omega)).other (by omega),
        (setsField_put (b := b) (off := 12) (bs := d.octets) (by rw [hdl]; omega)).other (by omega)]
    rw [V4.payload_eq (by omega) k2, V4.payload_eq (by omega) h2, f4, f16]
    have e0' := congrArg (List.drop (field b 4 4 * 4)) e0
    rw [drop_parts (by rw [hx, hsl, hdl]; omega)] at e0'
    rw [e0', e2, drop_parts (by rw [hx, hsl, hdl]; omega), hx, hsl, hdl]

/-- A concrete case that meets the hypotheses. -/
example (cfg : Cfg) := C90_v4_swap cfg Sample.udpPacket ⟨by decide, by decide⟩

/-- C90 for UDP: exchanging the ports of a datagram and verifying it against an IPv4 packet with exchanged
addresses gives the same answer. -/
theorem C90_udp_swap (cfg : Cfg) (ip ip' b : Bytes) (hip : 20 ≤ ip.length) (hip' : 20 ≤ ip'.length)
    (hs : V4.source ip' = V4.destination ip) (hd : V4.destination ip' = V4.source ip)
    (h : Udp.noPayload b = .ok b) :
    ∃ s d b1 b2, Udp.source b = .ok s ∧ Udp.destination b = .ok d ∧
      Udp.setSource d b = (.ok (), b1) ∧ Udp.setDestination s b1 = (.ok (), b2) ∧
      Udp.source b2 = .ok d ∧ Udp.destination b2 = .ok s ∧
      Udp.isValid cfg (.v4 ip') b2 = Udp.isValid cfg (.v4 ip) b ∧ b2.drop 4 = b.drop 4 := by
  have hl : 8 ≤ b.length := by
    rw [Udp.noPayload_eq] at h
    split at h
    · cases h
    · omega
  obtain ⟨s, hsb⟩ : ∃ s, Udp.source b = .ok s := ⟨_, readU16At_ok (by omega)⟩
  obtain ⟨d, hdb⟩ : ∃ d, Udp.destination b = .ok d := ⟨_, readU16At_ok (by omega)⟩
  have hl1 : (put b 0 (be16 d)).length = b.length := length_put (by rw [be16_length]; omega)
  have e2 := ports_put hl (s := s) (d := d)
  have e0 := ports_eq hl hsb hdb
  have hl2 : (put (put b 0 (be16 d)) 2 (be16 s)).length = b.length := by
    rw [length_put (by rw [be16_length]; omega), hl1]
  refine ⟨s, d, put b 0 (be16 d), put (put b 0 (be16 d)) 2 (be16 s), hsb, hdb, Udp.setSource_eq hl,
    Udp.setDestination_eq (by omega), ?_, readU16At_put (by omega), ?_, ?_⟩
  · rw [e2]
    unfold Udp.source
    rw [readU16At_ok (by simp [be16_length])]
    exact congrArg Outcome.ok (fromBe16_be16 d)
  · have hck : Udp.checksum (put (put b 0 (be16 d)) 2 (be16 s)) = Udp.checksum b := by
      rw [e2]
      conv => rhs; rw [e0]
      unfold Udp.checksum
      rw [readU16At_ok (by simp [be16_length]; omega), readU16At_ok (by simp [be16_length]; omega)]
      rfl
    have hw := loopWords_perm (skip := 8) (x := []) (s := be16 d) (d := be16 s) (z := b.drop 4) rfl (by rw [be16_length])
      (by rw [be16_length]) (by rw [be16_length, be16_length])
      (Or.inr (by rw [be16_length]; simp))
    have ho := oddWord_perm (x := []) (s := be16 d) (d := be16 s) (z := b.drop 4) rfl (by rw [be16_length])
      (by rw [be16_length])
    simp only [List.nil_append] at hw ho
    rw [← e2, ← e0] at hw ho
    simp only [Udp.isValid, hck, udp_checksum_swap cfg hip hip' hs hd hl2 hw ho]
  · rw [e2]; rfl

/-- A concrete case that meets the hypotheses. -/
example (cfg : Cfg) := C90_udp_swap cfg Sample.udpPacket Sample.udpBack Sample.udp (by decide) (by decide) (by decide)
    (by decide) (by decide)

/-- C90 for TCP, every size, length parity and configuration: also the panics are the same. -/
theorem C90_tcp_swap (cfg : Cfg) (ip ip' b : Bytes) (hip : 20 ≤ ip.length) (hip' : 20 ≤ ip'.length)
    (hs : V4.source ip' = V4.destination ip) (hd : V4.destination ip' = V4.source ip)
    (h : Tcp.new b = .ok b) (h5 : 5 ≤ field b 96 4) :
    ∃ s d b1 b2, Tcp.source b = .ok s ∧ Tcp.destination b = .ok d ∧
      Tcp.setSource d b = (.ok (), b1) ∧ Tcp.setDestination s b1 = (.ok (), b2) ∧
      Tcp.source b2 = .ok d ∧ Tcp.destination b2 = .ok s ∧
      Tcp.isValid cfg (.v4 ip') b2 = Tcp.isValid cfg (.v4 ip) b ∧ b2.drop 4 = b.drop 4 := by
  obtain ⟨_, hl, hh⟩ := Tcp.new_ok_iff.1 h
  have hseg : Tcp.SegOk b := ⟨hl, hh, h5⟩
  obtain ⟨s, hsb⟩ : ∃ s, Tcp.source b = .ok s := ⟨_, readU16At_ok (by omega)⟩
  obtain ⟨d, hdb⟩ : ∃ d, Tcp.destination b = .ok d := ⟨_, readU16At_ok (by omega)⟩
  have hl1 : (put b 0 (be16 d)).length = b.length := length_put (by rw [be16_length]; omega)
  have hseg1 : Tcp.SegOk (put b 0 (be16 d)) := hseg.put (by rw [be16_length]; omega) (by rw [be16_length]; omega)
  have e2 := ports_put (show 8 ≤ b.length by omega) (s := s) (d := d)
  have e0 := ports_eq (show 8 ≤ b.length by omega) hsb hdb
  have hl2 : (put (put b 0 (be16 d)) 2 (be16 s)).length = b.length := by
    rw [length_put (by rw [be16_length]; omega), hl1]
  refine ⟨s, d, put b 0 (be16 d), put (put b 0 (be16 d)) 2 (be16 s), hsb, hdb, Tcp.set16_eq hseg (by omega),
    Tcp.set16_eq hseg1 (by omega), ?_, readU16At_put (by omega), ?_, ?_⟩
  · rw [e2]
    unfold Tcp.source
    rw [readU16At_ok (by simp [be16_length])]
    exact congrArg Outcome.ok (fromBe16_be16 d)
  · have hck : Tcp.checksum (put (put b 0 (be16 d)) 2 (be16 s)) = Tcp.checksum b := by
      rw [e2]
      conv => rhs; rw [e0]
      unfold Tcp.checksum
      rw [readU16At_ok (by simp [be16_length]; omega), readU16At_ok (by simp [be16_length]; omega)]
      rfl
    have hw := loopWords_perm (skip := 18) (x := []) (s := be16 d) (d := be16 s) (z := b.drop 4) rfl (by rw [be16_length])
      (by rw [be16_length]) (by rw [be16_length, be16_length])
      (Or.inr (by rw [be16_length]; simp))
    have ho := oddWord_perm (x := []) (s := be16 d) (d := be16 s) (z := b.drop 4) rfl (by rw [be16_length])
      (by rw [be16_length])
    simp only [List.nil_append] at hw ho
    rw [← e2, ← e0] at hw ho
    simp only [Tcp.isValid, hck, tcp_checksum_swap cfg hip hip' hs hd hl2 hw ho]
  · rw [e2]; rfl

/-- The hypotheses are met: a header, the header with its addresses exchanged, a datagram. -/
example : ∃ ip ip' b : Bytes, Legal ip ∧ Legal ip' ∧ V4.source ip' = V4.destination ip ∧
    V4.destination ip' = V4.source ip ∧ V4.source ip ≠ V4.destination ip ∧ Udp.noPayload b = .ok b :=
  ⟨[0x45, 0, 0, 20, 0, 0, 0, 0, 64, 17, 0, 0, 10, 0, 0, 1, 10, 0, 0, 2],
   [0x45, 0, 0, 20, 0, 0, 0, 0, 64, 17, 0, 0, 10, 0, 0, 2, 10, 0, 0, 1],
   [0, 53, 0x30, 0x39, 0, 8, 0, 0], by unfold Legal; decide, by unfold Legal; decide, by decide, by decide,
   by decide, by decide⟩

end Verif.Props
