import Verif.Model.Nested
import Verif.Props.Stack
import Verif.Props.Icmp
import Verif.Props.V4
import Verif.Props.Transport
import Verif.Props.Ether
import Verif.Props.BuildersStack
import Verif.Samples

/-!
# C100: editing a whole frame in place
-/

namespace Verif.Props
open Verif Verif.Spec

/-- What `PayloadWritable` (C63) says about running any program on the payload slice. -/
theorem inPayload_run {k : Kind} {b p v : Bytes} {o : Outcome Unit} {f : Mut Bytes Unit} (h : PayloadWritable k b)
    (hp : k.payload b = .ok p) (hf : f p = (o, v)) (hl : v.length = p.length) :
    ∃ b' st, k.inPayload f b = (o, b') ∧ k.payloadAt b = .ok st ∧ k.new b' = .ok b' ∧ k.payload b' = .ok v ∧
      k.header b' = k.header b ∧ SameOutside b b' st (st + p.length) := by
  obtain ⟨p0, st, h1, h2, h3, h4⟩ := h
  have : p0 = p := by rw [hp] at h1; exact (Outcome.ok.inj h1).symm
  subst this
  obtain ⟨b', w1, w2, w3, w4, w5⟩ := (h4 v).1 hl
  refine ⟨b', st, ?_, h2, w2, w3, w4, w5⟩
  unfold Kind.payload at h1
  obtain ⟨s, s1, s2⟩ := bind_ok_inv h1
  have s2 := Outcome.ok.inj s2
  unfold Kind.writePayload at w1
  unfold Kind.inPayload
  rw [s1, h2] at w1 ⊢
  simp only [s2] at w1 ⊢
  rw [if_pos hl.symm] at w1
  rw [hf, ← hl]
  exact congrArg (fun x => (o, x)) (congrArg Prod.snd w1)

/-- The IPv4 addresses are all that a transport checksum takes from the IP packet. -/
theorem addresses_same {p p' : Bytes} {st n : Nat} (h : SameOutside p p' st n) (hs : 20 ≤ st)
    (h20 : 20 ≤ p.length) : V4.source p' = V4.source p ∧ V4.destination p' = V4.destination p := by
  have hl := h.length
  have e : ∀ i, i < 20 → p'.getD i 0#8 = p.getD i 0#8 := by
    intro i hi
    rw [List.getD_eq_getElem?_getD, List.getD_eq_getElem?_getD, h.frame i (.inl (by omega))]
  rw [V4.source_eq h20, V4.source_eq (by omega), V4.destination_eq h20, V4.destination_eq (by omega)]
  rw [e 12 (by omega), e 13 (by omega), e 14 (by omega), e 15 (by omega), e 16 (by omega), e 17 (by omega),
    e 18 (by omega), e 19 (by omega)]
  exact ⟨rfl, rfl⟩

/-- What a history of calls through `checked()` does to an IPv4 packet outside its payload: every field of the
fixed header has the last value given (C19), and version, header length, total length, the options and
whatever follows the packet in the buffer are as before. -/
structure HeaderEdited (vops : List V4.Set) (p p' : Bytes) : Prop where
  length : p'.length = p.length
  first : field p' 0 8 = field p 0 8
  total : field p' 16 16 = field p 16 16
  fields : ∀ s w, (s, w) ∈ [(32, 16), (48, 16), (64, 8), (72, 8), (96, 32), (128, 32)] →
    field p' s w = v4Last s (field p s w) vops
  tos : (field p' 8 6, field p' 14 2) = vops.foldl tosStep (field p 8 6, field p 14 2)
  options : ∀ i, 20 ≤ i → i < 4 * field p 4 4 → p'[i]? = p[i]?
  behind : ∀ i, 4 * field p 4 4 ≤ i → field p 16 16 ≤ i → p'[i]? = p[i]?

theorem getElem?_of_drop {p q : Bytes} {n : Nat} (h : p.drop n = q.drop n) (i : Nat) (hi : n ≤ i) : p[i]? = q[i]? := by
  have := congrArg (fun l => l[i - n]?) h
  simp only [List.getElem?_drop] at this
  rwa [show n + (i - n) = i by omega] at this

theorem ihl_of_first {p p' : Bytes} (h : field p' 0 8 = field p 0 8) :
    field p' 4 4 = field p 4 4 ∧ field p' 0 4 = field p 0 4 := by
  have a := field_add p 0 4 4
  have a' := field_add p' 0 4 4
  have l1 := field_lt p 4 4
  have l2 := field_lt p' 4 4
  simp only [Nat.zero_add, Nat.reduceAdd] at a a'
  rw [h] at a'
  have e : (2 : Nat) ^ 4 = 16 := rfl
  omega

/-- The header edits alone. -/
theorem v4_edited (cfg : Cfg) (p : Bytes) (hv : V4.new p = .ok p) (h5 : 5 ≤ field p 4 4) (vops : List V4.Set) :
    ∃ p', V4.checkedRun cfg vops p = (.ok (), p') ∧ V4.new p' = .ok p' ∧ V4.isValid cfg p' = .ok true ∧
      V4.payload p' = V4.payload p ∧ HeaderEdited vops p p' := by
  obtain ⟨-, hok⟩ := V4.new_ok_iff.1 hv
  have hleg : Legal p := ⟨V4.noPayload_ok_iff.2 ⟨rfl, hok.toHeaderOk⟩, h5⟩
  obtain ⟨p', c1, c2, c3, -⟩ := C19_v4_checked cfg p hleg vops
  obtain ⟨p'', d1, d2, d3, d4, d5, d6, d7, -⟩ := C19_v4_checked_fields cfg p hleg vops
  have : p'' = p' := by rw [c1] at d1; exact (congrArg Prod.snd d1).symm
  subst this
  obtain ⟨i1, i2⟩ := ihl_of_first d4
  have hl := hok.long; have hh := hok.header; have ht := hok.total
  refine ⟨p'', c1, V4.new_ok_iff.2 ⟨rfl, ⟨⟨by omega, by rw [i2]; exact hok.version, by omega⟩, by omega⟩⟩, c2, ?_,
    ⟨d2, d4, d5, d6, d7, fun i hi _ => getElem?_of_drop d3 i hi, fun i hi _ => getElem?_of_drop d3 i (by omega)⟩⟩
  rw [V4.payload_eq (by omega) (by omega), V4.payload_eq (by omega) (by omega), i1, d5]
  congr 2
  have := congrArg (List.drop (field p 4 4 * 4 - 20)) d3
  rwa [List.drop_drop, List.drop_drop, show 20 + (field p 4 4 * 4 - 20) = field p 4 4 * 4 by omega] at this

/-- The IPv4 part, for any inner program that keeps the length. -/
theorem v4_stack (cfg : Cfg) (p u : Bytes) (hv : V4.new p = .ok p) (h5 : 5 ≤ field p 4 4)
    (hu : V4.payload p = .ok u) (vops : List V4.Set) {o : Outcome Unit} (inner : IpPacket → Mut Bytes Unit)
    (hi : ∀ ip, 20 ≤ ip.length → ∃ u', inner (.v4 ip) u = (o, u') ∧ u'.length = u.length) :
    ∃ p' u' ip, V4.editStack cfg vops inner p = (o, p') ∧ inner (.v4 ip) u = (o, u') ∧ 20 ≤ ip.length ∧
      V4.source p' = V4.source ip ∧ V4.destination p' = V4.destination ip ∧
      V4.new p' = .ok p' ∧ V4.isValid cfg p' = .ok true ∧ V4.payload p' = .ok u' ∧ HeaderEdited vops p p' := by
  obtain ⟨ip, c1, c2, c3, c4, c5⟩ := v4_edited cfg p hv h5 vops
  obtain ⟨i1, i2⟩ := ihl_of_first c5.first
  obtain ⟨-, hok⟩ := V4.new_ok_iff.1 c2
  have hl := hok.long; have hh := hok.header; have ht := hok.total
  obtain ⟨u', e1, e2⟩ := hi ip hl
  have hw := (C63_payload_mut ip).2.1 c2 (by omega)
  have hpay : Kind.payload .v4 ip = .ok u := by
    show V4.payload ip = _
    rw [c4, hu]
  obtain ⟨p', st, g1, g2, g3, g4, g5, g6⟩ := inPayload_run (f := inner (.v4 ip)) hw hpay e1 e2
  have hst : st = field ip 4 4 * 4 := by
    have : V4.headerSize ip = .ok st := g2
    rw [V4.headerSize_eq (by omega)] at this
    exact (Outcome.ok.inj this).symm
  have h20 : 20 ≤ st := by omega
  obtain ⟨a1, a2⟩ := addresses_same g6 h20 hl
  have hul : u.length = field ip 16 16 - field ip 4 4 * 4 := by
    have : V4.payload ip = .ok u := hpay
    rw [V4.payload_eq (by omega) (by omega)] at this
    rw [← Outcome.ok.inj this, List.length_take, List.length_drop]
    omega
  have f1 := field_same (s := 0) (w := 8) g6 (by omega)
  have f2 := field_same (s := 16) (w := 16) g6 (by omega)
  refine ⟨p', u', ip, ?_, e1, hl, a1, a2, g3, ?_, g4, ⟨g6.length.trans c5.length, f1.trans c5.first, f2.trans c5.total, ?_, ?_, ?_, ?_⟩⟩
  · unfold V4.editStack editing
    rw [hv]
    show (V4.checkedRun cfg vops >>= _) p = _
    rw [Mut.bind_ok c1]
    exact g1
  · rw [← c3]
    unfold V4.isValid
    have hc : V4.checksum p' = V4.checksum ip := by
      unfold V4.checksum
      rw [readU16At_field (k := 10) (by rw [g6.length]; omega), readU16At_field (k := 10) (by omega),
        field_same g6 (by omega)]
    have hg : V4.header p' = V4.header ip := g5
    rw [hc, hg]
  · intro s w hsw
    rw [field_same g6 (by
      simp only [List.mem_cons, Prod.mk.injEq, List.not_mem_nil, or_false] at hsw; omega)]
    exact c5.fields s w hsw
  · rw [field_same g6 (by omega), field_same g6 (by omega)]
    exact c5.tos
  · intro i h1 h2
    rw [g6.frame i (.inl (by omega))]
    exact c5.options i h1 h2
  · intro i h1 h2
    rw [g6.frame i (.inr (by have := c5.total; omega))]
    exact c5.behind i h1 h2

/-! ## The Ethernet part -/

/-- What a history of setter calls does to an Ethernet header. -/
structure EtherEdited (eops : List Ether.Set) (b b' : Bytes) : Prop where
  length : b'.length = b.length
  destination : field b' 0 48 = last (fun | .destination v => some (beNat v.octets) | _ => none) (field b 0 48) eops
  source : field b' 48 48 = last (fun | .source v => some (beNat v.octets) | _ => none) (field b 48 48) eops
  protocol : field b' 96 16 = last (fun | .protocol v => some v.toWire.toNat | _ => none) (field b 96 16) eops

theorem bits_bytes {b b' : Bytes} (h : b'.length = b.length) {n : Nat} (hb : ∀ i, 8 * n ≤ i → bitAt b' i = bitAt b i) :
    b'.drop n = b.drop n := by
  apply List.ext_getElem?
  intro i
  rw [List.getElem?_drop, List.getElem?_drop]
  by_cases hi : n + i < b.length
  · rw [List.getElem?_eq_getElem (by omega), List.getElem?_eq_getElem hi]
    congr 1
    have e : ∀ (c : Bytes) (hc : n + i < c.length), c[n + i] = c.getD (n + i) 0#8 := by
      intro c hc
      rw [List.getD_eq_getElem?_getD, List.getElem?_eq_getElem hc]; rfl
    rw [e b' (by omega), e b hi]
    apply BitVec.eq_of_getMsbD_eq
    intro j hj
    have := hb (8 * (n + i) + j) (by omega)
    unfold bitAt at this
    rwa [show (8 * (n + i) + j) / 8 = n + i by omega, show (8 * (n + i) + j) % 8 = j by omega] at this
  · rw [List.getElem?_eq_none (by omega), List.getElem?_eq_none (by omega)]

theorem ether_edits : ∀ (eops : List Ether.Set) (b : Bytes), Ether.new b = .ok b →
    ∃ b', Mut.chain (eops.map Ether.Set.run) b = (.ok (), b') ∧ Ether.new b' = .ok b' ∧
      (∀ i, 112 ≤ i → bitAt b' i = bitAt b i) ∧ EtherEdited eops b b' := by
  intro eops
  induction eops with
  | nil => intro b hb; exact ⟨b, rfl, hb, fun _ _ => rfl, rfl, rfl, rfl, rfl⟩
  | cons e es ih =>
    intro b hb
    obtain ⟨d, s, t⟩ := C11_ether_setters b hb
    have key : ∀ (s w v : Nat) (b1 : Bytes), e.run b = (.ok (), b1) → SetsField b b1 s w v → s + w ≤ 112 →
        ∃ b', Mut.chain ((e :: es).map Ether.Set.run) b = (.ok (), b') ∧ Ether.new b' = .ok b' ∧
          (∀ i, 112 ≤ i → bitAt b' i = bitAt b i) ∧ EtherEdited es b1 b' := by
      intro s w v b1 h1 h2 h3
      have hn : Ether.new b1 = .ok b1 := by
        rw [C10_ether_accept] at hb ⊢
        rw [h2.length]
        split at hb
        · rw [if_pos (by assumption)]
        · cases hb
      obtain ⟨b', k1, k2, k3, k4⟩ := ih b1 hn
      refine ⟨b', ?_, k2, fun i hi => (k3 i hi).trans (h2.frame i (by omega)), k4⟩
      show (e.run >>= fun _ => Mut.chain (es.map Ether.Set.run)) b = _
      rw [Mut.bind_ok h1]
      exact k1
    cases e with
    | destination v =>
      obtain ⟨b1, h1, h2, -⟩ := d v
      obtain ⟨b', k1, k2, k3, k4⟩ := key _ _ _ b1 h1 h2 (by omega)
      refine ⟨b', k1, k2, k3, k4.length.trans h2.length, ?_, ?_, ?_⟩
      · rw [k4.destination, h2.value, last_cons]; simp only [Option.getD_some, Option.getD_none]
      · rw [k4.source, h2.other (by omega), last_cons]; simp only [Option.getD_some, Option.getD_none]
      · rw [k4.protocol, h2.other (by omega), last_cons]; simp only [Option.getD_some, Option.getD_none]
    | source v =>
      obtain ⟨b1, h1, h2, -⟩ := s v
      obtain ⟨b', k1, k2, k3, k4⟩ := key _ _ _ b1 h1 h2 (by omega)
      refine ⟨b', k1, k2, k3, k4.length.trans h2.length, ?_, ?_, ?_⟩
      · rw [k4.destination, h2.other (by omega), last_cons]; simp only [Option.getD_some, Option.getD_none]
      · rw [k4.source, h2.value, last_cons]; simp only [Option.getD_some, Option.getD_none]
      · rw [k4.protocol, h2.other (by omega), last_cons]; simp only [Option.getD_some, Option.getD_none]
    | protocol v =>
      obtain ⟨b1, h1, h2, -⟩ := t v
      obtain ⟨b', k1, k2, k3, k4⟩ := key _ _ _ b1 h1 h2 (by omega)
      refine ⟨b', k1, k2, k3, k4.length.trans h2.length, ?_, ?_, ?_⟩
      · rw [k4.destination, h2.other (by omega), last_cons]; simp only [Option.getD_some, Option.getD_none]
      · rw [k4.source, h2.other (by omega), last_cons]; simp only [Option.getD_some, Option.getD_none]
      · rw [k4.protocol, h2.value, last_cons]; simp only [Option.getD_some, Option.getD_none]

/-- The Ethernet part, for any inner program that keeps the length. -/
theorem ether_stack (b p p' : Bytes) (hb : Ether.new b = .ok b) (hp : Ether.payload b = .ok p)
    (eops : List Ether.Set) {o : Outcome Unit} (inner : Mut Bytes Unit) (hi : inner p = (o, p'))
    (hl : p'.length = p.length) :
    ∃ b', Ether.editStack eops inner b = (o, b') ∧ Ether.new b' = .ok b' ∧ Ether.payload b' = .ok p' ∧
      EtherEdited eops b b' := by
  obtain ⟨b1, c1, c2, c3, c4⟩ := ether_edits eops b hb
  have h14 : 14 ≤ b.length := by
    rw [C10_ether_accept] at hb
    split at hb
    · assumption
    · cases hb
  have pay : ∀ c : Bytes, 14 ≤ c.length → Ether.payload c = .ok (c.drop 14) := by
    intro c hc
    unfold Ether.payload Ether.split
    rw [splitAt_ok hc]; rfl
  have hpay : Kind.payload .ether b1 = .ok p := by
    show Ether.payload b1 = _
    rw [← hp, pay b h14, pay b1 (by have := c4.length; omega)]
    exact congrArg _ (bits_bytes c4.length fun i hi => c3 i (by omega))
  have hw := (C63_payload_mut b1).1 c2
  obtain ⟨b', st, g1, g2, g3, g4, g5, g6⟩ := inPayload_run (f := inner) hw hpay hi hl
  have hst : st = 14 := by cases g2; rfl
  subst hst
  refine ⟨b', ?_, g3, g4, ⟨g6.length.trans c4.length, ?_, ?_, ?_⟩⟩
  · unfold Ether.editStack editing
    rw [hb]
    show (Mut.chain (eops.map Ether.Set.run) >>= _) b = _
    rw [Mut.bind_ok c1]
    exact g1
  · rw [field_same g6 (by omega)]; exact c4.destination
  · rw [field_same g6 (by omega)]; exact c4.source
  · rw [field_same g6 (by omega)]; exact c4.protocol

/-! ## C100 -/

theorem udp_valid_same (cfg : Cfg) {p ip u : Bytes} (h1 : V4.source p = V4.source ip)
    (h2 : V4.destination p = V4.destination ip) : Udp.isValid cfg (.v4 p) u = Udp.isValid cfg (.v4 ip) u := by
  unfold Udp.isValid Udp.checksumOf
  simp only [h1, h2]

theorem tcp_valid_same (cfg : Cfg) {p ip u : Bytes} (h1 : V4.source p = V4.source ip)
    (h2 : V4.destination p = V4.destination ip) : Tcp.isValid cfg (.v4 p) u = Tcp.isValid cfg (.v4 ip) u := by
  unfold Tcp.isValid Tcp.checksumOf
  simp only [h1, h2]

/-- A frame `b` that carries the IPv4 packet `p` (with a sound header length) that carries `u`. -/
structure Carries (b p u : Bytes) : Prop where
  frame : Ether.new b = .ok b
  packet : Ether.payload b = .ok p
  v4 : V4.new p = .ok p
  header : 5 ≤ field p 4 4
  inner : V4.payload p = .ok u

theorem frame_stack (cfg : Cfg) (b p u : Bytes) (h : Carries b p u) (eops : List Ether.Set) (vops : List V4.Set)
    {o : Outcome Unit} (inner : IpPacket → Mut Bytes Unit)
    (hi : ∀ ip, 20 ≤ ip.length → ∃ u', inner (.v4 ip) u = (o, u') ∧ u'.length = u.length) :
    ∃ b' p' u' ip, Ether.editStack eops (V4.editStack cfg vops inner) b = (o, b') ∧ Carries b' p' u' ∧
      EtherEdited eops b b' ∧ HeaderEdited vops p p' ∧ V4.isValid cfg p' = .ok true ∧
      inner (.v4 ip) u = (o, u') ∧ 20 ≤ ip.length ∧
      V4.source p' = V4.source ip ∧ V4.destination p' = V4.destination ip := by
  obtain ⟨p', u', ip, c1, c2, c3, c4, c5, c6, c7, c8, c9⟩ := v4_stack cfg p u h.v4 h.header h.inner vops inner hi
  obtain ⟨b', d1, d2, d3, d4⟩ := ether_stack b p p' h.frame h.packet eops _ c1 c9.length
  exact ⟨b', p', u', ip, d1, ⟨d2, d3, c6, by rw [(ihl_of_first c9.first).1]; exact h.header, c8⟩, d4, c9, c7, c2, c3,
    c4, c5⟩

/-- C100, UDP: whatever is set at whichever layer, the frame is still a frame that carries an IPv4 packet that
carries the datagram; both checksums verify, the UDP one against the edited IP header; the fields have the last
values given; the data is as before. -/
theorem C100_udp_in_frame (cfg : Cfg) (b p u : Bytes) (h : Carries b p u) (hu : Udp.new u = .ok u)
    (eops : List Ether.Set) (vops : List V4.Set) (uops : List Udp.Set) :
    ∃ b' p' u', Ether.editStack eops (V4.editStack cfg vops (Udp.editIn cfg uops)) b = (.ok (), b') ∧
      Carries b' p' u' ∧ EtherEdited eops b b' ∧ HeaderEdited vops p p' ∧
      V4.isValid cfg p' = .ok true ∧ Udp.new u' = .ok u' ∧ Udp.isValid cfg (.v4 p') u' = .ok true ∧
      Udp.payload u' = Udp.payload u ∧ u'.length = u.length ∧ u'.drop 8 = u.drop 8 ∧
      field u' 32 16 = field u 32 16 ∧
      field u' 0 16 = last (fun | .source v => some v.toNat | _ => none) (field u 0 16) uops ∧
      field u' 16 16 = last (fun | .destination v => some v.toNat | _ => none) (field u 16 16) uops := by
  obtain ⟨-, hl8, hlen⟩ := Udp.new_ok_iff.1 hu
  have hno : Udp.noPayload u = .ok u := by
    unfold Udp.noPayload Udp.headerMin
    rw [if_neg (by omega)]
  have run : ∀ ip : Bytes, Udp.editIn cfg uops (.v4 ip) u = Udp.checkedRun cfg (.v4 ip) uops u := by
    intro ip
    unfold Udp.editIn editing
    rw [hu]
  obtain ⟨b', p', u', ip, c1, c2, c3, c4, c5, c6, c7, c8, c9⟩ := frame_stack cfg b p u h eops vops (Udp.editIn cfg uops)
    (fun ip hip => by
      obtain ⟨u', e1, -, -, e4, -⟩ := C23_udp_checked cfg ip u hip hno uops
      exact ⟨u', (run ip).trans e1, e4⟩)
  obtain ⟨u'', e1, e2, e3, e4, e5, e6, e7, e8⟩ := C23_udp_checked cfg ip u c7 hno uops
  have : u'' = u' := by
    rw [run ip, e1] at c6
    exact congrArg Prod.snd c6
  subst this
  have hnew : Udp.new u'' = .ok u'' := Udp.new_ok_iff.2 ⟨rfl, by omega, by omega⟩
  refine ⟨b', p', u'', c1, c2, c3, c4, c5, hnew, (udp_valid_same cfg c8 c9).trans e2, ?_, e4, e5, e6, e7, e8⟩
  unfold Udp.payload
  rw [Udp.split_eq hl8, Udp.split_eq (by omega), e5, e6]; rfl

/-- A concrete case that meets the hypotheses. -/
example (cfg : Cfg) := C100_udp_in_frame cfg Sample.udpFrame Sample.udpPacket Sample.udp
    ⟨by decide, by decide, by decide, by decide, by decide⟩ (by decide)

theorem carried_length {b p u : Bytes} (h : Carries b p u) : u.length ≤ 65515 := by
  obtain ⟨-, hok⟩ := V4.new_ok_iff.1 h.v4
  have hl := hok.long; have hh := hok.header; have ht := hok.total; have h5 := h.header
  have hi := h.inner
  rw [V4.payload_eq (by omega) (by omega)] at hi
  rw [← Outcome.ok.inj hi, List.length_take, List.length_drop]
  have := field_lt p 16 16
  have e : (2 : Nat) ^ 16 = 65536 := rfl
  omega

/-- C100, TCP: the same for a segment with a sound data offset and histories without `set_flags` (which breaks
the offset, C27).  For an odd number of bytes it needs the older `std` (C60). -/
theorem C100_tcp_in_frame (cfg : Cfg) (b p u : Bytes) (h : Carries b p u) (hu : Tcp.new u = .ok u)
    (h5 : 5 ≤ field u 96 4) (hodd : u.length % 2 = 0 ∨ cfg.eofAdvances = false)
    (eops : List Ether.Set) (vops : List V4.Set) (tops : List Tcp.Set) (hops : ∀ op ∈ tops, notFlags op) :
    ∃ b' p' u', Ether.editStack eops (V4.editStack cfg vops (Tcp.editIn cfg tops)) b = (.ok (), b') ∧
      Carries b' p' u' ∧ EtherEdited eops b b' ∧ HeaderEdited vops p p' ∧
      V4.isValid cfg p' = .ok true ∧ Tcp.new u' = .ok u' ∧ Tcp.isValid cfg (.v4 p') u' = .ok true ∧
      Tcp.payload u' = Tcp.payload u ∧ u'.length = u.length ∧ u'.drop 20 = u.drop 20 ∧
      field u' 96 16 = field u 96 16 ∧
      ∀ s w, (s, w) ∈ [(0, 16), (16, 16), (32, 32), (64, 32), (112, 16), (144, 16)] →
        field u' s w = tcpLast s (field u s w) tops := by
  obtain ⟨-, hl20, hlen⟩ := Tcp.new_ok_iff.1 hu
  have hmax := carried_length h
  have run : ∀ ip : Bytes, Tcp.editIn cfg tops (.v4 ip) u = Tcp.checkedRun cfg (.v4 ip) tops u := by
    intro ip
    unfold Tcp.editIn editing
    rw [hu]
  obtain ⟨b', p', u', ip, c1, c2, c3, c4, c5, c6, c7, c8, c9⟩ := frame_stack cfg b p u h eops vops (Tcp.editIn cfg tops)
    (fun ip hip => by
      obtain ⟨u', e1, -, -, e4, -⟩ := C28_tcp_checked cfg ip u hip hu h5 (by omega) hodd tops hops
      exact ⟨u', (run ip).trans e1, e4⟩)
  obtain ⟨u'', e1, e2, e3, e4, e5, f1, f2, f3, f4, f5, f6, f7⟩ :=
    C28_tcp_checked cfg ip u c7 hu h5 (by omega) hodd tops hops
  have : u'' = u' := by
    rw [run ip, e1] at c6
    exact congrArg Prod.snd c6
  subst this
  refine ⟨b', p', u'', c1, c2, c3, c4, c5, e3, (tcp_valid_same cfg c8 c9).trans e2, ?_, e4, e5, f7, ?_⟩
  · have ho : field u'' 96 4 = field u 96 4 := by
      have a := field_add u'' 96 4 12
      have a' := field_add u 96 4 12
      have l1 := field_lt u'' 100 12
      have l2 := field_lt u 100 12
      simp only [Nat.reduceAdd] at a a'
      rw [f7] at a
      have e : (2 : Nat) ^ 12 = 4096 := rfl
      omega
    unfold Tcp.payload
    rw [Tcp.split_eq hl20 hlen, Tcp.split_eq (by omega) (by omega), ho]
    have := congrArg (List.drop (field u 96 4 * 4 - 20)) e5
    rw [List.drop_drop, List.drop_drop, show 20 + (field u 96 4 * 4 - 20) = field u 96 4 * 4 by omega] at this
    rw [this]; rfl
  · intro s w hsw
    simp only [List.mem_cons, Prod.mk.injEq, List.not_mem_nil, or_false] at hsw
    rcases hsw with ⟨rfl, rfl⟩ | ⟨rfl, rfl⟩ | ⟨rfl, rfl⟩ | ⟨rfl, rfl⟩ | ⟨rfl, rfl⟩ | ⟨rfl, rfl⟩ <;> assumption

/-- A concrete case that meets the hypotheses. -/
example (cfg : Cfg) (eops : List Ether.Set) (vops : List V4.Set) := C100_tcp_in_frame cfg Sample.tcpFrame
    Sample.tcpPacket Sample.tcp ⟨by decide, by decide, by decide, by decide, by decide⟩ (by decide) (by decide)
    (.inl (by decide)) eops vops [.window 9, .source 81] (by simp [notFlags])

/-- C100, ICMP echo: the same; the code and the data are as before. -/
theorem C100_echo_in_frame (cfg : Cfg) (b p u : Bytes) (h : Carries b p u) (hu : Echo.new u = .ok u)
    (eops : List Ether.Set) (vops : List V4.Set) (ops : List Echo.Set) :
    ∃ b' p' u', Ether.editStack eops (V4.editStack cfg vops (Echo.editIn cfg ops)) b = (.ok (), b') ∧
      Carries b' p' u' ∧ EtherEdited eops b b' ∧ HeaderEdited vops p p' ∧
      V4.isValid cfg p' = .ok true ∧ Echo.new u' = .ok u' ∧ Icmp.isValid cfg u' = .ok true ∧
      u'.length = u.length ∧ u'.drop 8 = u.drop 8 ∧ field u' 8 8 = field u 8 8 ∧
      ∀ s w, (s, w) ∈ [(0, 8), (32, 16), (48, 16)] → field u' s w = lastWritten echoWritten s (field u s w) ops := by
  have hmax := carried_length h
  have run : ∀ ip : Bytes, Echo.editIn cfg ops (.v4 ip) u = Echo.checkedRun cfg ops u := by
    intro ip
    unfold Echo.editIn editing
    rw [hu]
  obtain ⟨u', e1, e2, e3, e4⟩ := C38_echo_checked cfg u (by (have := cfg.width; omega)) hu ops
  obtain ⟨u'', d1, d2, d3, d4, d5⟩ := C38_echo_checked_fields cfg u (by (have := cfg.width; omega)) hu ops
  have : u'' = u' := by rw [e1] at d1; exact (congrArg Prod.snd d1).symm
  subst this
  obtain ⟨b', p', u', ip, c1, c2, c3, c4, c5, c6, c7, c8, c9⟩ := frame_stack cfg b p u h eops vops (Echo.editIn cfg ops)
    (fun ip hip => ⟨u'', (run ip).trans e1, e4⟩)
  have : u'' = u' := by
    rw [run ip, e1] at c6
    exact congrArg Prod.snd c6
  subst this
  exact ⟨b', p', u'', c1, c2, c3, c4, c5, e3, e2, d2, d3, d4, d5⟩

/-- The hypotheses of C100 are met by a frame with three bytes of padding and a datagram of odd length. -/
example : Carries
      [1, 2, 3, 4, 5, 6, 7, 8, 9, 10, 11, 12, 8, 0, 69, 185, 0, 31, 0, 1, 0, 3, 64, 17, 102, 15, 10, 0, 0, 1, 10, 0, 0,
        2, 0, 1, 0, 2, 0, 11, 219, 202, 7, 8, 9, 238, 238, 238]
      [69, 185, 0, 31, 0, 1, 0, 3, 64, 17, 102, 15, 10, 0, 0, 1, 10, 0, 0, 2, 0, 1, 0, 2, 0, 11, 219, 202, 7, 8, 9,
        238, 238, 238]
      [0, 1, 0, 2, 0, 11, 219, 202, 7, 8, 9] ∧
    Udp.new [0, 1, 0, 2, 0, 11, 219, 202, 7, 8, 9] = .ok [0, 1, 0, 2, 0, 11, 219, 202, 7, 8, 9] :=
  ⟨⟨by decide +kernel, by decide +kernel, by decide +kernel, by decide +kernel, by decide +kernel⟩,
    by decide +kernel⟩

/-- A run of the program on it. -/
example (cfg : Cfg) :
    ((Ether.editStack [.destination ⟨9, 9, 9, 9, 9, 9⟩] (V4.editStack cfg [.ttl 63, .source ⟨192, 168, 0, 1⟩]
        (Udp.editIn cfg [.source 5353]))
      [1, 2, 3, 4, 5, 6, 7, 8, 9, 10, 11, 12, 8, 0, 69, 185, 0, 31, 0, 1, 0, 3, 64, 17, 102, 15, 10, 0, 0, 1, 10, 0, 0,
        2, 0, 1, 0, 2, 0, 11, 219, 202, 7, 8, 9, 238, 238, 238]).2.take 26 =
      [9, 9, 9, 9, 9, 9, 7, 8, 9, 10, 11, 12, 8, 0, 69, 185, 0, 31, 0, 1, 0, 3, 63, 17, 176, 102]) := by
  obtain ⟨oc, ea, nw⟩ := cfg
  cases oc <;> cases ea <;> cases nw <;> decide +kernel

/-- A TCP segment and an echo message meet the hypotheses as well. -/
example : Tcp.new ([0, 80, 0, 99, 1, 2, 3, 4, 5, 6, 7, 8, 0x51, 0x12, 1, 0, 0, 0, 0, 9] ++ [1, 2]) =
      .ok ([0, 80, 0, 99, 1, 2, 3, 4, 5, 6, 7, 8, 0x51, 0x12, 1, 0, 0, 0, 0, 9] ++ [1, 2]) ∧
    field ([0, 80, 0, 99, 1, 2, 3, 4, 5, 6, 7, 8, 0x51, 0x12, 1, 0, 0, 0, 0, 9] ++ [1, 2]) 96 4 = 5 ∧
    Echo.new [8, 0, 0, 0, 0, 1, 0, 2, 7] = .ok [8, 0, 0, 0, 0, 1, 0, 2, 7] := by decide +kernel

end Verif.Props
