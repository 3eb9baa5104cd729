import Verif.Props.Nested
import Verif.Props.Quotes
import Verif.Props.Sessions

/-!
# Address translators written with this crate (C130)

A NAT rewrites an address and a port of a UDP or TCP packet in place, through `checked()` at both layers
(`Model/Nested`).
-/

namespace Verif.Props
open Verif Verif.Spec

/-- Who talks to whom. -/
structure Flow where
  src : Ipv4Addr
  sport : U16
  dst : Ipv4Addr
  dport : U16

/-- What a translator puts in place of the source, of the destination, or of both. -/
structure Rewrite where
  source : Option (Ipv4Addr × U16)
  destination : Option (Ipv4Addr × U16)

inductive Layer4 where
  | udp
  | tcp

/-- The flow a packet belongs to after the translator. -/
def Rewrite.apply (r : Rewrite) (f : Flow) : Flow :=
  ⟨(r.source.getD (f.src, f.sport)).1, (r.source.getD (f.src, f.sport)).2,
    (r.destination.getD (f.dst, f.dport)).1, (r.destination.getD (f.dst, f.dport)).2⟩

/-- The IPv4 setters it calls. -/
def Rewrite.addresses (r : Rewrite) : List V4.Set :=
  (r.source.map fun e => V4.Set.source e.1).toList ++ (r.destination.map fun e => V4.Set.destination e.1).toList

/-- The UDP setters it calls. -/
def Rewrite.udpPorts (r : Rewrite) : List Udp.Set :=
  (r.source.map fun e => Udp.Set.source e.2).toList ++ (r.destination.map fun e => Udp.Set.destination e.2).toList

/-- The TCP setters it calls. -/
def Rewrite.tcpPorts (r : Rewrite) : List Tcp.Set :=
  (r.source.map fun e => Tcp.Set.source e.2).toList ++ (r.destination.map fun e => Tcp.Set.destination e.2).toList

/-- The translator:

```text
let mut ip = ip::v4::Packet::new(buffer)?;
ip.checked().set_source(address)?;                        // and/or set_destination
let owned = ip::Packet::from(ip.to_owned());
udp::Packet::new(ip.payload_mut())?.checked(&owned).set_source(port)?;   // or tcp::Packet
```
-/
def translate (cfg : Cfg) : Layer4 → Rewrite → Mut Bytes Unit
  | .udp, r => V4.editStack cfg r.addresses (Udp.editIn cfg r.udpPorts)
  | .tcp, r => V4.editStack cfg r.addresses (Tcp.editIn cfg r.tcpPorts)

/-- One translator after the other. -/
def path (cfg : Cfg) (t : Layer4) (rs : List Rewrite) : Mut Bytes Unit := Mut.chain (rs.map (translate cfg t))

/-- Where the checksum of the transport header is. -/
def Layer4.checksumAt : Layer4 → Nat
  | .udp => 6
  | .tcp => 16

/-- `u`, inside of `p`, is accepted, verifies and has these ports. -/
def Carried (cfg : Cfg) (t : Layer4) (p u : Bytes) (sport dport : U16) : Prop :=
  match t with
  | .udp => Udp.new u = .ok u ∧ Udp.isValid cfg (.v4 p) u = .ok true ∧ Udp.source u = .ok sport ∧
      Udp.destination u = .ok dport
  | .tcp => Tcp.new u = .ok u ∧ Tcp.isValid cfg (.v4 p) u = .ok true ∧ Tcp.source u = .ok sport ∧
      Tcp.destination u = .ok dport ∧ 5 ≤ field u 96 4 ∧ (u.length % 2 = 0 ∨ cfg.eofAdvances = false)

/-- `p` is a packet of the flow `f`: accepted and valid at both layers. -/
structure OnFlow (cfg : Cfg) (t : Layer4) (p : Bytes) (f : Flow) : Prop where
  v4 : V4.new p = .ok p
  header : 5 ≤ field p 4 4
  valid : V4.isValid cfg p = .ok true
  source : V4.source p = .ok f.src
  destination : V4.destination p = .ok f.dst
  inner : ∃ u, V4.payload p = .ok u ∧ Carried cfg t p u f.sport f.dport

/-- `q` is `p` except for the addresses, the ports and the two checksums. -/
def OnlyEndpoints (t : Layer4) (p q : Bytes) : Prop :=
  q.length = p.length ∧ ∀ i, ¬ (10 ≤ i ∧ i < 20) → ¬ (4 * field p 4 4 ≤ i ∧ i < 4 * field p 4 4 + 4) →
    i ≠ 4 * field p 4 4 + t.checksumAt → i ≠ 4 * field p 4 4 + t.checksumAt + 1 → q[i]? = p[i]?

/-! ## Fields, bytes and accessors -/

theorem byte_of_field {b b' : Bytes} {s w i : Nat} (hl : b'.length = b.length) (h : field b' s w = field b s w)
    (h0 : s ≤ 8 * i) (h1 : 8 * i + 8 ≤ s + w) : b'[i]? = b[i]? := by
  by_cases hib : i < b.length
  · rw [List.getElem?_eq_getElem (by omega), List.getElem?_eq_getElem hib]
    congr 1
    have e : ∀ (c : Bytes) (hc : i < c.length), c[i] = c.getD i 0#8 := by
      intro c hc
      rw [List.getD_eq_getElem?_getD, List.getElem?_eq_getElem hc]; rfl
    rw [e b' (by omega), e b hib]
    apply BitVec.eq_of_getMsbD_eq
    intro j hj
    have := bits_of_field h (8 * i + j) (by omega) (by omega)
    unfold bitAt at this
    rwa [show (8 * i + j) / 8 = i by omega, show (8 * i + j) % 8 = j by omega] at this
  · rw [List.getElem?_eq_none (by omega), List.getElem?_eq_none (by omega)]

theorem octets_inj {x y : Ipv4Addr} (h : beNat x.octets = beNat y.octets) : x = y := by
  obtain ⟨a, b, c, d⟩ := x
  obtain ⟨a', b', c', d'⟩ := y
  simp only [beNat, Ipv4Addr.octets, List.foldl_cons, List.foldl_nil] at h
  have := a.isLt; have := b.isLt; have := c.isLt; have := d.isLt
  have := a'.isLt; have := b'.isLt; have := c'.isLt; have := d'.isLt
  have h1 : a = a' := BitVec.eq_of_toNat_eq (by omega)
  have h2 : b = b' := BitVec.eq_of_toNat_eq (by omega)
  have h3 : c = c' := BitVec.eq_of_toNat_eq (by omega)
  have h4 : d = d' := BitVec.eq_of_toNat_eq (by omega)
  rw [h1, h2, h3, h4]

theorem source_iff {p : Bytes} (h : 20 ≤ p.length) (s : Ipv4Addr) :
    V4.source p = .ok s ↔ field p 96 32 = beNat s.octets := by
  obtain ⟨a, e1, e2⟩ := (C14_v4_fields p h).2.2.2.2.2.2.2.2.2.2.1
  have e3 : field p 96 32 = beNat a.octets := by rw [e2, beNat_slice (o := 12) (n := 4) (by omega)]
  rw [e1, e3]
  exact ⟨fun h => by cases h; rfl, fun h => by rw [octets_inj h]⟩

theorem destination_iff {p : Bytes} (h : 20 ≤ p.length) (s : Ipv4Addr) :
    V4.destination p = .ok s ↔ field p 128 32 = beNat s.octets := by
  obtain ⟨a, e1, e2⟩ := (C14_v4_fields p h).2.2.2.2.2.2.2.2.2.2.2
  have e3 : field p 128 32 = beNat a.octets := by rw [e2, beNat_slice (o := 16) (n := 4) (by omega)]
  rw [e1, e3]
  exact ⟨fun h => by cases h; rfl, fun h => by rw [octets_inj h]⟩

theorem port_iff {u : Bytes} {k : Nat} (h : k + 2 ≤ u.length) (v : U16) :
    readU16At u k = .ok v ↔ field u (8 * k) 16 = v.toNat := by
  rw [readU16At_field h]
  have hl : field u (8 * k) 16 < 2 ^ 16 := field_lt u _ 16
  constructor
  · intro e
    rw [← Outcome.ok.inj e, BitVec.toNat_ofNat, Nat.mod_eq_of_lt hl]
  · intro e
    rw [e, BitVec.ofNat_toNat, BitVec.setWidth_eq]

/-- What the calls write. -/
theorem addresses_last (r : Rewrite) (f : Flow) :
    v4Last 96 (beNat f.src.octets) r.addresses = beNat (r.apply f).src.octets ∧
    v4Last 128 (beNat f.dst.octets) r.addresses = beNat (r.apply f).dst.octets ∧
    (∀ s, s ≠ 96 → s ≠ 128 → ∀ d, v4Last s d r.addresses = d) ∧
    ∀ t, r.addresses.foldl tosStep t = t := by
  obtain ⟨_ | ⟨a, p⟩, _ | ⟨a', p'⟩⟩ := r
  all_goals
    refine ⟨by simp [v4Last, last, Rewrite.addresses, v4Written, Rewrite.apply],
      by simp [v4Last, last, Rewrite.addresses, v4Written, Rewrite.apply], fun s h1 h2 d => ?_,
      fun t => by simp [Rewrite.addresses, tosStep]⟩
    simp [v4Last, last, Rewrite.addresses, v4Written, Ne.symm h1, Ne.symm h2]

theorem udpPorts_last (r : Rewrite) (f : Flow) :
    last (fun | Udp.Set.source v => some v.toNat | _ => none) f.sport.toNat r.udpPorts = (r.apply f).sport.toNat ∧
    last (fun | Udp.Set.destination v => some v.toNat | _ => none) f.dport.toNat r.udpPorts =
      (r.apply f).dport.toNat := by
  obtain ⟨_ | ⟨a, p⟩, _ | ⟨a', p'⟩⟩ := r <;> exact ⟨rfl, rfl⟩

theorem tcpPorts_last (r : Rewrite) (f : Flow) :
    tcpLast 0 f.sport.toNat r.tcpPorts = (r.apply f).sport.toNat ∧
    tcpLast 16 f.dport.toNat r.tcpPorts = (r.apply f).dport.toNat ∧
    (∀ s, s ≠ 0 → s ≠ 16 → ∀ d, tcpLast s d r.tcpPorts = d) ∧ ∀ op ∈ r.tcpPorts, notFlags op := by
  obtain ⟨_ | ⟨a, p⟩, _ | ⟨a', p'⟩⟩ := r
  all_goals
    refine ⟨rfl, rfl, fun s h1 h2 d => ?_, fun op hop => ?_⟩
    · simp [tcpLast, last, Rewrite.tcpPorts, tcpField, Ne.symm h1, Ne.symm h2]
    · simp [Rewrite.tcpPorts] at hop
      try (rcases hop with rfl | rfl)
      all_goals first | trivial | (subst hop; trivial)

/-! ## One translator -/

/-- The transport part: only the ports and the checksum change. -/
def OnlyPorts (t : Layer4) (u u' : Bytes) : Prop :=
  u'.length = u.length ∧ ∀ i, 4 ≤ i → i ≠ t.checksumAt → i ≠ t.checksumAt + 1 → u'[i]? = u[i]?

theorem onlyEndpoints_of {t : Layer4} {r : Rewrite} {p q u u' : Bytes} (hp : V4.new p = .ok p)
    (h5 : 5 ≤ field p 4 4) (hu : V4.payload p = .ok u) (hq : V4.new q = .ok q) (hu' : V4.payload q = .ok u')
    (he : HeaderEdited r.addresses p q) (ho : OnlyPorts t u u') : OnlyEndpoints t p q := by
  obtain ⟨-, ⟨h20, h4, hh⟩, ht⟩ := V4.new_ok_iff.1 hp
  obtain ⟨-, ⟨h20', h4', hh'⟩, ht'⟩ := V4.new_ok_iff.1 hq
  have hl := he.length
  obtain ⟨i1, -⟩ := ihl_of_first he.first
  obtain ⟨-, -, hn, htos⟩ := addresses_last r ⟨.zero, 0, .zero, 0⟩
  have htos' := he.tos
  rw [htos] at htos'
  have t1 := congrArg Prod.fst htos'; have t2 := congrArg Prod.snd htos'
  simp only at t1 t2
  have htos8 : field q 8 8 = field p 8 8 := by
    rw [field_add q 8 6 2, field_add p 8 6 2, t1, t2]
  have hf : ∀ s w, (s, w) ∈ [(32, 16), (48, 16), (64, 8), (72, 8)] → field q s w = field p s w := by
    intro s w hsw
    rw [he.fields s w (by
      simp only [List.mem_cons, Prod.mk.injEq, List.not_mem_nil, or_false] at hsw ⊢; omega)]
    exact hn s (by simp only [List.mem_cons, Prod.mk.injEq, List.not_mem_nil, or_false] at hsw; omega)
      (by simp only [List.mem_cons, Prod.mk.injEq, List.not_mem_nil, or_false] at hsw; omega) _
  refine ⟨hl, fun i g1 g2 g3 g4 => ?_⟩
  by_cases hi : i < 10
  · rcases (show i = 0 ∨ i = 1 ∨ i = 2 ∨ i = 3 ∨ i = 4 ∨ i = 5 ∨ i = 6 ∨ i = 7 ∨ i = 8 ∨ i = 9 by omega) with
      rfl | rfl | rfl | rfl | rfl | rfl | rfl | rfl | rfl | rfl
    · exact byte_of_field hl he.first (by omega) (by omega)
    · exact byte_of_field hl htos8 (by omega) (by omega)
    · exact byte_of_field hl he.total (by omega) (by omega)
    · exact byte_of_field hl he.total (by omega) (by omega)
    · exact byte_of_field hl (hf 32 16 (by decide)) (by omega) (by omega)
    · exact byte_of_field hl (hf 32 16 (by decide)) (by omega) (by omega)
    · exact byte_of_field hl (hf 48 16 (by decide)) (by omega) (by omega)
    · exact byte_of_field hl (hf 48 16 (by decide)) (by omega) (by omega)
    · exact byte_of_field hl (hf 64 8 (by decide)) (by omega) (by omega)
    · exact byte_of_field hl (hf 72 8 (by decide)) (by omega) (by omega)
  by_cases hi2 : i < 4 * field p 4 4
  · exact he.options i (by omega) hi2
  by_cases hi3 : field p 16 16 ≤ i
  · exact he.behind i (by omega) hi3
  · have htot := he.total
    rw [V4.payload_eq (by omega) (by omega)] at hu hu'
    have hu := Outcome.ok.inj hu
    have hu' := Outcome.ok.inj hu'
    have hk := ho.2 (i - 4 * field p 4 4) (by omega) (by omega) (by omega)
    rw [← hu, ← hu', i1, htot, List.getElem?_take_of_lt (by omega), List.getElem?_take_of_lt (by omega),
      List.getElem?_drop, List.getElem?_drop, show field p 4 4 * 4 + (i - 4 * field p 4 4) = i by omega] at hk
    exact hk

theorem inner_length {p u : Bytes} (hp : V4.new p = .ok p) (h5 : 5 ≤ field p 4 4) (hu : V4.payload p = .ok u) :
    u.length ≤ 65515 := by
  obtain ⟨-, hok⟩ := V4.new_ok_iff.1 hp
  have hl := hok.long; have hh := hok.header; have ht := hok.total
  rw [V4.payload_eq (by omega) (by omega)] at hu
  rw [← Outcome.ok.inj hu, List.length_take, List.length_drop]
  have := field_lt p 16 16
  have e : (2 : Nat) ^ 16 = 65536 := rfl
  omega

theorem translate_step (cfg : Cfg) (t : Layer4) {p : Bytes} {f : Flow} (h : OnFlow cfg t p f) (r : Rewrite) :
    ∃ q, translate cfg t r p = (.ok (), q) ∧ OnFlow cfg t q (r.apply f) ∧ OnlyEndpoints t p q := by
  obtain ⟨u, hu, hc⟩ := h.inner
  have h20 := (V4.new_ok_iff.1 h.v4).2.long
  obtain ⟨a1, a2, -, -⟩ := addresses_last r f
  have finish : ∀ (q u' : Bytes), V4.new q = .ok q → V4.isValid cfg q = .ok true → V4.payload q = .ok u' →
      HeaderEdited r.addresses p q → OnlyPorts t u u' → Carried cfg t q u' (r.apply f).sport (r.apply f).dport →
      OnFlow cfg t q (r.apply f) ∧ OnlyEndpoints t p q := by
    intro q u' q1 q2 q3 q4 q5 q6
    have hl := q4.length
    refine ⟨⟨q1, by rw [(ihl_of_first q4.first).1]; exact h.header, q2, ?_, ?_, u', q3, q6⟩,
      onlyEndpoints_of h.v4 h.header hu q1 q3 q4 q5⟩
    · rw [source_iff (by omega), q4.fields 96 32 (by decide), (source_iff h20 _).1 h.source]; exact a1
    · rw [destination_iff (by omega), q4.fields 128 32 (by decide), (destination_iff h20 _).1 h.destination]; exact a2
  cases t with
  | udp =>
    obtain ⟨hn, -, hs, hd⟩ := hc
    obtain ⟨-, hl8, hlen⟩ := Udp.new_ok_iff.1 hn
    have hno : Udp.noPayload u = .ok u := by
      unfold Udp.noPayload Udp.headerMin
      rw [if_neg (by omega)]
    have run : ∀ ip : Bytes, Udp.editIn cfg r.udpPorts (.v4 ip) u = Udp.checkedRun cfg (.v4 ip) r.udpPorts u := by
      intro ip
      unfold Udp.editIn editing
      rw [hn]
    obtain ⟨q, u', ip, c1, c2, c3, c4, c5, c6, c7, c8, c9⟩ := v4_stack cfg p u h.v4 h.header hu r.addresses
      (Udp.editIn cfg r.udpPorts) (fun ip hip => by
        obtain ⟨u', e1, -, -, e4, -⟩ := C23_udp_checked cfg ip u hip hno r.udpPorts
        exact ⟨u', (run ip).trans e1, e4⟩)
    obtain ⟨u'', e1, e2, e3, e4, e5, e6, e7, e8⟩ := C23_udp_checked cfg ip u c3 hno r.udpPorts
    have : u'' = u' := by
      rw [run ip, e1] at c2
      exact congrArg Prod.snd c2
    subst this
    have s1 : field u 0 16 = f.sport.toNat := (port_iff (k := 0) (by omega) _).1 hs
    have d1 : field u 16 16 = f.dport.toNat := (port_iff (k := 2) (by omega) _).1 hd
    rw [s1] at e7
    rw [d1] at e8
    have e7 := e7.trans (udpPorts_last r f).1
    have e8 := e8.trans (udpPorts_last r f).2
    refine ⟨q, c1, finish q u'' c6 c7 c8 c9 ⟨e4, fun i g1 g2 g3 => ?_⟩
      ⟨Udp.new_ok_iff.2 ⟨rfl, by omega, by omega⟩, (udp_valid_same cfg c4 c5).trans e2,
        (port_iff (k := 0) (by omega) _).2 e7, (port_iff (k := 2) (by omega) _).2 e8⟩⟩
    have g2 : i ≠ 6 := g2
    have g3 : i ≠ 7 := g3
    by_cases hi : i < 6
    · exact byte_of_field e4 e6 (by omega) (by omega)
    · exact getElem?_of_drop e5 i (by omega)
  | tcp =>
    obtain ⟨hn, -, hs, hd, h5, hodd⟩ := hc
    obtain ⟨-, hl20, hlen⟩ := Tcp.new_ok_iff.1 hn
    have hmax := inner_length h.v4 h.header hu
    obtain ⟨l1, l2, l3, hops⟩ := tcpPorts_last r f
    have run : ∀ ip : Bytes, Tcp.editIn cfg r.tcpPorts (.v4 ip) u = Tcp.checkedRun cfg (.v4 ip) r.tcpPorts u := by
      intro ip
      unfold Tcp.editIn editing
      rw [hn]
    obtain ⟨q, u', ip, c1, c2, c3, c4, c5, c6, c7, c8, c9⟩ := v4_stack cfg p u h.v4 h.header hu r.addresses
      (Tcp.editIn cfg r.tcpPorts) (fun ip hip => by
        obtain ⟨u', e1, -, -, e4, -⟩ := C28_tcp_checked cfg ip u hip hn h5 (by omega) hodd r.tcpPorts hops
        exact ⟨u', (run ip).trans e1, e4⟩)
    obtain ⟨u'', e1, e2, e3, e4, e5, f1, f2, f3, f4, f5, f6, f7⟩ :=
      C28_tcp_checked cfg ip u c3 hn h5 (by omega) hodd r.tcpPorts hops
    have : u'' = u' := by
      rw [run ip, e1] at c2
      exact congrArg Prod.snd c2
    subst this
    have s1 : field u 0 16 = f.sport.toNat := (port_iff (k := 0) (by omega) _).1 hs
    have d1 : field u 16 16 = f.dport.toNat := (port_iff (k := 2) (by omega) _).1 hd
    rw [s1, l1] at f1
    rw [d1, l2] at f2
    rw [l3 _ (by omega) (by omega)] at f3 f4 f5 f6
    have ho : field u'' 96 4 = field u 96 4 := by
      have a := field_add u'' 96 4 12
      have a' := field_add u 96 4 12
      have l1 := field_lt u'' 100 12
      have l2 := field_lt u 100 12
      simp only [Nat.reduceAdd] at a a'
      rw [f7] at a
      have e : (2 : Nat) ^ 12 = 4096 := rfl
      omega
    refine ⟨q, c1, finish q u'' c6 c7 c8 c9 ⟨e4, fun i g1 g2 g3 => ?_⟩
      ⟨e3, (tcp_valid_same cfg c4 c5).trans e2, (port_iff (k := 0) (by omega) _).2 f1,
        (port_iff (k := 2) (by omega) _).2 f2, by omega, by rw [e4]; exact hodd⟩⟩
    have g2 : i ≠ 16 := g2
    have g3 : i ≠ 17 := g3
    by_cases h8 : i < 8
    · exact byte_of_field e4 f3 (by omega) (by omega)
    by_cases h12 : i < 12
    · exact byte_of_field e4 f4 (by omega) (by omega)
    by_cases h14 : i < 14
    · exact byte_of_field e4 f7 (by omega) (by omega)
    by_cases h16 : i < 16
    · exact byte_of_field e4 f5 (by omega) (by omega)
    by_cases h20 : i < 20
    · exact byte_of_field e4 f6 (by omega) (by omega)
    · exact getElem?_of_drop e5 i (by omega)

/-! ## There is only one packet of a flow with the same content -/

theorem ihl_of_only {t : Layer4} {p q : Bytes} (h5 : 5 ≤ field p 4 4) (h : OnlyEndpoints t p q) :
    field q 4 4 = field p 4 4 ∧ field q 16 16 = field p 16 16 := by
  have e : ∀ i, i < 4 → q[i]? = p[i]? := fun i hi => h.2 i (by omega) (by omega) (by cases t <;> omega) (by cases t <;> omega)
  exact ⟨field_congr fun i _ _ => bitAt_congr (e _ (by omega)), field_congr fun i _ _ => bitAt_congr (e _ (by omega))⟩

theorem flow_unique (cfg : Cfg) {t : Layer4} {p q : Bytes} {f : Flow} (hp : OnFlow cfg t p f) (hq : OnFlow cfg t q f)
    (h : OnlyEndpoints t p q) : q = p := by
  obtain ⟨u, hu, hc⟩ := hp.inner
  obtain ⟨u', hu', hc'⟩ := hq.inner
  obtain ⟨i1, i2⟩ := ihl_of_only hp.header h
  obtain ⟨-, ⟨h20, h4, hh⟩, ht⟩ := V4.new_ok_iff.1 hp.v4
  obtain ⟨-, ⟨h20', h4', hh'⟩, ht'⟩ := V4.new_ok_iff.1 hq.v4
  have h5 := hp.header
  have hl := h.1
  have hmax := inner_length hp.v4 hp.header hu
  have eu : u = (p.drop (4 * field p 4 4)).take (field p 16 16 - 4 * field p 4 4) := by
    rw [V4.payload_eq (by omega) (by omega)] at hu
    rw [← Outcome.ok.inj hu, Nat.mul_comm]
  have eu' : u' = (q.drop (4 * field p 4 4)).take (field p 16 16 - 4 * field p 4 4) := by
    rw [V4.payload_eq (by omega) (by omega), i1, i2] at hu'
    rw [← Outcome.ok.inj hu', Nat.mul_comm]
  have hlu : u.length = field p 16 16 - 4 * field p 4 4 := by rw [eu, List.length_take, List.length_drop]; omega
  have hlu' : u'.length = field p 16 16 - 4 * field p 4 4 := by rw [eu', List.length_take, List.length_drop]; omega
  have hub : ∀ j, j < u.length → u[j]? = p[4 * field p 4 4 + j]? := by
    intro j hj
    rw [eu, List.getElem?_take_of_lt (by omega), List.getElem?_drop]
  have hub' : ∀ j, j < u.length → u'[j]? = q[4 * field p 4 4 + j]? := by
    intro j hj
    rw [eu', List.getElem?_take_of_lt (by omega), List.getElem?_drop]
  have hsrc : V4.source q = V4.source p := by rw [hp.source, hq.source]
  have hdst : V4.destination q = V4.destination p := by rw [hp.destination, hq.destination]
  have hsame : (∀ i, i < 4 → u'[i]? = u[i]?) → SameOutside u u' t.checksumAt (t.checksumAt + 2) := by
    intro h03
    refine ⟨by omega, fun j hj => ?_⟩
    by_cases hj4 : j < 4
    · exact h03 j hj4
    by_cases hju : j < u.length
    · rw [hub j hju, hub' j hju]
      exact h.2 _ (by omega) (by omega) (by omega) (by omega)
    · rw [List.getElem?_eq_none (by omega), List.getElem?_eq_none (by omega)]
  have hports : 8 ≤ u.length → field u' 0 16 = field u 0 16 → field u' 16 16 = field u 16 16 →
      ∀ i, i < 4 → u'[i]? = u[i]? := by
    intro hl8 e1 e2 i hi
    by_cases h2 : i < 2
    · exact byte_of_field (by omega) e1 (by omega) (by omega)
    · exact byte_of_field (by omega) e2 (by omega) (by omega)
  have huu : u' = u := by
    cases t with
    | udp =>
      obtain ⟨hn, hv, hs, hd⟩ := hc
      obtain ⟨hn', hv', hs', hd'⟩ := hc'
      obtain ⟨-, hl8, hlen⟩ := Udp.new_ok_iff.1 hn
      rw [udp_valid_same cfg hsrc hdst] at hv'
      exact udp_unique cfg h20 hl8 (hsame (hports (by omega)
        (((port_iff (k := 0) (by omega) _).1 hs').trans ((port_iff (k := 0) (by omega) _).1 hs).symm)
        (((port_iff (k := 2) (by omega) _).1 hd').trans ((port_iff (k := 2) (by omega) _).1 hd).symm))) hv hv'
    | tcp =>
      obtain ⟨hn, hv, hs, hd, -⟩ := hc
      obtain ⟨hn', hv', hs', hd', -⟩ := hc'
      obtain ⟨-, hl20, hlen⟩ := Tcp.new_ok_iff.1 hn
      rw [tcp_valid_same cfg hsrc hdst] at hv'
      exact tcp_unique cfg h20 hl20 (by omega) (hsame (hports (by omega)
        (((port_iff (k := 0) (by omega) _).1 hs').trans ((port_iff (k := 0) (by omega) _).1 hs).symm)
        (((port_iff (k := 2) (by omega) _).1 hd').trans ((port_iff (k := 2) (by omega) _).1 hd).symm))) hv hv'
  refine v4_unique cfg (V4.noPayload_ok_iff.2 ⟨rfl, h20, h4, hh⟩) h5 ⟨hl, fun i hi => ?_⟩ hp.valid hq.valid
  by_cases ha : i < 12
  · exact h.2 i (by omega) (by omega) (by omega) (by omega)
  by_cases ha : i < 16
  · exact byte_of_field hl (((source_iff h20' _).1 hq.source).trans ((source_iff h20 _).1 hp.source).symm)
      (by omega) (by omega)
  by_cases ha : i < 20
  · exact byte_of_field hl (((destination_iff h20' _).1 hq.destination).trans
      ((destination_iff h20 _).1 hp.destination).symm) (by omega) (by omega)
  by_cases hb : 4 * field p 4 4 ≤ i ∧ i < 4 * field p 4 4 + u.length
  · have a1 := hub (i - 4 * field p 4 4) (by omega)
    have a2 := hub' (i - 4 * field p 4 4) (by omega)
    rw [show 4 * field p 4 4 + (i - 4 * field p 4 4) = i by omega] at a1 a2
    rw [← a1, ← a2, huu]
  · have h8 : t.checksumAt + 2 ≤ u.length ∧ 4 ≤ u.length := by
      cases t with
      | udp =>
        obtain ⟨hn, -⟩ := hc
        obtain ⟨-, hl8, -⟩ := Udp.new_ok_iff.1 hn
        exact ⟨hl8, by omega⟩
      | tcp =>
        obtain ⟨hn, -⟩ := hc
        obtain ⟨-, hl20, -⟩ := Tcp.new_ok_iff.1 hn
        exact ⟨show 16 + 2 ≤ _ by omega, by omega⟩
    exact h.2 i (by omega) (by omega) (by omega) (by omega)

theorem OnlyEndpoints.trans {t : Layer4} {p q r : Bytes} (h5 : 5 ≤ field p 4 4) (h : OnlyEndpoints t p q)
    (h' : OnlyEndpoints t q r) : OnlyEndpoints t p r := by
  obtain ⟨i1, -⟩ := ihl_of_only h5 h
  refine ⟨h'.1.trans h.1, fun i g1 g2 g3 g4 => ?_⟩
  rw [h'.2 i g1 (by rw [i1]; exact g2) (by rw [i1]; exact g3) (by rw [i1]; exact g4), h.2 i g1 g2 g3 g4]

theorem OnlyEndpoints.symm {t : Layer4} {p q : Bytes} (h5 : 5 ≤ field p 4 4) (h : OnlyEndpoints t p q) :
    OnlyEndpoints t q p := by
  obtain ⟨i1, -⟩ := ihl_of_only h5 h
  refine ⟨h.1.symm, fun i g1 g2 g3 g4 => ?_⟩
  rw [i1] at g2 g3 g4
  exact (h.2 i g1 g2 g3 g4).symm

/-! ## C130 -/

/-- C130: whatever translators a packet of a flow passes, none of them fails or panics; behind them it is a valid
packet, at both layers, of the flow they made of it, and nothing but addresses, ports and checksums changed. -/
theorem C130_path (cfg : Cfg) (t : Layer4) (rs : List Rewrite) : ∀ (p : Bytes) (f : Flow), OnFlow cfg t p f →
    ∃ q, path cfg t rs p = (.ok (), q) ∧ OnFlow cfg t q (rs.foldl (fun f r => r.apply f) f) ∧
      OnlyEndpoints t p q := by
  induction rs with
  | nil => intro p f h; exact ⟨p, rfl, h, rfl, fun _ _ _ _ _ => rfl⟩
  | cons r rs ih =>
    intro p f h
    obtain ⟨q, e1, e2, e3⟩ := translate_step cfg t h r
    obtain ⟨q', g1, g2, g3⟩ := ih q _ e2
    refine ⟨q', ?_, g2, e3.trans h.header g3⟩
    show (translate cfg t r >>= fun _ => path cfg t rs) p = _
    rw [Mut.bind_ok e1]
    exact g1

/-- C130: the packet that arrives depends on the flow it ends up in only, not on the way: any two paths that end
in the same flow give the same bytes. -/
theorem C130_same (cfg : Cfg) (t : Layer4) (p : Bytes) (f : Flow) (h : OnFlow cfg t p f) (rs rs' : List Rewrite)
    (hf : rs.foldl (fun f r => r.apply f) f = rs'.foldl (fun f r => r.apply f) f) :
    path cfg t rs p = path cfg t rs' p := by
  obtain ⟨q, e1, e2, e3⟩ := C130_path cfg t rs p f h
  obtain ⟨q', g1, g2, g3⟩ := C130_path cfg t rs' p f h
  rw [← hf] at g2
  rw [e1, g1, flow_unique cfg e2 g2 ((e3.symm h.header).trans e2.header g3)]

/-- C130: setting the old endpoints again gives the packet back, byte for byte, whatever happened in between. -/
theorem C130_undo (cfg : Cfg) (t : Layer4) (p : Bytes) (f : Flow) (h : OnFlow cfg t p f) (rs : List Rewrite) :
    path cfg t (rs ++ [⟨some (f.src, f.sport), some (f.dst, f.dport)⟩]) p = (.ok (), p) :=
  C130_same cfg t p f h _ [] (by rw [List.foldl_append]; rfl)

/-- The answer a host makes of a packet of the flow `f` in place: it exchanges the endpoints. -/
def answer (f : Flow) : Rewrite := ⟨some (f.dst, f.dport), some (f.src, f.sport)⟩

/-- C130: behind a translator of sources nobody notices it: a packet is translated to another source, answered in
place, and the destination of the answer translated back; what arrives is what a direct answer would have been. -/
theorem C130_answer (cfg : Cfg) (t : Layer4) (p : Bytes) (f : Flow) (h : OnFlow cfg t p f) (a : Ipv4Addr) (n : U16) :
    path cfg t [⟨some (a, n), none⟩, answer ⟨a, n, f.dst, f.dport⟩, ⟨none, some (f.src, f.sport)⟩] p =
      path cfg t [answer f] p :=
  C130_same cfg t p f h _ _ rfl

/-- C130: what the programs of C45 build is a packet of the flow that was asked for, so all of the above is true
of it. -/
theorem C130_udp_built (cfg : Cfg) (vops : List V4Op) (uops : List UdpOp) (hr : ∀ op ∈ vops, op.InRange)
    (h0 : vops.filterMap V4Op.payload? = []) (h1 : (uops.filterMap UdpOp.payload?).length ≤ 1)
    (hsize : 28 + (last UdpOp.payload? [] uops).length ≤ 65535) :
    ∃ out, ipv4Program cfg Dynamic.new vops (.udp uops) = .ok out ∧
      OnFlow cfg .udp out ⟨last V4Op.source? .zero vops, last UdpOp.source? 0 uops,
        last V4Op.destination? .zero vops, last UdpOp.destination? 0 uops⟩ := by
  obtain ⟨out, d, e, hv, hu⟩ := C45_udp_build cfg vops uops hr h0 h1 hsize
  obtain ⟨h5, -⟩ := reads_behind hv
  exact ⟨out, e, hv.accepted, by omega, hv.valid, hv.source, hv.destination, d, hv.payload, hu.accepted, hu.valid,
    hu.source, hu.destination⟩

/-- C130: the same for TCP and the programs of C46. -/
theorem C130_tcp_built (cfg : Cfg) (vops : List V4Op) (tops : List TcpOp)
    (hr : ∀ op ∈ vops, op.InRange) (h0 : vops.filterMap V4Op.payload? = [])
    (h1 : (tops.filterMap TcpOp.payload?).length ≤ 1) (hfl : TcpOp.FlagsLast tops)
    (hsize : 40 + (last TcpOp.payload? [] tops).length ≤ 65535)
    (hodd : (last TcpOp.payload? [] tops).length % 2 = 0 ∨ cfg.eofAdvances = false) :
    ∃ out, ipv4Program cfg Dynamic.new vops (.tcp tops) = .ok out ∧
      OnFlow cfg .tcp out ⟨last V4Op.source? .zero vops, last TcpOp.source? 0 tops,
        last V4Op.destination? .zero vops, last TcpOp.destination? 0 tops⟩ := by
  obtain ⟨out, d, e, hv, hu⟩ := C46_tcp_build cfg vops tops hr h0 h1 hfl hsize hodd
  obtain ⟨h5, -⟩ := reads_behind hv
  have hl : 20 ≤ d.length := by have := hu.size; omega
  have ho : 5 ≤ field d 96 4 := by
    have := hu.offset
    rw [(C24_tcp_fields d hl).2.2.2.2.1] at this
    have h := congrArg BitVec.toNat (Outcome.ok.inj this)
    rw [BitVec.toNat_ofNat] at h
    have := field_lt d 96 4
    have e16 : (2 : Nat) ^ 4 = 16 := rfl
    have e5 : (5 : U8).toNat = 5 := rfl
    have e8 : (2 : Nat) ^ 8 = 256 := rfl
    omega
  refine ⟨out, e, hv.accepted, by omega, hv.valid, hv.source, hv.destination, d, hv.payload, hu.accepted, hu.valid,
    hu.source, hu.destination, ho, ?_⟩
  rcases hodd with h | h
  · exact .inl (by have := hu.size; omega)
  · exact .inr h

/-! ## Concrete cases -/

/-- Port 53 of 10.0.0.1 talks to port 4000 of 10.0.0.2. -/
def sampleFlow : Flow := ⟨⟨10, 0, 0, 1⟩, 53, ⟨10, 0, 0, 2⟩, 4000⟩

theorem sample_udp (cfg : Cfg) : OnFlow cfg .udp Sample.udpPacket sampleFlow :=
  ⟨by decide, by decide, by in_every_build, by decide, by decide, Sample.udp, by decide, by decide,
    by in_every_build, by decide, by decide⟩

theorem sample_tcp (cfg : Cfg) : OnFlow cfg .tcp Sample.tcpPacket { sampleFlow with sport := 80 } :=
  ⟨by decide, by decide, by in_every_build, by decide, by decide, Sample.tcp, by decide, by decide,
    by in_every_build, by decide, by decide, by decide, .inl (by decide)⟩

example (cfg : Cfg) := C130_path cfg .udp [⟨some (⟨192, 0, 2, 1⟩, 61000), none⟩] _ _ (sample_udp cfg)
example (cfg : Cfg) := C130_path cfg .tcp [⟨some (⟨192, 0, 2, 1⟩, 61000), none⟩] _ _ (sample_tcp cfg)
example (cfg : Cfg) := C130_undo cfg .tcp _ _ (sample_tcp cfg) [⟨some (⟨192, 0, 2, 1⟩, 61000), none⟩, ⟨none, some (⟨9, 9, 9, 9⟩, 1)⟩]
example (cfg : Cfg) := C130_answer cfg .udp _ _ (sample_udp cfg) ⟨192, 0, 2, 1⟩ 61000
example (cfg : Cfg) := C130_same cfg .udp _ _ (sample_udp cfg) [⟨some (⟨1, 1, 1, 1⟩, 1), none⟩, ⟨some (⟨2, 2, 2, 2⟩, 2), none⟩]
  [⟨some (⟨2, 2, 2, 2⟩, 2), none⟩] rfl
example (cfg : Cfg) := C130_udp_built cfg Sample.vops Sample.uops (by call_by_call) (by call_by_call)
    (by call_by_call) (by decide)
example (cfg : Cfg) := C130_tcp_built cfg Sample.vops Sample.tops (by call_by_call) (by call_by_call)
    (by call_by_call) (by call_by_call) (by decide) (.inl (by decide))

end Verif.Props
