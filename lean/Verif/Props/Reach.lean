import Verif.Props.Sessions
import Verif.Props.Ether
import Verif.Props.Enums
import Verif.Model.Edits
import Verif.Samples

/-!
# C113: exactly which packets editing can reach
-/

namespace Verif.Props
open Verif Verif.Spec

/-! ## The spec -/

/-- Two packets that differ in nothing but what the IPv4 setters are for: same length, version, header length, total
length, options and payload, and `set_ecn` only ever adds ECN bits. -/
structure ReachableV4 (cfg : Cfg) (b b' : Bytes) : Prop where
  length : b'.length = b.length
  first : field b' 0 8 = field b 0 8
  total : field b' 16 16 = field b 16 16
  rest : b'.drop 20 = b.drop 20
  ecn : field b 14 2 ||| field b' 14 2 = field b' 14 2
  valid : V4.isValid cfg b' = .ok true

/-- The same for UDP: the length field and the payload stay. -/
structure ReachableUdp (cfg : Cfg) (ip b b' : Bytes) : Prop where
  length : b'.length = b.length
  lengthField : field b' 32 16 = field b 32 16
  rest : b'.drop 8 = b.drop 8
  valid : Udp.isValid cfg (.v4 ip) b' = .ok true

/-- The same for TCP: data offset, reserved bits and flags, options and payload stay. -/
structure ReachableTcp (cfg : Cfg) (ip b b' : Bytes) : Prop where
  length : b'.length = b.length
  word : field b' 96 16 = field b 96 16
  rest : b'.drop 20 = b.drop 20
  valid : Tcp.isValid cfg (.v4 ip) b' = .ok true

/-- The same for ICMP views of `m` bytes in front of an untouched rest, with the checksum over the first `n` bytes: the
code stays, and the kind stays or becomes that of an echo request or reply. -/
structure ReachableIcmp (cfg : Cfg) (m n : Nat) (b b' : Bytes) : Prop where
  length : b'.length = b.length
  kind : field b' 0 8 = field b 0 8 ∨ field b' 0 8 = 8 ∨ field b' 0 8 = 0
  code : field b' 8 8 = field b 8 8
  rest : b'.drop m = b.drop m
  valid : Icmp.isValid cfg (b'.take n) = .ok true

/-! ## Numbers -/

theorem toNat_field8 {b : Bytes} {s w : Nat} (h : w ≤ 8) : (BitVec.ofNat 8 (field b s w)).toNat = field b s w := by
  rw [BitVec.toNat_ofNat, Nat.mod_eq_of_lt]
  exact Nat.lt_of_lt_of_le (field_lt b s w) (Nat.pow_le_pow_right (by omega) h)

theorem toNat_field16 (b : Bytes) (s : Nat) : (BitVec.ofNat 16 (field b s 16)).toNat = field b s 16 := by
  rw [BitVec.toNat_ofNat, Nat.mod_eq_of_lt]
  exact field_lt b s 16

theorem toNat_field32 (b : Bytes) (s : Nat) : (BitVec.ofNat 32 (field b s 32)).toNat = field b s 32 := by
  rw [BitVec.toNat_ofNat, Nat.mod_eq_of_lt]
  exact field_lt b s 32

/-- Every four bytes are an address. -/
theorem exists_addr {b : Bytes} {o : Nat} (h : o + 4 ≤ b.length) :
    ∃ v : Ipv4Addr, beNat v.octets = field b (8 * o) 32 := by
  have hl : ((b.drop o).take 4).length = 4 := by rw [List.length_take, List.length_drop]; omega
  match hb : (b.drop o).take 4, hl with
  | [x, y, z, w], _ => exact ⟨⟨x, y, z, w⟩, by rw [← beNat_slice (n := 4) h, hb]; rfl⟩

/-- Every six bytes are a hardware address. -/
theorem exists_hw {b : Bytes} {o : Nat} (h : o + 6 ≤ b.length) :
    ∃ v : HwAddr, beNat v.octets = field b (8 * o) 48 := by
  have hl : ((b.drop o).take 6).length = 6 := by rw [List.length_take, List.length_drop]; omega
  match hb : (b.drop o).take 6, hl with
  | [x, y, z, w, u, v], _ => exact ⟨⟨x, y, z, w, u, v⟩, by rw [← beNat_slice (n := 6) h, hb]; rfl⟩

/-! ## Ethernet -/

theorem ether_set {b : Bytes} (h : 14 ≤ b.length) (op : Ether.Set) :
    ∃ b', op.run b = (.ok (), b') ∧ b'.length = b.length ∧ b'.drop 14 = b.drop 14 := by
  obtain ⟨s1, s2, s3⟩ := C11_ether_setters b (by rw [C10_ether_accept, if_pos h])
  have fin : ∀ {b' : Bytes} {s w v : Nat}, SetsField b b' s w v → s + w ≤ 112 →
      b'.length = b.length ∧ b'.drop 14 = b.drop 14 := fun hs hw =>
    ⟨hs.length, drop_of_bits hs.length (fun i hi => hs.frame i (by omega))⟩
  cases op with
  | destination v => obtain ⟨b', e1, e2, -⟩ := s1 v; exact ⟨b', e1, fin e2 (by omega)⟩
  | source v => obtain ⟨b', e1, e2, -⟩ := s2 v; exact ⟨b', e1, fin e2 (by omega)⟩
  | protocol v => obtain ⟨b', e1, e2, -⟩ := s3 v; exact ⟨b', e1, fin e2 (by omega)⟩

/-- C113 for Ethernet: the setters turn an accepted frame into exactly the frames with the same length and payload. -/
theorem C113_ether (b b' : Bytes) (h : Ether.new b = .ok b) :
    (∃ ops : List Ether.Set, runIgnoringErrors (ops.map Ether.Set.run) b = (.ok (), b')) ↔
      b'.length = b.length ∧ b'.drop 14 = b.drop 14 := by
  have hl : 14 ≤ b.length := by
    rw [C10_ether_accept] at h; split at h
    · assumption
    · cases h
  constructor
  · rintro ⟨ops, hr⟩
    obtain ⟨r, r1, r2⟩ := runIgnoringErrors_inv (P := fun s : Bytes => s.length = b.length ∧ s.drop 14 = b.drop 14)
      (ops.map Ether.Set.run) (by
        intro f hf s hs
        obtain ⟨op, -, rfl⟩ := List.mem_map.1 hf
        obtain ⟨s', e1, e2, e3⟩ := ether_set (b := s) (by omega) op
        rw [e1]
        exact ⟨(fun hp => by cases hp), e2.trans hs.1, e3.trans hs.2⟩) b ⟨rfl, rfl⟩
    rw [r1] at hr
    have : r = b' := congrArg Prod.snd hr
    rw [← this]
    exact r2
  · rintro ⟨hlen, hrest⟩
    obtain ⟨d, hd⟩ := exists_hw (b := b') (o := 0) (by omega)
    obtain ⟨s, hs⟩ := exists_hw (b := b') (o := 6) (by omega)
    have hnew : ∀ c : Bytes, c.length = b.length → Ether.new c = .ok c := fun c hc => by
      rw [C10_ether_accept, if_pos (by omega)]
    obtain ⟨b1, e1, f1, -⟩ := (C11_ether_setters b h).1 d
    obtain ⟨b2, e2, f2, -⟩ := (C11_ether_setters b1 (hnew b1 f1.length)).2.1 s
    obtain ⟨b3, e3, f3, -⟩ := (C11_ether_setters b2 (hnew b2 (f2.length.trans f1.length))).2.2
      (EtherProtocol.ofWire (BitVec.ofNat 16 (field b' 96 16)))
    have hp := f3.value
    rw [C40_ether_protocol.wire, toNat_field16] at hp
    have : b3 = b' := by
      have hso : SameOutside b' b3 0 0 := sameOutside_of_bits
          (f3.length.trans (f2.length.trans (f1.length.trans hlen.symm))) (by
        intro i hi
        by_cases h1 : i < 48
        · refine bits_of_field (s := 0) (w := 48) ?_ i (by omega) (by omega)
          rw [f3.other (by omega), f2.other (by omega), f1.value]; exact hd
        by_cases h1 : i < 96
        · refine bits_of_field (s := 48) (w := 48) ?_ i (by omega) (by omega)
          rw [f3.other (by omega), f2.value]; exact hs
        by_cases h1 : i < 112
        · exact bits_of_field (s := 96) (w := 16) hp i (by omega) (by omega)
        · rw [f3.frame i (by omega), f2.frame i (by omega), f1.frame i (by omega)]
          exact (bits_of_drop hrest i (by omega)).symm)
      exact List.ext_getElem? (fun i => hso.frame i (by omega))
    subst this
    refine ⟨[.destination d, .source s, .protocol (EtherProtocol.ofWire (BitVec.ofNat 16 (field b3 96 16)))], ?_⟩
    simp only [List.map_cons, List.map_nil, runIgnoringErrors, Ether.Set.run, e1, e2, e3]

/-- A concrete case that meets the hypotheses. -/
example (b' : Bytes) := C113_ether Sample.udpFrame b' (by decide)

/-! ## IPv4 -/

theorem tosStep_keeps (ops : List V4.Set) (t : Nat × Nat) :
    t.2 ||| (ops.foldl tosStep t).2 = (ops.foldl tosStep t).2 := by
  induction ops generalizing t with
  | nil => exact Nat.or_self _
  | cons op ops ih =>
    rw [List.foldl_cons]
    have h := ih (tosStep t op)
    have : t.2 ||| (tosStep t op).2 = (tosStep t op).2 := by
      cases op <;> simp only [tosStep, Nat.or_self]
      · split <;> simp only [Nat.or_self]
      · split
        · simp only
          rw [← Nat.or_assoc, Nat.or_self]
        · simp only [Nat.or_self]
    rw [← h, ← Nat.or_assoc, this]

/-- C113 for IPv4: the packets that sessions through `checked()` turn `b` into. -/
theorem C113_v4 (cfg : Cfg) (b b' : Bytes) (h : Legal b) :
    (∃ ops, V4.checkedRun cfg ops b = (.ok (), b')) ↔ ReachableV4 cfg b b' := by
  constructor
  · rintro ⟨ops, hr⟩
    obtain ⟨r, r1, r2, -⟩ := C19_v4_checked cfg b h ops
    obtain ⟨q, f1, f2, f3, f4, f5, -, f7, -⟩ := C19_v4_checked_fields cfg b h ops
    have : r = b' := by rw [r1] at hr; exact congrArg Prod.snd hr
    subst this
    have : q = r := by rw [r1] at f1; exact (congrArg Prod.snd f1).symm
    subst this
    refine ⟨f2, f4, f5, f3, ?_, r2⟩
    have := tosStep_keeps ops (field b 8 6, field b 14 2)
    rw [← f7] at this
    exact this
  · intro hr
    have hbits := bits_of_field hr.first
    have h4 : ∀ s w, s + w ≤ 8 → field b' s w = field b s w := fun s w hs =>
      field_congr fun i h1 h2 => hbits i (by omega) (by omega)
    have hok := (V4.noPayload_ok_iff.1 h.1).2
    have hleg : Legal b' := ⟨V4.noPayload_ok_iff.2 ⟨rfl, by rw [hr.length]; exact hok.long,
      by rw [h4 0 4 (by omega)]; exact hok.version,
      by rw [h4 4 4 (by omega), hr.length]; exact hok.header⟩, by rw [h4 4 4 (by omega)]; exact h.2⟩
    have hlong := hok.long
    have hlen := hr.length
    obtain ⟨src, hsrc⟩ := exists_addr (b := b') (o := 12) (by omega)
    obtain ⟨dst, hdst⟩ := exists_addr (b := b') (o := 16) (by omega)
    obtain ⟨r, r1, r2⟩ := C103_v4_same_bytes cfg b b' h hleg hr.length hr.first hr.total hr.rest
      [.ecn (BitVec.ofNat 8 (field b' 14 2)), .dscp (BitVec.ofNat 8 (field b' 8 6)),
        .id (BitVec.ofNat 16 (field b' 32 16)), .offset (BitVec.ofNat 16 (field b' 48 16)),
        .ttl (BitVec.ofNat 8 (field b' 64 8)), .protocol (IpProtocol.ofWire (BitVec.ofNat 8 (field b' 72 8))),
        .source src, .destination dst] [] (by
        intro s w hsw
        simp only [v4Fields, List.mem_cons, Prod.mk.injEq, List.not_mem_nil, or_false] at hsw
        rcases hsw with ⟨rfl, rfl⟩ | ⟨rfl, rfl⟩ | ⟨rfl, rfl⟩ | ⟨rfl, rfl⟩ | ⟨rfl, rfl⟩ | ⟨rfl, rfl⟩
        · exact toNat_field16 b' 32
        · exact toNat_field16 b' 48
        · exact toNat_field8 (b := b') (s := 64) (Nat.le_refl 8)
        · exact (congrArg BitVec.toNat (C40_ip_protocol.wire _)).trans (toNat_field8 (b := b') (s := 72) (Nat.le_refl 8))
        · exact hsrc
        · exact hdst) (by
        have e1 : (BitVec.ofNat 8 (field b' 14 2)).toNat = field b' 14 2 := toNat_field8 (by omega)
        have e2 : (BitVec.ofNat 8 (field b' 8 6)).toNat = field b' 8 6 := toNat_field8 (by omega)
        have l1 := field_lt b' 14 2
        have l2 := field_lt b' 8 6
        simp only [List.foldl_cons, List.foldl_nil, tosStep, e1, e2]
        rw [if_pos (by omega), if_pos (by omega), hr.ecn])
    have hst : V4.checkedRun cfg [] b' = (.ok (), b') := by
      have := (C103_v4_valid_iff_stable cfg b' hleg).1 hr.valid
      unfold V4.checkedRun
      refine (Mut.bind_ok rfl).trans ?_
      simp [Mut.unwrap, this]
    rw [hst] at r2
    have : b' = r := congrArg Prod.snd r2
    subst this
    exact ⟨_, r1⟩

/-- A concrete case that meets the hypotheses. -/
example (cfg : Cfg) (b' : Bytes) := C113_v4 cfg Sample.udpPacket b' ⟨by decide, by decide⟩

/-! ## UDP -/

/-- C113 for UDP. -/
theorem C113_udp (cfg : Cfg) (ip b b' : Bytes) (hip : 20 ≤ ip.length) (h : Udp.noPayload b = .ok b) :
    (∃ ops, Udp.checkedRun cfg (.v4 ip) ops b = (.ok (), b')) ↔ ReachableUdp cfg ip b b' := by
  constructor
  · rintro ⟨ops, hr⟩
    obtain ⟨r, r1, r2, -, r4, r5, r6, -⟩ := C23_udp_checked cfg ip b hip h ops
    have : r = b' := by rw [r1] at hr; exact congrArg Prod.snd hr
    subst this
    exact ⟨r4, r6, r5, r2⟩
  · intro hr
    have hl := udp_long h
    have hok : Udp.noPayload b' = .ok b' := by rw [Udp.noPayload_eq, if_neg (by rw [hr.length]; omega)]
    obtain ⟨r, r1, r2⟩ := C103_udp_same_bytes cfg ip ip b b' hip hip rfl rfl h hr.length hr.lengthField hr.rest
      [.source (BitVec.ofNat 16 (field b' 0 16)), .destination (BitVec.ofNat 16 (field b' 16 16))] []
      (toNat_field16 b' 0) (toNat_field16 b' 16)
    have hst : Udp.checkedRun cfg (.v4 ip) [] b' = (.ok (), b') := by
      have := (C103_udp_valid_iff_stable cfg ip b' hip hok).1 hr.valid
      unfold Udp.checkedRun
      refine (Mut.bind_ok rfl).trans ?_
      simp [Mut.unwrap, this]
    rw [hst] at r2
    have : b' = r := congrArg Prod.snd r2
    subst this
    exact ⟨_, r1⟩

/-- A concrete case that meets the hypotheses. -/
example (cfg : Cfg) (b' : Bytes) := C113_udp cfg Sample.udpPacket Sample.udp b' (by decide) (by decide)

/-! ## TCP -/

/-- The first `set_flags` of a history, if there is one. -/
theorem flags_split (ops : List Tcp.Set) : (∀ op ∈ ops, notFlags op) ∨
    ∃ before f after, ops = before ++ .flags f :: after ∧ ∀ op ∈ before, notFlags op := by
  induction ops with
  | nil => exact .inl (fun _ h => (by cases h))
  | cons op ops ih =>
    by_cases hop : notFlags op
    · rcases ih with h | ⟨before, f, after, h1, h2⟩
      · left
        intro o ho
        rcases List.mem_cons.1 ho with rfl | ho
        · exact hop
        · exact h o ho
      · right
        refine ⟨op :: before, f, after, by rw [h1]; rfl, ?_⟩
        intro o ho
        rcases List.mem_cons.1 ho with rfl | ho
        · exact hop
        · exact h2 o ho
    · right
      cases op with
      | flags f => exact ⟨[], f, ops, rfl, fun _ h => (by cases h)⟩
      | _ => exact absurd trivial hop

/-- C113 for TCP; a session that calls `set_flags` panics (C27), so no session that ends changes the flags. -/
theorem C113_tcp (cfg : Cfg) (ip b b' : Bytes) (hip : 20 ≤ ip.length) (h : Tcp.new b = .ok b) (h5 : 5 ≤ field b 96 4)
    (hmax : b.length ≤ 65535) (hodd : b.length % 2 = 0 ∨ cfg.eofAdvances = false) :
    (∃ ops, Tcp.checkedRun cfg (.v4 ip) ops b = (.ok (), b')) ↔ ReachableTcp cfg ip b b' := by
  constructor
  · rintro ⟨ops, hr⟩
    rcases flags_split ops with hops | ⟨before, f, after, rfl, hbefore⟩
    · obtain ⟨r, r1, r2, -, r4, r5, -, -, -, -, -, -, r12⟩ := C28_tcp_checked cfg ip b hip h h5 hmax hodd ops hops
      have : r = b' := by rw [r1] at hr; exact congrArg Prod.snd hr
      subst this
      exact ⟨r4, r12, r5, r2⟩
    · obtain ⟨r, r1, -⟩ := C27_tcp_checked_flags_refuted cfg ip b h h5 before after hbefore f
      rw [r1] at hr
      have := congrArg Prod.fst hr
      cases this
  · intro hr
    obtain ⟨-, hl, ho⟩ := Tcp.new_ok_iff.1 h
    have hoff : field b' 96 4 = field b 96 4 :=
      field_congr fun i h1 h2 => bits_of_field hr.word i h1 (by omega)
    have hlen := hr.length
    have hok : Tcp.new b' = .ok b' := Tcp.new_ok_iff.2 ⟨rfl, by omega, by omega⟩
    obtain ⟨r, r1, r2⟩ := C103_tcp_same_bytes cfg ip ip b b' hip hip rfl rfl h hr.length hr.word hr.rest h5 hmax hodd
      [.source (BitVec.ofNat 16 (field b' 0 16)), .destination (BitVec.ofNat 16 (field b' 16 16)),
        .sequence (BitVec.ofNat 32 (field b' 32 32)), .acknowledgment (BitVec.ofNat 32 (field b' 64 32)),
        .window (BitVec.ofNat 16 (field b' 112 16)), .pointer (BitVec.ofNat 16 (field b' 144 16))] []
      (by intro op hop; simp only [List.mem_cons, List.not_mem_nil, or_false] at hop
          rcases hop with rfl | rfl | rfl | rfl | rfl | rfl <;> trivial)
      (fun _ h => (by cases h)) (by
        intro s w hsw
        simp only [List.mem_cons, Prod.mk.injEq, List.not_mem_nil, or_false] at hsw
        rcases hsw with ⟨rfl, rfl⟩ | ⟨rfl, rfl⟩ | ⟨rfl, rfl⟩ | ⟨rfl, rfl⟩ | ⟨rfl, rfl⟩ | ⟨rfl, rfl⟩
        · exact toNat_field16 b' 0
        · exact toNat_field16 b' 16
        · exact toNat_field32 b' 32
        · exact toNat_field32 b' 64
        · exact toNat_field16 b' 112
        · exact toNat_field16 b' 144)
    have hst : Tcp.checkedRun cfg (.v4 ip) [] b' = (.ok (), b') := by
      have := (C103_tcp_valid_iff_stable cfg ip b' hip hok (by omega) (by omega) (by rw [hlen]; exact hodd)).1 hr.valid
      unfold Tcp.checkedRun
      refine (Mut.bind_ok rfl).trans ?_
      simp [Mut.unwrap, this]
    rw [hst] at r2
    have : b' = r := congrArg Prod.snd r2
    subst this
    exact ⟨_, r1⟩

/-- A concrete case that meets the hypotheses. -/
example (cfg : Cfg) (b' : Bytes) := C113_tcp cfg Sample.tcpPacket Sample.tcp b' (by decide) (by decide) (by decide)
    (by decide) (.inl (by decide))

/-! ## ICMP -/

/-- A value that is the old one or one of those some call writes. -/
theorem lastWritten_cases {Op : Type} (written : Op → Nat × Nat × Nat) (s d : Nat) (ops : List Op) :
    lastWritten written s d ops = d ∨ ∃ op ∈ ops, (written op).1 = s ∧ lastWritten written s d ops = (written op).2.2 := by
  unfold lastWritten last
  cases hl : (ops.filterMap fun op => if (written op).1 = s then some (written op).2.2 else none).getLast? with
  | none => exact .inl rfl
  | some v =>
    right
    obtain ⟨op, h1, h2⟩ := List.mem_filterMap.1 (List.mem_of_getLast? hl)
    refine ⟨op, h1, ?_⟩
    split at h2
    · next h3 => exact ⟨h3, by rw [Option.getD_some]; exact (Option.some.inj h2).symm⟩
    · cases h2

theorem lastWritten_prefix {Op : Type} (written : Op → Nat × Nat × Nat) (s d : Nat) (pre ops : List Op)
    (h : ∀ op ∈ pre, (written op).1 ≠ s) : lastWritten written s d (pre ++ ops) = lastWritten written s d ops := by
  unfold lastWritten last
  rw [List.filterMap_append, show pre.filterMap (fun op => if (written op).1 = s then some (written op).2.2 else none) = []
    from List.filterMap_eq_nil_iff.2 (fun op ho => if_neg (h op ho)), List.nil_append]

/-- C113 for echo messages. -/
theorem C113_echo (cfg : Cfg) (b b' : Bytes) (hl : 8 ≤ b.length) (hb : b.length < cfg.usizeMod) :
    (∃ ops, Echo.checkedRun cfg ops b = (.ok (), b')) ↔ ReachableIcmp cfg 8 b.length b b' := by
  constructor
  · rintro ⟨ops, hr⟩
    obtain ⟨r, r1, r2, r3, r4, r5, r6⟩ := echo_checked_all cfg b hl hb ops
    have : r = b' := by rw [r1] at hr; exact congrArg Prod.snd hr
    subst this
    refine ⟨r3, ?_, r5, r4, r2⟩
    rw [r6 0 8 (by decide)]
    rcases lastWritten_cases echoWritten 0 (field b 0 8) ops with h | ⟨op, -, h1, h2⟩
    · exact .inl h
    · right
      rw [h2]
      cases op <;> simp [echoWritten] at h1 ⊢
  · intro hr
    have hlen := hr.length
    obtain ⟨pre, hpre, hpre'⟩ : ∃ pre : List Echo.Set, lastWritten echoWritten 0 (field b 0 8) pre = field b' 0 8 ∧
        ∀ op ∈ pre, (echoWritten op).1 = 0 := by
      rcases hr.kind with h | h | h
      · exact ⟨[], h.symm, fun _ h => (by cases h)⟩
      · exact ⟨[.request], h.symm, by simp [echoWritten]⟩
      · exact ⟨[.reply], h.symm, by simp [echoWritten]⟩
    obtain ⟨r, r1, r2⟩ := C103_echo_same_bytes cfg b b' hl hb hr.length hr.code hr.rest
      ([.identifier (BitVec.ofNat 16 (field b' 32 16)), .sequence (BitVec.ofNat 16 (field b' 48 16))] ++ pre) [] (by
        intro s w hsw
        simp only [List.mem_cons, Prod.mk.injEq, List.not_mem_nil, or_false] at hsw
        rcases hsw with ⟨rfl, rfl⟩ | ⟨rfl, rfl⟩ | ⟨rfl, rfl⟩
        · rw [lastWritten_prefix _ _ _ _ _ (by simp [echoWritten]), hpre]; rfl
        all_goals
          unfold lastWritten last
          rw [List.filterMap_append, show pre.filterMap _ = [] from
            List.filterMap_eq_nil_iff.2 (fun op ho => if_neg (by rw [hpre' op ho]; decide)), List.append_nil]
          exact toNat_field16 b' _)
    have hst := ((C103_icmp_valid_iff_stable cfg b' (by omega)).1 (by omega)).1 (by
      have := hr.valid
      rwa [← hlen, List.take_length] at this)
    rw [hst] at r2
    have : b' = r := congrArg Prod.snd r2
    subst this
    exact ⟨_, r1⟩

/-- A concrete case that meets the hypotheses. -/
example (cfg : Cfg) (b' : Bytes) := C113_echo cfg Sample.echo b' (by decide) (by in_every_build)

/-- C113 for timestamp messages. -/
theorem C113_timestamp (cfg : Cfg) (b b' : Bytes) (hl : 20 ≤ b.length) (hb : b.length < cfg.usizeMod) :
    (∃ ops, Timestamp.checkedRun cfg ops b = (.ok (), b')) ↔ ReachableIcmp cfg 20 20 b b' := by
  constructor
  · rintro ⟨ops, hr⟩
    obtain ⟨r, r1, r2, r3, r4, r5, r6⟩ := timestamp_checked_all cfg b hl ops
    have : r = b' := by rw [r1] at hr; exact congrArg Prod.snd hr
    subst this
    refine ⟨r3, ?_, r5, r4, r2⟩
    rw [r6 0 8 (by decide)]
    rcases lastWritten_cases timestampWritten 0 (field b 0 8) ops with h | ⟨op, -, h1, h2⟩
    · exact .inl h
    · right
      rw [h2]
      cases op <;> simp [timestampWritten] at h1 ⊢
  · intro hr
    have hlen := hr.length
    obtain ⟨pre, hpre, hpre'⟩ : ∃ pre : List Timestamp.Set,
        lastWritten timestampWritten 0 (field b 0 8) pre = field b' 0 8 ∧
        ∀ op ∈ pre, (timestampWritten op).1 = 0 := by
      rcases hr.kind with h | h | h
      · exact ⟨[], h.symm, fun _ h => (by cases h)⟩
      · exact ⟨[.request], h.symm, by simp [timestampWritten]⟩
      · exact ⟨[.reply], h.symm, by simp [timestampWritten]⟩
    obtain ⟨r, r1, r2⟩ := C103_timestamp_same_bytes cfg b b' hl hr.length hr.code hr.rest
      ([.identifier (BitVec.ofNat 16 (field b' 32 16)), .sequence (BitVec.ofNat 16 (field b' 48 16)),
        .originate (BitVec.ofNat 32 (field b' 64 32)), .receive (BitVec.ofNat 32 (field b' 96 32)),
        .transmit (BitVec.ofNat 32 (field b' 128 32))] ++ pre) [] (by
        intro s w hsw
        simp only [List.mem_cons, Prod.mk.injEq, List.not_mem_nil, or_false] at hsw
        rcases hsw with ⟨rfl, rfl⟩ | ⟨rfl, rfl⟩ | ⟨rfl, rfl⟩ | ⟨rfl, rfl⟩ | ⟨rfl, rfl⟩ | ⟨rfl, rfl⟩
        · rw [lastWritten_prefix _ _ _ _ _ (by simp [timestampWritten]), hpre]; rfl
        all_goals
          unfold lastWritten last
          rw [List.filterMap_append, show pre.filterMap _ = [] from
            List.filterMap_eq_nil_iff.2 (fun op ho => if_neg (by rw [hpre' op ho]; decide)), List.append_nil]
        · exact toNat_field16 b' 32
        · exact toNat_field16 b' 48
        · exact toNat_field32 b' 64
        · exact toNat_field32 b' 96
        · exact toNat_field32 b' 128)
    have hst := ((C103_icmp_valid_iff_stable cfg b' (by omega)).2.1 (by omega)).1 hr.valid
    rw [hst] at r2
    have : b' = r := congrArg Prod.snd r2
    subst this
    exact ⟨_, r1⟩

/-- A concrete case that meets the hypotheses. -/
example (cfg : Cfg) (b' : Bytes) := C113_timestamp cfg Sample.timestamp b' (by decide) (by in_every_build)

/-- C113 for information messages. -/
theorem C113_information (cfg : Cfg) (b b' : Bytes) (hl : 8 ≤ b.length) (hb : b.length < cfg.usizeMod) :
    (∃ ops, Information.checkedRun cfg ops b = (.ok (), b')) ↔ ReachableIcmp cfg 8 8 b b' := by
  constructor
  · rintro ⟨ops, hr⟩
    obtain ⟨r, r1, r2, r3, r4, r5, r6⟩ := information_checked_all cfg b hl ops
    have : r = b' := by rw [r1] at hr; exact congrArg Prod.snd hr
    subst this
    refine ⟨r3, ?_, r5, r4, r2⟩
    rw [r6 0 8 (by decide)]
    rcases lastWritten_cases informationWritten 0 (field b 0 8) ops with h | ⟨op, -, h1, h2⟩
    · exact .inl h
    · right
      rw [h2]
      cases op <;> simp [informationWritten] at h1 ⊢
  · intro hr
    have hlen := hr.length
    obtain ⟨pre, hpre, hpre'⟩ : ∃ pre : List Information.Set,
        lastWritten informationWritten 0 (field b 0 8) pre = field b' 0 8 ∧
        ∀ op ∈ pre, (informationWritten op).1 = 0 := by
      rcases hr.kind with h | h | h
      · exact ⟨[], h.symm, fun _ h => (by cases h)⟩
      · exact ⟨[.request], h.symm, by simp [informationWritten]⟩
      · exact ⟨[.reply], h.symm, by simp [informationWritten]⟩
    obtain ⟨r, r1, r2⟩ := C103_information_same_bytes cfg b b' hl hr.length hr.code hr.rest
      ([.identifier (BitVec.ofNat 16 (field b' 32 16)), .sequence (BitVec.ofNat 16 (field b' 48 16))] ++ pre) [] (by
        intro s w hsw
        simp only [List.mem_cons, Prod.mk.injEq, List.not_mem_nil, or_false] at hsw
        rcases hsw with ⟨rfl, rfl⟩ | ⟨rfl, rfl⟩ | ⟨rfl, rfl⟩
        · rw [lastWritten_prefix _ _ _ _ _ (by simp [informationWritten]), hpre]; rfl
        all_goals
          unfold lastWritten last
          rw [List.filterMap_append, show pre.filterMap _ = [] from
            List.filterMap_eq_nil_iff.2 (fun op ho => if_neg (by rw [hpre' op ho]; decide)), List.append_nil]
          exact toNat_field16 b' _)
    have hst := ((C103_icmp_valid_iff_stable cfg b' (by omega)).2.2 (by omega)).1 hr.valid
    rw [hst] at r2
    have : b' = r := congrArg Prod.snd r2
    subst this
    exact ⟨_, r1⟩

/-! ## Cases -/

/-- From ECN 1 one can get to ECN 3 with everything else changed, but not to ECN 0 nor to another total length, although
these packets are accepted and valid. -/
example : ∃ b c d e : Bytes, Legal b ∧ ReachableV4 ⟨true, true, false⟩ b c ∧ c ≠ b ∧
    V4.new d = .ok d ∧ V4.isValid ⟨true, true, false⟩ d = .ok true ∧ d.length = b.length ∧ d.drop 20 = b.drop 20 ∧
    ¬ ReachableV4 ⟨true, true, false⟩ b d ∧
    V4.new e = .ok e ∧ V4.isValid ⟨true, true, false⟩ e = .ok true ∧ e.length = b.length ∧ e.drop 20 = b.drop 20 ∧
    ¬ ReachableV4 ⟨true, true, false⟩ b e :=
  ⟨[69, 1, 0, 22, 0, 1, 0, 0, 64, 17, 102, 211, 10, 0, 0, 1, 10, 0, 0, 2, 7, 8],
    [69, 187, 0, 22, 1, 2, 64, 0, 63, 6, 111, 115, 192, 168, 0, 1, 10, 0, 0, 9, 7, 8],
    [69, 184, 0, 22, 1, 2, 64, 0, 63, 6, 111, 118, 192, 168, 0, 1, 10, 0, 0, 9, 7, 8],
    [69, 1, 0, 21, 0, 1, 0, 0, 64, 17, 102, 212, 10, 0, 0, 1, 10, 0, 0, 2, 7, 8],
    ⟨by decide +kernel, by decide +kernel⟩,
    ⟨by decide +kernel, by decide +kernel, by decide +kernel, by decide +kernel, by decide +kernel, by decide +kernel⟩,
    by decide +kernel, by decide +kernel, by decide +kernel, by decide +kernel, by decide +kernel,
    fun h => absurd h.ecn (by decide +kernel), by decide +kernel, by decide +kernel, by decide +kernel, by decide +kernel,
    fun h => absurd h.total (by decide +kernel)⟩

/-- A datagram, one that editing reaches, and a valid one that it does not reach. -/
example : ∃ ip b c d : Bytes, 20 ≤ ip.length ∧ Udp.noPayload b = .ok b ∧ ReachableUdp ⟨true, true, false⟩ ip b c ∧ c ≠ b ∧
    Udp.isValid ⟨true, true, false⟩ (.v4 ip) d = .ok true ∧ d.length = b.length ∧ ¬ ReachableUdp ⟨true, true, false⟩ ip b d :=
  ⟨[0, 0, 0, 0, 0, 0, 0, 0, 0, 0, 0, 0, 10, 0, 0, 1, 10, 0, 0, 2], [0, 7, 0, 9, 0, 10, 0, 0, 1, 2],
    [0, 53, 4, 0, 0, 10, 230, 160, 1, 2], [0, 53, 4, 0, 0, 11, 230, 159, 1, 2], by decide +kernel, by decide +kernel,
    ⟨by decide +kernel, by decide +kernel, by decide +kernel, by decide +kernel⟩, by decide +kernel, by decide +kernel,
    by decide +kernel, fun h => absurd h.lengthField (by decide +kernel)⟩

/-- A SYN can be given other ports but never be made a SYN+ACK. -/
example : ∃ ip b c d : Bytes, 20 ≤ ip.length ∧ Tcp.new b = .ok b ∧ 5 ≤ field b 96 4 ∧ b.length % 2 = 0 ∧
    ReachableTcp ⟨true, true, false⟩ ip b c ∧ c ≠ b ∧
    Tcp.isValid ⟨true, true, false⟩ (.v4 ip) d = .ok true ∧ d.length = b.length ∧ ¬ ReachableTcp ⟨true, true, false⟩ ip b d :=
  ⟨[0, 0, 0, 0, 0, 0, 0, 0, 0, 0, 0, 0, 10, 0, 0, 1, 10, 0, 0, 2],
    [0, 81, 9, 0, 0, 0, 0, 5, 0, 0, 0, 2, 80, 2, 1, 0, 0, 0, 0, 0, 9, 9],
    [0, 80, 4, 0, 0, 0, 0, 1, 0, 0, 0, 2, 80, 2, 1, 0, 141, 130, 0, 0, 9, 9],
    [0, 80, 4, 0, 0, 0, 0, 1, 0, 0, 0, 2, 80, 18, 1, 0, 141, 114, 0, 0, 9, 9], by decide +kernel, by decide +kernel,
    by decide +kernel, by decide +kernel, ⟨by decide +kernel, by decide +kernel, by decide +kernel, by decide +kernel⟩,
    by decide +kernel, by decide +kernel, by decide +kernel, fun h => absurd h.word (by decide +kernel)⟩

/-- An echo request can be made a reply, but nothing that is not an echo message. -/
example : ∃ b c d : Bytes, ReachableIcmp ⟨true, true, false⟩ 8 b.length b c ∧ c ≠ b ∧ Icmp.isValid ⟨true, true, false⟩ d = .ok true ∧
    d.length = b.length ∧ ¬ ReachableIcmp ⟨true, true, false⟩ 8 b.length b d :=
  ⟨[8, 0, 242, 246, 0, 1, 0, 2, 5, 6], [0, 0, 250, 238, 0, 9, 0, 2, 5, 6], [13, 0, 237, 238, 0, 9, 0, 2, 5, 6],
    ⟨by decide +kernel, by decide +kernel, by decide +kernel, by decide +kernel, by decide +kernel⟩, by decide +kernel,
    by decide +kernel, by decide +kernel, fun h => absurd h.kind (by decide +kernel)⟩

end Verif.Props
