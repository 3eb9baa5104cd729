import Verif.Spec.Quotes
import Verif.Props.BuildersTransport
import Verif.Props.BuildersIcmp
import Verif.Props.Padding
import Verif.Props.Icmp

/-!
# Built packets coming back in ICMP errors (C127)

A program that sent a packet gets it back, as the routers on the way left it, in the error message that quotes
it, and finds out which of its packets that was.
-/

namespace Verif.Props
open Verif Verif.Spec

/-! ## Reading where two byte sequences agree -/

theorem idx_alike {p q : Bytes} {i : Nat} (h : q[i]? = p[i]?) : idx q i = idx p i := by
  unfold idx; rw [h]

theorem getD_alike {p q : Bytes} {i : Nat} (h : q[i]? = p[i]?) : q.getD i 0#8 = p.getD i 0#8 := by
  rw [List.getD_eq_getElem?_getD, List.getD_eq_getElem?_getD, h]

theorem readU16At_alike {p q : Bytes} {i : Nat} (hp : i + 2 ≤ p.length) (hq : i + 2 ≤ q.length)
    (h0 : q[i]? = p[i]?) (h1 : q[i + 1]? = p[i + 1]?) : readU16At q i = readU16At p i := by
  rw [readU16At_ok hq, readU16At_ok hp, getD_alike h0, getD_alike h1]

theorem readU32At_alike {p q : Bytes} {i : Nat} (hp : i + 4 ≤ p.length) (hq : i + 4 ≤ q.length)
    (h0 : q[i]? = p[i]?) (h1 : q[i + 1]? = p[i + 1]?) (h2 : q[i + 2]? = p[i + 2]?)
    (h3 : q[i + 3]? = p[i + 3]?) : readU32At q i = readU32At p i := by
  rw [readU32At_ok hq, readU32At_ok hp, getD_alike h0, getD_alike h1, getD_alike h2, getD_alike h3]

theorem field_alike {p q : Bytes} {s w : Nat} (h : ∀ i, s ≤ i → i < s + w → q[i / 8]? = p[i / 8]?) :
    field q s w = field p s w :=
  field_congr fun i h0 hi => bitAt_congr (h i h0 hi)

theorem drop_take_alike {p q : Bytes} {k n : Nat} (h : ∀ i, k ≤ i → i < k + n → q[i]? = p[i]?) :
    (q.drop k).take n = (p.drop k).take n := by
  apply List.ext_getElem?
  intro i
  rw [List.getElem?_take, List.getElem?_take]
  split
  · rw [List.getElem?_drop, List.getElem?_drop]; exact h _ (by omega) (by omega)
  · rfl

/-- The parts of an IPv4 packet that routers leave alone, read from as much of it as is quoted. -/
theorem quote_fields {p q : Bytes} (hp : 28 ≤ p.length) (h : QuoteOf p q) :
    V4.version q = V4.version p ∧ V4.ihl q = V4.ihl p ∧ V4.length q = V4.length p ∧ V4.id q = V4.id p ∧
    V4.flags q = V4.flags p ∧ V4.offset q = V4.offset p ∧ V4.protocol q = V4.protocol p ∧
    V4.source q = V4.source p ∧ V4.destination q = V4.destination p := by
  obtain ⟨hq, hs⟩ := h
  have s : ∀ i, i < 20 → i ∉ [1, 8, 10, 11] → q[i]? = p[i]? := fun i hi => hs i (by omega) (by omega)
  have i0 : idx q 0 = idx p 0 := idx_alike (s 0 (by omega) (by decide))
  have w6 : readU16At q 6 = readU16At p 6 :=
    readU16At_alike (by omega) (by omega) (s 6 (by omega) (by decide)) (s 7 (by omega) (by decide))
  have i9 : idx q 9 = idx p 9 := idx_alike (s 9 (by omega) (by decide))
  refine ⟨by simp only [V4.version, i0], by simp only [V4.ihl, i0],
    readU16At_alike (by omega) (by omega) (s 2 (by omega) (by decide)) (s 3 (by omega) (by decide)),
    readU16At_alike (by omega) (by omega) (s 4 (by omega) (by decide)) (s 5 (by omega) (by decide)),
    by simp only [V4.flags, w6], by simp only [V4.offset, w6], by simp only [V4.protocol, i9], ?_, ?_⟩
  · simp only [V4.source, idx_alike (s 12 (by omega) (by decide)), idx_alike (s 13 (by omega) (by decide)),
      idx_alike (s 14 (by omega) (by decide)), idx_alike (s 15 (by omega) (by decide))]
  · simp only [V4.destination, idx_alike (s 16 (by omega) (by decide)), idx_alike (s 17 (by omega) (by decide)),
      idx_alike (s 18 (by omega) (by decide)), idx_alike (s 19 (by omega) (by decide))]

/-- A packet quoted in full is accepted and has the same payload. -/
theorem quote_full {p q : Bytes} (h5 : field p 4 4 = 5) (hv : V4.new p = .ok p) (hp : 28 ≤ p.length)
    (h : QuoteOf p q) (hl : p.length ≤ q.length) :
    V4.new q = .ok q ∧ V4.payload q = V4.payload p := by
  obtain ⟨hq, hs⟩ := h
  obtain ⟨-, ⟨h20, h4, hh⟩, ht⟩ := V4.new_ok_iff.1 hv
  have s : ∀ i, i < p.length → i ∉ [1, 8, 10, 11] → q[i]? = p[i]? := fun i hi => hs i hi (by omega)
  have b0 : ∀ i, i < 8 → q[i / 8]? = p[i / 8]? := fun i hi => by
    rw [show i / 8 = 0 by omega]; exact s 0 (by omega) (by decide)
  have f0 : field q 0 4 = field p 0 4 := field_alike fun i _ hi => b0 i (by omega)
  have f4 : field q 4 4 = field p 4 4 := field_alike fun i _ hi => b0 i (by omega)
  have f16 : field q 16 16 = field p 16 16 := field_alike fun i h0 hi => by
    rcases (show i / 8 = 2 ∨ i / 8 = 3 by omega) with e | e <;> rw [e]
    · exact s 2 (by omega) (by decide)
    · exact s 3 (by omega) (by decide)
  refine ⟨V4.new_ok_iff.2 ⟨rfl, ⟨by omega, by omega, by omega⟩, by omega⟩, ?_⟩
  rw [V4.payload_eq (by omega) (by omega), V4.payload_eq (by omega) hh, f4, f16, h5]
  refine congrArg Outcome.ok (drop_take_alike fun i h0 hi => s i (by omega) ?_)
  simp only [List.mem_cons, List.not_mem_nil, or_false]
  omega

/-! ## Opening an error message -/

/-- Opened with the typed view that its type calls for, the ICMP message `m` has the payload `q`, and
`packet()` returns `o`. -/
def Opens (m q : Bytes) (o : Outcome Bytes) : Prop :=
  Icmp.new m = .ok m ∧ field m 0 8 ∈ [3, 4, 5, 11, 12] ∧
  (field m 0 8 ∈ [4, 3, 11] →
    Previous.new m = .ok m ∧ Previous.packet m = o ∧ ∃ s, Previous.split m = .ok (s, q)) ∧
  (field m 0 8 = 5 → Redirect.new m = .ok m ∧ Redirect.packet m = o ∧ ∃ s, Redirect.split m = .ok (s, q)) ∧
  (field m 0 8 = 12 →
    ParamProblem.new m = .ok m ∧ ParamProblem.packet m = o ∧ ∃ s, ParamProblem.split m = .ok (s, q))

theorem opens (h q : Bytes) (hh : ErrorHeader h) : Opens (h ++ q) q (V4.new q) := by
  obtain ⟨hl, hk⟩ := hh
  have hm : 8 ≤ (h ++ q).length := by rw [List.length_append]; omega
  have hd : (h ++ q).drop 8 = q := by rw [← hl]; exact List.drop_left
  have hq : quotedPacket (h ++ q) = V4.new q := by
    unfold quotedPacket; rw [sliceFrom_ok hm, hd]; rfl
  obtain ⟨-, -, -, e4, e5, e6⟩ := C35_icmp_typed_accept (h ++ q)
  rw [if_neg (by omega)] at e4 e5 e6
  refine ⟨?_, by rw [field_pad q (by omega)]; exact hk, fun ht => ⟨by rw [e4, if_pos ht], hq, ?_⟩,
    fun ht => ⟨by rw [e5, if_pos (by rw [ht]; decide)], hq, ?_⟩,
    fun ht => ⟨by rw [e6, if_pos (by rw [ht]; decide)], hq, ?_⟩⟩
  · rw [show Icmp.new (h ++ q) = if (h ++ q).length < 4 then .err .smallBuffer else .ok (h ++ q) from rfl,
      if_neg (by omega)]
  · unfold Previous.split
    rw [splitAt_ok hm, Outcome.ok_bind, sliceTo_ok (by rw [List.length_take]; omega), hd]
    exact ⟨_, rfl⟩
  · unfold Redirect.split
    rw [splitAt_ok hm, hd]
    exact ⟨_, rfl⟩
  · unfold ParamProblem.split
    rw [splitAt_ok hm, Outcome.ok_bind, sliceTo_ok (by rw [List.length_take]; omega), hd]
    exact ⟨_, rfl⟩

/-- What is quoted of a packet that reads back: `packet()` accepts it exactly if all of it is there. -/
theorem quote_new {cfg : Cfg} {vops : List V4Op} {proto : IpProtocol} {d out q : Bytes}
    (hv : ReadsV4 cfg vops proto d out) (hd : 8 ≤ d.length) (h : QuoteOf out q) :
    V4.new q = if out.length ≤ q.length then .ok q else .err .smallBuffer := by
  have hsz := hv.size
  have h5 : field out 4 4 = 5 := by
    have e := hv.ihl
    rw [V4.ihl_field (by omega)] at e
    have e := congrArg BitVec.toNat (Outcome.ok.inj e)
    have lt : field out 4 4 < 2 ^ 4 := field_lt out 4 4
    rw [BitVec.toNat_ofNat, show BitVec.toNat (5 : U8) = 5 from rfl] at e
    omega
  by_cases hl : out.length ≤ q.length
  · rw [if_pos hl]; exact (quote_full h5 hv.accepted (by omega) h hl).1
  · rw [if_neg hl]
    obtain ⟨hq, hs⟩ := h
    have s : ∀ i, i < 20 → i ∉ [1, 8, 10, 11] → q[i]? = out[i]? := fun i hi => hs i (by omega) (by omega)
    have f0 : field q 0 4 = field out 0 4 := field_alike fun i _ hi => by
      rw [show i / 8 = 0 by omega]; exact s 0 (by omega) (by decide)
    have f16 : field q 16 16 = field out 16 16 := field_alike fun i h0 hi => by
      rcases (show i / 8 = 2 ∨ i / 8 = 3 by omega) with e | e <;> rw [e]
      · exact s 2 (by omega) (by decide)
      · exact s 3 (by omega) (by decide)
    obtain ⟨n, e, hn⟩ := hv.length
    rw [V4.length_field (by omega)] at e
    have e := congrArg BitVec.toNat (Outcome.ok.inj e)
    have lt : field out 16 16 < 2 ^ 16 := field_lt out 16 16
    rw [BitVec.toNat_ofNat, hn] at e
    have h4 := (V4.new_ok_iff.1 hv.accepted).2.version
    rw [V4.new_eq, if_neg (by omega), if_neg (by omega), if_pos (by omega)]

/-- What the layers behind the header of 20 bytes find in a quote. -/
theorem quote_behind {out q : Bytes} (hp : 28 ≤ out.length) (h : QuoteOf out q) :
    readU16At (q.drop 20) 0 = readU16At (out.drop 20) 0 ∧ readU16At (q.drop 20) 2 = readU16At (out.drop 20) 2 ∧
    readU32At (q.drop 20) 4 = readU32At (out.drop 20) 4 ∧
    readU16At (q.drop 20) 4 = readU16At (out.drop 20) 4 ∧ readU16At (q.drop 20) 6 = readU16At (out.drop 20) 6 := by
  obtain ⟨hq, hs⟩ := h
  have s : ∀ i, i < 8 → (q.drop 20)[i]? = (out.drop 20)[i]? := fun i hi => by
    rw [List.getElem?_drop, List.getElem?_drop]
    refine hs _ (by omega) (by omega) ?_
    simp only [List.mem_cons, List.not_mem_nil, or_false]
    omega
  have l1 : 8 ≤ (q.drop 20).length := by rw [List.length_drop]; omega
  have l2 : 8 ≤ (out.drop 20).length := by rw [List.length_drop]; omega
  exact ⟨readU16At_alike (by omega) (by omega) (s _ (by omega)) (s _ (by omega)),
    readU16At_alike (by omega) (by omega) (s _ (by omega)) (s _ (by omega)),
    readU32At_alike (by omega) (by omega) (s _ (by omega)) (s _ (by omega)) (s _ (by omega)) (s _ (by omega)),
    readU16At_alike (by omega) (by omega) (s _ (by omega)) (s _ (by omega)),
    readU16At_alike (by omega) (by omega) (s _ (by omega)) (s _ (by omega))⟩

/-- What is behind the header of a packet that reads back. -/
theorem reads_behind {cfg : Cfg} {vops : List V4Op} {proto : IpProtocol} {d out : Bytes}
    (hv : ReadsV4 cfg vops proto d out) : field out 4 4 = 5 ∧ out.drop 20 = d := by
  have hsz := hv.size
  have h5 : field out 4 4 = 5 := by
    have e := hv.ihl
    rw [V4.ihl_field (by omega)] at e
    have e := congrArg BitVec.toNat (Outcome.ok.inj e)
    have lt : field out 4 4 < 2 ^ 4 := field_lt out 4 4
    rw [BitVec.toNat_ofNat, show BitVec.toNat (5 : U8) = 5 from rfl] at e
    omega
  have e := hv.payload
  rw [V4.payload_eq (by omega) (by omega), h5] at e
  obtain ⟨n, en, hn⟩ := hv.length
  rw [V4.length_field (by omega)] at en
  have en := congrArg BitVec.toNat (Outcome.ok.inj en)
  have lt : field out 16 16 < 2 ^ 16 := field_lt out 16 16
  rw [BitVec.toNat_ofNat, hn] at en
  have e := Outcome.ok.inj e
  rw [List.take_of_length_le (by rw [List.length_drop]; omega)] at e
  exact ⟨h5, e⟩

/-- The quote `q` of a packet built with the calls `vops`, opened in the error message `m`: `packet()` works
exactly if the packet is quoted completely, and in any case the payload, looked at with
`ip::v4::Packet::unchecked`, shows the identification, the addresses and the protocol. -/
structure Recognised (vops : List V4Op) (proto : IpProtocol) (out m q : Bytes) : Prop where
  opens : Opens m q (if out.length ≤ q.length then .ok q else .err .smallBuffer)
  id : V4.id q = .ok (last V4Op.id? 0 vops)
  source : V4.source q = .ok (last V4Op.source? .zero vops)
  destination : V4.destination q = .ok (last V4Op.destination? .zero vops)
  protocol : V4.protocol q = .ok proto

theorem recognised {cfg : Cfg} {vops : List V4Op} {proto : IpProtocol} {d out h q : Bytes}
    (hv : ReadsV4 cfg vops proto d out) (hd : 8 ≤ d.length) (hh : ErrorHeader h) (hq : QuoteOf out q) :
    Recognised vops proto out (h ++ q) q := by
  have hsz := hv.size
  obtain ⟨-, -, -, e1, -, -, e2, e3, e4⟩ := quote_fields (by omega) hq
  refine ⟨?_, e1.trans hv.id, e3.trans hv.source, e4.trans hv.destination, e2.trans hv.protocol⟩
  rw [← quote_new hv hd hq]
  exact Props.opens h q hh

/-! ## C127 -/

/-- C127, UDP: whatever UDP packet a program of C45 built, in every ICMP error that quotes it, as the routers
on the way left it and wherever they cut it, the program finds the identification, the addresses, the
protocol and the ports it had asked for; and if it is quoted completely, the whole datagram, still valid. -/
theorem C127_udp_quoted (cfg : Cfg) (vops : List V4Op) (uops : List UdpOp) (hr : ∀ op ∈ vops, op.InRange)
    (h0 : vops.filterMap V4Op.payload? = []) (h1 : (uops.filterMap UdpOp.payload?).length ≤ 1)
    (hsize : 28 + (last UdpOp.payload? [] uops).length ≤ 65535) :
    ∃ out d, ipv4Program cfg Dynamic.new vops (.udp uops) = .ok out ∧
      ∀ h q, ErrorHeader h → QuoteOf out q →
        Recognised vops .udp out (h ++ q) q ∧
        Udp.source (q.drop 20) = .ok (last UdpOp.source? 0 uops) ∧
        Udp.destination (q.drop 20) = .ok (last UdpOp.destination? 0 uops) ∧
        (out.length ≤ q.length → V4.payload q = .ok d ∧
          ReadsUdp cfg q (last V4Op.source? .zero vops) (last V4Op.destination? .zero vops) uops d) := by
  obtain ⟨out, d, e, hv, hu⟩ := C45_udp_build cfg vops uops hr h0 h1 hsize
  have hsz := hv.size
  have hd : 8 ≤ d.length := by have := hu.size; omega
  obtain ⟨h5, hb⟩ := reads_behind hv
  refine ⟨out, d, e, fun h q hh hq => ?_⟩
  obtain ⟨b0, b2, -⟩ := quote_behind (by omega) hq
  rw [hb] at b0 b2
  obtain ⟨-, -, -, -, -, -, -, e3, e4⟩ := quote_fields (by omega) hq
  refine ⟨recognised hv hd hh hq, b0.trans hu.source, b2.trans hu.destination, fun hl => ?_⟩
  refine ⟨(quote_full h5 hv.accepted (by omega) hq hl).2.trans hv.payload, hu.accepted, hu.size, hu.source,
    hu.destination, hu.length, hu.payload, ?_, hu.rfc⟩
  rw [← hu.valid]
  simp only [Udp.isValid, Udp.checksumOf, e3, e4]

/-- C127, TCP, for the programs of C46; the eight bytes also show the sequence number. -/
theorem C127_tcp_quoted (cfg : Cfg) (vops : List V4Op) (tops : List TcpOp)
    (hr : ∀ op ∈ vops, op.InRange) (h0 : vops.filterMap V4Op.payload? = [])
    (h1 : (tops.filterMap TcpOp.payload?).length ≤ 1) (hfl : TcpOp.FlagsLast tops)
    (hsize : 40 + (last TcpOp.payload? [] tops).length ≤ 65535)
    (hodd : (last TcpOp.payload? [] tops).length % 2 = 0 ∨ cfg.eofAdvances = false) :
    ∃ out d, ipv4Program cfg Dynamic.new vops (.tcp tops) = .ok out ∧
      ∀ h q, ErrorHeader h → QuoteOf out q →
        Recognised vops .tcp out (h ++ q) q ∧
        Tcp.source (q.drop 20) = .ok (last TcpOp.source? 0 tops) ∧
        Tcp.destination (q.drop 20) = .ok (last TcpOp.destination? 0 tops) ∧
        Tcp.sequence (q.drop 20) = .ok (last TcpOp.sequence? 0 tops) ∧
        (out.length ≤ q.length → V4.payload q = .ok d ∧
          ReadsTcp cfg q (last V4Op.source? .zero vops) (last V4Op.destination? .zero vops) tops d) := by
  obtain ⟨out, d, e, hv, ht⟩ := C46_tcp_build cfg vops tops hr h0 h1 hfl hsize hodd
  have hsz := hv.size
  have hd : 8 ≤ d.length := by have := ht.size; omega
  obtain ⟨h5, hb⟩ := reads_behind hv
  refine ⟨out, d, e, fun h q hh hq => ?_⟩
  obtain ⟨b0, b2, b4, -⟩ := quote_behind (by omega) hq
  rw [hb] at b0 b2 b4
  obtain ⟨-, -, -, -, -, -, -, e3, e4⟩ := quote_fields (by omega) hq
  refine ⟨recognised hv hd hh hq, b0.trans ht.source, b2.trans ht.destination, b4.trans ht.sequence, fun hl => ?_⟩
  refine ⟨(quote_full h5 hv.accepted (by omega) hq hl).2.trans hv.payload,
    { ht with valid := ?_ }⟩
  rw [← ht.valid]
  simp only [Tcp.isValid, Tcp.checksumOf, e3, e4]

/-- C127, echo, for the programs of C48; the eight bytes show identifier and sequence number. -/
theorem C127_echo_quoted (cfg : Cfg) (vops : List V4Op) (ops : List EchoOp) (hr : ∀ op ∈ vops, op.InRange)
    (h0 : vops.filterMap V4Op.payload? = []) (hk : ∃ op ∈ ops, op.kind?.isSome)
    (h1 : (ops.filterMap EchoOp.payload?).length ≤ 1)
    (hsize : 28 + (last EchoOp.payload? [] ops).length ≤ 65535) :
    ∃ out d kind, ipv4Program cfg Dynamic.new vops (.icmp (.echo ops)) = .ok out ∧
      (ops.filterMap EchoOp.kind?).getLast? = some kind ∧ ReadsEcho cfg ops kind d ∧
      ∀ h q, ErrorHeader h → QuoteOf out q →
        Recognised vops .icmp out (h ++ q) q ∧
        Echo.identifier (q.drop 20) = .ok (last EchoOp.identifier? 0 ops) ∧
        Echo.sequence (q.drop 20) = .ok (last EchoOp.sequence? 0 ops) ∧
        (out.length ≤ q.length → V4.payload q = .ok d) := by
  obtain ⟨out, d, k, e, hk, hv, he⟩ := C48_echo_in_ipv4 cfg vops ops hr h0 hk h1 hsize
  have hsz := hv.size
  have hd : 8 ≤ d.length := by have := he.size; omega
  obtain ⟨h5, hb⟩ := reads_behind hv
  refine ⟨out, d, k, e, hk, he, fun h q hh hq => ?_⟩
  obtain ⟨-, -, -, b4, b6⟩ := quote_behind (by omega) hq
  rw [hb] at b4 b6
  exact ⟨recognised hv hd hh hq, b4.trans he.identifier, b6.trans he.sequence,
    fun hl => (quote_full h5 hv.accepted (by omega) hq hl).2.trans hv.payload⟩

/-- Concrete cases that meet the hypotheses. -/
example (cfg : Cfg) := C127_udp_quoted cfg Sample.vops Sample.uops (by call_by_call) (by call_by_call)
    (by call_by_call) (by decide)
example (cfg : Cfg) := C127_tcp_quoted cfg Sample.vops Sample.tops (by call_by_call) (by call_by_call)
    (by call_by_call) (by call_by_call) (by decide) (.inl (by decide))
example (cfg : Cfg) := C127_echo_quoted cfg Sample.vops Sample.echoOps (by call_by_call) (by call_by_call)
    ⟨.request, .head _, rfl⟩ (by call_by_call) (by decide)

/-- "Time exceeded", as a router three hops away sends it: the time to live is gone, the checksum is another,
and of the packet `Sample.udpPacket` there are 28 bytes. -/
example : ErrorHeader [11, 0, 0, 0, 0, 0, 0, 0] ∧
    QuoteOf Sample.udpPacket ((put (put Sample.udpPacket 8 [0]) 10 [166, 196]).take 28) ∧
    ¬ Sample.udpPacket.length ≤ ((put (put Sample.udpPacket 8 [0]) 10 [166, 196]).take 28).length := by
  refine ⟨⟨rfl, by decide⟩, ⟨by decide, ?_⟩, by decide⟩
  have : ∀ i, i < 32 → i < 28 → i ∉ [1, 8, 10, 11] →
      ((put (put Sample.udpPacket 8 [0]) 10 [166, 196]).take 28)[i]? = Sample.udpPacket[i]? := by decide +kernel
  exact this

/-- And quoted completely, with something behind it. -/
example : QuoteOf Sample.udpPacket (put (put Sample.udpPacket 8 [0]) 10 [166, 196] ++ [9, 9]) := by
  refine ⟨by decide, ?_⟩
  have : ∀ i, i < 32 → i < 34 → i ∉ [1, 8, 10, 11] →
      (put (put Sample.udpPacket 8 [0]) 10 [166, 196] ++ [9, 9])[i]? = Sample.udpPacket[i]? := by decide +kernel
  exact this

end Verif.Props
