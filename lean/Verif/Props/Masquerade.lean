import Verif.Props.Gateway
import Verif.Props.Exchange

/-!
# Conversations through masquerading gateways (C142)

The gateway of C141 in front of the network of C132, and one gateway behind another.
-/

namespace Verif.Props
open Verif Verif.Spec

/-- What the UDP datagram in the packet carries. -/
def Says (p d : Bytes) : Prop := ∃ u, V4.payload p = .ok u ∧ Udp.new u = .ok u ∧ Udp.payload u = .ok d

theorem datagram_carries {cfg : Cfg} {p : Bytes} {f : Flow} (h : Datagram cfg p f) : ∃ d, Says p d := by
  obtain ⟨u, hu, hn, -⟩ := h.1.inner
  exact ⟨_, u, hu, hn, (C21_udp_views u hn).2.1⟩

/-- What changes on the way is not in what is carried. -/
theorem carries_transit {cfg : Cfg} {p q d : Bytes} {f g : Flow} (hp : Datagram cfg p f) (hq : Datagram cfg q g)
    (ho : OnlyTransit .udp p q) (h : Says p d) : Says q d := by
  obtain ⟨u, hu, hn, hd⟩ := h
  obtain ⟨w, hw, hm, -⟩ := hq.1.inner
  refine ⟨w, hw, hm, ?_⟩
  have h5 := hp.1.header
  have ih := ho.ihl h5
  have v1 := hp.1.v4
  have v2 := hq.1.v4
  rw [ip_accept p] at v1
  rw [ip_accept q] at v2
  have n1 : ipError p = none := by cases e : ipError p with | none => rfl | some x => rw [e] at v1; cases v1
  have n2 : ipError q = none := by cases e : ipError q with | none => rfl | some x => rw [e] at v2; cases v2
  have d1 := (ip_accepted n1).2.2.2
  have d2 := (ip_accepted n2).2.2.2
  have e1 := Outcome.ok.inj (hu.symm.trans d1)
  have e2 := Outcome.ok.inj (hw.symm.trans d2)
  have ht : field q 16 16 = field p 16 16 := by
    refine field_congr fun i i1 i2 => bitAt_congr (ho.2 (i / 8) (by omega) (by omega) (by omega) ?_ ?_)
    · show i / 8 ≠ 4 * field p 4 4 + 6
      omega
    · show i / 8 ≠ 4 * field p 4 4 + 6 + 1
      omega
  have same : ∀ i, 4 ≤ i → i ≠ 6 → i ≠ 7 → w[i]? = u[i]? := by
    intro i i4 i6 i7
    rw [e1, e2]
    unfold ipData
    rw [ih, ht, List.getElem?_take, List.getElem?_take, List.getElem?_drop, List.getElem?_drop]
    rw [ho.2 (4 * field p 4 4 + i) (by omega) (by omega) (by omega)
      (show _ ≠ 4 * field p 4 4 + 6 by omega) (show _ ≠ 4 * field p 4 4 + 6 + 1 by omega)]
  have hl : field w 32 16 = field u 32 16 :=
    field_congr fun i i1 i2 => bitAt_congr (same (i / 8) (by omega) (by omega) (by omega))
  rw [(C21_udp_views w hm).2.1, ← hd, (C21_udp_views u hn).2.1, hl]
  congr 1
  apply List.ext_getElem?
  intro i
  rw [List.getElem?_take, List.getElem?_take, List.getElem?_drop, List.getElem?_drop, same (8 + i) (by omega) (by omega) (by omega)]

/-- A datagram on its way through a network. -/
theorem datagram_travel (cfg : Cfg) (ns : List Node) (p : Bytes) (f : Flow) (ttl : U8) (h : Datagram cfg p f)
    (ht : V4.ttl p = .ok ttl) (hr : routers ns = 0 ∨ routers ns < ttl.toNat) :
    ∃ q, travel cfg .udp ns p = .ok (some q) ∧ Datagram cfg q (final ns f) ∧
      V4.ttl q = .ok (BitVec.ofNat 8 (ttl.toNat - routers ns)) ∧ OnlyTransit .udp p q := by
  obtain ⟨q, e1, e2, e3, e4⟩ := (C132_travel cfg .udp ns p f ttl h.1 ht).1 hr
  refine ⟨q, e1, ⟨e2, ?_⟩, e3, e4⟩
  have hp := (V4.new_ok_iff.1 h.1.v4).2.long
  have hq : 20 ≤ q.length := by rw [e4.1]; exact hp
  have h5 := h.1.header
  rw [(C14_v4_fields q hq).2.2.2.2.2.2.2.2.1, ← h.2, (C14_v4_fields p hp).2.2.2.2.2.2.2.2.1]
  rw [field_congr (b := p) (b' := q) (s := 72) (w := 8)]
  intro i h1 h2
  apply bitAt_congr
  refine e4.2 (i / 8) (by omega) (by omega) (by omega) ?_ ?_
  · show i / 8 ≠ 4 * field p 4 4 + 6
    omega
  · show i / 8 ≠ 4 * field p 4 4 + 6 + 1
    omega

theorem ttl_endpoints {cfg : Cfg} {p q : Bytes} {f : Flow} (h : Datagram cfg p f) (ho : OnlyEndpoints .udp p q) :
    V4.ttl q = V4.ttl p := by
  have h5 := h.1.header
  refine idx_alike (ho.2 8 (by omega) (by omega) ?_ ?_)
  · show 8 ≠ 4 * field p 4 4 + 6
    omega
  · show 8 ≠ 4 * field p 4 4 + 6 + 1
    omega

/-- C142: what a gateway sends on travels through any network, and carries what it did; and whatever is sent to its new
endpoint as it is known at the far end (`g`), through any network that leads back to the gateway, arrives at the inside
endpoint, carrying what was sent, whatever came to the gateway before and in between. -/
theorem C142_conversation (cfg : Cfg) (gw : Gateway) (before between : List Event) (there back : List Node) (t t' : Table)
    (p q : Bytes) (f : Flow) (ttl : U8) (h : Datagram cfg p f) (hl : V4.ttl p = .ok ttl)
    (hr : routers there = 0 ∨ routers there < ttl.toNat) (h1 : gw.after cfg [] before = .ok t)
    (h2 : gw.step cfg t (.fromInside p) = .ok (t', some q)) :
    ∃ port s t'', Datagram cfg q ⟨gw.addr, port, f.dst, f.dport⟩ ∧ travel cfg .udp there q = .ok (some s) ∧
      Datagram cfg s (final there ⟨gw.addr, port, f.dst, f.dport⟩) ∧ (∀ d, Says p d → Says s d) ∧
      gw.after cfg t' between = .ok t'' ∧
      ∀ r g ttl', Datagram cfg r g → V4.ttl r = .ok ttl' → (routers back = 0 ∨ routers back < ttl'.toNat) →
        (final back g).dst = gw.addr → (final back g).dport = port →
        ∃ a b, travel cfg .udp back r = .ok (some a) ∧ gw.step cfg t'' (.fromOutside a) = .ok (t'', some b) ∧
          Datagram cfg b ⟨(final back g).src, (final back g).sport, f.src, f.sport⟩ ∧
          ∀ d, Says r d → Says b d := by
  obtain ⟨port, t'', a1, a2, a3, a4⟩ := C141_return cfg gw before between t t' p q f h h1 h2
  obtain ⟨s, b1, b2, -, b4⟩ := datagram_travel cfg there q _ ttl a1 ((ttl_endpoints h a2).trans hl) hr
  refine ⟨port, s, t'', a1, b1, b2, fun d hd => ?_, a3, fun r g ttl' hg hl' hr' c1 c2 => ?_⟩
  · exact carries_transit a1 b2 b4 (carries_transit h a1 a2.transit hd)
  · obtain ⟨a, e1, e2, -, e4⟩ := datagram_travel cfg back r g ttl' hg hl' hr'
    have e2' : Datagram cfg a ⟨(final back g).src, (final back g).sport, gw.addr, port⟩ := by
      rw [← c1, ← c2]
      exact e2
    obtain ⟨b, k1, k2, k3⟩ := a4 a _ _ e2'
    exact ⟨a, b, e1, k1, k2, fun d hd => carries_transit e2' k2 k3.transit (carries_transit hg e2 e4 hd)⟩

theorem final_routers (n : Nat) (f : Flow) : final (List.replicate n .router) f = f := by
  unfold final
  rw [List.filterMap_replicate_of_none rfl]
  rfl

/-- C142: behind routers alone the far end sees the gateway, and an answer from there comes back from whom the endpoint
asked. -/
theorem C142_internet (cfg : Cfg) (gw : Gateway) (before between : List Event) (n m : Nat) (t t' : Table)
    (p q : Bytes) (f : Flow) (ttl : U8) (h : Datagram cfg p f) (hl : V4.ttl p = .ok ttl) (hr : n < ttl.toNat)
    (h1 : gw.after cfg [] before = .ok t) (h2 : gw.step cfg t (.fromInside p) = .ok (t', some q)) :
    ∃ port s t'', travel cfg .udp (List.replicate n .router) q = .ok (some s) ∧
      Datagram cfg s ⟨gw.addr, port, f.dst, f.dport⟩ ∧ (∀ d, Says p d → Says s d) ∧
      gw.after cfg t' between = .ok t'' ∧
      ∀ r ttl', Datagram cfg r ⟨f.dst, f.dport, gw.addr, port⟩ → V4.ttl r = .ok ttl' → m < ttl'.toNat →
        ∃ a b, travel cfg .udp (List.replicate m .router) r = .ok (some a) ∧
          gw.step cfg t'' (.fromOutside a) = .ok (t'', some b) ∧
          Datagram cfg b ⟨f.dst, f.dport, f.src, f.sport⟩ ∧ ∀ d, Says r d → Says b d := by
  have hc : ∀ n, routers (List.replicate n .router) = n := by
    intro n
    unfold routers
    rw [List.filter_replicate_of_pos rfl, List.length_replicate]
  obtain ⟨port, s, t'', -, a2, a3, a4, a5, a6⟩ := C142_conversation cfg gw before between (List.replicate n .router)
    (List.replicate m .router) t t' p q f ttl h hl (.inr (by rw [hc]; exact hr)) h1 h2
  rw [final_routers] at a3
  refine ⟨port, s, t'', a2, a3, a4, a5, fun r ttl' hg hl' hr' => ?_⟩
  obtain ⟨a, b, e1, e2, e3, e4⟩ := a6 r _ ttl' hg hl' (.inr (by rw [hc]; exact hr')) (by rw [final_routers])
    (by rw [final_routers])
  rw [final_routers] at e3
  exact ⟨a, b, e1, e2, e3, e4⟩

/-- C142: one gateway behind another. What answers a datagram that went out through both comes back through both. -/
theorem C142_nested (cfg : Cfg) (inner outer : Gateway) (before between before' between' : List Event)
    (t t' o o' : Table) (p q s : Bytes) (f : Flow) (h : Datagram cfg p f) (h1 : inner.after cfg [] before = .ok t)
    (h2 : inner.step cfg t (.fromInside p) = .ok (t', some q)) (h3 : outer.after cfg [] before' = .ok o)
    (h4 : outer.step cfg o (.fromInside q) = .ok (o', some s)) :
    ∃ port t'' o'', Datagram cfg s ⟨outer.addr, port, f.dst, f.dport⟩ ∧ (∀ d, Says p d → Says s d) ∧
      inner.after cfg t' between = .ok t'' ∧ outer.after cfg o' between' = .ok o'' ∧
      ∀ r src sport, Datagram cfg r ⟨src, sport, outer.addr, port⟩ →
        ∃ a b, outer.step cfg o'' (.fromOutside r) = .ok (o'', some a) ∧
          inner.step cfg t'' (.fromOutside a) = .ok (t'', some b) ∧ Datagram cfg b ⟨src, sport, f.src, f.sport⟩ ∧
          ∀ d, Says r d → Says b d := by
  obtain ⟨p1, t'', a1, a2, a3, a4⟩ := C141_return cfg inner before between t t' p q f h h1 h2
  obtain ⟨p2, o'', b1, b2, b3, b4⟩ := C141_return cfg outer before' between' o o' q s _ a1 h3 h4
  refine ⟨p2, t'', o'', b1, fun d hd => carries_transit a1 b1 b2.transit (carries_transit h a1 a2.transit hd), a3, b3,
    fun r src sport hg => ?_⟩
  obtain ⟨a, e1, e2, e3⟩ := b4 r src sport hg
  obtain ⟨b, g1, g2, g3⟩ := a4 a src sport e2
  exact ⟨a, b, e1, g1, g2, fun d hd => carries_transit e2 g2 g3.transit (carries_transit hg e2 e3.transit hd)⟩

/-- C142: what is built with this crate can be sent through the gateway, and what leaves it is the very packet, byte for
byte, that this crate builds if in the end the source address and port are set to those of the gateway. -/
theorem C142_built (cfg : Cfg) (gw : Gateway) (vops : List V4Op) (uops : List UdpOp) (hr : ∀ op ∈ vops, op.InRange)
    (h0 : vops.filterMap V4Op.payload? = []) (h1 : (uops.filterMap UdpOp.payload?).length ≤ 1)
    (hsize : 28 + (last UdpOp.payload? [] uops).length ≤ 65535) :
    ∃ p, ipv4Program cfg Dynamic.new vops (.udp uops) = .ok p ∧
      Datagram cfg p ⟨last V4Op.source? .zero vops, last UdpOp.source? 0 uops, last V4Op.destination? .zero vops,
        last UdpOp.destination? 0 uops⟩ ∧
      ∀ before t t' q, gw.after cfg [] before = .ok t → gw.step cfg t (.fromInside p) = .ok (t', some q) →
        ∃ port n, t'[n]? = some (last V4Op.source? .zero vops, last UdpOp.source? 0 uops) ∧
          port.toNat = gw.base.toNat + n ∧
          ipv4Program cfg Dynamic.new (vops ++ [.source gw.addr]) (.udp (uops ++ [.source port])) = .ok q := by
  obtain ⟨p, e, hfl⟩ := C130_udp_built cfg vops uops hr h0 h1 hsize
  obtain ⟨o2, d, e2, hv, -⟩ := C45_udp_build cfg vops uops hr h0 h1 hsize
  obtain rfl := Outcome.ok.inj (e.symm.trans e2)
  have hd : Datagram cfg p _ := ⟨hfl, hv.protocol⟩
  refine ⟨p, e, hd, fun before t t' q ha hs => ?_⟩
  obtain ⟨t0, a1, a2, -⟩ := after_keeps cfg gw before [] (good_empty gw)
  obtain rfl := Outcome.ok.inj (ha.symm.trans a1)
  obtain ⟨t1, n, q', port, g1, -, -, -, g2, g3, -, g4, g5⟩ | ⟨-, -, g1⟩ := C141_outward cfg gw t a2 p _ hd
  case inr => rw [hs] at g1; cases Outcome.ok.inj g1
  rw [hs] at g1
  cases Outcome.ok.inj g1
  refine ⟨port, n, g2, g3, ?_⟩
  have hr' : ∀ op ∈ vops ++ [V4Op.source gw.addr], op.InRange := by
    intro op h
    rw [List.mem_append, List.mem_singleton] at h
    rcases h with h | rfl
    · exact hr op h
    · simp [V4Op.InRange]
  have h0' : (vops ++ [V4Op.source gw.addr]).filterMap V4Op.payload? = [] := by
    rw [List.filterMap_append, h0]
    rfl
  have hp' : last UdpOp.payload? [] (uops ++ [.source port]) = last UdpOp.payload? [] uops := by
    rw [last_append]
    rfl
  have h1' : ((uops ++ [UdpOp.source port]).filterMap UdpOp.payload?).length ≤ 1 := by
    rw [List.filterMap_append]
    show (_ ++ []).length ≤ 1
    rw [List.append_nil]
    exact h1
  have hsize' : 28 + (last UdpOp.payload? [] (uops ++ [.source port])).length ≤ 65535 := by rw [hp']; exact hsize
  obtain ⟨out', e', hfl'⟩ := C130_udp_built cfg _ _ hr' h0' h1' hsize'
  obtain ⟨o2', d', e2', hv2, -⟩ := C45_udp_build cfg _ _ hr' h0' h1' hsize'
  obtain rfl := Outcome.ok.inj (e'.symm.trans e2')
  obtain ⟨h5, -⟩ := reads_behind hv
  obtain ⟨ck, uck, b⟩ := udp_form cfg vops uops hr h0 h1 hsize
  obtain ⟨ck', uck', b'⟩ := udp_form cfg _ _ hr' h0' h1' hsize'
  have hv' : V4Op.asked (vops ++ [.source gw.addr]) 17 = { V4Op.asked vops 17 with
      ttl := (V4Op.asked vops 17).ttl, src := gw.addr.octets, dst := (last V4Op.destination? .zero vops).octets } := by
    unfold V4Op.asked
    simp only [List.foldl_append, last_append]
    rfl
  have hs' : last UdpOp.source? 0 (uops ++ [.source port]) = port := by rw [last_append]; rfl
  have hd' : last UdpOp.destination? 0 (uops ++ [.source port]) = last UdpOp.destination? 0 uops := by
    rw [last_append]; rfl
  rw [e] at b
  rw [e', hv', hs', hd', hp'] at b'
  have b := Outcome.ok.inj b
  have b' := Outcome.ok.inj b'
  have hforms := forms (asked_ok vops 17) _ ck ck' (V4Op.asked vops 17).ttl gw.addr
    (last V4Op.destination? .zero vops) (udp_forms _ _ port (last UdpOp.destination? 0 uops) _ uck uck'
      (last UdpOp.payload? [] uops)) (by rw [← b]; exact h5)
  rw [← b, ← b'] at hforms
  rw [hs', hd', show last V4Op.source? .zero (vops ++ [.source gw.addr]) = gw.addr by rw [last_append]; rfl,
    show last V4Op.destination? .zero (vops ++ [.source gw.addr]) = last V4Op.destination? .zero vops by
      rw [last_append]; rfl] at hfl'
  have httl : last V4Op.ttl? 0 (vops ++ [.source gw.addr]) = last V4Op.ttl? 0 vops := by rw [last_append]; rfl
  have ht' := hv2.ttl
  rw [httl] at ht'
  have htq := (ttl_endpoints hd g5).trans hv.ttl
  rw [e', transit_unique cfg g4.1 hfl' ((g5.transit.symm hfl.header).trans g4.1.header hforms) (ht'.trans htq.symm)]

/-! ## Cases -/

example (cfg : Cfg) : True := by
  obtain ⟨q, h1, h2, hq⟩ := sample_goes_out cfg
  have := C142_conversation cfg sampleGateway [] [.fromOutside [0x45]] [.router, .translator ⟨none, some (⟨9, 9, 9, 9⟩, 1)⟩]
    [.router] _ _ _ _ _ 64 (sample_datagram cfg) (by decide) (by decide) h1 h2
  have := C142_internet cfg sampleGateway [] [.fromOutside [0x45]] 3 5 _ _ _ _ _ 64 (sample_datagram cfg) (by decide)
    (by decide) h1 h2
  trivial

example (cfg : Cfg) : True := by
  obtain ⟨q, h1, h2, hq⟩ := sample_goes_out cfg
  obtain ⟨t', n, s, port, e1, -⟩ | ⟨-, h, -⟩ := C141_outward cfg ⟨⟨203, 0, 113, 1⟩, 1024⟩ [] (good_empty _) _ _ hq
  · have := C142_nested cfg sampleGateway ⟨⟨203, 0, 113, 1⟩, 1024⟩ [] [] [] [] _ _ _ _ _ _ _ _ (sample_datagram cfg) h1 h2
      rfl e1
    trivial
  · exact absurd h (by decide)

example : Says Sample.udpPacket ((Sample.udp.drop 8).take 4) := ⟨Sample.udp, by decide, by decide, by decide⟩
example (cfg : Cfg) := carries_transit (sample_datagram cfg) (sample_datagram cfg) ⟨rfl, fun _ _ _ _ _ _ => rfl⟩
  (datagram_carries (sample_datagram cfg)).choose_spec

example (cfg : Cfg) := C142_built cfg sampleGateway Sample.vops Sample.uops (by call_by_call) (by call_by_call)
    (by call_by_call) (by decide)

end Verif.Props
