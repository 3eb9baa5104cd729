import Verif.Props.Forward
import Verif.Props.Translate
import Verif.Props.Encode

/-!
# Networks of routers and address translators (C132)

A UDP or TCP packet travels through routers (`hop`, C128) and translators (`translate`, C130) in any order.
-/

namespace Verif.Props
open Verif Verif.Spec

/-- What stands on the way. -/
inductive Node where
  | router
  | translator (r : Rewrite)

/-- What the node sends on, if anything. -/
def Node.handle (cfg : Cfg) (t : Layer4) : Node → Bytes → Outcome (Option Bytes)
  | .router, b => hop cfg b
  | .translator r, b =>
    match translate cfg t r b with
    | (.ok (), q) => .ok (some q)
    | (.err e, _) => .err e
    | (.panic, _) => .panic

/-- What arrives at the end of the way, if anything. -/
def travel (cfg : Cfg) (t : Layer4) : List Node → Bytes → Outcome (Option Bytes)
  | [], b => .ok (some b)
  | n :: ns, b => do
    let r ← n.handle cfg t b
    match r with
    | none => .ok none
    | some b' => travel cfg t ns b'

/-- How many routers there are. -/
def routers (ns : List Node) : Nat := (ns.filter fun | .router => true | .translator _ => false).length

/-- What the translators among the nodes make of a flow. -/
def final (ns : List Node) (f : Flow) : Flow :=
  (ns.filterMap fun | .router => none | .translator r => some r).foldl (fun f r => r.apply f) f

/-- `q` is `p` except for the time to live, the addresses, the ports and the two checksums. -/
def OnlyTransit (t : Layer4) (p q : Bytes) : Prop :=
  q.length = p.length ∧ ∀ i, i ≠ 8 → ¬ (10 ≤ i ∧ i < 20) → ¬ (4 * field p 4 4 ≤ i ∧ i < 4 * field p 4 4 + 4) →
    i ≠ 4 * field p 4 4 + t.checksumAt → i ≠ 4 * field p 4 4 + t.checksumAt + 1 → q[i]? = p[i]?

theorem OnlyEndpoints.transit {t : Layer4} {p q : Bytes} (h : OnlyEndpoints t p q) : OnlyTransit t p q :=
  ⟨h.1, fun i _ => h.2 i⟩

theorem OnlyTtl.transit {t : Layer4} {p q : Bytes} (h : OnlyTtl p q) : OnlyTransit t p q :=
  ⟨h.1, fun i h1 h2 _ _ _ => h.2 i (by simp only [List.mem_cons, List.not_mem_nil, or_false]; omega)⟩

theorem OnlyTransit.ihl {t : Layer4} {p q : Bytes} (h5 : 5 ≤ field p 4 4) (h : OnlyTransit t p q) :
    field q 4 4 = field p 4 4 := by
  have e : q[0]? = p[0]? := h.2 0 (by omega) (by omega) (by omega) (by cases t <;> omega) (by cases t <;> omega)
  exact field_congr fun i _ hi => bitAt_congr (by rw [show i / 8 = 0 by omega]; exact e)

theorem OnlyTransit.trans {t : Layer4} {p q r : Bytes} (h5 : 5 ≤ field p 4 4) (h : OnlyTransit t p q)
    (h' : OnlyTransit t q r) : OnlyTransit t p r := by
  have i1 := h.ihl h5
  refine ⟨h'.1.trans h.1, fun i g0 g1 g2 g3 g4 => ?_⟩
  rw [h'.2 i g0 g1 (by rw [i1]; exact g2) (by rw [i1]; exact g3) (by rw [i1]; exact g4), h.2 i g0 g1 g2 g3 g4]

theorem OnlyTransit.symm {t : Layer4} {p q : Bytes} (h5 : 5 ≤ field p 4 4) (h : OnlyTransit t p q) :
    OnlyTransit t q p := by
  have i1 := h.ihl h5
  refine ⟨h.1.symm, fun i g0 g1 g2 g3 g4 => ?_⟩
  rw [i1] at g2 g3 g4
  exact (h.2 i g0 g1 g2 g3 g4).symm

/-- Behind a router a packet is still one of its flow. -/
theorem onFlow_hop {cfg : Cfg} {t : Layer4} {p q : Bytes} {f : Flow} (h : OnFlow cfg t p f) (ho : OnlyTtl p q)
    (hok : V4.isValid cfg q = .ok true) : OnFlow cfg t q f := by
  obtain ⟨r1, r2, r3, r4⟩ := ho.reads h.v4 h.header
  obtain ⟨u, hu, hc⟩ := h.inner
  refine ⟨r1, by rw [ho.header.2.1]; exact h.header, hok, r2.trans h.source, r3.trans h.destination, u, r4.trans hu, ?_⟩
  cases t with
  | udp => exact ⟨hc.1, (udp_valid_same cfg r2 r3).trans hc.2.1, hc.2.2⟩
  | tcp => exact ⟨hc.1, (tcp_valid_same cfg r2 r3).trans hc.2.1, hc.2.2⟩

theorem toNat_pred {t : U8} (h : 1 < t.toNat) : (t - 1).toNat = t.toNat - 1 := by
  rw [BitVec.toNat_sub_of_le (by rw [BitVec.le_def]; show 1 ≤ _; omega)]; rfl

/-! ## C132 -/

/-- C132: no node fails or panics.  With fewer routers on the way than its time to live the packet arrives: it is a
valid packet, at both layers, of the flow the translators made of it, its time to live is counted down once for every
router, and besides time to live, addresses, ports and checksums nothing changed.  With as many routers or more it is
dropped. -/
theorem C132_travel (cfg : Cfg) (t : Layer4) (ns : List Node) : ∀ (p : Bytes) (f : Flow) (ttl : U8),
    OnFlow cfg t p f → V4.ttl p = .ok ttl →
    ((routers ns = 0 ∨ routers ns < ttl.toNat) → ∃ q, travel cfg t ns p = .ok (some q) ∧ OnFlow cfg t q (final ns f) ∧
      V4.ttl q = .ok (BitVec.ofNat 8 (ttl.toNat - routers ns)) ∧ OnlyTransit t p q) ∧
    (0 < routers ns → ttl.toNat ≤ routers ns → travel cfg t ns p = .ok none) := by
  induction ns with
  | nil =>
    intro p f ttl h ht
    refine ⟨fun _ => ⟨p, rfl, h, ?_, rfl, fun _ _ _ _ _ _ => rfl⟩, fun h => absurd h (by decide)⟩
    rw [ht, show routers [] = 0 from rfl, Nat.sub_zero, BitVec.ofNat_toNat, BitVec.setWidth_eq]
  | cons n ns ih =>
    intro p f ttl h ht
    cases n with
    | translator r =>
      obtain ⟨q, e1, e2, e3⟩ := translate_step cfg t h r
      have h8 : V4.ttl q = .ok ttl := by
        have h5 := h.header
        rw [← ht]
        exact idx_alike (e3.2 8 (by omega) (by omega) (by cases t <;> omega) (by cases t <;> omega))
      have hstep : travel cfg t (.translator r :: ns) p = travel cfg t ns q := by
        rw [travel]
        simp only [Node.handle, e1]
        rfl
      have hr : routers (.translator r :: ns) = routers ns := rfl
      obtain ⟨i1, i2⟩ := ih q _ ttl e2 h8
      rw [hstep, hr]
      refine ⟨fun hlt => ?_, i2⟩
      obtain ⟨q', g1, g2, g3, g4⟩ := i1 hlt
      exact ⟨q', g1, g2, g3, e3.transit.trans h.header g4⟩
    | router =>
      have hr : routers (.router :: ns) = routers ns + 1 := rfl
      rw [hr]
      by_cases h1 : 1 < ttl.toNat
      · obtain ⟨q, e, ho, et, eok⟩ := hop_forward cfg h.v4 h.header h.valid ht h1
        have hstep : travel cfg t (.router :: ns) p = travel cfg t ns q := by
          rw [travel]
          simp only [Node.handle, e]
          rfl
        have hp := toNat_pred h1
        obtain ⟨i1, i2⟩ := ih q f (ttl - 1) (onFlow_hop h ho eok) et
        rw [hstep]
        refine ⟨fun hlt => ?_, fun _ hle => i2 (by omega) (by omega)⟩
        obtain ⟨q', g1, g2, g3, g4⟩ := i1 (by omega)
        refine ⟨q', g1, g2, ?_, (ho.transit (t := t)).trans h.header g4⟩
        rw [g3, hp]; congr 2; omega
      · refine ⟨fun hlt => absurd hlt (by omega), fun _ _ => ?_⟩
        rw [travel]
        simp only [Node.handle]
        rw [hop_drop cfg h.v4 h.valid ht (.inr (by omega))]
        rfl

/-- There is only one such packet. -/
theorem transit_unique (cfg : Cfg) {t : Layer4} {q q' : Bytes} {f : Flow} (h : OnFlow cfg t q f) (h' : OnFlow cfg t q' f)
    (hs : OnlyTransit t q q') (ht : V4.ttl q' = V4.ttl q) : q' = q := by
  have h8 : q'[8]? = q[8]? := by
    have l1 := (V4.new_ok_iff.1 h.v4).2.long
    have l2 := (V4.new_ok_iff.1 h'.v4).2.long
    have e : idx q' 8 = idx q 8 := ht
    unfold idx at e
    rw [List.getElem?_eq_getElem (by omega), List.getElem?_eq_getElem (by omega)] at e ⊢
    rw [Outcome.ok.inj e]
  refine flow_unique cfg h h' ⟨hs.1, fun i k1 k2 k3 k4 => ?_⟩
  by_cases hi : i = 8
  · rw [hi]; exact h8
  · exact hs.2 i hi k1 k2 k3 k4

/-- C132: what arrives does not depend on the order of the nodes or on the places of the routers: two ways with
equally many routers and the same final flow deliver the same bytes, or both nothing. -/
theorem C132_same (cfg : Cfg) (t : Layer4) (ns ns' : List Node) (p : Bytes) (f : Flow) (ttl : U8)
    (h : OnFlow cfg t p f) (ht : V4.ttl p = .ok ttl) (hr : routers ns = routers ns') (hf : final ns f = final ns' f) :
    travel cfg t ns p = travel cfg t ns' p := by
  obtain ⟨a1, a2⟩ := C132_travel cfg t ns p f ttl h ht
  obtain ⟨b1, b2⟩ := C132_travel cfg t ns' p f ttl h ht
  by_cases hlt : routers ns = 0 ∨ routers ns < ttl.toNat
  · obtain ⟨q, e1, e2, e3, e4⟩ := a1 hlt
    obtain ⟨q', g1, g2, g3, g4⟩ := b1 (by omega)
    rw [e1, g1]
    rw [← hf] at g2
    rw [← hr] at g3
    rw [transit_unique cfg e2 g2 ((e4.symm h.header).trans e2.header g4) (g3.trans e3.symm)]
  · rw [a2 (by omega) (by omega), b2 (by omega) (by omega)]

/-- C132: a permutation of a way whose translators keep their order is such a way; in particular all routers may
stand at the beginning. -/
theorem C132_routers_first (cfg : Cfg) (t : Layer4) (ns : List Node) (p : Bytes) (f : Flow) (ttl : U8)
    (h : OnFlow cfg t p f) (ht : V4.ttl p = .ok ttl) :
    travel cfg t ns p = travel cfg t
      ((ns.filter fun | .router => true | .translator _ => false) ++
        ns.filter fun | .router => false | .translator _ => true) p := by
  refine C132_same cfg t _ _ p f ttl h ht ?_ ?_
  · unfold routers
    rw [List.filter_append, List.length_append, List.filter_filter, List.filter_filter]
    have : (ns.filter fun a => (match a with | .router => true | .translator _ => false) &&
        (match a with | .router => false | .translator _ => true)) = [] := by
      rw [List.filter_eq_nil_iff]
      intro a _
      cases a <;> simp
    rw [this, List.length_nil, Nat.add_zero]
    congr 1
    apply List.filter_congr
    intro a _
    cases a <;> rfl
  · unfold final
    rw [List.filterMap_append, List.filterMap_filter, List.filterMap_filter]
    have : (ns.filterMap fun a => if (match a with | .router => true | .translator _ => false) = true then
        (match a with | .router => none | .translator r => some r : Option Rewrite) else none) = [] := by
      rw [List.filterMap_eq_nil_iff]
      intro a _
      cases a <;> rfl
    rw [this, List.nil_append]
    congr 1
    congr 1
    funext a
    cases a <;> rfl

/-! ## What arrives is what the sender could have built -/

/-- Packets that differ in time to live, addresses, header checksum, and in ports and checksum inside. -/
theorem forms {t : Layer4} {f : Ipv4Fields} (hf : Ipv4Fields.ok f) (tot ck ck' : U16) (ttl : U8) (s d : Ipv4Addr)
    {x x' : Bytes} (hx : OnlyPorts t x x') (h5 : field (ipv4Header f tot ck ++ x) 4 4 = 5) :
    OnlyTransit t (ipv4Header f tot ck ++ x)
      (ipv4Header { f with ttl := ttl, src := s.octets, dst := d.octets } tot ck' ++ x') := by
  have hl := hf.length tot ck
  have hl' : (ipv4Header { f with ttl := ttl, src := s.octets, dst := d.octets } tot ck').length = 20 := rfl
  refine ⟨by rw [List.length_append, List.length_append, hl, hl', hx.1], fun i g0 g1 g2 g3 g4 => ?_⟩
  rw [h5] at g2 g3 g4
  by_cases hi : i < 20
  · rw [List.getElem?_append_left (by omega), List.getElem?_append_left (by omega)]
    rcases (show i = 0 ∨ i = 1 ∨ i = 2 ∨ i = 3 ∨ i = 4 ∨ i = 5 ∨ i = 6 ∨ i = 7 ∨ i = 9 by omega) with
      rfl | rfl | rfl | rfl | rfl | rfl | rfl | rfl | rfl <;> rfl
  · rw [List.getElem?_append_right (by omega), List.getElem?_append_right (by omega), hl, hl']
    exact hx.2 _ (by omega) (by omega) (by omega)

theorem udp_forms (sp dp sp' dp' len uck uck' : U16) (pl : Bytes) :
    OnlyPorts .udp (udpHeader sp dp len uck ++ pl) (udpHeader sp' dp' len uck' ++ pl) := by
  refine ⟨by simp only [List.length_append]; rfl, fun i g1 g2 g3 => ?_⟩
  have g2 : i ≠ 6 := g2
  have g3 : i ≠ 7 := g3
  obtain _ | i := i
  · first | rfl | (exfalso; omega)
  obtain _ | i := i
  · first | rfl | (exfalso; omega)
  obtain _ | i := i
  · first | rfl | (exfalso; omega)
  obtain _ | i := i
  · first | rfl | (exfalso; omega)
  obtain _ | i := i
  · first | rfl | (exfalso; omega)
  obtain _ | i := i
  · first | rfl | (exfalso; omega)
  obtain _ | i := i
  · first | rfl | (exfalso; omega)
  obtain _ | i := i
  · first | rfl | (exfalso; omega)
  rfl

theorem tcp_forms (tf : TcpFields) (sp' dp' word tck tck' : U16) (pl : Bytes) :
    OnlyPorts .tcp (tcpHeader tf word tck ++ pl) (tcpHeader { tf with sport := sp', dport := dp' } word tck' ++ pl) := by
  refine ⟨by simp only [List.length_append]; rfl, fun i g1 g2 g3 => ?_⟩
  have g2 : i ≠ 16 := g2
  have g3 : i ≠ 17 := g3
  obtain _ | i := i
  · first | rfl | (exfalso; omega)
  obtain _ | i := i
  · first | rfl | (exfalso; omega)
  obtain _ | i := i
  · first | rfl | (exfalso; omega)
  obtain _ | i := i
  · first | rfl | (exfalso; omega)
  obtain _ | i := i
  · first | rfl | (exfalso; omega)
  obtain _ | i := i
  · first | rfl | (exfalso; omega)
  obtain _ | i := i
  · first | rfl | (exfalso; omega)
  obtain _ | i := i
  · first | rfl | (exfalso; omega)
  obtain _ | i := i
  · first | rfl | (exfalso; omega)
  obtain _ | i := i
  · first | rfl | (exfalso; omega)
  obtain _ | i := i
  · first | rfl | (exfalso; omega)
  obtain _ | i := i
  · first | rfl | (exfalso; omega)
  obtain _ | i := i
  · first | rfl | (exfalso; omega)
  obtain _ | i := i
  · first | rfl | (exfalso; omega)
  obtain _ | i := i
  · first | rfl | (exfalso; omega)
  obtain _ | i := i
  · first | rfl | (exfalso; omega)
  obtain _ | i := i
  · first | rfl | (exfalso; omega)
  obtain _ | i := i
  · first | rfl | (exfalso; omega)
  obtain _ | i := i
  · first | rfl | (exfalso; omega)
  obtain _ | i := i
  · first | rfl | (exfalso; omega)
  rfl

theorem udp_form (cfg : Cfg) (vops : List V4Op) (uops : List UdpOp) (hr : ∀ op ∈ vops, op.InRange)
    (h0 : vops.filterMap V4Op.payload? = []) (h1 : (uops.filterMap UdpOp.payload?).length ≤ 1)
    (hsize : 28 + (last UdpOp.payload? [] uops).length ≤ 65535) :
    ∃ ck uck, ipv4Program cfg Dynamic.new vops (.udp uops) = .ok (ipv4Header (V4Op.asked vops 17)
      (BitVec.ofNat 16 (28 + (last UdpOp.payload? [] uops).length)) ck ++
      (udpHeader (last UdpOp.source? 0 uops) (last UdpOp.destination? 0 uops)
        (BitVec.ofNat 16 (8 + (last UdpOp.payload? [] uops).length)) uck ++ last UdpOp.payload? [] uops)) := by
  obtain ⟨a, r1, r2, r3⟩ := v4_asked_run vops hr h0
  rw [ipv4Program_dynamic cfg _ _ (v4_sane_of_none h0) (by
    intro v hv
    have := payload_bound UdpOp.payload? uops h1 v hv
    rw [this] at hsize
    (have := cfg.width; omega))]
  unfold ipv4Abs
  rw [need_dynamic (by omega), Outcome.ok_bind, r1, Outcome.ok_bind,
    udp_inner_abs cfg uops r2 (fields_with vops 17#8 r3), udp_run uops h1, Outcome.ok_bind]
  unfold UdpState.seal
  simp only []
  change ∃ ck uck, ((Udp.checksumOf cfg (.v4 _) (udpHeader _ _
      (BitVec.ofNat 16 (8 + (last UdpOp.payload? [] uops).length)) 0#16 ++ last UdpOp.payload? [] uops) >>=
        fun ck => Outcome.ok (udpHeader _ _ (BitVec.ofNat 16 (8 + (last UdpOp.payload? [] uops).length)) ck ++
          last UdpOp.payload? [] uops)) >>= _) = _
  have hck := udp_checksum_v4 cfg (asked_ok vops 17#8) 0#16 0#16 [] (udpHeader (last UdpOp.source? 0 uops)
    (last UdpOp.destination? 0 uops) (BitVec.ofNat 16 (8 + (last UdpOp.payload? [] uops).length)) 0#16 ++
      last UdpOp.payload? [] uops)
  rw [List.append_nil] at hck
  generalize ckOf _ = uck at hck
  rw [hck, Outcome.ok_bind, Outcome.ok_bind, sealV4_packet cfg (asked_ok _ _)]
  have hl : ∀ ck, (udpHeader (last UdpOp.source? 0 uops) (last UdpOp.destination? 0 uops)
      (BitVec.ofNat 16 (8 + (last UdpOp.payload? [] uops).length)) ck ++ last UdpOp.payload? [] uops).length =
      8 + (last UdpOp.payload? [] uops).length := fun ck => by rw [List.length_append]; rfl
  unfold ipv4Packet
  rw [hl, ← Nat.add_assoc]
  exact ⟨_, uck, rfl⟩

/-- C132 with C45: a UDP packet built with this crate arrives, behind any way with fewer routers than its time to
live, as the very packet, byte for byte, that the sender would have built with the endpoints of the final flow and the
time to live that is left. -/
theorem C132_udp_as_built (cfg : Cfg) (vops vops' : List V4Op) (uops uops' : List UdpOp)
    (hr : ∀ op ∈ vops, op.InRange) (hr' : ∀ op ∈ vops', op.InRange)
    (h0 : vops.filterMap V4Op.payload? = []) (h0' : vops'.filterMap V4Op.payload? = [])
    (h1 : (uops.filterMap UdpOp.payload?).length ≤ 1) (h1' : (uops'.filterMap UdpOp.payload?).length ≤ 1)
    (hsize : 28 + (last UdpOp.payload? [] uops).length ≤ 65535) (ns : List Node)
    (ht : routers ns < (last V4Op.ttl? 0 vops).toNat) (f : Flow)
    (hf : f = final ns ⟨last V4Op.source? .zero vops, last UdpOp.source? 0 uops,
      last V4Op.destination? .zero vops, last UdpOp.destination? 0 uops⟩)
    (hv' : V4Op.asked vops' 17 = { V4Op.asked vops 17 with
      ttl := BitVec.ofNat 8 ((last V4Op.ttl? 0 vops).toNat - routers ns), src := f.src.octets, dst := f.dst.octets })
    (hs' : last UdpOp.source? 0 uops' = f.sport) (hd' : last UdpOp.destination? 0 uops' = f.dport)
    (hp' : last UdpOp.payload? [] uops' = last UdpOp.payload? [] uops) :
    ∃ out q, ipv4Program cfg Dynamic.new vops (.udp uops) = .ok out ∧ travel cfg .udp ns out = .ok (some q) ∧
      ipv4Program cfg Dynamic.new vops' (.udp uops') = .ok q := by
  obtain ⟨out, e, hfl⟩ := C130_udp_built cfg vops uops hr h0 h1 hsize
  obtain ⟨out', e', hfl'⟩ := C130_udp_built cfg vops' uops' hr' h0' h1' (by rw [hp']; exact hsize)
  obtain ⟨o2, d, e2, hv, -⟩ := C45_udp_build cfg vops uops hr h0 h1 hsize
  obtain rfl := Outcome.ok.inj (e.symm.trans e2)
  obtain ⟨o2', d', e2', hv2, -⟩ := C45_udp_build cfg vops' uops' hr' h0' h1' (by rw [hp']; exact hsize)
  obtain rfl := Outcome.ok.inj (e'.symm.trans e2')
  obtain ⟨q, q1, q2, q3, q4⟩ := (C132_travel cfg .udp ns out _ _ hfl hv.ttl).1 (.inr ht)
  refine ⟨out, q, e, q1, ?_⟩
  obtain ⟨h5, -⟩ := reads_behind hv
  obtain ⟨ck, uck, b⟩ := udp_form cfg vops uops hr h0 h1 hsize
  obtain ⟨ck', uck', b'⟩ := udp_form cfg vops' uops' hr' h0' h1' (by rw [hp']; exact hsize)
  rw [e] at b
  rw [e', hv', hs', hd', hp'] at b'
  have b := Outcome.ok.inj b
  have b' := Outcome.ok.inj b'
  have hforms := forms (asked_ok vops 17) _ ck ck' (BitVec.ofNat 8 ((last V4Op.ttl? 0 vops).toNat - routers ns)) f.src
    f.dst (udp_forms _ _ f.sport f.dport _ uck uck' (last UdpOp.payload? [] uops)) (by rw [← b]; exact h5)
  rw [← b, ← b'] at hforms
  have hsrc : ∀ x : Ipv4Addr, x.octets = f.src.octets → x = f.src := fun x hx => octets_inj (by rw [hx])
  have hdst : ∀ x : Ipv4Addr, x.octets = f.dst.octets → x = f.dst := fun x hx => octets_inj (by rw [hx])
  rw [hsrc _ (congrArg Ipv4Fields.src hv'), hdst _ (congrArg Ipv4Fields.dst hv'), hs', hd'] at hfl'
  have httl : last V4Op.ttl? 0 vops' = _ := congrArg Ipv4Fields.ttl hv'
  have ht' := hv2.ttl
  rw [httl] at ht'
  rw [← hf] at q2
  rw [e', transit_unique cfg q2 hfl' ((q4.symm hfl.header).trans q2.header hforms) (ht'.trans q3.symm)]

theorem tcp_form (cfg : Cfg) (vops : List V4Op) (tops : List TcpOp) (hr : ∀ op ∈ vops, op.InRange)
    (h0 : vops.filterMap V4Op.payload? = []) (h1 : (tops.filterMap TcpOp.payload?).length ≤ 1)
    (hfl : TcpOp.FlagsLast tops) (hsize : 40 + (last TcpOp.payload? [] tops).length ≤ 65535)
    (hodd : (last TcpOp.payload? [] tops).length % 2 = 0 ∨ cfg.eofAdvances = false) :
    ∃ ck tck, ipv4Program cfg Dynamic.new vops (.tcp tops) = .ok (ipv4Header (V4Op.asked vops 6)
      (BitVec.ofNat 16 (40 + (last TcpOp.payload? [] tops).length)) ck ++
      (tcpHeader (TcpOp.asked tops) (0x5000 ||| (last TcpOp.flags? .empty tops).bits) tck ++
        last TcpOp.payload? [] tops)) := by
  rw [C102_tcp_bytes cfg vops tops hr h0 h1 hfl hsize hodd]
  unfold ipv4Packet tcpSegment
  have hl : ∀ ck, (tcpHeader (TcpOp.asked tops) (0x5000 ||| (last TcpOp.flags? .empty tops).bits) ck ++
      last TcpOp.payload? [] tops).length = 20 + (last TcpOp.payload? [] tops).length := fun ck => by
    rw [List.length_append, tcpHeader_length]
  rw [hl, ← Nat.add_assoc]
  exact ⟨_, _, rfl⟩

/-- C132 with C46: the same for TCP. -/
theorem C132_tcp_as_built (cfg : Cfg) (vops vops' : List V4Op) (tops tops' : List TcpOp)
    (hr : ∀ op ∈ vops, op.InRange) (hr' : ∀ op ∈ vops', op.InRange)
    (h0 : vops.filterMap V4Op.payload? = []) (h0' : vops'.filterMap V4Op.payload? = [])
    (h1 : (tops.filterMap TcpOp.payload?).length ≤ 1) (h1' : (tops'.filterMap TcpOp.payload?).length ≤ 1)
    (hl : TcpOp.FlagsLast tops) (hl' : TcpOp.FlagsLast tops')
    (hsize : 40 + (last TcpOp.payload? [] tops).length ≤ 65535)
    (hodd : (last TcpOp.payload? [] tops).length % 2 = 0 ∨ cfg.eofAdvances = false) (ns : List Node)
    (ht : routers ns < (last V4Op.ttl? 0 vops).toNat) (f : Flow)
    (hf : f = final ns ⟨last V4Op.source? .zero vops, last TcpOp.source? 0 tops,
      last V4Op.destination? .zero vops, last TcpOp.destination? 0 tops⟩)
    (hv' : V4Op.asked vops' 6 = { V4Op.asked vops 6 with
      ttl := BitVec.ofNat 8 ((last V4Op.ttl? 0 vops).toNat - routers ns), src := f.src.octets, dst := f.dst.octets })
    (ht' : TcpOp.asked tops' = { TcpOp.asked tops with sport := f.sport, dport := f.dport })
    (hg' : last TcpOp.flags? .empty tops' = last TcpOp.flags? .empty tops)
    (hp' : last TcpOp.payload? [] tops' = last TcpOp.payload? [] tops) :
    ∃ out q, ipv4Program cfg Dynamic.new vops (.tcp tops) = .ok out ∧ travel cfg .tcp ns out = .ok (some q) ∧
      ipv4Program cfg Dynamic.new vops' (.tcp tops') = .ok q := by
  have hsize' : 40 + (last TcpOp.payload? [] tops').length ≤ 65535 := by rw [hp']; exact hsize
  have hodd' : (last TcpOp.payload? [] tops').length % 2 = 0 ∨ cfg.eofAdvances = false := by rw [hp']; exact hodd
  obtain ⟨out, e, hfl⟩ := C130_tcp_built cfg vops tops hr h0 h1 hl hsize hodd
  obtain ⟨out', e', hfl'⟩ := C130_tcp_built cfg vops' tops' hr' h0' h1' hl' hsize' hodd'
  obtain ⟨o2, d, e2, hv, -⟩ := C46_tcp_build cfg vops tops hr h0 h1 hl hsize hodd
  obtain rfl := Outcome.ok.inj (e.symm.trans e2)
  obtain ⟨o2', d', e2', hv2, -⟩ := C46_tcp_build cfg vops' tops' hr' h0' h1' hl' hsize' hodd'
  obtain rfl := Outcome.ok.inj (e'.symm.trans e2')
  obtain ⟨q, q1, q2, q3, q4⟩ := (C132_travel cfg .tcp ns out _ _ hfl hv.ttl).1 (.inr ht)
  refine ⟨out, q, e, q1, ?_⟩
  obtain ⟨h5, -⟩ := reads_behind hv
  obtain ⟨ck, tck, b⟩ := tcp_form cfg vops tops hr h0 h1 hl hsize hodd
  obtain ⟨ck', tck', b'⟩ := tcp_form cfg vops' tops' hr' h0' h1' hl' hsize' hodd'
  rw [e] at b
  rw [e', hv', ht', hg', hp'] at b'
  have b := Outcome.ok.inj b
  have b' := Outcome.ok.inj b'
  have hforms := forms (asked_ok vops 6) _ ck ck' (BitVec.ofNat 8 ((last V4Op.ttl? 0 vops).toNat - routers ns)) f.src
    f.dst (tcp_forms _ f.sport f.dport _ tck tck' (last TcpOp.payload? [] tops)) (by rw [← b]; exact h5)
  rw [← b, ← b'] at hforms
  have hsrc : ∀ x : Ipv4Addr, x.octets = f.src.octets → x = f.src := fun x hx => octets_inj (by rw [hx])
  have hdst : ∀ x : Ipv4Addr, x.octets = f.dst.octets → x = f.dst := fun x hx => octets_inj (by rw [hx])
  have hsp : last TcpOp.source? 0 tops' = f.sport := congrArg TcpFields.sport ht'
  have hdp : last TcpOp.destination? 0 tops' = f.dport := congrArg TcpFields.dport ht'
  rw [hsrc _ (congrArg Ipv4Fields.src hv'), hdst _ (congrArg Ipv4Fields.dst hv'), hsp, hdp] at hfl'
  have httl : last V4Op.ttl? 0 vops' = _ := congrArg Ipv4Fields.ttl hv'
  have ht' := hv2.ttl
  rw [httl] at ht'
  rw [← hf] at q2
  rw [e', transit_unique cfg q2 hfl' ((q4.symm hfl.header).trans q2.header hforms) (ht'.trans q3.symm)]

/-! ## Concrete cases -/

example (cfg : Cfg) := C132_travel cfg .udp [.router, .translator ⟨some (⟨192, 0, 2, 1⟩, 61000), none⟩, .router] _ _ 64
  (sample_udp cfg) (by decide)
example (cfg : Cfg) := C132_travel cfg .tcp [.router, .translator ⟨some (⟨192, 0, 2, 1⟩, 61000), none⟩, .router] _ _ 64
  (sample_tcp cfg) (by decide)
example (cfg : Cfg) := C132_same cfg .udp [.router, .translator ⟨none, some (⟨192, 0, 2, 1⟩, 61000)⟩, .router]
  [.translator ⟨none, some (⟨9, 9, 9, 9⟩, 3)⟩, .translator ⟨none, some (⟨192, 0, 2, 1⟩, 61000)⟩, .router, .router] _ _ 64
  (sample_udp cfg) (by decide) rfl rfl
example (cfg : Cfg) := C132_routers_first cfg .udp [.translator ⟨none, some (⟨192, 0, 2, 1⟩, 61000)⟩, .router] _ _ 64
  (sample_udp cfg) (by decide)
example (cfg : Cfg) := C132_udp_as_built cfg Sample.vops (Sample.vops ++ [.ttl 62, .destination ⟨192, 0, 2, 1⟩]) Sample.uops
    (Sample.uops ++ [.destination 61000]) (by call_by_call) (by call_by_call) (by call_by_call) (by call_by_call)
    (by call_by_call) (by call_by_call) (by decide)
    [.router, .translator ⟨none, some (⟨192, 0, 2, 1⟩, 61000)⟩, .router] (by decide) _ rfl rfl rfl rfl rfl

example (cfg : Cfg) := C132_tcp_as_built cfg Sample.vops (Sample.vops ++ [.ttl 62, .destination ⟨192, 0, 2, 1⟩])
    [.source 80, .destination 4000, .payload [1, 2], .flags .empty] [.source 80, .destination 61000, .payload [1, 2], .flags .empty]
    (by call_by_call) (by call_by_call) (by call_by_call) (by call_by_call)
    (by call_by_call) (by call_by_call) (by call_by_call) (by call_by_call) (by decide) (.inl (by decide))
    [.router, .translator ⟨none, some (⟨192, 0, 2, 1⟩, 61000)⟩, .router] (by decide) _ rfl rfl rfl rfl rfl

end Verif.Props
