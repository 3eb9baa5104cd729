import Verif.Props.Service
import Verif.Props.Network
import Verif.Props.Lan

/-!
# A UDP exchange over Ethernets, routers and address translators (C140)

A client built with this crate asks the service of C138 over any number of routers (C128) and address translators
(C130) on Ethernets (C135).
-/

namespace Verif.Props
open Verif Verif.Spec

/-- A router or address translator on an Ethernet, with its own address and that of the one behind it. -/
def Station.node (cfg : Cfg) (t : Layer4) (a : (HwAddr × HwAddr) × Node) : Station := ⟨a.1.1, a.1.2, a.2.handle cfg t⟩

theorem works_nodes (cfg : Cfg) (t : Layer4) (as : List ((HwAddr × HwAddr) × Node)) : ∀ p,
    works (as.map (Station.node cfg t)) p = travel cfg t (as.map (·.2)) p := by
  induction as with
  | nil => intro p; rfl
  | cons a as ih =>
    intro p
    rw [List.map_cons, works, List.map_cons, travel]
    show a.2.handle cfg t p >>= _ = _
    congr 1
    funext r
    cases r with
    | none => rfl
    | some q => exact ih q

theorem last_append {Op α : Type} (f : Op → Option α) (d : α) (xs ys : List Op) :
    last f d (xs ++ ys) = last f (last f d xs) ys := by
  unfold last
  rw [List.filterMap_append, List.getLast?_append]
  cases (ys.filterMap f).getLast? with
  | none => rfl
  | some a => rfl

/-- A frame around UDP built with this crate, on its way: what arrives is a frame built with this crate, with the
addresses of the last hop, the time to live left, and the endpoints set last. -/
theorem C140_carried (cfg : Cfg) (eops : List EtherOp) (vops : List V4Op) (uops : List UdpOp)
    (he : eops.filterMap EtherOp.payload? = []) (hr : ∀ op ∈ vops, op.InRange)
    (h0 : vops.filterMap V4Op.payload? = []) (h1 : (uops.filterMap UdpOp.payload?).length ≤ 1)
    (hsize : 28 + (last UdpOp.payload? [] uops).length ≤ 65535) (way : List ((HwAddr × HwAddr) × Node))
    (a : HwAddr × HwAddr) (ha : a = (last EtherOp.destination? .zero eops, last EtherOp.source? .zero eops))
    (hl : Linked a.1 (way.map (Station.node cfg .udp)))
    (ht : routers (way.map (·.2)) < (last V4Op.ttl? 0 vops).toNat) (f : Flow)
    (hf : f = final (way.map (·.2)) ⟨last V4Op.source? .zero vops, last UdpOp.source? 0 uops,
      last V4Op.destination? .zero vops, last UdpOp.destination? 0 uops⟩) :
    ∃ frame arrived, ethernetProgram cfg Dynamic.new eops vops (.udp uops) = .ok frame ∧
      walk (way.map (Station.node cfg .udp)) frame = .ok (some arrived) ∧
      ethernetProgram cfg Dynamic.new
        [.destination (lastHop a (way.map (Station.node cfg .udp))).1, .source (lastHop a (way.map (Station.node cfg .udp))).2]
        (vops ++ [.ttl (BitVec.ofNat 8 ((last V4Op.ttl? 0 vops).toNat - routers (way.map (·.2)))), .source f.src,
          .destination f.dst])
        (.udp (uops ++ [.source f.sport, .destination f.dport])) = .ok arrived := by
  have hr' : ∀ op ∈ vops ++ [V4Op.ttl (BitVec.ofNat 8 ((last V4Op.ttl? 0 vops).toNat - routers (way.map (·.2)))),
      .source f.src, .destination f.dst], op.InRange := by
    intro op h
    rw [List.mem_append] at h
    rcases h with h | h
    · exact hr op h
    · simp only [List.mem_cons, List.not_mem_nil, or_false] at h
      rcases h with rfl | rfl | rfl <;> simp [V4Op.InRange]
  have h0' : (vops ++ [V4Op.ttl (BitVec.ofNat 8 ((last V4Op.ttl? 0 vops).toNat - routers (way.map (·.2)))),
      .source f.src, .destination f.dst]).filterMap V4Op.payload? = [] := by
    rw [List.filterMap_append, h0]
    rfl
  have hp' : last UdpOp.payload? [] (uops ++ [.source f.sport, .destination f.dport]) = last UdpOp.payload? [] uops := by
    rw [last_append]
    rfl
  have h1' : ((uops ++ [UdpOp.source f.sport, .destination f.dport]).filterMap UdpOp.payload?).length ≤ 1 := by
    rw [List.filterMap_append]
    show (_ ++ []).length ≤ 1
    rw [List.append_nil]
    exact h1
  obtain ⟨out, q, e1, e2, e3⟩ := C132_udp_as_built cfg vops _ uops _ hr hr' h0 h0' h1 h1' hsize (way.map (·.2)) ht f hf
    (by unfold V4Op.asked
        simp only [List.foldl_append, last_append]
        rfl)
    (by rw [last_append]; rfl) (by rw [last_append]; rfl) hp'
  have hi : (Inner.udp uops).Sane cfg := single_sane (fun v hv => hv) h1 (by omega)
  have hi' : (Inner.udp (uops ++ [.source f.sport, .destination f.dport])).Sane cfg :=
    single_sane (fun v hv => hv) h1' (by rw [hp']; omega)
  subst ha
  refine ⟨_, _, C102_frame_bytes cfg eops vops (.udp uops) out he h0 hi e1, ?_,
    C102_frame_bytes cfg _ _ (.udp _) q rfl h0' hi' e3⟩
  have hw := C135_walk (way.map (Station.node cfg .udp)) _ out hl
  rw [works_nodes, e2, Outcome.ok_bind] at hw
  exact hw

/-- C140 with C138: the client's request arrives at the service, over the nodes `there`, and what it answers arrives at
the client, over the nodes `back`: a UDP datagram, sound at both layers, with the answer. -/
theorem C140_exchange (cfg : Cfg) (sv : Service) (eops : List EtherOp) (vops : List V4Op) (uops : List UdpOp)
    (he : eops.filterMap EtherOp.payload? = []) (hr : ∀ op ∈ vops, op.InRange)
    (h0 : vops.filterMap V4Op.payload? = []) (h1 : (uops.filterMap UdpOp.payload?).length ≤ 1)
    (hsize : 28 + (last UdpOp.payload? [] uops).length ≤ 65535) (there back : List ((HwAddr × HwAddr) × Node))
    (a b c : HwAddr × HwAddr) (ha : a = (last EtherOp.destination? .zero eops, last EtherOp.source? .zero eops))
    (hl : Linked a.1 (there.map (Station.node cfg .udp)))
    (hb : b = lastHop a (there.map (Station.node cfg .udp))) (hm : b.1 = sv.mac)
    (hlb : Linked b.2 (back.map (Station.node cfg .udp)))
    (hc : c = lastHop (b.2, sv.mac) (back.map (Station.node cfg .udp)))
    (ht : routers (there.map (·.2)) < (last V4Op.ttl? 0 vops).toNat) (htb : routers (back.map (·.2)) < 64)
    (f : Flow) (hf : f = final (there.map (·.2)) ⟨last V4Op.source? .zero vops, last UdpOp.source? 0 uops,
      last V4Op.destination? .zero vops, last UdpOp.destination? 0 uops⟩)
    (hfd : f.dst = sv.addr) (hfp : f.dport = sv.port)
    (g : Flow) (hg : g = final (back.map (·.2)) ⟨sv.addr, sv.port, f.src, f.sport⟩)
    (r : Bytes) (hans : sv.answer (last UdpOp.payload? [] uops) = some r) (hlen : r.length ≤ 65507) :
    ∃ frame arrived out home, ethernetProgram cfg Dynamic.new eops vops (.udp uops) = .ok frame ∧
      walk (there.map (Station.node cfg .udp)) frame = .ok (some arrived) ∧
      sv.serve cfg arrived = .ok (some out) ∧
      walk (back.map (Station.node cfg .udp)) out = .ok (some home) ∧
      dissect cfg home = .ok (.frame c.1.octets c.2.octets 0x0800
        (.ip ⟨g.src.octets, g.dst.octets, 0, 0, 0, 0, 64 - routers (back.map (·.2)), 17, true⟩
          (.udp g.sport.toNat g.dport.toNat (8 + r.length) true r))) := by
  obtain ⟨frame, arrived, e1, e2, e3⟩ := C140_carried cfg eops vops uops he hr h0 h1 hsize there a ha hl ht f hf
  have hr' : ∀ op ∈ vops ++ [V4Op.ttl (BitVec.ofNat 8 ((last V4Op.ttl? 0 vops).toNat - routers (there.map (·.2)))),
      .source f.src, .destination f.dst], op.InRange := by
    intro op h
    rw [List.mem_append] at h
    rcases h with h | h
    · exact hr op h
    · simp only [List.mem_cons, List.not_mem_nil, or_false] at h
      rcases h with rfl | rfl | rfl <;> simp [V4Op.InRange]
  have hp' : last UdpOp.payload? [] (uops ++ [.source f.sport, .destination f.dport]) = last UdpOp.payload? [] uops := by
    rw [last_append]
    rfl
  obtain ⟨frame', k1, k2⟩ := serve_built cfg sv b.2 f.src f.sport
    [.destination (lastHop a (there.map (Station.node cfg .udp))).1,
      .source (lastHop a (there.map (Station.node cfg .udp))).2]
    (vops ++ [.ttl (BitVec.ofNat 8 ((last V4Op.ttl? 0 vops).toNat - routers (there.map (·.2)))), .source f.src,
      .destination f.dst])
    (uops ++ [.source f.sport, .destination f.dport]) rfl hr'
    (by rw [List.filterMap_append, h0]; rfl)
    (by rw [List.filterMap_append]
        show (_ ++ []).length ≤ 1
        rw [List.append_nil]
        exact h1)
    (by rw [hp']; exact hsize)
    (by rw [hb]; rfl) (by rw [← hm, hb]; rfl) (by rw [last_append]; rfl) (by rw [last_append, ← hfd]; rfl)
    (by rw [last_append]; rfl) (by rw [last_append, ← hfp]; rfl)
  rw [e3] at k1
  cases Outcome.ok.inj k1
  rw [hp'] at k2
  obtain ⟨out, home, m1, m2, m3⟩ := C140_carried cfg [.destination b.2, .source sv.mac]
    [.ttl 64, .source sv.addr, .destination f.src] [.source sv.port, .destination f.sport, .payload r] rfl
    (by intro op h; simp only [List.mem_cons, List.not_mem_nil, or_false] at h
        rcases h with rfl | rfl | rfl <;> simp [V4Op.InRange]) rfl (Nat.le_refl 1)
    (show 28 + r.length ≤ 65535 by omega) back (b.2, sv.mac) rfl hlb htb g hg
  refine ⟨frame, arrived, out, home, e1, e2, ?_, m2, ?_⟩
  · rw [k2]
    unfold Service.respond
    rw [hans]
    show (do let out ← sv.reply cfg b.2 f.src f.sport r; .ok (some out)) = _
    unfold Service.reply
    rw [m1, Outcome.ok_bind]
  · obtain ⟨home', n1, n2⟩ := C137_built_udp cfg
      [.destination (lastHop (b.2, sv.mac) (back.map (Station.node cfg .udp))).1,
        .source (lastHop (b.2, sv.mac) (back.map (Station.node cfg .udp))).2]
      (([.ttl 64, .source sv.addr, .destination f.src] : List V4Op) ++ [V4Op.ttl (BitVec.ofNat 8 (64 - routers (back.map (·.2)))),
        V4Op.source g.src, V4Op.destination g.dst])
      (([.source sv.port, .destination f.sport, .payload r] : List UdpOp) ++ [UdpOp.source g.sport, UdpOp.destination g.dport]) rfl
      (by intro op h; simp only [List.mem_append, List.mem_cons, List.not_mem_nil, or_false] at h
          rcases h with (rfl | rfl | rfl) | rfl | rfl | rfl <;> simp [V4Op.InRange]) rfl (Nat.le_refl 1)
      (show 28 + r.length ≤ 65535 by omega)
    have n1 := m3.symm.trans n1
    cases Outcome.ok.inj n1
    rw [hc]
    refine n2.trans ?_
    have h64 : (BitVec.ofNat 8 (64 - routers (back.map (·.2)))).toNat = 64 - routers (back.map (·.2)) := by
      rw [BitVec.toNat_ofNat]
      omega
    show Outcome.ok (Reading.frame _ _ 0x0800 (.ip ⟨g.src.octets, g.dst.octets, 0, 0, 0, 0,
      (BitVec.ofNat 8 (64 - routers (back.map (·.2)))).toNat, 17, true⟩ _)) = _
    rw [h64]
    rfl

/-- What the hardware addresses along a way must be: frames for `first` reach the first node, which sends to the
second, and so on. -/
def Hops : HwAddr → List (HwAddr × HwAddr) → Prop
  | _, [] => True
  | first, (own, next) :: hs => own = first ∧ Hops next hs

/-- C140: on any way the nodes are linked exactly if the addresses are; the last frame goes from the last node to the
one it knows as its next; and between frames the node does what a router or translator does. -/
theorem C140_hops (cfg : Cfg) (t : Layer4) (way : List ((HwAddr × HwAddr) × Node)) : ∀ first a,
    (Linked first (way.map (Station.node cfg t)) ↔ Hops first (way.map (·.1))) ∧
    lastHop a (way.map (Station.node cfg t)) = ((way.getLast?.map fun w => (w.1.2, w.1.1)).getD a) ∧
    ∀ p, works (way.map (Station.node cfg t)) p = travel cfg t (way.map (·.2)) p := by
  suffices h : ∀ first a, (Linked first (way.map (Station.node cfg t)) ↔ Hops first (way.map (·.1))) ∧
      lastHop a (way.map (Station.node cfg t)) = ((way.getLast?.map fun w => (w.1.2, w.1.1)).getD a) from
    fun first a => ⟨(h first a).1, (h first a).2, works_nodes cfg t way⟩
  induction way with
  | nil => intro first a; exact ⟨Iff.rfl, rfl⟩
  | cons w ws ih =>
    intro first a
    obtain ⟨i1, i2⟩ := ih w.1.2 (w.1.2, w.1.1)
    refine ⟨and_congr Iff.rfl i1, ?_⟩
    show lastHop (w.1.2, w.1.1) (ws.map (Station.node cfg t)) = _
    rw [i2, List.getLast?_cons]
    cases ws.getLast? <;> rfl

/-! ## Concrete cases -/

/-- A router, and an address translator in front of the service: 10.0.0.1:53 is seen as 192.0.2.7:61000. -/
def sampleThere : List ((HwAddr × HwAddr) × Node) :=
  [((⟨2, 0, 0, 0, 0, 2⟩, ⟨2, 0, 0, 0, 0, 7⟩), .router),
    ((⟨2, 0, 0, 0, 0, 7⟩, ⟨2, 0, 0, 0, 0, 9⟩), .translator ⟨some (⟨192, 0, 2, 7⟩, 61000), none⟩)]

/-- The way back: the translator, then a router. -/
def sampleBack : List ((HwAddr × HwAddr) × Node) :=
  [((⟨2, 0, 0, 0, 0, 7⟩, ⟨2, 0, 0, 0, 0, 2⟩), .translator ⟨none, some (⟨10, 0, 0, 1⟩, 53)⟩),
    ((⟨2, 0, 0, 0, 0, 2⟩, ⟨2, 0, 0, 0, 0, 1⟩), .router)]

/-- The service behind the translator. -/
def farService : Service := { sampleService with mac := ⟨2, 0, 0, 0, 0, 9⟩ }

example (cfg : Cfg) := C140_carried cfg Sample.eops Sample.vops Sample.uops (by call_by_call) (by call_by_call)
  (by call_by_call) (by call_by_call) (by call_by_call) sampleThere _ rfl ⟨rfl, rfl, trivial⟩ (by decide) _ rfl

/-- The answer arrives from the service, at the client. -/
example (cfg : Cfg) : ∃ frame arrived out home,
    ethernetProgram cfg Dynamic.new Sample.eops Sample.vops (.udp Sample.uops) = .ok frame ∧
      walk (sampleThere.map (Station.node cfg .udp)) frame = .ok (some arrived) ∧
      farService.serve cfg arrived = .ok (some out) ∧
      walk (sampleBack.map (Station.node cfg .udp)) out = .ok (some home) ∧
      dissect cfg home = .ok (.frame [2, 0, 0, 0, 0, 1] [2, 0, 0, 0, 0, 2] 0x0800
        (.ip ⟨[10, 0, 0, 2], [10, 0, 0, 1], 0, 0, 0, 0, 63, 17, true⟩ (.udp 4000 53 12 true [4, 3, 2, 1]))) :=
  C140_exchange cfg farService Sample.eops Sample.vops Sample.uops (by call_by_call) (by call_by_call)
    (by call_by_call) (by call_by_call) (by call_by_call) sampleThere sampleBack _ _ _ rfl ⟨rfl, rfl, trivial⟩ rfl rfl
    ⟨rfl, rfl, trivial⟩ rfl (by decide) (by decide) _ rfl rfl rfl _ rfl [4, 3, 2, 1] rfl (by decide)

end Verif.Props
