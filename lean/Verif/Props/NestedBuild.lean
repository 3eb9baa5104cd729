import Verif.Lemmas.NestedBuild
import Verif.Props.AnyBuffer
import Verif.Props.BuildersTransport
import Verif.Props.BuildersSlice
import Verif.Samples

/-!
# C109: builders behind layers the program wrote itself

`Builder::with(buffer)` takes a buffer that may already hold layers, for instance a tunnel header or an IPv4 header with
options the crate cannot build.
-/

namespace Verif.Props
open Verif Verif.Spec Verif.NestedBuild

theorem dyn_rep {cfg : Cfg} {before : List BufOp} {b : Dynamic} (hf : BufOp.Fits (cfg.isizeMax) before .empty)
    (hb : history cfg before Dynamic.new = (.ok (), b)) :
    LawfulBuffer.Rep cfg cfg.isizeMax b (BufOp.after before .empty).pre (BufOp.after before .empty).top := by
  obtain ⟨b', e1, hr⟩ := dyn_history cfg before _ .empty DynRep.new hf
  rw [hb] at e1
  obtain rfl : b = b' := congrArg Prod.snd e1
  exact ⟨rfl, hr⟩

/-- C109: a program that writes its own network layer builds behind the layers already in the buffer exactly the packet
it builds on an empty buffer, or ends in the same error or panic. -/
theorem C109_behind (cfg : Cfg) (before : List BufOp) (b : Dynamic) (hf : BufOp.Fits (cfg.isizeMax) before .empty)
    (hb : history cfg before Dynamic.new = (.ok (), b)) (hl : (BufOp.after before .empty).all.length ≤ cfg.usizeMod / 8)
    (p : Program) (hs : p.Sane cfg) (hp : p.SelfContained) :
    p.run cfg b = (p.run cfg Dynamic.new >>= fun packet => .ok ((BufOp.after before .empty).all ++ packet)) := by
  have hr := dyn_rep hf hb
  generalize BufOp.after before .empty = l at *
  have hl : l.pre.length + l.top.length ≤ cfg.usizeMod / 8 := by
    have e : l.all = l.pre ++ l.top := rfl
    rwa [e, List.length_append] at hl
  have hall : l.all = l.pre ++ l.top := rfl
  rw [hall]
  have hi : cfg.usizeMod / 8 + 1000 ≤ cfg.isizeMax := by have := cfg.width; omega
  have nil : ∀ o : Outcome Bytes, (o >>= fun out => .ok (([] : Bytes) ++ [] ++ out)) = o := by
    intro o; cases o <;> rfl
  cases p with
  | udp ops => exact hp.elim
  | tcp ops => exact hp.elim
  | ether ops =>
    show etherProgram cfg b ops = (etherProgram cfg Dynamic.new ops >>= _)
    rw [etherProgram_eq cfg hr ops (fine_of (by omega)) (ether_room (by omega) hs),
      etherProgram_eq cfg Dynamic.rep_new ops (fine_of (by simp)) (ether_room (by simp) hs), nil,
      need_ok (by omega), need_ok (by simp only [List.length_nil]; omega)]
  | ipv4 vops inner =>
    show ipv4Program cfg b vops inner = (ipv4Program cfg Dynamic.new vops inner >>= _)
    rw [ipv4Program_eq cfg hr vops inner (fine_of (by omega)) (v4_room (by omega) hs.1) (inner_room (by omega) hs.2),
      ipv4Program_eq cfg Dynamic.rep_new vops inner (fine_of (by simp)) (v4_room (by simp) hs.1)
        (inner_room (by simp) hs.2), nil,
      ipv4_abs_congr cfg (cap' := cfg.isizeMax) (n' := ([] : Bytes).length + ([] : Bytes).length) (by omega)
        (by simp only [List.length_nil]; omega)]
  | ethernet eops vops inner =>
    show ethernetProgram cfg b eops vops inner = (ethernetProgram cfg Dynamic.new eops vops inner >>= _)
    rw [ethernetProgram_eq cfg hr eops vops inner (fine_of (by omega)) (fine_of (by omega)) (ether_room (by omega) hs.1)
        (v4_room (by omega) hs.2.1) (inner_room (by omega) hs.2.2),
      ethernetProgram_eq cfg Dynamic.rep_new eops vops inner (fine_of (by simp)) (fine_of (by simp))
        (ether_room (by simp) hs.1) (v4_room (by simp) hs.2.1) (inner_room (by simp) hs.2.2), nil,
      ethernet_abs_congr cfg (cap' := cfg.isizeMax) (n' := ([] : Bytes).length + ([] : Bytes).length) (by omega)
        (by simp only [List.length_nil]; omega)]
  | icmp inner =>
    show icmpProgram cfg b inner = (icmpProgram cfg Dynamic.new inner >>= _)
    rw [icmpProgram_eq cfg hr inner (icmp_room (by omega) hs),
      icmpProgram_eq cfg Dynamic.rep_new inner (icmp_room (by simp) hs), nil,
      icmp_abs_congr cfg (cap' := cfg.isizeMax) (n' := ([] : Bytes).length + ([] : Bytes).length) (by omega)
        (by simp only [List.length_nil]; omega)]

/-- A concrete case that meets the hypotheses. -/
example (cfg : Cfg) := C109_behind cfg [.next 4] _ ⟨by in_every_build, by show _ ≤ _; in_every_build⟩
    (Prod.ext (by in_every_build) rfl) (by in_every_build) (.ipv4 Sample.vops (.udp Sample.uops))
    (by simp [Program.Sane]; call_by_call) (by simp [Program.SelfContained])

theorem ether_sane_of_none {cfg : Cfg} {ops : List EtherOp} (h : ops.filterMap EtherOp.payload? = []) :
    ∀ op ∈ ops, op.Sane cfg := by
  intro op hop v hv
  have : v ∈ ops.filterMap EtherOp.payload? := List.mem_filterMap.2 ⟨_, hop, hv⟩
  rw [h] at this
  cases this

theorem agrees_behind {n cap : Nat} {p q : Outcome Bytes} (l : Bytes) (hl : l.length = n) (h : Agrees n cap p q) :
    SameOnSlice cap (p >>= fun packet => .ok (l ++ packet)) (q >>= fun packet => .ok (l ++ packet)) := by
  unfold Agrees at h
  cases p with
  | ok out =>
    simp only at h
    subst h
    show _ = if (l ++ out).length ≤ cap then Outcome.ok (l ++ out) else .err .smallBuffer
    rw [List.length_append, hl]
    split <;> rfl
  | err e => rcases h with h | h <;> rw [h] <;> first | exact .inl rfl | exact .inr rfl
  | panic => rcases h with h | h <;> rw [h] <;> first | exact .inl rfl | exact .inr rfl

/-- C109 on `buffer::Slice`, for a program without payloads: behind the layers already in the storage it gives the packet
it gives on an empty `Dynamic` if the storage has room for both and `SmallBuffer` otherwise, and ends in the same error or
panic, or in `SmallBuffer` before. -/
theorem C109_static (cfg : Cfg) (storage : Bytes) (hs : storage.length ≤ cfg.isizeMax) (before : List BufOp)
    (hm : BufOp.MoreOnEmpty before .empty) (hf : BufOp.Fits storage.length before .empty) (b : Slice)
    (hb : history cfg before (Slice.new storage) = (.ok (), b)) (p : Program) (hn : p.payloads = [])
    (hp : p.SelfContained) :
    SameOnSlice storage.length
      (p.run cfg Dynamic.new >>= fun packet => .ok ((BufOp.after before .empty).all ++ packet)) (p.run cfg b) := by
  obtain ⟨b', e, ⟨tail, hr⟩, hlen⟩ := slice_history cfg storage before _ .empty ⟨_, SliceRep.new hs⟩ rfl hm hf
  rw [hb] at e
  obtain rfl : b = b' := congrArg Prod.snd e
  have hr : LawfulBuffer.Rep cfg storage.length b (BufOp.after before .empty).pre (BufOp.after before .empty).top :=
    ⟨hlen.symm, tail, hr⟩
  have hall : ((BufOp.after before .empty).pre ++ (BufOp.after before .empty).top).length =
    (BufOp.after before .empty).pre.length + (BufOp.after before .empty).top.length := List.length_append
  show SameOnSlice _ (_ >>= fun packet => .ok ((BufOp.after before .empty).pre ++ (BufOp.after before .empty).top ++ packet)) _
  generalize BufOp.after before .empty = l at *
  cases p with
  | udp ops => exact hp.elim
  | tcp ops => exact hp.elim
  | ether ops =>
    have hn : ops.filterMap EtherOp.payload? = [] := hn
    show SameOnSlice _ (etherProgram cfg Dynamic.new ops >>= _) (etherProgram cfg b ops)
    rw [etherProgram_eq cfg hr ops (fine_slice _ _) (ether_room_slice hn),
      etherProgram_eq cfg Dynamic.rep_new ops (.inl (by in_every_build))
        (ether_sane_room (by simp) (ether_sane_of_none hn))]
    have hd : need cfg.isizeMax (([] : Bytes).length + ([] : Bytes).length + 14) = .ok () := by in_every_build
    rw [hd, ether_run ops (by rw [hn]; decide), Outcome.ok_bind, Outcome.ok_bind, Outcome.ok_bind, Outcome.ok_bind]
    refine agrees_behind (p := .ok _) _ hall (agrees_base (k := 14) ?_)
    intro out h
    cases h
    rw [List.nil_append, List.nil_append, EtherState.length, no_payload_last _ _ hn]
    rfl
  | ipv4 vops inner =>
    obtain ⟨hv, hi⟩ := List.append_eq_nil_iff.1 (show vops.filterMap V4Op.payload? ++ inner.payloads = [] from hn)
    show SameOnSlice _ (ipv4Program cfg Dynamic.new vops inner >>= _) (ipv4Program cfg b vops inner)
    rw [ipv4Program_dynamic cfg vops inner (v4_sane_of_none hv) (inner_sane_of_none hi),
      ipv4Program_eq cfg hr vops inner (fine_slice _ _) (v4_room_slice hv) (inner_room_slice hi)]
    exact agrees_behind _ hall (ipv4_agrees cfg vops inner hv hi _ _)
  | ethernet eops vops inner =>
    obtain ⟨h, hi⟩ := List.append_eq_nil_iff.1
      (show eops.filterMap EtherOp.payload? ++ vops.filterMap V4Op.payload? ++ inner.payloads = [] from hn)
    obtain ⟨he, hv⟩ := List.append_eq_nil_iff.1 h
    show SameOnSlice _ (ethernetProgram cfg Dynamic.new eops vops inner >>= _) (ethernetProgram cfg b eops vops inner)
    rw [ethernetProgram_dynamic cfg eops vops inner (ether_sane_of_none he) (v4_sane_of_none hv) (inner_sane_of_none hi),
      ethernetProgram_eq cfg hr eops vops inner (fine_slice _ _) (fine_slice _ _) (ether_room_slice he)
        (v4_room_slice hv) (inner_room_slice hi)]
    exact agrees_behind _ hall (ethernet_agrees cfg eops vops inner he hv hi _ _)
  | icmp inner =>
    have hn : (Inner.icmp inner).payloads = [] := hn
    show SameOnSlice _ (icmpProgram cfg Dynamic.new inner >>= _) (icmpProgram cfg b inner)
    rw [icmpProgram_dynamic cfg inner (inner_sane_of_none hn), icmpProgram_eq cfg hr inner (icmp_room_slice hn)]
    exact agrees_behind _ hall (icmp_agrees cfg inner hn _ _)

/-- A concrete case that meets the hypotheses. -/
example (cfg : Cfg) := C109_static cfg (zeros 100) (by in_every_build) [.next 4] ⟨(fun _ h => (by cases h)), trivial⟩
    ⟨by decide, by show _ ≤ _; decide⟩ _ (Prod.ext (by in_every_build) rfl) (.ipv4 Sample.vops (.udp Sample.udpHead))
    (by decide) (by simp [Program.SelfContained])

/-- C109 on every buffer that meets the contract of C107: what is built on an empty `Dynamic` is built behind the layers
already there exactly if both fit. -/
theorem C109_any_buffer (cfg : Cfg) {B : Type} [Buffer B] (start b : B) (cap : Nat) (hcap : cap ≤ cfg.isizeMax)
    (full : Option Error) (h : MeetsContract cfg start cap full) (before : List BufOp)
    (hf : BufOp.Fits cap before .empty) (hb : history cfg before start = (.ok (), b))
    (hl : (BufOp.after before .empty).all.length ≤ cfg.usizeMod / 8) (p : Program) (hs : p.Sane cfg) (hp : p.SelfContained)
    (packet : Bytes) (hk : p.run cfg Dynamic.new = .ok packet) :
    p.run cfg b = if (BufOp.after before .empty).all.length + packet.length ≤ cap
      then .ok ((BufOp.after before .empty).all ++ packet) else failWith full := by
  have hf' : BufOp.Fits (cfg.isizeMax) before .empty := fits_mono hcap hf
  obtain ⟨b2, hb2, _⟩ := (C107_dynamic cfg).layers before hf'
  have e := C109_behind cfg before b2 hf' hb2 hl p hs hp
  rw [hk, Outcome.ok_bind] at e
  have := C107_capacity cfg start b Dynamic.new b2 cap _ full none h (C107_dynamic cfg) hcap before hf hb hb2 p _ e
  rwa [List.length_append] at this

/-- A concrete case that meets the hypotheses. -/
example (cfg : Cfg) (B : Type) := C109_any_buffer cfg (Repaired.mk (Slice.new (zeros 100))) _ 100 (by in_every_build) _
    (C107_repaired_slice cfg (zeros 100) (by in_every_build)) [.next 4] ⟨by decide, by show _ ≤ _; decide⟩
    (Prod.ext (by in_every_build) rfl) (by in_every_build) (.ipv4 Sample.vops (.udp Sample.uops))
    (by simp only [Program.Sane]; exact ⟨by call_by_call, by call_by_call⟩) (by simp [Program.SelfContained]) _
    (Sample.value_of (by in_every_build))

/-! ## UDP and TCP on a header the program wrote -/

theorem addresses_octets {ip : Bytes} (h : 20 ≤ ip.length) {src dst : Ipv4Addr} (hs : V4.source ip = .ok src)
    (hd : V4.destination ip = .ok dst) : (ip.drop 12).take 4 = src.octets ∧ (ip.drop 16).take 4 = dst.octets := by
  rw [V4.source_eq h] at hs
  rw [V4.destination_eq h] at hd
  cases hs
  cases hd
  constructor
  · rw [take4_drop (by omega)]; rfl
  · rw [take4_drop (by omega)]; rfl

theorem udp_sane' {cfg : Cfg} {uops : List UdpOp} (h1 : (uops.filterMap UdpOp.payload?).length ≤ 1)
    (hsize : 8 + (last UdpOp.payload? [] uops).length ≤ 65535) : (Inner.udp uops).Sane cfg := by
  intro v hv
  have hv : v ∈ uops.filterMap UdpOp.payload? := hv
  have : last UdpOp.payload? [] uops = v := by
    unfold last
    match h : uops.filterMap UdpOp.payload? with
    | [] => rw [h] at hv; cases hv
    | [w] => rw [h] at hv; simp at hv; rw [hv]; rfl
    | _ :: _ :: _ => rw [h] at h1; simp at h1
  rw [this] at hsize
  (have := cfg.width; omega)

theorem tcp_sane' {cfg : Cfg} {uops : List TcpOp} (h1 : (uops.filterMap TcpOp.payload?).length ≤ 1)
    (hsize : 20 + (last TcpOp.payload? [] uops).length ≤ 65535) : (Inner.tcp uops).Sane cfg := by
  intro v hv
  have hv : v ∈ uops.filterMap TcpOp.payload? := hv
  have : last TcpOp.payload? [] uops = v := by
    unfold last
    match h : uops.filterMap TcpOp.payload? with
    | [] => rw [h] at hv; cases hv
    | [w] => rw [h] at hv; simp at hv; rw [hv]; rfl
    | _ :: _ :: _ => rw [h] at h1; simp at h1
  rw [this] at hsize
  (have := cfg.width; omega)

theorem udp_behind (cfg : Cfg) (before : List BufOp) (b : Dynamic) (hf : BufOp.Fits (cfg.isizeMax) before .empty)
    (hb : history cfg before Dynamic.new = (.ok (), b)) (hl : (BufOp.after before .empty).all.length ≤ cfg.usizeMod / 8)
    (ops : List UdpOp) (hs : (Inner.udp ops).Sane cfg) :
    udpProgram cfg b ops = ((do
        let u ← runOps UdpOp.abs ops .init
        sealUdp cfg (BufOp.after before .empty).top u) >>= fun out => .ok ((BufOp.after before .empty).all ++ out)) := by
  have hr := dyn_rep hf hb
  generalize BufOp.after before .empty = l at *
  have hall : l.all = l.pre ++ l.top := rfl
  have hl : l.pre.length + l.top.length ≤ cfg.usizeMod / 8 := by rwa [hall, List.length_append] at hl
  have hi : cfg.usizeMod / 8 + 1000 ≤ cfg.isizeMax := by have := cfg.width; omega
  rw [udpProgram_eq cfg hr ops (fine_of (by omega)) (udp_room (by omega) hs), need_ok (by omega), Outcome.ok_bind, hall]

theorem tcp_behind (cfg : Cfg) (before : List BufOp) (b : Dynamic) (hf : BufOp.Fits (cfg.isizeMax) before .empty)
    (hb : history cfg before Dynamic.new = (.ok (), b)) (hl : (BufOp.after before .empty).all.length ≤ cfg.usizeMod / 8)
    (ops : List TcpOp) (hs : (Inner.tcp ops).Sane cfg) :
    tcpProgram cfg b ops = ((do
        let t ← runOps TcpOp.abs ops .init
        sealTcp cfg (BufOp.after before .empty).top t) >>= fun out => .ok ((BufOp.after before .empty).all ++ out)) := by
  have hr := dyn_rep hf hb
  generalize BufOp.after before .empty = l at *
  have hall : l.all = l.pre ++ l.top := rfl
  have hl : l.pre.length + l.top.length ≤ cfg.usizeMod / 8 := by rwa [hall, List.length_append] at hl
  have hi : cfg.usizeMod / 8 + 1000 ≤ cfg.isizeMax := by have := cfg.width; omega
  rw [tcpProgram_eq cfg hr ops (fine_of (by omega)) (tcp_room (by omega) hs), need_ok (by omega), Outcome.ok_bind, hall]

/-- C109, UDP: behind a layer that `ip::v4::Packet::no_payload` accepts, every history of UDP calls with at most one
payload builds the datagram asked for, with a checksum that is right for the addresses in that layer. -/
theorem C109_udp_behind (cfg : Cfg) (before : List BufOp) (b : Dynamic) (hf : BufOp.Fits (cfg.isizeMax) before .empty)
    (hb : history cfg before Dynamic.new = (.ok (), b)) (hl : (BufOp.after before .empty).all.length ≤ cfg.usizeMod / 8)
    (hip : V4.noPayload (BufOp.after before .empty).top = .ok (BufOp.after before .empty).top) {src dst : Ipv4Addr}
    (hsrc : V4.source (BufOp.after before .empty).top = .ok src)
    (hdst : V4.destination (BufOp.after before .empty).top = .ok dst)
    (ops : List UdpOp) (h1 : (ops.filterMap UdpOp.payload?).length ≤ 1)
    (hsize : 8 + (last UdpOp.payload? [] ops).length ≤ 65535) :
    ∃ d, udpProgram cfg b ops = .ok ((BufOp.after before .empty).all ++ d) ∧
      ReadsUdp cfg (BufOp.after before .empty).top src dst ops d := by
  have e := udp_behind cfg before b hf hb hl ops (udp_sane' h1 hsize)
  rw [udp_run ops h1, Outcome.ok_bind] at e
  generalize BufOp.after before .empty = l at *
  have h20 := (V4.noPayload_ok_iff.1 hip).2.long
  unfold sealUdp UdpBuilder.checksumIn at e
  rw [hip] at e
  simp only [] at e
  change _ = ((Udp.checksumOf cfg (.v4 _) (udpHeader _ _
    (BitVec.ofNat 16 (8 + (last UdpOp.payload? [] ops).length)) 0#16 ++ last UdpOp.payload? [] ops) >>=
      fun ck => Outcome.ok (udpHeader _ _ (BitVec.ofNat 16 (8 + (last UdpOp.payload? [] ops).length)) ck ++
        last UdpOp.payload? [] ops)) >>= _) at e
  generalize hpl : last UdpOp.payload? [] ops = payload at *
  generalize hsp : last UdpOp.source? 0 ops = sport at *
  generalize hdp : last UdpOp.destination? 0 ops = dport at *
  have hlen := ofNat16_toNat (n := 8 + payload.length) (by omega)
  generalize BitVec.ofNat 16 (8 + payload.length) = len at *
  have hck := Udp.checksumOf_eq cfg l.top (udpHeader sport dport len 0#16 ++ payload) h20
  generalize ckOf _ = uck at hck
  rw [hck, Outcome.ok_bind, Outcome.ok_bind] at e
  generalize hd : udpHeader sport dport len uck ++ payload = d at e
  have hdl : d.length = 8 + payload.length := by rw [← hd, List.length_append]; rfl
  have hv := udp_view sport dport len uck payload
  rw [hd] at hv
  obtain ⟨u1, u2, u3, u4, u5, u6⟩ := hv
  have hvalid : Udp.isValid cfg (.v4 l.top) d = .ok true := by
    unfold Udp.isValid
    have hc : Udp.checksumOf cfg (.v4 l.top) d = .ok uck := by
      rw [← hd, udp_checksum_skip cfg _ h20]
      exact hck
    rw [hc, Outcome.ok_bind, u4, Outcome.ok_bind]
    simp
  refine ⟨d, e, u5 (by omega), by rw [hpl]; exact hdl, ?_, ?_, ⟨_, u3, by omega⟩, ?_, hvalid, ?_⟩
  · rw [hsp]; exact u1
  · rw [hdp]; exact u2
  · rw [hpl]; exact u6 hlen
  · intro hodd
    have := (C62_udp_is_valid_iff_verifies cfg _ d h20 (by omega) hodd).1 hvalid
    obtain ⟨a1, a2⟩ := addresses_octets h20 hsrc hdst
    rw [a1, a2] at this
    exact this.1

/-- C109, TCP: the same for every history of TCP calls in which no header setter follows `flags()`. -/
theorem C109_tcp_behind (cfg : Cfg) (before : List BufOp) (b : Dynamic) (hf : BufOp.Fits (cfg.isizeMax) before .empty)
    (hb : history cfg before Dynamic.new = (.ok (), b)) (hl : (BufOp.after before .empty).all.length ≤ cfg.usizeMod / 8)
    (hip : V4.noPayload (BufOp.after before .empty).top = .ok (BufOp.after before .empty).top) {src dst : Ipv4Addr}
    (hsrc : V4.source (BufOp.after before .empty).top = .ok src)
    (hdst : V4.destination (BufOp.after before .empty).top = .ok dst)
    (ops : List TcpOp) (h1 : (ops.filterMap TcpOp.payload?).length ≤ 1) (hfl : TcpOp.FlagsLast ops)
    (hsize : 20 + (last TcpOp.payload? [] ops).length ≤ 65535)
    (hodd : (last TcpOp.payload? [] ops).length % 2 = 0 ∨ cfg.eofAdvances = false) :
    ∃ d, tcpProgram cfg b ops = .ok ((BufOp.after before .empty).all ++ d) ∧
      ReadsTcp cfg (BufOp.after before .empty).top src dst ops d := by
  have e := tcp_behind cfg before b hf hb hl ops (tcp_sane' h1 hsize)
  rw [tcp_run ops hfl h1, Outcome.ok_bind] at e
  generalize BufOp.after before .empty = l at *
  have h20 := (V4.noPayload_ok_iff.1 hip).2.long
  have hne : l.top ≠ [] := by intro h; rw [h] at h20; simp at h20
  have hipp : IpPacket.noPayload l.top = .ok (.v4 l.top) := by
    rw [(C20_ip_dispatch l.top hne).2.2.2, if_pos (V4.noPayload_ok_iff.1 hip).2.version, hip]
    rfl
  unfold sealTcp at e
  rw [flagBits_last, hipp, Outcome.ok_bind] at e
  simp only [] at e
  change _ = ((Tcp.checksumOf cfg (.v4 _) (tcpHeader _ _ 0#16 ++ last TcpOp.payload? [] ops) >>=
      fun ck => Outcome.ok (tcpHeader _ _ ck ++ last TcpOp.payload? [] ops)) >>= _) at e
  generalize hpl : last TcpOp.payload? [] ops = payload at *
  generalize hfe : (⟨last TcpOp.source? 0 ops, last TcpOp.destination? 0 ops,
        last TcpOp.sequence? 0 ops, last TcpOp.acknowledgment? 0 ops, last TcpOp.window? 0 ops,
        last TcpOp.pointer? 0 ops⟩ : TcpFields) = tf at e
  generalize hg : last TcpOp.flags? .empty ops = g at *
  have hlen0 : ∀ c, (tcpHeader tf (0x5000#16 ||| g.bits) c ++ payload).length = 20 + payload.length := by
    intro c; rw [List.length_append, tcpHeader_length]
  have hck := Tcp.checksumOf_eq cfg l.top (tcpHeader tf (0x5000#16 ||| g.bits) 0#16 ++ payload) h20
    (by rw [hlen0]; omega)
  rw [if_neg (by
    rw [hlen0]
    rintro ⟨h1, h2⟩
    rcases hodd with h | h
    · omega
    · rw [h] at h2; cases h2)] at hck
  generalize ckOf _ = tck at hck
  rw [hck, Outcome.ok_bind, Outcome.ok_bind] at e
  generalize hd : tcpHeader tf (0x5000#16 ||| g.bits) tck ++ payload = d at e
  have hdl : d.length = 20 + payload.length := by rw [← hd, hlen0]
  have hv := tcp_view tf (0x5000#16 ||| g.bits) tck payload
  have hv2 := tcp_final_view tf g tck payload
  rw [hd] at hv hv2
  obtain ⟨u1, u2, u3, u4, u5, u6, u7, u8⟩ := hv
  obtain ⟨w1, w2, w3, w4, w5⟩ := hv2
  have hvalid : Tcp.isValid cfg (.v4 l.top) d = .ok true := by
    unfold Tcp.isValid
    have hc : Tcp.checksumOf cfg (.v4 l.top) d = .ok tck := by
      rw [← hd, tcp_checksum_skip cfg _ h20 _ _ _ _ (by omega)]
      exact hck
    rw [hc, Outcome.ok_bind, u7, Outcome.ok_bind]
    simp
  refine ⟨d, e, w1, by rw [hpl]; exact hdl, ?_, ?_, ?_, ?_, w2, ?_, ?_, ?_, w5, ?_, hvalid, ?_⟩
  · rw [u1, ← hfe]
  · rw [u2, ← hfe]
  · rw [u3, ← hfe]
  · rw [u4, ← hfe]
  · rw [hg]; exact w3
  · rw [u5, ← hfe]
  · rw [u6, ← hfe]
  · rw [hpl]; exact w4
  · have := (C62_tcp_is_valid_iff_verifies cfg _ d h20 (by omega) (by omega)
      (by rw [hdl]; rcases hodd with h | h
          · left; omega
          · exact .inr h)).1 hvalid
    obtain ⟨a1, a2⟩ := addresses_octets h20 hsrc hdst
    rw [a1, a2] at this
    exact this.1

/-- A concrete case that meets the hypotheses. -/
example (cfg : Cfg) := C109_tcp_behind cfg
    [.next 20, .edit (fun d => (Sample.tcpPacket ++ d).take d.length) (fun d => by simp)] _
    ⟨by in_every_build, by in_every_build, by show _ ≤ _; in_every_build⟩ (Prod.ext (by in_every_build) rfl) (by in_every_build) (by decide)
    (src := ⟨10, 0, 0, 1⟩) (dst := ⟨10, 0, 0, 2⟩) (by decide) (by decide) Sample.tops (by call_by_call)
    (by call_by_call) (by call_by_call) (.inl (by call_by_call))

/-- C109: behind a layer that is no IPv4 header the two builders refuse: `InvalidPacket` when its version is not 6, a
panic when there is no layer or its version is 6. -/
theorem C109_refused_behind (cfg : Cfg) (before : List BufOp) (b : Dynamic) (hf : BufOp.Fits (cfg.isizeMax) before .empty)
    (hb : history cfg before Dynamic.new = (.ok (), b)) (hl : (BufOp.after before .empty).all.length ≤ cfg.usizeMod / 8)
    (hip : field (BufOp.after before .empty).top 0 4 ≠ 4 ∨ (BufOp.after before .empty).top = [])
    (uops : List UdpOp) (hu : (Inner.udp uops).Sane cfg) (hu1 : (uops.filterMap UdpOp.payload?).length ≤ 1)
    (tops : List TcpOp) (ht : (Inner.tcp tops).Sane cfg) (ht1 : (tops.filterMap TcpOp.payload?).length ≤ 1)
    (hfl : TcpOp.FlagsLast tops) :
    let refusal : Outcome Bytes := if (BufOp.after before .empty).top = [] ∨
      field (BufOp.after before .empty).top 0 4 = 6 then .panic else .err .invalidPacket
    udpProgram cfg b uops = refusal ∧ tcpProgram cfg b tops = refusal := by
  intro refusal
  have e1 := udp_behind cfg before b hf hb hl uops hu
  have e2 := tcp_behind cfg before b hf hb hl tops ht
  rw [udp_run uops hu1, Outcome.ok_bind] at e1
  rw [tcp_run tops hfl ht1, Outcome.ok_bind] at e2
  have hrf : refusal = if (BufOp.after before .empty).top = [] ∨
      field (BufOp.after before .empty).top 0 4 = 6 then .panic else .err .invalidPacket := rfl
  generalize refusal = r at *
  generalize BufOp.after before .empty = l at *
  rw [e1, e2]
  unfold sealUdp sealTcp
  generalize (UdpState.mk _ _ (uops.filterMap UdpOp.payload?).getLast?) = u
  generalize (TcpState.mk _ _ (tops.filterMap TcpOp.payload?).getLast?) = t
  generalize udpHeader u.sport u.dport _ 0#16 ++ u.payload.getD [] = du
  generalize tcpHeader t.fields _ 0#16 ++ t.payload.getD [] = dt
  have ku : UdpBuilder.checksumIn cfg l.top du = (if l.top = [] ∨ field l.top 0 4 = 6 then .panic else .err .invalidPacket) := by
    unfold UdpBuilder.checksumIn
    by_cases h0 : l.top = []
    · rw [h0, if_pos (.inl rfl)]
      have a : V4.noPayload [] = .err .smallBuffer := by decide +kernel
      have b : V6.noPayload [] = .panic := by decide +kernel
      rw [a, b]
    · have h4 : field l.top 0 4 ≠ 4 := hip.resolve_right h0
      have a : ∃ e, V4.noPayload l.top = .err e := by
        cases hv : V4.noPayload l.top with
        | ok p =>
          have hp : p = l.top := by
            have := V4.noPayload_eq l.top
            rw [hv] at this
            (repeat' split at this) <;> cases this <;> rfl
          rw [hp] at hv
          exact absurd (V4.noPayload_ok_iff.1 hv).2.version h4
        | err e => exact ⟨e, rfl⟩
        | panic =>
          rw [V4.noPayload_eq] at hv
          (repeat' split at hv) <;> cases hv
      obtain ⟨e, a⟩ := a
      rw [a, (C20_v6_accept l.top h0).2.1]
      by_cases h6 : field l.top 0 4 = 6
      · rw [if_pos h6, if_pos (.inr h6)]
        rfl
      · rw [if_neg h6, if_neg (fun h => h.elim h0 h6)]
  have kt : (IpPacket.noPayload l.top >>= fun p => Tcp.checksumOf cfg p dt) =
      (if l.top = [] ∨ field l.top 0 4 = 6 then .panic else .err .invalidPacket) := by
    by_cases h0 : l.top = []
    · rw [h0, if_pos (.inl rfl)]
      rfl
    · have h4 : field l.top 0 4 ≠ 4 := hip.resolve_right h0
      rw [(C20_ip_dispatch l.top h0).2.2.2, if_neg h4]
      by_cases h6 : field l.top 0 4 = 6
      · rw [if_pos h6, if_pos (.inr h6)]
        rfl
      · rw [if_neg h6, if_neg (fun h => h.elim h0 h6)]
        rfl
  rw [ku, kt, hrf]
  split <;> exact ⟨rfl, rfl⟩

/-- C109 on `buffer::Slice`, UDP and TCP: calls without a payload give behind the layers in the storage what they give
behind the same layers in a `Dynamic`, if the storage has room for it and `SmallBuffer` otherwise. -/
theorem C109_static_transport (cfg : Cfg) (storage : Bytes) (hs : storage.length ≤ cfg.isizeMax) (before : List BufOp)
    (hm : BufOp.MoreOnEmpty before .empty) (hf : BufOp.Fits storage.length before .empty) (b : Slice) (d : Dynamic)
    (hb : history cfg before (Slice.new storage) = (.ok (), b)) (hd : history cfg before Dynamic.new = (.ok (), d))
    (hl : (BufOp.after before .empty).all.length ≤ cfg.usizeMod / 8)
    (uops : List UdpOp) (hu : uops.filterMap UdpOp.payload? = [])
    (tops : List TcpOp) (ht : tops.filterMap TcpOp.payload? = []) :
    SameOnSlice storage.length (udpProgram cfg d uops) (udpProgram cfg b uops) ∧
    SameOnSlice storage.length (tcpProgram cfg d tops) (tcpProgram cfg b tops) := by
  have hf' : BufOp.Fits (cfg.isizeMax) before .empty := fits_mono hs hf
  have e1 := udp_behind cfg before d hf' hd hl uops (inner_sane_of_none hu)
  have e2 := tcp_behind cfg before d hf' hd hl tops (inner_sane_of_none ht)
  obtain ⟨b', e, ⟨tail, hr⟩, hlen⟩ := slice_history cfg storage before _ .empty ⟨_, SliceRep.new hs⟩ rfl hm hf
  rw [hb] at e
  obtain rfl : b = b' := congrArg Prod.snd e
  have hr : LawfulBuffer.Rep cfg storage.length b (BufOp.after before .empty).pre (BufOp.after before .empty).top :=
    ⟨hlen.symm, tail, hr⟩
  generalize BufOp.after before .empty = l at *
  have hall : l.all = l.pre ++ l.top := rfl
  rw [hall] at e1 e2
  have hn : (l.pre ++ l.top).length = l.pre.length + l.top.length := List.length_append
  have hi : ∀ op ∈ uops, op.room Slice storage.length (l.pre.length + l.top.length) := by
    intro op hop
    cases op with
    | payload v => cases List.filterMap_eq_nil_iff.1 hu _ hop
    | _ => trivial
  have hj : ∀ op ∈ tops, op.room Slice storage.length (l.pre.length + l.top.length) := by
    intro op hop
    cases op with
    | payload v => cases List.filterMap_eq_nil_iff.1 ht _ hop
    | _ => trivial
  constructor
  · rw [e1, udpProgram_eq cfg hr uops (fine_slice _ _) hi]
    refine agrees_behind _ hn (agrees_base (k := 8) ?_)
    intro out h
    obtain ⟨u, hu', h⟩ := bind_ok_inv h
    rw [udp_run uops (by rw [hu]; decide)] at hu'
    injection hu' with hu'
    unfold sealUdp at h
    obtain ⟨ck, -, h⟩ := bind_ok_inv h
    have hp : u.payload = none := by rw [← hu', hu]; rfl
    injection h with h
    rw [← h, hp]
    rfl
  · rw [e2, tcpProgram_eq cfg hr tops (fine_slice _ _) hj]
    refine agrees_behind _ hn (agrees_base (k := 20) ?_)
    intro out h
    obtain ⟨t, ht', h⟩ := bind_ok_inv h
    have hp := tcp_keeps tops t ht ht'
    unfold sealTcp at h
    obtain ⟨ck, -, h⟩ := bind_ok_inv h
    injection h with h
    rw [← h, hp, List.length_append, tcpHeader_length]
    rfl

/-- A concrete case that meets the hypotheses. -/
example (cfg : Cfg) := C109_static_transport cfg (zeros 100) (by in_every_build)
    [.next 20, .edit (fun d => (Sample.tcpPacket ++ d).take d.length) (fun d => by simp)]
    ⟨(fun _ h => (by cases h)), (fun _ h => (by cases h)), trivial⟩
    ⟨by decide, by decide, by show _ ≤ _; decide⟩ _ _ (Prod.ext (by in_every_build) rfl)
    (Prod.ext (by in_every_build) rfl) (by in_every_build) Sample.udpHead (by decide) [.source 80, .flags .empty] (by decide)

/-! Non-vacuity: an eight-byte tunnel header, then an IPv4 header with one word of options (the crate cannot build
either), written by the program; the UDP builder behind them. -/

/-- The calls `next(8)`, write, `next(24)`, write. -/
def tunnel : List BufOp :=
  [.next 8, .edit (fun d => ([8, 0, 0, 0, 0, 0, 42, 0] ++ d.drop 8).take d.length) (by intro d; simp; omega), .next 24,
    .edit (fun d => ([0x46, 0, 0, 34, 0, 1, 0x40, 0, 64, 17, 0, 0, 10, 0, 0, 1, 10, 0, 0, 2, 1, 1, 1, 0] ++ d.drop 24).take
      d.length) (by intro d; simp; omega)]

example (cfg : Cfg) : BufOp.Fits (cfg.isizeMax) tunnel .empty ∧ (BufOp.after tunnel .empty).all.length = 32 ∧
    V4.noPayload (BufOp.after tunnel .empty).top = .ok (BufOp.after tunnel .empty).top ∧
    V4.source (BufOp.after tunnel .empty).top = .ok ⟨10, 0, 0, 1⟩ ∧
    V4.destination (BufOp.after tunnel .empty).top = .ok ⟨10, 0, 0, 2⟩ := by
  refine ⟨⟨?_, ?_, ?_, ?_, ?_⟩, ?_, ?_, ?_, ?_⟩ <;> first | decide +kernel | (show List.length _ ≤ _; in_every_build)

example (cfg : Cfg) : ∃ b, history cfg tunnel Dynamic.new = (.ok (), b) ∧
    ∃ d, udpProgram cfg b [.source 53, .payload [1, 2, 3], .destination 54] =
      .ok ((BufOp.after tunnel .empty).all ++ d) ∧ d.length = 11 := by
  have hf : BufOp.Fits (cfg.isizeMax) tunnel .empty := by
    refine ⟨?_, ?_, ?_, ?_, ?_⟩ <;> first | decide +kernel | (show List.length _ ≤ _; in_every_build)
  obtain ⟨b, hb, _⟩ := (C107_dynamic cfg).layers tunnel hf
  refine ⟨b, hb, ?_⟩
  obtain ⟨d, h1, h2⟩ := C109_udp_behind cfg tunnel b hf hb (by in_every_build) (by decide +kernel) (src := ⟨10, 0, 0, 1⟩)
    (dst := ⟨10, 0, 0, 2⟩) (by decide +kernel) (by decide +kernel) [.source 53, .payload [1, 2, 3], .destination 54]
    (by decide) (by decide)
  exact ⟨d, h1, h2.size.trans (by decide)⟩

example (cfg : Cfg) : (Program.ipv4 [.ttl 3] (.udp [.payload [1]])).SelfContained ∧ (Program.ipv4 [.ttl 3] (.udp [.payload [1]])).Sane cfg := by
  refine ⟨trivial, ?_, ?_⟩
  · intro op h
    simp at h
    subst h
    intro v hv
    cases hv
  · intro v hv
    simp [Inner.payloads, UdpOp.payload?] at hv
    subst hv
    in_every_build

end Verif.Props
