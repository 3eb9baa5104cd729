import Verif.Model.Defaults
import Verif.Props.NestedBuild
import Verif.Props.Finalizer
import Verif.Samples

/-!
# C125: `Builder::default()`; C41: moving finalizers about; C20: `ip::Packet::from`
-/

namespace Verif.Props
open Verif Verif.Spec Verif.NestedBuild

/-- C125: `default()` of every builder never panics and is `with(Dynamic::new())`, in every build. -/
theorem C125_default (cfg : Cfg) :
    (∃ s, EtherBuilder.«with» cfg Dynamic.new = .ok s ∧ EtherBuilder.default cfg = .ok s) ∧
    (∃ s, IpBuilder.«with» Dynamic.new = .ok s ∧ IpBuilder.default = .ok s) ∧
    (∃ s, V4Builder.«with» cfg Dynamic.new = .ok s ∧ V4Builder.default cfg = .ok s) ∧
    (∃ s, V6Builder.«with» Dynamic.new = .ok s ∧ V6Builder.default = .ok s) ∧
    (∃ s, UdpBuilder.«with» cfg Dynamic.new = .ok s ∧ UdpBuilder.default cfg = .ok s) ∧
    (∃ s, TcpBuilder.«with» cfg Dynamic.new = .ok s ∧ TcpBuilder.default cfg = .ok s) ∧
    (∃ s, IcmpBuilder.«with» Dynamic.new = .ok s ∧ IcmpBuilder.default = .ok s) ∧
    (∃ s, EchoBuilder.«with» cfg Dynamic.new = .ok s ∧ EchoBuilder.default cfg = .ok s) ∧
    (∃ s, TimestampBuilder.«with» cfg Dynamic.new = .ok s ∧ TimestampBuilder.default cfg = .ok s) ∧
    (∃ s, InformationBuilder.«with» cfg Dynamic.new = .ok s ∧ InformationBuilder.default cfg = .ok s) := by
  obtain ⟨oc, ea, nw⟩ := cfg
  cases oc <;> cases ea <;> cases nw <;>
    exact ⟨⟨_, rfl, rfl⟩, ⟨_, rfl, rfl⟩, ⟨_, rfl, rfl⟩, ⟨_, rfl, rfl⟩, ⟨_, rfl, rfl⟩, ⟨_, rfl, rfl⟩, ⟨_, rfl, rfl⟩,
      ⟨_, rfl, rfl⟩, ⟨_, rfl, rfl⟩, ⟨_, rfl, rfl⟩⟩

/-- C125: so a chain of calls that starts from `default()` is the program that starts from `with(Dynamic::new())`. -/
theorem C125_chains (cfg : Cfg) (eops : List EtherOp) (vops : List V4Op) (inner : Inner) (message : IcmpInner)
    (uops : List UdpOp) (tops : List TcpOp) :
    (EtherBuilder.default cfg >>= fun e => runOps (EtherOp.run cfg) eops e >>= EtherBuilder.build) =
      etherProgram cfg Dynamic.new eops ∧
    (EtherBuilder.default cfg >>= fun e => runOps (EtherOp.run cfg) eops e >>= fun e => EtherBuilder.ip e >>= fun i =>
        IpBuilder.v4 cfg i >>= fun v => runOps (V4Op.run cfg) vops v >>= fun v => inner.build cfg v) =
      ethernetProgram cfg Dynamic.new eops vops inner ∧
    (V4Builder.default cfg >>= fun v => runOps (V4Op.run cfg) vops v >>= fun v => inner.build cfg v) =
      ipv4Program cfg Dynamic.new vops inner ∧
    (IcmpBuilder.default >>= fun i => message.build cfg i) = icmpProgram cfg Dynamic.new message ∧
    (UdpBuilder.default cfg >>= fun u => runOps (UdpOp.run cfg) uops u >>= UdpBuilder.build cfg) =
      udpProgram cfg Dynamic.new uops ∧
    (TcpBuilder.default cfg >>= fun t => runOps (TcpOp.run cfg) tops t >>= TcpBuilder.build cfg) =
      tcpProgram cfg Dynamic.new tops := by
  obtain ⟨⟨e, e1, e2⟩, -, ⟨v, v1, v2⟩, -, ⟨u, u1, u2⟩, ⟨t, t1, t2⟩, ⟨i, i1, i2⟩, -⟩ := C125_default cfg
  unfold etherProgram ethernetProgram ipv4Program icmpProgram udpProgram tcpProgram
  rw [e1, e2, v1, v2, u1, u2, t1, t2, i1, i2]
  exact ⟨rfl, rfl, rfl, rfl, rfl, rfl⟩

theorem udp_twice (ops : List UdpOp) : ∀ a : UdpState,
    1 < (if a.payload.isSome then 1 else 0) + (ops.filterMap UdpOp.payload?).length →
    runOps UdpOp.abs ops a = .err .alreadyDefined := by
  induction ops with
  | nil => intro a h; exfalso; simp at h; split at h <;> omega
  | cons op ops ih =>
    intro a h
    show (op.abs a >>= fun a => runOps UdpOp.abs ops a) = _
    cases op with
    | payload v =>
      by_cases hp : a.payload.isSome
      · simp only [UdpOp.abs, hp, if_true]; rfl
      · have e : UdpOp.abs (.payload v) a = .ok (UdpOp.step (.payload v) a) := by
          simp only [UdpOp.abs]; rw [if_neg hp]
        rw [e, Outcome.ok_bind]
        refine ih _ ?_
        rw [if_neg hp] at h
        simp only [List.filterMap_cons, UdpOp.payload?, List.length_cons] at h
        show 1 < 1 + _
        omega
    | source v => exact ih _ h
    | destination v => exact ih _ h

/-- C125: a UDP or TCP builder from `default()` never gives a packet, whatever is called on it: `build()` panics, there
is no IP header to sum over; the only error before that is a second payload. The IP, IPv6 and ICMP builders answer
`InvalidPacket`. -/
theorem C125_alone (cfg : Cfg) (uops : List UdpOp) (hu : (Inner.udp uops).Sane cfg) (tops : List TcpOp)
    (ht : (Inner.tcp tops).Sane cfg) :
    udpProgram cfg Dynamic.new uops =
      (if 1 < (uops.filterMap UdpOp.payload?).length then .err .alreadyDefined else .panic) ∧
    (∀ packet, tcpProgram cfg Dynamic.new tops ≠ .ok packet) ∧
    (∀ s, IpBuilder.default = .ok s → IpBuilder.build s = .err .invalidPacket) ∧
    (∀ s, V6Builder.default = .ok s → V6Builder.build s = .err .invalidPacket) ∧
    (∀ s, IcmpBuilder.default = .ok s → IcmpBuilder.build s = .err .invalidPacket) := by
  have hb : history cfg [] Dynamic.new = (.ok (), Dynamic.new) := rfl
  have hf : BufOp.Fits cfg.isizeMax [] .empty := Nat.zero_le _
  have e1 := udp_behind cfg [] _ hf hb (Nat.zero_le _) uops hu
  have e2 := tcp_behind cfg [] _ hf hb (Nat.zero_le _) tops ht
  have su : ∀ u, sealUdp cfg [] u = .panic := fun u => by
    unfold sealUdp UdpBuilder.checksumIn
    have a : V4.noPayload [] = .err .smallBuffer := by decide +kernel
    have b : V6.noPayload [] = .panic := by decide +kernel
    rw [a]
    simp only []
    rw [b]
    rfl
  have st : ∀ t, sealTcp cfg [] t = .panic := fun t => rfl
  refine ⟨?_, ?_, fun s _ => rfl, fun s _ => rfl, fun s _ => rfl⟩
  · rw [e1]
    split
    · next h => rw [udp_twice uops .init (by show 1 < 0 + _; omega)]; rfl
    · next h =>
      rw [udp_run uops (by omega), Outcome.ok_bind]
      show ((sealUdp cfg [] _) >>= _) = _
      rw [su]
      rfl
  · intro packet h
    rw [e2] at h
    obtain ⟨out, h, -⟩ := bind_ok_inv h
    obtain ⟨t, -, h⟩ := bind_ok_inv h
    have h : sealTcp cfg [] t = .ok out := h
    rw [st] at h
    cases h

/-- A concrete case that meets the hypotheses. -/
example (cfg : Cfg) := C125_alone cfg Sample.uops (by call_by_call) Sample.tops (by call_by_call)

/-- C41: finalizers can be taken out of one `Finalization` (as an iterator or a `Vec`) and put into another: they keep
their order and number, those moved in run before those that were there, and a new `Finalization` has none. -/
theorem C41_moved (fs gs : List Finalizer) (b : Bytes) :
    Executes (gs.reverse ++ fs.reverse) b
      (Finalization.finalize (Finalization.extend (fs.foldl Finalization.add .default)
        (Finalization.intoIter (gs.foldl Finalization.add .default))) b).1
      (Finalization.finalize (Finalization.extend (fs.foldl Finalization.add .default)
        (Finalization.intoIter (gs.foldl Finalization.add .default))) b).2 ∧
    Finalization.intoVec (fs.foldl Finalization.add .default) = fs ∧
    Finalization.intoIter (fs.foldl Finalization.add .default) = fs ∧
    Finalization.debugLength (fs.foldl Finalization.add .default) = fs.length ∧
    Finalization.finalize .default b = (.ok (), b) := by
  have h : ∀ fs acc : List Finalizer, fs.foldl Finalization.add acc = acc ++ fs := by
    intro fs
    induction fs with
    | nil => intro acc; simp
    | cons f fs ih => intro acc; simp [ih, Finalization.add]
  have e := C41_extend fs gs
  have x := C41_finalize_executes (fs ++ gs) b
  rw [List.reverse_append] at x
  unfold Finalization.default Finalization.intoIter Finalization.intoVec Finalization.debugLength
  rw [e]
  refine ⟨x, ?_, ?_, ?_, rfl⟩
  · rw [h]; rfl
  · rw [h]; rfl
  · rw [h]; rfl

/-- C20: `ip::Packet::from` of a packet that `ip::v4` or `ip::v6` accepts is the packet `ip::Packet` makes of the same
bytes, with or without the check of the payload. -/
theorem C20_from (b p : Bytes) :
    (V4.new b = .ok p → IpPacket.new b = .ok (.ofV4 p)) ∧
    (V4.noPayload b = .ok p → IpPacket.noPayload b = .ok (.ofV4 p)) ∧
    (V6.new b = .ok p → IpPacket.new b = .ok (.ofV6 p)) ∧
    (V6.noPayload b = .ok p → IpPacket.noPayload b = .ok (.ofV6 p)) := by
  by_cases h0 : b = []
  · subst h0
    refine ⟨fun h => ?_, fun h => ?_, fun h => ?_, fun h => ?_⟩ <;> cases h
  · obtain ⟨-, -, d1, d2⟩ := C20_ip_dispatch b h0
    obtain ⟨s1, s2, -⟩ := C20_v6_accept b h0
    have v4 : ∀ {p}, V4.noPayload b = .ok p → field b 0 4 = 4 := by
      intro p h
      have hp : p = b := by
        have := V4.noPayload_eq b
        rw [h] at this
        (repeat' split at this) <;> cases this <;> rfl
      rw [hp] at h
      exact (V4.noPayload_ok_iff.1 h).2.version
    refine ⟨fun h => ?_, fun h => ?_, fun h => ?_, fun h => ?_⟩
    · have : ∃ q, V4.noPayload b = .ok q := by
        unfold V4.new at h
        obtain ⟨q, h, -⟩ := bind_ok_inv h
        exact ⟨q, h⟩
      obtain ⟨q, hq⟩ := this
      rw [d1, if_pos (v4 hq), h]
      rfl
    · rw [d2, if_pos (v4 h), h]
      rfl
    · rw [s1] at h
      split at h
      · next h6 =>
        cases h
        rw [d1, if_neg (by omega), if_pos h6]
        rfl
      · cases h
    · rw [s2] at h
      split at h
      · next h6 =>
        cases h
        rw [d2, if_neg (by omega), if_pos h6]
        rfl
      · cases h

/-- Both premises occur: an IPv4 packet and the first byte of an IPv6 packet. -/
example : V4.new Sample.tcpPacket = .ok Sample.tcpPacket ∧ V6.new [0x60] = .ok [0x60] := by decide +kernel

end Verif.Props
