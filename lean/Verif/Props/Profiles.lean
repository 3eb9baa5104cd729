import Verif.Lemmas.ProfilePrograms
import Verif.Props.BuildersPanics
import Verif.Props.Large
import Verif.Props.Options
import Verif.Props.Unchecked
import Verif.Props.Icmp
import Verif.Props.Sizes
import Verif.Props.Transport
import Verif.Props.Ether
import Verif.Model.Unwind
import Verif.Samples

/-!
# C121: a release build does what a debug build does, unless the debug build panics

`debugBuild e w` and `releaseBuild e w` differ in overflow checks only.  `SameUnlessPanic x y`: the debug outcome `x` is a
panic, or the release outcome `y` is the same.
-/

namespace Verif.Props
open Verif Verif.Spec

/-! ## Everything, for every input -/

/-- C121, packets: checksums, validity, sizes, views, replacing the bytes, `Debug` text and option iteration, for every
buffer, accepted or not. -/
theorem C121_packets (e w : Bool) (b : Bytes) (ip : IpPacket) :
    SameUnlessPanic (V4.checksumOf (debugBuild e w) b) (V4.checksumOf (releaseBuild e w) b) ∧
    SameUnlessPanic (Icmp.checksumOf (debugBuild e w) b) (Icmp.checksumOf (releaseBuild e w) b) ∧
    SameUnlessPanic (Udp.checksumOf (debugBuild e w) ip b) (Udp.checksumOf (releaseBuild e w) ip b) ∧
    SameUnlessPanic (Tcp.checksumOf (debugBuild e w) ip b) (Tcp.checksumOf (releaseBuild e w) ip b) ∧
    SameUnlessPanic (V4.isValid (debugBuild e w) b) (V4.isValid (releaseBuild e w) b) ∧
    SameUnlessPanic (Icmp.isValid (debugBuild e w) b) (Icmp.isValid (releaseBuild e w) b) ∧
    SameUnlessPanic (Udp.isValid (debugBuild e w) ip b) (Udp.isValid (releaseBuild e w) ip b) ∧
    SameUnlessPanic (Tcp.isValid (debugBuild e w) ip b) (Tcp.isValid (releaseBuild e w) ip b) ∧
    SameUnlessPanic (V4.debug (debugBuild e w) b) (V4.debug (releaseBuild e w) b) ∧
    SameUnlessPanic (Icmp.debug (debugBuild e w) b) (Icmp.debug (releaseBuild e w) b) ∧
    SameUnlessPanic (Previous.debug (debugBuild e w) b) (Previous.debug (releaseBuild e w) b) ∧
    SameUnlessPanic (Redirect.debug (debugBuild e w) b) (Redirect.debug (releaseBuild e w) b) ∧
    SameUnlessPanic (ParamProblem.debug (debugBuild e w) b) (ParamProblem.debug (releaseBuild e w) b) :=
  have p := Spec.Stricter.mk' e w
  ⟨p.v4Sum b, p.icmpSum b, p.udpSum ip b, p.tcpSum ip b, p.v4Valid b, p.icmpValid b, p.udpValid ip b, p.tcpValid ip b,
    p.v4Debug b, p.icmpDebug b, p.previousDebug b, p.redirectDebug b, p.problemDebug b⟩

/-- C121, every packet and option type: sizes, `as_ref()`, and anything done through `as_mut()`. -/
theorem C121_views (e w : Bool) (k : Kind)
    (hk : k ∈ [.ether, .v4, .v6, .udp, .tcp, .icmp, .echo, .timestamp, .information, .previous, .redirect,
      .parameterProblem, .option v4OptKind, .option tcpOptKind]) :
    (∀ b, SameUnlessPanic (k.payloadSize (debugBuild e w) b) (k.payloadSize (releaseBuild e w) b)) ∧
    (∀ b, SameUnlessPanic (k.size (debugBuild e w) b) (k.size (releaseBuild e w) b)) ∧
    (∀ b, SameUnlessPanic (k.asRef (debugBuild e w) b) (k.asRef (releaseBuild e w) b)) ∧
    (∀ v, SameUnlessPanicMut (k.writeAll (debugBuild e w) v) (k.writeAll (releaseBuild e w) v)) ∧
    (∀ f : Mut Bytes Unit, SameUnlessPanicMut (k.asPacketMut (debugBuild e w) f) (k.asPacketMut (releaseBuild e w) f)) := by
  have p := Spec.Stricter.mk' e w
  have main : k.Agrees (debugBuild e w) (releaseBuild e w) := by
    obtain ⟨h1, h2, h3, h4, h5, h6, h7, h8, h9, h10, h11, h12, h13⟩ := p.kinds
    simp only [List.mem_cons, List.mem_nil_iff, or_false] at hk
    rcases hk with rfl | rfl | rfl | rfl | rfl | rfl | rfl | rfl | rfl | rfl | rfl | rfl | rfl | rfl <;>
      first | assumption | exact h13 _
  exact ⟨main.payloadSize, main.size p, main.asRef, main.writeAll, fun f => main.inAll (.refl _)⟩

/-- A concrete case that meets the hypotheses. -/
example (e w : Bool) := C121_views e w .tcp (by simp)

/-- C121, editing: `update_checksum()`, guards, nested sessions through every layer of a frame, and the option
iterators. -/
theorem C121_sessions (e w : Bool) :
    SameUnlessPanicMut (V4.updateChecksum (debugBuild e w)) (V4.updateChecksum (releaseBuild e w)) ∧
    (∀ ip, SameUnlessPanicMut (Udp.updateChecksum (debugBuild e w) ip) (Udp.updateChecksum (releaseBuild e w) ip)) ∧
    (∀ ip, SameUnlessPanicMut (Tcp.updateChecksum (debugBuild e w) ip) (Tcp.updateChecksum (releaseBuild e w) ip)) ∧
    (∀ ops, SameUnlessPanicMut (V4.checkedRun (debugBuild e w) ops) (V4.checkedRun (releaseBuild e w) ops)) ∧
    (∀ ip ops, SameUnlessPanicMut (Udp.checkedRun (debugBuild e w) ip ops) (Udp.checkedRun (releaseBuild e w) ip ops)) ∧
    (∀ ip ops, SameUnlessPanicMut (Tcp.checkedRun (debugBuild e w) ip ops) (Tcp.checkedRun (releaseBuild e w) ip ops)) ∧
    (∀ s : Icmp.Session, SameUnlessPanicMut (s.run (debugBuild e w)) (s.run (releaseBuild e w))) ∧
    (∀ eops vops uops, SameUnlessPanicMut
      (Ether.editStack eops (V4.editStack (debugBuild e w) vops (Udp.editIn (debugBuild e w) uops)))
      (Ether.editStack eops (V4.editStack (releaseBuild e w) vops (Udp.editIn (releaseBuild e w) uops)))) ∧
    (∀ eops vops tops, SameUnlessPanicMut
      (Ether.editStack eops (V4.editStack (debugBuild e w) vops (Tcp.editIn (debugBuild e w) tops)))
      (Ether.editStack eops (V4.editStack (releaseBuild e w) vops (Tcp.editIn (releaseBuild e w) tops)))) ∧
    (∀ k, SameUnlessPanicMut (Opt.next (debugBuild e w) k) (Opt.next (releaseBuild e w) k)) ∧
    (∀ k n, SameUnlessPanicMut (Opt.take (debugBuild e w) k n) (Opt.take (releaseBuild e w) k n)) :=
  have p := Spec.Stricter.mk' e w
  ⟨p.v4Update, p.udpUpdate, p.tcpUpdate, p.v4Checked, p.udpChecked, p.tcpChecked, p.session,
    fun eops vops uops => Spec.Stricter.etherStack eops (p.v4Stack vops fun ip =>
      SameUnlessPanicMut.editing (p.udpChecked ip uops)),
    fun eops vops tops => Spec.Stricter.etherStack eops (p.v4Stack vops fun ip =>
      SameUnlessPanicMut.editing (p.tcpChecked ip tops)),
    p.optNext, p.optTake⟩

/-- C121, buffers: both buffers of the crate. -/
theorem C121_buffers : SameBuffer Dynamic ∧ SameBuffer Slice := ⟨inferInstance, inferInstance⟩

/-- C121, builders: every program of builder calls, on every buffer of which the operations agree (`C121_buffers`), ends
the same way, with the same packet, and leaves the same buffer. -/
theorem C121_programs (e w : Bool) {B : Type} [Buffer B] [SameBuffer B] (b : B) :
    (∀ ops, SameUnlessPanic (etherAt (debugBuild e w) b ops) (etherAt (releaseBuild e w) b ops)) ∧
    (∀ vops inner, SameUnlessPanic (ipv4At (debugBuild e w) b vops inner) (ipv4At (releaseBuild e w) b vops inner)) ∧
    (∀ eops vops inner, SameUnlessPanic (ethernetAt (debugBuild e w) b eops vops inner)
      (ethernetAt (releaseBuild e w) b eops vops inner)) ∧
    (∀ inner, SameUnlessPanic (icmpAt (debugBuild e w) b inner) (icmpAt (releaseBuild e w) b inner)) ∧
    (∀ ops, SameUnlessPanic (etherProgram (debugBuild e w) b ops) (etherProgram (releaseBuild e w) b ops)) ∧
    (∀ vops inner, SameUnlessPanic (ipv4Program (debugBuild e w) b vops inner) (ipv4Program (releaseBuild e w) b vops inner)) ∧
    (∀ eops vops inner, SameUnlessPanic (ethernetProgram (debugBuild e w) b eops vops inner)
      (ethernetProgram (releaseBuild e w) b eops vops inner)) ∧
    (∀ inner, SameUnlessPanic (icmpProgram (debugBuild e w) b inner) (icmpProgram (releaseBuild e w) b inner)) ∧
    (∀ ops, SameUnlessPanic (udpProgram (debugBuild e w) b ops) (udpProgram (releaseBuild e w) b ops)) ∧
    (∀ ops, SameUnlessPanic (tcpProgram (debugBuild e w) b ops) (tcpProgram (releaseBuild e w) b ops)) :=
  have p := Spec.Stricter.mk' e w
  ⟨etherAt_agrees p b, ipv4At_agrees p b, ethernetAt_agrees p b, icmpAt_agrees p b, etherProgram_agrees p b,
    ipv4Program_agrees p b, ethernetProgram_agrees p b, icmpProgram_agrees p b, udpProgram_agrees p b, tcpProgram_agrees p b⟩

/-- C121, builders: also when the program edits the packet through `as_packet_mut()` on the way, or adds finalizers of
its own. -/
theorem C121_programs_more (e w : Bool) {B : Type} [Buffer B] [SameBuffer B] (b : B) :
    (∀ ops, SameUnlessPanic (etherSteps (debugBuild e w) b ops) (etherSteps (releaseBuild e w) b ops)) ∧
    (∀ vops inner, SameUnlessPanic (ipv4Steps (debugBuild e w) b vops inner) (ipv4Steps (releaseBuild e w) b vops inner)) ∧
    (∀ eops vops inner, SameUnlessPanic (ethernetSteps (debugBuild e w) b eops vops inner)
      (ethernetSteps (releaseBuild e w) b eops vops inner)) ∧
    (∀ inner, SameUnlessPanic (icmpSteps (debugBuild e w) b inner) (icmpSteps (releaseBuild e w) b inner)) ∧
    (∀ calls, SameUnlessPanic (userEther (debugBuild e w) b calls) (userEther (releaseBuild e w) b calls)) ∧
    (∀ vcalls inner, SameUnlessPanic (userIpv4 (debugBuild e w) b vcalls inner) (userIpv4 (releaseBuild e w) b vcalls inner)) ∧
    (∀ ecalls fs vcalls inner, SameUnlessPanic (userEthernet (debugBuild e w) b ecalls fs vcalls inner)
      (userEthernet (releaseBuild e w) b ecalls fs vcalls inner)) :=
  have p := Spec.Stricter.mk' e w
  ⟨etherSteps_agrees p b, ipv4Steps_agrees p b, ethernetSteps_agrees p b, icmpSteps_agrees p b, userEther_agrees p b,
    userIpv4_agrees p b, userEthernet_agrees p b⟩

/-! ## Where no overflow is possible: no difference at all -/

theorem udp_sum_same (e w : Bool) (ip : IpPacket) (b : Bytes) :
    Udp.checksumOf (releaseBuild e w) ip b = Udp.checksumOf (debugBuild e w) ip b := by
  cases ip with
  | v6 p => rfl
  | v4 p =>
    by_cases h : 20 ≤ p.length
    · rw [Udp.checksumOf_eq _ _ _ h, Udp.checksumOf_eq _ _ _ h]; rfl
    · obtain ⟨-, -, -, -, -, -, -, -, -, -, -, hd⟩ := C96_v4_unchecked
      have hd := (hd p).2 (by omega)
      simp only [Udp.checksumOf, hd]
      cases V4.source p <;> rfl

theorem tcp_sum_same (e w : Bool) (ip : IpPacket) (b : Bytes) (hb : b.length ≤ 131000) :
    Tcp.checksumOf (releaseBuild e w) ip b = Tcp.checksumOf (debugBuild e w) ip b := by
  cases ip with
  | v6 p => rfl
  | v4 p =>
    by_cases h : 20 ≤ p.length
    · rw [Tcp.checksumOf_eq _ _ _ h hb, Tcp.checksumOf_eq _ _ _ h hb]; rfl
    · obtain ⟨-, -, -, -, -, -, -, -, -, -, -, hd⟩ := C96_v4_unchecked
      have hd := (hd p).2 (by omega)
      simp only [Tcp.checksumOf, hd]
      cases V4.source p <;> rfl

/-- C121, checksums: the two builds compute the same, panics included, for every message; for TCP if the segment has at
most 131000 bytes (an IPv4 packet holds less than 65536). -/
theorem C121_checksums (e w : Bool) (b : Bytes) (ip : IpPacket) :
    V4.checksumOf (releaseBuild e w) b = V4.checksumOf (debugBuild e w) b ∧
    Icmp.checksumOf (releaseBuild e w) b = Icmp.checksumOf (debugBuild e w) b ∧
    Udp.checksumOf (releaseBuild e w) ip b = Udp.checksumOf (debugBuild e w) ip b ∧
    (b.length ≤ 131000 → Tcp.checksumOf (releaseBuild e w) ip b = Tcp.checksumOf (debugBuild e w) ip b) ∧
    V4.isValid (releaseBuild e w) b = V4.isValid (debugBuild e w) b ∧
    Icmp.isValid (releaseBuild e w) b = Icmp.isValid (debugBuild e w) b ∧
    Udp.isValid (releaseBuild e w) ip b = Udp.isValid (debugBuild e w) ip b ∧
    (b.length ≤ 131000 → Tcp.isValid (releaseBuild e w) ip b = Tcp.isValid (debugBuild e w) ip b) := by
  have h1 : ∀ c, V4.checksumOf (releaseBuild e w) c = V4.checksumOf (debugBuild e w) c := fun c => by
    rw [V4.checksumOf_eq, V4.checksumOf_eq]
  have h2 : ∀ c, Icmp.checksumOf (releaseBuild e w) c = Icmp.checksumOf (debugBuild e w) c := fun c => by
    rw [Icmp.checksumOf_eq, Icmp.checksumOf_eq]
  refine ⟨h1 b, h2 b, udp_sum_same e w ip b, tcp_sum_same e w ip b, ?_, ?_, ?_, fun hb => ?_⟩
  · unfold V4.isValid; simp only [h1]
  · unfold Icmp.isValid; simp only [h2]
  · unfold Udp.isValid; rw [udp_sum_same]
  · unfold Tcp.isValid; rw [tcp_sum_same e w ip b hb]

/-- No view of `b` depends on which of the two builds it is. -/
def SameViews (k : Kind) (c d : Cfg) (b : Bytes) : Prop :=
  k.payloadSize c b = k.payloadSize d b ∧ k.size c b = k.size d b ∧
  k.asRef c b = k.asRef d b ∧
  (∀ v, k.writeAll c v b = k.writeAll d v b) ∧
  ∀ f : Mut Bytes Unit, k.asPacketMut c f b = k.asPacketMut d f b

theorem sameViews_of {k : Kind} {c d : Cfg} {b : Bytes} {h n : Nat} (hh : k.headerSize b = .ok h)
    (hp : ∀ cfg, k.payloadSize cfg b = .ok n) (hs : h + n < c.usizeMod) (hs' : h + n < d.usizeMod)
    (hr : k.asRef c b = k.asRef d b) : SameViews k c d b := by
  refine ⟨(hp _).trans (hp _).symm, ?_, hr, fun v => ?_, fun f => ?_⟩
  · unfold Kind.size
    rw [hh, hp, hp]
    show addUsize _ h n = addUsize _ h n
    rw [addUsize_ok (cfg := c) (.inr hs), addUsize_ok (cfg := d) (.inr hs')]
  · unfold Kind.writeAll; rw [hr]
  · unfold Kind.asPacketMut Kind.inAll; rw [hr]

theorem accepted_views (c d : Cfg) (b : Bytes) (hb : b.length < d.usizeMod) (hb' : b.length < c.usizeMod) (k : Kind)
    (hk : k ∈ [.ether, .v4, .v6, .udp, .tcp, .icmp, .echo, .timestamp, .information, .previous, .redirect,
      .parameterProblem]) (h : k.new b = .ok b) : SameViews k c d b := by
  have quoted : 8 ≤ b.length → ∃ n, (∀ cfg, quotedPayloadSize cfg b = .ok n) ∧ 8 + n < c.usizeMod ∧ 8 + n < d.usizeMod ∧
      quotedAsRef c b = quotedAsRef d b := by
    intro hl
    have hf := field_lt b 68 4
    have hn : 8 + (if V4.new (b.drop 8) = .ok (b.drop 8) then 4 * field b 68 4 else b.length - 8) < c.usizeMod ∧
        8 + (if V4.new (b.drop 8) = .ok (b.drop 8) then 4 * field b 68 4 else b.length - 8) < d.usizeMod := by
      split <;> (have := c.width; have := d.width; omega)
    refine ⟨_, fun cfg => quotedPayloadSize_eq cfg b hl, hn.1, hn.2, ?_⟩
    unfold quotedAsRef
    rw [quotedPayloadSize_eq _ b hl, quotedPayloadSize_eq _ b hl, Outcome.ok_bind, Outcome.ok_bind,
      addUsize_ok (cfg := c) (.inr hn.1), addUsize_ok (cfg := d) (.inr hn.2)]
  simp only [List.mem_cons, List.mem_nil_iff, or_false] at hk
  rcases hk with rfl | rfl | rfl | rfl | rfl | rfl | rfl | rfl | rfl | rfl | rfl | rfl
  · obtain ⟨-, -, -, -, -, -, -⟩ := C10_ether_views d b hb h
    have e1 := (C10_ether_views d b hb h).2.2.2.2.2.1
    have e2 := (C10_ether_views c b hb' h).2.2.2.2.2.1
    have hl : 14 ≤ b.length := by
      by_cases hl : b.length < 14
      · exfalso
        have : Ether.new b = .ok b := h
        unfold Ether.new Ether.headerMin at this
        rw [if_pos hl] at this; cases this
      · omega
    exact sameViews_of (h := 14) rfl (fun cfg => subUsize_ok hl) (by (have := c.width; omega)) (by (have := d.width; omega)) (e2.trans e1.symm)
  · have hok := (V4.new_ok_iff.1 h).2
    have h1 := hok.long
    have h2 := field_lt b 4 4
    have h3 := field_lt b 16 16
    have hz : V4.headerSize b = .ok (field b 4 4 * 4) := V4.headerSize_eq (by omega)
    have hp : ∃ n, V4.payloadSize b = .ok n ∧ n < 65536 := by
      unfold V4.payloadSize
      obtain ⟨-, hi, -, -, hle, -⟩ := C96_v4_unchecked
      obtain ⟨i, hi, -⟩ := (hi b).1 (by omega)
      obtain ⟨l, hl, hl2⟩ := (hle b).1 (by omega)
      rw [hi, hl]
      exact ⟨_, rfl, by omega⟩
    obtain ⟨n, hn, hn2⟩ := hp
    exact sameViews_of hz (fun _ => hn) (by (have := c.width; omega)) (by (have := d.width; omega)) rfl
  · exact sameViews_of (h := 0) rfl (fun _ => rfl) (n := 0) (by (have := c.width; omega)) (by (have := d.width; omega)) rfl
  · obtain ⟨-, hl, ht⟩ := Udp.new_ok_iff.1 h
    have hp : ∃ n, Udp.payloadSize b = .ok n ∧ n < 65536 := by
      unfold Udp.payloadSize
      obtain ⟨-, -, hi, -⟩ := C96_udp_unchecked
      obtain ⟨l, hl, hl2⟩ := (hi b).1 (by omega)
      rw [hl]
      exact ⟨_, rfl, by omega⟩
    obtain ⟨n, hn, hn2⟩ := hp
    exact sameViews_of (h := 8) rfl (fun _ => hn) (by (have := c.width; omega)) (by (have := d.width; omega)) rfl
  · obtain ⟨-, h1, h2⟩ := Tcp.new_ok_iff.1 h
    obtain ⟨-, -, -, -, ho, -⟩ := C96_tcp_unchecked
    obtain ⟨o, ho, ho2⟩ := (ho b).1 (by omega)
    have e1 := (C24_tcp_views d b hb h).2.2.2.2
    have e2 := (C24_tcp_views c b hb' h).2.2.2.2
    refine sameViews_of (h := o.toNat * 4) (n := b.length - o.toNat * 4) ?_ (fun cfg => ?_) (by (have := c.width; omega)) (by (have := d.width; omega)) (e2.trans e1.symm)
    · show Tcp.headerSize b = _
      unfold Tcp.headerSize; rw [ho]; rfl
    · show Tcp.payloadSize cfg b = _
      unfold Tcp.payloadSize; rw [ho, Outcome.ok_bind, subUsize_ok (by omega)]
  · have e1 := (C34_icmp_views d b hb h).2.2.2.2.2.2.2.1
    have e2 := (C34_icmp_views c b hb' h).2.2.2.2.2.2.2.1
    have hl : 4 ≤ b.length := by
      by_cases hl : b.length < 4
      · exfalso
        have : Icmp.new b = .ok b := h
        unfold Icmp.new Icmp.headerMin at this
        rw [if_pos hl] at this; cases this
      · omega
    exact sameViews_of (h := 4) rfl (fun cfg => subUsize_ok hl) (by (have := c.width; omega)) (by (have := d.width; omega)) (e2.trans e1.symm)
  · have e1 := (C36_echo_fields d b hb h).2.2.2.2.2.2.2.2.2
    have e2 := (C36_echo_fields c b hb' h).2.2.2.2.2.2.2.2.2
    obtain ⟨hl, -⟩ := echo_ok h
    exact sameViews_of (h := 8) rfl (fun cfg => subUsize_ok hl) (by (have := c.width; omega)) (by (have := d.width; omega)) (e2.trans e1.symm)
  · exact sameViews_of (h := 20) rfl (fun _ => rfl) (n := 0) (by (have := c.width; omega)) (by (have := d.width; omega)) rfl
  · exact sameViews_of (h := 8) rfl (fun _ => rfl) (n := 0) (by (have := c.width; omega)) (by (have := d.width; omega)) rfl
  · obtain ⟨n, h1, h2, h2', h3⟩ := quoted (quoted_ok (.inl h))
    exact sameViews_of (h := 8) rfl h1 h2 h2' h3
  · obtain ⟨n, h1, h2, h2', h3⟩ := quoted (quoted_ok (.inr (.inl h)))
    exact sameViews_of (h := 8) rfl h1 h2 h2' h3
  · obtain ⟨n, h1, h2, h2', h3⟩ := quoted (quoted_ok (.inr (.inr h)))
    exact sameViews_of (h := 8) rfl h1 h2 h2' h3

/-- C121, views of accepted packets: no difference at all. -/
theorem C121_accepted_views (e w : Bool) (b : Bytes) (hb : b.length < (debugBuild e w).usizeMod) (k : Kind)
    (hk : k ∈ [.ether, .v4, .v6, .udp, .tcp, .icmp, .echo, .timestamp, .information, .previous, .redirect,
      .parameterProblem]) (h : k.new b = .ok b) : SameViews k (releaseBuild e w) (debugBuild e w) b :=
  accepted_views (releaseBuild e w) (debugBuild e w) b hb hb k hk h

/-- `C121_accepted_views` applies: an accepted UDP datagram with two bytes of payload. -/
example (e w : Bool) : SameViews .udp (releaseBuild e w) (debugBuild e w) [0, 80, 0, 90, 0, 10, 0, 0, 7, 7] ∧
    Kind.udp.size (releaseBuild e w) [0, 80, 0, 90, 0, 10, 0, 0, 7, 7] = .ok 10 :=
  ⟨C121_accepted_views e w _ (by cases e <;> cases w <;> decide) .udp (by simp) (by decide),
    by cases e <;> cases w <;> decide⟩

/-- C121, options: the iterators differ on one kind of input only, an option that says it has length 0.  There the debug
build panics and the release build yields the option without moving on. -/
theorem C121_options (e w : Bool) (k : OptKind) (hk : k = v4OptKind ∨ k = tcpOptKind) (b : Bytes) :
    ((∃ x r, k.isSingle x = false ∧ b = x :: 0#8 :: r) →
      Opt.next (debugBuild e w) k b = (.panic, b) ∧ Opt.next (releaseBuild e w) k b = (.ok (some (.ok b)), b)) ∧
    ((¬ ∃ x r, k.isSingle x = false ∧ b = x :: 0#8 :: r) →
      Opt.next (releaseBuild e w) k b = Opt.next (debugBuild e w) k b) := by
  have lawful : LawfulKind k := by
    rcases hk with rfl | rfl
    · exact v4_lawful
    · exact tcp_lawful
  constructor
  · rintro ⟨x, r, hx, rfl⟩
    have hne : ∀ y t, x :: 0#8 :: r = y :: t → k.isEnd y = true → False := by
      intro y t h h'
      cases h; rw [lawful.endSingle _ h'] at hx; cases hx
    constructor
    · rcases next_cases (debugBuild e w) lawful (x :: 0#8 :: r) with h | ⟨y, r', h, h', -⟩ |
        ⟨y, r', h, h', -⟩ | ⟨y, h, h', -⟩ | ⟨y, l, r', h, -, h', -⟩ | ⟨y, l, r', h, -, -, -, h'⟩ |
        ⟨y, l, r', h, -, -, h', -⟩
      · cases h.1
      · exact (hne _ _ h h').elim
      · cases h; rw [hx] at h'; cases h'
      · cases h
      · cases h; simp at h'
      · exact h'
      · cases h; have := h' rfl; cases this
    · rcases next_cases (releaseBuild e w) lawful (x :: 0#8 :: r) with h | ⟨y, r', h, h', -⟩ |
        ⟨y, r', h, h', -⟩ | ⟨y, h, h', -⟩ | ⟨y, l, r', h, -, h', -⟩ | ⟨y, l, r', h, -, -, h', -⟩ |
        ⟨y, l, r', h, -, -, -, h', -⟩
      · cases h.1
      · exact (hne _ _ h h').elim
      · cases h; rw [hx] at h'; cases h'
      · cases h
      · cases h; simp at h'
      · cases h'
      · cases h; simpa using h'
  · intro hz
    rcases (Spec.Stricter.mk' e w).optNext k b with h | h
    · obtain ⟨x, hx, hb | ⟨-, r, hb⟩⟩ := (C73_next_panics_iff (debugBuild e w) b k hk.symm).1 h
      · subst hb
        have : ∀ cfg, Opt.next cfg k [x] = (.panic, [x]) := by
          intro cfg
          have hp := (C73_next_panics_iff cfg [x] k hk.symm).2 ⟨x, hx, .inl rfl⟩
          rcases next_cases cfg lawful [x] with h | ⟨y, r', h, h', h2⟩ |
            ⟨y, r', h, h', -, h2, -⟩ | ⟨y, h, h', h2⟩ | ⟨y, l, r', h, -⟩ | ⟨y, l, r', h, -⟩ | ⟨y, l, r', h, -⟩
          · cases h.1
          · rw [h2] at hp; cases hp
          · rw [h2] at hp; cases hp
          · exact h2
          · cases h
          · cases h
          · cases h
        rw [this, this]
      · exact absurd ⟨x, r, hx, hb⟩ hz
    · exact h

/-- Both cases of `C121_options` occur: an option of length 0, and a maximum segment size. -/
example (e w : Bool) :
    Opt.next (debugBuild e w) tcpOptKind [2, 0, 5, 180] = (.panic, [2, 0, 5, 180]) ∧
    Opt.next (releaseBuild e w) tcpOptKind [2, 4, 5, 180] = Opt.next (debugBuild e w) tcpOptKind [2, 4, 5, 180] ∧
    Opt.next (releaseBuild e w) tcpOptKind [2, 4, 5, 180] = (.ok (some (.ok [2, 4, 5, 180])), []) :=
  ⟨((C121_options e w _ (.inr rfl) _).1 ⟨2, [5, 180], by decide, rfl⟩).1,
    (C121_options e w _ (.inr rfl) _).2 (by rintro ⟨x, r, -, h⟩; cases h), by cases e <;> cases w <;> rfl⟩

/-- C121, editing: the guards and `update_checksum()` of IPv4 and UDP packets do the same in both builds, panics included;
those of TCP packets if the segment has at most 131000 bytes. -/
theorem C121_guards (e w : Bool) :
    V4.updateChecksum (releaseBuild e w) = V4.updateChecksum (debugBuild e w) ∧
    (∀ ip, Udp.updateChecksum (releaseBuild e w) ip = Udp.updateChecksum (debugBuild e w) ip) ∧
    (∀ ip b, b.length ≤ 131000 → Tcp.updateChecksum (releaseBuild e w) ip b = Tcp.updateChecksum (debugBuild e w) ip b) ∧
    (∀ ops, V4.guarded (releaseBuild e w) ops = V4.guarded (debugBuild e w) ops) ∧
    (∀ ip ops, Udp.guarded (releaseBuild e w) ip ops = Udp.guarded (debugBuild e w) ip ops) := by
  have h1 : V4.updateChecksum (releaseBuild e w) = V4.updateChecksum (debugBuild e w) := by
    unfold V4.updateChecksum
    simp only [V4.checksumOf_eq]
  have h2 : ∀ ip, Udp.updateChecksum (releaseBuild e w) ip = Udp.updateChecksum (debugBuild e w) ip := by
    intro ip
    unfold Udp.updateChecksum
    rw [show Udp.checksumOf (releaseBuild e w) ip = Udp.checksumOf (debugBuild e w) ip from funext fun b => udp_sum_same e w ip b]
  refine ⟨h1, h2, fun ip b hb => ?_, fun ops => ?_, fun ip ops => ?_⟩
  · unfold Tcp.updateChecksum
    rw [Mut.bind_apply, Mut.bind_apply]
    unfold Mut.read
    rw [tcp_sum_same e w ip b hb]
  · unfold V4.guarded; rw [h1]
  · unfold Udp.guarded; rw [h2]

/-- C121, builders on a fresh `buffer::Dynamic`: a program whose payloads could be in memory at all, and whose TCP calls do
not panic anyway (`TcpSafe`), gives the same packet or the same error in both builds. -/
theorem C121_dynamic (e w : Bool) :
    (∀ ops : List EtherOp, (∀ op ∈ ops, op.Sane (debugBuild e w)) →
      etherProgram (releaseBuild e w) Dynamic.new ops = etherProgram (debugBuild e w) Dynamic.new ops) ∧
    (∀ (vops : List V4Op) (inner : Inner), (∀ op ∈ vops, op.Sane (debugBuild e w)) → inner.Sane (debugBuild e w) → TcpSafe (debugBuild e w) inner →
      ipv4Program (releaseBuild e w) Dynamic.new vops inner = ipv4Program (debugBuild e w) Dynamic.new vops inner) ∧
    (∀ (eops : List EtherOp) (vops : List V4Op) (inner : Inner), (∀ op ∈ eops, op.Sane (debugBuild e w)) → (∀ op ∈ vops, op.Sane (debugBuild e w)) →
      inner.Sane (debugBuild e w) → TcpSafe (debugBuild e w) inner →
      (inner = .plain → ∀ v ∈ vops.filterMap V4Op.payload?, v.length < 44) →
      ethernetProgram (releaseBuild e w) Dynamic.new eops vops inner =
        ethernetProgram (debugBuild e w) Dynamic.new eops vops inner) ∧
    (∀ inner : IcmpInner, (Inner.icmp inner).Sane (debugBuild e w) →
      icmpProgram (releaseBuild e w) Dynamic.new inner = icmpProgram (debugBuild e w) Dynamic.new inner) := by
  have p := Spec.Stricter.mk' e w
  refine ⟨fun ops h => ?_, fun vops inner h1 h2 h3 => ?_, fun eops vops inner h1 h2 h3 h4 h5 => ?_, fun inner h => ?_⟩
  · exact (etherProgram_agrees p Dynamic.new ops).resolve_left (C76_ether_no_panic _ ops h)
  · exact (ipv4Program_agrees p Dynamic.new vops inner).resolve_left (C76_ipv4_no_panic _ vops inner h1 h2 h3)
  · exact (ethernetProgram_agrees p Dynamic.new eops vops inner).resolve_left
      (C76_ethernet_no_panic _ eops vops inner h1 h2 h3 h4 h5)
  · exact (icmpProgram_agrees p Dynamic.new inner).resolve_left (C76_icmp_no_panic _ inner h)

/-- `C121_dynamic` applies, to a frame with a UDP datagram in it; the common outcome is a packet of 46 bytes. -/
example (e w : Bool) :
    ethernetProgram (releaseBuild e w) Dynamic.new [.destination ⟨1, 2, 3, 4, 5, 6⟩]
      [.ttl 64] (.udp [.source 80, .payload [1, 2, 3, 4]]) =
    ethernetProgram (debugBuild e w) Dynamic.new [.destination ⟨1, 2, 3, 4, 5, 6⟩]
      [.ttl 64] (.udp [.source 80, .payload [1, 2, 3, 4]]) ∧
    (match ethernetProgram (debugBuild e w) Dynamic.new [.destination ⟨1, 2, 3, 4, 5, 6⟩]
      [.ttl 64] (.udp [.source 80, .payload [1, 2, 3, 4]]) with | .ok b => b.length == 46 | _ => false) = true :=
  ⟨(C121_dynamic e w).2.2.1 _ _ _ (by simp [EtherOp.Sane, EtherOp.payload?]) (by simp [V4Op.Sane, V4Op.payload?])
    (by cases w <;> simp [Inner.Sane, Inner.payloads, UdpOp.payload?, debugBuild, Cfg.usizeMod]) trivial (by intro h; cases h),
    by cases e <;> cases w <;> decide +kernel⟩

/-! ## Where the builds do differ -/

/-- C121, the "unless" is needed: four calls that panic in a debug build and go on in a release build.  A TCP segment of
which the 32-bit sum overflows gets a checksum; an option of length 0 is yielded again and again; the `as_ref()` of an
unchecked packet shorter than its header is the whole buffer; a buffer that is asked for more than there are addresses
becomes shorter. -/
theorem C121_differences (e w : Bool) :
    (∃ ip b, V4.new ip = .ok ip ∧ Tcp.new b = .ok b ∧ Tcp.checksumOf (debugBuild e w) (.v4 ip) b = .panic ∧
      ∃ c, Tcp.checksumOf (releaseBuild e w) (.v4 ip) b = .ok c) ∧
    (∃ b, Opt.new tcpOptKind b = .ok b ∧ (Opt.next (debugBuild e w) tcpOptKind b).1 = .panic ∧
      ∀ n, Opt.take (releaseBuild e w) tcpOptKind n b = (.ok (List.replicate n (.ok b)), b)) ∧
    (Ether.asRef (debugBuild e w) [1, 2, 3] = .panic ∧ Ether.asRef (releaseBuild e w) [1, 2, 3] = .ok [1, 2, 3]) ∧
    ((Buffer.more (debugBuild e w) ((debugBuild e w).usizeMod - 1) (Dynamic.mk [1, 2, 3] 1 2)).1 = .panic ∧
      Buffer.more (releaseBuild e w) ((debugBuild e w).usizeMod - 1) (Dynamic.mk [1, 2, 3] 1 2) = (.ok (), Dynamic.mk [1, 2] 1 1)) := by
  refine ⟨?_, ⟨[8, 0, 1], by decide, by cases e <;> cases w <;> rfl, fun n => ?_⟩, by cases e <;> cases w <;> decide, by cases e <;> cases w <;> decide⟩
  · obtain ⟨ip, b, h1, h2, h3, h4, -⟩ := large_segment
    have hip := (V4.new_ok_iff.1 h1).2.long
    have hb := (Tcp.new_ok_iff.1 h2).2.1
    refine ⟨ip, b, h1, h2, (C91_tcp_checksum_large_refuted (debugBuild e w) ip b hip hb (.inl h3) h4).1 rfl, ?_⟩
    rw [tcp_checksum_any _ ip b hip, if_neg]
    · exact ⟨_, rfl⟩
    · rintro (⟨h, -⟩ | ⟨h, -⟩)
      · omega
      · cases h
  · exact C31_zero_length_refuted e w [1] 8 (by decide) n

end Verif.Props
