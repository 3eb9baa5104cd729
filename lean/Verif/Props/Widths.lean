import Verif.Props.Profiles
import Verif.Props.Iterators

/-!
# C123: a debug build for a 32-bit target does what every other build does, unless it panics

`debugBuild e true` checks for overflow and has a 32-bit `usize`; `⟨oc, e, w⟩` is any build, with or without overflow
checks, for a 32-bit or a 64-bit target, with the same standard library.
-/

namespace Verif.Props
open Verif Verif.Spec

theorem narrowest (oc e w : Bool) : Stricter (debugBuild e true) ⟨oc, e, w⟩ := ⟨rfl, rfl, fun _ => rfl⟩

/-! ## Everything, for every input -/

/-- C123, packets: checksums, validity and `Debug` text, for every buffer, accepted or not. -/
theorem C123_packets (oc e w : Bool) (b : Bytes) (ip : IpPacket) :
    SameUnlessPanic (V4.checksumOf (debugBuild e true) b) (V4.checksumOf ⟨oc, e, w⟩ b) ∧
    SameUnlessPanic (Icmp.checksumOf (debugBuild e true) b) (Icmp.checksumOf ⟨oc, e, w⟩ b) ∧
    SameUnlessPanic (Udp.checksumOf (debugBuild e true) ip b) (Udp.checksumOf ⟨oc, e, w⟩ ip b) ∧
    SameUnlessPanic (Tcp.checksumOf (debugBuild e true) ip b) (Tcp.checksumOf ⟨oc, e, w⟩ ip b) ∧
    SameUnlessPanic (V4.isValid (debugBuild e true) b) (V4.isValid ⟨oc, e, w⟩ b) ∧
    SameUnlessPanic (Icmp.isValid (debugBuild e true) b) (Icmp.isValid ⟨oc, e, w⟩ b) ∧
    SameUnlessPanic (Udp.isValid (debugBuild e true) ip b) (Udp.isValid ⟨oc, e, w⟩ ip b) ∧
    SameUnlessPanic (Tcp.isValid (debugBuild e true) ip b) (Tcp.isValid ⟨oc, e, w⟩ ip b) ∧
    SameUnlessPanic (V4.debug (debugBuild e true) b) (V4.debug ⟨oc, e, w⟩ b) ∧
    SameUnlessPanic (Icmp.debug (debugBuild e true) b) (Icmp.debug ⟨oc, e, w⟩ b) ∧
    SameUnlessPanic (Previous.debug (debugBuild e true) b) (Previous.debug ⟨oc, e, w⟩ b) ∧
    SameUnlessPanic (Redirect.debug (debugBuild e true) b) (Redirect.debug ⟨oc, e, w⟩ b) ∧
    SameUnlessPanic (ParamProblem.debug (debugBuild e true) b) (ParamProblem.debug ⟨oc, e, w⟩ b) :=
  have p := narrowest oc e w
  ⟨p.v4Sum b, p.icmpSum b, p.udpSum ip b, p.tcpSum ip b, p.v4Valid b, p.icmpValid b, p.udpValid ip b, p.tcpValid ip b,
    p.v4Debug b, p.icmpDebug b, p.previousDebug b, p.redirectDebug b, p.problemDebug b⟩

/-- C123, every packet and option type: sizes, `as_ref()`, and anything done through `as_mut()`. -/
theorem C123_views (oc e w : Bool) (k : Kind)
    (hk : k ∈ [.ether, .v4, .v6, .udp, .tcp, .icmp, .echo, .timestamp, .information, .previous, .redirect,
      .parameterProblem, .option v4OptKind, .option tcpOptKind]) :
    (∀ b, SameUnlessPanic (k.payloadSize (debugBuild e true) b) (k.payloadSize ⟨oc, e, w⟩ b)) ∧
    (∀ b, SameUnlessPanic (k.size (debugBuild e true) b) (k.size ⟨oc, e, w⟩ b)) ∧
    (∀ b, SameUnlessPanic (k.asRef (debugBuild e true) b) (k.asRef ⟨oc, e, w⟩ b)) ∧
    (∀ v, SameUnlessPanicMut (k.writeAll (debugBuild e true) v) (k.writeAll ⟨oc, e, w⟩ v)) ∧
    (∀ f : Mut Bytes Unit, SameUnlessPanicMut (k.asPacketMut (debugBuild e true) f) (k.asPacketMut ⟨oc, e, w⟩ f)) := by
  have p := narrowest oc e w
  have main : k.Agrees (debugBuild e true) ⟨oc, e, w⟩ := by
    obtain ⟨h1, h2, h3, h4, h5, h6, h7, h8, h9, h10, h11, h12, h13⟩ := p.kinds
    simp only [List.mem_cons, List.mem_nil_iff, or_false] at hk
    rcases hk with rfl | rfl | rfl | rfl | rfl | rfl | rfl | rfl | rfl | rfl | rfl | rfl | rfl | rfl <;>
      first | assumption | exact h13 _
  exact ⟨main.payloadSize, main.size p, main.asRef, main.writeAll, fun f => main.inAll (.refl _)⟩

/-- A concrete case that meets the hypotheses. -/
example (oc e w : Bool) := C123_views oc e w .tcp (by simp)

/-- C123, editing: `update_checksum()`, guards, nested sessions through every layer of a frame, and the option
iterators. -/
theorem C123_sessions (oc e w : Bool) :
    SameUnlessPanicMut (V4.updateChecksum (debugBuild e true)) (V4.updateChecksum ⟨oc, e, w⟩) ∧
    (∀ ip, SameUnlessPanicMut (Udp.updateChecksum (debugBuild e true) ip) (Udp.updateChecksum ⟨oc, e, w⟩ ip)) ∧
    (∀ ip, SameUnlessPanicMut (Tcp.updateChecksum (debugBuild e true) ip) (Tcp.updateChecksum ⟨oc, e, w⟩ ip)) ∧
    (∀ ops, SameUnlessPanicMut (V4.checkedRun (debugBuild e true) ops) (V4.checkedRun ⟨oc, e, w⟩ ops)) ∧
    (∀ ip ops, SameUnlessPanicMut (Udp.checkedRun (debugBuild e true) ip ops) (Udp.checkedRun ⟨oc, e, w⟩ ip ops)) ∧
    (∀ ip ops, SameUnlessPanicMut (Tcp.checkedRun (debugBuild e true) ip ops) (Tcp.checkedRun ⟨oc, e, w⟩ ip ops)) ∧
    (∀ s : Icmp.Session, SameUnlessPanicMut (s.run (debugBuild e true)) (s.run ⟨oc, e, w⟩)) ∧
    (∀ eops vops uops, SameUnlessPanicMut
      (Ether.editStack eops (V4.editStack (debugBuild e true) vops (Udp.editIn (debugBuild e true) uops)))
      (Ether.editStack eops (V4.editStack ⟨oc, e, w⟩ vops (Udp.editIn ⟨oc, e, w⟩ uops)))) ∧
    (∀ eops vops tops, SameUnlessPanicMut
      (Ether.editStack eops (V4.editStack (debugBuild e true) vops (Tcp.editIn (debugBuild e true) tops)))
      (Ether.editStack eops (V4.editStack ⟨oc, e, w⟩ vops (Tcp.editIn ⟨oc, e, w⟩ tops)))) ∧
    (∀ k, SameUnlessPanicMut (Opt.next (debugBuild e true) k) (Opt.next ⟨oc, e, w⟩ k)) ∧
    (∀ k n, SameUnlessPanicMut (Opt.take (debugBuild e true) k n) (Opt.take ⟨oc, e, w⟩ k n)) :=
  have p := narrowest oc e w
  ⟨p.v4Update, p.udpUpdate, p.tcpUpdate, p.v4Checked, p.udpChecked, p.tcpChecked, p.session,
    fun eops vops uops => Spec.Stricter.etherStack eops (p.v4Stack vops fun ip =>
      SameUnlessPanicMut.editing (p.udpChecked ip uops)),
    fun eops vops tops => Spec.Stricter.etherStack eops (p.v4Stack vops fun ip =>
      SameUnlessPanicMut.editing (p.tcpChecked ip tops)),
    p.optNext, p.optTake⟩

/-- C123, builders: every program of builder calls, on every buffer of which the operations agree (`C121_buffers`: both
buffers of the crate), ends the same way, with the same packet, and leaves the same buffer. -/
theorem C123_programs (oc e w : Bool) {B : Type} [Buffer B] [SameBuffer B] (b : B) :
    (∀ ops, SameUnlessPanic (etherAt (debugBuild e true) b ops) (etherAt ⟨oc, e, w⟩ b ops)) ∧
    (∀ vops inner, SameUnlessPanic (ipv4At (debugBuild e true) b vops inner) (ipv4At ⟨oc, e, w⟩ b vops inner)) ∧
    (∀ eops vops inner, SameUnlessPanic (ethernetAt (debugBuild e true) b eops vops inner)
      (ethernetAt ⟨oc, e, w⟩ b eops vops inner)) ∧
    (∀ inner, SameUnlessPanic (icmpAt (debugBuild e true) b inner) (icmpAt ⟨oc, e, w⟩ b inner)) ∧
    (∀ ops, SameUnlessPanic (etherProgram (debugBuild e true) b ops) (etherProgram ⟨oc, e, w⟩ b ops)) ∧
    (∀ vops inner, SameUnlessPanic (ipv4Program (debugBuild e true) b vops inner) (ipv4Program ⟨oc, e, w⟩ b vops inner)) ∧
    (∀ eops vops inner, SameUnlessPanic (ethernetProgram (debugBuild e true) b eops vops inner)
      (ethernetProgram ⟨oc, e, w⟩ b eops vops inner)) ∧
    (∀ inner, SameUnlessPanic (icmpProgram (debugBuild e true) b inner) (icmpProgram ⟨oc, e, w⟩ b inner)) ∧
    (∀ ops, SameUnlessPanic (udpProgram (debugBuild e true) b ops) (udpProgram ⟨oc, e, w⟩ b ops)) ∧
    (∀ ops, SameUnlessPanic (tcpProgram (debugBuild e true) b ops) (tcpProgram ⟨oc, e, w⟩ b ops)) :=
  have p := narrowest oc e w
  ⟨etherAt_agrees p b, ipv4At_agrees p b, ethernetAt_agrees p b, icmpAt_agrees p b, etherProgram_agrees p b,
    ipv4Program_agrees p b, ethernetProgram_agrees p b, icmpProgram_agrees p b, udpProgram_agrees p b, tcpProgram_agrees p b⟩

/-- C123, builders: also when the program edits the packet through `as_packet_mut()` on the way, or adds finalizers of
its own. -/
theorem C123_programs_more (oc e w : Bool) {B : Type} [Buffer B] [SameBuffer B] (b : B) :
    (∀ ops, SameUnlessPanic (etherSteps (debugBuild e true) b ops) (etherSteps ⟨oc, e, w⟩ b ops)) ∧
    (∀ vops inner, SameUnlessPanic (ipv4Steps (debugBuild e true) b vops inner) (ipv4Steps ⟨oc, e, w⟩ b vops inner)) ∧
    (∀ eops vops inner, SameUnlessPanic (ethernetSteps (debugBuild e true) b eops vops inner)
      (ethernetSteps ⟨oc, e, w⟩ b eops vops inner)) ∧
    (∀ inner, SameUnlessPanic (icmpSteps (debugBuild e true) b inner) (icmpSteps ⟨oc, e, w⟩ b inner)) ∧
    (∀ calls, SameUnlessPanic (userEther (debugBuild e true) b calls) (userEther ⟨oc, e, w⟩ b calls)) ∧
    (∀ vcalls inner, SameUnlessPanic (userIpv4 (debugBuild e true) b vcalls inner) (userIpv4 ⟨oc, e, w⟩ b vcalls inner)) ∧
    (∀ ecalls fs vcalls inner, SameUnlessPanic (userEthernet (debugBuild e true) b ecalls fs vcalls inner)
      (userEthernet ⟨oc, e, w⟩ b ecalls fs vcalls inner)) :=
  have p := narrowest oc e w
  ⟨etherSteps_agrees p b, ipv4Steps_agrees p b, ethernetSteps_agrees p b, icmpSteps_agrees p b, userEther_agrees p b,
    userIpv4_agrees p b, userEthernet_agrees p b⟩

/-- C123, payloads from any iterator (C122): the other builds ask the same questions and end the same way, or are still
running when the 32-bit debug build is. -/
theorem C123_iterators (oc e w : Bool) {B : Type} [Buffer B] [SameBuffer B] (src : Source) (s : PayloadBuilder B)
    (rounds : Nat) :
    (∃ k, s.payloadFrom (debugBuild e true) src rounds = some (k, .panic)) ∨
      s.payloadFrom ⟨oc, e, w⟩ src rounds = s.payloadFrom (debugBuild e true) src rounds :=
  payloadFrom_profiles (narrowest oc e w) src s rounds

/-- C123, what a test on the small machine says: a program of builder calls that does not panic in the 32-bit debug build
ends the same way in every two builds. -/
theorem C123_tested (oc oc' e w w' : Bool) {B : Type} [Buffer B] [SameBuffer B] (b : B) :
    (∀ ops, etherAt (debugBuild e true) b ops ≠ .panic → etherAt ⟨oc, e, w⟩ b ops = etherAt ⟨oc', e, w'⟩ b ops) ∧
    (∀ vops inner, ipv4At (debugBuild e true) b vops inner ≠ .panic →
      ipv4At ⟨oc, e, w⟩ b vops inner = ipv4At ⟨oc', e, w'⟩ b vops inner) ∧
    (∀ eops vops inner, ethernetAt (debugBuild e true) b eops vops inner ≠ .panic →
      ethernetAt ⟨oc, e, w⟩ b eops vops inner = ethernetAt ⟨oc', e, w'⟩ b eops vops inner) ∧
    (∀ inner, icmpAt (debugBuild e true) b inner ≠ .panic → icmpAt ⟨oc, e, w⟩ b inner = icmpAt ⟨oc', e, w'⟩ b inner) := by
  have p := narrowest oc e w
  have q := narrowest oc' e w'
  exact ⟨fun ops h => ((etherAt_agrees p b ops).resolve_left h).trans ((etherAt_agrees q b ops).resolve_left h).symm,
    fun vops inner h => ((ipv4At_agrees p b vops inner).resolve_left h).trans
      ((ipv4At_agrees q b vops inner).resolve_left h).symm,
    fun eops vops inner h => ((ethernetAt_agrees p b eops vops inner).resolve_left h).trans
      ((ethernetAt_agrees q b eops vops inner).resolve_left h).symm,
    fun inner h => ((icmpAt_agrees p b inner).resolve_left h).trans ((icmpAt_agrees q b inner).resolve_left h).symm⟩

/-- A concrete case that meets the hypotheses: a UDP datagram in IPv4 in 64 bytes of storage. -/
example (oc oc' e w w' : Bool) := (C123_tested oc oc' e w w' (Slice.new (zeros 64))).2.1 Sample.vops (.udp Sample.udpHead)
  (by cases e <;> decide +kernel)

/-! ## Where nothing is large: no difference at all -/

/-- C123, checksums: every two builds with the same standard library compute the same, panics included; for TCP if the
segment has at most 131000 bytes (an IPv4 packet holds less than 65536). -/
theorem C123_checksums (oc oc' e w w' : Bool) (b : Bytes) (ip : IpPacket) :
    V4.checksumOf ⟨oc, e, w⟩ b = V4.checksumOf ⟨oc', e, w'⟩ b ∧
    Icmp.checksumOf ⟨oc, e, w⟩ b = Icmp.checksumOf ⟨oc', e, w'⟩ b ∧
    Udp.checksumOf ⟨oc, e, w⟩ ip b = Udp.checksumOf ⟨oc', e, w'⟩ ip b ∧
    (b.length ≤ 131000 → Tcp.checksumOf ⟨oc, e, w⟩ ip b = Tcp.checksumOf ⟨oc', e, w'⟩ ip b) ∧
    V4.isValid ⟨oc, e, w⟩ b = V4.isValid ⟨oc', e, w'⟩ b ∧
    Icmp.isValid ⟨oc, e, w⟩ b = Icmp.isValid ⟨oc', e, w'⟩ b ∧
    Udp.isValid ⟨oc, e, w⟩ ip b = Udp.isValid ⟨oc', e, w'⟩ ip b ∧
    (b.length ≤ 131000 → Tcp.isValid ⟨oc, e, w⟩ ip b = Tcp.isValid ⟨oc', e, w'⟩ ip b) := by
  have h1 : ∀ c, V4.checksumOf ⟨oc, e, w⟩ c = V4.checksumOf ⟨oc', e, w'⟩ c := fun c => by
    rw [V4.checksumOf_eq, V4.checksumOf_eq]
  have h2 : ∀ c, Icmp.checksumOf ⟨oc, e, w⟩ c = Icmp.checksumOf ⟨oc', e, w'⟩ c := fun c => by
    rw [Icmp.checksumOf_eq, Icmp.checksumOf_eq]
  have h3 : Udp.checksumOf ⟨oc, e, w⟩ ip b = Udp.checksumOf ⟨oc', e, w'⟩ ip b := by
    cases ip with
    | v6 p => rfl
    | v4 p =>
      by_cases h : 20 ≤ p.length
      · rw [Udp.checksumOf_eq _ _ _ h, Udp.checksumOf_eq _ _ _ h]
      · obtain ⟨-, -, -, -, -, -, -, -, -, -, -, hd⟩ := C96_v4_unchecked
        have hd := (hd p).2 (by omega)
        simp only [Udp.checksumOf, hd]
        cases V4.source p <;> rfl
  have h4 : b.length ≤ 131000 → Tcp.checksumOf ⟨oc, e, w⟩ ip b = Tcp.checksumOf ⟨oc', e, w'⟩ ip b := by
    intro hb
    cases ip with
    | v6 p => rfl
    | v4 p =>
      by_cases h : 20 ≤ p.length
      · rw [Tcp.checksumOf_eq _ _ _ h hb, Tcp.checksumOf_eq _ _ _ h hb]
      · obtain ⟨-, -, -, -, -, -, -, -, -, -, -, hd⟩ := C96_v4_unchecked
        have hd := (hd p).2 (by omega)
        simp only [Tcp.checksumOf, hd]
        cases V4.source p <;> rfl
  refine ⟨h1 b, h2 b, h3, h4, ?_, ?_, ?_, fun hb => ?_⟩
  · unfold V4.isValid; simp only [h1]
  · unfold Icmp.isValid; simp only [h2]
  · unfold Udp.isValid; rw [h3]
  · unfold Tcp.isValid; rw [h4 hb]

/-- C123, views of accepted packets shorter than 2^32 bytes: no difference between any two builds, even with different
standard libraries. -/
theorem C123_accepted_views (c d : Cfg) (b : Bytes) (hb : b.length < 2 ^ 32) (k : Kind)
    (hk : k ∈ [.ether, .v4, .v6, .udp, .tcp, .icmp, .echo, .timestamp, .information, .previous, .redirect,
      .parameterProblem]) (h : k.new b = .ok b) : SameViews k c d b :=
  accepted_views c d b (by have := d.width; omega) (by have := c.width; omega) k hk h

/-- `C123_accepted_views` applies: an accepted UDP datagram with two bytes of payload. -/
example (c d : Cfg) : SameViews .udp c d [0, 80, 0, 90, 0, 10, 0, 0, 7, 7] :=
  C123_accepted_views c d _ (by decide) .udp (by simp) (by decide)

/-- C123, builders on a fresh `buffer::Dynamic`: a program whose payloads fit in a quarter of the smaller address space, and
whose TCP calls do not panic anyway (`TcpSafe`), gives the same packet or the same error in every two builds. -/
theorem C123_dynamic (oc oc' e w w' : Bool) :
    (∀ ops : List EtherOp, (∀ op ∈ ops, op.Sane (debugBuild e true)) →
      etherProgram ⟨oc, e, w⟩ Dynamic.new ops = etherProgram ⟨oc', e, w'⟩ Dynamic.new ops) ∧
    (∀ (vops : List V4Op) (inner : Inner), (∀ op ∈ vops, op.Sane (debugBuild e true)) → inner.Sane (debugBuild e true) →
      TcpSafe (debugBuild e true) inner →
      ipv4Program ⟨oc, e, w⟩ Dynamic.new vops inner = ipv4Program ⟨oc', e, w'⟩ Dynamic.new vops inner) ∧
    (∀ (eops : List EtherOp) (vops : List V4Op) (inner : Inner), (∀ op ∈ eops, op.Sane (debugBuild e true)) →
      (∀ op ∈ vops, op.Sane (debugBuild e true)) → inner.Sane (debugBuild e true) → TcpSafe (debugBuild e true) inner →
      (inner = .plain → ∀ v ∈ vops.filterMap V4Op.payload?, v.length < 44) →
      ethernetProgram ⟨oc, e, w⟩ Dynamic.new eops vops inner = ethernetProgram ⟨oc', e, w'⟩ Dynamic.new eops vops inner) ∧
    (∀ inner : IcmpInner, (Inner.icmp inner).Sane (debugBuild e true) →
      icmpProgram ⟨oc, e, w⟩ Dynamic.new inner = icmpProgram ⟨oc', e, w'⟩ Dynamic.new inner) := by
  have p := narrowest oc e w
  have q := narrowest oc' e w'
  refine ⟨fun ops h => ?_, fun vops inner h1 h2 h3 => ?_, fun eops vops inner h1 h2 h3 h4 h5 => ?_, fun inner h => ?_⟩
  · have := C76_ether_no_panic _ ops h
    exact ((etherProgram_agrees p Dynamic.new ops).resolve_left this).trans
      ((etherProgram_agrees q Dynamic.new ops).resolve_left this).symm
  · have := C76_ipv4_no_panic _ vops inner h1 h2 h3
    exact ((ipv4Program_agrees p Dynamic.new vops inner).resolve_left this).trans
      ((ipv4Program_agrees q Dynamic.new vops inner).resolve_left this).symm
  · have := C76_ethernet_no_panic _ eops vops inner h1 h2 h3 h4 h5
    exact ((ethernetProgram_agrees p Dynamic.new eops vops inner).resolve_left this).trans
      ((ethernetProgram_agrees q Dynamic.new eops vops inner).resolve_left this).symm
  · have := C76_icmp_no_panic _ inner h
    exact ((icmpProgram_agrees p Dynamic.new inner).resolve_left this).trans
      ((icmpProgram_agrees q Dynamic.new inner).resolve_left this).symm

/-- `C123_dynamic` applies, to a frame with a UDP datagram in it. -/
example (oc oc' e w w' : Bool) :=
  (C123_dynamic oc oc' e w w').2.2.1 Sample.eops Sample.vops (.udp Sample.uops)
    (by simp only [debugBuild]; sample_calls) (by simp only [debugBuild]; sample_calls) (by simp only [debugBuild]; sample_calls) trivial (by intro h; cases h)

/-! ## Where the targets do differ -/

/-- C123, the "unless" is needed: a layer of 2^31 bytes can be had on a 64-bit target only, and a static buffer that is
asked for more than a 32-bit target has addresses refuses properly on a 64-bit target and panics on a 32-bit one, with and
without overflow checks. -/
theorem C123_differences (oc e : Bool) :
    ((Buffer.next ⟨oc, e, true⟩ (2 ^ 31) Dynamic.new).1 = .panic ∧
      (Buffer.next ⟨oc, e, false⟩ (2 ^ 31) Dynamic.new).1 = .ok ()) ∧
    (Buffer.next ⟨oc, e, true⟩ (2 ^ 32 - 1) (Slice.mk [1, 2, 3] 1 2 3)).1 = .panic ∧
    Buffer.next ⟨oc, e, false⟩ (2 ^ 32 - 1) (Slice.mk [1, 2, 3] 1 2 3) = (.err .smallBuffer, Slice.mk [1, 2, 3] 1 2 3) ∧
    (Buffer.more ⟨oc, e, true⟩ (2 ^ 32 - 1) (Slice.mk [1, 2, 3] 1 2 3)).1 = .panic ∧
    Buffer.more ⟨oc, e, false⟩ (2 ^ 32 - 1) (Slice.mk [1, 2, 3] 1 2 3) = (.err .smallBuffer, Slice.mk [1, 2, 3] 1 2 3) := by
  refine ⟨⟨by cases oc <;> cases e <;> decide, ?_⟩, by cases oc <;> cases e <;> decide, by cases oc <;> cases e <;> decide,
    by cases oc <;> cases e <;> decide, by cases oc <;> cases e <;> decide⟩
  obtain ⟨b, h, -⟩ := DynRep.new.next ⟨oc, e, false⟩ (n := 2 ^ 31) (by show 0 + 0 + 2 ^ 31 ≤ 2 ^ 63 - 1; decide)
  exact congrArg Prod.fst h

end Verif.Props
