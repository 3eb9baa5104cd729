import Verif.Props.Options
import Verif.Props.V4
import Verif.Props.Transport
import Verif.Samples

/-! # C29, C30 at the level of whole packets: `packet.options()` -/

namespace Verif.Props
open Verif Verif.Spec

/-- C30 for packets: an accepted IPv4 packet whose header carries the encoding of a list of options behind its
first 20 bytes yields exactly these options from `options()`, in order, and then ends. -/
theorem C30_v4_packet_options (cfg : Cfg) (b : Bytes) (h : V4.new b = .ok b) (h5 : 5 ≤ field b 4 4)
    (opts : List WireOption) (hopts : ∀ o ∈ opts, o.LegalV4) (tail : Bytes) (ht : IsOptionTail tail)
    (harea : (b.take (4 * field b 4 4)).drop 20 = encodeOptions opts ++ tail) (m : Nat) :
    ∃ area, V4.options b = .ok area ∧
    ∃ os : List Bytes, Opt.take cfg v4OptKind (opts.length + 1 + m) area = (.ok (os.map .ok), tail) ∧
      os.length = opts.length ∧
      ∀ (i : Nat) w o, opts[i]? = some w → os[i]? = some o →
        Shows cfg v4OptKind w o ∧
        V4Opt.isCopied o = .ok (decide (w.kind.toNat / 128 = 1)) ∧
        (∃ c, V4Opt.class_ o = .ok c ∧ c.toWire = BitVec.ofNat 8 (w.kind.toNat / 32 % 4)) ∧
        V4Opt.number o = .ok (V4OptNumber.ofWire (BitVec.ofNat 8 (w.kind.toNat % 32))) := by
  obtain ⟨-, -, -, -, -, -, -, -, -, -, -, -, -, -, -, -, -, ho⟩ := C13_v4_accessors_total cfg b h
  exact ⟨_, (ho h5).trans (congrArg _ harea), C30_v4_options cfg opts hopts tail ht m⟩

/-- A concrete case that meets the hypotheses. -/
example (cfg : Cfg) := C30_v4_packet_options cfg Sample.optionsPacket (by decide) (by decide) [.nop, .tlv 148 [0]]
    (by simp [WireOption.LegalV4]) [] (.inl rfl) (by decide)

/-- C29 for segments: the same for TCP. -/
theorem C29_tcp_segment_options (cfg : Cfg) (b : Bytes) (h : Tcp.new b = .ok b) (h5 : 5 ≤ field b 96 4)
    (opts : List WireOption) (hopts : ∀ o ∈ opts, o.LegalTcp) (tail : Bytes) (ht : IsOptionTail tail)
    (harea : (b.take (4 * field b 96 4)).drop 20 = encodeOptions opts ++ tail) (m : Nat) :
    ∃ area, Tcp.options b = .ok area ∧
    ∃ os : List Bytes, Opt.take cfg tcpOptKind (opts.length + 1 + m) area = (.ok (os.map .ok), tail) ∧
      os.length = opts.length ∧
      ∀ (i : Nat) w o, opts[i]? = some w → os[i]? = some o →
        Shows cfg tcpOptKind w o ∧ TcpOpt.number o = .ok (TcpOptNumber.ofWire w.kind) := by
  refine ⟨_, (C25_tcp_options b h h5).trans ?_, C29_tcp_options cfg opts hopts tail ht m⟩
  rw [Nat.mul_comm, harea]

/-- A SYN with maximum segment size, a no-operation and a window scale; the list is what the area encodes. -/
example : ∃ b : Bytes, Tcp.new b = .ok b ∧ 5 ≤ field b 96 4 ∧
    (b.take (4 * field b 96 4)).drop 20
      = encodeOptions [.tlv 2 [5, 0xb4], .nop, .tlv 3 [7]] ++ [] ∧
    Tcp.options b = .ok [2, 4, 5, 0xb4, 1, 3, 3, 7] :=
  ⟨[0, 80, 0, 81, 0, 0, 0, 1, 0, 0, 0, 0, 0x70, 2, 255, 255, 0, 0, 0, 0, 2, 4, 5, 0xb4, 1, 3, 3, 7],
    by decide, by decide, by decide, by decide⟩

/-- An IPv4 header with a router alert and an end of list. -/
example : ∃ b : Bytes, V4.new b = .ok b ∧ 5 ≤ field b 4 4 ∧
    (b.take (4 * field b 4 4)).drop 20 = encodeOptions [.tlv 148 [0, 0]] ++ [0, 0, 0, 0] ∧
    V4.options b = .ok [148, 4, 0, 0, 0, 0, 0, 0] :=
  ⟨[0x47, 0, 0, 28, 0, 0, 0, 0, 64, 2, 0, 0, 10, 0, 0, 1, 224, 0, 0, 22, 148, 4, 0, 0, 0, 0, 0, 0],
    by decide, by decide, by decide, by decide⟩

end Verif.Props
