import Verif.Spec.Numbers

/-!
# C40: the protocol, kind, code and option-number enums

The wire domain is finite, so the statements over it are settled by evaluating the whole domain in the
kernel (`u8`) or by case analysis (`u16`).
-/

namespace Verif.Props
open Verif

/-- A pair of conversions is lossless: wire → enum → wire is the identity, and enum → wire → enum is the
identity on every variant that is not the catch-all `Unknown`. -/
structure Lossless {W E : Type} (ofWire : W → E) (toWire : E → W) (unknown : W → E) : Prop where
  wire : ∀ v, toWire (ofWire v) = v
  variant : ∀ x, (∀ n, x ≠ unknown n) → ofWire (toWire x) = x

/-- C40: `ether::Protocol`. -/
theorem C40_ether_protocol :
    Lossless EtherProtocol.ofWire EtherProtocol.toWire EtherProtocol.unknown where
  wire v := by
    have step : ∀ {c : U16} {e rest : EtherProtocol}, rest.toWire = v → e.toWire = c →
        (if v = c then e else rest).toWire = v := by
      intro c e rest h1 h2
      split
      · rename_i h; rw [h2, h]
      · exact h1
    unfold EtherProtocol.ofWire
    iterate 23 refine step ?_ rfl
    rfl
  variant x h := by
    cases x <;> first | rfl | exact absurd rfl (h _)

/-- C40: `ip::Protocol`. -/
theorem C40_ip_protocol :
    Lossless IpProtocol.ofWire IpProtocol.toWire IpProtocol.unknown where
  wire := by decide +kernel
  variant x h := by
    cases x <;> first | rfl | exact absurd rfl (h _)

/-- C40: `icmp::Kind`. -/
theorem C40_icmp_kind : Lossless IcmpKind.ofWire IcmpKind.toWire IcmpKind.unknown where
  wire := by decide +kernel
  variant x h := by cases x <;> first | rfl | exact absurd rfl (h _)

/-- C40: the codes of the three ICMP messages that have named codes. -/
theorem C40_icmp_codes :
    Lossless CodeDestinationUnreachable.ofWire CodeDestinationUnreachable.toWire
      CodeDestinationUnreachable.unknown ∧
    Lossless CodeRedirectMessage.ofWire CodeRedirectMessage.toWire CodeRedirectMessage.unknown ∧
    Lossless CodeParameterProblem.ofWire CodeParameterProblem.toWire CodeParameterProblem.unknown :=
  ⟨⟨by decide +kernel, fun x h => by cases x <;> first | rfl | exact absurd rfl (h _)⟩,
   ⟨by decide +kernel, fun x h => by cases x <;> first | rfl | exact absurd rfl (h _)⟩,
   ⟨by decide +kernel, fun x h => by cases x <;> first | rfl | exact absurd rfl (h _)⟩⟩

/-- C40: TCP and IPv4 option numbers. -/
theorem C40_option_numbers :
    Lossless TcpOptNumber.ofWire TcpOptNumber.toWire TcpOptNumber.unknown ∧
    Lossless V4OptNumber.ofWire V4OptNumber.toWire V4OptNumber.unknown :=
  ⟨⟨by decide +kernel, fun x h => by cases x <;> first | rfl | exact absurd rfl (h _)⟩,
   ⟨by decide +kernel, fun x h => by cases x <;> first | rfl | exact absurd rfl (h _)⟩⟩

/-- C40 for `ip::v4::option::Class`: every two-bit class is lossless, and so are the
named variants. -/
theorem C40_v4_option_class :
    (∀ v : U8, v.toNat ≤ 3 → ∃ c, V4OptClass.ofWire v = .ok c ∧ c.toWire = v) ∧
    (∀ c : V4OptClass, (∀ n, c ≠ .reserved n) → V4OptClass.ofWire c.toWire = .ok c) := by
  constructor
  · intro v hv
    have : ∀ v : U8, v.toNat ≤ 3 → (match V4OptClass.ofWire v with
      | .ok c => decide (c.toWire = v) | _ => false) = true := by decide +kernel
    have h := this v hv
    cases e : V4OptClass.ofWire v with
    | ok c => rw [e] at h; exact ⟨c, rfl, by simpa using h⟩
    | err _ => rw [e] at h; cases h
    | panic => rw [e] at h; cases h
  · intro c h
    cases c <;> first | rfl | exact absurd rfl (h _)

/-- C40 is false of `Class`: `Class::from(v)` panics on every `u8` above 3. -/
theorem C40_v4_option_class_panics (v : U8) (h : 3 < v.toNat) : V4OptClass.ofWire v = .panic := by
  have : ∀ v : U8, 3 < v.toNat → V4OptClass.ofWire v = .panic := by decide +kernel
  exact this v h

example : (4#8).toNat > 3 := by decide

/-- C40, supplement: every name stands for the number the registries assign to it, in both directions,
and no named variant is missing from the lists. -/
theorem C40_assigned_numbers :
    ((∀ x ∈ Spec.etherTypes, x.1.toWire.toNat = x.2 ∧ EtherProtocol.ofWire (BitVec.ofNat 16 x.2) = x.1) ∧
      ∀ p : EtherProtocol, (∀ n, p ≠ .unknown n) → p ∈ Spec.etherTypes.map Prod.fst) ∧
    ((∀ x ∈ Spec.ipProtocols, x.1.toWire.toNat = x.2 ∧ IpProtocol.ofWire (BitVec.ofNat 8 x.2) = x.1) ∧
      ∀ p : IpProtocol, (∀ n, p ≠ .unknown n) → p ∈ Spec.ipProtocols.map Prod.fst) ∧
    ((∀ x ∈ Spec.icmpTypes, x.1.toWire.toNat = x.2 ∧ IcmpKind.ofWire (BitVec.ofNat 8 x.2) = x.1) ∧
      ∀ p : IcmpKind, (∀ n, p ≠ .unknown n) → p ∈ Spec.icmpTypes.map Prod.fst) ∧
    (∀ x ∈ Spec.unreachableCodes, x.1.toWire.toNat = x.2) ∧
    (∀ x ∈ Spec.redirectCodes, x.1.toWire.toNat = x.2) ∧
    (∀ x ∈ Spec.parameterCodes, x.1.toWire.toNat = x.2) ∧
    (∀ x ∈ Spec.tcpOptions, x.1.toWire.toNat = x.2) ∧
    (∀ x ∈ Spec.v4Options, x.1.toWire.toNat = x.2) := by
  refine ⟨⟨by decide +kernel, fun p h => ?_⟩, ⟨by decide +kernel, fun p h => ?_⟩,
    ⟨by decide +kernel, fun p h => ?_⟩, by decide +kernel, by decide +kernel, by decide +kernel,
    by decide +kernel, by decide +kernel⟩
  · cases p <;> first | exact absurd rfl (h _) | decide +kernel
  · cases p <;> first | exact absurd rfl (h _) | decide +kernel
  · cases p <;> first | exact absurd rfl (h _) | decide +kernel

/-- The catch-all is only produced for numbers without a name, so distinct wire values never collapse. -/
theorem C40_no_collapse :
    (∀ v w : U16, EtherProtocol.ofWire v = EtherProtocol.ofWire w → v = w) ∧
    (∀ v w : U8, IpProtocol.ofWire v = IpProtocol.ofWire w → v = w) ∧
    (∀ v w : U8, IcmpKind.ofWire v = IcmpKind.ofWire w → v = w) :=
  ⟨fun v w h => by rw [← C40_ether_protocol.wire v, h, C40_ether_protocol.wire],
   fun v w h => by rw [← C40_ip_protocol.wire v, h, C40_ip_protocol.wire],
   fun v w h => by rw [← C40_icmp_kind.wire v, h, C40_icmp_kind.wire]⟩

end Verif.Props
