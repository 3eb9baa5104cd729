import Verif.Model.Kinds
import Verif.Props.Ether
import Verif.Props.V4
import Verif.Props.Transport
import Verif.Props.Icmp
import Verif.Samples

/-! # C56, C57: the size traits -/

namespace Verif.Props
open Verif Verif.Spec

/-- The size traits describe the slices of the packet. -/
def SizesAgree (k : Kind) (cfg : Cfg) (b : Bytes) : Prop :=
  ∃ h p, k.header b = .ok h ∧ k.payload b = .ok p ∧ k.headerSize b = .ok h.length ∧
    k.payloadSize cfg b = .ok p.length ∧ k.asRef cfg b = .ok (h ++ p)

/-- C78 for the six packet types for which it holds without condition. -/
theorem C78_sizes_agree (cfg : Cfg) (b : Bytes) (hb : b.length < cfg.usizeMod) :
    (Ether.new b = .ok b → SizesAgree .ether cfg b) ∧
    (V4.new b = .ok b → SizesAgree .v4 cfg b) ∧
    (V6.new b = .ok b → SizesAgree .v6 cfg b) ∧
    (Udp.new b = .ok b → SizesAgree .udp cfg b) ∧
    (Tcp.new b = .ok b → SizesAgree .tcp cfg b) ∧
    (Icmp.new b = .ok b → SizesAgree .icmp cfg b) ∧
    (Echo.new b = .ok b → SizesAgree .echo cfg b) := by
  refine ⟨fun h => ?_, fun h => ?_, fun h => ?_, fun h => ?_, fun h => ?_, fun h => ?_, fun h => ?_⟩
  · obtain ⟨-, -, -, e1, e2, e3, e4, e5⟩ := C10_ether_views cfg b hb h
    have hl : 14 ≤ b.length := by
      rw [C10_ether_accept] at h; split at h
      · assumption
      · cases h
    refine ⟨_, _, e1, e2, ?_, ?_, ?_⟩
    · rw [List.length_take, Nat.min_eq_left hl]; exact e4
    · rw [List.length_drop]; exact e5
    · rw [List.take_append_drop]; exact e3
  · obtain ⟨-, -, hd, pl, e1, e2, e3, e4, e5, -⟩ := C15_v4_split b h
    exact ⟨hd, pl, e1, e2, e4, e5, e3⟩
  · exact ⟨[], [], rfl, rfl, rfl, rfl, rfl⟩
  · obtain ⟨e1, e2, e3, e4, e5, e6⟩ := C21_udp_views b h
    have hl := (Udp.new_ok_iff.1 h).2.1
    refine ⟨_, _, e1, e2, ?_, ?_, e6⟩
    · rw [List.length_take, Nat.min_eq_left hl]; exact e3
    · rw [e5]; exact e4
  · obtain ⟨e1, e2, e3, e4, e5⟩ := C24_tcp_views cfg b hb h
    obtain ⟨-, h1, h2⟩ := Tcp.new_ok_iff.1 h
    refine ⟨_, _, e1, e2, ?_, ?_, ?_⟩
    · rw [List.length_take, Nat.min_eq_left h2]; exact e3
    · rw [List.length_drop]; exact e4
    · rw [List.take_append_drop]; exact e5
  · obtain ⟨-, -, -, e1, e2, e3, e4, e5, -⟩ := C34_icmp_views cfg b hb h
    have hl : 4 ≤ b.length := by
      rw [C34_icmp_accept] at h; split at h
      · assumption
      · cases h
    refine ⟨_, _, e1, e2, ?_, ?_, ?_⟩
    · rw [List.length_take, Nat.min_eq_left hl]; exact e3
    · rw [List.length_drop]; exact e4
    · rw [List.take_append_drop]; exact e5
  · obtain ⟨-, -, -, -, -, e1, e2, e3, e4, e5⟩ := C36_echo_fields cfg b hb h
    obtain ⟨hl, -⟩ := echo_ok h
    refine ⟨_, _, e1, e2, ?_, ?_, ?_⟩
    · rw [List.length_take, Nat.min_eq_left hl]; exact e3
    · rw [List.length_drop]; exact e4
    · rw [List.take_append_drop]; exact e5

/-- A concrete case that meets the hypotheses. -/
example (cfg : Cfg) := C78_sizes_agree cfg Sample.udpPacket (by in_every_build)

theorem quoted_ok {b : Bytes} (h : Previous.new b = .ok b ∨ Redirect.new b = .ok b ∨ ParamProblem.new b = .ok b) :
    8 ≤ b.length := by
  obtain ⟨-, -, -, e4, e5, e6⟩ := C35_icmp_typed_accept b
  rcases h with h | h | h
  · rw [e4] at h; split at h
    · cases h
    · omega
  · rw [e5] at h; split at h
    · cases h
    · omega
  · rw [e6] at h; split at h
    · cases h
    · omega

theorem previous_split {b : Bytes} (hl : 8 ≤ b.length) : Previous.split b = .ok (b.take 4, b.drop 8) := by
  unfold Previous.split
  rw [splitAt_ok hl, Outcome.ok_bind, sliceTo_ok (by rw [List.length_take]; omega), Outcome.ok_bind,
    List.take_take]
  rfl

theorem paramProblem_split {b : Bytes} (hl : 8 ≤ b.length) :
    ParamProblem.split b = .ok (b.take 5, b.drop 8) := by
  unfold ParamProblem.split
  rw [splitAt_ok hl, Outcome.ok_bind, sliceTo_ok (by rw [List.length_take]; omega), Outcome.ok_bind,
    List.take_take]
  rfl

/-- The payload size of a message that quotes a packet: the length of the quoted IPv4 header if the quoted
packet parses, otherwise everything behind the first eight bytes. -/
theorem quotedPayloadSize_eq (cfg : Cfg) (b : Bytes) (hl : 8 ≤ b.length) :
    quotedPayloadSize cfg b = .ok (if V4.new (b.drop 8) = .ok (b.drop 8) then 4 * field b 68 4
      else b.length - 8) := by
  unfold quotedPayloadSize
  have hq : quotedPacket b = V4.new (b.drop 8) := by
    unfold quotedPacket; rw [sliceFrom_ok hl]; rfl
  rw [hq]
  by_cases hv : V4.new (b.drop 8) = .ok (b.drop 8)
  · have hok := (V4.new_ok_iff.1 hv).2
    have := hok.long
    rw [hv, if_pos rfl]
    show V4.headerSize (b.drop 8) = _
    rw [V4.headerSize_eq (by omega), field_drop b 8 4 4, Nat.mul_comm]
  · rw [if_neg hv]
    have nn : V4.new (b.drop 8) ≠ .panic := by
      rw [V4.new_eq]; repeat' split
      all_goals (intro h; cases h)
    cases hr : V4.new (b.drop 8) with
    | ok ip =>
      exfalso
      apply hv
      rw [hr, (V4.new_ok_iff.1 hr).1]
    | err e => exact subUsize_ok hl
    | panic => exact absurd hr nn

/-- C78 for the other five types: exactly when the size traits agree with the slices. -/
theorem C78_sizes_agree_iff (cfg : Cfg) (b : Bytes) (hb : b.length < cfg.usizeMod) :
    (Timestamp.new b = .ok b → ¬ SizesAgree .timestamp cfg b) ∧
    (Information.new b = .ok b → (SizesAgree .information cfg b ↔ b.length = 8)) ∧
    (Previous.new b = .ok b → ¬ SizesAgree .previous cfg b) ∧
    (ParamProblem.new b = .ok b → ¬ SizesAgree .parameterProblem cfg b) ∧
    (Redirect.new b = .ok b → (SizesAgree .redirect cfg b ↔
      (V4.new (b.drop 8) = .ok (b.drop 8) → b.length = 8 + 4 * field b 68 4))) := by
  refine ⟨fun h => ?_, fun h => ?_, fun h => ?_, fun h => ?_, fun h => ?_⟩
  · obtain ⟨hl, -⟩ := timestamp_ok h
    rintro ⟨hd, p, h1, -, h3, -⟩
    have e : Kind.timestamp.header b = .ok (b.take 8) := by
      show (Timestamp.split b >>= fun s => Outcome.ok s.1) = _
      unfold Timestamp.split; rw [splitAt_ok (by omega)]; rfl
    rw [e] at h1
    cases h1
    have : Outcome.ok 20 = Outcome.ok (b.take 8).length := h3
    injection this with this
    rw [List.length_take] at this
    omega
  · obtain ⟨hl, -⟩ := information_ok h
    have e1 : Kind.information.header b = .ok (b.take 8) := by
      show (Information.split b >>= fun s => Outcome.ok s.1) = _
      unfold Information.split; rw [splitAt_ok hl]; rfl
    have e2 : Kind.information.payload b = .ok (b.drop 8) := by
      show (Information.split b >>= fun s => Outcome.ok s.2) = _
      unfold Information.split; rw [splitAt_ok hl]; rfl
    constructor
    · rintro ⟨hd, p, h1, h2, h3, h4, -⟩
      rw [e2] at h2
      cases h2
      have : Outcome.ok 0 = Outcome.ok (b.drop 8).length := h4
      injection this with this
      rw [List.length_drop] at this
      omega
    · intro h8
      refine ⟨_, _, e1, e2, ?_, ?_, ?_⟩
      · rw [List.length_take, Nat.min_eq_left hl]; rfl
      · rw [List.length_drop, h8]; rfl
      · show (sliceTo b 8) = _
        rw [sliceTo_ok hl, List.drop_eq_nil_of_le (by omega), List.append_nil]
  · have hl := quoted_ok (.inl h)
    rintro ⟨hd, p, h1, -, h3, -⟩
    have e : Kind.previous.header b = .ok (b.take 4) := by
      show (Previous.split b >>= fun s => Outcome.ok s.1) = _
      rw [previous_split hl]; rfl
    rw [e] at h1
    cases h1
    have : Outcome.ok 8 = Outcome.ok (b.take 4).length := h3
    injection this with this
    rw [List.length_take] at this
    omega
  · have hl := quoted_ok (.inr (.inr h))
    rintro ⟨hd, p, h1, -, h3, -⟩
    have e : Kind.parameterProblem.header b = .ok (b.take 5) := by
      show (ParamProblem.split b >>= fun s => Outcome.ok s.1) = _
      rw [paramProblem_split hl]; rfl
    rw [e] at h1
    cases h1
    have : Outcome.ok 8 = Outcome.ok (b.take 5).length := h3
    injection this with this
    rw [List.length_take] at this
    omega
  · have hl := quoted_ok (.inr (.inl h))
    have e1 : Kind.redirect.header b = .ok (b.take 8) := by
      show (Redirect.split b >>= fun s => Outcome.ok s.1) = _
      unfold Redirect.split; rw [splitAt_ok hl]; rfl
    have e2 : Kind.redirect.payload b = .ok (b.drop 8) := by
      show (Redirect.split b >>= fun s => Outcome.ok s.2) = _
      unfold Redirect.split; rw [splitAt_ok hl]; rfl
    have hps := quotedPayloadSize_eq cfg b hl
    constructor
    · rintro ⟨hd, p, h1, h2, h3, h4, -⟩ hv
      rw [e2] at h2
      cases h2
      have := hps.symm.trans h4
      injection this with this
      rw [if_pos hv, List.length_drop] at this
      omega
    · intro hv
      have hsz : quotedPayloadSize cfg b = .ok (b.length - 8) := by
        rw [hps]
        split
        · rename_i hq
          have := hv hq
          congr 1
          omega
        · rfl
      refine ⟨_, _, e1, e2, ?_, ?_, ?_⟩
      · rw [List.length_take, Nat.min_eq_left hl]; rfl
      · rw [List.length_drop]; exact hsz
      · show quotedAsRef cfg b = _
        unfold quotedAsRef
        rw [hsz, Outcome.ok_bind, addUsize_ok (by omega), Outcome.ok_bind, sliceTo_ok (by omega),
          List.take_of_length_le (by omega), List.take_append_drop]

/-- A concrete case that meets the hypotheses. -/
example (cfg : Cfg) := C78_sizes_agree_iff cfg Sample.udpPacket (by in_every_build)

/-- C57 is false of the code: a timestamp message, an information message with four bytes of data, a
destination-unreachable, a parameter-problem and a redirect message whose sizes and slices differ. -/
theorem C57_refuted (cfg : Cfg) :
    (∃ b, Timestamp.new b = .ok b ∧ ¬ SizesAgree .timestamp cfg b) ∧
    (∃ b, Information.new b = .ok b ∧ ¬ SizesAgree .information cfg b) ∧
    (∃ b, Previous.new b = .ok b ∧ ¬ SizesAgree .previous cfg b) ∧
    (∃ b, ParamProblem.new b = .ok b ∧ ¬ SizesAgree .parameterProblem cfg b) ∧
    (∃ b, Redirect.new b = .ok b ∧ ¬ SizesAgree .redirect cfg b) := by
  refine ⟨⟨13 :: zeros 19, by decide, ?_⟩, ⟨15 :: zeros 11, by decide, ?_⟩, ⟨3 :: zeros 7, by decide, ?_⟩,
    ⟨12 :: zeros 7, by decide, ?_⟩, ⟨5 :: zeros 7 ++ [0x45, 0, 0, 21] ++ zeros 17, by decide, ?_⟩⟩
  · exact (C78_sizes_agree_iff cfg _ (by in_every_build)).1 (by decide)
  · rw [(C78_sizes_agree_iff cfg _ (by in_every_build)).2.1 (by decide)]; decide
  · exact (C78_sizes_agree_iff cfg _ (by in_every_build)).2.2.1 (by decide)
  · exact (C78_sizes_agree_iff cfg _ (by in_every_build)).2.2.2.1 (by decide)
  · rw [(C78_sizes_agree_iff cfg _ (by in_every_build)).2.2.2.2 (by decide)]; decide

/-! ## C56 -/

/-- The header size lies between the type's bounds. -/
def HeaderBounded (k : Kind) (b : Bytes) : Prop :=
  ∃ n, k.headerSize b = .ok n ∧ k.headerMin ≤ n ∧ n ≤ k.headerMax

/-- The payload size lies between the type's bounds (no upper bound where the type declares none). -/
def PayloadBounded (k : Kind) (cfg : Cfg) (b : Bytes) : Prop :=
  ∃ n, k.payloadSize cfg b = .ok n ∧ k.payloadMin ≤ n ∧ ∀ m, k.payloadMax = some m → n ≤ m

theorem headerBounded_iff {k : Kind} {b : Bytes} {n : Nat} (h : k.headerSize b = .ok n) :
    HeaderBounded k b ↔ k.headerMin ≤ n ∧ n ≤ k.headerMax := by
  constructor
  · rintro ⟨m, h1, h2⟩
    rw [h] at h1
    cases h1
    exact h2
  · intro h2; exact ⟨n, h, h2⟩

theorem payloadBounded_iff {k : Kind} {cfg : Cfg} {b : Bytes} {n : Nat} (h : k.payloadSize cfg b = .ok n) :
    PayloadBounded k cfg b ↔ k.payloadMin ≤ n ∧ ∀ m, k.payloadMax = some m → n ≤ m := by
  constructor
  · rintro ⟨m, h1, h2⟩
    rw [h] at h1
    cases h1
    exact h2
  · intro h2; exact ⟨n, h, h2⟩

/-- C79, header bounds: for every accepted packet exactly when they hold.  They hold for every type except
IPv4 packets with an IHL below 5 and TCP segments with a data offset below 5, which are accepted. -/
theorem C79_header_bounds_iff (cfg : Cfg) (b : Bytes) (hb : b.length < cfg.usizeMod) :
    (Ether.new b = .ok b → HeaderBounded .ether b) ∧
    (V4.new b = .ok b → (HeaderBounded .v4 b ↔ 5 ≤ field b 4 4)) ∧
    (V6.new b = .ok b → HeaderBounded .v6 b) ∧
    (Udp.new b = .ok b → HeaderBounded .udp b) ∧
    (Tcp.new b = .ok b → (HeaderBounded .tcp b ↔ 5 ≤ field b 96 4)) ∧
    (Icmp.new b = .ok b → HeaderBounded .icmp b) ∧
    (Echo.new b = .ok b → HeaderBounded .echo b) ∧
    (Timestamp.new b = .ok b → HeaderBounded .timestamp b) ∧
    (Information.new b = .ok b → HeaderBounded .information b) ∧
    (Previous.new b = .ok b → HeaderBounded .previous b) ∧
    (Redirect.new b = .ok b → HeaderBounded .redirect b) ∧
    (ParamProblem.new b = .ok b → HeaderBounded .parameterProblem b) := by
  refine ⟨fun _ => ⟨14, rfl, by decide, by decide⟩, fun h => ?_, fun _ => ⟨0, rfl, by decide, by decide⟩,
    fun _ => ⟨8, rfl, by decide, by decide⟩, fun h => ?_, fun _ => ⟨4, rfl, by decide, by decide⟩,
    fun _ => ⟨8, rfl, by decide, by decide⟩, fun _ => ⟨20, rfl, by decide, by decide⟩,
    fun _ => ⟨8, rfl, by decide, by decide⟩, fun _ => ⟨8, rfl, by decide, by decide⟩,
    fun _ => ⟨8, rfl, by decide, by decide⟩, fun _ => ⟨8, rfl, by decide, by decide⟩⟩
  · have := (V4.new_ok_iff.1 h).2.long
    rw [headerBounded_iff (n := field b 4 4 * 4) (V4.headerSize_eq (by omega))]
    show 20 ≤ _ ∧ _ ≤ 60 ↔ _
    have := field_lt b 4 4
    omega
  · rw [headerBounded_iff (n := field b 96 4 * 4) (C24_tcp_views cfg b hb h).2.2.1]
    show 20 ≤ _ ∧ _ ≤ 60 ↔ _
    have := field_lt b 96 4
    omega

/-- A concrete case that meets the hypotheses. -/
example (cfg : Cfg) := C79_header_bounds_iff cfg Sample.udpPacket (by in_every_build)

/-- C79, payload bounds: for every accepted packet exactly when they hold. -/
theorem C79_payload_bounds_iff (cfg : Cfg) (b : Bytes) (hb : b.length < cfg.usizeMod) :
    (Ether.new b = .ok b → (PayloadBounded .ether cfg b ↔ b.length ≤ 1500)) ∧
    (V4.new b = .ok b → (PayloadBounded .v4 cfg b ↔ field b 16 16 ≤ 65475 + 4 * field b 4 4)) ∧
    (V6.new b = .ok b → PayloadBounded .v6 cfg b) ∧
    (Udp.new b = .ok b → PayloadBounded .udp cfg b) ∧
    (Tcp.new b = .ok b → (PayloadBounded .tcp cfg b ↔ b.length ≤ 65475 + 4 * field b 96 4)) ∧
    (Icmp.new b = .ok b → PayloadBounded .icmp cfg b) ∧
    (Echo.new b = .ok b → PayloadBounded .echo cfg b) ∧
    (Timestamp.new b = .ok b → PayloadBounded .timestamp cfg b) ∧
    (Information.new b = .ok b → PayloadBounded .information cfg b) ∧
    ((Previous.new b = .ok b ∨ Redirect.new b = .ok b ∨ ParamProblem.new b = .ok b) →
      (PayloadBounded .previous cfg b ↔
        if V4.new (b.drop 8) = .ok (b.drop 8) then 5 ≤ field b 68 4 else 28 ≤ b.length ∧ b.length ≤ 68) ∧
      (PayloadBounded .redirect cfg b ↔ PayloadBounded .previous cfg b) ∧
      (PayloadBounded .parameterProblem cfg b ↔ PayloadBounded .previous cfg b)) := by
  refine ⟨fun h => ?_, fun h => ?_, fun _ => ⟨0, rfl, by decide, fun m h => by cases h; decide⟩, fun h => ?_,
    fun h => ?_, fun h => ?_, fun h => ?_, fun _ => ⟨0, rfl, by decide, fun m h => by cases h; decide⟩,
    fun _ => ⟨0, rfl, by decide, fun m h => by cases h; decide⟩, fun h => ⟨?_, Iff.rfl, Iff.rfl⟩⟩
  · rw [payloadBounded_iff (n := b.length - 14) (C10_ether_views cfg b hb h).2.2.2.2.2.2.2]
    constructor
    · rintro ⟨-, h2⟩
      have : b.length - 14 ≤ 1486 := h2 _ rfl
      omega
    · intro h2
      refine ⟨Nat.zero_le _, fun m hm => ?_⟩
      cases hm
      show b.length - 14 ≤ 1486
      omega
  · have := (V4.new_ok_iff.1 h).2.long
    rw [payloadBounded_iff (k := .v4) (n := field b 16 16 - field b 4 4 * 4) (V4.payloadSize_eq (by omega))]
    constructor
    · rintro ⟨-, h2⟩
      have : field b 16 16 - field b 4 4 * 4 ≤ 65475 := h2 _ rfl
      omega
    · intro h2
      refine ⟨Nat.zero_le _, fun m hm => ?_⟩
      cases hm
      show field b 16 16 - field b 4 4 * 4 ≤ 65475
      omega
  · refine ⟨_, (C21_udp_views b h).2.2.2.1, Nat.zero_le _, fun m hm => ?_⟩
    cases hm
    have := field_lt b 32 16
    show field b 32 16 - 8 ≤ 65527
    omega
  · rw [payloadBounded_iff (n := b.length - field b 96 4 * 4) (C24_tcp_views cfg b hb h).2.2.2.1]
    constructor
    · rintro ⟨-, h2⟩
      have : b.length - field b 96 4 * 4 ≤ 65475 := h2 _ rfl
      omega
    · intro h2
      refine ⟨Nat.zero_le _, fun m hm => ?_⟩
      cases hm
      show b.length - field b 96 4 * 4 ≤ 65475
      omega
  · exact ⟨_, (C34_icmp_views cfg b hb h).2.2.2.2.2.2.1, Nat.zero_le _, fun m hm => by cases hm⟩
  · exact ⟨_, (C36_echo_fields cfg b hb h).2.2.2.2.2.2.2.2.1, Nat.zero_le _, fun m hm => by cases hm⟩
  · have hl := quoted_ok h
    rw [payloadBounded_iff (k := .previous) (quotedPayloadSize_eq cfg b hl)]
    have h68 := field_lt b 68 4
    constructor
    · rintro ⟨h1, h2⟩
      have h1 : 20 ≤ _ := h1
      have h2 : _ ≤ 60 := h2 60 rfl
      split at h1 <;> rename_i hc
      · rw [if_pos hc] at *; omega
      · rw [if_neg hc] at *; omega
    · intro h2
      split at h2 <;> rename_i hc
      · rw [if_pos hc]
        refine ⟨show 20 ≤ _ by omega, fun m hm => ?_⟩
        cases hm
        show _ ≤ 60
        omega
      · rw [if_neg hc]
        refine ⟨show 20 ≤ _ by omega, fun m hm => ?_⟩
        cases hm
        show _ ≤ 60
        omega

/-- A concrete case that meets the hypotheses. -/
example (cfg : Cfg) := C79_payload_bounds_iff cfg Sample.udpPacket (by in_every_build)

/-- C56 is false of the code: accepted packets outside the bounds. -/
theorem C56_refuted (cfg : Cfg) :
    (∃ b, V4.new b = .ok b ∧ ¬ HeaderBounded .v4 b) ∧
    (∃ b, Tcp.new b = .ok b ∧ ¬ HeaderBounded .tcp b) ∧
    (∃ b, Ether.new b = .ok b ∧ ¬ PayloadBounded .ether cfg b) ∧
    (∃ b, Previous.new b = .ok b ∧ ¬ PayloadBounded .previous cfg b) := by
  have hz : (zeros 1501).length = 1501 := List.length_replicate ..
  refine ⟨⟨0x40 :: zeros 19, by decide, ?_⟩, ⟨zeros 20, by decide, ?_⟩, ⟨zeros 1501, ?_, ?_⟩,
    ⟨3 :: zeros 7, by decide, ?_⟩⟩
  · rw [(C79_header_bounds_iff cfg _ (by in_every_build)).2.1 (by decide)]; decide
  · rw [(C79_header_bounds_iff cfg _ (by in_every_build)).2.2.2.2.1 (by decide)]; decide
  · rw [C10_ether_accept, hz]; rfl
  · rw [(C79_payload_bounds_iff cfg _ (by rw [hz]; in_every_build)).1 (by rw [C10_ether_accept, hz]; rfl), hz]
    decide
  · rw [((C79_payload_bounds_iff cfg _ (by in_every_build)).2.2.2.2.2.2.2.2.2 (.inl (by decide))).1]; decide

end Verif.Props
