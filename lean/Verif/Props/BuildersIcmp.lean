import Verif.Props.BuildersTransport
import Verif.Samples

/-! # C48: ICMP messages, alone and inside IPv4 -/

namespace Verif.Props
open Verif Verif.Spec

/-- `d`, read through `icmp::Packet` and `icmp::echo::Packet`, is the message the calls `ops` asked for,
`kind` being the last of `request()` and `reply()`. -/
structure ReadsEcho (cfg : Cfg) (ops : List EchoOp) (kind : IcmpKind) (d : Bytes) : Prop where
  accepted : Icmp.new d = .ok d
  typed : Echo.new d = .ok d
  size : d.length = 8 + (last EchoOp.payload? [] ops).length
  icmpKind : Icmp.kind d = .ok kind
  code : Icmp.code d = .ok 0
  request : Echo.isRequest d = .ok (kind == .echoRequest)
  reply : Echo.isReply d = .ok (kind == .echoReply)
  identifier : Echo.identifier d = .ok (last EchoOp.identifier? 0 ops)
  sequence : Echo.sequence d = .ok (last EchoOp.sequence? 0 ops)
  payload : Echo.payload d = .ok (last EchoOp.payload? [] ops)
  valid : Icmp.isValid cfg d = .ok true
  rfc : d.length % 2 = 0 → (∃ w ∈ words (zeroed d 2), w ≠ 0) → verifies d

/-- The same for `icmp::timestamp::Packet`. -/
structure ReadsTimestamp (cfg : Cfg) (ops : List TimestampOp) (kind : IcmpKind) (d : Bytes) : Prop where
  accepted : Icmp.new d = .ok d
  typed : Timestamp.new d = .ok d
  size : d.length = 20
  icmpKind : Icmp.kind d = .ok kind
  code : Icmp.code d = .ok 0
  request : Timestamp.isRequest d = .ok (kind == .timestampRequest)
  reply : Timestamp.isReply d = .ok (kind == .timestampReply)
  identifier : Timestamp.identifier d = .ok (last TimestampOp.identifier? 0 ops)
  sequence : Timestamp.sequence d = .ok (last TimestampOp.sequence? 0 ops)
  originate : Timestamp.originate d = .ok (last TimestampOp.originate? 0 ops)
  receive : Timestamp.receive d = .ok (last TimestampOp.receive? 0 ops)
  transmit : Timestamp.transmit d = .ok (last TimestampOp.transmit? 0 ops)
  valid : Icmp.isValid cfg d = .ok true
  rfc : verifies d

/-- The same for `icmp::information::Packet`. -/
structure ReadsInformation (cfg : Cfg) (ops : List InformationOp) (kind : IcmpKind) (d : Bytes) : Prop where
  accepted : Icmp.new d = .ok d
  typed : Information.new d = .ok d
  size : d.length = 8
  icmpKind : Icmp.kind d = .ok kind
  code : Icmp.code d = .ok 0
  request : Information.isRequest d = .ok (kind == .informationRequest)
  reply : Information.isReply d = .ok (kind == .informationReply)
  identifier : Information.identifier d = .ok (last InformationOp.identifier? 0 ops)
  sequence : Information.sequence d = .ok (last InformationOp.sequence? 0 ops)
  valid : Icmp.isValid cfg d = .ok true
  rfc : verifies d

theorem icmp_rfc (cfg : Cfg) {d : Bytes} (hl : 4 ≤ d.length) (he : d.length % 2 = 0)
    (hnz : ∃ w ∈ words (zeroed d 2), w ≠ 0) (hv : Icmp.isValid cfg d = .ok true) : verifies d :=
  ((C62_icmp_is_valid_iff_verifies cfg d hl he hnz).1 hv).1

/-- A first byte other than zero makes the first word other than zero. -/
theorem first_word_ne {a b : U8} {rest : Bytes} (h : a ≠ 0) :
    ∃ w ∈ words (zeroed (a :: b :: rest) 2), w ≠ 0 := by
  refine ⟨a.toNat * 256 + b.toNat, ?_, ?_⟩
  · unfold zeroed words
    simp
  · have : a.toNat ≠ 0 := by
      intro h0
      apply h
      apply BitVec.eq_of_toNat_eq
      simpa using h0
    omega

theorem echo_kind {ops : List EchoOp} {k : IcmpKind} (h : (ops.filterMap EchoOp.kind?).getLast? = some k) :
    k = .echoRequest ∨ k = .echoReply := by
  have := List.mem_of_getLast? h
  rw [List.mem_filterMap] at this
  obtain ⟨op, -, h⟩ := this
  cases op <;> cases h
  · exact .inl rfl
  · exact .inr rfl

theorem timestamp_kind {ops : List TimestampOp} {k : IcmpKind}
    (h : (ops.filterMap TimestampOp.kind?).getLast? = some k) : k = .timestampRequest ∨ k = .timestampReply := by
  have := List.mem_of_getLast? h
  rw [List.mem_filterMap] at this
  obtain ⟨op, -, h⟩ := this
  cases op <;> cases h
  · exact .inl rfl
  · exact .inr rfl

theorem information_kind {ops : List InformationOp} {k : IcmpKind}
    (h : (ops.filterMap InformationOp.kind?).getLast? = some k) :
    k = .informationRequest ∨ k = .informationReply := by
  have := List.mem_of_getLast? h
  rw [List.mem_filterMap] at this
  obtain ⟨op, -, h⟩ := this
  cases op <;> cases h
  · exact .inl rfl
  · exact .inr rfl

theorem kind_some {Op : Type} {f : Op → Option IcmpKind} {ops : List Op} (h : ∃ op ∈ ops, (f op).isSome) :
    ∃ k, (ops.filterMap f).getLast? = some k := by
  obtain ⟨op, hop, h⟩ := h
  obtain ⟨k, hk⟩ := Option.isSome_iff_exists.1 h
  cases hl : (ops.filterMap f).getLast? with
  | some k => exact ⟨k, rfl⟩
  | none =>
    rw [List.getLast?_eq_none_iff] at hl
    have : k ∈ ops.filterMap f := List.mem_filterMap.2 ⟨op, hop, hk⟩
    rw [hl] at this
    cases this

/-- What an ICMP program amounts to: it does not depend on the room in front of it. -/
theorem icmpProgram_dynamic (cfg : Cfg) (inner : IcmpInner) (hs : (Inner.icmp inner).Sane cfg) :
    icmpProgram cfg Dynamic.new inner = inner.abs cfg cfg.isizeMax 0 := by
  have hroom : inner.room Dynamic cfg.isizeMax 0 := by
    have := Inner.sane_room (n := 0) (by omega) hs
    cases inner with
    | none => trivial
    | echo ops =>
      refine ⟨fine_dynamic (by omega), ?_⟩
      intro op hop
      cases op with
      | payload v => exact room_dynamic (by omega) (hs v (List.mem_filterMap.2 ⟨_, hop, rfl⟩))
      | _ => trivial
    | timestamp ops => exact fine_dynamic (by omega)
    | information ops => exact fine_dynamic (by omega)
  have e := icmpProgram_eq cfg Dynamic.rep_new inner hroom
  rw [e]
  show (inner.abs cfg cfg.isizeMax 0 >>= fun out => .ok out) = _
  cases inner.abs cfg cfg.isizeMax 0 <;> rfl

theorem icmp_abs_at (cfg : Cfg) (inner : IcmpInner) {n : Nat} (hn : n ≤ 900) :
    inner.abs cfg cfg.isizeMax n = inner.abs cfg cfg.isizeMax 0 := by
  cases inner with
  | none => rfl
  | echo ops | timestamp ops | information ops =>
    simp only [IcmpInner.abs]
    rw [need_dynamic (by omega), need_dynamic (by omega)]

/-- C48, alone: every history of echo calls that includes `request()` or `reply()` and at most one payload
builds a message that reads back as asked for. -/
theorem C48_echo_build (cfg : Cfg) (ops : List EchoOp) (hk : ∃ op ∈ ops, op.kind?.isSome)
    (h1 : (ops.filterMap EchoOp.payload?).length ≤ 1)
    (hs : (last EchoOp.payload? [] ops).length ≤ cfg.usizeMod / 4) :
    ∃ d kind, icmpProgram cfg Dynamic.new (.echo ops) = .ok d ∧
      (ops.filterMap EchoOp.kind?).getLast? = some kind ∧ ReadsEcho cfg ops kind d := by
  obtain ⟨k, hk⟩ := kind_some hk
  have hsane : (Inner.icmp (.echo ops)).Sane cfg := by
    intro v hv
    have hv : v ∈ ops.filterMap EchoOp.payload? := hv
    have : last EchoOp.payload? [] ops = v := by
      unfold last
      match h : ops.filterMap EchoOp.payload? with
      | [] => rw [h] at hv; cases hv
      | [w] => rw [h] at hv; simp at hv; rw [hv]; rfl
      | _ :: _ :: _ => rw [h] at h1; simp at h1
    rw [this] at hs
    exact hs
  have e := icmpProgram_dynamic cfg (.echo ops) hsane
  simp only [IcmpInner.abs] at e
  rw [need_dynamic (by omega), Outcome.ok_bind, echo_run ops h1, Outcome.ok_bind, hk] at e
  simp only [Option.map_some, Option.isSome_some, if_true] at e
  have hmsg : ∀ ck, EchoState.msg ⟨some k.toWire, last EchoOp.identifier? 0 ops, last EchoOp.sequence? 0 ops,
      (ops.filterMap EchoOp.payload?).getLast?⟩ ck =
      icmpEchoHeader k.toWire ck (last EchoOp.identifier? 0 ops) (last EchoOp.sequence? 0 ops) ++
        last EchoOp.payload? [] ops := fun _ => rfl
  rw [hmsg] at e
  obtain ⟨ck, hck⟩ := C05_icmp_checksum_total cfg (icmpEchoHeader k.toWire 0#16 (last EchoOp.identifier? 0 ops)
    (last EchoOp.sequence? 0 ops) ++ last EchoOp.payload? [] ops)
  rw [hck, Outcome.ok_bind, hmsg] at e
  have hl : ∀ c, (icmpEchoHeader k.toWire c (last EchoOp.identifier? 0 ops)
    (last EchoOp.sequence? 0 ops) ++ last EchoOp.payload? [] ops).length =
      8 + (last EchoOp.payload? [] ops).length := by
    intro c; simp [icmpEchoHeader, be16]; omega
  have hvalid := icmp_valid cfg _ (by rw [hl]; omega) ck hck
  have hput : put (icmpEchoHeader k.toWire 0#16 (last EchoOp.identifier? 0 ops)
    (last EchoOp.sequence? 0 ops) ++ last EchoOp.payload? [] ops) 2 (be16 ck) =
      icmpEchoHeader k.toWire ck (last EchoOp.identifier? 0 ops)
    (last EchoOp.sequence? 0 ops) ++ last EchoOp.payload? [] ops := rfl
  rw [hput] at hvalid
  obtain ⟨v1, v2, v3, v4, v5, v6, v7⟩ := echoHeader_view k.toWire ck (last EchoOp.identifier? 0 ops)
    (last EchoOp.sequence? 0 ops) (last EchoOp.payload? [] ops)
  have hkw : IcmpKind.ofWire k.toWire = k := by
    rcases echo_kind hk with rfl | rfl <;> rfl
  rw [hkw] at v2
  refine ⟨_, k, e, hk, v1, ?_, hl _, v2, v3, ?_, ?_, v5, v6, v7, hvalid, ?_⟩
  · unfold Echo.new Icmp.typedNew Echo.headerMin
    rw [if_neg (by rw [hl]; omega)]
    show (if IcmpKind.ofWire k.toWire ∈ _ then _ else _) = _
    rw [hkw, if_pos (by rcases echo_kind hk with rfl | rfl <;> decide)]
  · show Outcome.ok (IcmpKind.ofWire k.toWire == .echoRequest) = _
    rw [hkw]
  · show Outcome.ok (IcmpKind.ofWire k.toWire == .echoReply) = _
    rw [hkw]
  · intro he hnz
    exact icmp_rfc cfg (by rw [hl]; omega) he hnz hvalid

/-- A concrete case that meets the hypotheses. -/
example (cfg : Cfg) := C48_echo_build cfg Sample.echoOps (by call_by_call) (by call_by_call) (by call_by_call)

/-- C48, alone: timestamp messages. -/
theorem C48_timestamp_build (cfg : Cfg) (ops : List TimestampOp) (hk : ∃ op ∈ ops, op.kind?.isSome) :
    ∃ d kind, icmpProgram cfg Dynamic.new (.timestamp ops) = .ok d ∧
      (ops.filterMap TimestampOp.kind?).getLast? = some kind ∧ ReadsTimestamp cfg ops kind d := by
  obtain ⟨k, hk⟩ := kind_some hk
  have e := icmpProgram_dynamic cfg (.timestamp ops) (fun v hv => by cases hv)
  simp only [IcmpInner.abs] at e
  rw [need_dynamic (by omega), Outcome.ok_bind, timestamp_run ops, Outcome.ok_bind, hk] at e
  simp only [Option.map_some, Option.isSome_some, if_true] at e
  obtain ⟨ck, hck⟩ := C05_icmp_checksum_total cfg (TimestampState.msg ⟨some k.toWire,
    last TimestampOp.identifier? 0 ops, last TimestampOp.sequence? 0 ops, last TimestampOp.originate? 0 ops,
    last TimestampOp.receive? 0 ops, last TimestampOp.transmit? 0 ops⟩ 0#16)
  rw [hck, Outcome.ok_bind] at e
  have hl := TimestampState.length ⟨some k.toWire,
    last TimestampOp.identifier? 0 ops, last TimestampOp.sequence? 0 ops, last TimestampOp.originate? 0 ops,
    last TimestampOp.receive? 0 ops, last TimestampOp.transmit? 0 ops⟩
  have hvalid := icmp_valid cfg _ (by rw [hl]; omega) ck hck
  obtain ⟨v1, v2, v3, v4, v5, v6, v7, v8, v9⟩ := timestamp_view k.toWire ck
    (last TimestampOp.identifier? 0 ops) (last TimestampOp.sequence? 0 ops)
    (last TimestampOp.originate? 0 ops) (last TimestampOp.receive? 0 ops) (last TimestampOp.transmit? 0 ops)
  have hkw : IcmpKind.ofWire k.toWire = k := by
    rcases timestamp_kind hk with rfl | rfl <;> rfl
  rw [hkw] at v2
  refine ⟨_, k, e, hk, v1, ?_, hl _, v2, v3, ?_, ?_, v5, v6, v7, v8, v9, hvalid, ?_⟩
  · unfold Timestamp.new Icmp.typedNew Timestamp.headerMin
    rw [if_neg (by rw [hl]; omega)]
    refine (if_pos ?_ : (if IcmpKind.ofWire k.toWire ∈ [IcmpKind.timestampRequest, .timestampReply] then _ else _) = _)
    rcases timestamp_kind hk with rfl | rfl <;> decide
  · show Outcome.ok (IcmpKind.ofWire k.toWire == .timestampRequest) = _
    rw [hkw]
  · show Outcome.ok (IcmpKind.ofWire k.toWire == .timestampReply) = _
    rw [hkw]
  · refine icmp_rfc cfg (by rw [hl]; omega) (by rw [hl]) ?_ hvalid
    exact first_word_ne (a := k.toWire) (b := 0) (by
      rcases timestamp_kind hk with rfl | rfl <;> decide)

/-- A concrete case that meets the hypotheses. -/
example (cfg : Cfg) := C48_timestamp_build cfg Sample.timestampOps (by call_by_call)

/-- C48, alone: information messages. -/
theorem C48_information_build (cfg : Cfg) (ops : List InformationOp) (hk : ∃ op ∈ ops, op.kind?.isSome) :
    ∃ d kind, icmpProgram cfg Dynamic.new (.information ops) = .ok d ∧
      (ops.filterMap InformationOp.kind?).getLast? = some kind ∧ ReadsInformation cfg ops kind d := by
  obtain ⟨k, hk⟩ := kind_some hk
  have e := icmpProgram_dynamic cfg (.information ops) (fun v hv => by cases hv)
  simp only [IcmpInner.abs] at e
  rw [need_dynamic (by omega), Outcome.ok_bind, information_run ops, Outcome.ok_bind, hk] at e
  simp only [Option.map_some, Option.isSome_some, if_true] at e
  obtain ⟨ck, hck⟩ := C05_icmp_checksum_total cfg (InformationState.msg ⟨some k.toWire,
    last InformationOp.identifier? 0 ops, last InformationOp.sequence? 0 ops⟩ 0#16)
  rw [hck, Outcome.ok_bind] at e
  have hl := InformationState.length ⟨some k.toWire,
    last InformationOp.identifier? 0 ops, last InformationOp.sequence? 0 ops⟩
  have hvalid := icmp_valid cfg _ (by rw [hl]; omega) ck hck
  have hv := echoHeader_view k.toWire ck
    (last InformationOp.identifier? 0 ops) (last InformationOp.sequence? 0 ops) []
  rw [List.append_nil] at hv
  obtain ⟨v1, v2, v3, v4, v5, v6, v7⟩ := hv
  have hkw : IcmpKind.ofWire k.toWire = k := by
    rcases information_kind hk with rfl | rfl <;> rfl
  rw [hkw] at v2
  refine ⟨_, k, e, hk, v1, ?_, hl _, v2, v3, ?_, ?_, v5, v6, hvalid, ?_⟩
  · unfold Information.new Icmp.typedNew Information.headerMin
    rw [if_neg (by rw [hl]; omega)]
    refine (if_pos ?_ : (if IcmpKind.ofWire k.toWire ∈ [IcmpKind.informationRequest, .informationReply] then _ else _) = _)
    rcases information_kind hk with rfl | rfl <;> decide
  · show Outcome.ok (IcmpKind.ofWire k.toWire == .informationRequest) = _
    rw [hkw]
  · show Outcome.ok (IcmpKind.ofWire k.toWire == .informationReply) = _
    rw [hkw]
  · refine icmp_rfc cfg (by rw [hl]; omega) (by rw [hl]) ?_ hvalid
    exact first_word_ne (a := k.toWire) (b := 0) (by
      rcases information_kind hk with rfl | rfl <;> decide)

/-- A concrete case that meets the hypotheses. -/
example (cfg : Cfg) := C48_information_build cfg Sample.informationOps (by call_by_call)

/-- C48, inside IPv4: whatever message `d` an ICMP program builds alone, building it inside IPv4 gives a
right IPv4 packet around exactly `d`. -/
theorem C48_icmp_in_ipv4 (cfg : Cfg) (vops : List V4Op) (inner : IcmpInner) (d : Bytes)
    (hr : ∀ op ∈ vops, op.InRange) (h0 : vops.filterMap V4Op.payload? = [])
    (hs : (Inner.icmp inner).Sane cfg) (hd : icmpProgram cfg Dynamic.new inner = .ok d)
    (hsize : 20 + d.length ≤ 65535) :
    ∃ out, ipv4Program cfg Dynamic.new vops (.icmp inner) = .ok out ∧ ReadsV4 cfg vops .icmp d out := by
  obtain ⟨f, ha, hrun⟩ := v4_run vops hr (by rw [h0]; decide)
  have e := ipv4Program_dynamic cfg vops (.icmp inner) (v4_sane_of_none h0) hs
  unfold ipv4Abs at e
  rw [need_dynamic (by omega), Outcome.ok_bind, hrun, Outcome.ok_bind] at e
  simp only [Inner.abs, no_payload_last _ _ h0, Option.isSome_none, Bool.false_eq_true, if_false] at e
  rw [icmpProgram_dynamic cfg inner hs] at hd
  rw [icmp_abs_at cfg inner (by omega), hd, Outcome.ok_bind] at e
  obtain ⟨ick, e2, hreads⟩ := sealV4_reads cfg ha hr 1#8 d hsize
  rw [e2] at e
  exact ⟨_, e, hreads⟩

/-- A concrete case that meets the hypotheses. -/
example (cfg : Cfg) := C48_icmp_in_ipv4 cfg Sample.vops (.echo Sample.echoOps) Sample.echo (by call_by_call)
    (by call_by_call) (by call_by_call) (by in_every_build) (by decide)

/-- C48, all of it in one place: an echo message inside IPv4. -/
theorem C48_echo_in_ipv4 (cfg : Cfg) (vops : List V4Op) (ops : List EchoOp) (hr : ∀ op ∈ vops, op.InRange)
    (h0 : vops.filterMap V4Op.payload? = []) (hk : ∃ op ∈ ops, op.kind?.isSome)
    (h1 : (ops.filterMap EchoOp.payload?).length ≤ 1)
    (hsize : 28 + (last EchoOp.payload? [] ops).length ≤ 65535) :
    ∃ out d kind, ipv4Program cfg Dynamic.new vops (.icmp (.echo ops)) = .ok out ∧
      (ops.filterMap EchoOp.kind?).getLast? = some kind ∧
      ReadsV4 cfg vops .icmp d out ∧ ReadsEcho cfg ops kind d := by
  obtain ⟨d, k, e, hk, hd⟩ := C48_echo_build cfg ops hk h1 (by (have := cfg.width; omega))
  have hsane : (Inner.icmp (.echo ops)).Sane cfg := by
    intro v hv
    have hv : v ∈ ops.filterMap EchoOp.payload? := hv
    have : last EchoOp.payload? [] ops = v := by
      unfold last
      match h : ops.filterMap EchoOp.payload? with
      | [] => rw [h] at hv; cases hv
      | [w] => rw [h] at hv; simp at hv; rw [hv]; rfl
      | _ :: _ :: _ => rw [h] at h1; simp at h1
    rw [this] at hsize
    (have := cfg.width; omega)
  obtain ⟨out, e2, hv⟩ := C48_icmp_in_ipv4 cfg vops (.echo ops) d hr h0 hsane e (by rw [hd.size]; omega)
  exact ⟨out, d, k, e2, hk, hv, hd⟩

example : (∃ op ∈ ([.identifier 3, .reply, .payload [1, 2, 3], .request] : List EchoOp), op.kind?.isSome) ∧
    ([.identifier 3, .reply, .payload [1, 2, 3], .request] : List EchoOp).filterMap EchoOp.kind? =
      [.echoReply, .echoRequest] ∧
    last EchoOp.payload? [] [.identifier 3, .reply, .payload [1, 2, 3], .request] = [1, 2, 3] := by
  refine ⟨⟨.reply, by simp, rfl⟩, by decide, by decide⟩

example (cfg : Cfg) : icmpProgram cfg Dynamic.new (.echo [.identifier 3, .payload [1, 2], .request]) =
    .ok [8, 0, 0xf6, 0xfa, 0, 3, 0, 0, 1, 2] := by
  obtain ⟨oc, ea, nw⟩ := cfg
  cases oc <;> cases ea <;> cases nw <;> decide +kernel

end Verif.Props
