import Verif.Lemmas.History
import Verif.Props.Verify
import Verif.Props.Enums
import Verif.Samples

/-!
# C42–C46, C48: what the builders produce, read back through the packet API

All programs here start from an empty growable buffer, as `Builder::default()` does.  A history is any list
of calls, each returning the builder for the next one.  `Spec.last f d ops` is the last value the history
gave to a field, or `d` if it gave none.
-/

namespace Verif.Props
open Verif Verif.Spec

/-! ## C42: Ethernet -/

/-- C42: for every history of Ethernet builder calls with at most one payload the build succeeds, and the
frame reads back as asked for.  A protocol given as `Unknown(n)` with a known `n` reads back as the known
one, with the same number on the wire. -/
theorem C42_ether_build (cfg : Cfg) (ops : List EtherOp)
    (h1 : (ops.filterMap EtherOp.payload?).length ≤ 1)
    (hs : ∀ op ∈ ops, op.Sane cfg) :
    ∃ out p, etherProgram cfg Dynamic.new ops = .ok out ∧
      out = ethernetFrame (last EtherOp.destination? .zero ops).octets (last EtherOp.source? .zero ops).octets
        (last EtherOp.protocol? (.unknown 0) ops).toWire (last EtherOp.payload? [] ops) ∧
      Ether.new out = .ok out ∧
      Ether.destination out = .ok (last EtherOp.destination? .zero ops) ∧
      Ether.source out = .ok (last EtherOp.source? .zero ops) ∧
      Ether.protocol out = .ok p ∧ p.toWire = (last EtherOp.protocol? (.unknown 0) ops).toWire ∧
      ((∀ n, last EtherOp.protocol? (.unknown 0) ops ≠ .unknown n) →
        p = last EtherOp.protocol? (.unknown 0) ops) ∧
      Ether.payload out = .ok (last EtherOp.payload? [] ops) := by
  have e := etherProgram_eq cfg Dynamic.rep_new ops (.inl (by in_every_build)) (ether_sane_room (by simp) hs)
  rw [ether_run ops h1] at e
  have hn : need cfg.isizeMax (([] : Bytes).length + ([] : Bytes).length + 14) = .ok () := by in_every_build
  rw [hn] at e
  simp only [Outcome.ok_bind, EtherState.bytes, List.nil_append] at e
  have hv := ether_view (last EtherOp.destination? .zero ops) (last EtherOp.source? .zero ops)
    (last EtherOp.protocol? (.unknown 0) ops).toWire (last EtherOp.payload? [] ops)
  exact ⟨_, _, e, rfl, hv.1, hv.2.1, hv.2.2.1, hv.2.2.2.1, C40_ether_protocol.wire _,
    fun h => C40_ether_protocol.variant _ h, hv.2.2.2.2⟩

example (cfg : Cfg) : ([.source ⟨1, 2, 3, 4, 5, 6⟩, .payload [1, 2, 3], .protocol .arp, .source ⟨6, 5, 4, 3, 2, 1⟩] :
    List EtherOp).filterMap EtherOp.payload? = [[1, 2, 3]] ∧
    ∀ op ∈ ([.source ⟨1, 2, 3, 4, 5, 6⟩, .payload [1, 2, 3]] : List EtherOp), op.Sane cfg := by
  refine ⟨by decide, fun op h => ?_⟩
  simp only [List.mem_cons, List.not_mem_nil, or_false] at h
  rcases h with rfl | rfl <;> intro v hv <;> cases hv
  in_every_build

/-! ## What it means that an IPv4 packet reads back -/

/-- `out`, read through `ip::v4::Packet`, is the packet the calls `vops` asked for, with protocol `proto`
around `body`: accepted, with every field the last value given for it, and with a right header checksum by
the crate's own check and by RFC 1071.  The fields that the three setters of C17 damage are only claimed if
those were not called. -/
structure ReadsV4 (cfg : Cfg) (vops : List V4Op) (proto : IpProtocol) (body out : Bytes) : Prop where
  accepted : V4.new out = .ok out
  size : out.length = 20 + body.length
  version : V4.version out = .ok 4
  ihl : V4.ihl out = .ok 5
  length : ∃ n, V4.length out = .ok n ∧ n.toNat = 20 + body.length
  id : V4.id out = .ok (last V4Op.id? 0 vops)
  ttl : V4.ttl out = .ok (last V4Op.ttl? 0 vops)
  source : V4.source out = .ok (last V4Op.source? .zero vops)
  destination : V4.destination out = .ok (last V4Op.destination? .zero vops)
  protocol : V4.protocol out = .ok proto
  payload : V4.payload out = .ok body
  valid : V4.isValid cfg out = .ok true
  rfc : verifies (out.take 20)
  dscp : (∀ op ∈ vops, op.Tame) → V4.dscp out = .ok (last V4Op.dscp? 0 vops)
  ecn : (∀ op ∈ vops, op.Tame) → V4.ecn out = .ok 0
  flags : (∀ op ∈ vops, op.Tame) → V4.flags out = .ok .empty
  offset : (∀ op ∈ vops, op.Tame) → V4.offset out = .ok 0

theorem last_mem {Op α : Type} (f : Op → Option α) (d : α) : ∀ ops : List Op,
    last f d ops = d ∨ ∃ op ∈ ops, f op = some (last f d ops) := by
  intro ops
  unfold last
  cases h : (ops.filterMap f).getLast? with
  | none => exact .inl rfl
  | some v =>
    right
    have := List.mem_of_getLast? h
    rw [List.mem_filterMap] at this
    exact this

theorem shl2_shr2 (v : U8) (h : v.toNat ≤ 63) : (v <<< 2) >>> 2 = v := by
  have : ∀ v : U8, v.toNat ≤ 63 → (v <<< 2) >>> 2 = v := by decide +kernel
  exact this v h

theorem ofNat16_toNat {n : Nat} (h : n ≤ 65535) : (BitVec.ofNat 16 n).toNat = n := by
  rw [BitVec.toNat_ofNat]; omega

/-- Sealing an asked-for header in front of a body that fits. -/
theorem sealV4_reads (cfg : Cfg) {vops : List V4Op} {f : Ipv4Fields} (ha : V4Asked vops f)
    (hr : ∀ op ∈ vops, op.InRange) (w : U8) (body : Bytes) (hb : 20 + body.length ≤ 65535) :
    ∃ ck, sealV4 cfg { f with protocol := w } body =
        .ok (ipv4Header { f with protocol := w } (BitVec.ofNat 16 (20 + body.length)) ck ++ body) ∧
      ReadsV4 cfg vops (IpProtocol.ofWire w) body
        (ipv4Header { f with protocol := w } (BitVec.ofNat 16 (20 + body.length)) ck ++ body) := by
  have hf : Ipv4Fields.ok { f with protocol := w } := ha.ok
  have ht := ofNat16_toNat hb
  generalize hT : BitVec.ofNat 16 (20 + body.length) = total at *
  obtain ⟨ck, hck⟩ : ∃ ck, V4.checksumOf cfg (ipv4Header { f with protocol := w } total 0#16) = .ok ck :=
    ⟨_, V4.checksumOf_eq _ _⟩
  have hv := v4_view { f with protocol := w } _ _ ha.src ha.dst total ck body
  obtain ⟨v1, v2, v3, v4, v5, v6, v7, v8, v9, v10, v11, v12, v13⟩ := hv
  have hacc := v4_accepted hf total ck body (by omega)
  have hval := v4_valid cfg hf total ck body hck
  refine ⟨ck, ?_, hacc, ?_, v1, v2, ⟨_, v5, ht⟩, ?_, ?_, v10, v11, v8, ?_, hval, ?_, ?_, ?_, ?_, ?_⟩
  · unfold sealV4
    rw [hT, hck]
    rfl
  · rw [List.length_append, Ipv4Fields.ok.length hf]
  · rw [v6]; exact congrArg Outcome.ok ha.id
  · rw [v7]; exact congrArg Outcome.ok ha.ttl
  · exact v4_payload_view hf total ck body ht
  · have hih := ipv4Header_ihl { f with protocol := w } total ck body
    have hnp := noPayload_v4 hf total ck body
    have := (C62_v4_is_valid_iff_verifies cfg _ hnp (by omega)).1 hval
    rw [hih] at this
    exact this.1
  · intro htame
    rw [v3]
    show Outcome.ok (f.tos >>> 2) = _
    rw [ha.tos htame, shl2_shr2]
    rcases last_mem V4Op.dscp? 0 vops with h | ⟨op, hop, h⟩
    · rw [h]; decide
    · have := hr op hop
      cases op <;> try cases h
      exact this
  · intro htame
    rw [v4]
    show Outcome.ok (f.tos &&& 0b11#8) = _
    rw [ha.tos htame, shl2_low]
    rfl
  · intro htame
    unfold V4.flags
    rw [v13]
    show (match V4Flags.fromBits (f.fragment >>> 13) with | some f => Outcome.ok f | none => .panic) = _
    rw [ha.fragment htame]
    rfl
  · intro htame
    unfold V4.offset
    rw [v13]
    show Outcome.ok (f.fragment &&& 0x1fff#16) = _
    rw [ha.fragment htame]
    rfl

/-! ## C43 and C44: IPv4 on its own -/

/-- As long as the payload does not change the header length the builder computes, `build()` seals. -/
theorem raw_eq_seal (cfg : Cfg) {f : Ipv4Fields} (hf : Ipv4Fields.ok f) (p : Option Bytes)
    (hp : (p.getD []).length ≤ 3) : V4State.raw cfg ⟨f, p⟩ = sealV4 cfg f (p.getD []) := by
  unfold V4State.raw sealV4 V4State.bytes
  simp only []
  generalize p.getD [] = body at hp
  have hq : (20 + body.length) / 4 = 5 := by omega
  rw [hq]
  generalize BitVec.ofNat 16 (20 + body.length) = total
  have e1 : put (put (ipv4Header f 0#16 0#16 ++ body) 0 [4#8 <<< 4 ||| BitVec.ofNat 8 5]) 2 (be16 total)
      = ipv4Header f total 0#16 ++ body := by
    simp [ipv4Header, be16, put]
  rw [e1]
  have e2 : (ipv4Header f total 0#16 ++ body).take (5 * 4) = ipv4Header f total 0#16 := by
    rw [List.take_append_of_le_length (by rw [Ipv4Fields.ok.length hf]; decide), List.take_of_length_le
      (by rw [Ipv4Fields.ok.length hf]; decide)]
  rw [e2]
  congr 1

theorem ipv4_plain (cfg : Cfg) (vops : List V4Op) (hr : ∀ op ∈ vops, op.InRange)
    (h1 : (vops.filterMap V4Op.payload?).length ≤ 1) (hs : ∀ op ∈ vops, op.Sane cfg) :
    ∃ f, V4Asked vops f ∧ ipv4Program cfg Dynamic.new vops .plain =
      V4State.raw cfg ⟨f, (vops.filterMap V4Op.payload?).getLast?⟩ := by
  obtain ⟨f, ha, hrun⟩ := v4_run vops hr h1
  refine ⟨f, ha, ?_⟩
  rw [ipv4Program_dynamic cfg vops .plain hs (fun v hv => by cases hv)]
  unfold ipv4Abs
  rw [need_dynamic (by omega), Outcome.ok_bind, hrun, Outcome.ok_bind]
  rfl

/-- A history whose only payload is `payload`. -/
theorem v4_sane_of_single {cfg : Cfg} {vops : List V4Op} {payload : Bytes}
    (h : vops.filterMap V4Op.payload? = [payload]) (hp : payload.length ≤ cfg.usizeMod / 4) :
    ∀ op ∈ vops, op.Sane cfg := by
  intro op hop v hv
  have : v ∈ vops.filterMap V4Op.payload? := List.mem_filterMap.2 ⟨_, hop, hv⟩
  rw [h] at this
  simp only [List.mem_cons, List.not_mem_nil, or_false] at this
  rw [this]
  exact hp

theorem no_payload_last {Op : Type} (f : Op → Option Bytes) (ops : List Op)
    (h : ops.filterMap f = []) : (ops.filterMap f).getLast? = none := by rw [h]; rfl

/-- C43: for every history of IPv4 builder calls with values that fit their fields and no payload, `build()`
returns a 20-byte header that reads back as asked for. -/
theorem C43_v4_build (cfg : Cfg) (vops : List V4Op) (hr : ∀ op ∈ vops, op.InRange)
    (h0 : vops.filterMap V4Op.payload? = []) :
    ∃ out p, ipv4Program cfg Dynamic.new vops .plain = .ok out ∧ out.length = 20 ∧
      ReadsV4 cfg vops p [] out ∧ p.toWire = (last V4Op.protocol? (.ofWire 0) vops).toWire ∧
      ((∀ n, last V4Op.protocol? (.ofWire 0) vops ≠ .unknown n) →
        p = last V4Op.protocol? (.ofWire 0) vops) := by
  obtain ⟨f, ha, e⟩ := ipv4_plain cfg vops hr (by rw [h0]; decide) (v4_sane_of_none h0)
  rw [no_payload_last _ _ h0, raw_eq_seal cfg ha.ok none (by decide)] at e
  obtain ⟨ck, e2, hreads⟩ := sealV4_reads cfg ha hr f.protocol [] (by decide)
  have e2 : sealV4 cfg f (none.getD []) = _ := e2
  rw [e2] at e
  refine ⟨_, _, e, hreads.size, hreads, ?_, ?_⟩
  · rw [C40_ip_protocol.wire, ha.protocol]
  · intro h
    rw [ha.protocol]
    exact C40_ip_protocol.variant _ h

/-- A concrete case that meets the hypotheses. -/
example (cfg : Cfg) := C43_v4_build cfg Sample.vops (by call_by_call) (by call_by_call)

/-- C43: a DSCP above 63 or an ECN above 3 is refused with `InvalidValue`, wherever it comes first in a
history without other errors. -/
theorem C43_v4_range (cfg : Cfg) (vops rest : List V4Op) (op : V4Op) (inner : Inner)
    (hr : ∀ op ∈ vops, op.InRange) (h0 : vops.filterMap V4Op.payload? = []) (hop : ¬ op.InRange)
    (hs : ∀ op ∈ rest, op.Sane cfg) (hi : inner.Sane cfg) :
    ipv4Program cfg Dynamic.new (vops ++ op :: rest) inner = .err .invalidValue := by
  have hp : op.payload? = none := by cases op <;> first | rfl | exact absurd trivial hop
  obtain ⟨f, ha, hrun⟩ := v4_run vops hr (by rw [h0]; decide)
  rw [ipv4Program_dynamic cfg _ inner (by
    intro o ho
    simp only [List.mem_append, List.mem_cons] at ho
    rcases ho with ho | rfl | ho
    · exact v4_sane_of_none h0 o ho
    · intro v hv; rw [hp] at hv; cases hv
    · exact hs o ho) hi]
  unfold ipv4Abs
  rw [need_dynamic (by omega), Outcome.ok_bind, runOps_append, hrun, Outcome.ok_bind]
  have : ∀ a, V4Op.abs op a = .err .invalidValue := by
    intro a
    cases op with
    | dscp v =>
      simp only [V4Op.abs]
      rw [if_pos (by simp only [V4Op.InRange] at hop; omega)]
    | ecn v =>
      simp only [V4Op.abs]
      rw [if_pos (by simp only [V4Op.InRange] at hop; omega)]
    | _ => exact absurd trivial hop
  have h2 : ∀ a, runOps V4Op.abs (op :: rest) a = .err .invalidValue := by
    intro a
    show (op.abs a >>= fun a => runOps V4Op.abs rest a) = _
    rw [this]
    rfl
  rw [h2]
  rfl

example : ¬ (V4Op.dscp 64).InRange := by simp [V4Op.InRange]

example : (∀ op ∈ ([.ttl 64, .dscp 46, .source ⟨10, 0, 0, 1⟩, .dscp 10] : List V4Op), op.InRange ∧ op.Tame) ∧
    ([.ttl 64, .dscp 46, .source ⟨10, 0, 0, 1⟩, .dscp 10] : List V4Op).filterMap V4Op.payload? = [] := by
  refine ⟨?_, by decide⟩
  intro op h
  simp only [List.mem_cons, List.not_mem_nil, or_false] at h
  rcases h with rfl | rfl | rfl | rfl <;> simp [V4Op.InRange, V4Op.Tame]

/-- C44, the part that holds: with a raw payload of at most three bytes the packet reads back as asked for.
Missing: every longer payload, see `C44_v4_payload_refuted`. -/
theorem C44_v4_payload_partial (cfg : Cfg) (vops : List V4Op) (hr : ∀ op ∈ vops, op.InRange)
    (payload : Bytes) (h0 : vops.filterMap V4Op.payload? = [payload]) (hp : payload.length ≤ 3) :
    ∃ out p, ipv4Program cfg Dynamic.new vops .plain = .ok out ∧
      ReadsV4 cfg vops p payload out ∧ p.toWire = (last V4Op.protocol? (.ofWire 0) vops).toWire := by
  obtain ⟨f, ha, e⟩ := ipv4_plain cfg vops hr (by rw [h0]; exact Nat.le_refl _) (v4_sane_of_single h0 (by (have := cfg.width; omega)))
  have hl : (vops.filterMap V4Op.payload?).getLast? = some payload := by rw [h0]; rfl
  rw [hl, raw_eq_seal cfg ha.ok (some payload) hp] at e
  obtain ⟨ck, e2, hreads⟩ := sealV4_reads cfg ha hr f.protocol payload (by omega)
  have e2 : sealV4 cfg f ((some payload).getD []) = _ := e2
  rw [e2] at e
  exact ⟨_, _, e, hreads, by rw [C40_ip_protocol.wire, ha.protocol]⟩

/-- A concrete case that meets the hypotheses. -/
example (cfg : Cfg) := C44_v4_payload_partial cfg [.ttl 64, .payload [1, 2, 3]] (by call_by_call) [1, 2, 3] rfl
    (by decide)

/-- What `build()` really returns for a raw payload: the payload is counted as header. -/
theorem raw_shape (cfg : Cfg) {f : Ipv4Fields} (hf : Ipv4Fields.ok f) (p : Bytes) :
    ∃ ck, V4State.raw cfg ⟨f, some p⟩ = .ok ([(4#8 <<< 4) ||| BitVec.ofNat 8 ((20 + p.length) / 4), f.tos] ++
      be16 (BitVec.ofNat 16 (20 + p.length)) ++ be16 f.id ++ be16 f.fragment ++ [f.ttl, f.protocol] ++
      be16 ck ++ f.src ++ f.dst ++ p) := by
  obtain ⟨⟨s, hs⟩, ⟨d, hd⟩⟩ := hf
  unfold V4State.raw V4State.bytes
  simp only [Option.getD_some]
  rw [V4.checksumOf_eq]
  simp only [Outcome.ok_bind]
  generalize ckOf _ = ck
  refine ⟨ck, congrArg Outcome.ok ?_⟩
  simp [ipv4Header, be16, put, hs, hd, Ipv4Addr.octets]

theorem or_nibble (k : Nat) (h : k ≤ 15) : ((4#8 <<< 4) ||| BitVec.ofNat 8 k).toNat = 64 + k := by
  have : ∀ k, k < 16 → ((4#8 <<< 4) ||| BitVec.ofNat 8 k).toNat = 64 + k := by decide
  exact this k (by omega)

theorem or_nibble_ne (k : Nat) (h : 16 ≤ k) (h' : k ≤ 63) :
    ((4#8 <<< 4) ||| BitVec.ofNat 8 k).toNat / 16 ≠ 4 := by
  have : ∀ k, k < 64 → 16 ≤ k → ((4#8 <<< 4) ||| BitVec.ofNat 8 k).toNat / 16 ≠ 4 := by decide +kernel
  exact this k (by omega) h

/-- C44 is false of the code: for every history with a raw payload of 4 to 43 bytes the built packet is
accepted but claims `(20 + len) / 4` header words, so the payload comes out as options and `payload()`
returns at most its last three bytes. -/
theorem C44_v4_payload_refuted (cfg : Cfg) (vops : List V4Op) (hr : ∀ op ∈ vops, op.InRange)
    (payload : Bytes) (h0 : vops.filterMap V4Op.payload? = [payload]) (h4 : 4 ≤ payload.length)
    (hp : payload.length ≤ 43) :
    ∃ out, ipv4Program cfg Dynamic.new vops .plain = .ok out ∧ V4.new out = .ok out ∧
      V4.ihl out = .ok (BitVec.ofNat 8 ((20 + payload.length) / 4)) ∧ V4.ihl out ≠ .ok 5 ∧
      V4.payload out = .ok (payload.drop (payload.length / 4 * 4)) ∧
      V4.payload out ≠ .ok payload := by
  obtain ⟨f, ha, e⟩ := ipv4_plain cfg vops hr (by rw [h0]; exact Nat.le_refl _)
    (v4_sane_of_single h0 (by (have := cfg.width; omega)))
  have hl : (vops.filterMap V4Op.payload?).getLast? = some payload := by rw [h0]; rfl
  obtain ⟨ck, hraw⟩ := raw_shape cfg ha.ok payload
  rw [hl, hraw] at e
  have hs := ha.src; have hd := ha.dst
  generalize hout : [(4#8 <<< 4) ||| BitVec.ofNat 8 ((20 + payload.length) / 4), f.tos] ++
      be16 (BitVec.ofNat 16 (20 + payload.length)) ++ be16 f.id ++ be16 f.fragment ++ [f.ttl, f.protocol] ++
      be16 ck ++ f.src ++ f.dst = hd0 at e
  have hlen : hd0.length = 20 := by rw [← hout, hs, hd]; rfl
  have hq : (20 + payload.length) / 4 ≤ 15 := by omega
  have g0 : (hd0 ++ payload).getD 0 0#8 = (4#8 <<< 4) ||| BitVec.ofNat 8 ((20 + payload.length) / 4) := by
    rw [← hout]; rfl
  have f0 := field_hi4 (hd0 ++ payload) 0
  have f1 := field_lo4 (hd0 ++ payload) 0
  have f2 := field_u16 (hd0 ++ payload) 2
  have g2 : (hd0 ++ payload).getD 2 0#8 = BitVec.ofNat 8 ((BitVec.ofNat 16 (20 + payload.length)).toNat / 256) := by
    rw [← hout]; rfl
  have g3 : (hd0 ++ payload).getD 3 0#8 = BitVec.ofNat 8 (BitVec.ofNat 16 (20 + payload.length)).toNat := by
    rw [← hout]; rfl
  rw [g0, or_nibble _ hq] at f0 f1
  rw [g2, g3, ofNat16_toNat (by omega)] at f2
  simp only [BitVec.toNat_ofNat, Nat.mul_zero, Nat.zero_add, Nat.reduceMul] at f0 f1 f2
  have f0 : field (hd0 ++ payload) 0 4 = 4 := by rw [f0]; omega
  have f1 : field (hd0 ++ payload) 4 4 = (20 + payload.length) / 4 := by rw [f1]; omega
  have f2 : field (hd0 ++ payload) 16 16 = 20 + payload.length := by rw [f2]; omega
  have hL : (hd0 ++ payload).length = 20 + payload.length := by rw [List.length_append, hlen]
  have hi := V4.ihl_field (b := hd0 ++ payload) (by omega)
  rw [f1] at hi
  have hpay := V4.payload_eq (b := hd0 ++ payload) (by omega) (by omega)
  rw [f1, f2] at hpay
  have hpay' : V4.payload (hd0 ++ payload) = .ok (payload.drop (payload.length / 4 * 4)) := by
    rw [hpay]
    have : (20 + payload.length) / 4 * 4 = hd0.length + payload.length / 4 * 4 := by omega
    rw [this, List.drop_append, List.drop_of_length_le (by omega), List.nil_append, Nat.add_sub_cancel_left,
      List.take_of_length_le (by rw [List.length_drop]; omega)]
  refine ⟨_, e, ?_, hi, ?_, hpay', ?_⟩
  · exact V4.new_ok_iff.2 ⟨rfl, ⟨⟨by omega, f0, by omega⟩, by omega⟩⟩
  · rw [hi]
    intro h
    injection h with h
    have := congrArg BitVec.toNat h
    simp only [BitVec.toNat_ofNat] at this
    have h5 : (5 : U8).toNat = 5 := rfl
    rw [h5] at this
    omega
  · rw [hpay']
    intro h
    injection h with h
    have := congrArg List.length h
    rw [List.length_drop] at this
    omega

/-- C44 is false of the code: for every history with a raw payload of 44 to 235 bytes, `build()` returns
bytes that `ip::v4::Packet::new` rejects, because the version nibble is destroyed. -/
theorem C44_v4_payload_rejected_refuted (cfg : Cfg) (vops : List V4Op) (hr : ∀ op ∈ vops, op.InRange)
    (payload : Bytes) (h0 : vops.filterMap V4Op.payload? = [payload]) (h4 : 44 ≤ payload.length)
    (hp : payload.length ≤ 235) :
    ∃ out, ipv4Program cfg Dynamic.new vops .plain = .ok out ∧ V4.new out = .err .invalidPacket := by
  obtain ⟨f, ha, e⟩ := ipv4_plain cfg vops hr (by rw [h0]; exact Nat.le_refl _)
    (v4_sane_of_single h0 (by (have := cfg.width; omega)))
  have hl : (vops.filterMap V4Op.payload?).getLast? = some payload := by rw [h0]; rfl
  obtain ⟨ck, hraw⟩ := raw_shape cfg ha.ok payload
  rw [hl, hraw] at e
  have hs := ha.src; have hd := ha.dst
  generalize hout : [(4#8 <<< 4) ||| BitVec.ofNat 8 ((20 + payload.length) / 4), f.tos] ++
      be16 (BitVec.ofNat 16 (20 + payload.length)) ++ be16 f.id ++ be16 f.fragment ++ [f.ttl, f.protocol] ++
      be16 ck ++ f.src ++ f.dst = hd0 at e
  have hlen : hd0.length = 20 := by rw [← hout, hs, hd]; rfl
  have g0 : (hd0 ++ payload).getD 0 0#8 = (4#8 <<< 4) ||| BitVec.ofNat 8 ((20 + payload.length) / 4) := by
    rw [← hout]; rfl
  have f0 := field_hi4 (hd0 ++ payload) 0
  rw [g0] at f0
  have hL : (hd0 ++ payload).length = 20 + payload.length := by rw [List.length_append, hlen]
  refine ⟨_, e, ?_⟩
  rw [V4.new_eq, if_neg (by omega), if_pos]
  rw [f0]
  exact or_nibble_ne _ (by omega) (by omega)

example : ([.payload [1, 2, 3, 4], .ttl 9] : List V4Op).filterMap V4Op.payload? = [[1, 2, 3, 4]] := by decide

end Verif.Props
