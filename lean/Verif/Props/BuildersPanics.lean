import Verif.Props.BuildersRules
import Verif.Samples

/-! # C52, C53: which builds panic, and packets too large for their length fields -/

namespace Verif.Props
open Verif Verif.Spec

/-! ## C52 -/

theorem v4_never (vops : List V4Op) : ∀ a : V4State, Ipv4Fields.ok a.fields →
    (∃ b, runOps V4Op.abs vops a = .ok b ∧ Ipv4Fields.ok b.fields) ∨ ∃ e, runOps V4Op.abs vops a = .err e := by
  induction vops with
  | nil => intro a h; exact .inl ⟨a, rfl, h⟩
  | cons op ops ih =>
    intro a h
    have hstep : Ipv4Fields.ok (op.step a).fields := by
      obtain ⟨⟨s, hs⟩, ⟨d, hd⟩⟩ := h
      cases op with
      | source v => exact ⟨⟨v, rfl⟩, ⟨d, hd⟩⟩
      | destination v => exact ⟨⟨s, hs⟩, ⟨v, rfl⟩⟩
      | _ => exact ⟨⟨s, hs⟩, ⟨d, hd⟩⟩
    have hop : op.abs a = .ok (op.step a) ∨ ∃ e, op.abs a = .err e := by
      cases op with
      | payload v | dscp v | ecn v =>
        simp only [V4Op.abs]
        split
        · exact .inr ⟨_, rfl⟩
        · exact .inl rfl
      | _ => exact .inl rfl
    show (∃ b, (op.abs a >>= fun a => runOps V4Op.abs ops a) = .ok b ∧ _) ∨
      ∃ e, (op.abs a >>= fun a => runOps V4Op.abs ops a) = .err e
    rcases hop with hop | ⟨e, hop⟩
    · rw [hop, Outcome.ok_bind]
      exact ih _ hstep
    · rw [hop]; exact .inr ⟨e, rfl⟩

theorem udp_never (ops : List UdpOp) : ∀ a : UdpState,
    (∃ b, runOps UdpOp.abs ops a = .ok b) ∨ ∃ e, runOps UdpOp.abs ops a = .err e := by
  induction ops with
  | nil => intro a; exact .inl ⟨a, rfl⟩
  | cons op ops ih =>
    intro a
    have hop : op.abs a = .ok (op.step a) ∨ ∃ e, op.abs a = .err e := by
      cases op with
      | payload v =>
        simp only [UdpOp.abs]
        split
        · exact .inr ⟨_, rfl⟩
        · exact .inl rfl
      | _ => exact .inl rfl
    show (∃ b, (op.abs a >>= fun a => runOps UdpOp.abs ops a) = .ok b) ∨
      ∃ e, (op.abs a >>= fun a => runOps UdpOp.abs ops a) = .err e
    rcases hop with hop | ⟨e, hop⟩
    · rw [hop, Outcome.ok_bind]
      exact ih _
    · rw [hop]; exact .inr ⟨e, rfl⟩

theorem echo_never (ops : List EchoOp) : ∀ a : EchoState,
    (∃ b, runOps EchoOp.abs ops a = .ok b) ∨ ∃ e, runOps EchoOp.abs ops a = .err e := by
  induction ops with
  | nil => intro a; exact .inl ⟨a, rfl⟩
  | cons op ops ih =>
    intro a
    have hop : op.abs a = .ok (op.step a) ∨ ∃ e, op.abs a = .err e := by
      cases op with
      | payload v =>
        simp only [EchoOp.abs]
        split
        · exact .inr ⟨_, rfl⟩
        · exact .inl rfl
      | _ => exact .inl rfl
    show (∃ b, (op.abs a >>= fun a => runOps EchoOp.abs ops a) = .ok b) ∨
      ∃ e, (op.abs a >>= fun a => runOps EchoOp.abs ops a) = .err e
    rcases hop with hop | ⟨e, hop⟩
    · rw [hop, Outcome.ok_bind]
      exact ih _
    · rw [hop]; exact .inr ⟨e, rfl⟩

theorem ether_never (ops : List EtherOp) : ∀ a : EtherState,
    (∃ b, runOps EtherOp.abs ops a = .ok b) ∨ ∃ e, runOps EtherOp.abs ops a = .err e := by
  induction ops with
  | nil => intro a; exact .inl ⟨a, rfl⟩
  | cons op ops ih =>
    intro a
    have hop : op.abs a = .ok (op.step a) ∨ ∃ e, op.abs a = .err e := by
      cases op with
      | payload v =>
        simp only [EtherOp.abs]
        split
        · exact .inr ⟨_, rfl⟩
        · exact .inl rfl
      | _ => exact .inl rfl
    show (∃ b, (op.abs a >>= fun a => runOps EtherOp.abs ops a) = .ok b) ∨
      ∃ e, (op.abs a >>= fun a => runOps EtherOp.abs ops a) = .err e
    rcases hop with hop | ⟨e, hop⟩
    · rw [hop, Outcome.ok_bind]
      exact ih _
    · rw [hop]; exact .inr ⟨e, rfl⟩

/-- A TCP history with nothing after `flags()` does not panic, and keeps one of its payloads. -/
theorem tcp_never (ops : List TcpOp) : ∀ a : TcpState,
    (a.flags = none ∧ TcpOp.FlagsLast ops ∨ ∀ op ∈ ops, ∃ v, op = .payload v) →
    (∃ b, runOps TcpOp.abs ops a = .ok b ∧
      (b.payload = a.payload ∨ ∃ v ∈ ops.filterMap TcpOp.payload?, b.payload = some v)) ∨
    ∃ e, runOps TcpOp.abs ops a = .err e := by
  induction ops with
  | nil => intro a _; exact .inl ⟨a, rfl, .inl rfl⟩
  | cons op ops ih =>
    intro a h
    show (∃ b, (op.abs a >>= fun a => runOps TcpOp.abs ops a) = .ok b ∧ _) ∨
      ∃ e, (op.abs a >>= fun a => runOps TcpOp.abs ops a) = .err e
    cases op with
    | payload v =>
      by_cases hp : a.payload.isSome
      · right; refine ⟨.alreadyDefined, ?_⟩; simp only [TcpOp.abs, hp, if_true]; rfl
      · have e : TcpOp.abs (.payload v) a = .ok (TcpOp.step (.payload v) a) := by
          simp only [TcpOp.abs]; rw [if_neg hp]
        rw [e, Outcome.ok_bind]
        have h' : ((TcpOp.step (.payload v) a).flags = none ∧ TcpOp.FlagsLast ops) ∨
            ∀ op ∈ ops, ∃ v, op = .payload v := by
          rcases h with h | h
          · exact .inl h
          · exact .inr (fun o ho => h o (by simp [ho]))
        rcases ih _ h' with ⟨b, hb, hpb⟩ | hb
        · left
          refine ⟨b, hb, .inr ?_⟩
          rcases hpb with hpb | ⟨w, hw, hpb⟩
          · exact ⟨v, by simp [TcpOp.payload?], hpb⟩
          · exact ⟨w, by simp only [List.filterMap_cons, TcpOp.payload?]; exact List.mem_cons_of_mem _ hw, hpb⟩
        · exact .inr hb
    | flags v =>
      rcases h with ⟨h1, h2⟩ | h
      · have e : TcpOp.abs (.flags v) a = .ok (TcpOp.step (.flags v) a) := by
          simp only [TcpOp.abs, h1]; rfl
        rw [e, Outcome.ok_bind]
        rcases ih _ (.inr h2) with ⟨b, hb, hpb⟩ | hb
        · exact .inl ⟨b, hb, hpb⟩
        · exact .inr hb
      · obtain ⟨w, hw⟩ := h _ (List.mem_cons_self ..)
        cases hw
    | source v | destination v | sequence v | acknowledgment v | window v | pointer v =>
      rcases h with ⟨h1, h2⟩ | h
      · simp only [TcpOp.abs, h1, Option.isSome_none, Bool.false_eq_true, if_false, Outcome.ok_bind]
        refine (ih _ (.inl ⟨?_, h2⟩)).imp (fun ⟨b, hb, hpb⟩ => ⟨b, hb, hpb⟩) (fun h => h)
        exact h1
      · obtain ⟨w, hw⟩ := h _ (List.mem_cons_self ..)
        cases hw

theorem seal_never (cfg : Cfg) (f : Ipv4Fields) (d : Bytes) : ∃ out, sealV4 cfg f d = .ok out := by
  unfold sealV4
  rw [V4.checksumOf_eq]
  exact ⟨_, rfl⟩

theorem icmp_abs_never (cfg : Cfg) (inner : IcmpInner) : inner.abs cfg cfg.isizeMax 0 ≠ .panic := by
  cases inner with
  | none => intro h; cases h
  | echo ops =>
    simp only [IcmpInner.abs]
    rw [need_dynamic (by omega), Outcome.ok_bind]
    rcases echo_never ops .init with ⟨b, hb⟩ | ⟨e, hb⟩
    · rw [hb, Outcome.ok_bind]
      split
      · rw [Icmp.checksumOf_eq]; intro h; cases h
      · intro h; cases h
    · rw [hb]; intro h; cases h
  | timestamp ops =>
    simp only [IcmpInner.abs]
    rw [need_dynamic (by omega), Outcome.ok_bind, timestamp_run, Outcome.ok_bind]
    split
    · rw [Icmp.checksumOf_eq]; intro h; cases h
    · intro h; cases h
  | information ops =>
    simp only [IcmpInner.abs]
    rw [need_dynamic (by omega), Outcome.ok_bind, information_run, Outcome.ok_bind]
    split
    · rw [Icmp.checksumOf_eq]; intro h; cases h
    · intro h; cases h

/-- What keeps a TCP program from panicking: nothing but payloads after `flags()`, payloads of at most
130000 bytes (a larger one overflows the `u32` sum), and of even length if a failed `read_exact` moves the
cursor. -/
def TcpSafe (cfg : Cfg) : Inner → Prop
  | .tcp ops => TcpOp.FlagsLast ops ∧ ∀ v ∈ ops.filterMap TcpOp.payload?,
      v.length ≤ 130000 ∧ (v.length % 2 = 0 ∨ cfg.eofAdvances = false)
  | _ => True

/-- C76, for IPv4: whatever calls are made, with whatever values, valid or not, a
program that does not go through TCP returns a packet or an error; through TCP the conditions `TcpSafe` are
needed. -/
theorem C76_ipv4_no_panic (cfg : Cfg) (vops : List V4Op) (inner : Inner)
    (hv : ∀ op ∈ vops, op.Sane cfg) (hi : inner.Sane cfg) (ht : TcpSafe cfg inner) :
    ipv4Program cfg Dynamic.new vops inner ≠ .panic := by
  rw [ipv4Program_dynamic cfg vops inner hv hi]
  unfold ipv4Abs
  rw [need_dynamic (by omega), Outcome.ok_bind]
  rcases v4_never vops .init ⟨⟨.zero, rfl⟩, ⟨.zero, rfl⟩⟩ with ⟨a, ha, hok⟩ | ⟨e, he⟩
  · rw [ha, Outcome.ok_bind]
    cases inner with
    | plain =>
      show a.raw cfg ≠ _
      unfold V4State.raw
      simp only []
      rw [V4.checksumOf_eq]
      intro h; cases h
    | udp ops =>
      simp only [Inner.abs]
      split
      · intro h; cases h
      · rw [need_dynamic (by omega), Outcome.ok_bind]
        rcases udp_never ops .init with ⟨u, hu⟩ | ⟨e, hu⟩
        · rw [hu, Outcome.ok_bind]
          unfold UdpState.seal
          have hok' : Ipv4Fields.ok { a.fields with protocol := 17#8 } := hok
          have hck := udp_checksum_v4 cfg hok' 0#16 0#16 [] (udpHeader u.sport u.dport
            (BitVec.ofNat 16 (8 + (u.payload.getD []).length)) 0#16 ++ u.payload.getD [])
          rw [List.append_nil] at hck
          rw [hck, Outcome.ok_bind, Outcome.ok_bind]
          obtain ⟨out, ho⟩ := seal_never cfg { a.fields with protocol := 17#8 } (udpHeader u.sport u.dport
            (BitVec.ofNat 16 (8 + (u.payload.getD []).length)) (ckOf
              ((words (pseudoHeader ({ a.fields with protocol := 17#8 } : Ipv4Fields).src
                ({ a.fields with protocol := 17#8 } : Ipv4Fields).dst 17#8 (udpHeader u.sport u.dport
            (BitVec.ofNat 16 (8 + (u.payload.getD []).length)) 0#16 ++ u.payload.getD []).length)).sum +
                (loopWords 8 (udpHeader u.sport u.dport
            (BitVec.ofNat 16 (8 + (u.payload.getD []).length)) 0#16 ++ u.payload.getD []) 0).sum +
                if cfg.eofAdvances then 0 else oddWord (udpHeader u.sport u.dport
            (BitVec.ofNat 16 (8 + (u.payload.getD []).length)) 0#16 ++ u.payload.getD []))) ++
              u.payload.getD [])
          rw [ho]
          intro h; cases h
        · rw [hu]; intro h; cases h
    | tcp ops =>
      simp only [Inner.abs]
      split
      · intro h; cases h
      · rw [need_dynamic (by omega), Outcome.ok_bind]
        rcases tcp_never ops .init (.inl ⟨rfl, ht.1⟩) with ⟨t, hrun, hp⟩ | ⟨e, hu⟩
        · rw [hrun, Outcome.ok_bind]
          unfold TcpState.seal
          have hpl : (t.payload.getD []).length ≤ 130000 ∧
              ((t.payload.getD []).length % 2 = 0 ∨ cfg.eofAdvances = false) := by
            rcases hp with hp | ⟨v, hv, hp⟩
            · rw [hp]; exact ⟨by decide, .inl rfl⟩
            · rw [hp]; exact ht.2 v hv
          have hok' : Ipv4Fields.ok { a.fields with protocol := 6#8 } := hok
          have hlen : (tcpHeader t.fields (0x5000#16 ||| t.flagBits) 0#16 ++ t.payload.getD []).length =
              20 + (t.payload.getD []).length := by rw [List.length_append, tcpHeader_length]
          have hck := tcp_checksum_v4 cfg hok' 0#16 0#16 []
            (tcpHeader t.fields (0x5000#16 ||| t.flagBits) 0#16 ++ t.payload.getD []) (by omega)
          rw [if_neg (by
            rw [hlen]
            rintro ⟨h1, h2⟩
            rcases hpl.2 with h | h
            · omega
            · rw [h] at h2; cases h2), List.append_nil] at hck
          generalize ckOf _ = ck at hck
          rw [hck, Outcome.ok_bind, Outcome.ok_bind]
          obtain ⟨out, ho⟩ := seal_never cfg { a.fields with protocol := 6#8 }
            (tcpHeader t.fields (0x5000#16 ||| t.flagBits) ck ++ t.payload.getD [])
          rw [ho]
          intro h; cases h
        · rw [hu]; intro h; cases h
    | icmp inner =>
      simp only [Inner.abs]
      split
      · intro h; cases h
      · rw [icmp_abs_at cfg inner (by omega)]
        have hn := icmp_abs_never cfg inner
        cases hi : inner.abs cfg cfg.isizeMax 0 with
        | panic => exact (hn hi).elim
        | err e => intro h; cases h
        | ok d =>
          rw [Outcome.ok_bind]
          obtain ⟨out, ho⟩ := seal_never cfg { a.fields with protocol := 1#8 } d
          rw [ho]
          intro h; cases h
  · rw [he]; intro h; cases h

/-- A concrete case that meets the hypotheses. -/
example (cfg : Cfg) := C76_ipv4_no_panic cfg Sample.vops (.udp Sample.uops) (by call_by_call) (by call_by_call)
    trivial

/-- C76, Ethernet alone: never panics. -/
theorem C76_ether_no_panic (cfg : Cfg) (ops : List EtherOp) (hs : ∀ op ∈ ops, op.Sane cfg) :
    etherProgram cfg Dynamic.new ops ≠ .panic := by
  rw [etherProgram_eq cfg Dynamic.rep_new ops (.inl (by in_every_build)) (ether_sane_room (by simp) hs)]
  have hn : need cfg.isizeMax (([] : Bytes).length + ([] : Bytes).length + 14) = .ok () := by in_every_build
  rw [hn]
  simp only [Outcome.ok_bind]
  rcases ether_never ops .init with ⟨b, hb⟩ | ⟨e, hb⟩ <;> rw [hb] <;> intro h <;> cases h

/-- A concrete case that meets the hypotheses. -/
example (cfg : Cfg) := C76_ether_no_panic cfg Sample.eops (by call_by_call)

/-- C76, ICMP alone: never panics. -/
theorem C76_icmp_no_panic (cfg : Cfg) (inner : IcmpInner) (hs : (Inner.icmp inner).Sane cfg) :
    icmpProgram cfg Dynamic.new inner ≠ .panic := by
  rw [icmpProgram_dynamic cfg inner hs]
  exact icmp_abs_never cfg inner

/-- A concrete case that meets the hypotheses. -/
example (cfg : Cfg) := C76_icmp_no_panic cfg (.echo Sample.echoOps) (by call_by_call)

/-- C76, Ethernet around IPv4: never panics under the conditions of `C76_ipv4_no_panic`, with raw
IPv4 payloads of less than 44 bytes. -/
theorem C76_ethernet_no_panic (cfg : Cfg) (eops : List EtherOp) (vops : List V4Op) (inner : Inner)
    (he : ∀ op ∈ eops, op.Sane cfg) (hv : ∀ op ∈ vops, op.Sane cfg) (hi : inner.Sane cfg) (ht : TcpSafe cfg inner)
    (hp : inner = .plain → ∀ v ∈ vops.filterMap V4Op.payload?, v.length < 44) :
    ethernetProgram cfg Dynamic.new eops vops inner ≠ .panic := by
  by_cases hpe : eops.filterMap EtherOp.payload? = []
  · have h := C49_stack_compose cfg eops vops inner hpe hv hi hp
    have hn := C76_ipv4_no_panic cfg vops inner hv hi ht
    split at h
    · obtain ⟨frame, hf, -⟩ := h
      rw [hf]; intro h; cases h
    · rw [h]; intro h; cases h
    · exact (hn (by assumption)).elim
  · rw [ethernetProgram_dynamic cfg eops vops inner he hv hi]
    unfold ethernetAbs
    rw [need_dynamic (by omega), Outcome.ok_bind]
    rcases ether_never eops .init with ⟨b, hb⟩ | ⟨e, hb⟩
    · rw [hb, Outcome.ok_bind]
      have : b.payload.isSome := by
        have key : ∀ (ops : List EtherOp) (a b : EtherState), runOps EtherOp.abs ops a = .ok b →
            (a.payload.isSome ∨ ops.filterMap EtherOp.payload? ≠ []) → b.payload.isSome := by
          intro ops
          induction ops with
          | nil =>
            intro a b h hor
            injection h with h
            subst h
            rcases hor with h | h
            · exact h
            · exact (h rfl).elim
          | cons op ops ih =>
            intro a b h hor
            obtain ⟨a1, h1, h2⟩ := bind_ok_inv
              (show (op.abs a >>= fun a => runOps EtherOp.abs ops a) = .ok b from h)
            refine ih a1 b h2 ?_
            cases op with
            | payload v =>
              left
              simp only [EtherOp.abs] at h1
              split at h1
              · cases h1
              · injection h1 with h1; subst h1; rfl
            | _ =>
              simp only [EtherOp.abs] at h1
              injection h1 with h1
              subst h1
              exact hor
        exact key eops _ b hb (.inr hpe)
      rw [if_pos this]
      intro h; cases h
    · rw [hb]; intro h; cases h

/-- A concrete case that meets the hypotheses. -/
example (cfg : Cfg) := C76_ethernet_no_panic cfg Sample.eops Sample.vops (.udp Sample.uops) (by call_by_call)
    (by call_by_call) (by call_by_call) trivial (by call_by_call)

/-- C52 is false of the code: a UDP builder that is not inside an IP packet panics when built (the finalizer
asks whether the empty slice before it is an IPv6 packet, which indexes its first byte), for every history
with at most one payload. -/
theorem C52_udp_alone_refuted (cfg : Cfg) (ops : List UdpOp) (hs : (Inner.udp ops).Sane cfg)
    (h1 : (ops.filterMap UdpOp.payload?).length ≤ 1) :
    udpProgram cfg Dynamic.new ops = .panic := by
  have h0 := udp_with_total (B := Dynamic) cfg Dynamic.rep_new (fine_dynamic (by simp))
  rw [need_dynamic (by simp)] at h0
  have hroom : ∀ op ∈ ops, op.room Dynamic cfg.isizeMax ([] ++ [] : Bytes).length := by
    intro op hop
    cases op with
    | payload v => exact room_dynamic (by simp) (hs v (List.mem_filterMap.2 ⟨_, hop, rfl⟩))
    | _ => trivial
  have h2 := h0.run _ (fun op a s hr hl => udp_abs cfg op a s hr hl) ops hroom
  rw [Outcome.ok_bind, Outcome.ok_bind, udp_run ops h1] at h2
  obtain ⟨s, hs, r⟩ := h2
  have e : udpProgram cfg Dynamic.new ops = UdpBuilder.build cfg s := by
    unfold udpProgram
    rw [← bind_assoc, hs]
    rfl
  rw [e]
  unfold UdpBuilder.build UdpBuilder.prepare Finalization.add
  simp only []
  rw [buildTail_eq r.rep, r.fin, r.ip, LawfulBuffer.length r.rep, UdpState.length]
  generalize hu : (⟨last UdpOp.source? 0 ops, last UdpOp.destination? 0 ops,
    (ops.filterMap UdpOp.payload?).getLast?⟩ : UdpState) = u at *
  have hl := UdpState.length u
  have : ∃ out', UdpBuilder.finalizerOf cfg (0, 0) (8 + (u.payload.getD []).length) u.bytes =
      (.panic, out') := by
    unfold UdpBuilder.finalizerOf
    rw [splitAt_ok (by omega)]
    simp only [Nat.add_zero, List.take_zero, List.drop_zero]
    have e1 : sliceFrom ([] : Bytes) 0 = .ok [] := rfl
    rw [e1, sliceTo_ok (by omega)]
    simp only []
    rw [List.take_of_length_le (by omega)]
    unfold UdpBuilder.inner
    rw [Mut.bind_ok (writeU16_ok (by omega))]
    generalize put u.bytes 4 _ = m
    refine ⟨[] ++ m ++ List.drop (8 + (u.payload.getD []).length) u.bytes, ?_⟩
    have e4 : UdpBuilder.checksumIn cfg [] m = .panic := by
      unfold UdpBuilder.checksumIn
      have a : V4.noPayload [] = .err .smallBuffer := by decide +kernel
      have b : V6.noPayload [] = .panic := by decide +kernel
      rw [a, b]
    rw [Mut.bind_apply]
    simp only [Mut.read, e4]
  obtain ⟨out', ho⟩ := this
  exact finish_snoc_panic (fs := []) ho

/-- A concrete case that meets the hypotheses. -/
example (cfg : Cfg) := C52_udp_alone_refuted cfg Sample.uops (by call_by_call) (by call_by_call)

/-- C52 is false of the code: a TCP builder that is not inside an IP packet panics when built, for every
history of calls in the order the builder supports. -/
theorem C52_tcp_alone_refuted (cfg : Cfg) (ops : List TcpOp) (hs : (Inner.tcp ops).Sane cfg)
    (h1 : (ops.filterMap TcpOp.payload?).length ≤ 1) (hf : TcpOp.FlagsLast ops) :
    tcpProgram cfg Dynamic.new ops = .panic := by
  have h0 := tcp_with_total (B := Dynamic) cfg Dynamic.rep_new (fine_dynamic (by simp))
  rw [need_dynamic (by simp)] at h0
  have hroom : ∀ op ∈ ops, op.room Dynamic cfg.isizeMax ([] ++ [] : Bytes).length := by
    intro op hop
    cases op with
    | payload v => exact room_dynamic (by simp) (hs v (List.mem_filterMap.2 ⟨_, hop, rfl⟩))
    | _ => trivial
  have h2 := h0.run _ (fun op a s hr hl => tcp_abs cfg op a s hr hl) ops hroom
  rw [Outcome.ok_bind, Outcome.ok_bind, tcp_run ops hf h1] at h2
  obtain ⟨s, hs, r⟩ := h2
  have e : tcpProgram cfg Dynamic.new ops = TcpBuilder.build cfg s := by
    unfold tcpProgram
    rw [← bind_assoc, hs]
    rfl
  rw [e]
  unfold TcpBuilder.build TcpBuilder.prepare Finalization.add
  simp only []
  rw [buildTail_eq r.rep, r.fin, r.ip, LawfulBuffer.length r.rep, TcpState.length, r.payloadLength]
  generalize (TcpState.mk _ _ (ops.filterMap TcpOp.payload?).getLast?) = u at *
  have hl := TcpState.length u
  have : ∃ out', TcpBuilder.finalizerOf cfg (0, 0) (20 + (u.payload.getD []).length)
      (u.payload.getD []).length u.bytes = (.panic, out') := by
    unfold TcpBuilder.finalizerOf
    rw [splitAt_ok (by omega)]
    simp only [Nat.add_zero, List.take_zero, List.drop_zero]
    have e1 : sliceFrom ([] : Bytes) 0 = .ok [] := rfl
    rw [e1, sliceTo_ok (by omega)]
    simp only []
    rw [List.take_of_length_le (by omega)]
    unfold TcpBuilder.inner
    have e2 : (Mut.read (idx · 12) : Mut Bytes U8) u.bytes = (.ok (u.bytes.getD 12 0#8), u.bytes) :=
      Mut.read_of (idx_ok (by omega))
    rw [Mut.bind_ok e2]
    have e3 : (Mut.read fun _ => subUsize cfg (20 + (u.payload.getD []).length)
        (u.payload.getD []).length : Mut Bytes Nat) u.bytes = (.ok 20, u.bytes) :=
      Mut.read_of (by unfold subUsize; rw [if_pos (by omega)]; congr 1; omega)
    rw [Mut.bind_ok e3, Mut.bind_ok (setIdx_ok (by omega))]
    generalize put u.bytes 12 _ = m
    refine ⟨[] ++ m ++ List.drop (20 + (u.payload.getD []).length) u.bytes, ?_⟩
    rw [Mut.bind_apply]
    rfl
  obtain ⟨out', ho⟩ := this
  exact finish_snoc_panic (fs := []) ho

example (cfg : Cfg) : TcpSafe cfg (.tcp [.source 1, .payload [1, 2], .flags .empty]) := by
  refine ⟨fun op h => ?_, fun v hv => ?_⟩
  · cases h
  · simp [TcpOp.payload?] at hv
    subst hv
    exact ⟨by decide, .inl rfl⟩

end Verif.Props
