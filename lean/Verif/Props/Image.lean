import Verif.Props.Rebuild
import Verif.Props.BuildersIcmp
import Verif.Props.BuildersTransport
import Verif.Samples

/-! # C112: exactly which packets the builders can produce -/

namespace Verif.Props
open Verif Verif.Spec

/-- Some calls on `ip::v4::Builder` and on the builder inside it, with payloads that a machine can hold,
produce `p`. -/
def CallsBuild (cfg : Cfg) (vops : List V4Op) (inner : Inner) (p : Bytes) : Prop :=
  (∀ op ∈ vops, op.Sane cfg) ∧ inner.Sane cfg ∧ ipv4Program cfg Dynamic.new vops inner = .ok p

/-! ## What a successful build looks like -/

theorem runOps_inv {A Op : Type} {abs : Op → A → Outcome A} (P : A → Prop)
    (hstep : ∀ op a a', P a → abs op a = .ok a' → P a') : ∀ (ops : List Op) (a a' : A), P a →
    runOps abs ops a = .ok a' → P a'
  | [], a, a', hp, h => by
    have h : Outcome.ok a = .ok a' := h
    injection h with h
    exact h ▸ hp
  | op :: ops, a, a', hp, h => by
    have h : (abs op a >>= fun a => runOps abs ops a) = .ok a' := h
    obtain ⟨b, hb, h⟩ := bind_ok_inv h
    exact runOps_inv P hstep ops b a' (hstep op a b hp hb) h

theorem v4_ok_run {vops : List V4Op} {a : V4State} (h : runOps V4Op.abs vops .init = .ok a) :
    Ipv4Fields.ok a.fields := by
  refine runOps_inv (fun a => Ipv4Fields.ok a.fields) ?_ vops .init a ⟨⟨.zero, rfl⟩, ⟨.zero, rfl⟩⟩ h
  intro op a a' hp h
  cases op with
  | payload v =>
    simp only [V4Op.abs] at h
    split at h
    · cases h
    · injection h with h; subst h; exact hp
  | dscp v =>
    simp only [V4Op.abs] at h
    split at h
    · cases h
    · injection h with h; subst h; exact hp
  | ecn v =>
    simp only [V4Op.abs] at h
    split at h
    · cases h
    · injection h with h; subst h; exact hp
  | source v =>
    simp only [V4Op.abs] at h
    injection h with h; subst h; exact ⟨⟨v, rfl⟩, hp.2⟩
  | destination v =>
    simp only [V4Op.abs] at h
    injection h with h; subst h; exact ⟨hp.1, ⟨v, rfl⟩⟩
  | _ =>
    simp only [V4Op.abs] at h
    injection h with h; subst h; exact hp

/-- A sealed IPv4 header in front of a body that fits. -/
theorem seal_whole (cfg : Cfg) {f : Ipv4Fields} (hf : Ipv4Fields.ok f) {d p : Bytes}
    (h : sealV4 cfg f d = .ok p) (hp : p.length ≤ 65535) :
    ∃ ck, p = ipv4Header f (BitVec.ofNat 16 (20 + d.length)) ck ++ d ∧ p.length = 20 + d.length ∧ WholeV4 cfg p ∧
      V4.payload p = .ok d ∧ V4.protocol p = .ok (IpProtocol.ofWire f.protocol) := by
  unfold sealV4 at h
  obtain ⟨ck, hck, h⟩ := bind_ok_inv h
  injection h with h
  have hl : p.length = 20 + d.length := by rw [← h, List.length_append, hf.length]
  have ht := ofNat16_toNat (n := 20 + d.length) (by omega)
  refine ⟨ck, h.symm, hl, ?_⟩
  generalize BitVec.ofNat 16 (20 + d.length) = total at *
  obtain ⟨⟨s, hs⟩, ⟨t, hd⟩⟩ := id hf
  obtain ⟨v1, v2, -, -, -, -, -, v8, -⟩ := v4_view f s t hs hd total ck d
  rw [h] at v2 v8
  have ha := v4_accepted hf total ck d (by omega)
  have hv := v4_valid cfg hf total ck d hck
  have hpay := v4_payload_view hf total ck d ht
  have htot := v4_total f total ck d
  rw [h] at ha hv hpay htot
  exact ⟨⟨ha, v2, by omega, hv⟩, hpay, v8⟩

/-- A program with a layer inside the packet runs the IPv4 calls first. -/
theorem ipv4_inv (cfg : Cfg) {vops : List V4Op} {inner : Inner} {p : Bytes} (h : CallsBuild cfg vops inner p) :
    ∃ a, Ipv4Fields.ok a.fields ∧ runOps V4Op.abs vops .init = .ok a ∧ inner.abs cfg cfg.isizeMax 0 a = .ok p := by
  obtain ⟨hv, hi, h⟩ := h
  rw [ipv4Program_dynamic cfg _ _ hv hi] at h
  unfold ipv4Abs at h
  rw [need_dynamic (by omega), Outcome.ok_bind] at h
  obtain ⟨a, ha, h⟩ := bind_ok_inv h
  exact ⟨a, v4_ok_run ha, ha, h⟩

theorem none_of {a : V4State} {x : Outcome Bytes} {p : Bytes} {e : Error}
    (h : (if a.payload.isSome then .err e else x) = .ok p) : a.payload = none := by
  match hp : a.payload with
  | none => rfl
  | some v => rw [hp] at h; cases h

/-! ## UDP -/

/-- C112 for UDP: the packets of at most 65535 bytes that some calls build are exactly the accepted, valid IPv4
packets without options of their total length whose payload is an accepted, valid UDP datagram of its length. -/
theorem C112_udp (cfg : Cfg) (p : Bytes) (hp : p.length ≤ 65535) :
    (∃ vops uops, CallsBuild cfg vops (.udp uops) p) ↔
      WholeV4 cfg p ∧ V4.protocol p = .ok .udp ∧
        ∃ d, V4.payload p = .ok d ∧ Udp.new d = .ok d ∧ field d 32 16 = d.length ∧
          Udp.isValid cfg (.v4 p) d = .ok true := by
  constructor
  · rintro ⟨vops, uops, h⟩
    obtain ⟨a, hok, ha, h⟩ := ipv4_inv cfg h
    have hok : Ipv4Fields.ok { a.fields with protocol := 17#8 } := hok
    rw [udp_inner_abs cfg uops (none_of h) rfl] at h
    obtain ⟨u, hu, h⟩ := bind_ok_inv h
    obtain ⟨d, hd, h⟩ := bind_ok_inv h
    obtain ⟨ick, hshape, hpl, hw, hpay, hpr⟩ := seal_whole cfg hok h hp
    refine ⟨hw, hpr, d, hpay, ?_⟩
    unfold UdpState.seal at hd
    obtain ⟨uck, hck, hd⟩ := bind_ok_inv hd
    injection hd with hd
    generalize u.payload.getD [] = q at *
    generalize u.sport = s at *
    generalize u.dport = t at *
    have hdl : d.length = 8 + q.length := by rw [← hd, List.length_append]; rfl
    have hlen := ofNat16_toNat (n := 8 + q.length) (by omega)
    generalize BitVec.ofNat 16 (8 + q.length) = len at *
    obtain ⟨-, -, v3, v4, v5, -⟩ := udp_view s t len uck q
    rw [hd] at v3 v4 v5
    refine ⟨v5 (by omega), ?_, ?_⟩
    · have := Udp.length_field (b := d) (by omega)
      rw [v3] at this
      injection this with this
      have h2 := congrArg BitVec.toNat this
      rw [ofNat_field_toNat _ 32 16] at h2
      omega
    · unfold Udp.isValid
      rw [v4, hshape, udp_checksum_v4 cfg hok _ _ d d]
      have e := udp_checksum_v4 cfg hok 0#16 0#16 [] d
      rw [List.append_nil, ← hd, udp_checksum_skip cfg _ (by rw [hok.length]; omega), hck, hd] at e
      rw [← Outcome.ok.inj e]
      simp
  · rintro ⟨hw, hpr, d, hpay, h1, h2, h3⟩
    obtain ⟨f, s, t, ck, rest, a, -, -, hr, hf, hasks⟩ := whole_copy cfg hw
    rw [hpay] at hr; injection hr with hr; subst hr
    rw [hpr] at hf; injection hf with hf
    obtain ⟨ops, -, e, hs⟩ := udp_rebuilt cfg hasks (ofWire_protocol (n := 17#8) hf.symm rfl) h1 h2 h3
    exact ⟨_, ops, hasks.sane, hs, e⟩

/-! ## TCP -/

theorem flagBits_flags (t : TcpState) : ∃ g : TcpFlags, g.bits = t.flagBits := by
  unfold TcpState.flagBits
  cases t.flags with
  | none => exact ⟨.empty, rfl⟩
  | some v => exact ⟨v, rfl⟩

theorem finalWord_reserved (g : TcpFlags) : (0x5000#16 ||| g.bits).toNat / 512 % 8 = 0 := by
  have h : ∀ n, n < 512 → (0x5000#16 ||| BitVec.ofNat 16 n).toNat / 512 % 8 = 0 := by decide +kernel
  have := h g.bits.toNat g.lt
  rwa [BitVec.ofNat_toNat, BitVec.setWidth_eq] at this

/-- C112 for TCP: the packets of at most 65535 bytes that some calls build are exactly the accepted, valid IPv4
packets without options of their total length whose payload is an accepted, valid TCP segment without options
whose three reserved bits are zero. -/
theorem C112_tcp (cfg : Cfg) (p : Bytes) (hp : p.length ≤ 65535) :
    (∃ vops tops, CallsBuild cfg vops (.tcp tops) p) ↔
      WholeV4 cfg p ∧ V4.protocol p = .ok .tcp ∧
        ∃ d, V4.payload p = .ok d ∧ Tcp.new d = .ok d ∧ Tcp.offset d = .ok 5 ∧ field d 100 3 = 0 ∧
          Tcp.isValid cfg (.v4 p) d = .ok true := by
  constructor
  · rintro ⟨vops, tops, h⟩
    obtain ⟨a, hok, ha, h⟩ := ipv4_inv cfg h
    have hok : Ipv4Fields.ok { a.fields with protocol := 6#8 } := hok
    rw [tcp_inner_abs cfg tops (none_of h) rfl] at h
    obtain ⟨t, ht, h⟩ := bind_ok_inv h
    obtain ⟨d, hd, h⟩ := bind_ok_inv h
    obtain ⟨ick, hshape, hpl, hw, hpay, hpr⟩ := seal_whole cfg hok h hp
    refine ⟨hw, hpr, d, hpay, ?_⟩
    unfold TcpState.seal at hd
    obtain ⟨tck, hck, hd⟩ := bind_ok_inv hd
    injection hd with hd
    obtain ⟨g, hg⟩ := flagBits_flags t
    rw [← hg] at hck hd
    generalize t.payload.getD [] = q at *
    generalize t.fields = tf at *
    have hdl : d.length = 20 + q.length := by rw [← hd, List.length_append, tcpHeader_length]
    have hdl0 : (tcpHeader tf (0x5000#16 ||| g.bits) 0#16 ++ q).length = 20 + q.length := by
      rw [List.length_append, tcpHeader_length]
    obtain ⟨w1, w2, -⟩ := tcp_final_view tf g tck q
    obtain ⟨-, -, -, -, -, -, vck, vword⟩ := tcp_view tf (0x5000#16 ||| g.bits) tck q
    rw [hd] at w1 w2 vck vword
    refine ⟨w1, w2, ?_, ?_⟩
    · have e1 := readU16At_field (b := d) (k := 12) (by omega)
      rw [vword] at e1
      injection e1 with e1
      have e2 := field_add d 96 4 12
      have e3 := field_add d 100 3 9
      have l1 := field_lt d 96 4
      have l2 := field_lt d 103 9
      have l3 := field_lt d 100 3
      have e4 := congrArg BitVec.toNat e1
      rw [BitVec.toNat_ofNat, show 8 * 12 = 96 from rfl] at e4
      rw [show 4 + 12 = 16 from rfl, show 96 + 4 = 100 from rfl] at e2
      rw [show 3 + 9 = 12 from rfl, show 100 + 3 = 103 from rfl] at e3
      have hr := finalWord_reserved g
      rw [e4, e2, e3] at hr
      omega
    · unfold Tcp.isValid
      rw [vck, hshape, tcp_checksum_v4 cfg hok _ _ d d (by omega)]
      have e := tcp_checksum_v4 cfg hok 0#16 0#16 [] d (by omega)
      rw [List.append_nil, ← hd, tcp_checksum_skip cfg _ (by rw [hok.length]; omega) _ _ _ _ (by omega), hck, hd] at e
      rw [← e]
      simp
  · rintro ⟨hw, hpr, d, hpay, h1, h2, h3, h4⟩
    obtain ⟨f, s, t, ck, rest, a, -, -, hr, hf, hasks⟩ := whole_copy cfg hw
    rw [hpay] at hr; injection hr with hr; subst hr
    rw [hpr] at hf; injection hf with hf
    obtain ⟨ops, -, e, hs⟩ := tcp_rebuilt cfg hasks (ofWire_protocol (n := 6#8) hf.symm rfl) h1 h2 h3 h4
    exact ⟨_, ops, hasks.sane, hs, e⟩

/-- A concrete case that meets the hypotheses. -/
example (cfg : Cfg) := C112_tcp cfg Sample.tcpPacket (by decide)

/-! ## ICMP -/

/-- An echo message the ICMP views accept, with code 0 and the checksum the code expects. -/
def EchoMessage (cfg : Cfg) (d : Bytes) : Prop :=
  Echo.new d = .ok d ∧ Icmp.code d = .ok 0 ∧ Icmp.isValid cfg d = .ok true

/-- The same for a timestamp message of exactly 20 bytes. -/
def TimestampMessage (cfg : Cfg) (d : Bytes) : Prop :=
  Timestamp.new d = .ok d ∧ d.length = 20 ∧ Icmp.code d = .ok 0 ∧ Icmp.isValid cfg d = .ok true

/-- The same for an information message of exactly 8 bytes. -/
def InformationMessage (cfg : Cfg) (d : Bytes) : Prop :=
  Information.new d = .ok d ∧ d.length = 8 ∧ Icmp.code d = .ok 0 ∧ Icmp.isValid cfg d = .ok true

theorem echo_image (cfg : Cfg) {ops : List EchoOp} {m : Nat} (hm : m ≤ 100) {d : Bytes}
    (h : (IcmpInner.echo ops).abs cfg cfg.isizeMax m = .ok d) : EchoMessage cfg d := by
  unfold IcmpInner.abs at h
  simp only [] at h
  rw [need_dynamic (by omega), Outcome.ok_bind] at h
  obtain ⟨a, ha, h⟩ := bind_ok_inv h
  split at h
  · rename_i hk
    obtain ⟨ck, hck, h⟩ := bind_ok_inv h
    injection h with h
    have hkind : ∀ k, a.kind = some k → k = 8#8 ∨ k = 0#8 := by
      refine runOps_inv (fun a : EchoState => ∀ k, a.kind = some k → k = 8#8 ∨ k = 0#8) ?_ ops .init a
        (fun k hk => by cases hk) ha
      intro op a a' hp h
      cases op with
      | payload v =>
        simp only [EchoOp.abs] at h
        split at h
        · cases h
        · injection h with h; subst h; exact hp
      | request => injection h with h; subst h; intro k hk; injection hk with hk; exact .inl hk.symm
      | reply => injection h with h; subst h; intro k hk; injection hk with hk; exact .inr hk.symm
      | identifier v => injection h with h; subst h; exact hp
      | sequence v => injection h with h; subst h; exact hp
    match hak : a.kind with
    | none => rw [hak] at hk; cases hk
    | some t =>
      have ht := hkind t hak
      unfold EchoState.msg at h hck
      rw [hak] at h hck
      simp only [Option.getD_some] at h hck
      obtain ⟨-, -, v3, -⟩ := echoHeader_view t ck a.id a.seq (a.payload.getD [])
      have hv := icmp_valid cfg _ (by simp [icmpEchoHeader, be16]) ck hck
      have hput : put (icmpEchoHeader t 0#16 a.id a.seq ++ a.payload.getD []) 2 (be16 ck) =
          icmpEchoHeader t ck a.id a.seq ++ a.payload.getD [] := rfl
      rw [hput, h] at hv
      rw [h] at v3
      refine ⟨?_, v3, hv⟩
      rw [(C35_icmp_typed_accept d).1, if_neg (by rw [← h]; simp [icmpEchoHeader, be16]), if_pos]
      have e := field_byte d 0
      rw [show 8 * 0 = 0 from rfl] at e
      rw [e, ← h]
      show t.toNat ∈ _
      rcases ht with rfl | rfl <;> decide
  · cases h

theorem timestamp_image (cfg : Cfg) {ops : List TimestampOp} {m : Nat} (hm : m ≤ 100) {d : Bytes}
    (h : (IcmpInner.timestamp ops).abs cfg cfg.isizeMax m = .ok d) : TimestampMessage cfg d := by
  unfold IcmpInner.abs at h
  simp only [] at h
  rw [need_dynamic (by omega), Outcome.ok_bind] at h
  obtain ⟨a, ha, h⟩ := bind_ok_inv h
  split at h
  · rename_i hk
    obtain ⟨ck, hck, h⟩ := bind_ok_inv h
    injection h with h
    have hkind : ∀ k, a.kind = some k → k = 13#8 ∨ k = 14#8 := by
      refine runOps_inv (fun a : TimestampState => ∀ k, a.kind = some k → k = 13#8 ∨ k = 14#8) ?_ ops .init a
        (fun k hk => by cases hk) ha
      intro op a a' hp h
      injection h with h
      subst h
      cases op with
      | request => intro k hk; injection hk with hk; exact .inl hk.symm
      | reply => intro k hk; injection hk with hk; exact .inr hk.symm
      | _ => exact hp
    match hak : a.kind with
    | none => rw [hak] at hk; cases hk
    | some t =>
      have ht := hkind t hak
      unfold TimestampState.msg at h hck
      rw [hak] at h hck
      simp only [Option.getD_some] at h hck
      obtain ⟨-, -, v3, -⟩ := timestamp_view t ck a.id a.seq a.originate a.receive a.transmit
      have hv := icmp_valid cfg _ (by simp [icmpTimestamp, be16, be32]) ck hck
      have hput : put (icmpTimestamp t 0#16 a.id a.seq a.originate a.receive a.transmit) 2 (be16 ck) =
          icmpTimestamp t ck a.id a.seq a.originate a.receive a.transmit := rfl
      rw [hput, h] at hv
      rw [h] at v3
      have hl : d.length = 20 := by rw [← h]; simp [icmpTimestamp, be16, be32]
      refine ⟨?_, hl, v3, hv⟩
      rw [(C35_icmp_typed_accept d).2.1, if_neg (by omega), if_pos]
      have e := field_byte d 0
      rw [show 8 * 0 = 0 from rfl] at e
      rw [e, ← h]
      show t.toNat ∈ _
      rcases ht with rfl | rfl <;> decide
  · cases h

theorem information_image (cfg : Cfg) {ops : List InformationOp} {m : Nat} (hm : m ≤ 100) {d : Bytes}
    (h : (IcmpInner.information ops).abs cfg cfg.isizeMax m = .ok d) : InformationMessage cfg d := by
  unfold IcmpInner.abs at h
  simp only [] at h
  rw [need_dynamic (by omega), Outcome.ok_bind] at h
  obtain ⟨a, ha, h⟩ := bind_ok_inv h
  split at h
  · rename_i hk
    obtain ⟨ck, hck, h⟩ := bind_ok_inv h
    injection h with h
    have hkind : ∀ k, a.kind = some k → k = 15#8 ∨ k = 16#8 := by
      refine runOps_inv (fun a : InformationState => ∀ k, a.kind = some k → k = 15#8 ∨ k = 16#8) ?_ ops .init a
        (fun k hk => by cases hk) ha
      intro op a a' hp h
      injection h with h
      subst h
      cases op with
      | request => intro k hk; injection hk with hk; exact .inl hk.symm
      | reply => intro k hk; injection hk with hk; exact .inr hk.symm
      | _ => exact hp
    match hak : a.kind with
    | none => rw [hak] at hk; cases hk
    | some t =>
      have ht := hkind t hak
      unfold InformationState.msg at h hck
      rw [hak] at h hck
      simp only [Option.getD_some] at h hck
      have v := echoHeader_view t ck a.id a.seq []
      rw [List.append_nil, h] at v
      obtain ⟨-, -, v3, -⟩ := v
      have hv := icmp_valid cfg _ (by simp [icmpEchoHeader, be16]) ck hck
      have hput : put (icmpEchoHeader t 0#16 a.id a.seq) 2 (be16 ck) = icmpEchoHeader t ck a.id a.seq := rfl
      rw [hput, h] at hv
      have hl : d.length = 8 := by rw [← h]; simp [icmpEchoHeader, be16]
      refine ⟨?_, hl, v3, hv⟩
      rw [(C35_icmp_typed_accept d).2.2.1, if_neg (by omega), if_pos]
      have e := field_byte d 0
      rw [show 8 * 0 = 0 from rfl] at e
      rw [e, ← h]
      show t.toNat ∈ _
      rcases ht with rfl | rfl <;> decide
  · cases h

/-- C112 for ICMP messages on their own: the messages that some calls build are exactly the ones described. -/
theorem C112_icmp (cfg : Cfg) (d : Bytes) (hd : d.length ≤ cfg.usizeMod / 4) :
    ((∃ ops, (Inner.icmp (.echo ops)).Sane cfg ∧ icmpProgram cfg Dynamic.new (.echo ops) = .ok d) ↔ EchoMessage cfg d) ∧
    ((∃ ops, icmpProgram cfg Dynamic.new (.timestamp ops) = .ok d) ↔ TimestampMessage cfg d) ∧
    ((∃ ops, icmpProgram cfg Dynamic.new (.information ops) = .ok d) ↔ InformationMessage cfg d) := by
  refine ⟨⟨?_, ?_⟩, ⟨?_, ?_⟩, ⟨?_, ?_⟩⟩
  · rintro ⟨ops, hs, h⟩
    rw [icmpProgram_dynamic cfg _ hs] at h
    exact echo_image cfg (Nat.zero_le _) h
  · rintro ⟨h1, h2, h3⟩
    obtain ⟨ops, -, hs, h⟩ := echo_message cfg hd h1 h2 h3
    exact ⟨ops, hs, by rw [icmpProgram_dynamic cfg _ hs]; exact h 0 (Nat.zero_le _)⟩
  · rintro ⟨ops, h⟩
    rw [icmpProgram_dynamic cfg _ (by intro v hv; cases hv)] at h
    exact timestamp_image cfg (Nat.zero_le _) h
  · rintro ⟨h1, h2, h3, h4⟩
    obtain ⟨ops, -, hs, h⟩ := timestamp_message cfg hd h1 h2 h3 h4
    exact ⟨ops, by rw [icmpProgram_dynamic cfg _ hs]; exact h 0 (Nat.zero_le _)⟩
  · rintro ⟨ops, h⟩
    rw [icmpProgram_dynamic cfg _ (by intro v hv; cases hv)] at h
    exact information_image cfg (Nat.zero_le _) h
  · rintro ⟨h1, h2, h3, h4⟩
    obtain ⟨ops, -, hs, h⟩ := information_message cfg hd h1 h2 h3 h4
    exact ⟨ops, by rw [icmpProgram_dynamic cfg _ hs]; exact h 0 (Nat.zero_le _)⟩

/-- A concrete case that meets the hypotheses. -/
example (cfg : Cfg) := C112_icmp cfg Sample.echo (by call_by_call)

/-- C112 for ICMP inside IPv4. -/
theorem C112_icmp_in_ipv4 (cfg : Cfg) (p : Bytes) (hp : p.length ≤ 65535) :
    ((∃ vops ops, CallsBuild cfg vops (.icmp (.echo ops)) p) ↔
      WholeV4 cfg p ∧ V4.protocol p = .ok .icmp ∧ ∃ d, V4.payload p = .ok d ∧ EchoMessage cfg d) ∧
    ((∃ vops ops, CallsBuild cfg vops (.icmp (.timestamp ops)) p) ↔
      WholeV4 cfg p ∧ V4.protocol p = .ok .icmp ∧ ∃ d, V4.payload p = .ok d ∧ TimestampMessage cfg d) ∧
    ((∃ vops ops, CallsBuild cfg vops (.icmp (.information ops)) p) ↔
      WholeV4 cfg p ∧ V4.protocol p = .ok .icmp ∧ ∃ d, V4.payload p = .ok d ∧ InformationMessage cfg d) := by
  have key : ∀ (vops : List V4Op) (i : IcmpInner), CallsBuild cfg vops (.icmp i) p →
      WholeV4 cfg p ∧ V4.protocol p = .ok .icmp ∧
        ∃ d, V4.payload p = .ok d ∧ i.abs cfg cfg.isizeMax 20 = .ok d := by
    intro vops i h
    obtain ⟨a, hok, ha, h⟩ := ipv4_inv cfg h
    have hok : Ipv4Fields.ok { a.fields with protocol := 1#8 } := hok
    rw [icmp_inner_abs cfg i (none_of h) rfl] at h
    obtain ⟨d, hd, h⟩ := bind_ok_inv h
    obtain ⟨ick, hshape, hpl, hw, hpay, hpr⟩ := seal_whole cfg hok h hp
    exact ⟨hw, hpr, d, hpay, hd⟩
  refine ⟨⟨?_, ?_⟩, ⟨?_, ?_⟩, ⟨?_, ?_⟩⟩
  · rintro ⟨vops, ops, h⟩
    obtain ⟨h1, h2, d, h3, h4⟩ := key _ _ h
    exact ⟨h1, h2, d, h3, echo_image cfg (by omega) h4⟩
  · rintro ⟨hw, hpr, d, hpay, h1, h2, h3⟩
    obtain ⟨f, s, t, ck, rest, a, -, -, hr, hf, hasks⟩ := whole_copy cfg hw
    rw [hpay] at hr; injection hr with hr; subst hr
    rw [hpr] at hf; injection hf with hf
    obtain ⟨ops, -, e, hs⟩ := echo_rebuilt cfg hasks (ofWire_protocol (n := 1#8) hf.symm rfl) h1 h2 h3
    exact ⟨_, ops, hasks.sane, hs, e⟩
  · rintro ⟨vops, ops, h⟩
    obtain ⟨h1, h2, d, h3, h4⟩ := key _ _ h
    exact ⟨h1, h2, d, h3, timestamp_image cfg (by omega) h4⟩
  · rintro ⟨hw, hpr, d, hpay, h1, h2, h3, h4⟩
    obtain ⟨f, s, t, ck, rest, a, -, -, hr, hf, hasks⟩ := whole_copy cfg hw
    rw [hpay] at hr; injection hr with hr; subst hr
    rw [hpr] at hf; injection hf with hf
    obtain ⟨ops, -, e, hs⟩ := timestamp_rebuilt cfg hasks (ofWire_protocol (n := 1#8) hf.symm rfl) h1 h2 h3 h4
    exact ⟨_, ops, hasks.sane, hs, e⟩
  · rintro ⟨vops, ops, h⟩
    obtain ⟨h1, h2, d, h3, h4⟩ := key _ _ h
    exact ⟨h1, h2, d, h3, information_image cfg (by omega) h4⟩
  · rintro ⟨hw, hpr, d, hpay, h1, h2, h3, h4⟩
    obtain ⟨f, s, t, ck, rest, a, -, -, hr, hf, hasks⟩ := whole_copy cfg hw
    rw [hpay] at hr; injection hr with hr; subst hr
    rw [hpr] at hf; injection hf with hf
    obtain ⟨ops, -, e, hs⟩ := information_rebuilt cfg hasks (ofWire_protocol (n := 1#8) hf.symm rfl) h1 h2 h3 h4
    exact ⟨_, ops, hasks.sane, hs, e⟩

/-- A concrete case that meets the hypotheses. -/
example (cfg : Cfg) := C112_icmp_in_ipv4 cfg Sample.echoPacket (by decide)

/-! ## IPv4 alone -/

theorem no_payload_run {vops : List V4Op} (h0 : vops.filterMap V4Op.payload? = []) {a : V4State}
    (h : runOps V4Op.abs vops .init = .ok a) : a.payload = none := by
  have key : ∀ (ops : List V4Op) (b : V4State), ops.filterMap V4Op.payload? = [] → b.payload = none →
      runOps V4Op.abs ops b = .ok a → a.payload = none := by
    intro ops
    induction ops with
    | nil =>
      intro b _ hb h
      have h : Outcome.ok b = .ok a := h
      injection h with h
      rw [← h, hb]
    | cons op ops ih =>
      intro b h0 hb h
      have h : (V4Op.abs op b >>= fun b => runOps V4Op.abs ops b) = .ok a := h
      obtain ⟨c, hc, h⟩ := bind_ok_inv h
      rw [List.filterMap_eq_nil_iff] at h0
      refine ih c (List.filterMap_eq_nil_iff.2 (fun x hx => h0 x (List.mem_cons_of_mem _ hx))) ?_ h
      have hop := h0 op (List.mem_cons_self ..)
      cases op with
      | payload v => cases hop
      | dscp v =>
        simp only [V4Op.abs] at hc
        split at hc
        · cases hc
        · injection hc with hc; subst hc; exact hb
      | ecn v =>
        simp only [V4Op.abs] at hc
        split at hc
        · cases hc
        · injection hc with hc; subst hc; exact hb
      | _ => simp only [V4Op.abs] at hc; injection hc with hc; subst hc; exact hb
  exact key vops .init h0 rfl h

/-- C112 for IPv4 alone: what calls without a payload build is exactly every accepted, valid header of 20 bytes
without options, with any protocol, any type of service and any flag and offset bits. -/
theorem C112_ipv4 (cfg : Cfg) (p : Bytes) :
    (∃ vops, vops.filterMap V4Op.payload? = [] ∧ ipv4Program cfg Dynamic.new vops .plain = .ok p) ↔
      WholeV4 cfg p ∧ p.length = 20 := by
  constructor
  · rintro ⟨vops, h0, h⟩
    obtain ⟨a, hok, ha, h⟩ := ipv4_inv cfg ⟨v4_sane_of_none h0, (by intro v hv; cases hv), h⟩
    have hn := no_payload_run h0 ha
    obtain ⟨f, q⟩ := a
    have hn : q = none := hn
    subst hn
    have h : V4State.raw cfg ⟨f, none⟩ = .ok p := h
    rw [raw_eq_seal cfg hok none (by decide)] at h
    have h : sealV4 cfg f [] = .ok p := h
    have hl : p.length = 20 := by
      unfold sealV4 at h
      obtain ⟨ck, -, h⟩ := bind_ok_inv h
      injection h with h
      rw [← h, List.append_nil, Ipv4Fields.ok.length hok]
    obtain ⟨ck, -, -, hw, -, -⟩ := seal_whole cfg hok h (by omega)
    exact ⟨hw, hl⟩
  · rintro ⟨hw, hl⟩
    obtain ⟨f, s, t, ck, rest, a, -, -, hr, hf, hasks⟩ := whole_copy cfg hw
    obtain ⟨hok, hsize, hshape, hsane, hrun, hnone, hfields, hseal⟩ := hasks
    have hrest : rest = [] := by
      rw [hshape, List.length_append, hok.length] at hl
      exact List.length_eq_zero_iff.1 (by omega)
    subst hrest
    have h0 : (callsFor f s t ++ [V4Op.protocol (.ofWire f.protocol)]).filterMap V4Op.payload? = [] := rfl
    refine ⟨callsFor f s t ++ [V4Op.protocol (.ofWire f.protocol)], h0, ?_⟩
    rw [ipv4Program_dynamic cfg _ _ (v4_sane_of_none h0) (by intro v hv; cases hv)]
    unfold ipv4Abs
    rw [need_dynamic (by omega), Outcome.ok_bind, runOps_append, hrun, Outcome.ok_bind]
    show (Outcome.ok (V4Op.step (.protocol (.ofWire f.protocol)) a) >>= fun a => V4State.raw cfg a) = _
    have : V4Op.step (.protocol (.ofWire f.protocol)) a = ⟨f, none⟩ := by
      show (⟨{ a.fields with protocol := (IpProtocol.ofWire f.protocol).toWire }, a.payload⟩ : V4State) = _
      rw [C40_ip_protocol.wire, hfields, hnone]
    rw [Outcome.ok_bind, this, raw_eq_seal cfg hok none (by decide)]
    exact hseal

/-! ## Ethernet -/

/-- C112 for Ethernet: the frames that calls on `ether::Builder` build are exactly the accepted ones. -/
theorem C112_ether (cfg : Cfg) (p : Bytes) (hp : p.length ≤ cfg.usizeMod / 4) :
    (∃ eops : List EtherOp, (∀ op ∈ eops, op.Sane cfg) ∧ etherProgram cfg Dynamic.new eops = .ok p) ↔
      Ether.new p = .ok p := by
  constructor
  · rintro ⟨eops, hs, h⟩
    rw [etherProgram_eq cfg Dynamic.rep_new eops (.inl (by in_every_build)) (ether_sane_room (by simp) hs)] at h
    obtain ⟨out, ho, h⟩ := bind_ok_inv h
    obtain ⟨_, -, ho⟩ := bind_ok_inv ho
    obtain ⟨e, -, ho⟩ := bind_ok_inv ho
    have h := Outcome.ok.inj h
    have ho := Outcome.ok.inj ho
    have h : out = p := h
    rw [← h, ← ho]
    exact (ether_view _ _ _ _).1
  · intro h
    have e := C95_ether_rebuild cfg h hp
    unfold rebuildEther at e
    obtain ⟨ops, ho, e⟩ := bind_ok_inv e
    refine ⟨ops, ?_, e⟩
    unfold copyEther at ho
    obtain ⟨d, -, ho⟩ := bind_ok_inv ho
    obtain ⟨s, -, ho⟩ := bind_ok_inv ho
    obtain ⟨t, -, ho⟩ := bind_ok_inv ho
    obtain ⟨q, hq, ho⟩ := bind_ok_inv ho
    have ho := Outcome.ok.inj ho
    subst ho
    intro op hop v hv
    have : v = q := by
      simp only [List.mem_cons, List.not_mem_nil, or_false] at hop
      rcases hop with rfl | rfl | rfl | rfl <;> first | (cases hv; done) | (injection hv with hv; exact hv.symm)
    subst this
    have h14 : 14 ≤ p.length := by
      unfold Ether.new Ether.headerMin at h
      split at h
      · cases h
      · omega
    obtain ⟨d', s', t', q', rfl⟩ := ether_shape p h14
    rw [(ether_view d' s' t' q').2.2.2.2] at hq
    have hq := Outcome.ok.inj hq
    subst hq
    have hl : (ethernetFrame d'.octets s'.octets t' q').length = 14 + q'.length := by
      simp [ethernetFrame, be16, HwAddr.octets]; omega
    omega

/-- A concrete case that meets the hypotheses. -/
example (cfg : Cfg) := C112_ether cfg Sample.udpPacket (by call_by_call)

theorem ether_no_payload : ∀ (eops : List EtherOp) (a e : EtherState), runOps EtherOp.abs eops a = .ok e →
    e.payload = none → eops.filterMap EtherOp.payload? = [] ∧ a.payload = none
  | [], a, e, h, hn => by
    have h : Outcome.ok a = .ok e := h
    injection h with h
    exact ⟨rfl, h ▸ hn⟩
  | op :: ops, a, e, h, hn => by
    have h : (EtherOp.abs op a >>= fun a => runOps EtherOp.abs ops a) = .ok e := h
    obtain ⟨b, hb, h⟩ := bind_ok_inv h
    obtain ⟨i1, i2⟩ := ether_no_payload ops b e h hn
    cases op with
    | payload v =>
      simp only [EtherOp.abs] at hb
      split at hb
      · cases hb
      · injection hb with hb; subst hb; cases i2
    | destination v =>
      simp only [EtherOp.abs] at hb
      injection hb with hb; subst hb
      exact ⟨i1, i2⟩
    | source v =>
      simp only [EtherOp.abs] at hb
      injection hb with hb; subst hb
      exact ⟨i1, i2⟩
    | protocol v =>
      simp only [EtherOp.abs] at hb
      injection hb with hb; subst hb
      exact ⟨i1, i2⟩

/-- C112 for stacks: with a given layer inside the IPv4 packet, the frames that calls on the three builders build
are exactly the accepted frames with the IPv4 protocol number whose payload is a packet the inner builders build. -/
theorem C112_frame (cfg : Cfg) (fr : Bytes) (inner : Inner) (hin : inner ≠ .plain) :
    (∃ eops vops, (∀ op ∈ eops, EtherOp.Sane cfg op) ∧ (∀ op ∈ vops, V4Op.Sane cfg op) ∧ inner.Sane cfg ∧
      ethernetProgram cfg Dynamic.new eops vops inner = .ok fr) ↔
      Ether.new fr = .ok fr ∧ Ether.protocol fr = .ok .ipv4 ∧
        ∃ p, Ether.payload fr = .ok p ∧ ∃ vops, CallsBuild cfg vops inner p := by
  constructor
  · rintro ⟨eops, vops, he, hv, hi, h⟩
    have hnone : eops.filterMap EtherOp.payload? = [] := by
      have h := h
      rw [ethernetProgram_dynamic cfg _ _ _ he hv hi] at h
      unfold ethernetAbs at h
      rw [need_dynamic (by omega), Outcome.ok_bind] at h
      obtain ⟨e, hrun, h⟩ := bind_ok_inv h
      split at h
      · cases h
      · rename_i hn
        refine (ether_no_payload eops _ e hrun ?_).1
        cases he : e.payload with
        | none => rfl
        | some v => rw [he] at hn; exact absurd rfl hn
    have key := C49_stack_compose cfg eops vops inner hnone hv hi (fun e => absurd e hin)
    cases hp : ipv4Program cfg Dynamic.new vops inner with
    | err e => rw [hp] at key; simp only [] at key; rw [key] at h; cases h
    | panic => rw [hp] at key; simp only [] at key; rw [key] at h; cases h
    | ok p =>
      rw [hp] at key
      simp only [] at key
      obtain ⟨frame, e, hr⟩ := key
      rw [e] at h
      have h := Outcome.ok.inj h
      subst h
      exact ⟨hr.accepted, hr.protocol, p, hr.payload, vops, hv, hi, hp⟩
  · rintro ⟨h1, h2, p, h3, vops, hv, hi, h⟩
    have key := C95_frame_rebuild cfg h1 h2 h3 vops inner hin hv hi h
    obtain ⟨d, -, key⟩ := bind_ok_inv key
    obtain ⟨s, -, key⟩ := bind_ok_inv key
    refine ⟨[.destination d, .source s], vops, ?_, hv, hi, key⟩
    intro op hop v hv
    simp only [List.mem_cons, List.not_mem_nil, or_false] at hop
    rcases hop with rfl | rfl <;> cases hv

/-! ## Concrete cases -/

/-- A packet with DF set is in the image: `offset()` takes the whole word. -/
example (cfg : Cfg) : ∃ vops uops, CallsBuild cfg vops (.udp uops)
    [69, 0, 0, 28, 0, 1, 64, 0, 64, 17, 38, 206, 10, 0, 0, 1, 10, 0, 0, 2, 0, 1, 0, 2, 0, 8, 235, 216] := by
  refine (C112_udp cfg _ (by decide)).2 ?_
  obtain ⟨oc, ea, nw⟩ := cfg
  refine ⟨⟨?_, ?_, ?_, ?_⟩, ?_, [0, 1, 0, 2, 0, 8, 235, 216], ?_, ?_, ?_, ?_⟩ <;>
    (cases oc <;> cases ea <;> cases nw <;> decide +kernel)

/-- A datagram without a checksum, which RFC 768 allows, is not. -/
example (cfg : Cfg) : ¬ ∃ vops uops, CallsBuild cfg vops (.udp uops)
    [69, 0, 0, 28, 0, 1, 64, 0, 64, 17, 38, 206, 10, 0, 0, 1, 10, 0, 0, 2, 0, 1, 0, 2, 0, 8, 0, 0] := by
  rw [C112_udp cfg _ (by decide)]
  rintro ⟨-, -, d, h1, -, -, h2⟩
  have hd : V4.payload [69, 0, 0, 28, 0, 1, 64, 0, 64, 17, 38, 206, 10, 0, 0, 1, 10, 0, 0, 2, 0, 1, 0, 2, 0, 8, 0, 0]
    = .ok [0, 1, 0, 2, 0, 8, 0, 0] := by decide +kernel
  rw [hd] at h1
  have h1 := Outcome.ok.inj h1
  subst h1
  revert h2
  obtain ⟨oc, ea, nw⟩ := cfg
  cases oc <;> cases ea <;> cases nw <;> decide +kernel

example (cfg : Cfg) : EchoMessage cfg [8, 0, 243, 233, 0, 7, 0, 9, 1, 2, 3, 4] ∧
    TimestampMessage cfg [14, 0, 241, 233, 0, 7, 0, 9, 0, 0, 0, 1, 0, 0, 0, 2, 0, 0, 0, 3] ∧
    InformationMessage cfg [15, 0, 240, 239, 0, 7, 0, 9] ∧ ¬ EchoMessage cfg [8, 1, 243, 232, 0, 7, 0, 9, 1, 2, 3, 4] := by
  obtain ⟨oc, ea, nw⟩ := cfg
  refine ⟨⟨?_, ?_, ?_⟩, ⟨?_, ?_, ?_, ?_⟩, ⟨?_, ?_, ?_, ?_⟩, fun h => absurd h.2.1 (by decide +kernel)⟩ <;>
    (cases oc <;> cases ea <;> cases nw <;> decide +kernel)

end Verif.Props
