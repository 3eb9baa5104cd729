import Verif.Spec.Dissect
import Verif.Props.Stack
import Verif.Props.Checksum
import Verif.Props.Verify
import Verif.Props.Icmp
import Verif.Props.Ether
import Verif.Props.Transport
import Verif.Props.Enums
import Verif.Props.BuildersStack
import Verif.Props.BuildersIcmp
import Verif.Props.BuilderWords

/-!
# Dissecting whatever comes (C137)
-/

namespace Verif.Props
open Verif Verif.Spec

/-- `match result { Ok(x) => …, Err(e) => … }`. -/
def attempt {α β : Type} (o : Outcome α) (good : α → Outcome β) (bad : Error → Outcome β) : Outcome β :=
  match o with
  | .ok a => good a
  | .err e => bad e
  | .panic => .panic

/-- The packet in an ICMP error.

```text
match message.packet() {
    Err(e) => Quote::Refused(e),
    Ok(q)  => Quote::Packet(q.source(), q.destination(), q.protocol().into(), q.payload()),
}
```
-/
def showQuote (o : Outcome Bytes) : Outcome Quote :=
  attempt o
    (fun q => do
      let s ← V4.source q
      let d ← V4.destination q
      let proto ← V4.protocol q
      let data ← V4.payload q
      .ok (.packet s.octets d.octets proto.toWire.toNat data))
    (fun e => .ok (.refused e))

/-- `udp::Packet::new(ip.payload())`, the fields, `is_valid(&ip)` and `payload()`. -/
def showUdp (cfg : Cfg) (ip u : Bytes) : Outcome Message :=
  attempt (Udp.new u)
    (fun p => do
      let s ← Udp.source p
      let d ← Udp.destination p
      let l ← Udp.length p
      let good ← Udp.isValid cfg (.v4 ip) p
      let data ← Udp.payload p
      .ok (.udp s.toNat d.toNat l.toNat good data))
    (fun e => .ok (.refused e))

/-- `tcp::Packet::new(ip.payload())`, the fields, `is_valid(&ip)` and `payload()`. -/
def showTcp (cfg : Cfg) (ip t : Bytes) : Outcome Message :=
  attempt (Tcp.new t)
    (fun p => do
      let s ← Tcp.source p
      let d ← Tcp.destination p
      let seq ← Tcp.sequence p
      let ack ← Tcp.acknowledgment p
      let flags ← Tcp.flags p
      let window ← Tcp.window p
      let pointer ← Tcp.pointer p
      let good ← Tcp.isValid cfg (.v4 ip) p
      let data ← Tcp.payload p
      .ok (.tcp s.toNat d.toNat seq.toNat ack.toNat flags.bits.toNat window.toNat pointer.toNat good data))
    (fun e => .ok (.refused e))

/-- An ICMP message: through the first of its typed views that accepts it.

```text
let icmp = icmp::Packet::new(ip.payload())?;
if let Ok(echo) = icmp.echo() { … }
else if let Ok(timestamp) = icmp.timestamp() { … }
else if let Ok(m) = icmp.previous() { … m.packet() … }
else if let Ok(m) = icmp.redirect_message() { … m.packet() … }
else if let Ok(m) = icmp.parameter_problem() { … m.packet() … }
else { … }
```
-/
def showIcmp (cfg : Cfg) (m : Bytes) : Outcome Message :=
  attempt (Icmp.new m)
    (fun p => do
      let kind ← Icmp.kind p
      let code ← Icmp.code p
      let good ← Icmp.isValid cfg p
      attempt (Echo.new p)
        (fun e => do
          let r ← Echo.isRequest e
          let id ← Echo.identifier e
          let seq ← Echo.sequence e
          let data ← Echo.payload e
          .ok (.echo r good id.toNat seq.toNat data))
        fun _ => attempt (Timestamp.new p)
          (fun t => do
            let r ← Timestamp.isRequest t
            let id ← Timestamp.identifier t
            let seq ← Timestamp.sequence t
            let o ← Timestamp.originate t
            let rc ← Timestamp.receive t
            let tr ← Timestamp.transmit t
            .ok (.timestamp r good id.toNat seq.toNat o.toNat rc.toNat tr.toNat))
          fun _ => attempt (Previous.new p)
            (fun e => do
              let q ← showQuote (Previous.packet e)
              .ok (.error kind.toWire.toNat code.toNat good q))
            fun _ => attempt (Redirect.new p)
              (fun e => do
                let q ← showQuote (Redirect.packet e)
                .ok (.error kind.toWire.toNat code.toNat good q))
              fun _ => attempt (ParamProblem.new p)
                (fun e => do
                  let q ← showQuote (ParamProblem.packet e)
                  .ok (.error kind.toWire.toNat code.toNat good q))
                fun _ => do
                  let data ← Icmp.payload p
                  .ok (.icmp kind.toWire.toNat code.toNat good data))
    (fun e => .ok (.refused e))

/-- `match ip.protocol() { Udp => …, Tcp => …, Icmp => …, _ => … }`. -/
def showMessage (cfg : Cfg) (ip : Bytes) (proto : IpProtocol) (data : Bytes) : Outcome Message :=
  match proto with
  | .udp => showUdp cfg ip data
  | .tcp => showTcp cfg ip data
  | .icmp => showIcmp cfg data
  | _ => .ok (.other data)

/-- An IPv4 packet. -/
def showIp (cfg : Cfg) (b : Bytes) : Outcome Content :=
  attempt (V4.new b)
    (fun p => do
      let s ← V4.source p
      let d ← V4.destination p
      let dscp ← V4.dscp p
      let ecn ← V4.ecn p
      let id ← V4.id p
      let off ← V4.offset p
      let ttl ← V4.ttl p
      let proto ← V4.protocol p
      let good ← V4.isValid cfg p
      let data ← V4.payload p
      let m ← showMessage cfg p proto data
      .ok (.ip ⟨s.octets, d.octets, dscp.toNat, ecn.toNat, id.toNat, off.toNat, ttl.toNat, proto.toWire.toNat, good⟩ m))
    (fun e => .ok (.refused e))

/-- `match frame.protocol() { Ipv4 => …, _ => … }`. -/
def showContent (cfg : Cfg) (proto : EtherProtocol) (p : Bytes) : Outcome Content :=
  match proto with
  | .ipv4 => showIp cfg p
  | _ => .ok (.other p)

/-- A frame. -/
def dissect (cfg : Cfg) (b : Bytes) : Outcome Reading :=
  attempt (Ether.new b)
    (fun f => do
      let d ← Ether.destination f
      let s ← Ether.source f
      let proto ← Ether.protocol f
      let p ← Ether.payload f
      let c ← showContent cfg proto p
      .ok (.frame d.octets s.octets proto.toWire.toNat c))
    (fun e => .ok (.refused e))

/-! ## Values and checksums -/

theorem field_value {w : Nat} (b : Bytes) (s n : Nat) (h : n ≤ w) : (BitVec.ofNat w (field b s n)).toNat = field b s n := by
  rw [BitVec.toNat_ofNat]
  exact Nat.mod_eq_of_lt (Nat.lt_of_lt_of_le (field_lt b s n) (Nat.pow_le_pow_right (by decide) h))

theorem same_sum (c : U16) (b : Bytes) (s : Nat) :
    (c == BitVec.ofNat 16 (field b s 16)) = decide (field b s 16 = c.toNat) := by
  have h := field_value (w := 16) b s 16 (by omega)
  rw [Bool.eq_iff_iff, beq_iff_eq, decide_eq_true_iff]
  constructor
  · rintro rfl
    exact h.symm
  · intro e
    exact BitVec.eq_of_toNat_eq (by omega)

theorem loop_wordSum {m : Bytes} {off S : Nat} (heven : m.length % 2 = 0) (hS : S = (words (zeroed m off)).sum) :
    (ckOf (65535 + S)).toNat = crateSum m off := by
  unfold crateSum
  simp only []
  rw [show m.take (m.length / 2 * 2) = m from List.take_of_length_le (by omega)]
  split
  · rename_i h
    have : S = 0 := by rw [hS]; exact List.sum_eq_zero_iff_forall_eq_nat.2 h
    rw [this]
    rfl
  · rename_i h
    have : S ≠ 0 := by rw [hS]; exact fun h' => h (List.sum_eq_zero_iff_forall_eq_nat.1 h')
    rw [inetChecksum_eq, ← hS, ckOf_inj.2 (norm_add_65535 this)]

theorem icmp_sum (cfg : Cfg) {m : Bytes} (h : 4 ≤ m.length) :
    ∃ c, Icmp.checksumOf cfg m = .ok c ∧ c.toNat = crateSum m 2 := by
  have even : ∀ e : Bytes, 4 ≤ e.length → e.length % 2 = 0 →
      ∃ c, Icmp.checksumOf cfg e = .ok c ∧ c.toNat = crateSum e 2 := by
    intro e he heven
    have hl := loopWords_zeroed 1 e 0 he
    rw [oddWord_even heven] at hl
    simp only [Nat.zero_add, Nat.reduceMul, Nat.reduceAdd, Nat.add_zero] at hl
    exact ⟨_, Icmp.checksumOf_eq cfg e, loop_wordSum heven hl⟩
  rcases Nat.mod_two_eq_zero_or_one m.length with h2 | h2
  · exact even m h h2
  · have hne : m ≠ [] := by rintro rfl; simp at h
    have hd : m = m.dropLast ++ [m.getLast hne] := (List.dropLast_concat_getLast hne).symm
    have hl : m.dropLast.length = m.length - 1 := List.length_dropLast
    obtain ⟨c, h1, h3⟩ := even m.dropLast (by omega) (by omega)
    refine ⟨c, ?_, ?_⟩
    · rw [hd, C05_icmp_checksum_odd cfg _ _ (by omega)]
      exact h1
    · rw [h3]
      unfold crateSum
      rw [show m.length / 2 * 2 = m.length - 1 by omega, show m.dropLast.length / 2 * 2 = m.length - 1 by omega,
        List.take_of_length_le (by omega), List.dropLast_eq_take]

theorem v4_sum (cfg : Cfg) {b : Bytes} (h : 20 ≤ b.length) (hh : field b 4 4 * 4 ≤ b.length) :
    V4.isValid cfg b = .ok (decide (field b 80 16 = crateSum (b.take (4 * field b 4 4)) 10)) := by
  have key : ∀ m : Bytes, m.length = 4 * field b 4 4 →
      ∃ c, V4.checksumOf cfg m = .ok c ∧ c.toNat = crateSum m 10 := by
    intro m hm
    refine ⟨_, V4.checksumOf_eq cfg m, loop_wordSum (by omega) ?_⟩
    by_cases h3 : 3 ≤ field b 4 4
    · have hl := loopWords_zeroed 5 m 0 (by omega)
      rw [oddWord_even (by omega)] at hl
      simpa using hl
    · rcases (show field b 4 4 = 0 ∨ field b 4 4 = 1 ∨ field b 4 4 = 2 by omega) with h0 | h0 | h0
      · rw [h0] at hm
        obtain rfl := List.eq_nil_of_length_eq_zero hm
        rfl
      · rw [h0] at hm
        match m, hm with
        | [x0, x1, x2, x3], _ => simp [loopWords, words, zeroed, fromBe16]
      · rw [h0] at hm
        match m, hm with
        | [x0, x1, x2, x3, x4, x5, x6, x7], _ => simp [loopWords, words, zeroed, fromBe16]
  have hl : (b.take (4 * field b 4 4)).length = 4 * field b 4 4 := by rw [List.length_take]; omega
  obtain ⟨c, h1, h2⟩ := key _ hl
  have hc := (C14_v4_fields b h).2.2.2.2.2.2.2.2.2.1
  unfold V4.isValid
  rw [V4.header_eq (by omega) hh, Outcome.ok_bind, Nat.mul_comm, h1, Outcome.ok_bind, hc, Outcome.ok_bind, same_sum, h2]

/-! ## Layer by layer -/

theorem attempt_ok {α β : Type} (a : α) (good : α → Outcome β) (bad : Error → Outcome β) :
    attempt (.ok a) good bad = good a := rfl

theorem attempt_err {α β : Type} (e : Error) (good : α → Outcome β) (bad : Error → Outcome β) :
    attempt (.err e) good bad = bad e := rfl

theorem proto_wire (v : U8) : (IpProtocol.ofWire v).toWire = v := C40_ip_protocol.wire v

theorem ether_wire (v : U16) : (EtherProtocol.ofWire v).toWire = v := C40_ether_protocol.wire v

theorem kind_wire (v : U8) : (IcmpKind.ofWire v).toWire = v := C40_icmp_kind.wire v

theorem udp_good (cfg : Cfg) {ip u : Bytes} (hip : 20 ≤ ip.length) (hu : 8 ≤ u.length) :
    Udp.isValid cfg (.v4 ip) u = .ok (udpGood cfg.eofAdvances ((ip.drop 12).take 4) ((ip.drop 16).take 4) u) := by
  have hc := (C21_udp_fields u hu).2.2.2
  unfold Udp.isValid udpGood
  simp only []
  by_cases hodd : cfg.eofAdvances = true ∧ u.length % 2 = 1
  · rw [if_pos hodd]
    have hne : u ≠ [] := by rintro rfl; simp at hu
    have hd : u = u.dropLast ++ [u.getLast hne] := (List.dropLast_concat_getLast hne).symm
    have hl : u.dropLast.length = u.length - 1 := List.length_dropLast
    have hs : Udp.checksumOf cfg (.v4 ip) u = .ok (inetChecksum (udpMessage ip (u.dropLast ++ [0]))) := by
      conv => lhs; rw [hd]
      exact C60_udp_odd_exact cfg hodd.1 ip u.dropLast _ hip (by omega) (by omega)
    rw [hs, Outcome.ok_bind, hc, Outcome.ok_bind, same_sum, ← List.dropLast_eq_take, udpMessage,
      show (u.dropLast ++ [(0 : U8)]).length = u.length by simp; omega]
    rfl
  · rw [if_neg hodd, C06_udp_checksum_rfc cfg ip u hip hu (by
      cases h : cfg.eofAdvances with
      | false => exact .inr rfl
      | true => exact .inl (by rw [h] at hodd; simp at hodd; omega)), Outcome.ok_bind, hc, Outcome.ok_bind, same_sum]
    rfl

theorem show_udp (cfg : Cfg) {ip : Bytes} (hip : 20 ≤ ip.length) (u : Bytes) :
    showUdp cfg ip u = .ok (udpReading cfg.eofAdvances ((ip.drop 12).take 4) ((ip.drop 16).take 4) u) := by
  unfold showUdp udpReading
  have ha := (C21_udp_accept u).2
  by_cases h : 8 ≤ u.length ∧ field u 32 16 ≤ u.length
  · rw [if_pos h] at ha
    obtain ⟨f1, f2, f3, -⟩ := C21_udp_fields u h.1
    rw [ha, attempt_ok, if_pos h, f1, Outcome.ok_bind, f2, Outcome.ok_bind, f3, Outcome.ok_bind,
      udp_good cfg hip h.1, Outcome.ok_bind, (C21_udp_views u ha).2.1, Outcome.ok_bind]
    simp only [field_value u _ 16 (Nat.le_refl 16)]
  · rw [if_neg h] at ha
    rw [ha, attempt_err, if_neg h]

theorem show_tcp (cfg : Cfg) {ip : Bytes} (hip : 20 ≤ ip.length) (t : Bytes) (ht : t.length ≤ 65535) :
    showTcp cfg ip t = tcpReading cfg.eofAdvances ((ip.drop 12).take 4) ((ip.drop 16).take 4) t := by
  unfold showTcp tcpReading
  have ha := C24_tcp_accept t
  by_cases h : 20 ≤ t.length ∧ field t 96 4 * 4 ≤ t.length
  · rw [if_pos h] at ha
    obtain ⟨f1, f2, f3, f4, -, ⟨fl, f5, f6⟩, f7, f8, f9⟩ := C24_tcp_fields t h.1
    rw [ha, attempt_ok, if_pos h, f1, Outcome.ok_bind, f2, Outcome.ok_bind, f3, Outcome.ok_bind, f4, Outcome.ok_bind,
      f5, Outcome.ok_bind, f7, Outcome.ok_bind, f9, Outcome.ok_bind]
    by_cases hodd : cfg.eofAdvances = true ∧ t.length % 2 = 1
    · rw [if_pos hodd]
      unfold Tcp.isValid
      rw [C60_tcp_odd_panics cfg hodd.1 ip t hip ht hodd.2]
      rfl
    · rw [if_neg hodd]
      have hv : Tcp.isValid cfg (.v4 ip) t = .ok (tcpGood ((ip.drop 12).take 4) ((ip.drop 16).take 4) t) := by
        unfold Tcp.isValid
        rw [C07_tcp_checksum_rfc cfg ip t hip h.1 ht (by
          cases h : cfg.eofAdvances with
          | false => exact .inr rfl
          | true => exact .inl (by rw [h] at hodd; simp at hodd; omega)), Outcome.ok_bind, f8, Outcome.ok_bind, same_sum]
        rfl
      rw [hv, Outcome.ok_bind, (C24_tcp_views cfg t (by have := cfg.width; omega) ha).2.1, Outcome.ok_bind]
      simp only [field_value t _ 16 (Nat.le_refl 16), field_value t _ 32 (Nat.le_refl 32), f6,
        field_value (w := 16) t 103 9 (by omega)]
  · rw [if_neg h] at ha
    rw [ha, attempt_err, if_neg h]

theorem ip_accept (p : Bytes) : V4.new p = match ipError p with | some e => .err e | none => .ok p := by
  rw [C12_v4_new_accept p]
  unfold ipError
  repeat' split
  all_goals first | rfl | simp_all

theorem ip_accepted {p : Bytes} (h : ipError p = none) :
    20 ≤ p.length ∧ field p 4 4 * 4 ≤ p.length ∧ field p 16 16 ≤ p.length ∧ V4.payload p = .ok (ipData p) := by
  unfold ipError at h
  split at h
  · cases h
  split at h
  · cases h
  split at h
  · cases h
  rename_i h1 h2 h3
  have e := V4.payload_eq (b := p) (by omega) (by omega)
  refine ⟨by omega, by omega, by omega, ?_⟩
  rw [e, ipData, Nat.mul_comm]

theorem show_quote (p : Bytes) : showQuote (V4.new p) = .ok (quoteReading p) := by
  unfold showQuote quoteReading
  rw [ip_accept p]
  cases h : ipError p with
  | some e => rfl
  | none =>
    obtain ⟨h20, -, -, hp⟩ := ip_accepted h
    obtain ⟨-, -, -, -, -, -, -, -, f9, -, ⟨s, f11, g11⟩, ⟨d, f12, g12⟩⟩ := C14_v4_fields p h20
    simp only []
    rw [attempt_ok, f11, Outcome.ok_bind, f12, Outcome.ok_bind, f9, Outcome.ok_bind, hp, Outcome.ok_bind, proto_wire,
      field_value p 72 8 (Nat.le_refl 8), g11, g12]

theorem show_icmp (cfg : Cfg) (m : Bytes) (hm : m.length < cfg.usizeMod) : showIcmp cfg m = .ok (icmpReading m) := by
  unfold showIcmp icmpReading
  have ha := C34_icmp_accept m
  by_cases h : 4 ≤ m.length
  · rw [if_pos h] at ha
    obtain ⟨f1, f2, f3, -, f5, -⟩ := C34_icmp_views cfg m hm ha
    obtain ⟨c, g1, g2⟩ := icmp_sum cfg h
    have hv : Icmp.isValid cfg m = .ok (decide (field m 16 16 = crateSum m 2)) := by
      unfold Icmp.isValid
      rw [g1, Outcome.ok_bind, f3, Outcome.ok_bind, same_sum, g2]
    obtain ⟨t1, t2, -, t4, t5, t6⟩ := C35_icmp_typed_accept m
    rw [ha, attempt_ok, if_neg (by omega), f1, Outcome.ok_bind, f2, Outcome.ok_bind, hv, Outcome.ok_bind]
    simp only [kind_wire, field_value m _ 8 (Nat.le_refl 8)]
    by_cases c1 : 8 ≤ m.length ∧ field m 0 8 ∈ [8, 0]
    · rw [if_neg (by omega), if_pos c1.2] at t1
      obtain ⟨e1, -, -, e4, e5, -, e7, -⟩ := C36_echo_fields cfg m hm t1
      rw [t1, attempt_ok, if_pos c1, e1, Outcome.ok_bind, e4, Outcome.ok_bind, e5, Outcome.ok_bind, e7, Outcome.ok_bind]
      simp only [field_value m _ 16 (Nat.le_refl 16)]
    · have u1 : ∃ e, Echo.new m = .err e := by
        rw [t1]
        by_cases h8 : m.length < 8
        · exact ⟨_, if_pos h8⟩
        · rw [if_neg h8, if_neg (fun hk => c1 ⟨by omega, hk⟩)]
          exact ⟨_, rfl⟩
      obtain ⟨e1, u1⟩ := u1
      rw [u1, attempt_err, if_neg c1]
      by_cases c2 : 20 ≤ m.length ∧ field m 0 8 ∈ [13, 14]
      · rw [if_neg (by omega), if_pos c2.2] at t2
        obtain ⟨e1, -, e3, e4, e5, e6, e7, -⟩ := C37_timestamp m t2
        rw [t2, attempt_ok, if_pos c2, e1, Outcome.ok_bind, e3, Outcome.ok_bind, e4, Outcome.ok_bind, e5,
          Outcome.ok_bind, e6, Outcome.ok_bind, e7, Outcome.ok_bind]
        simp only [field_value m _ 16 (Nat.le_refl 16), field_value m _ 32 (Nat.le_refl 32)]
      · have u2 : ∃ e, Timestamp.new m = .err e := by
          rw [t2]
          by_cases h8 : m.length < 20
          · exact ⟨_, if_pos h8⟩
          · rw [if_neg h8, if_neg (fun hk => c2 ⟨by omega, hk⟩)]
            exact ⟨_, rfl⟩
        obtain ⟨e2, u2⟩ := u2
        rw [u2, attempt_err, if_neg c2]
        by_cases h8 : m.length < 8
        · rw [if_pos h8] at t4 t5 t6
          rw [t4, attempt_err, t5, attempt_err, t6, attempt_err, if_neg (by omega), f5, Outcome.ok_bind]
        · rw [if_neg h8] at t4 t5 t6
          have quoted : ∀ {v : Outcome Bytes}, v = .ok m → (Previous.new m = .ok m ∨ Redirect.new m = .ok m ∨
              ParamProblem.new m = .ok m) → Previous.packet m = V4.new (m.drop 8) ∧
              Redirect.packet m = V4.new (m.drop 8) ∧ ParamProblem.packet m = V4.new (m.drop 8) := by
            intro _ _ hh
            obtain ⟨-, -, q1, q2, q3, -⟩ := C39_quoted cfg m hm hh
            exact ⟨q1, q2, q3⟩
          by_cases k4 : field m 0 8 ∈ [4, 3, 11]
          · rw [if_pos k4] at t4
            rw [t4, attempt_ok, (quoted t4 (.inl t4)).1, show_quote, Outcome.ok_bind, if_pos ⟨by omega, by
              simp only [List.mem_cons, List.not_mem_nil, or_false] at k4 ⊢; omega⟩]
          · rw [if_neg k4] at t4
            rw [t4, attempt_err]
            by_cases k5 : field m 0 8 ∈ [5]
            · rw [if_pos k5] at t5
              rw [t5, attempt_ok, (quoted t5 (.inr (.inl t5))).2.1, show_quote, Outcome.ok_bind, if_pos ⟨by omega, by
                simp only [List.mem_cons, List.not_mem_nil, or_false] at k5 ⊢; omega⟩]
            · rw [if_neg k5] at t5
              rw [t5, attempt_err]
              by_cases k6 : field m 0 8 ∈ [12]
              · rw [if_pos k6] at t6
                rw [t6, attempt_ok, (quoted t6 (.inr (.inr t6))).2.2, show_quote, Outcome.ok_bind, if_pos ⟨by omega, by
                  simp only [List.mem_cons, List.not_mem_nil, or_false] at k6 ⊢; omega⟩]
              · rw [if_neg k6] at t6
                rw [t6, attempt_err, f5, Outcome.ok_bind, if_neg (by
                  simp only [List.mem_cons, List.not_mem_nil, or_false] at k4 k5 k6 ⊢; omega)]
  · rw [if_neg h] at ha
    rw [ha, attempt_err, if_pos (by omega)]

theorem show_ip (cfg : Cfg) (p : Bytes) (hp : p.length < cfg.usizeMod) :
    showIp cfg p = contentReading cfg.eofAdvances 0x0800 p := by
  unfold showIp contentReading
  rw [if_pos rfl, ip_accept p]
  cases h : ipError p with
  | some e => rfl
  | none =>
    obtain ⟨h20, hh, ht, hd⟩ := ip_accepted h
    obtain ⟨-, -, f3, f4, -, f6, f7, f8, f9, -, ⟨s, f11, g11⟩, ⟨d, f12, g12⟩⟩ := C14_v4_fields p h20
    have hlen : (ipData p).length ≤ 65535 ∧ (ipData p).length ≤ p.length := by
      have := field_lt p 16 16
      rw [ipData, List.length_take, List.length_drop]
      omega
    simp only []
    rw [attempt_ok, f11, Outcome.ok_bind, f12, Outcome.ok_bind, f3, Outcome.ok_bind, f4, Outcome.ok_bind, f6,
      Outcome.ok_bind, f7, Outcome.ok_bind, f8, Outcome.ok_bind, f9, Outcome.ok_bind, v4_sum cfg h20 hh, Outcome.ok_bind,
      hd, Outcome.ok_bind, g11, g12]
    have hm : showMessage cfg p (IpProtocol.ofWire (BitVec.ofNat 8 (field p 72 8))) (ipData p) =
        messageReading cfg.eofAdvances p := by
      unfold showMessage messageReading
      have hw := proto_wire (BitVec.ofNat 8 (field p 72 8))
      have hn := field_value p 72 8 (Nat.le_refl 8)
      by_cases k17 : field p 72 8 = 17
      · rw [if_pos k17, k17, show IpProtocol.ofWire (BitVec.ofNat 8 17) = .udp by decide]
        exact show_udp cfg h20 _
      · rw [if_neg k17]
        by_cases k6 : field p 72 8 = 6
        · rw [if_pos k6, k6, show IpProtocol.ofWire (BitVec.ofNat 8 6) = .tcp by decide]
          exact show_tcp cfg h20 _ hlen.1
        · rw [if_neg k6]
          by_cases k1 : field p 72 8 = 1
          · rw [if_pos k1, k1, show IpProtocol.ofWire (BitVec.ofNat 8 1) = .icmp by decide]
            exact show_icmp cfg _ (by omega)
          · rw [if_neg k1]
            split
            · rename_i e
              rw [e] at hw
              rw [← hw] at hn
              exact absurd hn.symm k17
            · rename_i e
              rw [e] at hw
              rw [← hw] at hn
              exact absurd hn.symm k6
            · rename_i e
              rw [e] at hw
              rw [← hw] at hn
              exact absurd hn.symm k1
            · rfl
    rw [hm]
    congr 1
    funext m
    simp only [ipShown, proto_wire, field_value p _ 8 (Nat.le_refl 8), field_value p _ 16 (Nat.le_refl 16),
      field_value (w := 8) p 8 6 (by omega), field_value (w := 8) p 14 2 (by omega),
      field_value (w := 16) p 51 13 (by omega)]

/-! ## C137 -/

/-- C137: whatever the bytes are, the dissector shows what is to be read in them. -/
theorem C137_dissect (cfg : Cfg) (b : Bytes) (hb : b.length < cfg.usizeMod) :
    dissect cfg b = reading cfg.eofAdvances b := by
  unfold dissect reading
  have ha := C10_ether_accept b
  by_cases h : 14 ≤ b.length
  · rw [if_pos h] at ha
    obtain ⟨⟨d, f1, g1⟩, ⟨s, f2, g2⟩, f3, -, f5, -⟩ := C10_ether_views cfg b hb ha
    rw [ha, attempt_ok, if_neg (by omega), f1, Outcome.ok_bind, f2, Outcome.ok_bind, f3, Outcome.ok_bind, f5,
      Outcome.ok_bind, g1, g2]
    have hw := ether_wire (BitVec.ofNat 16 (field b 96 16))
    have hn := field_value b 96 16 (Nat.le_refl 16)
    have hc : showContent cfg (EtherProtocol.ofWire (BitVec.ofNat 16 (field b 96 16))) (b.drop 14) =
        contentReading cfg.eofAdvances (field b 96 16) (b.drop 14) := by
      unfold showContent
      by_cases k : field b 96 16 = 0x0800
      · rw [k, show EtherProtocol.ofWire (BitVec.ofNat 16 0x0800) = .ipv4 by decide]
        exact show_ip cfg _ (by rw [List.length_drop]; omega)
      · unfold contentReading
        rw [if_neg k]
        split
        · rename_i e
          rw [e] at hw
          rw [← hw] at hn
          exact absurd hn.symm k
        · rfl
    rw [hc, hw, hn]
  · rw [if_neg h] at ha
    rw [ha, attempt_err, if_pos (by omega)]

/-- C137: with a std whose failed `read_exact` leaves the cursor where it is, the dissector shows something of whatever
comes: it never panics. -/
theorem C137_total (cfg : Cfg) (hstd : cfg.eofAdvances = false) (b : Bytes) (hb : b.length < cfg.usizeMod) :
    ∃ r, dissect cfg b = .ok r := by
  have tcp : ∀ s d t, ∃ m, tcpReading false s d t = .ok m := by
    intro s d t
    unfold tcpReading
    split
    · rw [if_neg (by simp)]
      exact ⟨_, rfl⟩
    · exact ⟨_, rfl⟩
  have message : ∀ p, ∃ m, messageReading false p = .ok m := by
    intro p
    unfold messageReading
    split
    · exact ⟨_, rfl⟩
    split
    · exact tcp _ _ _
    split <;> exact ⟨_, rfl⟩
  have content : ∀ n p, ∃ c, contentReading false n p = .ok c := by
    intro n p
    unfold contentReading
    split
    · split
      · exact ⟨_, rfl⟩
      · obtain ⟨m, e⟩ := message p
        rw [e]
        exact ⟨_, rfl⟩
    · exact ⟨_, rfl⟩
  rw [C137_dissect cfg b hb, hstd]
  unfold reading
  split
  · exact ⟨_, rfl⟩
  · obtain ⟨c, e⟩ := content (field b 96 16) (b.drop 14)
    rw [e]
    exact ⟨_, rfl⟩

/-- What was asked of the IPv4 builder: the last values given; `dscp()`, `ecn()`, `flags()` and `offset()` as in C98. -/
def askedIp (vops : List V4Op) (proto : Nat) : IpShown where
  src := (last V4Op.source? .zero vops).octets
  dst := (last V4Op.destination? .zero vops).octets
  dscp := (vops.foldl (fun x op => op.track x) (0, 0)).1
  ecn := (vops.foldl (fun x op => op.track x) (0, 0)).2
  id := (last V4Op.id? 0 vops).toNat
  offset := (last V4Op.word? 0 vops).toNat % 8192
  ttl := (last V4Op.ttl? 0 vops).toNat
  proto := proto
  good := true

/-- What was asked of the Ethernet builder, with something inside. -/
def askedFrame (eops : List EtherOp) (c : Content) : Reading :=
  .frame (last EtherOp.destination? .zero eops).octets (last EtherOp.source? .zero eops).octets 0x0800 c

theorem dissect_reads (cfg : Cfg) {eops : List EtherOp} {vops : List V4Op} {inner : Inner} {proto : IpProtocol}
    {d out frame : Bytes} {m : Message} (he : ReadsEther eops .ipv4 out frame) (hv : ReadsV4 cfg vops proto d out)
    (hs : ∀ op ∈ vops, op.Sane cfg) (hi : inner.Sane cfg) (hb : ipv4Program cfg Dynamic.new vops inner = .ok out)
    (hm : showMessage cfg out proto d = .ok m) :
    dissect cfg frame = .ok (askedFrame eops (.ip (askedIp vops proto.toWire.toNat) m)) := by
  obtain ⟨hw, ht⟩ := C98_builder_words cfg vops inner hs hi hb
  obtain ⟨-, -, f3, f4, -, -, f7, -⟩ := C14_v4_fields out (by have := hv.size; omega)
  have h1 := field_value (w := 8) out 8 6 (by omega)
  have h2 := field_value (w := 8) out 14 2 (by omega)
  have h3 := field_value (w := 16) out 51 13 (by omega)
  have hoff : field out 51 13 = (last V4Op.word? 0 vops).toNat % 8192 := by
    have e := field_add out 48 3 13
    have hlt := field_lt out 51 13
    rw [show 3 + 13 = 16 from rfl, show 48 + 3 = 51 from rfl, hw] at e
    omega
  unfold dissect
  rw [he.accepted, attempt_ok, he.destination, Outcome.ok_bind, he.source, Outcome.ok_bind, he.protocol, Outcome.ok_bind,
    he.payload, Outcome.ok_bind, show showContent cfg .ipv4 out = showIp cfg out from rfl]
  unfold showIp
  rw [hv.accepted, attempt_ok, hv.source, Outcome.ok_bind, hv.destination, Outcome.ok_bind, f3, Outcome.ok_bind,
    f4, Outcome.ok_bind, hv.id, Outcome.ok_bind, f7, Outcome.ok_bind, hv.ttl, Outcome.ok_bind,
    hv.protocol, Outcome.ok_bind, hv.valid, Outcome.ok_bind, hv.payload, Outcome.ok_bind, hm, Outcome.ok_bind,
    h1, h2, h3, hoff, show field out 8 6 = _ from congrArg Prod.fst ht,
    show field out 14 2 = _ from congrArg Prod.snd ht]
  rfl

/-- One payload of the size of an IP packet is small. -/
theorem single_sane {cfg : Cfg} {Op : Type} {f : Op → Option Bytes} {ops : List Op} {inner : Inner}
    (hin : ∀ v ∈ inner.payloads, v ∈ ops.filterMap f) (h1 : (ops.filterMap f).length ≤ 1)
    (hsize : (last f [] ops).length ≤ 65535) : inner.Sane cfg := by
  intro v hv
  have hv := hin v hv
  have : last f [] ops = v := by
    unfold last
    match h : ops.filterMap f with
    | [] => rw [h] at hv; cases hv
    | [w] => rw [h] at hv; simp at hv; rw [hv]; rfl
    | _ :: _ :: _ => rw [h] at h1; simp at h1
  rw [this] at hsize
  (have := cfg.width; omega)

/-- C137 with C45 and C49: a frame built with this crate is shown as it was asked for. -/
theorem C137_built_udp (cfg : Cfg) (eops : List EtherOp) (vops : List V4Op) (uops : List UdpOp)
    (he : eops.filterMap EtherOp.payload? = []) (hr : ∀ op ∈ vops, op.InRange)
    (h0 : vops.filterMap V4Op.payload? = []) (h1 : (uops.filterMap UdpOp.payload?).length ≤ 1)
    (hsize : 28 + (last UdpOp.payload? [] uops).length ≤ 65535) :
    ∃ frame, ethernetProgram cfg Dynamic.new eops vops (.udp uops) = .ok frame ∧
      dissect cfg frame = .ok (askedFrame eops (.ip (askedIp vops 17)
        (.udp (last UdpOp.source? 0 uops).toNat (last UdpOp.destination? 0 uops).toNat
          (8 + (last UdpOp.payload? [] uops).length) true (last UdpOp.payload? [] uops)))) := by
  obtain ⟨out, d, e, hv, hu⟩ := C45_udp_build cfg vops uops hr h0 h1 hsize
  have hi : (Inner.udp uops).Sane cfg := single_sane (fun v hv => hv) h1 (by omega)
  have hc := C49_stack_compose cfg eops vops (.udp uops) he (v4_sane_of_none h0) hi (fun h => (by cases h))
  rw [e] at hc
  obtain ⟨frame, ef, hf⟩ := hc
  refine ⟨frame, ef, dissect_reads cfg hf hv (v4_sane_of_none h0) hi e ?_⟩
  show showUdp cfg out d = _
  obtain ⟨n, en, hn⟩ := hu.length
  unfold showUdp
  rw [hu.accepted, attempt_ok, hu.source, Outcome.ok_bind, hu.destination, Outcome.ok_bind, en, Outcome.ok_bind, hu.valid,
    Outcome.ok_bind, hu.payload, Outcome.ok_bind, hn, hu.size]

theorem C137_built_tcp (cfg : Cfg) (eops : List EtherOp) (vops : List V4Op) (tops : List TcpOp)
    (he : eops.filterMap EtherOp.payload? = []) (hr : ∀ op ∈ vops, op.InRange)
    (h0 : vops.filterMap V4Op.payload? = []) (h1 : (tops.filterMap TcpOp.payload?).length ≤ 1)
    (hfl : TcpOp.FlagsLast tops) (hsize : 40 + (last TcpOp.payload? [] tops).length ≤ 65535)
    (hodd : (last TcpOp.payload? [] tops).length % 2 = 0 ∨ cfg.eofAdvances = false) :
    ∃ frame, ethernetProgram cfg Dynamic.new eops vops (.tcp tops) = .ok frame ∧
      dissect cfg frame = .ok (askedFrame eops (.ip (askedIp vops 6)
        (.tcp (last TcpOp.source? 0 tops).toNat (last TcpOp.destination? 0 tops).toNat
          (last TcpOp.sequence? 0 tops).toNat (last TcpOp.acknowledgment? 0 tops).toNat
          (last TcpOp.flags? .empty tops).bits.toNat (last TcpOp.window? 0 tops).toNat
          (last TcpOp.pointer? 0 tops).toNat true (last TcpOp.payload? [] tops)))) := by
  obtain ⟨out, d, e, hv, hu⟩ := C46_tcp_build cfg vops tops hr h0 h1 hfl hsize hodd
  have hi : (Inner.tcp tops).Sane cfg := single_sane (fun v hv => hv) h1 (by omega)
  have hc := C49_stack_compose cfg eops vops (.tcp tops) he (v4_sane_of_none h0) hi (fun h => (by cases h))
  rw [e] at hc
  obtain ⟨frame, ef, hf⟩ := hc
  refine ⟨frame, ef, dissect_reads cfg hf hv (v4_sane_of_none h0) hi e ?_⟩
  show showTcp cfg out d = _
  unfold showTcp
  rw [hu.accepted, attempt_ok, hu.source, Outcome.ok_bind, hu.destination, Outcome.ok_bind, hu.sequence, Outcome.ok_bind,
    hu.acknowledgment, Outcome.ok_bind, hu.flags, Outcome.ok_bind, hu.window, Outcome.ok_bind, hu.pointer,
    Outcome.ok_bind, hu.valid, Outcome.ok_bind, hu.payload, Outcome.ok_bind]

theorem C137_built_echo (cfg : Cfg) (eops : List EtherOp) (vops : List V4Op) (ops : List EchoOp)
    (he : eops.filterMap EtherOp.payload? = []) (hr : ∀ op ∈ vops, op.InRange)
    (h0 : vops.filterMap V4Op.payload? = []) (hk : ∃ op ∈ ops, op.kind?.isSome)
    (h1 : (ops.filterMap EchoOp.payload?).length ≤ 1) (hsize : 28 + (last EchoOp.payload? [] ops).length ≤ 65535) :
    ∃ frame kind, ethernetProgram cfg Dynamic.new eops vops (.icmp (.echo ops)) = .ok frame ∧
      (ops.filterMap EchoOp.kind?).getLast? = some kind ∧
      dissect cfg frame = .ok (askedFrame eops (.ip (askedIp vops 1)
        (.echo (kind == .echoRequest) true (last EchoOp.identifier? 0 ops).toNat (last EchoOp.sequence? 0 ops).toNat
          (last EchoOp.payload? [] ops)))) := by
  obtain ⟨out, d, kind, e, ek, hv, hu⟩ := C48_echo_in_ipv4 cfg vops ops hr h0 hk h1 hsize
  have hi : (Inner.icmp (.echo ops)).Sane cfg := single_sane (fun v hv => hv) h1 (by omega)
  have hc := C49_stack_compose cfg eops vops (.icmp (.echo ops)) he (v4_sane_of_none h0) hi
    (fun h => (by cases h))
  rw [e] at hc
  obtain ⟨frame, ef, hf⟩ := hc
  refine ⟨frame, kind, ef, ek, dissect_reads cfg hf hv (v4_sane_of_none h0) hi e ?_⟩
  show showIcmp cfg d = _
  unfold showIcmp
  rw [hu.accepted, attempt_ok, hu.icmpKind, Outcome.ok_bind, hu.code, Outcome.ok_bind, hu.valid, Outcome.ok_bind,
    hu.typed, attempt_ok, hu.request, Outcome.ok_bind, hu.identifier, Outcome.ok_bind, hu.sequence, Outcome.ok_bind,
    hu.payload, Outcome.ok_bind]

theorem C137_built_timestamp (cfg : Cfg) (eops : List EtherOp) (vops : List V4Op) (ops : List TimestampOp)
    (he : eops.filterMap EtherOp.payload? = []) (hr : ∀ op ∈ vops, op.InRange)
    (h0 : vops.filterMap V4Op.payload? = []) (hk : ∃ op ∈ ops, op.kind?.isSome) :
    ∃ frame kind, ethernetProgram cfg Dynamic.new eops vops (.icmp (.timestamp ops)) = .ok frame ∧
      (ops.filterMap TimestampOp.kind?).getLast? = some kind ∧
      dissect cfg frame = .ok (askedFrame eops (.ip (askedIp vops 1)
        (.timestamp (kind == .timestampRequest) true (last TimestampOp.identifier? 0 ops).toNat
          (last TimestampOp.sequence? 0 ops).toNat (last TimestampOp.originate? 0 ops).toNat
          (last TimestampOp.receive? 0 ops).toNat (last TimestampOp.transmit? 0 ops).toNat))) := by
  obtain ⟨d, kind, ed, ek, hu⟩ := C48_timestamp_build cfg ops hk
  have hi : (Inner.icmp (.timestamp ops)).Sane cfg := fun v hv => (by cases hv)
  obtain ⟨out, e, hv⟩ := C48_icmp_in_ipv4 cfg vops (.timestamp ops) d hr h0 hi ed (by have := hu.size; omega)
  have hc := C49_stack_compose cfg eops vops (.icmp (.timestamp ops)) he (v4_sane_of_none h0) hi (fun h => (by cases h))
  rw [e] at hc
  obtain ⟨frame, ef, hf⟩ := hc
  refine ⟨frame, kind, ef, ek, dissect_reads cfg hf hv (v4_sane_of_none h0) hi e ?_⟩
  have hno : ∃ e, Echo.new d = .err e := by
    have t1 := (C35_icmp_typed_accept d).1
    have t2 := (C35_icmp_typed_accept d).2.1
    rw [hu.typed, if_neg (by have := hu.size; omega)] at t2
    rw [if_neg (by have := hu.size; omega)] at t1
    split at t2
    · rename_i hk
      rw [if_neg (by simp only [List.mem_cons, List.not_mem_nil, or_false] at hk ⊢; omega)] at t1
      exact ⟨_, t1⟩
    · cases t2
  obtain ⟨e0, hno⟩ := hno
  show showIcmp cfg d = _
  unfold showIcmp
  rw [hu.accepted, attempt_ok, hu.icmpKind, Outcome.ok_bind, hu.code, Outcome.ok_bind, hu.valid, Outcome.ok_bind,
    hno, attempt_err, hu.typed, attempt_ok, hu.request, Outcome.ok_bind, hu.identifier, Outcome.ok_bind, hu.sequence,
    Outcome.ok_bind, hu.originate, Outcome.ok_bind, hu.receive, Outcome.ok_bind, hu.transmit, Outcome.ok_bind]

/-! ## Concrete cases -/

example (cfg : Cfg) := C137_built_udp cfg Sample.eops Sample.vops Sample.uops (by call_by_call) (by call_by_call)
  (by call_by_call) (by call_by_call) (by call_by_call)

example (cfg : Cfg) := C137_built_tcp cfg Sample.eops Sample.vops Sample.tops (by call_by_call) (by call_by_call)
  (by call_by_call) (by call_by_call) (by call_by_call) (by call_by_call) (.inl (by decide))

example (cfg : Cfg) := C137_built_echo cfg Sample.eops Sample.vops Sample.echoOps (by call_by_call) (by call_by_call)
  (by call_by_call) (by call_by_call) (by call_by_call) (by call_by_call)

example (cfg : Cfg) := C137_built_timestamp cfg Sample.eops Sample.vops Sample.timestampOps (by call_by_call)
  (by call_by_call) (by call_by_call) (by call_by_call)

/-- A frame with a destination unreachable message that quotes a UDP packet, and a byte of padding. -/
def sampleError : Bytes :=
  [2, 0, 0, 0, 0, 2, 2, 0, 0, 0, 0, 1, 8, 0,
    69, 0, 0, 56, 0, 7, 0, 0, 64, 1, 102, 188, 10, 0, 0, 1, 10, 0, 0, 2,
    3, 3, 0, 0, 0, 0, 0, 0,
    69, 0, 0, 28, 0, 9, 0, 0, 64, 17, 0, 0, 10, 0, 0, 2, 10, 0, 0, 1, 15, 160, 0, 53, 0, 8, 0, 0,
    0]

example (cfg : Cfg) : dissect cfg sampleError = .ok (.frame [2, 0, 0, 0, 0, 2] [2, 0, 0, 0, 0, 1] 0x0800
    (.ip ⟨[10, 0, 0, 1], [10, 0, 0, 2], 0, 0, 7, 0, 64, 1, true⟩
      (.error 3 3 false (.packet [10, 0, 0, 2] [10, 0, 0, 1] 17 [15, 160, 0, 53, 0, 8, 0, 0])))) := by
  rw [C137_dissect cfg sampleError (show 71 < cfg.usizeMod by have := cfg.width; omega)]
  cases cfg.eofAdvances <;> decide +kernel

example (cfg : Cfg) (h : cfg.eofAdvances = false) := C137_total cfg h sampleError (show 71 < cfg.usizeMod by have := cfg.width; omega)

end Verif.Props
