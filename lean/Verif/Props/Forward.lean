import Verif.Props.Quotes
import Verif.Props.V4

/-!
# Routers written with this crate (C128)

A packet passes any number of routers that check its header, count its time to live down through `checked()`
and hand it on.
-/

namespace Verif.Props
open Verif Verif.Spec

/-- One router:

```text
let mut ip = ip::v4::Packet::new(buffer)?;
if ip.is_valid() && ip.ttl() > 1 {
    let ttl = ip.ttl() - 1;
    ip.checked().set_ttl(ttl)?;
    // hand it on
}
// else drop it
```
-/
def hop (cfg : Cfg) (b : Bytes) : Outcome (Option Bytes) := do
  let p ← V4.new b
  let good ← V4.isValid cfg p
  let t ← V4.ttl p
  if good = true ∧ 1 < t.toNat then
    match V4.checkedRun cfg [.ttl (t - 1)] p with
    | (.ok (), p') => .ok (some p')
    | (.err e, _) => .err e
    | (.panic, _) => .panic
  else .ok none

/-- `n` of them in a row. -/
def hops (cfg : Cfg) : Nat → Bytes → Outcome (Option Bytes)
  | 0, b => .ok (some b)
  | n + 1, b => do
    let r ← hop cfg b
    match r with
    | none => .ok none
    | some b' => hops cfg n b'

/-- `q` is `p` except for the time to live and the header checksum. -/
def OnlyTtl (p q : Bytes) : Prop := q.length = p.length ∧ ∀ i, i ∉ [8, 10, 11] → q[i]? = p[i]?

theorem OnlyTtl.trans {p q r : Bytes} (h : OnlyTtl p q) (h' : OnlyTtl q r) : OnlyTtl p r :=
  ⟨h'.1.trans h.1, fun i hi => (h'.2 i hi).trans (h.2 i hi)⟩

theorem OnlyTtl.header {p q : Bytes} (h : OnlyTtl p q) :
    field q 0 4 = field p 0 4 ∧ field q 4 4 = field p 4 4 ∧ field q 16 16 = field p 16 16 := by
  have b0 : ∀ i, i < 8 → q[i / 8]? = p[i / 8]? := fun i hi => by
    rw [show i / 8 = 0 by omega]; exact h.2 0 (by decide)
  refine ⟨field_alike fun i _ hi => b0 i (by omega), field_alike fun i _ hi => b0 i (by omega),
    field_alike fun i h0 hi => ?_⟩
  rcases (show i / 8 = 2 ∨ i / 8 = 3 by omega) with e | e <;> rw [e]
  · exact h.2 2 (by decide)
  · exact h.2 3 (by decide)

/-- What is the same on the other side: the addresses, the payload, and so everything inside. -/
theorem OnlyTtl.reads {p q : Bytes} (hv : V4.new p = .ok p) (h5 : 5 ≤ field p 4 4) (h : OnlyTtl p q) :
    V4.new q = .ok q ∧ V4.source q = V4.source p ∧ V4.destination q = V4.destination p ∧
    V4.payload q = V4.payload p := by
  obtain ⟨-, ⟨h20, h4, hh⟩, ht⟩ := V4.new_ok_iff.1 hv
  obtain ⟨f0, f4, f16⟩ := h.header
  have hl := h.1
  refine ⟨V4.new_ok_iff.2 ⟨rfl, ⟨by omega, by omega, by omega⟩, by omega⟩, ?_, ?_, ?_⟩
  · simp only [V4.source, idx_alike (h.2 12 (by decide)), idx_alike (h.2 13 (by decide)),
      idx_alike (h.2 14 (by decide)), idx_alike (h.2 15 (by decide))]
  · simp only [V4.destination, idx_alike (h.2 16 (by decide)), idx_alike (h.2 17 (by decide)),
      idx_alike (h.2 18 (by decide)), idx_alike (h.2 19 (by decide))]
  · rw [V4.payload_eq (by omega) (by omega), V4.payload_eq (by omega) hh, f4, f16]
    refine congrArg Outcome.ok (drop_take_alike fun i h0 hi => h.2 i ?_)
    simp only [List.mem_cons, List.not_mem_nil, or_false]
    omega

/-- One router, on a valid packet that has hops left. -/
theorem hop_forward (cfg : Cfg) {p : Bytes} {t : U8} (hv : V4.new p = .ok p) (h5 : 5 ≤ field p 4 4)
    (hok : V4.isValid cfg p = .ok true) (ht : V4.ttl p = .ok t) (h1 : 1 < t.toNat) :
    ∃ q, hop cfg p = .ok (some q) ∧ OnlyTtl p q ∧ V4.ttl q = .ok (t - 1) ∧ V4.isValid cfg q = .ok true := by
  obtain ⟨-, hk⟩ := V4.new_ok_iff.1 hv
  have hl := hk.long
  have hno : V4.noPayload p = .ok p := V4.noPayload_ok_iff.2 ⟨rfl, hk.toHeaderOk⟩
  have hset : V4.Set.run (.ttl (t - 1)) p = (.ok (), put p 8 [t - 1]) :=
    hdr_set ⟨hno, h5⟩ (by simp) (fun c hc => setIdx_ok hc)
  have hsl := v4_set_legal (.ttl (t - 1)) p ⟨hno, h5⟩
  rw [hset] at hsl
  have hleg : Legal (put p 8 [t - 1]) := hsl.2
  obtain ⟨q, u1, u2, -, -, u5⟩ := C08_v4_update_checksum cfg _ hleg.1 hleg.2
  have hplen : (put p 8 [t - 1]).length = p.length := length_put (by simp; omega)
  have hrun : V4.checkedRun cfg [.ttl (t - 1)] p = (.ok (), q) := by
    have e : runIgnoringErrors ([V4.Set.ttl (t - 1)].map V4.Set.run) p = (.ok (), put p 8 [t - 1]) := by
      simp only [List.map_cons, List.map_nil, runIgnoringErrors]
      rw [hset]
    unfold V4.checkedRun
    refine (Mut.bind_ok e).trans ?_
    show ((V4.updateChecksum cfg _).1.unwrap, (V4.updateChecksum cfg _).2) = _
    rw [u1]; rfl
  refine ⟨q, ?_, ⟨u5.length.trans hplen, fun i hi => ?_⟩, ?_, u2⟩
  · unfold hop
    rw [hv, Outcome.ok_bind, hok, Outcome.ok_bind, ht, Outcome.ok_bind, if_pos ⟨rfl, h1⟩, hrun]
  · simp only [List.mem_cons, List.not_mem_nil, or_false] at hi
    rw [u5.frame i (by omega), getElem?_put (by simp; omega)]
    simp only [List.length_cons, List.length_nil]
    by_cases h8 : i < 8
    · rw [if_pos h8]
    · rw [if_neg h8, if_neg (by omega)]
  · have e : idx q 8 = idx (put p 8 [t - 1]) 8 := idx_alike (u5.frame 8 (by omega))
    have e2 : (put p 8 [t - 1])[8]? = some (t - 1) := by
      rw [getElem?_put (by simp; omega)]; rfl
    show idx q 8 = _
    rw [e]; unfold idx; rw [e2]

/-- One router, on anything else: it drops the packet. -/
theorem hop_drop (cfg : Cfg) {p : Bytes} {t : U8} {good : Bool} (hv : V4.new p = .ok p)
    (hok : V4.isValid cfg p = .ok good) (ht : V4.ttl p = .ok t) (h1 : good = false ∨ t.toNat ≤ 1) :
    hop cfg p = .ok none := by
  unfold hop
  rw [hv, Outcome.ok_bind, hok, Outcome.ok_bind, ht, Outcome.ok_bind, if_neg ?_]
  rintro ⟨a, b⟩
  rcases h1 with h | h
  · rw [a] at h; cases h
  · omega

/-! ## C128 -/

/-- C128: a valid packet with a time to live of `t` passes any number of routers below `t`: it stays valid, its
time to live is counted down, and besides that and the header checksum nothing changes, so that everything
inside is as it was sent, checksums included.  The router where the count runs out drops it. -/
theorem C128_hops (cfg : Cfg) (p : Bytes) (hv : V4.new p = .ok p) (h5 : 5 ≤ field p 4 4)
    (hok : V4.isValid cfg p = .ok true) (t : U8) (ht : V4.ttl p = .ok t) (n : Nat) :
    (n < t.toNat → ∃ q, hops cfg n p = .ok (some q) ∧ OnlyTtl p q ∧ V4.new q = .ok q ∧
      V4.isValid cfg q = .ok true ∧ V4.ttl q = .ok (BitVec.ofNat 8 (t.toNat - n)) ∧
      V4.payload q = V4.payload p ∧
      ∀ d, Udp.isValid cfg (.v4 q) d = Udp.isValid cfg (.v4 p) d ∧
        Tcp.isValid cfg (.v4 q) d = Tcp.isValid cfg (.v4 p) d) ∧
    (t.toNat ≤ n → 0 < n → hops cfg n p = .ok none) := by
  induction n generalizing p t with
  | zero =>
    refine ⟨fun _ => ⟨p, rfl, ⟨rfl, fun _ _ => rfl⟩, hv, hok, ?_, rfl, fun _ => ⟨rfl, rfl⟩⟩, fun _ h => absurd h (by omega)⟩
    rw [ht, Nat.sub_zero, BitVec.ofNat_toNat, BitVec.setWidth_eq]
  | succ n ih =>
    by_cases h1 : 1 < t.toNat
    · obtain ⟨q, e, ho, et, eok⟩ := hop_forward cfg hv h5 hok ht h1
      obtain ⟨r1, r2, r3, r4⟩ := ho.reads hv h5
      have ht1 : (t - 1).toNat = t.toNat - 1 := by
        rw [BitVec.toNat_sub_of_le (by rw [BitVec.le_def]; show 1 ≤ _; omega)]; rfl
      have e5 : 5 ≤ field q 4 4 := by rw [ho.header.2.1]; exact h5
      obtain ⟨i1, i2⟩ := ih q r1 e5 eok (t - 1) et
      have step : hops cfg (n + 1) p = hops cfg n q := by
        rw [hops, e, Outcome.ok_bind]
      rw [step]
      refine ⟨fun hn => ?_, fun hn _ => ?_⟩
      · obtain ⟨q', k1, k2, k3, k4, k5, k6, k7⟩ := i1 (by omega)
        refine ⟨q', k1, ho.trans k2, k3, k4, ?_, k6.trans r4, fun d => ?_⟩
        · rw [k5, ht1]; congr 2; omega
        · rw [(k7 d).1, (k7 d).2]
          exact ⟨by simp only [Udp.isValid, Udp.checksumOf, r2, r3],
            by simp only [Tcp.isValid, Tcp.checksumOf, r2, r3]⟩
      · exact i2 (by omega) (by omega)
    · refine ⟨fun hn => absurd hn (by omega), fun _ _ => ?_⟩
      rw [hops, hop_drop cfg hv hok ht (.inr (by omega)), Outcome.ok_bind]

/-- A concrete case that meets the hypotheses. -/
example (cfg : Cfg) (n : Nat) := C128_hops cfg Sample.udpPacket (by decide) (by decide) (by in_every_build) 64 (by decide) n

/-- C128: no router panics over anything it receives whose header, if it is accepted, is not shorter than the
fixed one (C68, C114: what happens then); it refuses what is not accepted, and hands on only valid packets. -/
theorem C128_hop_total (cfg : Cfg) (b : Bytes) (h5 : V4.new b = .ok b → 5 ≤ field b 4 4) :
    hop cfg b = .ok none ∨ (∃ e, hop cfg b = .err e ∧ V4.new b = .err e) ∨
      ∃ q, hop cfg b = .ok (some q) ∧ OnlyTtl b q ∧ V4.isValid cfg b = .ok true ∧ V4.isValid cfg q = .ok true := by
  cases hn : V4.new b with
  | panic =>
    exfalso
    rw [V4.new_eq] at hn
    repeat' split at hn
    all_goals cases hn
  | err e => exact .inr (.inl ⟨e, by unfold hop; rw [hn]; rfl, rfl⟩)
  | ok p =>
    obtain ⟨rfl, hok⟩ := V4.new_ok_iff.1 hn
    have hl := hok.long
    have h5 := h5 hn
    have htt := (C14_v4_fields p hl).2.2.2.2.2.2.2.1
    have hno : V4.noPayload p = .ok p := V4.noPayload_ok_iff.2 ⟨rfl, hok.toHeaderOk⟩
    obtain ⟨good, hg⟩ : ∃ g, V4.isValid cfg p = .ok g := by
      have hh := hok.header
      unfold V4.isValid
      rw [V4.header_eq (by omega) hh, Outcome.ok_bind, V4.checksumOf_eq, Outcome.ok_bind,
        show V4.checksum p = readU16At p 10 from rfl, readU16At_ok (by omega), Outcome.ok_bind]
      exact ⟨_, rfl⟩
    by_cases hc : good = true ∧ 1 < (BitVec.ofNat 8 (field p 64 8)).toNat
    · obtain ⟨rfl, h1⟩ := hc
      obtain ⟨q, e, ho, -, eok⟩ := hop_forward cfg hn h5 hg htt h1
      exact .inr (.inr ⟨q, e, ho, hg, eok⟩)
    · refine .inl (hop_drop cfg hn hg htt ?_)
      cases good
      · exact .inl rfl
      · exact .inr (Nat.le_of_not_lt fun h => hc ⟨rfl, h⟩)

/-- A concrete case that meets the hypotheses. -/
example (cfg : Cfg) := C128_hop_total cfg Sample.optionsPacket (fun _ => by decide)

/-- C128 with C45: a UDP packet built with a time to live above `n` arrives behind `n` routers as it was asked
for; whatever is quoted of it by one of them is a quote in the sense of C127. -/
theorem C128_udp_delivered (cfg : Cfg) (vops : List V4Op) (uops : List UdpOp) (hr : ∀ op ∈ vops, op.InRange)
    (h0 : vops.filterMap V4Op.payload? = []) (h1 : (uops.filterMap UdpOp.payload?).length ≤ 1)
    (hsize : 28 + (last UdpOp.payload? [] uops).length ≤ 65535) (n : Nat)
    (ht : n < (last V4Op.ttl? 0 vops).toNat) :
    ∃ out q d, ipv4Program cfg Dynamic.new vops (.udp uops) = .ok out ∧ hops cfg n out = .ok (some q) ∧
      V4.new q = .ok q ∧ V4.isValid cfg q = .ok true ∧ V4.payload q = .ok d ∧
      V4.source q = .ok (last V4Op.source? .zero vops) ∧
      V4.destination q = .ok (last V4Op.destination? .zero vops) ∧ V4.id q = .ok (last V4Op.id? 0 vops) ∧
      V4.protocol q = .ok .udp ∧
      ReadsUdp cfg q (last V4Op.source? .zero vops) (last V4Op.destination? .zero vops) uops d ∧
      ∀ k, 28 ≤ k → QuoteOf out (q.take k) := by
  obtain ⟨out, d, e, hv, hu⟩ := C45_udp_build cfg vops uops hr h0 h1 hsize
  have hsz := hv.size
  have hd := hu.size
  obtain ⟨h5, -⟩ := reads_behind hv
  obtain ⟨q, q1, q2, q3, q4, -, q6, q7⟩ := (C128_hops cfg out hv.accepted (by omega) hv.valid _ hv.ttl n).1 ht
  have hq : ∀ k, 28 ≤ k → QuoteOf out (q.take k) := fun k hk => by
    have hl := q2.1
    refine ⟨by rw [List.length_take]; omega, fun i h1 h2 h3 => ?_⟩
    rw [List.length_take] at h2
    rw [List.getElem?_take_of_lt (by omega)]
    refine q2.2 i ?_
    simp only [List.mem_cons, List.not_mem_nil, or_false] at h3 ⊢
    omega
  have hfull := hq q.length (by have := q2.1; omega)
  rw [List.take_length] at hfull
  obtain ⟨-, -, -, e1, -, -, e2, e3, e4⟩ := quote_fields (by omega) hfull
  refine ⟨out, q, d, e, q1, q3, q4, q6.trans hv.payload, e3.trans hv.source, e4.trans hv.destination,
    e1.trans hv.id, e2.trans hv.protocol, { hu with valid := (q7 d).1.trans hu.valid }, hq⟩

/-- The same for TCP and the programs of C46. -/
theorem C128_tcp_delivered (cfg : Cfg) (vops : List V4Op) (tops : List TcpOp)
    (hr : ∀ op ∈ vops, op.InRange) (h0 : vops.filterMap V4Op.payload? = [])
    (h1 : (tops.filterMap TcpOp.payload?).length ≤ 1) (hfl : TcpOp.FlagsLast tops)
    (hsize : 40 + (last TcpOp.payload? [] tops).length ≤ 65535)
    (hodd : (last TcpOp.payload? [] tops).length % 2 = 0 ∨ cfg.eofAdvances = false) (n : Nat)
    (ht : n < (last V4Op.ttl? 0 vops).toNat) :
    ∃ out q d, ipv4Program cfg Dynamic.new vops (.tcp tops) = .ok out ∧ hops cfg n out = .ok (some q) ∧
      V4.new q = .ok q ∧ V4.isValid cfg q = .ok true ∧ V4.payload q = .ok d ∧
      V4.source q = .ok (last V4Op.source? .zero vops) ∧
      V4.destination q = .ok (last V4Op.destination? .zero vops) ∧ V4.id q = .ok (last V4Op.id? 0 vops) ∧
      V4.protocol q = .ok .tcp ∧
      ReadsTcp cfg q (last V4Op.source? .zero vops) (last V4Op.destination? .zero vops) tops d ∧
      ∀ k, 28 ≤ k → QuoteOf out (q.take k) := by
  obtain ⟨out, d, e, hv, hu⟩ := C46_tcp_build cfg vops tops hr h0 h1 hfl hsize hodd
  have hsz := hv.size
  have hd := hu.size
  obtain ⟨h5, -⟩ := reads_behind hv
  obtain ⟨q, q1, q2, q3, q4, -, q6, q7⟩ := (C128_hops cfg out hv.accepted (by omega) hv.valid _ hv.ttl n).1 ht
  have hq : ∀ k, 28 ≤ k → QuoteOf out (q.take k) := fun k hk => by
    have hl := q2.1
    refine ⟨by rw [List.length_take]; omega, fun i h1 h2 h3 => ?_⟩
    rw [List.length_take] at h2
    rw [List.getElem?_take_of_lt (by omega)]
    refine q2.2 i ?_
    simp only [List.mem_cons, List.not_mem_nil, or_false] at h3 ⊢
    omega
  have hfull := hq q.length (by have := q2.1; omega)
  rw [List.take_length] at hfull
  obtain ⟨-, -, -, e1, -, -, e2, e3, e4⟩ := quote_fields (by omega) hfull
  refine ⟨out, q, d, e, q1, q3, q4, q6.trans hv.payload, e3.trans hv.source, e4.trans hv.destination,
    e1.trans hv.id, e2.trans hv.protocol, { hu with valid := (q7 d).2.trans hu.valid }, hq⟩

/-- Concrete cases that meet the hypotheses: 63 routers. -/
example (cfg : Cfg) := C128_udp_delivered cfg Sample.vops Sample.uops (by call_by_call) (by call_by_call)
    (by call_by_call) (by decide) 63 (by decide)
example (cfg : Cfg) := C128_tcp_delivered cfg Sample.vops Sample.tops (by call_by_call) (by call_by_call)
    (by call_by_call) (by call_by_call) (by decide) (.inl (by decide)) 63 (by decide)

end Verif.Props
