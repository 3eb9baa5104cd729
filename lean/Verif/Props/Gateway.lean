import Verif.Props.Dissect
import Verif.Props.Translate

/-!
# A masquerading gateway (C141)

An address translator (C130) with a table: inside endpoints are given outside ports of one address, in the order in
which they come, and what comes back for such a port goes to its endpoint (RFC 3022, NAPT for UDP).
-/

namespace Verif.Props
open Verif Verif.Spec

/-- The outside address and the first of the ports given out. -/
structure Gateway where
  addr : Ipv4Addr
  base : U16

/-- The inside endpoints that have a port, in order. -/
abbrev Table := List (Ipv4Addr × U16)

/-- Whom the UDP datagram in a buffer is from and for, if there is a sound one.

```text
let ip = match ip::v4::Packet::new(&buffer) { Ok(p) => p, Err(_) => return None };
if !ip.is_valid() || ip.ihl() < 5 || ip.protocol() != ip::Protocol::Udp { return None; }
let udp = match udp::Packet::new(ip.payload()) { Ok(u) => u, Err(_) => return None };
if !udp.is_valid(&ip::Packet::from(&ip)) { return None; }
Some((ip.source(), udp.source(), ip.destination(), udp.destination()))
```
-/
def flowOf (cfg : Cfg) (b : Bytes) : Outcome (Option Flow) :=
  attempt (V4.new b)
    (fun p => do
      let good ← V4.isValid cfg p
      let ihl ← V4.ihl p
      let proto ← V4.protocol p
      let inside ← V4.payload p
      if good = true ∧ 5 ≤ ihl.toNat ∧ proto = .udp then
        attempt (Udp.new inside)
          (fun u => do
            let sound ← Udp.isValid cfg (.v4 p) u
            let src ← V4.source p
            let sport ← Udp.source u
            let dst ← V4.destination p
            let dport ← Udp.destination u
            if sound = true then .ok (some ⟨src, sport, dst, dport⟩) else .ok none)
          (fun _ => .ok none)
      else .ok none)
    (fun _ => .ok none)

/-- The packet after the translator of C130; it goes out only if that succeeds. -/
def translated (cfg : Cfg) (r : Rewrite) (b : Bytes) : Outcome (Option Bytes) :=
  match translate cfg .udp r b with
  | (.ok (), q) => .ok (some q)
  | (.err e, _) => .err e
  | (.panic, _) => .panic

/-- From the inside to the outside.

```text
let (src, sport, ..) = match flow_of(buffer) { Some(f) => f, None => return Ok(false) };
let n = match table.iter().position(|e| *e == (src, sport)) {
    Some(n) => n,
    None => {
        if base as usize + table.len() > 65535 { return Ok(false); }
        table.push((src, sport));
        table.len() - 1
    }
};
translate(buffer, source: (addr, base + n as u16))?;
```
-/
def Gateway.outward (cfg : Cfg) (gw : Gateway) (t : Table) (b : Bytes) : Outcome (Table × Option Bytes) := do
  let f ← flowOf cfg b
  match f with
  | none => .ok (t, none)
  | some f =>
    let n := t.idxOf (f.src, f.sport)
    if n < t.length then do
      let q ← translated cfg ⟨some (gw.addr, gw.base + BitVec.ofNat 16 n), none⟩ b
      .ok (t, q)
    else if gw.base.toNat + t.length ≤ 65535 then do
      let q ← translated cfg ⟨some (gw.addr, gw.base + BitVec.ofNat 16 t.length), none⟩ b
      .ok (t ++ [(f.src, f.sport)], q)
    else .ok (t, none)

/-- From the outside to the inside.

```text
let (.., dst, dport) = match flow_of(buffer) { Some(f) => f, None => return Ok(false) };
if dst != addr || dport < base { return Ok(false); }
match table.get((dport - base) as usize) {
    None => return Ok(false),
    Some((a, p)) => translate(buffer, destination: (a, p))?,
}
```
-/
def Gateway.inward (cfg : Cfg) (gw : Gateway) (t : Table) (b : Bytes) : Outcome (Table × Option Bytes) := do
  let f ← flowOf cfg b
  match f with
  | none => .ok (t, none)
  | some f =>
    if f.dst = gw.addr ∧ gw.base.toNat ≤ f.dport.toNat then
      match t[f.dport.toNat - gw.base.toNat]? with
      | none => .ok (t, none)
      | some e => do
        let q ← translated cfg ⟨none, some e⟩ b
        .ok (t, q)
    else .ok (t, none)

/-- What comes to the gateway, from the inside or from the outside. -/
inductive Event where
  | fromInside (b : Bytes)
  | fromOutside (b : Bytes)

def Gateway.step (cfg : Cfg) (gw : Gateway) (t : Table) : Event → Outcome (Table × Option Bytes)
  | .fromInside b => gw.outward cfg t b
  | .fromOutside b => gw.inward cfg t b

/-- The table after all that came. -/
def Gateway.after (cfg : Cfg) (gw : Gateway) : Table → List Event → Outcome Table
  | t, [] => .ok t
  | t, e :: es => do
    let r ← gw.step cfg t e
    gw.after cfg r.1 es

/-- A sound UDP datagram of the flow `f`. -/
def Datagram (cfg : Cfg) (p : Bytes) (f : Flow) : Prop := OnFlow cfg .udp p f ∧ V4.protocol p = .ok .udp

/-! ## Datagrams -/

theorem Datagram.same {cfg : Cfg} {p : Bytes} {f g : Flow} (hf : Datagram cfg p f) (hg : Datagram cfg p g) : g = f := by
  obtain ⟨u, hu, -, -, a1, a2⟩ := hf.1.inner
  obtain ⟨w, hw, -, -, b1, b2⟩ := hg.1.inner
  rw [hu] at hw
  cases Outcome.ok.inj hw
  have h1 := Outcome.ok.inj (hf.1.source.symm.trans hg.1.source)
  have h2 := Outcome.ok.inj (hf.1.destination.symm.trans hg.1.destination)
  have h3 := Outcome.ok.inj (a1.symm.trans b1)
  have h4 := Outcome.ok.inj (a2.symm.trans b2)
  cases f; cases g
  simp only [] at h1 h2 h3 h4
  rw [h1, h2, h3, h4]

theorem flow_of (cfg : Cfg) (b : Bytes) :
    (∃ f, Datagram cfg b f ∧ flowOf cfg b = .ok (some f)) ∨
    ((∀ f, ¬ Datagram cfg b f) ∧ flowOf cfg b = .ok none) := by
  unfold flowOf
  rw [ip_accept b]
  cases hp : ipError b with
  | some x =>
    right
    refine ⟨fun f h => ?_, rfl⟩
    have := h.1.v4
    rw [ip_accept b, hp] at this
    cases this
  | none =>
    have hv4 : V4.new b = .ok b := by rw [ip_accept b, hp]
    obtain ⟨h20, hh, ht, hd⟩ := ip_accepted hp
    obtain ⟨-, i2, -, -, -, -, -, -, i9, -, ⟨src, i11, j11⟩, ⟨dst, i12, j12⟩⟩ := C14_v4_fields b h20
    have hi : (BitVec.ofNat 8 (field b 4 4)).toNat = field b 4 4 := field_value b 4 4 (by omega)
    simp only []
    rw [attempt_ok, v4_sum cfg h20 hh, Outcome.ok_bind, i2, Outcome.ok_bind, i9, Outcome.ok_bind, hd, Outcome.ok_bind,
      hi]
    have hv := v4_sum cfg h20 hh
    by_cases c1 : decide (field b 80 16 = crateSum (b.take (4 * field b 4 4)) 10) = true ∧ 5 ≤ field b 4 4 ∧
        IpProtocol.ofWire (BitVec.ofNat 8 (field b 72 8)) = .udp
    case neg =>
      right
      rw [if_neg c1]
      refine ⟨fun f h => c1 ⟨?_, h.1.header, ?_⟩, rfl⟩
      · exact Outcome.ok.inj (hv.symm.trans h.1.valid)
      · exact Outcome.ok.inj (i9.symm.trans h.2)
    rw [if_pos c1]
    rw [c1.1] at hv
    have hua := (C21_udp_accept (ipData b)).2
    by_cases c3 : 8 ≤ (ipData b).length ∧ field (ipData b) 32 16 ≤ (ipData b).length
    case neg =>
      right
      rw [if_neg c3] at hua
      rw [hua]
      refine ⟨fun f h => ?_, rfl⟩
      obtain ⟨u, hu, hn, -⟩ := h.1.inner
      rw [hd] at hu
      cases Outcome.ok.inj hu
      rw [hua] at hn
      cases hn
    rw [if_pos c3] at hua
    obtain ⟨u1, u2, u3, -⟩ := C21_udp_fields (ipData b) c3.1
    have hs := udp_good cfg h20 c3.1
    rw [hua, attempt_ok, hs, Outcome.ok_bind, i11, Outcome.ok_bind, u1, Outcome.ok_bind, i12, Outcome.ok_bind, u2,
      Outcome.ok_bind]
    split
    · rename_i hg
      left
      rw [hg] at hs
      refine ⟨_, ⟨⟨hv4, c1.2.1, hv, i11, i12, ipData b, hd, hua, hs, u1, u2⟩, ?_⟩, rfl⟩
      rw [i9, c1.2.2]
    · rename_i hg
      right
      refine ⟨fun f h => ?_, rfl⟩
      obtain ⟨u, hu, -, hn, -⟩ := h.1.inner
      rw [hd] at hu
      cases Outcome.ok.inj hu
      exact hg (Outcome.ok.inj (hs.symm.trans hn))

theorem translated_step (cfg : Cfg) {p : Bytes} {f : Flow} (h : Datagram cfg p f) (r : Rewrite) :
    ∃ q, translated cfg r p = .ok (some q) ∧ Datagram cfg q (r.apply f) ∧ OnlyEndpoints .udp p q := by
  obtain ⟨q, e1, e2, e3⟩ := translate_step cfg .udp h.1 r
  refine ⟨q, ?_, ⟨e2, ?_⟩, e3⟩
  · unfold translated
    rw [e1]
  · have hp := (V4.new_ok_iff.1 h.1.v4).2.long
    have hq : 20 ≤ q.length := by rw [e3.1]; exact hp
    have h5 := h.1.header
    rw [(C14_v4_fields q hq).2.2.2.2.2.2.2.2.1, ← h.2, (C14_v4_fields p hp).2.2.2.2.2.2.2.2.1]
    rw [field_congr (b := p) (b' := q) (s := 72) (w := 8)]
    intro i h1 h2
    apply bitAt_congr
    refine e3.2 (i / 8) (by omega) (by omega) ?_ ?_
    · show i / 8 ≠ 4 * field p 4 4 + 6
      omega
    · show i / 8 ≠ 4 * field p 4 4 + 6 + 1
      omega

/-! ## One packet -/

/-- No endpoint has two ports, and no port is beyond the last one. -/
def Good (gw : Gateway) (t : Table) : Prop := t.Nodup ∧ gw.base.toNat + t.length ≤ 65536

theorem port_nat (gw : Gateway) {n : Nat} (h : gw.base.toNat + n ≤ 65535) :
    (gw.base + BitVec.ofNat 16 n).toNat = gw.base.toNat + n := by
  rw [BitVec.toNat_add, BitVec.toNat_ofNat]
  have : (2 : Nat) ^ 16 = 65536 := rfl
  omega

/-- C141: a datagram from the inside goes out from the port of its endpoint, which is given one if it has none yet;
only if it has none and all are given out the datagram is dropped. -/
theorem C141_outward (cfg : Cfg) (gw : Gateway) (t : Table) (hg : Good gw t) (p : Bytes) (f : Flow)
    (h : Datagram cfg p f) :
    (∃ t' n q port, gw.step cfg t (.fromInside p) = .ok (t', some q) ∧ t' = t ++ t'.drop t.length ∧ Good gw t' ∧
      ((f.src, f.sport) ∈ t → t' = t) ∧ t'[n]? = some (f.src, f.sport) ∧ port.toNat = gw.base.toNat + n ∧
      (∀ e ∈ t', e ∈ t ∨ e = (f.src, f.sport)) ∧
      Datagram cfg q ⟨gw.addr, port, f.dst, f.dport⟩ ∧ OnlyEndpoints .udp p q) ∨
    ((f.src, f.sport) ∉ t ∧ gw.base.toNat + t.length = 65536 ∧ gw.step cfg t (.fromInside p) = .ok (t, none)) := by
  obtain ⟨g, hd, hf⟩ | ⟨hn, -⟩ := flow_of cfg p
  case inr => exact absurd h (hn f)
  cases h.same hd
  show (_ ∨ _ ∧ _ ∧ gw.outward cfg t p = _)
  have hstep : gw.step cfg t (.fromInside p) = gw.outward cfg t p := rfl
  unfold Gateway.outward at hstep ⊢
  rw [hf, Outcome.ok_bind] at hstep ⊢
  simp only [] at hstep ⊢
  by_cases hm : (f.src, f.sport) ∈ t
  · left
    have hl := List.idxOf_lt_length_iff.2 hm
    obtain ⟨q, e1, e2, e3⟩ := translated_step cfg h
      ⟨some (gw.addr, gw.base + BitVec.ofNat 16 (t.idxOf (f.src, f.sport))), none⟩
    rw [if_pos hl, e1, Outcome.ok_bind] at hstep
    refine ⟨t, t.idxOf (f.src, f.sport), q, _, hstep, by rw [List.drop_length, List.append_nil], hg, fun _ => rfl, ?_,
      port_nat gw ?_, fun e he => .inl he, e2, e3⟩
    · rw [List.getElem?_eq_getElem hl, List.getElem_idxOf]
    · have := hg.2
      omega
  · have hl := mt List.idxOf_lt_length_iff.1 hm
    by_cases hroom : gw.base.toNat + t.length ≤ 65535
    · left
      obtain ⟨q, e1, e2, e3⟩ := translated_step cfg h ⟨some (gw.addr, gw.base + BitVec.ofNat 16 t.length), none⟩
      rw [if_neg hl, if_pos hroom, e1, Outcome.ok_bind] at hstep
      refine ⟨t ++ [(f.src, f.sport)], t.length, q, _, hstep, by rw [List.drop_left], ⟨?_, ?_⟩,
        fun h => absurd h hm, ?_, port_nat gw hroom, ?_, e2, e3⟩
      · rw [List.nodup_append]
        refine ⟨hg.1, by simp, ?_⟩
        intro a ha b hb
        rw [List.mem_singleton] at hb
        rw [hb]
        rintro rfl
        exact hm ha
      · rw [List.length_append]
        show _ + (_ + 1) ≤ _
        omega
      · rw [List.getElem?_append_right (Nat.le_refl _), Nat.sub_self]
        rfl
      · intro e he
        rw [List.mem_append, List.mem_singleton] at he
        exact he
    · right
      rw [if_neg hl, if_neg hroom]
      exact ⟨hm, by have := hg.2; omega, rfl⟩

/-- C141: a datagram from the outside for a port that is given out goes to its endpoint, and no other comes in. -/
theorem C141_inward (cfg : Cfg) (gw : Gateway) (t : Table) (p : Bytes) (f : Flow) (h : Datagram cfg p f) :
    (∀ n e, f.dst = gw.addr → t[n]? = some e → f.dport.toNat = gw.base.toNat + n →
      ∃ q, gw.step cfg t (.fromOutside p) = .ok (t, some q) ∧ Datagram cfg q ⟨f.src, f.sport, e.1, e.2⟩ ∧
        OnlyEndpoints .udp p q) ∧
    ((¬ ∃ n e, f.dst = gw.addr ∧ t[n]? = some e ∧ f.dport.toNat = gw.base.toNat + n) →
      gw.step cfg t (.fromOutside p) = .ok (t, none)) := by
  obtain ⟨g, hd, hf⟩ | ⟨hn, -⟩ := flow_of cfg p
  case inr => exact absurd h (hn f)
  cases h.same hd
  have hstep : gw.step cfg t (.fromOutside p) = gw.inward cfg t p := rfl
  unfold Gateway.inward at hstep
  rw [hf, Outcome.ok_bind] at hstep
  simp only [] at hstep
  constructor
  · intro n e ha he hp
    obtain ⟨q, e1, e2, e3⟩ := translated_step cfg h ⟨none, some e⟩
    rw [if_pos ⟨ha, by omega⟩, show f.dport.toNat - gw.base.toNat = n by omega, he] at hstep
    simp only [] at hstep
    rw [e1, Outcome.ok_bind] at hstep
    exact ⟨q, hstep, e2, e3⟩
  · intro hno
    rw [hstep]
    by_cases hc : f.dst = gw.addr ∧ gw.base.toNat ≤ f.dport.toNat
    · rw [if_pos hc]
      cases ht : t[f.dport.toNat - gw.base.toNat]? with
      | none => rfl
      | some e => exact absurd ⟨_, e, hc.1, ht, by omega⟩ hno
    · rw [if_neg hc]

/-- C141: whatever is not a sound UDP datagram is dropped, and leaves no trace. -/
theorem C141_other (cfg : Cfg) (gw : Gateway) (t : Table) (b : Bytes) (h : ∀ f, ¬ Datagram cfg b f) :
    gw.step cfg t (.fromInside b) = .ok (t, none) ∧ gw.step cfg t (.fromOutside b) = .ok (t, none) := by
  obtain ⟨f, hd, -⟩ | ⟨-, hf⟩ := flow_of cfg b
  case inl => exact absurd hd (h f)
  constructor
  · show gw.outward cfg t b = _
    unfold Gateway.outward
    rw [hf, Outcome.ok_bind]
  · show gw.inward cfg t b = _
    unfold Gateway.inward
    rw [hf, Outcome.ok_bind]

/-! ## Histories -/

/-- The datagram from the inside that an event is. -/
def Event.Asks (cfg : Cfg) (e : Event) (f : Flow) : Prop := ∃ p, e = .fromInside p ∧ Datagram cfg p f

theorem step_keeps (cfg : Cfg) (gw : Gateway) (t : Table) (hg : Good gw t) (e : Event) :
    ∃ t' r, gw.step cfg t e = .ok (t', r) ∧ Good gw t' ∧ t' = t ++ t'.drop t.length ∧
      ∀ x ∈ t', x ∈ t ∨ ∃ f, e.Asks cfg f ∧ x = (f.src, f.sport) := by
  have same : t = t ++ t.drop t.length := by rw [List.drop_length, List.append_nil]
  cases e with
  | fromInside p =>
    by_cases h : ∃ f, Datagram cfg p f
    · obtain ⟨f, h⟩ := h
      obtain ⟨t', n, q, port, e1, e2, e3, -, -, -, e4, -⟩ | ⟨-, -, e1⟩ := C141_outward cfg gw t hg p f h
      · exact ⟨t', some q, e1, e3, e2, fun x hx => (e4 x hx).imp_right fun hx => ⟨f, ⟨p, rfl, h⟩, hx⟩⟩
      · exact ⟨t, none, e1, hg, same, fun x hx => .inl hx⟩
    · exact ⟨t, none, (C141_other cfg gw t p fun f hf => h ⟨f, hf⟩).1, hg, same, fun x hx => .inl hx⟩
  | fromOutside p =>
    by_cases h : ∃ f, Datagram cfg p f
    · obtain ⟨f, h⟩ := h
      obtain ⟨h1, h2⟩ := C141_inward cfg gw t p f h
      by_cases hc : ∃ n e, f.dst = gw.addr ∧ t[n]? = some e ∧ f.dport.toNat = gw.base.toNat + n
      · obtain ⟨n, e, c1, c2, c3⟩ := hc
        obtain ⟨q, e1, -⟩ := h1 n e c1 c2 c3
        exact ⟨t, some q, e1, hg, same, fun x hx => .inl hx⟩
      · exact ⟨t, none, h2 hc, hg, same, fun x hx => .inl hx⟩
    · exact ⟨t, none, (C141_other cfg gw t p fun f hf => h ⟨f, hf⟩).2, hg, same, fun x hx => .inl hx⟩

theorem after_keeps (cfg : Cfg) (gw : Gateway) (es : List Event) : ∀ t, Good gw t →
    ∃ t', gw.after cfg t es = .ok t' ∧ Good gw t' ∧ t' = t ++ t'.drop t.length ∧
      ∀ x ∈ t', x ∈ t ∨ ∃ e ∈ es, ∃ f, e.Asks cfg f ∧ x = (f.src, f.sport) := by
  induction es with
  | nil => intro t hg; exact ⟨t, rfl, hg, by rw [List.drop_length, List.append_nil], fun x hx => .inl hx⟩
  | cons e es ih =>
    intro t hg
    obtain ⟨t1, r, e1, g1, p1, m1⟩ := step_keeps cfg gw t hg e
    obtain ⟨t2, e2, g2, p2, m2⟩ := ih t1 g1
    refine ⟨t2, ?_, g2, ?_, ?_⟩
    · unfold Gateway.after
      rw [e1, Outcome.ok_bind]
      exact e2
    · conv => lhs; rw [p2]
      conv => lhs; rw [p1]
      rw [List.append_assoc]
      congr 1
      conv => rhs; rw [p2, p1, List.append_assoc, List.drop_left]
    · intro x hx
      rcases m2 x hx with h | ⟨e', he, f, ha, hx⟩
      · rcases m1 x h with h | ⟨f, ha, hx⟩
        · exact .inl h
        · exact .inr ⟨e, List.mem_cons_self, f, ha, hx⟩
      · exact .inr ⟨e', List.mem_cons_of_mem _ he, f, ha, hx⟩

theorem good_empty (gw : Gateway) : Good gw [] := ⟨List.nodup_nil, by have := gw.base.isLt; simp; omega⟩

theorem prefix_get {t t' : Table} (h : t' = t ++ t'.drop t.length) {n : Nat} {e : Ipv4Addr × U16} (hn : t[n]? = some e) :
    t'[n]? = some e := by
  obtain ⟨hl, -⟩ := List.getElem?_eq_some_iff.1 hn
  rw [h, List.getElem?_append_left hl]
  exact hn

/-- C141: the gateway never fails or panics, whatever comes from either side. -/
theorem C141_total (cfg : Cfg) (gw : Gateway) (es : List Event) : ∃ t, gw.after cfg [] es = .ok t ∧ Good gw t ∧
    ∀ e, ∃ r, gw.step cfg t e = .ok r := by
  obtain ⟨t, e1, g, -⟩ := after_keeps cfg gw es [] (good_empty gw)
  refine ⟨t, e1, g, fun e => ?_⟩
  obtain ⟨t', r, h, -⟩ := step_keeps cfg gw t g e
  exact ⟨_, h⟩

/-- C141: what answers a datagram that went out, from wherever, comes back to the endpoint it was from, whatever
happens in between. -/
theorem C141_return (cfg : Cfg) (gw : Gateway) (before between : List Event) (t t' : Table) (p q : Bytes) (f : Flow)
    (h : Datagram cfg p f) (h1 : gw.after cfg [] before = .ok t)
    (h2 : gw.step cfg t (.fromInside p) = .ok (t', some q)) :
    ∃ port t'', Datagram cfg q ⟨gw.addr, port, f.dst, f.dport⟩ ∧ OnlyEndpoints .udp p q ∧
      gw.after cfg t' between = .ok t'' ∧
      ∀ r src sport, Datagram cfg r ⟨src, sport, gw.addr, port⟩ →
        ∃ r', gw.step cfg t'' (.fromOutside r) = .ok (t'', some r') ∧ Datagram cfg r' ⟨src, sport, f.src, f.sport⟩ ∧
          OnlyEndpoints .udp r r' := by
  obtain ⟨t0, e0, g0, -⟩ := after_keeps cfg gw before [] (good_empty gw)
  rw [h1] at e0
  cases Outcome.ok.inj e0
  obtain ⟨t1, n, q', port, e1, e2, e3, -, e4, e5, -, e6, e7⟩ | ⟨-, -, e1⟩ := C141_outward cfg gw t g0 p f h
  case inr => rw [h2] at e1; cases Outcome.ok.inj e1
  rw [h2] at e1
  cases Outcome.ok.inj e1
  obtain ⟨t2, k1, k2, k3, -⟩ := after_keeps cfg gw between t' e3
  refine ⟨port, t2, e6, e7, k1, fun r src sport hr => ?_⟩
  exact (C141_inward cfg gw t2 r _ hr).1 n _ rfl (prefix_get k3 e4) e5

/-- C141: two datagrams go out from the same port exactly if they are from the same inside endpoint. -/
theorem C141_separate (cfg : Cfg) (gw : Gateway) (before between : List Event) (t1 t2 t3 t4 : Table) (p p' q q' : Bytes)
    (f f' g g' : Flow) (h : Datagram cfg p f) (h' : Datagram cfg p' f') (h1 : gw.after cfg [] before = .ok t1)
    (h2 : gw.step cfg t1 (.fromInside p) = .ok (t2, some q)) (h3 : gw.after cfg t2 between = .ok t3)
    (h4 : gw.step cfg t3 (.fromInside p') = .ok (t4, some q')) (hq : Datagram cfg q g) (hq' : Datagram cfg q' g') :
    g.sport = g'.sport ↔ f.src = f'.src ∧ f.sport = f'.sport := by
  obtain ⟨t0, e0, g0, -⟩ := after_keeps cfg gw before [] (good_empty gw)
  rw [h1] at e0
  cases Outcome.ok.inj e0
  obtain ⟨_, n, _, port, e1, e2, e3, -, e4, e5, -, e6, -⟩ | ⟨-, -, e1⟩ := C141_outward cfg gw t1 g0 p f h
  case inr => rw [h2] at e1; cases Outcome.ok.inj e1
  rw [h2] at e1
  cases Outcome.ok.inj e1
  obtain ⟨t', k1, k2, k3, -⟩ := after_keeps cfg gw between t2 e3
  rw [h3] at k1
  cases Outcome.ok.inj k1
  obtain ⟨_, m, _, port', d1, d2, d3, -, d4, d5, -, d6, -⟩ | ⟨-, -, d1⟩ := C141_outward cfg gw t3 k2 p' f' h'
  case inr => rw [h4] at d1; cases Outcome.ok.inj d1
  rw [h4] at d1
  cases Outcome.ok.inj d1
  cases e6.same hq
  cases d6.same hq'
  have hn : t4[n]? = some (f.src, f.sport) := prefix_get d2 (prefix_get k3 e4)
  show port = port' ↔ _
  constructor
  · rintro rfl
    have : n = m := by omega
    subst this
    have hx := Option.some.inj (hn.symm.trans d4)
    exact ⟨congrArg Prod.fst hx, congrArg Prod.snd hx⟩
  · rintro ⟨a1, a2⟩
    rw [← a1, ← a2] at d4
    obtain ⟨l1, x1⟩ := List.getElem?_eq_some_iff.1 hn
    obtain ⟨l2, x2⟩ := List.getElem?_eq_some_iff.1 d4
    have : n = m := (List.getElem_inj d3.1).1 (x1.trans x2.symm)
    subst this
    exact BitVec.eq_of_toNat_eq (e5.trans d5.symm)

/-- C141: nothing comes in but datagrams to an inside endpoint that has sent one before. -/
theorem C141_unsolicited (cfg : Cfg) (gw : Gateway) (es : List Event) (t t' : Table) (r r' : Bytes)
    (h1 : gw.after cfg [] es = .ok t) (h2 : gw.step cfg t (.fromOutside r) = .ok (t', some r')) :
    t' = t ∧ ∃ e ∈ es, ∃ f g, e.Asks cfg f ∧ Datagram cfg r g ∧ g.dst = gw.addr ∧
      Datagram cfg r' ⟨g.src, g.sport, f.src, f.sport⟩ := by
  obtain ⟨t0, e0, g0, -, hm⟩ := after_keeps cfg gw es [] (good_empty gw)
  rw [h1] at e0
  cases Outcome.ok.inj e0
  by_cases h : ∃ g, Datagram cfg r g
  case neg =>
    rw [(C141_other cfg gw t r fun g hg => h ⟨g, hg⟩).2] at h2
    cases Outcome.ok.inj h2
  obtain ⟨g, h⟩ := h
  obtain ⟨i1, i2⟩ := C141_inward cfg gw t r g h
  by_cases hc : ∃ n e, g.dst = gw.addr ∧ t[n]? = some e ∧ g.dport.toNat = gw.base.toNat + n
  case neg =>
    rw [i2 hc] at h2
    cases Outcome.ok.inj h2
  obtain ⟨n, e, c1, c2, c3⟩ := hc
  obtain ⟨q, e1, e2, -⟩ := i1 n e c1 c2 c3
  rw [h2] at e1
  cases Outcome.ok.inj e1
  refine ⟨rfl, ?_⟩
  obtain ⟨hl, hx⟩ := List.getElem?_eq_some_iff.1 c2
  rcases hm e (by rw [← hx]; exact List.getElem_mem hl) with hx | ⟨ev, hev, f, ha, rfl⟩
  · cases hx
  · exact ⟨ev, hev, f, g, ha, h, c1, e2⟩

/-! ## A case -/

def sampleGateway : Gateway := ⟨⟨192, 0, 2, 7⟩, 61000⟩

theorem sample_datagram (cfg : Cfg) : Datagram cfg Sample.udpPacket sampleFlow := ⟨sample_udp cfg, by decide⟩

/-- The datagram goes out, from the first port. -/
theorem sample_goes_out (cfg : Cfg) : ∃ q, Gateway.after cfg sampleGateway [] [] = .ok [] ∧
    sampleGateway.step cfg [] (.fromInside Sample.udpPacket) = .ok ([(sampleFlow.src, sampleFlow.sport)], some q) ∧
    Datagram cfg q ⟨⟨192, 0, 2, 7⟩, 61000, sampleFlow.dst, sampleFlow.dport⟩ := by
  obtain ⟨q, e1, e2, -⟩ := translated_step cfg (sample_datagram cfg) ⟨some (⟨192, 0, 2, 7⟩, 61000), none⟩
  refine ⟨q, rfl, ?_, e2⟩
  obtain ⟨g, hd, hf⟩ | ⟨hn, -⟩ := flow_of cfg Sample.udpPacket
  case inr => exact absurd (sample_datagram cfg) (hn _)
  cases (sample_datagram cfg).same hd
  show sampleGateway.outward cfg [] Sample.udpPacket = _
  unfold Gateway.outward
  rw [hf, Outcome.ok_bind]
  have hz : sampleGateway.base + BitVec.ofNat 16 ([] : Table).length = 61000 := by decide
  simp only []
  rw [if_neg (by simp), if_pos (by decide), hz]
  show (translated cfg ⟨some (⟨192, 0, 2, 7⟩, 61000), none⟩ Sample.udpPacket >>= _) = _
  rw [e1]
  rfl

/-- The same datagram again goes out from the same port, without a new entry. -/
theorem sample_again (cfg : Cfg) : ∃ q, sampleGateway.step cfg [(sampleFlow.src, sampleFlow.sport)]
    (.fromInside Sample.udpPacket) = .ok ([(sampleFlow.src, sampleFlow.sport)], some q) := by
  obtain ⟨t', n, q, port, e1, -, -, e2, -⟩ | ⟨h, -⟩ := C141_outward cfg sampleGateway
    [(sampleFlow.src, sampleFlow.sport)] ⟨by simp, by decide⟩ _ _ (sample_datagram cfg)
  · rw [e2 (by simp)] at e1
    exact ⟨q, e1⟩
  · exact absurd (List.mem_singleton.2 rfl) h

/-- A datagram for the gateway's first port, once that is given out, goes to the endpoint inside. -/
theorem sample_comes_back (cfg : Cfg) : ∃ r r', sampleGateway.step cfg [(sampleFlow.src, sampleFlow.sport)]
    (.fromOutside r) = .ok ([(sampleFlow.src, sampleFlow.sport)], some r') ∧
    Datagram cfg r ⟨sampleFlow.src, sampleFlow.sport, ⟨192, 0, 2, 7⟩, 61000⟩ := by
  obtain ⟨r, -, e2, -⟩ := translated_step cfg (sample_datagram cfg) ⟨none, some (⟨192, 0, 2, 7⟩, 61000)⟩
  obtain ⟨r', e3, -⟩ := (C141_inward cfg sampleGateway [(sampleFlow.src, sampleFlow.sport)] r _ e2).1 0 _ rfl rfl rfl
  exact ⟨r, r', e3, e2⟩

example (cfg : Cfg) := C141_outward cfg sampleGateway [] (good_empty _) _ _ (sample_datagram cfg)
example (cfg : Cfg) := C141_inward cfg sampleGateway [] _ _ (sample_datagram cfg)
example (cfg : Cfg) : sampleGateway.step cfg [] (.fromOutside Sample.udpPacket) = .ok ([], none) :=
  (C141_inward cfg sampleGateway [] _ _ (sample_datagram cfg)).2 (by rintro ⟨n, e, -, h, -⟩; cases h)
example (cfg : Cfg) := C141_other cfg sampleGateway [] [0x45] (fun f h => (by cases h.1.v4))
example (cfg : Cfg) : True := by
  obtain ⟨q, h1, h2, -⟩ := sample_goes_out cfg
  have := C141_return cfg sampleGateway [] [.fromOutside [0x45]] _ _ _ _ _ (sample_datagram cfg) h1 h2
  trivial
example (cfg : Cfg) : ∃ r r', sampleGateway.after cfg [] [.fromInside Sample.udpPacket] =
      .ok [(sampleFlow.src, sampleFlow.sport)] ∧
    sampleGateway.step cfg [(sampleFlow.src, sampleFlow.sport)] (.fromOutside r) =
      .ok ([(sampleFlow.src, sampleFlow.sport)], some r') := by
  obtain ⟨q, h1, h2, -⟩ := sample_goes_out cfg
  obtain ⟨r, r', h3, -⟩ := sample_comes_back cfg
  refine ⟨r, r', ?_, h3⟩
  unfold Gateway.after
  rw [h2]
  rfl
/-- The hypotheses of `C141_separate` are met. -/
example (cfg : Cfg) : ∃ q q' g g', (g.sport = g'.sport ↔ sampleFlow.src = sampleFlow.src ∧ sampleFlow.sport = sampleFlow.sport)
    ∧ Datagram cfg q g ∧ Datagram cfg q' g' := by
  obtain ⟨q, h1, h2, hq⟩ := sample_goes_out cfg
  obtain ⟨q', h4⟩ := sample_again cfg
  obtain ⟨_, _, hq', -⟩ := C141_return cfg sampleGateway [.fromInside Sample.udpPacket] [] _ _ _ _ _ (sample_datagram cfg)
    (by unfold Gateway.after; rw [h2]; rfl) h4
  exact ⟨q, q', _, _, C141_separate cfg sampleGateway [] [] _ _ _ _ _ _ _ _ _ _ _ _ (sample_datagram cfg)
    (sample_datagram cfg) h1 h2 rfl h4 hq hq', hq, hq'⟩
/-- The hypotheses of `C141_unsolicited` are met. -/
example (cfg : Cfg) : True := by
  obtain ⟨q, h1, h2, -⟩ := sample_goes_out cfg
  obtain ⟨r, r', h3, -⟩ := sample_comes_back cfg
  have := C141_unsolicited cfg sampleGateway [.fromInside Sample.udpPacket] _ _ _ _
    (by unfold Gateway.after; rw [h2]; rfl) h3
  trivial

end Verif.Props
