import Verif.Props.Network

/-!
# Answering pings (C133)

A host that answers echo requests in place, through `checked()` at both layers (`Model/Nested`).
-/

namespace Verif.Props
open Verif Verif.Spec

/-- The host `me`; `ttl` is the time to live of its answers.

```text
let mut ip = ip::v4::Packet::new(buffer)?;
let (source, destination) = (ip.source(), ip.destination());
if ip.is_valid() && destination == me && ip.protocol() == ip::Protocol::Icmp {
    if let Ok(echo) = icmp::echo::Packet::new(ip.payload()) {
        if icmp::Packet::new(ip.payload())?.is_valid() && echo.is_request() {
            ip.checked().set_source(destination)?.set_destination(source)?.set_ttl(ttl)?;
            icmp::echo::Packet::new(ip.payload_mut())?.checked().make_reply()?;
            // send it
        }
    }
}
// else nothing is sent
```
-/
def pong (cfg : Cfg) (me : Ipv4Addr) (ttl : U8) (b : Bytes) : Outcome (Option Bytes) := do
  let p ← V4.new b
  let s ← V4.source p
  let d ← V4.destination p
  let good ← V4.isValid cfg p
  let proto ← V4.protocol p
  if good = true ∧ d = me ∧ proto = .icmp then do
    let u ← V4.payload p
    match Echo.new u with
    | .err _ => .ok none
    | .panic => .panic
    | .ok e => do
      let i ← Icmp.new u
      let sound ← Icmp.isValid cfg i
      let request ← Echo.isRequest e
      if sound = true ∧ request = true then
        match V4.editStack cfg [.source d, .destination s, .ttl ttl] (Echo.editIn cfg [.reply]) p with
        | (.ok (), q) => .ok (some q)
        | (.err e, _) => .err e
        | (.panic, _) => .panic
      else .ok none
  else .ok none

/-- `p` is an echo request (or else a reply) from `s` to `d`, accepted and valid at both layers. -/
structure Pings (cfg : Cfg) (request : Bool) (p : Bytes) (s d : Ipv4Addr) (id seq : U16) (data : Bytes) : Prop where
  v4 : V4.new p = .ok p
  header : 5 ≤ field p 4 4
  valid : V4.isValid cfg p = .ok true
  protocol : V4.protocol p = .ok .icmp
  source : V4.source p = .ok s
  destination : V4.destination p = .ok d
  inner : ∃ u, V4.payload p = .ok u ∧ Icmp.isValid cfg u = .ok true ∧ Echo.new u = .ok u ∧
    Echo.isRequest u = .ok request ∧ Echo.isReply u = .ok (!request) ∧ Echo.identifier u = .ok id ∧
    Echo.sequence u = .ok seq ∧ Echo.payload u = .ok data

/-- `q` is `p` except for the time to live, the addresses, the kind of the message and the two checksums. -/
def OnlyAnswered (p q : Bytes) : Prop :=
  q.length = p.length ∧ ∀ i, i ≠ 8 → ¬ (10 ≤ i ∧ i < 20) → i ≠ 4 * field p 4 4 → i ≠ 4 * field p 4 4 + 2 →
    i ≠ 4 * field p 4 4 + 3 → q[i]? = p[i]?

theorem OnlyAnswered.ihl {p q : Bytes} (h5 : 5 ≤ field p 4 4) (h : OnlyAnswered p q) :
    field q 4 4 = field p 4 4 ∧ field q 16 16 = field p 16 16 := by
  have e : ∀ j, j < 4 → q[j]? = p[j]? := fun j hj => h.2 j (by omega) (by omega) (by omega) (by omega) (by omega)
  exact ⟨field_congr fun i _ hi => bitAt_congr (e _ (by omega)), field_congr fun i _ hi => bitAt_congr (e _ (by omega))⟩

theorem OnlyAnswered.trans {p q r : Bytes} (h5 : 5 ≤ field p 4 4) (h : OnlyAnswered p q) (h' : OnlyAnswered q r) :
    OnlyAnswered p r := by
  have i1 := (h.ihl h5).1
  refine ⟨h'.1.trans h.1, fun i g0 g1 g2 g3 g4 => ?_⟩
  rw [h'.2 i g0 g1 (by rw [i1]; exact g2) (by rw [i1]; exact g3) (by rw [i1]; exact g4), h.2 i g0 g1 g2 g3 g4]

theorem OnlyAnswered.symm {p q : Bytes} (h5 : 5 ≤ field p 4 4) (h : OnlyAnswered p q) : OnlyAnswered q p := by
  have i1 := (h.ihl h5).1
  refine ⟨h.1.symm, fun i g0 g1 g2 g3 g4 => ?_⟩
  rw [i1] at g2 g3 g4
  exact (h.2 i g0 g1 g2 g3 g4).symm

theorem OnlyTtl.answered {p q : Bytes} (h : OnlyTtl p q) : OnlyAnswered p q :=
  ⟨h.1, fun i h1 h2 _ _ _ => h.2 i (by simp only [List.mem_cons, List.not_mem_nil, or_false]; omega)⟩

/-! ## The calls of the answer -/

theorem answer_calls (s d : Ipv4Addr) (ttl : U8) :
    (∀ x, v4Last 96 x [.source d, .destination s, .ttl ttl] = beNat d.octets) ∧
    (∀ x, v4Last 128 x [.source d, .destination s, .ttl ttl] = beNat s.octets) ∧
    (∀ x, v4Last 64 x [.source d, .destination s, .ttl ttl] = ttl.toNat) ∧
    (∀ w, w ≠ 96 → w ≠ 128 → w ≠ 64 → ∀ x, v4Last w x [.source d, .destination s, .ttl ttl] = x) ∧
    ∀ t, [V4.Set.source d, .destination s, .ttl ttl].foldl tosStep t = t := by
  refine ⟨fun x => ?_, fun x => ?_, fun x => ?_, fun w h1 h2 h3 x => ?_, fun t => ?_⟩
  · simp [v4Last, last, v4Written]
  · simp [v4Last, last, v4Written]
  · simp [v4Last, last, v4Written]
  · simp [v4Last, last, v4Written, Ne.symm h1, Ne.symm h2, Ne.symm h3]
  · simp [tosStep]

theorem onlyAnswered_of {s d : Ipv4Addr} {ttl : U8} {p q u u' : Bytes} (hp : V4.new p = .ok p)
    (h5 : 5 ≤ field p 4 4) (hu : V4.payload p = .ok u) (hq : V4.new q = .ok q) (hu' : V4.payload q = .ok u')
    (he : HeaderEdited [.source d, .destination s, .ttl ttl] p q) (h8 : 8 ≤ u.length)
    (ho : u'.length = u.length ∧ ∀ i, i ≠ 0 → i ≠ 2 → i ≠ 3 → u'[i]? = u[i]?) : OnlyAnswered p q := by
  obtain ⟨-, ⟨h20, h4, hh⟩, ht⟩ := V4.new_ok_iff.1 hp
  obtain ⟨-, ⟨h20', h4', hh'⟩, ht'⟩ := V4.new_ok_iff.1 hq
  have hl := he.length
  obtain ⟨i1, -⟩ := ihl_of_first he.first
  obtain ⟨-, -, -, hn, htos⟩ := answer_calls s d ttl
  have htos' := he.tos
  rw [htos] at htos'
  have t1 := congrArg Prod.fst htos'; have t2 := congrArg Prod.snd htos'
  simp only at t1 t2
  have htos8 : field q 8 8 = field p 8 8 := by
    rw [field_add q 8 6 2, field_add p 8 6 2, t1, t2]
  have hf : ∀ s w, (s, w) ∈ [(32, 16), (48, 16), (72, 8)] → field q s w = field p s w := by
    intro s w hsw
    rw [he.fields s w (by
      simp only [List.mem_cons, Prod.mk.injEq, List.not_mem_nil, or_false] at hsw ⊢; omega)]
    simp only [List.mem_cons, Prod.mk.injEq, List.not_mem_nil, or_false] at hsw
    exact hn s (by omega) (by omega) (by omega) _
  refine ⟨hl, fun i g0 g1 g2 g3 g4 => ?_⟩
  by_cases hi : i < 10
  · rcases (show i = 0 ∨ i = 1 ∨ i = 2 ∨ i = 3 ∨ i = 4 ∨ i = 5 ∨ i = 6 ∨ i = 7 ∨ i = 9 by omega) with
      rfl | rfl | rfl | rfl | rfl | rfl | rfl | rfl | rfl
    · exact byte_of_field hl he.first (by omega) (by omega)
    · exact byte_of_field hl htos8 (by omega) (by omega)
    · exact byte_of_field hl he.total (by omega) (by omega)
    · exact byte_of_field hl he.total (by omega) (by omega)
    · exact byte_of_field hl (hf 32 16 (by decide)) (by omega) (by omega)
    · exact byte_of_field hl (hf 32 16 (by decide)) (by omega) (by omega)
    · exact byte_of_field hl (hf 48 16 (by decide)) (by omega) (by omega)
    · exact byte_of_field hl (hf 48 16 (by decide)) (by omega) (by omega)
    · exact byte_of_field hl (hf 72 8 (by decide)) (by omega) (by omega)
  by_cases hi2 : i < 4 * field p 4 4
  · exact he.options i (by omega) hi2
  by_cases hi3 : field p 16 16 ≤ i
  · exact he.behind i (by omega) hi3
  · have htot := he.total
    rw [V4.payload_eq (by omega) (by omega)] at hu hu'
    have hu := Outcome.ok.inj hu
    have hu' := Outcome.ok.inj hu'
    have hk := ho.2 (i - 4 * field p 4 4) (by omega) (by omega) (by omega)
    rw [← hu, ← hu', i1, htot, List.getElem?_take_of_lt (by omega), List.getElem?_take_of_lt (by omega),
      List.getElem?_drop, List.getElem?_drop, show field p 4 4 * 4 + (i - 4 * field p 4 4) = i by omega] at hk
    exact hk

/-- The message inside. -/
theorem echo_reply (cfg : Cfg) {u : Bytes} (hmax : u.length < cfg.usizeMod) (hn : Echo.new u = .ok u) {id seq : U16}
    {data : Bytes} (hid : Echo.identifier u = .ok id) (hseq : Echo.sequence u = .ok seq)
    (hdata : Echo.payload u = .ok data) :
    ∃ u', Echo.checkedRun cfg [.reply] u = (.ok (), u') ∧ u'.length = u.length ∧
      (∀ i, i ≠ 0 → i ≠ 2 → i ≠ 3 → u'[i]? = u[i]?) ∧ Icmp.isValid cfg u' = .ok true ∧ Echo.new u' = .ok u' ∧
      Echo.isRequest u' = .ok false ∧ Echo.isReply u' = .ok true ∧ Echo.identifier u' = .ok id ∧
      Echo.sequence u' = .ok seq ∧ Echo.payload u' = .ok data := by
  obtain ⟨u', e1, e2, e3, e4⟩ := C38_echo_checked cfg u hmax hn [.reply]
  obtain ⟨u'', f1, f2, f3, f4, f5⟩ := C38_echo_checked_fields cfg u hmax hn [.reply]
  obtain rfl : u' = u'' := congrArg Prod.snd (e1.symm.trans f1)
  have hl := (echo_ok hn).1
  have k0 : field u' 0 8 = 0 := (f5 0 8 (by decide)).trans rfl
  have k1 : field u' 32 16 = field u 32 16 := (f5 32 16 (by decide)).trans rfl
  have k2 : field u' 48 16 = field u 48 16 := (f5 48 16 (by decide)).trans rfl
  obtain ⟨a1, a2, -, a3, a4, -, a5, -⟩ := C36_echo_fields cfg u hmax hn
  obtain ⟨b1, b2, -, b3, b4, -, b5, -⟩ := C36_echo_fields cfg u' (by omega) e3
  refine ⟨u', e1, e4, fun i g0 g1 g2 => ?_, e2, e3, ?_, ?_, ?_, ?_, ?_⟩
  · by_cases h1 : i = 1
    · exact byte_of_field f2 f4 (by omega) (by omega)
    by_cases h6 : i < 6
    · exact byte_of_field f2 k1 (by omega) (by omega)
    by_cases h8 : i < 8
    · exact byte_of_field f2 k2 (by omega) (by omega)
    · exact getElem?_of_drop f3 i (by omega)
  · rw [b1, k0]; rfl
  · rw [b2, k0]; rfl
  · rw [b3, k1, ← a3, hid]
  · rw [b4, k2, ← a4, hseq]
  · rw [b5, f3, ← a5, hdata]

/-- One request, answered. -/
theorem answer_ping (cfg : Cfg) {p : Bytes} {s me : Ipv4Addr} {id seq : U16} {data : Bytes}
    (h : Pings cfg true p s me id seq data) (ttl : U8) :
    ∃ q, pong cfg me ttl p = .ok (some q) ∧ Pings cfg false q me s id seq data ∧ V4.ttl q = .ok ttl ∧
      OnlyAnswered p q := by
  obtain ⟨u, hu, hv, hn, hreq, -, hid, hseq, hdata⟩ := h.inner
  have h20 := (V4.new_ok_iff.1 h.v4).2.long
  have hmax := inner_length h.v4 h.header hu
  have hmod : u.length < cfg.usizeMod := by (have := cfg.width; omega)
  have hl := (echo_ok hn).1
  obtain ⟨u', r1, r2, r3, r4, r5, r6, r7, r8, r9, r10⟩ := echo_reply cfg hmod hn hid hseq hdata
  have run : ∀ ip, Echo.editIn cfg [.reply] ip u = (.ok (), u') := by
    intro ip
    unfold Echo.editIn editing
    rw [hn]
    exact r1
  obtain ⟨q, u'', ip, c1, c2, -, -, -, c6, c7, c8, c9⟩ := v4_stack cfg p u h.v4 h.header hu
    [.source me, .destination s, .ttl ttl] (Echo.editIn cfg [.reply]) (fun ip _ => ⟨u', run _, r2⟩)
  obtain rfl : u' = u'' := congrArg Prod.snd ((run _).symm.trans c2)
  obtain ⟨w1, w2, w3, w4, -⟩ := answer_calls s me ttl
  have hlq := c9.length
  have hic : Icmp.new u = .ok u := by rw [C34_icmp_accept, if_pos (by omega)]
  have hproto : V4.protocol q = .ok .icmp := by
    have e9 : q[9]? = p[9]? := byte_of_field hlq ((c9.fields 72 8 (by decide)).trans (w4 72 (by omega) (by omega)
      (by omega) _)) (by omega) (by omega)
    rw [← h.protocol]
    unfold V4.protocol
    rw [idx_alike e9]
  refine ⟨q, ?_, ⟨c6, by rw [(ihl_of_first c9.first).1]; exact h.header, c7, hproto, ?_, ?_, u', c8, r4, r5, r6, r7, r8,
    r9, r10⟩, ?_, onlyAnswered_of h.v4 h.header hu c6 c8 c9 hl ⟨r2, r3⟩⟩
  · unfold pong
    rw [h.v4, Outcome.ok_bind, h.source, Outcome.ok_bind, h.destination, Outcome.ok_bind, h.valid, Outcome.ok_bind,
      h.protocol, Outcome.ok_bind, if_pos ⟨rfl, rfl, rfl⟩, hu, Outcome.ok_bind, hn]
    simp only []
    rw [hic, Outcome.ok_bind, hv, Outcome.ok_bind, hreq, Outcome.ok_bind, if_pos ⟨rfl, rfl⟩, c1]
  · rw [source_iff (by omega), c9.fields 96 32 (by decide)]; exact w1 _
  · rw [destination_iff (by omega), c9.fields 128 32 (by decide)]; exact w2 _
  · rw [(C14_v4_fields q (by omega)).2.2.2.2.2.2.2.1, c9.fields 64 8 (by decide), w3, BitVec.ofNat_toNat,
      BitVec.setWidth_eq]

/-! ## C133 -/

/-- C133: the host answers every valid echo request for it.  The answer is a valid echo reply, at both layers, back to
the sender, with the same identifier, sequence number and data; besides the time to live, the addresses, the kind and
the two checksums nothing changed.  To everything else that is accepted it sends nothing, and it never fails or
panics. -/
theorem C133_answer (cfg : Cfg) (me : Ipv4Addr) (ttl : U8) (p : Bytes) (hv : V4.new p = .ok p) (h5 : 5 ≤ field p 4 4) :
    (∀ s id seq data, Pings cfg true p s me id seq data →
      ∃ q, pong cfg me ttl p = .ok (some q) ∧ Pings cfg false q me s id seq data ∧ V4.ttl q = .ok ttl ∧
        OnlyAnswered p q) ∧
    ((¬ ∃ s id seq data, Pings cfg true p s me id seq data) → pong cfg me ttl p = .ok none) := by
  refine ⟨fun s id seq data h => answer_ping cfg h ttl, fun hno => ?_⟩
  obtain ⟨-, hok⟩ := V4.new_ok_iff.1 hv
  have hl := hok.long; have hh := hok.header
  obtain ⟨s, hs, -⟩ := (C14_v4_fields p hl).2.2.2.2.2.2.2.2.2.2.1
  obtain ⟨d, hd, -⟩ := (C14_v4_fields p hl).2.2.2.2.2.2.2.2.2.2.2
  obtain ⟨good, hg⟩ : ∃ g, V4.isValid cfg p = .ok g := by
    unfold V4.isValid
    rw [V4.header_eq (by omega) hh, Outcome.ok_bind, V4.checksumOf_eq, Outcome.ok_bind,
      show V4.checksum p = readU16At p 10 from rfl, readU16At_ok (by omega), Outcome.ok_bind]
    exact ⟨_, rfl⟩
  obtain ⟨pr, hpr⟩ : ∃ pr, V4.protocol p = .ok pr := by
    unfold V4.protocol
    rw [idx_field (k := 9) (by omega)]
    exact ⟨_, rfl⟩
  have hu : V4.payload p = .ok _ := V4.payload_eq (by omega) hh
  have hmax := inner_length hv h5 hu
  generalize List.take _ _ = u at hu hmax
  have hmod : u.length < cfg.usizeMod := by (have := cfg.width; omega)
  unfold pong
  rw [hv, Outcome.ok_bind, hs, Outcome.ok_bind, hd, Outcome.ok_bind, hg, Outcome.ok_bind, hpr, Outcome.ok_bind]
  by_cases hc : good = true ∧ d = me ∧ pr = .icmp
  · obtain ⟨rfl, rfl, rfl⟩ := hc
    rw [if_pos ⟨rfl, rfl, rfl⟩, hu, Outcome.ok_bind]
    cases hn : Echo.new u with
    | err e => rfl
    | panic =>
      rw [(C35_icmp_typed_accept u).1] at hn
      repeat' split at hn
      all_goals cases hn
    | ok e =>
      have he : e = u := by
        rw [(C35_icmp_typed_accept u).1] at hn
        repeat' split at hn
        all_goals cases hn
        rfl
      subst he
      have hic : Icmp.new e = .ok e := by rw [C34_icmp_accept, if_pos (by have := (echo_ok hn).1; omega)]
      obtain ⟨a1, a2, a0, a3, a4, -, a5, -⟩ := C36_echo_fields cfg e hmod hn
      obtain ⟨sound, hsd⟩ : ∃ x, Icmp.isValid cfg e = .ok x := by
        unfold Icmp.isValid
        rw [(C34_icmp_views cfg e hmod hic).2.2.1, Icmp.checksumOf_eq]
        exact ⟨_, rfl⟩
      simp only []
      rw [hic, Outcome.ok_bind, hsd, Outcome.ok_bind, a1, Outcome.ok_bind, if_neg]
      rintro ⟨rfl, hreq⟩
      rw [hreq] at a1
      have h8 : field e 0 8 = 8 := of_decide_eq_true hreq
      rw [h8] at a2
      exact hno ⟨s, _, _, _, hv, h5, hg, hpr, hs, hd, e, hu, hsd, hn, a1, a2, a3, a4, a5⟩
  · rw [if_neg hc]

/-- C133: no host answers an answer, so that two hosts never keep answering each other. -/
theorem C133_no_loop (cfg : Cfg) {q : Bytes} {s d : Ipv4Addr} {id seq : U16} {data : Bytes}
    (h : Pings cfg false q s d id seq data) (me : Ipv4Addr) (ttl : U8) : pong cfg me ttl q = .ok none := by
  refine (C133_answer cfg me ttl q h.v4 h.header).2 ?_
  rintro ⟨s', id', seq', data', h'⟩
  obtain ⟨u, hu, -, -, hr, -⟩ := h.inner
  obtain ⟨u', hu', -, -, hr', -⟩ := h'.inner
  rw [hu] at hu'
  cases hu'
  rw [hr] at hr'
  cases hr'

/-- Behind routers a message is still the same. -/
theorem pings_hops (cfg : Cfg) {r : Bool} {p : Bytes} {s d : Ipv4Addr} {id seq : U16} {data : Bytes}
    (h : Pings cfg r p s d id seq data) {t : U8} (ht : V4.ttl p = .ok t) {n : Nat} (hn : n < t.toNat) :
    ∃ q, hops cfg n p = .ok (some q) ∧ Pings cfg r q s d id seq data ∧
      V4.ttl q = .ok (BitVec.ofNat 8 (t.toNat - n)) ∧ OnlyAnswered p q := by
  obtain ⟨q, e1, e2, e3, e4, e5, e6, -⟩ := (C128_hops cfg p h.v4 h.header h.valid t ht n).1 hn
  obtain ⟨r1, r2, r3, r4⟩ := e2.reads h.v4 h.header
  obtain ⟨u, hu, hi⟩ := h.inner
  refine ⟨q, e1, ⟨e3, by rw [e2.header.2.1]; exact h.header, e4, ?_, r2.trans h.source, r3.trans h.destination, u,
    e6.trans hu, hi⟩, e5, e2.answered⟩
  rw [← h.protocol]
  unfold V4.protocol
  rw [idx_alike (e2.2 9 (by decide))]

/-- C133: a ping over a network.  A request crosses `n` routers (C128), is answered, and the answer crosses `m` routers
back.  With enough time to live on both ways the sender gets a valid reply from the host it asked, with its own
identifier, sequence number and data. -/
theorem C133_round_trip (cfg : Cfg) {p : Bytes} {s me : Ipv4Addr} {id seq : U16} {data : Bytes}
    (h : Pings cfg true p s me id seq data) (t : U8) (ht : V4.ttl p = .ok t) (ttl : U8) (n m : Nat)
    (hn : n < t.toNat) (hm : m < ttl.toNat) :
    ∃ a b c, hops cfg n p = .ok (some a) ∧ pong cfg me ttl a = .ok (some b) ∧ hops cfg m b = .ok (some c) ∧
      Pings cfg false c me s id seq data ∧ V4.ttl c = .ok (BitVec.ofNat 8 (ttl.toNat - m)) ∧ OnlyAnswered p c := by
  obtain ⟨a, a1, a2, a3, a4⟩ := pings_hops cfg h ht hn
  obtain ⟨b, b1, b2, b3, b4⟩ := answer_ping cfg a2 ttl
  obtain ⟨c, c1, c2, c3, c4⟩ := pings_hops cfg b2 b3 hm
  exact ⟨a, b, c, a1, b1, c1, c2, c3, (a4.trans h.header b4).trans h.header c4⟩

/-- There is only one such packet. -/
theorem ping_unique (cfg : Cfg) {r : Bool} {p q : Bytes} {s d : Ipv4Addr} {id seq : U16} {data : Bytes}
    (hp : Pings cfg r p s d id seq data) (hq : Pings cfg r q s d id seq data) (h : OnlyAnswered p q)
    (httl : V4.ttl q = V4.ttl p) : q = p := by
  obtain ⟨u, hu, hv, hn, hr, -⟩ := hp.inner
  obtain ⟨u', hu', hv', hn', hr', -⟩ := hq.inner
  obtain ⟨i1, i2⟩ := h.ihl hp.header
  obtain ⟨-, ⟨h20, h4, hh⟩, ht⟩ := V4.new_ok_iff.1 hp.v4
  obtain ⟨-, ⟨h20', h4', hh'⟩, ht'⟩ := V4.new_ok_iff.1 hq.v4
  have h5 := hp.header
  have hl := h.1
  have hmax := inner_length hp.v4 hp.header hu
  obtain ⟨hl8, hk⟩ := echo_ok hn
  obtain ⟨hl8', hk'⟩ := echo_ok hn'
  have eu : u = (p.drop (4 * field p 4 4)).take (field p 16 16 - 4 * field p 4 4) := by
    rw [V4.payload_eq (by omega) (by omega)] at hu
    rw [← Outcome.ok.inj hu, Nat.mul_comm]
  have eu' : u' = (q.drop (4 * field p 4 4)).take (field p 16 16 - 4 * field p 4 4) := by
    rw [V4.payload_eq (by omega) (by omega), i1, i2] at hu'
    rw [← Outcome.ok.inj hu', Nat.mul_comm]
  have hlu : u.length = field p 16 16 - 4 * field p 4 4 := by rw [eu, List.length_take, List.length_drop]; omega
  have hlu' : u'.length = field p 16 16 - 4 * field p 4 4 := by rw [eu', List.length_take, List.length_drop]; omega
  have hub : ∀ j, j < u.length → u[j]? = p[4 * field p 4 4 + j]? := by
    intro j hj
    rw [eu, List.getElem?_take_of_lt (by omega), List.getElem?_drop]
  have hub' : ∀ j, j < u.length → u'[j]? = q[4 * field p 4 4 + j]? := by
    intro j hj
    rw [eu', List.getElem?_take_of_lt (by omega), List.getElem?_drop]
  have hkind : field u' 0 8 = field u 0 8 := by
    have hmod : u.length < cfg.usizeMod := by (have := cfg.width; omega)
    obtain ⟨a1, -⟩ := C36_echo_fields cfg u hmod hn
    obtain ⟨b1, -⟩ := C36_echo_fields cfg u' (by omega) hn'
    rw [hr] at a1
    rw [hr'] at b1
    have e := (Outcome.ok.inj a1).symm.trans (Outcome.ok.inj b1)
    have e := decide_eq_decide.1 e
    omega
  have huu : u' = u := by
    refine icmp_unique cfg (by omega) ⟨by omega, fun j hj => ?_⟩ hv hv'
    by_cases h0 : j = 0
    · exact byte_of_field (by omega) hkind (by omega) (by omega)
    by_cases hju : j < u.length
    · rw [hub j hju, hub' j hju]
      exact h.2 _ (by omega) (by omega) (by omega) (by omega) (by omega)
    · rw [List.getElem?_eq_none (by omega), List.getElem?_eq_none (by omega)]
  have h8 : q[8]? = p[8]? := by
    have e : idx q 8 = idx p 8 := httl
    unfold idx at e
    rw [List.getElem?_eq_getElem (by omega), List.getElem?_eq_getElem (by omega)] at e ⊢
    rw [Outcome.ok.inj e]
  refine v4_unique cfg (V4.noPayload_ok_iff.2 ⟨rfl, h20, h4, hh⟩) h5 ⟨hl, fun i hi => ?_⟩ hp.valid hq.valid
  by_cases h8' : i = 8
  · rw [h8']; exact h8
  by_cases ha : i < 12
  · exact h.2 i (by omega) (by omega) (by omega) (by omega) (by omega)
  by_cases ha : i < 16
  · exact byte_of_field hl (((source_iff h20' _).1 hq.source).trans ((source_iff h20 _).1 hp.source).symm)
      (by omega) (by omega)
  by_cases ha : i < 20
  · exact byte_of_field hl (((destination_iff h20' _).1 hq.destination).trans
      ((destination_iff h20 _).1 hp.destination).symm) (by omega) (by omega)
  by_cases hb : 4 * field p 4 4 ≤ i ∧ i < 4 * field p 4 4 + u.length
  · have a1 := hub (i - 4 * field p 4 4) (by omega)
    have a2 := hub' (i - 4 * field p 4 4) (by omega)
    rw [show 4 * field p 4 4 + (i - 4 * field p 4 4) = i by omega] at a1 a2
    rw [← a1, ← a2, huu]
  · exact h.2 i (by omega) (by omega) (by omega) (by omega) (by omega)

/-! ## What is answered is what the host could have built -/

theorem echo_form (cfg : Cfg) (ops : List EchoOp) (kind : IcmpKind)
    (hk : (ops.filterMap EchoOp.kind?).getLast? = some kind) (h1 : (ops.filterMap EchoOp.payload?).length ≤ 1)
    (hs : (last EchoOp.payload? [] ops).length ≤ cfg.usizeMod / 4) :
    ∃ ck, icmpProgram cfg Dynamic.new (.echo ops) = .ok (icmpEchoHeader kind.toWire ck (last EchoOp.identifier? 0 ops)
      (last EchoOp.sequence? 0 ops) ++ last EchoOp.payload? [] ops) := by
  have e := icmpProgram_dynamic cfg (.echo ops) (by
    intro v hv
    have := payload_bound EchoOp.payload? ops h1 v hv
    rw [this] at hs
    exact hs)
  simp only [IcmpInner.abs] at e
  rw [need_dynamic (by omega), Outcome.ok_bind, echo_run ops h1, Outcome.ok_bind, hk] at e
  simp only [Option.map_some, Option.isSome_some, if_true] at e
  have hmsg : ∀ ck, EchoState.msg ⟨some kind.toWire, last EchoOp.identifier? 0 ops, last EchoOp.sequence? 0 ops,
      (ops.filterMap EchoOp.payload?).getLast?⟩ ck =
      icmpEchoHeader kind.toWire ck (last EchoOp.identifier? 0 ops) (last EchoOp.sequence? 0 ops) ++
        last EchoOp.payload? [] ops := fun _ => rfl
  rw [hmsg] at e
  obtain ⟨ck, hck⟩ := C05_icmp_checksum_total cfg (icmpEchoHeader kind.toWire 0#16 (last EchoOp.identifier? 0 ops)
    (last EchoOp.sequence? 0 ops) ++ last EchoOp.payload? [] ops)
  rw [hck, Outcome.ok_bind, hmsg] at e
  exact ⟨ck, e⟩

theorem echo_forms (k k' : U8) (ck ck' id seq : U16) (pl : Bytes) :
    (icmpEchoHeader k' ck' id seq ++ pl).length = (icmpEchoHeader k ck id seq ++ pl).length ∧
    ∀ i, i ≠ 0 → i ≠ 2 → i ≠ 3 →
      (icmpEchoHeader k' ck' id seq ++ pl)[i]? = (icmpEchoHeader k ck id seq ++ pl)[i]? := by
  refine ⟨by simp only [List.length_append]; rfl, fun i g1 g2 g3 => ?_⟩
  obtain _ | i := i
  · first | rfl | (exfalso; omega)
  obtain _ | i := i
  · first | rfl | (exfalso; omega)
  obtain _ | i := i
  · first | rfl | (exfalso; omega)
  obtain _ | i := i
  · first | rfl | (exfalso; omega)
  obtain _ | i := i
  · first | rfl | (exfalso; omega)
  obtain _ | i := i
  · first | rfl | (exfalso; omega)
  obtain _ | i := i
  · first | rfl | (exfalso; omega)
  obtain _ | i := i
  · first | rfl | (exfalso; omega)
  rfl

theorem answer_forms {f : Ipv4Fields} (hf : Ipv4Fields.ok f) (tot ck ck' : U16) (ttl : U8) (s d : Ipv4Addr)
    {x x' : Bytes} (hx : x'.length = x.length ∧ ∀ i, i ≠ 0 → i ≠ 2 → i ≠ 3 → x'[i]? = x[i]?)
    (h5 : field (ipv4Header f tot ck ++ x) 4 4 = 5) :
    OnlyAnswered (ipv4Header f tot ck ++ x)
      (ipv4Header { f with ttl := ttl, src := s.octets, dst := d.octets } tot ck' ++ x') := by
  have hl := hf.length tot ck
  have hl' : (ipv4Header { f with ttl := ttl, src := s.octets, dst := d.octets } tot ck').length = 20 := rfl
  refine ⟨by rw [List.length_append, List.length_append, hl, hl', hx.1], fun i g0 g1 g2 g3 g4 => ?_⟩
  rw [h5] at g2 g3 g4
  by_cases hi : i < 20
  · rw [List.getElem?_append_left (by omega), List.getElem?_append_left (by omega)]
    rcases (show i = 0 ∨ i = 1 ∨ i = 2 ∨ i = 3 ∨ i = 4 ∨ i = 5 ∨ i = 6 ∨ i = 7 ∨ i = 9 by omega) with
      rfl | rfl | rfl | rfl | rfl | rfl | rfl | rfl | rfl <;> rfl
  · rw [List.getElem?_append_right (by omega), List.getElem?_append_right (by omega), hl, hl']
    exact hx.2 _ (by omega) (by omega) (by omega)

/-- C133 with C48: an echo message built with this crate, of which `kind` was the last kind asked for. -/
theorem C133_built (cfg : Cfg) (vops : List V4Op) (ops : List EchoOp) (kind : IcmpKind)
    (hr : ∀ op ∈ vops, op.InRange) (h0 : vops.filterMap V4Op.payload? = [])
    (hk : (ops.filterMap EchoOp.kind?).getLast? = some kind) (h1 : (ops.filterMap EchoOp.payload?).length ≤ 1)
    (hsize : 28 + (last EchoOp.payload? [] ops).length ≤ 65535) :
    ∃ out, ipv4Program cfg Dynamic.new vops (.icmp (.echo ops)) = .ok out ∧
      Pings cfg (kind == .echoRequest) out (last V4Op.source? .zero vops) (last V4Op.destination? .zero vops)
        (last EchoOp.identifier? 0 ops) (last EchoOp.sequence? 0 ops) (last EchoOp.payload? [] ops) ∧
      V4.ttl out = .ok (last V4Op.ttl? 0 vops) := by
  obtain ⟨out, d, kind', e, hk', hv, hd⟩ := C48_echo_in_ipv4 cfg vops ops hr h0 (by
    have := List.mem_of_getLast? hk
    rw [List.mem_filterMap] at this
    obtain ⟨op, h1, h2⟩ := this
    exact ⟨op, h1, by rw [h2]; rfl⟩) h1 hsize
  rw [hk] at hk'
  obtain rfl := Option.some.inj hk'
  obtain ⟨h5, -⟩ := reads_behind hv
  refine ⟨out, e, ⟨hv.accepted, by omega, hv.valid, hv.protocol, hv.source, hv.destination, d, hv.payload, hd.valid,
    hd.typed, hd.request, ?_, hd.identifier, hd.sequence, hd.payload⟩, hv.ttl⟩
  rw [hd.reply]
  rcases echo_kind hk with rfl | rfl <;> rfl

/-- C133 with C48: the answer to a request built with this crate is, byte for byte, the packet the host would have
built itself for a reply to the sender, with the fields, identifier, sequence number and data of the request. -/
theorem C133_as_built (cfg : Cfg) (vops vops' : List V4Op) (ops ops' : List EchoOp)
    (hr : ∀ op ∈ vops, op.InRange) (hr' : ∀ op ∈ vops', op.InRange)
    (h0 : vops.filterMap V4Op.payload? = []) (h0' : vops'.filterMap V4Op.payload? = [])
    (h1 : (ops.filterMap EchoOp.payload?).length ≤ 1) (h1' : (ops'.filterMap EchoOp.payload?).length ≤ 1)
    (hk : (ops.filterMap EchoOp.kind?).getLast? = some .echoRequest)
    (hk' : (ops'.filterMap EchoOp.kind?).getLast? = some .echoReply)
    (hsize : 28 + (last EchoOp.payload? [] ops).length ≤ 65535) (ttl : U8)
    (hv' : V4Op.asked vops' 1 = { V4Op.asked vops 1 with
      ttl := ttl, src := (last V4Op.destination? .zero vops).octets, dst := (last V4Op.source? .zero vops).octets })
    (hi' : last EchoOp.identifier? 0 ops' = last EchoOp.identifier? 0 ops)
    (hq' : last EchoOp.sequence? 0 ops' = last EchoOp.sequence? 0 ops)
    (hp' : last EchoOp.payload? [] ops' = last EchoOp.payload? [] ops) :
    ∃ out q, ipv4Program cfg Dynamic.new vops (.icmp (.echo ops)) = .ok out ∧
      pong cfg (last V4Op.destination? .zero vops) ttl out = .ok (some q) ∧
      ipv4Program cfg Dynamic.new vops' (.icmp (.echo ops')) = .ok q := by
  have hsize' : 28 + (last EchoOp.payload? [] ops').length ≤ 65535 := by rw [hp']; exact hsize
  have hw : cfg.usizeMod / 4 ≥ 65535 := by (have := cfg.width; omega)
  obtain ⟨out, e, hping, -⟩ := C133_built cfg vops ops _ hr h0 hk h1 hsize
  obtain ⟨out', e', hping', ht'⟩ := C133_built cfg vops' ops' _ hr' h0' hk' h1' hsize'
  obtain ⟨q, q1, q2, q3, q4⟩ := answer_ping cfg hping ttl
  refine ⟨out, q, e, q1, ?_⟩
  obtain ⟨c, ec⟩ := echo_form cfg ops _ hk h1 (by omega)
  obtain ⟨c', ec'⟩ := echo_form cfg ops' _ hk' h1' (by omega)
  have hsane : ∀ o : List EchoOp, (o.filterMap EchoOp.payload?).length ≤ 1 →
      28 + (last EchoOp.payload? [] o).length ≤ 65535 → (Inner.icmp (.echo o)).Sane cfg := by
    intro o ho1 ho v hv
    have := payload_bound EchoOp.payload? o ho1 v hv
    rw [this] at ho
    exact Nat.le_trans (by omega) hw
  have b := C102_icmp_in_ipv4 cfg vops (.echo ops) _ hr h0 (hsane ops h1 hsize) ec
  have b' := C102_icmp_in_ipv4 cfg vops' (.echo ops') _ hr' h0' (hsane ops' h1' hsize') ec'
  rw [hi', hq', hp', hv'] at b'
  have b := Outcome.ok.inj (e.symm.trans b)
  have b' := Outcome.ok.inj (e'.symm.trans b')
  have hl : ∀ (k : U8) (c i s : U16) (pl : Bytes), (icmpEchoHeader k c i s ++ pl).length = 8 + pl.length :=
    fun k c i s pl => by rw [List.length_append]; rfl
  unfold ipv4Packet at b b'
  rw [hl] at b b'
  have h5 : field out 4 4 = 5 := by
    obtain ⟨o2, d, k2, e2, -, hv, -⟩ := C48_echo_in_ipv4 cfg vops ops hr h0 (by
      have := List.mem_of_getLast? hk
      rw [List.mem_filterMap] at this
      obtain ⟨op, h1, h2⟩ := this
      exact ⟨op, h1, by rw [h2]; rfl⟩) h1 hsize
    obtain rfl := Outcome.ok.inj (e.symm.trans e2)
    exact (reads_behind hv).1
  have hforms : OnlyAnswered out out' := by
    rw [b] at h5 ⊢
    rw [b']
    exact answer_forms (asked_ok vops 1) _ _ _ ttl _ _ (echo_forms _ _ _ _ _ _ _) h5
  have hsrc : last V4Op.source? .zero vops' = last V4Op.destination? .zero vops :=
    octets_inj (by rw [show (last V4Op.source? .zero vops').octets = _ from congrArg Ipv4Fields.src hv'])
  have hdst : last V4Op.destination? .zero vops' = last V4Op.source? .zero vops :=
    octets_inj (by rw [show (last V4Op.destination? .zero vops').octets = _ from congrArg Ipv4Fields.dst hv'])
  have httl : last V4Op.ttl? 0 vops' = ttl := congrArg Ipv4Fields.ttl hv'
  rw [hsrc, hdst, hi', hq', hp'] at hping'
  rw [httl] at ht'
  rw [e', ping_unique cfg q2 hping' ((q4.symm hping.header).trans q2.header hforms) (ht'.trans q3.symm)]

/-! ## Concrete cases -/

theorem sample_ping (cfg : Cfg) : Pings cfg true Sample.echoPacket ⟨10, 0, 0, 1⟩ ⟨10, 0, 0, 2⟩ 42 1 [1, 2, 3, 4] := by
  obtain ⟨out, e, h, -⟩ := C133_built cfg Sample.vops Sample.echoOps .echoRequest (by call_by_call) (by call_by_call)
    (by call_by_call) (by call_by_call) (by decide)
  have e2 : ipv4Program cfg Dynamic.new Sample.vops (.icmp (.echo Sample.echoOps)) = .ok Sample.echoPacket := by
    in_every_build
  obtain rfl := Outcome.ok.inj (e.symm.trans e2)
  exact h

/-- The answer to the sample request. -/
def samplePong : Bytes := [69, 0, 0, 32, 0, 7, 0, 0, 50, 1, 116, 212, 10, 0, 0, 2, 10, 0, 0, 1, 0, 0, 251, 206, 0, 42, 0,
  1, 1, 2, 3, 4]

example (cfg : Cfg) : pong cfg ⟨10, 0, 0, 2⟩ 50 Sample.echoPacket = .ok (some samplePong) := by in_every_build

/-- Not for this host: nothing is sent. -/
example (cfg : Cfg) : pong cfg ⟨10, 0, 0, 3⟩ 50 Sample.echoPacket = .ok none := by in_every_build
/-- Not an echo message: nothing is sent. -/
example (cfg : Cfg) : pong cfg ⟨10, 0, 0, 2⟩ 50 Sample.udpPacket = .ok none := by in_every_build

theorem sample_pong (cfg : Cfg) : Pings cfg false samplePong ⟨10, 0, 0, 2⟩ ⟨10, 0, 0, 1⟩ 42 1 [1, 2, 3, 4] := by
  obtain ⟨q, e, h, -⟩ := answer_ping cfg (sample_ping cfg) 50
  have e2 : pong cfg ⟨10, 0, 0, 2⟩ 50 Sample.echoPacket = .ok (some samplePong) := by in_every_build
  obtain rfl := Option.some.inj (Outcome.ok.inj (e.symm.trans e2))
  exact h

example (cfg : Cfg) := (C133_answer cfg ⟨10, 0, 0, 2⟩ 50 Sample.echoPacket (by decide) (by decide)).1 _ _ _ _
  (sample_ping cfg)
example (cfg : Cfg) := C133_no_loop cfg (sample_pong cfg) ⟨10, 0, 0, 1⟩ 50
example (cfg : Cfg) := C133_round_trip cfg (sample_ping cfg) 64 (by decide) 50 7 9 (by decide) (by decide)
example (cfg : Cfg) := C133_built cfg Sample.vops Sample.echoOps .echoRequest (by call_by_call) (by call_by_call)
  (by call_by_call) (by call_by_call) (by decide)
example (cfg : Cfg) := C133_as_built cfg Sample.vops
  (Sample.vops ++ [.ttl 50, .source ⟨10, 0, 0, 2⟩, .destination ⟨10, 0, 0, 1⟩]) Sample.echoOps (Sample.echoOps ++ [.reply])
  (by call_by_call) (by call_by_call) (by call_by_call) (by call_by_call) (by call_by_call) (by call_by_call) rfl rfl
  (by decide) 50 rfl rfl rfl rfl

end Verif.Props
