import Verif.Props.Behind
import Verif.Props.Encode

/-!
# IPv4 packets in a byte stream (C134)

A receiver that gets the bytes of a stream in chunks and takes the packets out of it.
-/

namespace Verif.Props
open Verif Verif.Spec

/-- The packets at the beginning of `b`, and what is left: the bytes of a packet that is not complete, or the error
the receiver stops with.

```text
let mut packets = vec![];
loop {
    let packet = match ip::v4::Packet::new(b) {
        Ok(packet)                      => packet,
        Err(Error(SmallBuffer, _))      => return (packets, Ok(b)),
        Err(error)                      => return (packets, Err(error)),
    };
    let size = packet.length() as usize;
    if size < 20 || size < packet.header() as usize * 4 {
        return (packets, Err(InvalidPacket.into()));
    }
    packets.push(&b[..size]);
    b = &b[size..];
}
```
-/
def drain (b : Bytes) : List Bytes × Outcome Bytes :=
  match V4.new b with
  | .err .smallBuffer => ([], .ok b)
  | .err e => ([], .err e)
  | .panic => ([], .panic)
  | .ok p =>
    match V4.length p, V4.ihl p with
    | .ok n, .ok h =>
      if hn : n.toNat < 20 ∨ n.toNat < h.toNat * 4 then ([], .err .invalidPacket)
      else if hb : n.toNat ≤ b.length then
        (b.take n.toNat :: (drain (b.drop n.toNat)).1, (drain (b.drop n.toNat)).2)
      else ([], .panic)
    | .err e, _ => ([], .err e)
    | .panic, _ => ([], .panic)
    | _, .err e => ([], .err e)
    | _, .panic => ([], .panic)
termination_by b.length
decreasing_by all_goals (rw [List.length_drop]; omega)

/-- The receiver: `rest` are the bytes kept from before, `cs` the chunks still to come.  After an error it reads no
more. -/
def receive : List Bytes → Bytes → List Bytes × Outcome Bytes
  | [], rest => ([], .ok rest)
  | c :: cs, rest =>
    match drain (rest ++ c) with
    | (ps, .ok rest') => (ps ++ (receive cs rest').1, (receive cs rest').2)
    | (ps, .err e) => (ps, .err e)
    | (ps, .panic) => (ps, .panic)

/-- An accepted packet whose total length is its size. -/
def Whole (p : Bytes) : Prop := V4.new p = .ok p ∧ ∃ n, V4.length p = .ok n ∧ n.toNat = p.length

/-- The bytes may be the beginning of a packet that is not complete. -/
def Incomplete (b : Bytes) : Prop := V4.new b = .err .smallBuffer

/-- The bytes are not the beginning of a packet whose lengths make sense; `e` is the error. -/
def Broken (b : Bytes) (e : Error) : Prop :=
  V4.new b = .err e ∧ e ≠ .smallBuffer ∨
  e = .invalidPacket ∧ V4.new b = .ok b ∧ ∃ n h, V4.length b = .ok n ∧ V4.ihl b = .ok h ∧
    (n.toNat < 20 ∨ n.toNat < 4 * h.toNat)

theorem whole_iff {p : Bytes} : Whole p ↔ V4.PacketOk p ∧ field p 16 16 = p.length := by
  constructor
  · rintro ⟨h, n, h1, h2⟩
    have hok := (V4.new_ok_iff.1 h).2
    have hl := hok.long
    rw [V4.length_field (by omega)] at h1
    obtain rfl := Outcome.ok.inj h1
    rw [V4.length_toNat] at h2
    exact ⟨hok, h2⟩
  · rintro ⟨hok, h⟩
    have hl := hok.long
    exact ⟨V4.new_ok_iff.2 ⟨rfl, hok⟩, _, V4.length_field (by omega), by rw [V4.length_toNat, h]⟩

/-! ## One step -/

theorem drain_incomplete {b : Bytes} (h : Incomplete b) : drain b = ([], .ok b) := by
  unfold Incomplete at h
  rw [drain, h]

theorem drain_broken {b : Bytes} {e : Error} (h : Broken b e) : drain b = ([], .err e) := by
  rcases h with ⟨h, hne⟩ | ⟨rfl, h, n, k, h1, h2, h3⟩
  · rw [drain, h]
    cases e <;> first | rfl | exact absurd rfl hne
  · rw [drain, h]
    simp only [h1, h2]
    rw [dif_pos (by omega)]

theorem drain_whole {p : Bytes} (h : Whole p) (b : Bytes) : drain (p ++ b) = (p :: (drain b).1, (drain b).2) := by
  obtain ⟨hok, ht⟩ := whole_iff.1 h
  have hl := hok.long; have hh := hok.header
  obtain ⟨hn, n, hlen, hnl⟩ := h
  obtain ⟨a1, -, a2, -, -, a3, -⟩ := C88_v4_padding ⟨true, true, true⟩ p b hn
  have hi := V4.ihl_field (b := p) (by omega)
  have hit := V4.ihl_toNat p
  rw [drain, a1]
  simp only [a2, a3, hlen, hi]
  rw [dif_neg (by rw [hit]; omega), dif_pos (by rw [List.length_append]; omega), hnl, List.drop_left, List.take_left]

/-- Every byte string begins with a whole packet, or is incomplete or broken. -/
theorem stream_cases (b : Bytes) :
    Incomplete b ∨ Broken b .invalidPacket ∨ ∃ p rest, b = p ++ rest ∧ Whole p := by
  have hn := V4.new_eq b
  by_cases h1 : b.length < 20
  · left; unfold Incomplete; rw [hn, if_pos h1]
  rw [if_neg h1] at hn
  by_cases h2 : field b 0 4 ≠ 4
  · right; left; left; rw [hn, if_pos h2]; exact ⟨rfl, (fun h => (by cases h))⟩
  rw [if_neg h2] at hn
  by_cases h3 : b.length < field b 4 4 * 4 ∨ b.length < field b 16 16
  · left; unfold Incomplete; rw [hn, if_pos h3]
  rw [if_neg h3] at hn
  have hlen := V4.length_field (b := b) (by omega)
  have hlt := V4.length_toNat b
  have hi := V4.ihl_field (b := b) (by omega)
  have hit := V4.ihl_toNat b
  by_cases h4 : field b 16 16 < 20 ∨ field b 16 16 < 4 * field b 4 4
  · right; left; right
    exact ⟨rfl, hn, _, _, hlen, hi, by rw [hlt, hit]; exact h4⟩
  · right; right
    refine ⟨b.take (field b 16 16), b.drop (field b 16 16), (List.take_append_drop _ _).symm, ?_⟩
    have hl : (b.take (field b 16 16)).length = field b 16 16 := by rw [List.length_take]; omega
    have hf : ∀ s w, s + w ≤ 160 → field (b.take (field b 16 16)) s w = field b s w := by
      intro s w hsw
      exact field_congr fun i _ hi => bitAt_congr (List.getElem?_take_of_lt (by omega))
    exact whole_iff.2 ⟨⟨⟨by omega, by rw [hf 0 4 (by omega)]; omega, by rw [hf 4 4 (by omega)]; omega⟩,
      by rw [hf 16 16 (by omega)]; omega⟩, by rw [hf 16 16 (by omega)]; omega⟩

theorem whole_long {p : Bytes} (h : Whole p) : 20 ≤ p.length := (whole_iff.1 h).1.long

theorem drain_list {ps : List Bytes} (h : ∀ p ∈ ps, Whole p) (b : Bytes) :
    drain (ps.flatten ++ b) = (ps ++ (drain b).1, (drain b).2) := by
  induction ps with
  | nil => rfl
  | cons p ps ih =>
    rw [List.flatten_cons, List.append_assoc, drain_whole (h p List.mem_cons_self),
      ih fun q hq => h q (List.mem_cons_of_mem _ hq)]
    rfl

/-- Every byte string is a list of whole packets and something that is incomplete or broken. -/
theorem stream_split (b : Bytes) : ∃ (ps : List Bytes) (rest : Bytes), (∀ p ∈ ps, Whole p) ∧ b = ps.flatten ++ rest ∧
    (Incomplete rest ∨ Broken rest .invalidPacket) := by
  induction hk : b.length using Nat.strongRecOn generalizing b with
  | ind k ih =>
    rcases stream_cases b with h | h | ⟨p, rest, rfl, h⟩
    · exact ⟨[], b, (fun _ hp => (by cases hp)), rfl, .inl h⟩
    · exact ⟨[], b, (fun _ hp => (by cases hp)), rfl, .inr h⟩
    · have := whole_long h
      rw [List.length_append] at hk
      obtain ⟨ps, rest', h1, h2, h3⟩ := ih rest.length (by omega) rest rfl
      refine ⟨p :: ps, rest', fun q hq => ?_, by rw [h2, List.flatten_cons, List.append_assoc], h3⟩
      rcases List.mem_cons.1 hq with rfl | hq
      · exact h
      · exact h1 q hq

theorem broken_append {b : Bytes} (h : Broken b .invalidPacket) (c : Bytes) : Broken (b ++ c) .invalidPacket := by
  rcases h with ⟨h, -⟩ | ⟨-, h, n, k, h1, h2, h3⟩
  · left
    refine ⟨?_, (fun h => (by cases h))⟩
    rw [V4.new_eq] at h ⊢
    split at h
    · cases h
    · split at h
      · rename_i a1 a2
        rw [if_neg (by rw [List.length_append]; omega), if_pos (by rw [field_pad c (by omega)]; exact a2)]
      · split at h <;> cases h
  · right
    obtain ⟨a1, -, a2, -, -, a3, -⟩ := C88_v4_padding ⟨true, true, true⟩ b c h
    exact ⟨rfl, a1, n, k, a3.trans h1, a2.trans h2, h3⟩

/-! ## C134 -/

/-- C134: exactly what the receiver makes of any bytes.  It never panics; it takes out the whole packets at the
beginning and stops with the rest as soon as the rest is incomplete, or with `InvalidPacket` if it is broken. -/
theorem C134_exact (b : Bytes) :
    (∀ ps rest, drain b = (ps, .ok rest) ↔ (∀ p ∈ ps, Whole p) ∧ b = ps.flatten ++ rest ∧ Incomplete rest) ∧
    (∀ ps e, drain b = (ps, .err e) ↔ e = .invalidPacket ∧ (∀ p ∈ ps, Whole p) ∧
      ∃ rest, b = ps.flatten ++ rest ∧ Broken rest .invalidPacket) ∧
    ∀ ps, drain b ≠ (ps, .panic) := by
  obtain ⟨qs, r, h1, h2, h3⟩ := stream_split b
  have e := drain_list h1 r
  rw [← h2] at e
  rcases h3 with h3 | h3
  · rw [drain_incomplete h3, List.append_nil] at e
    refine ⟨fun ps rest => ⟨fun h => ?_, fun ⟨a1, a2, a3⟩ => ?_⟩, fun ps e' => ⟨fun h => ?_, fun ⟨a0, a1, rest, a2, a3⟩ => ?_⟩,
      fun ps h => ?_⟩
    · rw [e] at h; cases h; exact ⟨h1, h2, h3⟩
    · rw [a2, drain_list a1, drain_incomplete a3, List.append_nil]
    · rw [e] at h; cases h
    · rw [a2, drain_list a1, drain_broken a3, List.append_nil, a0]
    · rw [e] at h; cases h
  · rw [drain_broken h3, List.append_nil] at e
    refine ⟨fun ps rest => ⟨fun h => ?_, fun ⟨a1, a2, a3⟩ => ?_⟩, fun ps e' => ⟨fun h => ?_, fun ⟨a0, a1, rest, a2, a3⟩ => ?_⟩,
      fun ps h => ?_⟩
    · rw [e] at h; cases h
    · rw [a2, drain_list a1, drain_incomplete a3, List.append_nil]
    · rw [e] at h; cases h; exact ⟨rfl, h1, r, h2, h3⟩
    · rw [a2, drain_list a1, drain_broken a3, List.append_nil, a0]
    · rw [e] at h; cases h

theorem receive_drain (cs : List Bytes) : ∀ rest, Incomplete rest → receive cs rest = drain (rest ++ cs.flatten) := by
  induction cs with
  | nil => intro rest h; rw [List.flatten_nil, List.append_nil, drain_incomplete h]; rfl
  | cons c cs ih =>
    intro rest _
    rw [receive, List.flatten_cons, ← List.append_assoc]
    obtain ⟨ps, r, h1, h2, h3⟩ := stream_split (rest ++ c)
    rw [h2, drain_list h1, List.append_assoc, drain_list h1]
    rcases h3 with h3 | h3
    · rw [drain_incomplete h3]
      simp only [List.append_nil]
      rw [ih r h3]
    · rw [drain_broken h3, drain_broken (broken_append h3 _)]

/-- C134: it does not matter how the bytes of the stream are cut into chunks, for any bytes at all. -/
theorem C134_chunks (cs : List Bytes) : receive cs [] = drain cs.flatten := receive_drain cs [] (rfl)

/-- C134: whole packets sent one behind another arrive one by one, byte for byte, in any chunks, with nothing left. -/
theorem C134_stream (ps cs : List Bytes) (h : ∀ p ∈ ps, Whole p) (hc : cs.flatten = ps.flatten) :
    receive cs [] = (ps, .ok []) := by
  rw [C134_chunks, hc, ← List.append_nil ps.flatten, drain_list h, drain_incomplete (b := []) rfl]
  rw [List.append_nil]

/-- C134: at every moment before, the packets that are complete have been taken out, and the bytes kept are the
beginning of the next one. -/
theorem C134_prefix (ps : List Bytes) (h : ∀ p ∈ ps, Whole p) (p more : Bytes) (hp : Whole (p ++ more)) (hm : more ≠ [])
    (cs : List Bytes) (hc : cs.flatten = ps.flatten ++ p) : receive cs [] = (ps, .ok p) := by
  obtain ⟨⟨⟨hl, hv, hh⟩, -⟩, ht⟩ := whole_iff.1 hp
  have hlen : p.length < (p ++ more).length := by
    rw [List.length_append]
    have := List.length_pos_iff.2 hm
    omega
  have hi : Incomplete p := by
    unfold Incomplete
    rw [V4.new_eq]
    by_cases h20 : p.length < 20
    · rw [if_pos h20]
    · rw [field_pad more (by omega)] at hv
      rw [field_pad more (by omega)] at ht
      rw [if_neg h20, if_neg (by omega), if_pos (by omega)]
  rw [C134_chunks, hc, drain_list h, drain_incomplete hi, List.append_nil]

/-- C134: no two lists of whole packets have the same bytes. -/
theorem C134_unique (ps qs : List Bytes) (hp : ∀ p ∈ ps, Whole p) (hq : ∀ q ∈ qs, Whole q)
    (h : ps.flatten = qs.flatten) : ps = qs := by
  have e1 := C134_stream ps [ps.flatten] hp (by simp)
  have e2 := C134_stream qs [ps.flatten] hq (by simp [h])
  exact congrArg Prod.fst (e1.symm.trans e2)

/-- What the builders build is whole. -/
theorem reads_whole {cfg : Cfg} {vops : List V4Op} {proto : IpProtocol} {body out : Bytes}
    (h : ReadsV4 cfg vops proto body out) : Whole out := by
  obtain ⟨n, h1, h2⟩ := h.length
  exact ⟨h.accepted, n, h1, by rw [h2, h.size]⟩

/-- What goes into one packet of a stream: an IPv4 program with nothing inside, UDP, TCP or ICMP echo (C43, C45, C46,
C48). -/
inductive Sends (cfg : Cfg) (p : Bytes) : Prop where
  | empty (vops : List V4Op) (hr : ∀ op ∈ vops, op.InRange) (h0 : vops.filterMap V4Op.payload? = [])
      (hp : ipv4Program cfg Dynamic.new vops .plain = .ok p)
  | udp (vops : List V4Op) (ops : List UdpOp) (hr : ∀ op ∈ vops, op.InRange) (h0 : vops.filterMap V4Op.payload? = [])
      (h1 : (ops.filterMap UdpOp.payload?).length ≤ 1) (hsize : 28 + (last UdpOp.payload? [] ops).length ≤ 65535)
      (hp : ipv4Program cfg Dynamic.new vops (.udp ops) = .ok p)
  | tcp (vops : List V4Op) (ops : List TcpOp) (hr : ∀ op ∈ vops, op.InRange) (h0 : vops.filterMap V4Op.payload? = [])
      (h1 : (ops.filterMap TcpOp.payload?).length ≤ 1) (hl : TcpOp.FlagsLast ops)
      (hsize : 40 + (last TcpOp.payload? [] ops).length ≤ 65535)
      (hodd : (last TcpOp.payload? [] ops).length % 2 = 0 ∨ cfg.eofAdvances = false)
      (hp : ipv4Program cfg Dynamic.new vops (.tcp ops) = .ok p)
  | echo (vops : List V4Op) (ops : List EchoOp) (hr : ∀ op ∈ vops, op.InRange) (h0 : vops.filterMap V4Op.payload? = [])
      (hk : ∃ op ∈ ops, op.kind?.isSome) (h1 : (ops.filterMap EchoOp.payload?).length ≤ 1)
      (hsize : 28 + (last EchoOp.payload? [] ops).length ≤ 65535)
      (hp : ipv4Program cfg Dynamic.new vops (.icmp (.echo ops)) = .ok p)

theorem Sends.whole {cfg : Cfg} {p : Bytes} (h : Sends cfg p) : Whole p := by
  cases h with
  | empty vops hr h0 hp =>
    obtain ⟨out, d, e, -, hv, -⟩ := C43_v4_build cfg vops hr h0
    obtain rfl := Outcome.ok.inj (e.symm.trans hp)
    exact reads_whole hv
  | udp vops ops hr h0 h1 hsize hp =>
    obtain ⟨out, d, e, hv, -⟩ := C45_udp_build cfg vops ops hr h0 h1 hsize
    obtain rfl := Outcome.ok.inj (e.symm.trans hp)
    exact reads_whole hv
  | tcp vops ops hr h0 h1 hl hsize hodd hp =>
    obtain ⟨out, d, e, hv, -⟩ := C46_tcp_build cfg vops ops hr h0 h1 hl hsize hodd
    obtain rfl := Outcome.ok.inj (e.symm.trans hp)
    exact reads_whole hv
  | echo vops ops hr h0 hk h1 hsize hp =>
    obtain ⟨out, d, k, e, -, hv, -⟩ := C48_echo_in_ipv4 cfg vops ops hr h0 hk h1 hsize
    obtain rfl := Outcome.ok.inj (e.symm.trans hp)
    exact reads_whole hv

/-- C134 with C43, C45, C46 and C48: packets built with this crate, one behind another, arrive as they were built, in any
chunks. -/
theorem C134_built (cfg : Cfg) (ps cs : List Bytes) (h : ∀ p ∈ ps, Sends cfg p) (hc : cs.flatten = ps.flatten) :
    receive cs [] = (ps, .ok []) := C134_stream ps cs (fun p hp => (h p hp).whole) hc

/-- C134: a packet of the stream can be edited where it stands, through a view of all the bytes from it on: a
`checked()` session succeeds, and the stream is the same with this packet replaced by what the session makes of it
alone, which is valid. -/
theorem C134_edit (cfg : Cfg) (before after : List Bytes) (p : Bytes) (hb : ∀ q ∈ before, Whole q)
    (ha : ∀ q ∈ after, Whole q) (hp : Whole p) (h5 : 5 ≤ field p 4 4) (ops : List V4.Set) :
    ∃ p', V4.new (p ++ after.flatten) = .ok (p ++ after.flatten) ∧
      V4.checkedRun cfg ops (p ++ after.flatten) = (.ok (), p' ++ after.flatten) ∧
      V4.checkedRun cfg ops p = (.ok (), p') ∧ V4.isValid cfg p' = .ok true ∧
      ∀ cs : List Bytes, cs.flatten = before.flatten ++ (p' ++ after.flatten) →
        receive cs [] = (before ++ p' :: after, .ok []) := by
  have hok := (V4.new_ok_iff.1 hp.1).2
  have hleg : Legal p := ⟨V4.noPayload_ok_iff.2 ⟨rfl, hok.toHeaderOk⟩, h5⟩
  obtain ⟨p', e1, e2, e3, -⟩ := C19_v4_checked cfg p hleg ops
  obtain ⟨p'', f1, f2, -, f3, f4, -⟩ := C19_v4_checked_fields cfg p hleg ops
  obtain rfl : p' = p'' := congrArg Prod.snd (e1.symm.trans f1)
  have hpad : V4.checkedRun cfg ops (p ++ after.flatten) = _ := C111_v4_session cfg p after.flatten hp.1 h5 ops
  rw [e1] at hpad
  have hw : Whole p' := by
    obtain ⟨-, ht⟩ := whole_iff.1 hp
    exact whole_iff.2 ⟨⟨(V4.noPayload_ok_iff.1 e3.1).2, by omega⟩, by omega⟩
  refine ⟨p', (C88_v4_padding cfg p after.flatten hp.1).1, hpad, e1, e2, fun cs hc => ?_⟩
  refine C134_stream _ cs (fun q hq => ?_) (by rw [hc]; simp)
  rcases List.mem_append.1 hq with hq | hq
  · exact hb q hq
  · rcases List.mem_cons.1 hq with rfl | hq
    · exact hw
    · exact ha q hq

/-! ## Concrete cases -/

theorem sample_whole : ∀ p ∈ [Sample.udpPacket, Sample.echoPacket, Sample.udpPacket], Whole p := by
  intro p hp
  simp only [List.mem_cons, List.not_mem_nil, or_false] at hp
  rcases hp with rfl | rfl | rfl <;> exact ⟨by decide, 32, by decide, by decide⟩

/-- Three packets in chunks of 5, 40 and 51 bytes. -/
example := C134_stream [Sample.udpPacket, Sample.echoPacket, Sample.udpPacket]
  [Sample.udpPacket.take 5, Sample.udpPacket.drop 5 ++ Sample.echoPacket.take 13,
    Sample.echoPacket.drop 13 ++ Sample.udpPacket] sample_whole (by decide)
example := C134_prefix [Sample.udpPacket, Sample.echoPacket, Sample.udpPacket] sample_whole
  (Sample.udpPacket.take 25) (Sample.udpPacket.drop 25) ⟨by decide, 32, by decide, by decide⟩ (by decide)
  [Sample.udpPacket ++ Sample.echoPacket, Sample.udpPacket ++ Sample.udpPacket.take 25] (by decide)
example := C134_unique [Sample.udpPacket, Sample.echoPacket, Sample.udpPacket]
  [Sample.udpPacket, Sample.echoPacket, Sample.udpPacket] sample_whole sample_whole rfl
/-- A packet that claims to be three bytes long is broken. -/
example : Broken ([0x45, 0, 0, 3] ++ Sample.udpPacket) .invalidPacket :=
  .inr ⟨rfl, by decide, 3, 5, by decide, by decide, by decide⟩

theorem sample_sends (cfg : Cfg) : ∀ p ∈ [Sample.udpPacket, Sample.echoPacket], Sends cfg p := by
  intro p hp
  simp only [List.mem_cons, List.not_mem_nil, or_false] at hp
  rcases hp with rfl | rfl
  · exact .udp Sample.vops Sample.uops (by call_by_call) (by call_by_call) (by call_by_call) (by decide)
      (by in_every_build)
  · exact .echo Sample.vops Sample.echoOps (by call_by_call) (by call_by_call) (by call_by_call) (by call_by_call)
      (by decide) (by in_every_build)

example (cfg : Cfg) := C134_built cfg [Sample.udpPacket, Sample.echoPacket]
  [Sample.udpPacket.take 7, Sample.udpPacket.drop 7, Sample.echoPacket] (sample_sends cfg) (by decide)
example (cfg : Cfg) := C134_edit cfg [Sample.echoPacket] [Sample.echoPacket] Sample.udpPacket
  (fun p hp => sample_whole p (by simp_all)) (fun p hp => sample_whole p (by simp_all)) (sample_whole _ (by simp))
  (by decide) [.ttl 3, .source ⟨1, 2, 3, 4⟩]

end Verif.Props
