import Verif.Props.Reparse
import Verif.Props.Nested
import Verif.Props.Sessions
import Verif.Samples

/-!
# C111: writing to a packet with bytes behind it, and through `as_packet_mut()` of a packet

C88 is about reading, this is about writing.
-/

namespace Verif.Props
open Verif Verif.Spec

/-- The bytes `pad` behind a packet `b` play no part in `f`: the outcome is the same, so are the bytes of the packet
afterwards, and `pad` stays as it was. -/
def PadStays (f : Mut Bytes Unit) (b pad : Bytes) : Prop := f (b ++ pad) = ((f b).1, (f b).2 ++ pad)

theorem put_pad {b pad bs : Bytes} {off : Nat} (h : off + bs.length ≤ b.length) :
    put (b ++ pad) off bs = put b off bs ++ pad := by
  unfold put
  rw [List.take_append_of_le_length (by omega), List.drop_append_of_le_length h, List.append_assoc, List.append_assoc,
    List.append_assoc]

theorem cursorWrite_pad {b pad bs : Bytes} {off : Nat} (h : off + bs.length ≤ b.length) :
    PadStays (cursorWrite off bs) b pad := by
  unfold PadStays cursorWrite
  have hl : (b ++ pad).length = b.length + pad.length := List.length_append
  rw [if_pos (by omega), if_pos (by omega), if_pos (by omega), if_pos (by omega), put_pad h]

theorem setIdx_pad {b pad : Bytes} {i : Nat} {v : U8} (h : i < b.length) : PadStays (setIdx i v) b pad := by
  unfold PadStays setIdx
  rw [if_pos (by rw [List.length_append]; omega), if_pos h, put_pad (by simp; omega)]

theorem copyRange_pad {b pad bs : Bytes} {i j : Nat} (h : j ≤ b.length) : PadStays (copyRange i j bs) b pad := by
  unfold PadStays copyRange
  have hl : (b ++ pad).length = b.length + pad.length := List.length_append
  by_cases hc : i ≤ j ∧ bs.length = j - i
  · rw [if_pos ⟨hc.1, by omega, hc.2⟩, if_pos ⟨hc.1, h, hc.2⟩, put_pad (by omega)]
  · rw [if_neg (fun h => hc ⟨h.1, h.2.2⟩), if_neg (fun h => hc ⟨h.1, h.2.2⟩)]

/-- A setter that works on `header_mut()` does not see what is behind the packet. -/
theorem onHeader_pad {split : Bytes → Outcome (Bytes × Bytes)} {f : Mut Bytes Unit} {b pad : Bytes} {n : Nat} {p q : Bytes}
    (hn : n ≤ b.length) (h1 : split b = .ok (b.take n, p)) (h2 : split (b ++ pad) = .ok (b.take n, q)) :
    PadStays (onHeader split f) b pad := by
  have hl : (b.take n).length = n := by rw [List.length_take]; omega
  unfold PadStays onHeader
  rw [h1, h2]
  simp only [hl]
  rw [List.drop_append_of_le_length hn, List.append_assoc]

theorem v4_header_pad {b : Bytes} (pad : Bytes) (h : V4.noPayload b = .ok b) {f : Mut Bytes Unit} :
    PadStays (onHeader V4.split f) b pad := by
  have hok := (V4.noPayload_ok_iff.1 h).2
  have hl := hok.long; have hh := hok.header
  have e : field (b ++ pad) 4 4 = field b 4 4 := field_pad pad (by omega)
  refine onHeader_pad (q := ((b ++ pad).drop (field b 4 4 * 4)).take (field (b ++ pad) 16 16 - field b 4 4 * 4)) hh
    (V4.split_eq (by omega) hh) ?_
  rw [V4.split_eq (by simp; omega) (by rw [e]; simp; omega), e, List.take_append_of_le_length hh]

theorem udp_header_pad {b : Bytes} (pad : Bytes) (hl : 8 ≤ b.length) {f : Mut Bytes Unit} :
    PadStays (onHeader Udp.split f) b pad := by
  refine onHeader_pad (q := ((b ++ pad).drop 8).take (field (b ++ pad) 32 16 - 8)) hl (Udp.split_eq hl) ?_
  rw [Udp.split_eq (by simp; omega), List.take_append_of_le_length hl]

theorem tcp_header_pad {b : Bytes} (pad : Bytes) (h : Tcp.new b = .ok b) {f : Mut Bytes Unit} :
    PadStays (onHeader Tcp.split f) b pad := by
  obtain ⟨-, hl, hh⟩ := Tcp.new_ok_iff.1 h
  have e : field (b ++ pad) 96 4 = field b 96 4 := field_pad pad (by omega)
  refine onHeader_pad (q := (b ++ pad).drop (field b 96 4 * 4)) hh (Tcp.split_eq hl hh) ?_
  rw [Tcp.split_eq (by simp; omega) (by rw [e]; simp; omega), e, List.take_append_of_le_length hh]

/-- Reading one value first that does not depend on what is behind, and then a write. -/
theorem read_pad {α : Type} {g : Bytes → Outcome α} {f : α → Mut Bytes Unit} {b pad : Bytes} (hg : g (b ++ pad) = g b)
    (hf : ∀ x, PadStays (f x) b pad) : PadStays (Mut.read g >>= f) b pad := by
  unfold PadStays
  rw [Mut.bind_apply, Mut.bind_apply]
  simp only [Mut.read, hg]
  cases g b with
  | ok x => exact hf x
  | err e => rfl
  | panic => rfl

theorem v4_set_pad {b : Bytes} (pad : Bytes) (h : V4.noPayload b = .ok b) (op : V4.Set) : PadStays op.run b pad := by
  have hl := (V4.noPayload_ok_iff.1 h).2.long
  have fail : ∀ e, PadStays (Mut.fail e) b pad := fun _ => rfl
  cases op with
  | dscp v =>
    show PadStays (V4.setDscp v) b pad
    unfold V4.setDscp
    split
    · exact fail _
    · exact read_pad (idx_pad pad (by omega)) (fun x => setIdx_pad (by omega))
  | ecn v =>
    show PadStays (V4.setEcn v) b pad
    unfold V4.setEcn
    split
    · exact fail _
    · exact read_pad (idx_pad pad (by omega)) (fun x => setIdx_pad (by omega))
  | id v => exact cursorWrite_pad (by rw [be16_length]; omega)
  | flags v => exact v4_header_pad pad h
  | offset v => exact v4_header_pad pad h
  | ttl v => exact v4_header_pad pad h
  | source v => exact v4_header_pad pad h
  | destination v => exact v4_header_pad pad h
  | protocol v => exact v4_header_pad pad h

theorem ether_set_pad {b : Bytes} (pad : Bytes) (h : Ether.new b = .ok b) (op : Ether.Set) : PadStays op.run b pad := by
  have hl : 14 ≤ b.length := by
    rw [C10_ether_accept] at h
    split at h
    · assumption
    · cases h
  cases op with
  | destination v => exact copyRange_pad (by omega)
  | source v => exact copyRange_pad (by omega)
  | protocol v => exact cursorWrite_pad (by rw [be16_length]; omega)

theorem udp_set_pad {b : Bytes} (pad : Bytes) (h : 8 ≤ b.length) (op : Udp.Set) : PadStays op.run b pad := by
  cases op <;> exact udp_header_pad pad h

theorem tcp_set_pad {b : Bytes} (pad : Bytes) (h : Tcp.new b = .ok b) (op : Tcp.Set) : PadStays op.run b pad := by
  cases op with
  | flags v =>
    show PadStays (Tcp.setFlags v) b pad
    unfold Tcp.setFlags
    refine read_pad ?_ (fun x => tcp_header_pad pad h)
    obtain ⟨-, -, -, -, -, -, -, -, -, -, -, e, -⟩ := C88_tcp_padding b pad h
    rw [e]
  | _ => exact tcp_header_pad pad h

theorem echo_set_pad {b : Bytes} (pad : Bytes) (h : 8 ≤ b.length) (op : Echo.Set) : PadStays op.run b pad := by
  cases op <;> first | exact setIdx_pad (by omega) | exact cursorWrite_pad (by rw [be16_length]; omega)

theorem timestamp_set_pad {b : Bytes} (pad : Bytes) (h : 20 ≤ b.length) (op : Timestamp.Set) : PadStays op.run b pad := by
  cases op <;> first | exact setIdx_pad (by omega) | exact cursorWrite_pad (by rw [be16_length]; omega) |
    exact cursorWrite_pad (by rw [be32_length]; omega)

theorem information_set_pad {b : Bytes} (pad : Bytes) (h : 8 ≤ b.length) (op : Information.Set) :
    PadStays op.run b pad := by
  cases op <;> first | exact setIdx_pad (by omega) | exact cursorWrite_pad (by rw [be16_length]; omega)

/-- C111: what is behind an accepted packet plays no part in any setter call on it. -/
theorem C111_setters (b pad : Bytes) :
    (Ether.new b = .ok b → ∀ op : Ether.Set, PadStays op.run b pad) ∧
    (V4.noPayload b = .ok b → ∀ op : V4.Set, PadStays op.run b pad) ∧
    (Udp.noPayload b = .ok b → ∀ op : Udp.Set, PadStays op.run b pad) ∧
    (Tcp.new b = .ok b → ∀ op : Tcp.Set, PadStays op.run b pad) ∧
    (Echo.new b = .ok b → ∀ op : Echo.Set, PadStays op.run b pad) ∧
    (Timestamp.new b = .ok b → ∀ op : Timestamp.Set, PadStays op.run b pad) ∧
    (Information.new b = .ok b → ∀ op : Information.Set, PadStays op.run b pad) :=
  ⟨ether_set_pad pad, v4_set_pad pad, fun h => udp_set_pad pad (udp_long h), tcp_set_pad pad,
    fun h => echo_set_pad pad (echo_ok h).1, fun h => timestamp_set_pad pad (timestamp_ok h).1,
    fun h => information_set_pad pad (information_ok h).1⟩

/-! ## Sessions -/

theorem run_pad {Inv : Bytes → Prop} {pad : Bytes} : ∀ (fs : List (Mut Bytes Unit)) (b : Bytes), Inv b →
    (∀ f ∈ fs, ∀ c, Inv c → PadStays f c pad ∧ Inv (f c).2) → PadStays (runIgnoringErrors fs) b pad ∧
      Inv (runIgnoringErrors fs b).2 := by
  intro fs
  induction fs with
  | nil => intro b hb _; exact ⟨rfl, hb⟩
  | cons f fs ih =>
    intro b hb hf
    obtain ⟨h1, h2⟩ := hf f (List.mem_cons_self ..) b hb
    have key := ih (f b).2 h2 (fun g hg => hf g (List.mem_cons_of_mem _ hg))
    unfold PadStays at h1 key ⊢
    simp only [runIgnoringErrors]
    rw [h1]
    generalize f b = r at h2 key ⊢
    obtain ⟨o, c⟩ := r
    cases o with
    | panic => exact ⟨rfl, h2⟩
    | ok u => exact key
    | err e => exact key

theorem bind_pad {α : Type} {f : Mut Bytes Unit} {g : Unit → Mut Bytes α} {b pad : Bytes} (hf : PadStays f b pad)
    (hg : (f b).1 = .ok () → (g () ((f b).2 ++ pad)) = ((g () (f b).2).1, (g () (f b).2).2 ++ pad)) :
    (f >>= g) (b ++ pad) = (((f >>= g) b).1, ((f >>= g) b).2 ++ pad) := by
  unfold PadStays at hf
  rw [Mut.bind_apply, Mut.bind_apply, hf]
  generalize f b = r at hg ⊢
  obtain ⟨o, c⟩ := r
  cases o with
  | ok u => exact hg rfl
  | err e => rfl
  | panic => rfl

theorem unwrap_pad {f : Mut Bytes Unit} {b pad : Bytes} (hf : PadStays f b pad) : PadStays f.unwrap b pad := by
  unfold PadStays Mut.unwrap at *
  rw [hf]

theorem v4_checked_pad (cfg : Cfg) {b : Bytes} (pad : Bytes) (h : Legal b) (ops : List V4.Set) :
    PadStays (V4.checkedRun cfg ops) b pad := by
  obtain ⟨k1, k2⟩ := run_pad (Inv := Legal) (pad := pad) (ops.map V4.Set.run) b h (by
    intro f hf c hc
    obtain ⟨op, -, rfl⟩ := List.mem_map.1 hf
    exact ⟨v4_set_pad pad hc.1 op, (v4_set_legal op c hc).2⟩)
  refine bind_pad k1 fun _ => ?_
  generalize (runIgnoringErrors (ops.map V4.Set.run) b).2 = c at k2
  refine unwrap_pad ?_
  unfold V4.updateChecksum
  refine read_pad ?_ (fun x => v4_header_pad pad k2.1)
  have hok := (V4.noPayload_ok_iff.1 k2.1).2
  have hl := hok.long; have hh := hok.header
  have e : field (c ++ pad) 4 4 = field c 4 4 := field_pad pad (by omega)
  show (V4.header (c ++ pad) >>= _) = (V4.header c >>= _)
  rw [V4.header_eq (by simp; omega) (by rw [e]; simp; omega), V4.header_eq (by omega) hh, e,
    List.take_append_of_le_length hh]

/-- C111, guarded sessions: what is behind an IPv4 packet plays no part in a `checked()` session on it. -/
theorem C111_v4_session (cfg : Cfg) (b pad : Bytes) (h : V4.new b = .ok b) (h5 : 5 ≤ field b 4 4) (ops : List V4.Set) :
    PadStays (V4.checkedRun cfg ops) b pad :=
  v4_checked_pad cfg pad ⟨V4.noPayload_ok_iff.2 ⟨rfl, (V4.new_ok_iff.1 h).2.toHeaderOk⟩, h5⟩ ops

/-- A concrete case that meets the hypotheses. -/
example (cfg : Cfg) (pad : Bytes) := C111_v4_session cfg Sample.udpPacket pad (by decide) (by decide)

/-! ## `as_packet_mut()` of a packet -/

theorem asPacketMut_eq {k : Kind} {cfg : Cfg} {b : Bytes} (h : Reparses k cfg b) (f : Mut Bytes Unit)
    (hf : ∀ r pad, b = r ++ pad → k.new r = .ok r → PadStays f r pad) : k.asPacketMut cfg f b = f b := by
  obtain ⟨r, pad, e1, e2, e3, -⟩ := h
  unfold Kind.asPacketMut Kind.inAll
  rw [e1]
  simp only []
  have he : editing k.new f r = f r := by unfold editing; rw [e3]
  have hd : b.drop r.length = pad := by rw [e2, List.drop_left]
  rw [he, hd]
  have hp := hf r pad e2 e3
  unfold PadStays at hp
  rw [← e2] at hp
  rw [hp]

/-- C111: for the types whose `as_ref()` is everything, `as_packet_mut()` of a packet is the packet, whatever is done
with it. -/
theorem C111_as_packet_mut (cfg : Cfg) (b : Bytes) (hb : b.length < cfg.usizeMod) (f : Mut Bytes Unit) :
    (Ether.new b = .ok b → Kind.asPacketMut .ether cfg f b = f b) ∧
    (Tcp.new b = .ok b → Kind.asPacketMut .tcp cfg f b = f b) ∧
    (Icmp.new b = .ok b → Kind.asPacketMut .icmp cfg f b = f b) ∧
    (Echo.new b = .ok b → Kind.asPacketMut .echo cfg f b = f b) := by
  have key : ∀ {k : Kind}, k.new b = .ok b → k.asRef cfg b = .ok b → k.asPacketMut cfg f b = f b := by
    intro k h1 h2
    unfold Kind.asPacketMut Kind.inAll editing
    rw [h2]
    simp only [h1, List.drop_length, List.append_nil]
  refine ⟨fun h => key h ?_, fun h => key h ?_, fun h => key h ?_, fun h => key h ?_⟩
  · obtain ⟨-, -, -, -, -, e, -⟩ := C10_ether_views cfg b hb h
    exact e
  · obtain ⟨-, -, -, -, e⟩ := C24_tcp_views cfg b hb h
    exact e
  · obtain ⟨-, -, -, -, -, -, -, e, -⟩ := C34_icmp_views cfg b hb h
    exact e
  · obtain ⟨-, -, -, -, -, -, -, -, -, e⟩ := C36_echo_fields cfg b hb h
    exact e

/-- A concrete case that meets the hypotheses. -/
example (cfg : Cfg) := C111_as_packet_mut cfg Sample.udpPacket (by in_every_build)

/-- C111, IPv4: a setter call or a guarded session through `as_packet_mut()` of a packet does what it does on the packet
itself. -/
theorem C111_v4_as_packet_mut (cfg : Cfg) (b : Bytes) (h : V4.new b = .ok b) (h5 : 5 ≤ field b 4 4) :
    (∀ op : V4.Set, Kind.asPacketMut .v4 cfg op.run b = op.run b) ∧
    (∀ ops, Kind.asPacketMut .v4 cfg (V4.checkedRun cfg ops) b = V4.checkedRun cfg ops b) := by
  have hr := (C93_v4_reparse_iff cfg b h).2 (.inl (by omega))
  refine ⟨fun op => asPacketMut_eq hr _ ?_, fun ops => asPacketMut_eq hr _ ?_⟩
  · intro r pad _ hn
    exact v4_set_pad pad (V4.noPayload_ok_iff.2 ⟨rfl, (V4.new_ok_iff.1 hn).2.toHeaderOk⟩) op
  · intro r pad e hn
    have hok := (V4.new_ok_iff.1 hn).2.toHeaderOk
    have hl := hok.long
    refine v4_checked_pad cfg pad ⟨V4.noPayload_ok_iff.2 ⟨rfl, hok⟩, ?_⟩ ops
    have := field_pad (b := r) pad (s := 4) (w := 4) (by omega)
    rw [← e] at this
    omega

/-- A concrete case that meets the hypotheses. -/
example (cfg : Cfg) := C111_v4_as_packet_mut cfg Sample.udpPacket (by decide) (by decide)

/-- C111, UDP: a setter call through `as_packet_mut()` of a packet does what it does on the packet itself.  A guarded
session there leaves the checksum right for exactly the datagram, whatever is behind it in the buffer, which stays (a
session on the packet itself does not, C89). -/
theorem C111_udp_as_packet_mut (cfg : Cfg) (ip b : Bytes) (hip : 20 ≤ ip.length) (hb : b.length < cfg.usizeMod)
    (h : Udp.new b = .ok b) :
    (∀ op : Udp.Set, Kind.asPacketMut .udp cfg op.run b = op.run b) ∧
    (∀ ops, ∃ d pad d', Udp.asRef b = .ok d ∧ b = d ++ pad ∧
      Kind.asPacketMut .udp cfg (Udp.checkedRun cfg (.v4 ip) ops) b = (.ok (), d' ++ pad) ∧
      Udp.new (d' ++ pad) = .ok (d' ++ pad) ∧ Udp.asRef (d' ++ pad) = .ok d' ∧
      Udp.payload (d' ++ pad) = Udp.payload b ∧
      Udp.source (d' ++ pad) = .ok (BitVec.ofNat 16 (last (fun | .source v => some v.toNat | _ => none) (field b 0 16) ops)) ∧
      Udp.destination (d' ++ pad) = .ok (BitVec.ofNat 16 (last (fun | .destination v => some v.toNat | _ => none)
        (field b 16 16) ops)) ∧
      Udp.isValid cfg (.v4 ip) d' = .ok true) := by
  have hr := (C93_reparse cfg b hb).2.2.2.2 h
  refine ⟨fun op => asPacketMut_eq hr _ (fun r pad _ hn => udp_set_pad pad (Udp.new_ok_iff.1 hn).2.1 op), fun ops => ?_⟩
  obtain ⟨d, pad, e1, e2, e3, e4, -, e6⟩ := hr
  replace e3 : Udp.new d = .ok d := e3
  replace e4 : Udp.asRef d = .ok d := e4
  replace e6 : Udp.payload d = Udp.payload b := e6
  obtain ⟨-, hl, ht⟩ := Udp.new_ok_iff.1 e3
  have hno : Udp.noPayload d = .ok d := by rw [Udp.noPayload_eq, if_neg (by omega)]
  obtain ⟨d', q1, q2, -, q4, q5, q6, q7, q8⟩ := C23_udp_checked cfg ip d hip hno ops
  have hnew : Udp.new d' = .ok d' := Udp.new_ok_iff.2 ⟨rfl, by omega, by omega⟩
  obtain ⟨k1, k2, k3, -, -, -, k7, k8, -⟩ := C88_udp_padding d' pad hnew
  obtain ⟨-, p2, -, -, p5, p6⟩ := C21_udp_views d' hnew
  obtain ⟨-, o2, -, -, o5, o6⟩ := C21_udp_views d e3
  have hdl : d.length = 8 + (field d 32 16 - 8) := by
    have hd := Outcome.ok.inj (e4.symm.trans o6)
    have := congrArg List.length hd
    rw [List.length_append, o5, List.length_take] at this
    omega
  have hs : field b 0 16 = field d 0 16 := by rw [e2]; exact field_pad pad (by omega)
  have hds : field b 16 16 = field d 16 16 := by rw [e2]; exact field_pad pad (by omega)
  refine ⟨d, pad, d', e1, e2, ?_, k1, ?_, ?_, ?_, ?_, q2⟩
  · unfold Kind.asPacketMut Kind.inAll
    rw [e1]
    simp only []
    have he : editing Kind.udp.new (Udp.checkedRun cfg (.v4 ip) ops) d = (.ok (), d') := by
      unfold editing
      rw [show Kind.udp.new d = .ok d from e3]
      exact q1
    rw [he, e2, List.drop_left]
  · rw [k8, p6, ← List.take_add, List.take_of_length_le (by omega)]
  · rw [k7, ← e6, p2, o2, q5, q6]
  · rw [k2, hs]
    exact (readU16At_field (b := d') (k := 0) (by omega)).trans (congrArg (fun n => Outcome.ok (BitVec.ofNat 16 n)) q7)
  · rw [k3, hds]
    exact (readU16At_field (b := d') (k := 2) (by omega)).trans (congrArg (fun n => Outcome.ok (BitVec.ofNat 16 n)) q8)

/-- C111 is about this datagram with two bytes behind it: through `as_packet_mut()` its checksum is right afterwards
for the datagram; a session on the packet itself takes the two bytes behind it into the checksum. -/
example : (let b : Bytes := [0, 1, 0, 2, 0, 9, 0, 0, 7] ++ [1, 2]
    Udp.new b = .ok b ∧ Udp.asRef b = .ok [0, 1, 0, 2, 0, 9, 0, 0, 7] ∧
    Kind.asPacketMut .udp ⟨true, false, false⟩ (Udp.checkedRun ⟨true, false, false⟩ (.v4 ([0x45, 0, 0, 29] ++ zeros 16)) [.source 5]) b =
      (.ok (), [0, 5, 0, 2, 0, 9, 0xf8, 0xd5, 7] ++ [1, 2]) ∧
    Udp.checkedRun ⟨true, false, false⟩ (.v4 ([0x45, 0, 0, 29] ++ zeros 16)) [.source 5] b ≠
      (.ok (), [0, 5, 0, 2, 0, 9, 0xf8, 0xd5, 7] ++ [1, 2])) := by
  decide +kernel

/-- C111 is about this IPv4 packet with a byte behind it. -/
example : V4.new ([0x45, 0, 0, 20] ++ zeros 17) = .ok ([0x45, 0, 0, 20] ++ zeros 17) ∧
    V4.checkedRun ⟨true, false, false⟩ [.ttl 9] ([0x45, 0, 0, 20] ++ zeros 16 ++ [7]) =
      (.ok (), ([0x45, 0, 0, 20, 0, 0, 0, 0, 9, 0, 0xb1, 0xeb] ++ zeros 8) ++ [7]) := by
  decide +kernel

end Verif.Props
