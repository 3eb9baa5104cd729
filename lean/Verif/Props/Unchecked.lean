import Verif.Props.V4
import Verif.Props.Ether
import Verif.Props.Enums
import Verif.Props.Transport
import Verif.Props.Icmp
import Verif.Model.Kinds
import Verif.Samples

/-! # C96: what the accessors do on bytes nobody validated (`Packet::unchecked`) -/

namespace Verif.Props
open Verif Verif.Spec

/-- On every buffer of at least `n` bytes the accessor returns a value `R` allows, on every shorter buffer
it panics. -/
def Needs {α : Type} (acc : Bytes → Outcome α) (n : Nat) (R : Bytes → α → Prop) : Prop :=
  ∀ b, (n ≤ b.length → ∃ a, acc b = .ok a ∧ R b a) ∧ (b.length < n → acc b = .panic)

/-- The accessor reads the header field `(s, w)` and needs `n` bytes. -/
def NeedsField {k : Nat} (acc : Bytes → Outcome (BitVec k)) (n s w : Nat) : Prop :=
  Needs acc n fun b v => v.toNat = field b s w

theorem idx_short {b : Bytes} {i : Nat} (h : b.length ≤ i) : idx b i = .panic := by
  unfold idx; rw [List.getElem?_eq_none h]

theorem readU16_short {s : Bytes} (h : s.length < 2) : (readU16 s).unwrap = .panic := by
  rcases s with _ | ⟨a, _ | ⟨c, t⟩⟩
  · rfl
  · rfl
  · simp only [List.length_cons] at h; omega

theorem readU32_short {s : Bytes} (h : s.length < 4) : (readU32 s).unwrap = .panic := by
  rcases s with _ | ⟨a, _ | ⟨c, _ | ⟨d, _ | ⟨e, t⟩⟩⟩⟩
  · rfl
  · rfl
  · rfl
  · rfl
  · simp only [List.length_cons] at h; omega

theorem readU16At_short {b : Bytes} {o : Nat} (h : b.length < o + 2) : readU16At b o = .panic := by
  unfold readU16At sliceFrom
  by_cases ho : o ≤ b.length
  · rw [if_pos ho, Outcome.ok_bind]
    exact readU16_short (by rw [List.length_drop]; omega)
  · rw [if_neg ho]; rfl

theorem readU32At_short {b : Bytes} {o : Nat} (h : b.length < o + 4) : readU32At b o = .panic := by
  unfold readU32At sliceFrom
  by_cases ho : o ≤ b.length
  · rw [if_pos ho, Outcome.ok_bind]
    exact readU32_short (by rw [List.length_drop]; omega)
  · rw [if_neg ho]; rfl

theorem needs_u16 (o : Nat) : NeedsField (fun b => readU16At b o) (o + 2) (8 * o) 16 := fun b =>
  ⟨fun h => ⟨_, readU16At_field h, ofNat_field_toNat ..⟩, readU16At_short⟩

theorem needs_u32 (o : Nat) : NeedsField (fun b => readU32At b o) (o + 4) (8 * o) 32 := fun b =>
  ⟨fun h => ⟨_, readU32At_field h, ofNat_field_toNat ..⟩, readU32At_short⟩

theorem needs_u8 (o : Nat) : NeedsField (fun b => idx b o) (o + 1) (8 * o) 8 := fun b =>
  ⟨fun h => ⟨_, idx_field h, ofNat_field_toNat ..⟩, fun h => idx_short (by omega)⟩

/-- A value computed from something that is read. -/
theorem Needs.map {α β : Type} {acc : Bytes → Outcome α} {n : Nat} {R : Bytes → α → Prop}
    (h : Needs acc n R) (f : α → β) {S : Bytes → β → Prop} (hf : ∀ b a, R b a → S b (f a)) :
    Needs (fun b => acc b >>= fun a => .ok (f a)) n S := fun b => by
  refine ⟨fun hn => ?_, fun hn => ?_⟩
  · obtain ⟨a, ha, hr⟩ := (h b).1 hn
    exact ⟨f a, by show (acc b >>= _) = _; rw [ha]; rfl, hf b a hr⟩
  · show (acc b >>= _) = _
    rw [(h b).2 hn]; rfl

theorem needs_field_map {k l : Nat} {acc : Bytes → Outcome (BitVec k)} {n s w s' w' : Nat}
    (h : NeedsField acc n s w) (f : BitVec k → BitVec l)
    (hf : ∀ b x, x.toNat = field b s w → (f x).toNat = field b s' w') :
    NeedsField (fun b => acc b >>= fun a => .ok (f a)) n s' w' := Needs.map h f hf

/-- Four bytes read one by one, as `source()`, `destination()` and `gateway()` do. -/
theorem needs_addr (o : Nat) : Needs (fun b => do
      let x0 ← idx b o
      let x1 ← idx b (o + 1)
      let x2 ← idx b (o + 2)
      let x3 ← idx b (o + 3)
      Outcome.ok (⟨x0, x1, x2, x3⟩ : Ipv4Addr)) (o + 4) fun b a => a.octets = (b.drop o).take 4 := fun b => by
  refine ⟨fun h => ⟨⟨b.getD o 0#8, b.getD (o + 1) 0#8, b.getD (o + 2) 0#8, b.getD (o + 3) 0#8⟩, ?_, ?_⟩,
    fun h => ?_⟩
  · show (idx b o >>= _) = _
    rw [idx_ok (by omega), Outcome.ok_bind, idx_ok (by omega), Outcome.ok_bind, idx_ok (by omega),
      Outcome.ok_bind, idx_ok (by omega)]
    rfl
  · exact (take4_drop h).symm
  · show (idx b o >>= _) = _
    by_cases h0 : b.length ≤ o
    · rw [idx_short h0]; rfl
    · rw [idx_ok (by omega), Outcome.ok_bind]
      by_cases h1 : b.length ≤ o + 1
      · rw [idx_short h1]; rfl
      · rw [idx_ok (by omega), Outcome.ok_bind]
        by_cases h2 : b.length ≤ o + 2
        · rw [idx_short h2]; rfl
        · rw [idx_ok (by omega), Outcome.ok_bind, idx_short (by omega)]; rfl


theorem field_high (b : Bytes) (s w₁ w₂ : Nat) : field b s w₁ = field b s (w₁ + w₂) / 2 ^ w₂ := by
  rw [field_add, Nat.mul_comm, Nat.mul_add_div (Nat.two_pow_pos w₂), Nat.div_eq_of_lt (field_lt ..), Nat.add_zero]

theorem field_low (b : Bytes) (s w₁ w₂ : Nat) : field b (s + w₁) w₂ = field b s (w₁ + w₂) % 2 ^ w₂ := by
  rw [field_add, Nat.mul_comm, Nat.mul_add_mod, Nat.mod_eq_of_lt (field_lt ..)]

theorem toNat_shift {k : Nat} (x : BitVec k) (n : Nat) : (x >>> n).toNat = x.toNat / 2 ^ n := by
  rw [BitVec.toNat_ushiftRight, Nat.shiftRight_eq_div_pow]

/-- C96, Ethernet: each accessor panics exactly on the buffers that end before its field does. -/
theorem C96_ether_unchecked :
    Needs Ether.destination 6 (fun b a => a.octets = b.take 6) ∧
    Needs Ether.source 12 (fun b a => a.octets = (b.drop 6).take 6) ∧
    Needs Ether.protocol 14 (fun b p => p.toWire.toNat = field b 96 16) ∧
    Needs Ether.split 14 (fun b s => s = (b.take 14, b.drop 14)) := by
  have oct : ∀ c : Bytes, c.length = 6 → ∃ a, HwAddr.ofSlice c = .ok a ∧ a.octets = c := by
    intro c hc
    rcases c with _ | ⟨a, _ | ⟨b, _ | ⟨c, _ | ⟨d, _ | ⟨e, _ | ⟨f, _ | ⟨g, t⟩⟩⟩⟩⟩⟩⟩ <;> 
      simp only [List.length_cons, List.length_nil] at hc <;> first | omega | exact ⟨_, rfl, rfl⟩
  refine ⟨fun b => ⟨fun h => ?_, fun h => ?_⟩, fun b => ⟨fun h => ?_, fun h => ?_⟩, ?_,
    fun b => ⟨fun h => ⟨_, splitAt_ok h, rfl⟩, fun h => ?_⟩⟩
  · obtain ⟨a, h1, h2⟩ := oct ((b.take 6).drop 0) (by simp only [List.drop_zero, List.length_take]; omega)
    refine ⟨a, ?_, h2⟩
    unfold Ether.destination
    rw [slice_ok (by omega) h, Outcome.ok_bind, h1]
  · unfold Ether.destination slice
    rw [if_neg (by omega)]; rfl
  · obtain ⟨a, h1, h2⟩ := oct ((b.take 12).drop 6) (by rw [List.length_drop, List.length_take]; omega)
    refine ⟨a, ?_, h2.trans List.drop_take⟩
    unfold Ether.source
    rw [slice_ok (by omega) h, Outcome.ok_bind, h1]
  · unfold Ether.source slice
    rw [if_neg (by omega)]; rfl
  · exact Needs.map (needs_u16 12) EtherProtocol.ofWire fun b x hx => by
      rw [C40_ether_protocol.wire]; exact hx
  · unfold Ether.split splitAt
    rw [if_neg (by omega)]


/-- C96, IPv4: each accessor panics exactly on the buffers that end before its field does. -/
theorem C96_v4_unchecked :
    NeedsField V4.version 1 0 4 ∧ NeedsField V4.ihl 1 4 4 ∧ NeedsField V4.dscp 2 8 6 ∧
    NeedsField V4.ecn 2 14 2 ∧ NeedsField V4.length 4 16 16 ∧ NeedsField V4.id 6 32 16 ∧
    NeedsField V4.offset 8 51 13 ∧ NeedsField V4.ttl 9 64 8 ∧
    Needs V4.protocol 10 (fun b p => p.toWire.toNat = field b 72 8) ∧ NeedsField V4.checksum 12 80 16 ∧
    Needs V4.source 16 (fun b a => a.octets = (b.drop 12).take 4) ∧
    Needs V4.destination 20 (fun b a => a.octets = (b.drop 16).take 4) := by
  refine ⟨needs_field_map (needs_u8 0) (· >>> 4) fun b x hx => ?_,
    needs_field_map (needs_u8 0) (· &&& 0b1111#8) fun b x hx => ?_,
    needs_field_map (needs_u8 1) (· >>> 2) fun b x hx => ?_,
    needs_field_map (needs_u8 1) (· &&& 0b11#8) fun b x hx => ?_, needs_u16 2, needs_u16 4,
    needs_field_map (needs_u16 6) (· &&& 0x1fff#16) fun b x hx => ?_, needs_u8 8,
    Needs.map (needs_u8 9) IpProtocol.ofWire fun b x hx => ?_, needs_u16 10, needs_addr 12, needs_addr 16⟩
  · rw [toNat_shift, hx, field_high b 0 4 4]
  · rw [BitVec.toNat_and, hx]
    exact (Nat.and_two_pow_sub_one_eq_mod _ 4).trans (field_low b 0 4 4).symm
  · rw [toNat_shift, hx, field_high b 8 6 2]
  · rw [BitVec.toNat_and, hx]
    exact (Nat.and_two_pow_sub_one_eq_mod _ 2).trans (field_low b 8 6 2).symm
  · rw [BitVec.toNat_and, hx]
    exact (Nat.and_two_pow_sub_one_eq_mod _ 13).trans (field_low b 48 3 13).symm
  · rw [C40_ip_protocol.wire]; exact hx

/-- C96, IPv4 views: header and payload can be taken exactly if the buffer holds the header the IHL field
announces (and the total length field); the payload is what is there, up to the total length. -/
theorem C96_v4_views_unchecked (cfg : Cfg) (b : Bytes) :
    V4.split b = (if 4 ≤ b.length ∧ field b 4 4 * 4 ≤ b.length then
      .ok (b.take (field b 4 4 * 4), (b.drop (field b 4 4 * 4)).take (field b 16 16 - field b 4 4 * 4))
      else .panic) ∧
    V4.options b = (if 5 ≤ field b 4 4 ∧ field b 4 4 * 4 ≤ b.length then
      .ok ((b.take (field b 4 4 * 4)).drop 20) else .panic) ∧
    ((V4.isValid cfg b).returns ↔ 12 ≤ b.length ∧ field b 4 4 * 4 ≤ b.length) ∧
    ((V4.flags b).returns ↔ 8 ≤ b.length ∧ bitAt b 50 = false) := by
  have hs : V4.split b = (if 4 ≤ b.length ∧ field b 4 4 * 4 ≤ b.length then
      .ok (b.take (field b 4 4 * 4), (b.drop (field b 4 4 * 4)).take (field b 16 16 - field b 4 4 * 4))
      else .panic) := by
    by_cases h : 4 ≤ b.length ∧ field b 4 4 * 4 ≤ b.length
    · rw [if_pos h]; exact V4.split_eq h.1 h.2
    · rw [if_neg h]
      unfold V4.split
      by_cases h1 : b.length < 1
      · rw [(C96_v4_unchecked.2.1 b).2 h1]; rfl
      · rw [V4.ihl_field (by omega), Outcome.ok_bind]
        by_cases h4 : 4 ≤ b.length
        · rw [V4.payloadSize_eq h4]
          simp only [Outcome.ok_bind, V4.ihl_toNat]
          rw [if_pos (by omega)]
          show splitAt b _ = _
          unfold splitAt
          rw [if_neg (by omega)]
        · have : V4.payloadSize b = .panic := by
            unfold V4.payloadSize
            rw [(C96_v4_unchecked.2.2.2.2.1 b).2 (by omega)]; rfl
          simp only [this, Outcome.panic_bind]
  refine ⟨hs, ?_, ?_, ?_⟩
  · unfold V4.options
    by_cases h1 : b.length < 1
    · rw [(C96_v4_unchecked.2.1 b).2 h1, if_neg (by omega)]; rfl
    · rw [V4.ihl_field (by omega)]
      simp only [Outcome.ok_bind, V4.ihl_toNat]
      unfold slice
      by_cases h : 5 ≤ field b 4 4 ∧ field b 4 4 * 4 ≤ b.length
      · rw [if_pos h, if_pos (by omega)]
      · rw [if_neg h, if_neg (by omega)]
  · unfold V4.isValid V4.header
    rw [hs]
    by_cases h : 4 ≤ b.length ∧ field b 4 4 * 4 ≤ b.length
    · rw [if_pos h]
      simp only [Outcome.ok_bind]
      rw [V4.checksumOf_eq, Outcome.ok_bind]
      by_cases h12 : 12 ≤ b.length
      · obtain ⟨c, hc, -⟩ := (C96_v4_unchecked.2.2.2.2.2.2.2.2.2.1 b).1 h12
        rw [hc]
        exact ⟨fun _ => ⟨h12, h.2⟩, fun _ h => by cases h⟩
      · rw [(C96_v4_unchecked.2.2.2.2.2.2.2.2.2.1 b).2 (by omega)]
        exact ⟨fun h => absurd rfl h, fun h => absurd h.1 h12⟩
    · rw [if_neg h]
      exact ⟨fun h => absurd rfl h, fun h' => absurd ⟨by omega, h'.2⟩ h⟩
  · by_cases h : 8 ≤ b.length
    · have := v4_flags_exact b h
      cases h50 : bitAt b 50 <;> rw [h50] at this
      · obtain ⟨f, hf, -⟩ := this
        rw [hf]
        exact ⟨fun _ => ⟨h, rfl⟩, fun _ h => by cases h⟩
      · rw [show V4.flags b = .panic from this]
        exact ⟨fun h => absurd rfl h, fun h => by cases h.2⟩
    · have : V4.flags b = .panic := by
        unfold V4.flags
        rw [readU16At_short (by omega)]; rfl
      rw [this]
      exact ⟨fun h => absurd rfl h, fun h' => absurd h'.1 h⟩


theorem needs_split (n : Nat) : Needs (fun b => splitAt b n) n (fun b s => s = (b.take n, b.drop n)) := fun b =>
  ⟨fun h => ⟨_, splitAt_ok h, rfl⟩, fun h => by show splitAt b n = _; unfold splitAt; rw [if_neg (by omega)]⟩

/-- C96, UDP. -/
theorem C96_udp_unchecked :
    NeedsField Udp.source 2 0 16 ∧ NeedsField Udp.destination 4 16 16 ∧ NeedsField Udp.length 6 32 16 ∧
    NeedsField Udp.checksum 8 48 16 ∧
    Needs Udp.split 8 (fun b s => s = (b.take 8, (b.drop 8).take (field b 32 16 - 8))) ∧
    ∀ cfg ip, 20 ≤ ip.length →
      ∀ b : Bytes, (Udp.isValid cfg (.v4 ip) b).returns ↔ 8 ≤ b.length := by
  refine ⟨needs_u16 0, needs_u16 2, needs_u16 4, needs_u16 6, fun b => ⟨fun h => ⟨_, Udp.split_eq h, rfl⟩,
    fun h => ?_⟩, fun cfg ip hip b => ?_⟩
  · unfold Udp.split
    by_cases h6 : b.length < 6
    · have : Udp.payloadSize b = .panic := by
        unfold Udp.payloadSize Udp.length
        rw [readU16At_short (by omega)]; rfl
      simp only [this, Outcome.panic_bind]
    · obtain ⟨l, hl⟩ : ∃ l, Udp.payloadSize b = .ok l := by
        unfold Udp.payloadSize Udp.length
        rw [readU16At_field (k := 4) (by omega)]
        exact ⟨_, rfl⟩
      simp only [hl, Outcome.ok_bind]
      rw [if_pos (by omega)]
      show splitAt b _ = _
      unfold splitAt
      rw [if_neg (by omega)]
  · unfold Udp.isValid
    rw [Udp.checksumOf_eq cfg ip b hip, Outcome.ok_bind]
    by_cases h : 8 ≤ b.length
    · obtain ⟨c, hc, -⟩ := (needs_u16 6 b).1 h
      rw [show Udp.checksum b = .ok c from hc]
      exact ⟨fun _ => h, fun _ h => by cases h⟩
    · rw [show Udp.checksum b = .panic from (needs_u16 6 b).2 (by omega)]
      exact ⟨fun h => absurd rfl h, fun h' => absurd h' h⟩

theorem tcp_offset_needs : NeedsField Tcp.offset 13 96 4 :=
  needs_field_map (needs_u8 12) (· >>> 4) fun b x hx => by rw [toNat_shift, hx, field_high b 96 4 4]

/-- C96, TCP. -/
theorem C96_tcp_unchecked :
    NeedsField Tcp.source 2 0 16 ∧ NeedsField Tcp.destination 4 16 16 ∧ NeedsField Tcp.sequence 8 32 32 ∧
    NeedsField Tcp.acknowledgment 12 64 32 ∧ NeedsField Tcp.offset 13 96 4 ∧
    Needs Tcp.flags 14 (fun b f => f.bits.toNat = field b 103 9) ∧ NeedsField Tcp.window 16 112 16 ∧
    NeedsField Tcp.checksum 18 128 16 ∧ NeedsField Tcp.pointer 20 144 16 ∧
    (∀ b, Tcp.split b = if 13 ≤ b.length ∧ field b 96 4 * 4 ≤ b.length then
      .ok (b.take (field b 96 4 * 4), b.drop (field b 96 4 * 4)) else .panic) ∧
    (∀ b, Tcp.options b = if 5 ≤ field b 96 4 ∧ field b 96 4 * 4 ≤ b.length then
      .ok ((b.take (field b 96 4 * 4)).drop 20) else .panic) := by
  refine ⟨needs_u16 0, needs_u16 2, needs_u32 4, needs_u32 8, tcp_offset_needs, fun b => ⟨fun h => ?_, fun h => ?_⟩,
    needs_u16 14, needs_u16 16, needs_u16 18, fun b => ?_, fun b => ?_⟩
  · obtain ⟨x, hx, hv⟩ := (needs_u16 12 b).1 h
    have hb : (x &&& 0b1_1111_1111#16).toNat = field b 103 9 := by
      rw [BitVec.toNat_and, hv]
      exact (Nat.and_two_pow_sub_one_eq_mod _ 9).trans (field_low b 96 7 9).symm
    have hl : (x &&& 0b1_1111_1111#16) &&& ~~~0b1_1111_1111#16 = 0#16 := by
      rw [BitVec.and_assoc, show (0b1_1111_1111#16 &&& ~~~0b1_1111_1111#16) = 0#16 by decide, BitVec.and_zero]
    unfold Tcp.flags
    rw [show readU16At b 12 = .ok x from hx, Outcome.ok_bind]
    obtain ⟨f, hf, hfb⟩ : ∃ f, TcpFlags.fromBits (x &&& 0b1_1111_1111#16) = some f ∧
        f.bits = x &&& 0b1_1111_1111#16 := by
      unfold TcpFlags.fromBits
      exact ⟨_, dif_pos hl, rfl⟩
    rw [hf]
    exact ⟨f, rfl, (congrArg BitVec.toNat hfb).trans hb⟩
  · unfold Tcp.flags
    rw [readU16At_short (by omega)]; rfl
  · unfold Tcp.split
    by_cases h13 : 13 ≤ b.length
    · rw [Tcp.offset_field (by omega)]
      simp only [Outcome.ok_bind, Tcp.offset_toNat]
      unfold splitAt
      by_cases h : field b 96 4 * 4 ≤ b.length
      · rw [if_pos h, if_pos ⟨h13, h⟩]
      · rw [if_neg h, if_neg (by omega)]
    · rw [(tcp_offset_needs b).2 (by omega), if_neg (by omega)]; rfl
  · unfold Tcp.options
    by_cases h13 : 13 ≤ b.length
    · rw [Tcp.offset_field (by omega)]
      simp only [Outcome.ok_bind, Tcp.offset_toNat]
      unfold slice
      by_cases h : 5 ≤ field b 96 4 ∧ field b 96 4 * 4 ≤ b.length
      · rw [if_pos h, if_pos (by omega)]
      · rw [if_neg h, if_neg (by omega)]
    · rw [(tcp_offset_needs b).2 (by omega), if_neg (by omega)]; rfl

/-- C96, ICMP. -/
theorem C96_icmp_unchecked :
    Needs Icmp.kind 1 (fun b k => k.toWire.toNat = field b 0 8) ∧ NeedsField Icmp.code 2 8 8 ∧
    NeedsField Icmp.checksum 4 16 16 ∧ Needs Icmp.split 4 (fun b s => s = (b.take 4, b.drop 4)) ∧
    (∀ cfg b, (Icmp.isValid cfg b).returns ↔ 4 ≤ b.length) ∧
    NeedsField Echo.identifier 6 32 16 ∧ NeedsField Echo.sequence 8 48 16 ∧
    Needs Echo.split 8 (fun b s => s = (b.take 8, b.drop 8)) ∧
    NeedsField Timestamp.identifier 6 32 16 ∧ NeedsField Timestamp.sequence 8 48 16 ∧
    NeedsField Timestamp.originate 12 64 32 ∧ NeedsField Timestamp.receive 16 96 32 ∧
    NeedsField Timestamp.transmit 20 128 32 ∧ Needs Timestamp.split 8 (fun b s => s = (b.take 8, b.drop 8)) ∧
    NeedsField Information.identifier 6 32 16 ∧ NeedsField Information.sequence 8 48 16 ∧
    Needs Information.split 8 (fun b s => s = (b.take 8, b.drop 8)) ∧
    Needs Previous.split 8 (fun b s => s = (b.take 4, b.drop 8)) ∧
    Needs Redirect.gateway 8 (fun b a => a.octets = (b.drop 4).take 4) ∧
    Needs Redirect.split 8 (fun b s => s = (b.take 8, b.drop 8)) ∧
    NeedsField ParamProblem.pointer 5 32 8 ∧
    Needs ParamProblem.split 8 (fun b s => s = (b.take 5, b.drop 8)) := by
  have cut : ∀ k, k ≤ 8 → Needs (fun b => do
      let s ← splitAt b 8
      let h ← sliceTo s.1 k
      Outcome.ok (h, s.2)) 8 (fun b s => s = (b.take k, b.drop 8)) := fun k hk b => by
    refine ⟨fun h => ⟨_, ?_, rfl⟩, fun h => ?_⟩
    · show (splitAt b 8 >>= _) = _
      rw [splitAt_ok h, Outcome.ok_bind, sliceTo_ok (by rw [List.length_take]; omega), Outcome.ok_bind,
        List.take_take, Nat.min_eq_left hk]
    · show (splitAt b 8 >>= _) = _
      unfold splitAt
      rw [if_neg (by omega)]; rfl
  refine ⟨Needs.map (needs_u8 0) IcmpKind.ofWire fun b x hx => by rw [C40_icmp_kind.wire]; exact hx, needs_u8 1,
    needs_u16 2, needs_split 4, fun cfg b => ?_, needs_u16 4, needs_u16 6, needs_split 8, needs_u16 4, needs_u16 6,
    needs_u32 8, needs_u32 12, needs_u32 16, needs_split 8, needs_u16 4, needs_u16 6, needs_split 8,
    cut 4 (by omega), needs_addr 4, needs_split 8, needs_u8 4, cut 5 (by omega)⟩
  unfold Icmp.isValid
  rw [Icmp.checksumOf_eq, Outcome.ok_bind]
  by_cases h : 4 ≤ b.length
  · obtain ⟨c, hc, -⟩ := (needs_u16 2 b).1 h
    rw [show Icmp.checksum b = .ok c from hc]
    exact ⟨fun _ => h, fun _ h => by cases h⟩
  · rw [show Icmp.checksum b = .panic from (needs_u16 2 b).2 (by omega)]
    exact ⟨fun h => absurd rfl h, fun h' => absurd h' h⟩

/-- C96, `ip::Packet::unchecked`: it looks at the version nibble only, and panics on an empty buffer and on
any version other than 4 and 6. -/
theorem C96_ip_unchecked (b : Bytes) :
    IpPacket.unchecked b = (if b = [] then .panic else if field b 0 4 = 4 then .ok (.v4 b)
      else if field b 0 4 = 6 then .ok (.v6 b) else .panic) := by
  unfold IpPacket.unchecked
  by_cases h0 : b = []
  · subst h0; rfl
  · have hl : 0 < b.length := List.length_pos_iff.2 h0
    have hx := idx_field (k := 0) hl
    rw [show idx b 0 = _ from hx, if_neg h0, Outcome.ok_bind]
    have hv : (BitVec.ofNat 8 (field b (8 * 0) 8) >>> 4).toNat = field b 0 4 := by
      rw [toNat_shift, ofNat_field_toNat, field_high b 0 4 4]
    have cmp : ∀ n : Nat, n < 256 → ((BitVec.ofNat 8 (field b (8 * 0) 8) >>> 4 = BitVec.ofNat 8 n) ↔
        field b 0 4 = n) := fun n hn => by
      rw [← hv, ← BitVec.toNat_inj, BitVec.toNat_ofNat, Nat.mod_eq_of_lt hn]
    by_cases h4 : field b 0 4 = 4
    · rw [if_pos h4, if_pos ((cmp 4 (by omega)).2 h4)]
    · rw [if_neg h4, if_neg (fun h => h4 ((cmp 4 (by omega)).1 h))]
      by_cases h6 : field b 0 4 = 6
      · rw [if_pos h6, if_pos ((cmp 6 (by omega)).2 h6)]
      · rw [if_neg h6, if_neg (fun h => h6 ((cmp 6 (by omega)).1 h))]


/-! ## Setters -/

/-- On every buffer that meets `ok` the setter stores `val v` in the field `(s, w)` and touches nothing else;
on every other buffer it does not succeed, and touches nothing but (part of) the field. -/
def Stores {α : Type} (set : α → Mut Bytes Unit) (ok : Bytes → Prop) (s w : Nat) (val : α → Nat) : Prop :=
  ∀ v b, (ok b → ∃ b', set v b = (.ok (), b') ∧ SetsField b b' s w (val v)) ∧
    (¬ ok b → (set v b).1 ≠ .ok () ∧ (set v b).2.length = b.length ∧
      ∀ i, i < s ∨ s + w ≤ i → bitAt (set v b).2 i = bitAt b i)

/-- The same, where a call that does not succeed leaves the buffer as it was. -/
def StoresOrNothing {α : Type} (set : α → Mut Bytes Unit) (ok : Bytes → Prop) (s w : Nat) (val : α → Nat) : Prop :=
  ∀ v b, (ok b → ∃ b', set v b = (.ok (), b') ∧ SetsField b b' s w (val v)) ∧
    (¬ ok b → (set v b).1 ≠ .ok () ∧ (set v b).2 = b)

theorem cursor_fails {b bs : Bytes} {off : Nat} (h : ¬ off + bs.length ≤ b.length) :
    (cursorWrite off bs b).1 ≠ .ok () ∧ (cursorWrite off bs b).2.length = b.length ∧
      ∀ i, i < 8 * off ∨ 8 * off + 8 * bs.length ≤ i → bitAt (cursorWrite off bs b).2 i = bitAt b i := by
  unfold cursorWrite
  by_cases h0 : off ≤ b.length
  · rw [if_pos h0, if_neg (by omega)]
    have hl : off + (bs.take (b.length - off)).length ≤ b.length := by rw [List.length_take]; omega
    refine ⟨fun h => (by cases h), length_put hl, fun i hi => ?_⟩
    apply bitAt_put_frame hl
    rw [List.length_take]
    omega
  · rw [if_neg h0]
    exact ⟨fun h => (by cases h), rfl, fun _ _ => rfl⟩

theorem stores_u16 (off : Nat) : Stores (fun v : U16 => writeU16 off v) (fun b => off + 2 ≤ b.length) (8 * off) 16
    BitVec.toNat := fun v b =>
  ⟨fun h => ⟨_, writeU16_ok h, setsField_put16 h⟩, fun h => cursor_fails (bs := be16 v) h⟩

theorem stores_u32 (off : Nat) : Stores (fun v : U32 => writeU32 off v) (fun b => off + 4 ≤ b.length) (8 * off) 32
    BitVec.toNat := fun v b =>
  ⟨fun h => ⟨_, writeU32_ok h, setsField_put32 h⟩, fun h => cursor_fails (bs := be32 v) h⟩

theorem stores_copy {α : Type} (i j : Nat) (f : α → Bytes) (hf : ∀ v, i + (f v).length = j) :
    StoresOrNothing (fun v : α => copyRange i j (f v)) (fun b => j ≤ b.length) (8 * i) (8 * (j - i))
      (fun v => beNat (f v)) := fun v b => by
  have hj := hf v
  refine ⟨fun h => ⟨_, copyRange_ok (hf v) h, ?_⟩, fun h => ?_⟩
  · have := setsField_put (b := b) (off := i) (bs := f v) (by omega)
    rwa [show (f v).length = j - i by omega] at this
  · show (copyRange i j (f v) b).1 ≠ _ ∧ (copyRange i j (f v) b).2 = b
    unfold copyRange
    rw [if_neg (by omega)]
    exact ⟨fun h => (by cases h), rfl⟩

theorem stores_byte (i : Nat) : StoresOrNothing (fun v : U8 => setIdx i v) (fun b => i + 1 ≤ b.length) (8 * i) 8
    BitVec.toNat := fun v b => by
  refine ⟨fun h => ⟨_, setIdx_ok h, setsField_put8 h⟩, fun h => ?_⟩
  show (setIdx i v b).1 ≠ _ ∧ (setIdx i v b).2 = b
  unfold setIdx
  rw [if_neg (by omega)]
  exact ⟨fun h => (by cases h), rfl⟩

/-- C96, Ethernet setters. -/
theorem C96_ether_setters_unchecked :
    StoresOrNothing Ether.setDestination (fun b => 6 ≤ b.length) 0 48 (fun a => beNat a.octets) ∧
    StoresOrNothing Ether.setSource (fun b => 12 ≤ b.length) 48 48 (fun a => beNat a.octets) ∧
    Stores Ether.setProtocol (fun b => 14 ≤ b.length) 96 16 (fun p => p.toWire.toNat) :=
  ⟨stores_copy 0 6 HwAddr.octets fun _ => rfl, stores_copy 6 12 HwAddr.octets fun _ => rfl,
    fun v b => stores_u16 12 v.toWire b⟩

/-- A setter that works on the header a length field announces. -/
theorem stores_header {α : Type} {split : Bytes → Outcome (Bytes × Bytes)} {n : Bytes → Nat} {P : Bytes → Prop}
    (hs : ∀ b, P b → n b ≤ b.length ∧ ∃ r, split b = .ok (b.take (n b), r))
    (hp : ∀ b, ¬ P b → split b = .panic) (set : α → Mut Bytes Unit) (off : Nat) (f : α → Bytes) (w : Nat)
    (hf : ∀ v, (f v).length = w) (hset : ∀ v (c : Bytes), off + w ≤ c.length → set v c = (.ok (), put c off (f v)))
    (hno : ∀ v (c : Bytes), ¬ off + w ≤ c.length → (off ≤ c.length → c.length = off) →
      (set v c).1 ≠ .ok () ∧ (set v c).2 = c)
    (hal : ∀ b, P b → off < n b → off + w ≤ n b) :
    StoresOrNothing (fun v => onHeader split (set v)) (fun b => P b ∧ off + w ≤ n b) (8 * off) (8 * w)
      (fun v => beNat (f v)) := fun v b => by
  have hw := hf v
  refine ⟨fun ⟨h1, h2⟩ => ?_, fun h => ?_⟩
  · obtain ⟨hn, r, hr⟩ := hs b h1
    refine ⟨put b off (f v), onHeader_put hr hn (by omega) (hset v _ (by rw [List.length_take]; omega)), ?_⟩
    have := setsField_put (b := b) (off := off) (bs := f v) (by omega)
    rwa [hw] at this
  · show (onHeader split (set v) b).1 ≠ _ ∧ (onHeader split (set v) b).2 = b
    by_cases h1 : P b
    · obtain ⟨hn, r, hr⟩ := hs b h1
      have hl : (b.take (n b)).length = n b := by rw [List.length_take]; omega
      have h2 : ¬ off + w ≤ n b := fun h2 => h ⟨h1, h2⟩
      obtain ⟨k1, k2⟩ := hno v (b.take (n b)) (by omega) (fun h3 => by
        have := hal b h1
        omega)
      simp only [onHeader, hr]
      rw [k2, hl, List.take_append_drop]
      exact ⟨k1, rfl⟩
    · unfold onHeader
      rw [hp b h1]
      exact ⟨fun h => (by cases h), rfl⟩


theorem cursor_at_end {c bs : Bytes} {off : Nat} (h : ¬ off + bs.length ≤ c.length)
    (h' : off ≤ c.length → c.length = off) :
    (cursorWrite off bs c).1 ≠ .ok () ∧ (cursorWrite off bs c).2 = c := by
  unfold cursorWrite
  by_cases h0 : off ≤ c.length
  · have := h' h0
    rw [if_pos h0, if_neg (by omega), show c.length - off = 0 by omega]
    refine ⟨fun h => (by cases h), ?_⟩
    show put c off (bs.take 0) = c
    rw [List.take_zero]
    unfold put
    rw [List.append_nil, List.length_nil, Nat.add_zero, List.take_append_drop]
  · rw [if_neg h0]
    exact ⟨fun h => (by cases h), rfl⟩

/-- Where an IPv4 header can be taken from. -/
def V4Cut (b : Bytes) : Prop := 4 ≤ b.length ∧ field b 4 4 * 4 ≤ b.length
/-- Where a TCP header can be taken from. -/
def TcpCut (b : Bytes) : Prop := 13 ≤ b.length ∧ field b 96 4 * 4 ≤ b.length

theorem v4_cut (b : Bytes) (h : V4Cut b) : field b 4 4 * 4 ≤ b.length ∧ ∃ r, V4.split b = .ok (b.take (field b 4 4 * 4), r) :=
  ⟨h.2, _, V4.split_eq h.1 h.2⟩
theorem v4_no_cut (b : Bytes) (h : ¬ V4Cut b) : V4.split b = .panic := by
  rw [(C96_v4_views_unchecked ⟨true, true, false⟩ b).1]; exact if_neg h
theorem tcp_cut (b : Bytes) (h : TcpCut b) :
    field b 96 4 * 4 ≤ b.length ∧ ∃ r, Tcp.split b = .ok (b.take (field b 96 4 * 4), r) :=
  ⟨h.2, _, (C96_tcp_unchecked.2.2.2.2.2.2.2.2.2.1 b).trans (if_pos h)⟩
theorem tcp_no_cut (b : Bytes) (h : ¬ TcpCut b) : Tcp.split b = .panic :=
  (C96_tcp_unchecked.2.2.2.2.2.2.2.2.2.1 b).trans (if_neg h)

theorem stores_header16 {split : Bytes → Outcome (Bytes × Bytes)} {n : Bytes → Nat} {P : Bytes → Prop}
    (hs : ∀ b, P b → n b ≤ b.length ∧ ∃ r, split b = .ok (b.take (n b), r))
    (hp : ∀ b, ¬ P b → split b = .panic) (off : Nat) (hal : ∀ b, P b → off < n b → off + 2 ≤ n b) :
    StoresOrNothing (fun v : U16 => onHeader split (writeU16 off v)) (fun b => P b ∧ off + 2 ≤ n b) (8 * off) 16
      BitVec.toNat := by
  have := stores_header hs hp (fun v : U16 => writeU16 off v) off be16 2 (fun _ => rfl)
    (fun v c h => writeU16_ok h) (fun v c h h' => cursor_at_end (bs := be16 v) h h') hal
  simp only [beNat_be16] at this
  exact this

theorem stores_header32 {split : Bytes → Outcome (Bytes × Bytes)} {n : Bytes → Nat} {P : Bytes → Prop}
    (hs : ∀ b, P b → n b ≤ b.length ∧ ∃ r, split b = .ok (b.take (n b), r))
    (hp : ∀ b, ¬ P b → split b = .panic) (off : Nat) (hal : ∀ b, P b → off < n b → off + 4 ≤ n b) :
    StoresOrNothing (fun v : U32 => onHeader split (writeU32 off v)) (fun b => P b ∧ off + 4 ≤ n b) (8 * off) 32
      BitVec.toNat := by
  have := stores_header hs hp (fun v : U32 => writeU32 off v) off be32 4 (fun _ => rfl)
    (fun v c h => writeU32_ok h) (fun v c h h' => cursor_at_end (bs := be32 v) h h') hal
  simp only [beNat_be32] at this
  exact this

theorem stores_header8 {split : Bytes → Outcome (Bytes × Bytes)} {n : Bytes → Nat} {P : Bytes → Prop}
    (hs : ∀ b, P b → n b ≤ b.length ∧ ∃ r, split b = .ok (b.take (n b), r))
    (hp : ∀ b, ¬ P b → split b = .panic) (off : Nat) :
    StoresOrNothing (fun v : U8 => onHeader split (setIdx off v)) (fun b => P b ∧ off + 1 ≤ n b) (8 * off) 8
      BitVec.toNat := by
  have := stores_header hs hp (fun v : U8 => setIdx off v) off (fun v => [v]) 1 (fun _ => rfl)
    (fun v c h => setIdx_ok h) (fun v c h _ => ((stores_byte off v c).2 h)) (fun b _ h => h)
  have h2 : (fun v : U8 => beNat [v]) = BitVec.toNat := by funext v; simp [beNat]
  rw [h2] at this
  exact this

theorem stores_header_copy {α : Type} {split : Bytes → Outcome (Bytes × Bytes)} {n : Bytes → Nat} {P : Bytes → Prop}
    (hs : ∀ b, P b → n b ≤ b.length ∧ ∃ r, split b = .ok (b.take (n b), r))
    (hp : ∀ b, ¬ P b → split b = .panic) (i j : Nat) (f : α → Bytes) (hf : ∀ v, (f v).length = j - i) (hij : i ≤ j)
    (hal : ∀ b, P b → i < n b → j ≤ n b) :
    StoresOrNothing (fun v : α => onHeader split (copyRange i j (f v))) (fun b => P b ∧ i + (j - i) ≤ n b) (8 * i)
      (8 * (j - i)) (fun v => beNat (f v)) :=
  stores_header hs hp (fun v => copyRange i j (f v)) i f (j - i) hf
    (fun v c h => copyRange_ok (by rw [hf]; omega) (by omega))
    (fun v c h _ => (stores_copy i j f (fun v => by rw [hf]; omega) v c).2 (by omega))
    (fun b h1 h2 => by have := hal b h1 h2; omega)

/-- C96, IPv4 setters: those that go through `header_mut` need a header of that many 32-bit words in the
buffer; `set_id` writes into the buffer directly, and may leave half a field behind; a DSCP or ECN value needs
two bytes. -/
theorem C96_v4_setters_unchecked :
    Stores V4.setId (fun b => 6 ≤ b.length) 32 16 BitVec.toNat ∧
    StoresOrNothing V4.setFlags (fun b => V4Cut b ∧ 8 ≤ field b 4 4 * 4) 48 16 (fun f => f.bits.toNat) ∧
    StoresOrNothing V4.setOffset (fun b => V4Cut b ∧ 8 ≤ field b 4 4 * 4) 48 16 BitVec.toNat ∧
    StoresOrNothing V4.setTtl (fun b => V4Cut b ∧ 9 ≤ field b 4 4 * 4) 64 8 BitVec.toNat ∧
    StoresOrNothing V4.setProtocol (fun b => V4Cut b ∧ 10 ≤ field b 4 4 * 4) 72 8 (fun p => p.toWire.toNat) ∧
    StoresOrNothing V4.setChecksum (fun b => V4Cut b ∧ 12 ≤ field b 4 4 * 4) 80 16 BitVec.toNat ∧
    StoresOrNothing V4.setSource (fun b => V4Cut b ∧ 16 ≤ field b 4 4 * 4) 96 32 (fun a => beNat a.octets) ∧
    StoresOrNothing V4.setDestination (fun b => V4Cut b ∧ 20 ≤ field b 4 4 * 4) 128 32 (fun a => beNat a.octets) ∧
    (∀ v (b : Bytes), b.length < 2 → (V4.setDscp v b).1 ≠ .ok () ∧ (V4.setDscp v b).2 = b ∧
      (V4.setEcn v b).1 ≠ .ok () ∧ (V4.setEcn v b).2 = b) := by
  refine ⟨stores_u16 4, fun v b => stores_header16 v4_cut v4_no_cut 6 (fun b _ h => by omega) v.bits b,
    stores_header16 v4_cut v4_no_cut 6 (fun b _ h => by omega), stores_header8 v4_cut v4_no_cut 8,
    fun v b => stores_header8 v4_cut v4_no_cut 9 v.toWire b,
    stores_header16 v4_cut v4_no_cut 10 (fun b _ h => by omega),
    stores_header_copy v4_cut v4_no_cut 12 16 Ipv4Addr.octets (fun _ => rfl) (by omega) (fun b _ h => by omega),
    stores_header_copy v4_cut v4_no_cut 16 20 Ipv4Addr.octets (fun _ => rfl) (by omega) (fun b _ h => by omega),
    fun v b h => ?_⟩
  have hp : idx b 1 = .panic := idx_short (by omega)
  unfold V4.setDscp V4.setEcn
  refine ⟨?_, ?_, ?_, ?_⟩ <;> split <;> first
    | exact fun h => (by cases h)
    | rfl
    | (rw [Mut.bind_apply]; simp only [Mut.read, hp]; done)
    | (rw [Mut.bind_apply]; simp only [Mut.read, hp]; exact fun h => (by cases h))

/-- C96, UDP setters. -/
theorem C96_udp_setters_unchecked :
    StoresOrNothing Udp.setSource (fun b => 8 ≤ b.length) 0 16 BitVec.toNat ∧
    StoresOrNothing Udp.setDestination (fun b => 8 ≤ b.length) 16 16 BitVec.toNat ∧
    StoresOrNothing Udp.setChecksum (fun b => 8 ≤ b.length) 48 16 BitVec.toNat := by
  have hs : ∀ b : Bytes, 8 ≤ b.length → 8 ≤ b.length ∧ ∃ r, Udp.split b = .ok (b.take 8, r) := fun b h =>
    ⟨h, _, Udp.split_eq h⟩
  have hp : ∀ b : Bytes, ¬ 8 ≤ b.length → Udp.split b = .panic := fun b h =>
    (C96_udp_unchecked.2.2.2.2.1 b).2 (by omega)
  have aux : ∀ off, off + 2 ≤ 8 → StoresOrNothing (fun v : U16 => onHeader Udp.split (writeU16 off v))
      (fun b => 8 ≤ b.length) (8 * off) 16 BitVec.toNat := fun off ho v b => by
    have := stores_header16 (n := fun _ => 8) hs hp off (fun _ _ _ => ho) v b
    exact ⟨fun h => this.1 ⟨h, ho⟩, fun h => this.2 fun h' => h h'.1⟩
  exact ⟨aux 0 (by omega), aux 2 (by omega), aux 6 (by omega)⟩

/-- C96, TCP setters (for `set_flags` see C27 and C79). -/
theorem C96_tcp_setters_unchecked :
    StoresOrNothing Tcp.setSource (fun b => TcpCut b ∧ 2 ≤ field b 96 4 * 4) 0 16 BitVec.toNat ∧
    StoresOrNothing Tcp.setDestination (fun b => TcpCut b ∧ 4 ≤ field b 96 4 * 4) 16 16 BitVec.toNat ∧
    StoresOrNothing Tcp.setSequence (fun b => TcpCut b ∧ 8 ≤ field b 96 4 * 4) 32 32 BitVec.toNat ∧
    StoresOrNothing Tcp.setAcknowledgment (fun b => TcpCut b ∧ 12 ≤ field b 96 4 * 4) 64 32 BitVec.toNat ∧
    StoresOrNothing Tcp.setWindow (fun b => TcpCut b ∧ 16 ≤ field b 96 4 * 4) 112 16 BitVec.toNat ∧
    StoresOrNothing Tcp.setChecksum (fun b => TcpCut b ∧ 18 ≤ field b 96 4 * 4) 128 16 BitVec.toNat ∧
    StoresOrNothing Tcp.setPointer (fun b => TcpCut b ∧ 20 ≤ field b 96 4 * 4) 144 16 BitVec.toNat :=
  ⟨stores_header16 tcp_cut tcp_no_cut 0 (fun b _ h => by omega),
    stores_header16 tcp_cut tcp_no_cut 2 (fun b _ h => by omega),
    stores_header32 tcp_cut tcp_no_cut 4 (fun b _ h => by omega),
    stores_header32 tcp_cut tcp_no_cut 8 (fun b _ h => by omega),
    stores_header16 tcp_cut tcp_no_cut 14 (fun b _ h => by omega),
    stores_header16 tcp_cut tcp_no_cut 16 (fun b _ h => by omega),
    stores_header16 tcp_cut tcp_no_cut 18 (fun b _ h => by omega)⟩

/-- C96, ICMP setters. -/
theorem C96_icmp_setters_unchecked :
    Stores Echo.setIdentifier (fun b => 6 ≤ b.length) 32 16 BitVec.toNat ∧
    Stores Echo.setSequence (fun b => 8 ≤ b.length) 48 16 BitVec.toNat ∧
    Stores Timestamp.setIdentifier (fun b => 6 ≤ b.length) 32 16 BitVec.toNat ∧
    Stores Timestamp.setSequence (fun b => 8 ≤ b.length) 48 16 BitVec.toNat ∧
    Stores Timestamp.setOriginate (fun b => 12 ≤ b.length) 64 32 BitVec.toNat ∧
    Stores Timestamp.setReceive (fun b => 16 ≤ b.length) 96 32 BitVec.toNat ∧
    Stores Timestamp.setTransmit (fun b => 20 ≤ b.length) 128 32 BitVec.toNat ∧
    Stores Information.setIdentifier (fun b => 6 ≤ b.length) 32 16 BitVec.toNat ∧
    Stores Information.setSequence (fun b => 8 ≤ b.length) 48 16 BitVec.toNat ∧
    (∀ b : Bytes, (Echo.makeRequest b).1 = .ok () ↔ 1 ≤ b.length) ∧
    (∀ b : Bytes, (Echo.makeReply b).1 = .ok () ↔ 1 ≤ b.length) := by
  have mk : ∀ (v : U8) (b : Bytes), (setIdx 0 v b).1 = .ok () ↔ 1 ≤ b.length := fun v b => by
    constructor
    · intro h
      apply Decidable.byContradiction
      intro h'
      exact ((stores_byte 0 v b).2 h').1 h
    · intro h
      rw [setIdx_ok h]
  exact ⟨stores_u16 4, stores_u16 6, stores_u16 4, stores_u16 6, stores_u32 8, stores_u32 12, stores_u32 16,
    stores_u16 4, stores_u16 6, mk _, mk _⟩

/-- `set_id` on a buffer of five bytes fails and leaves the first byte of the field changed. -/
example : V4.setId 0xabcd [0x45, 0, 0, 20, 7] = (.err .io, [0x45, 0, 0, 20, 0xab]) := by decide
example : V4Cut [0x45, 0, 0, 20] = False := by unfold V4Cut; exact eq_false (by decide)
example : V4.setTtl 9 [0x41, 0, 0, 20] = (.panic, [0x41, 0, 0, 20]) := by decide


/-- What adding back a length that was subtracted gives. -/
theorem sub_add_back (cfg : Cfg) (n : Nat) (b : Bytes) (hb : b.length < cfg.usizeMod) (hn : n < cfg.usizeMod) :
    (do
      let h ← Outcome.ok n
      let p ← subUsize cfg b.length n
      addUsize cfg h p) >>= (fun k => sliceTo b k) =
      if n ≤ b.length ∨ cfg.overflowChecks = false then .ok b else .panic := by
  simp only [Outcome.ok_bind]
  unfold subUsize addUsize
  by_cases h : n ≤ b.length
  · rw [if_pos h, if_pos (Or.inl h), Outcome.ok_bind, if_pos (by omega), Outcome.ok_bind,
      show n + (b.length - n) = b.length by omega, sliceTo_ok (Nat.le_refl _), List.take_length]
  · rw [if_neg h]
    cases hc : cfg.overflowChecks
    · rw [if_pos (Or.inr rfl)]
      simp only [Bool.false_eq_true, if_false, Outcome.ok_bind]
      rw [if_neg (by omega), Outcome.ok_bind, show n + (cfg.usizeMod + b.length - n) = b.length + cfg.usizeMod by omega,
        Nat.add_mod_right, Nat.mod_eq_of_lt hb, sliceTo_ok (Nat.le_refl _), List.take_length]
    · rw [if_neg (c := n ≤ b.length ∨ _) (by simp [h]), if_pos rfl]
      rfl

/-- C96, `as_ref()`: on a buffer too short for the header it panics with overflow checks; without them the two
wrap-arounds cancel and it returns the whole buffer. -/
theorem C96_as_ref_profile (cfg : Cfg) (b : Bytes) (hb : b.length < cfg.usizeMod) :
    Ether.asRef cfg b = (if 14 ≤ b.length ∨ cfg.overflowChecks = false then .ok b else .panic) ∧
    Icmp.asRef cfg b = (if 4 ≤ b.length ∨ cfg.overflowChecks = false then .ok b else .panic) ∧
    Echo.asRef cfg b = (if 8 ≤ b.length ∨ cfg.overflowChecks = false then .ok b else .panic) ∧
    Tcp.asRef cfg b = (if 13 ≤ b.length ∧ (field b 96 4 * 4 ≤ b.length ∨ cfg.overflowChecks = false) then .ok b
      else .panic) := by
  refine ⟨sub_add_back cfg 14 b hb (by (have := cfg.width; omega)), sub_add_back cfg 4 b hb (by (have := cfg.width; omega)),
    sub_add_back cfg 8 b hb (by (have := cfg.width; omega)), ?_⟩
  unfold Tcp.asRef Tcp.size Tcp.headerSize Tcp.payloadSize
  by_cases h : 13 ≤ b.length
  · rw [Tcp.offset_field (by omega)]
    simp only [Outcome.ok_bind, Tcp.offset_toNat]
    have := field_lt b 96 4
    have := sub_add_back cfg (field b 96 4 * 4) b hb (by (have := cfg.width; omega))
    simp only [Outcome.ok_bind] at this
    rw [this]
    simp only [h, true_and]
  · rw [(tcp_offset_needs b).2 (by omega), if_neg (by omega)]; rfl

/-- A concrete case that meets the hypotheses. -/
example (cfg : Cfg) := C96_as_ref_profile cfg Sample.udpPacket (by in_every_build)

end Verif.Props
