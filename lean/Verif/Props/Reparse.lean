import Verif.Props.SizesTight
import Verif.Samples

/-! # C93: the bytes of a packet are a packet -/

namespace Verif.Props
open Verif Verif.Spec

/-- What `as_ref()` returns starts the buffer, is accepted by the same type, and reads the same. -/
def Reparses (k : Kind) (cfg : Cfg) (b : Bytes) : Prop :=
  ∃ r pad, k.asRef cfg b = .ok r ∧ b = r ++ pad ∧ k.new r = .ok r ∧ k.asRef cfg r = .ok r ∧
    k.header r = k.header b ∧ k.payload r = k.payload b

theorem reparses_self {k : Kind} {cfg : Cfg} {b : Bytes} (h0 : k.new b = .ok b) (h1 : k.asRef cfg b = .ok b) :
    Reparses k cfg b := ⟨b, [], h1, (List.append_nil b).symm, h0, h1, rfl, rfl⟩

/-- C93 for Ethernet, TCP, ICMP and echo: `as_ref()` is the whole buffer; and for UDP, where it ends with the
datagram. -/
theorem C93_reparse (cfg : Cfg) (b : Bytes) (hb : b.length < cfg.usizeMod) :
    (Ether.new b = .ok b → Reparses .ether cfg b) ∧
    (Tcp.new b = .ok b → Reparses .tcp cfg b) ∧
    (Icmp.new b = .ok b → Reparses .icmp cfg b) ∧
    (Echo.new b = .ok b → Reparses .echo cfg b) ∧
    (Udp.new b = .ok b → Reparses .udp cfg b) := by
  refine ⟨fun h => ?_, fun h => ?_, fun h => ?_, fun h => ?_, fun h => ?_⟩
  · obtain ⟨-, -, -, -, -, e, -⟩ := C10_ether_views cfg b hb h
    exact reparses_self h e
  · obtain ⟨-, -, -, -, e⟩ := C24_tcp_views cfg b hb h
    exact reparses_self h e
  · obtain ⟨-, -, -, -, -, -, -, e, -⟩ := C34_icmp_views cfg b hb h
    exact reparses_self h e
  · obtain ⟨-, -, -, -, -, -, -, -, -, e⟩ := C36_echo_fields cfg b hb h
    exact reparses_self h e
  · obtain ⟨-, -, -, -, -, e⟩ := C21_udp_views b h
    obtain ⟨-, hl, ht⟩ := Udp.new_ok_iff.1 h
    rw [← List.take_add] at e
    obtain ⟨n, hn⟩ : ∃ n, n = 8 + (field b 32 16 - 8) := ⟨_, rfl⟩
    rw [← hn] at e
    have hnl : n ≤ b.length := by omega
    have hr : (b.take n).length = n := by rw [List.length_take, Nat.min_eq_left hnl]
    have hsplit : b = b.take n ++ b.drop n := (List.take_append_drop n b).symm
    have hf : field (b.take n) 32 16 = field b 32 16 := by
      have := field_pad (b := b.take n) (b.drop n) (s := 32) (w := 16) (by omega)
      rw [← hsplit] at this
      exact this.symm
    have h' : Udp.new (b.take n) = .ok (b.take n) := Udp.new_ok_iff.2 ⟨rfl, by omega, by omega⟩
    obtain ⟨-, -, -, -, -, p6, p7, p8, -⟩ := C88_udp_padding (b.take n) (b.drop n) h'
    rw [← hsplit] at p6 p7 p8
    exact ⟨b.take n, b.drop n, e, hsplit, h', p8.symm.trans e, p6.symm, p7.symm⟩

/-- C93 for IPv4: exactly the packets of which at least the fixed header counts as part of the packet. -/
theorem C93_v4_reparse_iff (cfg : Cfg) (b : Bytes) (h : V4.new b = .ok b) :
    Reparses .v4 cfg b ↔ 20 ≤ 4 * field b 4 4 ∨ 20 ≤ field b 16 16 := by
  obtain ⟨-, -, hd, pl, e1, e2, e3, -, -, e4, e5⟩ := C15_v4_split b h
  obtain ⟨f1, f2, -⟩ := C15_v4_split b h
  rw [f1] at e1; cases e1
  rw [f2] at e2; cases e2
  rw [← List.take_add] at e3
  obtain ⟨-, hok⟩ := V4.new_ok_iff.1 h
  have k1 := hok.long
  have k2 := hok.version
  have k3 := hok.header
  have k4 := hok.total
  obtain ⟨n, hn⟩ : ∃ n, n = 4 * field b 4 4 + (field b 16 16 - 4 * field b 4 4) := ⟨_, rfl⟩
  rw [← hn] at e3
  have hnl : n ≤ b.length := by omega
  have hr : (b.take n).length = n := by rw [List.length_take, Nat.min_eq_left hnl]
  have hsplit : b = b.take n ++ b.drop n := (List.take_append_drop n b).symm
  constructor
  · rintro ⟨r, pad, g1, g2, g3, -⟩
    have : Outcome.ok (b.take n) = Outcome.ok r := e3.symm.trans g1
    injection this with this
    subst this
    have := (V4.new_ok_iff.1 g3).2.long
    omega
  · intro h20
    have hf : ∀ {s w}, s + w ≤ 160 → field (b.take n) s w = field b s w := by
      intro s w hsw
      have := field_pad (b := b.take n) (b.drop n) (s := s) (w := w) (by omega)
      rw [← hsplit] at this
      exact this.symm
    have h' : V4.new (b.take n) = .ok (b.take n) := by
      rw [C12_v4_new_accept, hr, hf (by decide), hf (by decide), hf (by decide), if_neg (by omega), if_neg (by omega),
        if_neg (by omega)]
    obtain ⟨-, -, -, -, -, -, -, -, -, -, -, -, -, -, p14, p15, -, p17, -⟩ := C88_v4_padding cfg (b.take n) (b.drop n) h'
    rw [← hsplit] at p14 p15 p17
    exact ⟨b.take n, b.drop n, e3, hsplit, h', p17.symm.trans e3, p14.symm, p15.symm⟩

/-- For the types whose payload is everything behind a fixed number of bytes, `as_ref()` reads the same
only if it is the whole buffer. -/
theorem reparses_whole {k : Kind} {cfg : Cfg} {b : Bytes} {n m : Nat} (h0 : k.new b = .ok b)
    (hr : k.asRef cfg b = .ok (b.take n)) (hn : n ≤ b.length) (hm : m ≤ b.length)
    (hp : ∀ c, k.new c = .ok c → m ≤ c.length → k.payload c = .ok (c.drop m)) (hmn : m ≤ n) :
    Reparses k cfg b ↔ b.length = n := by
  constructor
  · rintro ⟨r, pad, g1, g2, g3, -, -, g6⟩
    have : Outcome.ok (b.take n) = Outcome.ok r := hr.symm.trans g1
    injection this with this
    subst this
    have hl : (b.take n).length = n := by rw [List.length_take, Nat.min_eq_left hn]
    rw [hp _ g3 (by omega), hp _ h0 hm] at g6
    injection g6 with g6
    have := congrArg List.length g6
    rw [List.length_drop, List.length_drop, hl] at this
    omega
  · intro hl
    rw [List.take_of_length_le (by omega)] at hr
    exact reparses_self h0 hr

theorem quotedAsRef_eq (cfg : Cfg) (b : Bytes) (hb : b.length < cfg.usizeMod) (hl : 8 ≤ b.length) :
    ∃ n, quotedAsRef cfg b = .ok (b.take n) ∧ 8 ≤ n ∧ n ≤ b.length ∧
      (b.length = n ↔ (V4.new (b.drop 8) = .ok (b.drop 8) → b.length = 8 + 4 * field b 68 4)) := by
  have hps := quotedPayloadSize_eq cfg b hl
  obtain ⟨m, hm⟩ : ∃ m, m = if V4.new (b.drop 8) = .ok (b.drop 8) then 4 * field b 68 4 else b.length - 8 :=
    ⟨_, rfl⟩
  rw [← hm] at hps
  have hle : 8 + m ≤ b.length := by
    rw [hm]
    split
    · rename_i hv
      have := (V4.new_ok_iff.1 hv).2.header
      rw [field_drop b 8 4 4, List.length_drop] at this
      have e : field b (8 * 8 + 4) 4 = field b 68 4 := rfl
      rw [e] at this
      omega
    · omega
  refine ⟨8 + m, ?_, by omega, hle, ?_⟩
  · unfold quotedAsRef
    rw [hps, Outcome.ok_bind, addUsize_ok (by omega), Outcome.ok_bind, sliceTo_ok hle]
  · rw [hm]
    split
    · rename_i hv
      exact ⟨fun e _ => e, fun e => e hv⟩
    · rename_i hv
      exact ⟨fun _ e => absurd e hv, fun _ => by omega⟩

/-- C93 for the remaining types: exactly when. -/
theorem C93_others_reparse_iff (cfg : Cfg) (b : Bytes) (hb : b.length < cfg.usizeMod) :
    (V6.new b = .ok b → ¬ Reparses .v6 cfg b) ∧
    (Timestamp.new b = .ok b → (Reparses .timestamp cfg b ↔ b.length = 20)) ∧
    (Information.new b = .ok b → (Reparses .information cfg b ↔ b.length = 8)) ∧
    (Previous.new b = .ok b → (Reparses .previous cfg b ↔
      (V4.new (b.drop 8) = .ok (b.drop 8) → b.length = 8 + 4 * field b 68 4))) ∧
    (Redirect.new b = .ok b → (Reparses .redirect cfg b ↔
      (V4.new (b.drop 8) = .ok (b.drop 8) → b.length = 8 + 4 * field b 68 4))) ∧
    (ParamProblem.new b = .ok b → (Reparses .parameterProblem cfg b ↔
      (V4.new (b.drop 8) = .ok (b.drop 8) → b.length = 8 + 4 * field b 68 4))) := by
  refine ⟨fun h => ?_, fun h => ?_, fun h => ?_, fun h => ?_, fun h => ?_, fun h => ?_⟩
  · rintro ⟨r, pad, g1, g2, g3, -⟩
    have : Outcome.ok ([] : Bytes) = Outcome.ok r := g1
    injection this with this
    subst this
    exact absurd g3 (by decide)
  · obtain ⟨hl, -⟩ := timestamp_ok h
    refine reparses_whole (m := 8) h (show sliceTo b 20 = _ from sliceTo_ok hl) hl (by omega) ?_ (by decide)
    intro c _ hc
    show (Timestamp.split c >>= fun s => Outcome.ok s.2) = _
    unfold Timestamp.split; rw [splitAt_ok hc]; rfl
  · obtain ⟨hl, -⟩ := information_ok h
    refine reparses_whole (m := 8) h (show sliceTo b 8 = _ from sliceTo_ok hl) hl (by omega) ?_ (by decide)
    intro c _ hc
    show (Information.split c >>= fun s => Outcome.ok s.2) = _
    unfold Information.split; rw [splitAt_ok hc]; rfl
  · have hl := quoted_ok (.inl h)
    obtain ⟨n, e1, e2, e3, e4⟩ := quotedAsRef_eq cfg b hb hl
    rw [← e4]
    refine reparses_whole (k := .previous) (m := 8) h e1 e3 hl ?_ e2
    intro c _ hc
    show (Previous.split c >>= fun s => Outcome.ok s.2) = _
    rw [previous_split hc]; rfl
  · have hl := quoted_ok (.inr (.inl h))
    obtain ⟨n, e1, e2, e3, e4⟩ := quotedAsRef_eq cfg b hb hl
    rw [← e4]
    refine reparses_whole (k := .redirect) (m := 8) h e1 e3 hl ?_ e2
    intro c _ hc
    show (Redirect.split c >>= fun s => Outcome.ok s.2) = _
    unfold Redirect.split; rw [splitAt_ok hc]; rfl
  · have hl := quoted_ok (.inr (.inr h))
    obtain ⟨n, e1, e2, e3, e4⟩ := quotedAsRef_eq cfg b hb hl
    rw [← e4]
    refine reparses_whole (k := .parameterProblem) (m := 8) h e1 e3 hl ?_ e2
    intro c _ hc
    show (ParamProblem.split c >>= fun s => Outcome.ok s.2) = _
    rw [paramProblem_split hc]; rfl

/-- A concrete case that meets the hypotheses. -/
example (cfg : Cfg) := C93_others_reparse_iff cfg Sample.udpPacket (by in_every_build)

/-- C93 is false of the code for these accepted packets: an IPv4 packet with an IHL and a total length of zero
(its bytes are none), an IPv6 packet (likewise, and parsing them panics), a destination-unreachable message
quoting a whole 28-byte packet (its bytes end in the middle of the quote, which is then not readable). -/
theorem C93_reparse_refuted (cfg : Cfg) :
    (∃ b, V4.new b = .ok b ∧ ¬ Reparses .v4 cfg b ∧ V4.asRef b = .ok []) ∧
    (∃ b, V6.new b = .ok b ∧ V6.asRef b = .ok [] ∧ V6.new [] = .panic ∧ IpPacket.new [] = .panic) ∧
    (∃ b r, Previous.new b = .ok b ∧ (∃ q, Previous.packet b = .ok q) ∧ Previous.asRef cfg b = .ok r ∧
      Previous.new r = .ok r ∧ Previous.packet r = .err .smallBuffer) := by
  refine ⟨⟨0x40 :: zeros 19, by decide, ?_, by decide⟩, ⟨[0x60], by decide, by decide, by decide, by decide⟩, ?_⟩
  · rw [C93_v4_reparse_iff cfg _ (by decide)]; decide
  · refine ⟨(3 :: zeros 7) ++ ([0x45, 0, 0, 28] ++ zeros 24), (3 :: zeros 7) ++ ([0x45, 0, 0, 28] ++ zeros 16),
      by decide, ⟨[0x45, 0, 0, 28] ++ zeros 24, by decide⟩, ?_, by decide, by decide⟩
    obtain ⟨oc, ea, nw⟩ := cfg
    cases oc <;> cases ea <;> cases nw <;> decide

/-- C93 holds of a packet with four bytes of padding behind it. -/
example (cfg : Cfg) : Reparses .v4 cfg ([0x45, 0, 0, 24] ++ zeros 24) ∧ Reparses .udp cfg ([0, 1, 0, 2, 0, 9] ++ zeros 7) :=
  ⟨(C93_v4_reparse_iff cfg _ (by decide)).2 (.inl (by decide)),
   (C93_reparse cfg _ (by in_every_build)).2.2.2.2 (by decide)⟩

end Verif.Props
