import Verif.Props.BuildersStack
import Verif.Samples

/-!
# C44: exactly which raw IPv4 payloads come out right

`prepare` of the IPv4 builder (`src/ip/v4/builder.rs:181-202`) counts a raw payload as header.  Its header
length in words is then `(20 + len) / 4`, of which eight bits reach the first byte, and its checksum covers
the payload as well.  The theorems below say for every payload length what comes out of that.
-/

namespace Verif.Props
open Verif Verif.Spec

/-- The first byte the builder writes, by the header length it computed. -/
theorem first_byte (q : Nat) :
    (((4#8 <<< 4) ||| BitVec.ofNat 8 q).toNat / 16 = 4 ↔ q % 256 / 16 = 0 ∨ q % 256 / 16 = 4) ∧
    (((4#8 <<< 4) ||| BitVec.ofNat 8 q).toNat / 16 = 6 ↔ q % 256 / 16 = 2 ∨ q % 256 / 16 = 6) ∧
    ((4#8 <<< 4) ||| BitVec.ofNat 8 q).toNat % 16 = q % 16 ∧
    (((4#8 <<< 4) ||| BitVec.ofNat 8 q) = 0x45#8 ↔ q % 256 = 5 ∨ q % 256 = 69) := by
  have h : ∀ k, k < 256 →
      (((4#8 <<< 4) ||| BitVec.ofNat 8 k).toNat / 16 = 4 ↔ k / 16 = 0 ∨ k / 16 = 4) ∧
      (((4#8 <<< 4) ||| BitVec.ofNat 8 k).toNat / 16 = 6 ↔ k / 16 = 2 ∨ k / 16 = 6) ∧
      ((4#8 <<< 4) ||| BitVec.ofNat 8 k).toNat % 16 = k % 16 ∧
      (((4#8 <<< 4) ||| BitVec.ofNat 8 k) = 0x45#8 ↔ k = 5 ∨ k = 69) := by decide +kernel
  have e : BitVec.ofNat 8 q = BitVec.ofNat 8 (q % 256) := by
    apply BitVec.eq_of_toNat_eq
    simp only [BitVec.toNat_ofNat]
    omega
  obtain ⟨h1, h2, h3, h4⟩ := h (q % 256) (Nat.mod_lt _ (by decide))
  rw [← e] at h1 h2 h3 h4
  exact ⟨h1, h2, by omega, h4⟩

/-- With a right first byte only the checksum can be wrong: it counts the words of the payload. -/
theorem raw_good (cfg : Cfg) {f : Ipv4Fields} (hf : Ipv4Fields.ok f) (p : Bytes)
    (hq : ((4#8 <<< 4) ||| BitVec.ofNat 8 ((20 + p.length) / 4)) = 0x45#8) :
    V4State.raw cfg ⟨f, some p⟩ = .ok (ipv4Header f (BitVec.ofNat 16 (20 + p.length))
      (ckOf (65535 + ((loopWords 12 (ipv4Header f (BitVec.ofNat 16 (20 + p.length)) 0#16) 0).sum +
        (words (p.take (p.length / 4 * 4))).sum))) ++ p) := by
  unfold V4State.raw V4State.bytes
  simp only [Option.getD_some]
  rw [hq]
  generalize BitVec.ofNat 16 (20 + p.length) = total
  have e1 : put (put (ipv4Header f 0#16 0#16 ++ p) 0 [0x45#8]) 2 (be16 total)
      = ipv4Header f total 0#16 ++ p := by
    simp [ipv4Header, be16, put]
  have hl : (ipv4Header f total 0#16).length = 20 := Ipv4Fields.ok.length hf _ _
  have e2 : (ipv4Header f total 0#16 ++ p).take ((20 + p.length) / 4 * 4) =
      ipv4Header f total 0#16 ++ p.take (p.length / 4 * 4) := by
    rw [show (20 + p.length) / 4 * 4 = (ipv4Header f total 0#16).length + p.length / 4 * 4 by omega,
      List.take_length_add_append]
  rw [e1, e2, V4.checksumOf_eq, Outcome.ok_bind]
  have hlp : (p.take (p.length / 4 * 4)).length = p.length / 4 * 4 := by rw [List.length_take]; omega
  have e3 : (loopWords 12 (ipv4Header f total 0#16 ++ p.take (p.length / 4 * 4)) 0).sum =
      (loopWords 12 (ipv4Header f total 0#16) 0).sum + (words (p.take (p.length / 4 * 4))).sum := by
    have a := loopWords_zeroed 5 (ipv4Header f total 0#16 ++ p.take (p.length / 4 * 4)) 0
      (by rw [List.length_append]; omega)
    have b := loopWords_zeroed 5 (ipv4Header f total 0#16) 0 (by omega)
    rw [oddWord_even (by rw [List.length_append]; omega)] at a
    rw [oddWord_even (by omega)] at b
    have c : zeroed (ipv4Header f total 0#16 ++ p.take (p.length / 4 * 4)) (2 * 5) =
        zeroed (ipv4Header f total 0#16) (2 * 5) ++ p.take (p.length / 4 * 4) := by
      unfold zeroed
      rw [List.take_append_of_le_length (by omega), List.drop_append_of_le_length (by omega)]
      simp only [List.append_assoc]
    rw [c, words_append (by
      unfold zeroed
      simp only [List.length_append, List.length_take, List.length_drop, List.length_cons, List.length_nil]
      omega), List.sum_append] at a
    simp only [Nat.zero_add, Nat.add_zero, Nat.reduceMul, Nat.reduceAdd] at a b
    rw [a, ← b]
  rw [e3]
  generalize ckOf _ = ck
  refine congrArg Outcome.ok ?_
  simp [ipv4Header, be16, put]

/-- C44, exactly: for every history with one raw payload of a length that fits the total length field,
`build()` succeeds, and the packet is the one asked for if and only if the number of whole words in the
payload is 0 or 64 modulo 256 and the one's complement sum of those words is zero.  In particular payloads of
at most three bytes are right; of the longer ones only those of 256 to 259, 1024 to 1027, … bytes can be, and
only if their sum is a multiple of 0xffff. -/
theorem C44_v4_payload_exact_partial (cfg : Cfg) (vops : List V4Op) (hr : ∀ op ∈ vops, op.InRange)
    (payload : Bytes) (h0 : vops.filterMap V4Op.payload? = [payload]) (hp : payload.length ≤ 65515) :
    ∃ out, ipv4Program cfg Dynamic.new vops .plain = .ok out ∧
      ((∃ p, ReadsV4 cfg vops p payload out ∧ p.toWire = (last V4Op.protocol? (.ofWire 0) vops).toWire) ↔
        (payload.length / 4 % 256 = 0 ∨ payload.length / 4 % 256 = 64) ∧
        (words (payload.take (payload.length / 4 * 4))).sum % 65535 = 0) := by
  obtain ⟨f, ha, e⟩ := ipv4_plain cfg vops hr (by rw [h0]; exact Nat.le_refl _)
    (v4_sane_of_single (cfg := cfg) h0 (by (have := cfg.width; omega)))
  have hl : (vops.filterMap V4Op.payload?).getLast? = some payload := by rw [h0]; rfl
  rw [hl] at e
  obtain ⟨k1, -, k3, k4⟩ := first_byte ((20 + payload.length) / 4)
  by_cases hq : ((4#8 <<< 4) ||| BitVec.ofNat 8 ((20 + payload.length) / 4)) = 0x45#8
  · rw [raw_good cfg ha.ok payload hq] at e
    have hq' := k4.1 hq
    obtain ⟨ck, e2, hreads⟩ := sealV4_reads cfg ha hr f.protocol payload (by omega)
    have e2' := e2
    unfold sealV4 at e2'
    rw [V4.checksumOf_eq, Outcome.ok_bind] at e2'
    generalize hA : (loopWords 12 (ipv4Header f (BitVec.ofNat 16 (20 + payload.length)) 0#16) 0).sum = A at *
    generalize (words (payload.take (payload.length / 4 * 4))).sum = S at *
    refine ⟨_, e, ?_⟩
    have hck : ckOf (65535 + (A + S)) = ckOf (65535 + A) ↔ S % 65535 = 0 := by
      rw [ckOf_inj, norm_eq_iff]
      omega
    constructor
    · rintro ⟨p, hr', -⟩
      refine ⟨by omega, ?_⟩
      rw [← hck]
      have hv := hr'.valid
      unfold V4.isValid at hv
      obtain ⟨⟨s, hs⟩, ⟨d, hd⟩⟩ := id ha.ok
      obtain ⟨-, -, -, -, -, -, -, -, hc, -, -, hh, -⟩ := v4_view f s d hs hd
        (BitVec.ofNat 16 (20 + payload.length)) (ckOf (65535 + (A + S))) payload
      rw [hh, hc] at hv
      simp only [Outcome.ok_bind] at hv
      rw [v4_checksum_skip cfg ha.ok, V4.checksumOf_eq, hA] at hv
      simp only [Outcome.ok_bind] at hv
      exact (beq_ok_true.1 hv).symm
    · rintro ⟨-, hS⟩
      refine ⟨IpProtocol.ofWire f.protocol, ?_, by rw [C40_ip_protocol.wire, ha.protocol]⟩
      rw [hck.2 hS]
      have e3 : ipv4Header f (BitVec.ofNat 16 (20 + payload.length)) (ckOf (65535 + A)) ++ payload =
          ipv4Header f (BitVec.ofNat 16 (20 + payload.length)) ck ++ payload := Outcome.ok.inj e2'
      rw [e3]
      exact hreads
  · obtain ⟨ck, hraw⟩ := raw_shape cfg ha.ok payload
    rw [hraw] at e
    have hs := ha.src; have hd := ha.dst
    generalize hout : [(4#8 <<< 4) ||| BitVec.ofNat 8 ((20 + payload.length) / 4), f.tos] ++
        be16 (BitVec.ofNat 16 (20 + payload.length)) ++ be16 f.id ++ be16 f.fragment ++ [f.ttl, f.protocol] ++
        be16 ck ++ f.src ++ f.dst = hd0 at e
    have hlen : hd0.length = 20 := by rw [← hout, hs, hd]; rfl
    have g0 : (hd0 ++ payload).getD 0 0#8 = (4#8 <<< 4) ||| BitVec.ofNat 8 ((20 + payload.length) / 4) := by
      rw [← hout]; rfl
    have hL : (hd0 ++ payload).length = 20 + payload.length := by rw [List.length_append, hlen]
    refine ⟨_, e, ?_⟩
    have hno : ¬ (payload.length / 4 % 256 = 0 ∨ payload.length / 4 % 256 = 64) :=
      fun h => hq (k4.2 (by omega))
    refine ⟨?_, fun h => absurd h.1 hno⟩
    rintro ⟨p, hr', -⟩
    exfalso
    have hok := (V4.new_ok_iff.1 hr'.accepted).2
    have f0 := field_hi4 (hd0 ++ payload) 0
    have f1 := field_lo4 (hd0 ++ payload) 0
    rw [g0] at f0 f1
    simp only [Nat.mul_zero, Nat.zero_add] at f0 f1
    rw [hok.version] at f0
    have hv := k1.1 f0.symm
    have hi := V4.ihl_field (b := hd0 ++ payload) (by omega)
    have hi' := hr'.ihl
    rw [hi, f1, k3] at hi'
    have hi' := congrArg BitVec.toNat (Outcome.ok.inj hi')
    have h5 : (5 : U8).toNat = 5 := rfl
    rw [h5] at hi'
    simp only [BitVec.toNat_ofNat] at hi'
    omega

/-- A concrete case that meets the hypotheses. -/
example (cfg : Cfg) := C44_v4_payload_exact_partial cfg [.ttl 64, .payload [1, 2, 3]] (by call_by_call) [1, 2, 3] rfl
    (by decide)

/-- C44 is false of the code for every other length: no payload of 4 bytes or more whose number of whole words
is neither 0 nor 64 modulo 256 comes out right. -/
theorem C44_v4_payload_length_refuted (cfg : Cfg) (vops : List V4Op) (hr : ∀ op ∈ vops, op.InRange)
    (payload : Bytes) (h0 : vops.filterMap V4Op.payload? = [payload]) (hp : payload.length ≤ 65515)
    (h1 : payload.length / 4 % 256 ≠ 0) (h2 : payload.length / 4 % 256 ≠ 64) (out : Bytes)
    (h : ipv4Program cfg Dynamic.new vops .plain = .ok out) (p : IpProtocol)
    (hw : p.toWire = (last V4Op.protocol? (.ofWire 0) vops).toWire) : ¬ ReadsV4 cfg vops p payload out := by
  obtain ⟨out', e, hiff⟩ := C44_v4_payload_exact_partial cfg vops hr payload h0 hp
  have : out' = out := Outcome.ok.inj (e.symm.trans h)
  subst this
  intro hc
  rcases (hiff.1 ⟨p, hc, hw⟩).1 with h | h
  · exact h1 h
  · exact h2 h

/-- The condition of the exact theorem is met by every payload of at most three bytes and by 256 zero bytes,
and not by 256 bytes with a sum of one. -/
example : (words (([1, 2, 3] : Bytes).take (3 / 4 * 4))).sum % 65535 = 0 ∧
    (256 / 4 % 256 = 64 ∧ (words ((zeros 256).take (256 / 4 * 4))).sum % 65535 = 0) ∧
    (words ((put (zeros 256) 1 [1]).take (256 / 4 * 4))).sum % 65535 ≠ 0 := by decide +kernel

/-- C44 inside Ethernet, exactly: what `build()` of the frame gives around an IPv4 packet with a raw payload
of any length.  The version nibble in the packet's first byte is 4 or-ed with bits 4 to 7 of the
number of words `(20 + len) / 4`; the frame is labelled IPv4 or IPv6 by it, and any other nibble panics. -/
theorem C44_in_ethernet_exact_partial (cfg : Cfg) (eops : List EtherOp) (vops : List V4Op) (payload : Bytes)
    (he : eops.filterMap EtherOp.payload? = []) (hr : ∀ op ∈ vops, op.InRange)
    (h0 : vops.filterMap V4Op.payload? = [payload]) (hp : payload.length ≤ 65515) :
    ∃ out, ipv4Program cfg Dynamic.new vops .plain = .ok out ∧
      let n := (20 + payload.length) / 4 % 256 / 16
      (n = 0 ∨ n = 4 → ∃ frame, ethernetProgram cfg Dynamic.new eops vops .plain = .ok frame ∧
        ReadsEther eops .ipv4 out frame) ∧
      (n = 2 ∨ n = 6 → ∃ frame, ethernetProgram cfg Dynamic.new eops vops .plain = .ok frame ∧
        ReadsEther eops .ipv6 out frame) ∧
      (n ≠ 0 → n ≠ 2 → n ≠ 4 → n ≠ 6 → ethernetProgram cfg Dynamic.new eops vops .plain = .panic) := by
  have hs := v4_sane_of_single (cfg := cfg) h0 (by (have := cfg.width; omega))
  obtain ⟨f, ha, e⟩ := ipv4_plain cfg vops hr (by rw [h0]; exact Nat.le_refl _) hs
  have hl : (vops.filterMap V4Op.payload?).getLast? = some payload := by rw [h0]; rfl
  obtain ⟨ck, hraw⟩ := raw_shape cfg ha.ok payload
  rw [hl, hraw] at e
  refine ⟨_, e, ?_⟩
  intro n
  obtain ⟨es, hd, hs, h⟩ := ethernet_program cfg eops vops .plain he hs (fun v hv => by cases hv)
  obtain ⟨k1, k2, -, -⟩ := first_byte ((20 + payload.length) / 4)
  have h4 : ∀ x : U8, x >>> 4 = 4#8 ↔ x.toNat / 16 = 4 := by decide +kernel
  have h6 : ∀ x : U8, x >>> 4 = 6#8 ↔ x.toNat / 16 = 6 := by decide +kernel
  have hn : n = (20 + payload.length) / 4 % 256 / 16 := rfl
  rw [h, e, Outcome.ok_bind]
  refine ⟨fun hc => ⟨_, ?_, readsEther eops .ipv4 rfl _⟩, fun hc => ⟨_, ?_, readsEther eops .ipv6 rfl _⟩, fun c0 c2 c4 c6 => ?_⟩
  · have hx := (h4 _).2 (k1.2 hc)
    unfold EtherState.seal
    simp only [List.cons_append]
    rw [if_pos hx, hd, hs]
    rfl
  · have hx := (h6 _).2 (k2.2 hc)
    unfold EtherState.seal
    simp only [List.cons_append]
    rw [if_neg (by rw [hx]; decide), if_pos hx, hd, hs]
    rfl
  · have hx : ¬ _ := fun hx => (k1.1 ((h4 _).1 hx)).elim c0 c4
    have hy : ¬ _ := fun hx => (k2.1 ((h6 _).1 hx)).elim c2 c6
    unfold EtherState.seal
    simp only [List.cons_append]
    rw [if_neg hx, if_neg hy]

/-- A concrete case that meets the hypotheses. -/
example (cfg : Cfg) := C44_in_ethernet_exact_partial cfg Sample.eops [.ttl 64, .payload [1, 2, 3]] [1, 2, 3]
    (by call_by_call) (by call_by_call) rfl (by decide)

end Verif.Props
