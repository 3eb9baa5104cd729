import Verif.Props.Options
import Verif.Samples

/-! # C99: the size traits of options -/

namespace Verif.Props
open Verif Verif.Spec

/-- The four size functions of an accepted option, in terms of its `length()`. -/
theorem option_sizes (cfg : Cfg) (k : OptKind) {o : Bytes} {n : U8} (h : Opt.length k o = .ok n) (h0 : n ≠ 0#8) :
    Opt.headerSize k o = .ok (if n = 1#8 then 1 else 2) ∧
    Opt.payloadSize cfg k o = .ok (n.toNat - 2) ∧
    Opt.size cfg k o = .ok n.toNat := by
  have hn : n ≠ 1#8 → 2 ≤ n.toNat := by
    intro h1
    have e0 : n.toNat ≠ 0 := fun h => h0 (BitVec.eq_of_toNat_eq h)
    have e1 : n.toNat ≠ 1 := fun h => h1 (BitVec.eq_of_toNat_eq h)
    omega
  have h1 : Opt.headerSize k o = .ok (if n = 1#8 then 1 else 2) := by
    unfold Opt.headerSize
    rw [h, Outcome.ok_bind]
    split <;> rfl
  have h2 : Opt.payloadSize cfg k o = .ok (n.toNat - 2) := by
    unfold Opt.payloadSize
    rw [h, Outcome.ok_bind]
    split
    · next e => rw [e]; rfl
    · next e => rw [subUsize_ok (hn e)]
  refine ⟨h1, h2, ?_⟩
  unfold Opt.size
  rw [h1, h2]
  simp only [Outcome.ok_bind]
  have := n.isLt
  split
  · next e => rw [e]; exact addUsize_ok (.inl (by decide))
  · next e =>
    have := hn e
    rw [addUsize_ok (by omega)]
    congr 1
    omega

/-- C99, the part that holds: the header size of every option is within the declared bounds; its payload size is within
them exactly if `length()` is at most 34; and `size()` is `length()`. -/
theorem C99_option_bounds_partial (cfg : Cfg) (k : OptKind) {o : Bytes} {n : U8} (h : Opt.length k o = .ok n)
    (h0 : n ≠ 0#8) :
    ∃ hs ps, Opt.headerSize k o = .ok hs ∧ Opt.payloadSize cfg k o = .ok ps ∧ Opt.size cfg k o = .ok n.toNat ∧
      Opt.headerMin ≤ hs ∧ hs ≤ Opt.headerMax ∧ Opt.payloadMin ≤ ps ∧ (ps ≤ Opt.payloadMax ↔ n.toNat ≤ 34) := by
  obtain ⟨h1, h2, h3⟩ := option_sizes cfg k h h0
  refine ⟨_, _, h1, h2, h3, ?_, ?_, Nat.zero_le _, ?_⟩
  · unfold Opt.headerMin; split <;> omega
  · unfold Opt.headerMax; split <;> omega
  · unfold Opt.payloadMax; omega

/-- A concrete case that meets the hypotheses. -/
example (cfg : Cfg) := C99_option_bounds_partial cfg tcpOptKind (o := [2, 4, 5, 180]) (n := 4) (by decide) (by decide)

/-- C99: a `length()` of 0 makes both `payload_size()` and `size()` panic with overflow checks; without them
`payload_size()` wraps far above the bound and `size()` is 0. -/
theorem C99_zero_length_refuted (cfg : Cfg) (k : OptKind) {o : Bytes} (h : Opt.length k o = .ok 0#8) :
    (cfg.overflowChecks = true → Opt.payloadSize cfg k o = .panic ∧ Opt.size cfg k o = .panic) ∧
    (cfg.overflowChecks = false → Opt.payloadSize cfg k o = .ok (cfg.usizeMod - 2) ∧ Opt.size cfg k o = .ok 0) := by
  have h1 : Opt.headerSize k o = .ok 2 := by unfold Opt.headerSize; rw [h]; rfl
  have h2 : Opt.payloadSize cfg k o = subUsize cfg 0 2 := by unfold Opt.payloadSize; rw [h]; rfl
  unfold Opt.size
  rw [h1, h2, Outcome.ok_bind]
  unfold subUsize addUsize Cfg.usizeMod
  constructor <;> intro hc <;> rw [hc] <;> cases cfg.narrow <;> simp

/-- A concrete case that meets the hypotheses. -/
example (cfg : Cfg) := C99_zero_length_refuted cfg tcpOptKind (o := [2, 0, 5, 180]) (by decide)

/-- The bounds are attained, for both kinds of option: header sizes 1 and 2, payload sizes 0 and 32. -/
theorem C99_option_bounds_attained_partial (cfg : Cfg) (k : OptKind) (hk : k = tcpOptKind ∨ k = v4OptKind) :
    (∃ o, Opt.new k o = .ok o ∧ Opt.headerSize k o = .ok Opt.headerMin ∧ Opt.payloadSize cfg k o = .ok Opt.payloadMin) ∧
    (∃ o, Opt.new k o = .ok o ∧ Opt.headerSize k o = .ok Opt.headerMax ∧ Opt.payloadSize cfg k o = .ok Opt.payloadMax) := by
  rcases hk with rfl | rfl
  · exact ⟨⟨[1], by decide, by decide, rfl⟩,
      ⟨5 :: 34 :: zeros 32, by decide +kernel, by decide +kernel, by cases cfg; rfl⟩⟩
  · exact ⟨⟨[1], by decide, by decide, rfl⟩,
      ⟨7 :: 34 :: zeros 32, by decide +kernel, by decide +kernel, by cases cfg; rfl⟩⟩

/-- A concrete case that meets the hypotheses. -/
example (cfg : Cfg) := C99_option_bounds_attained_partial cfg tcpOptKind (.inl rfl)

/-- C99 is false of the code: in an IPv4 header and in a TCP header of the greatest size there is room for an option of
40 bytes; the iterator yields it, and its payload is longer than the declared bound. -/
theorem C99_option_payload_max_refuted (cfg : Cfg) :
    (∃ p area o, V4.new p = .ok p ∧ V4.options p = .ok area ∧ Opt.next cfg v4OptKind area = (.ok (some (.ok o)), []) ∧
      Opt.payloadSize cfg v4OptKind o = .ok 38 ∧ Opt.payloadMax < 38) ∧
    (∃ p area o, Tcp.new p = .ok p ∧ Tcp.options p = .ok area ∧ Opt.next cfg tcpOptKind area = (.ok (some (.ok o)), []) ∧
      Opt.payloadSize cfg tcpOptKind o = .ok 38 ∧ Opt.payloadMax < 38) := by
  obtain ⟨oc, ea, nw⟩ := cfg
  constructor
  · refine ⟨[0x4f, 0, 0, 60] ++ zeros 16 ++ (7 :: 40 :: zeros 38), 7 :: 40 :: zeros 38, 7 :: 40 :: zeros 38,
      by decide +kernel, by decide +kernel, ?_, ?_, by decide⟩ <;> cases oc <;> cases ea <;> cases nw <;> first | rfl | decide +kernel
  · refine ⟨zeros 12 ++ [0xf0] ++ zeros 7 ++ (5 :: 40 :: zeros 38), 5 :: 40 :: zeros 38, 5 :: 40 :: zeros 38,
      by decide +kernel, by decide +kernel, ?_, ?_, by decide⟩ <;> cases oc <;> cases ea <;> cases nw <;> first | rfl | decide +kernel

/-- C99: for an option of `length()` 2 or more that is there completely, header() and payload() have the sizes the traits
give and as_ref() is both together. -/
theorem C99_option_slices_partial (cfg : Cfg) (k : OptKind) {o : Bytes} {n : U8} (h : Opt.length k o = .ok n)
    (h2 : 2 ≤ n.toNat) (hl : n.toNat ≤ o.length) :
    ∃ hd pl, Opt.header k o = .ok hd ∧ Opt.payload k o = .ok pl ∧ Opt.headerSize k o = .ok hd.length ∧
      Opt.payloadSize cfg k o = .ok pl.length ∧ Opt.asRef cfg k o = .ok (hd ++ pl) ∧ hd = o.take 2 ∧
      pl = (o.take n.toNat).drop 2 := by
  have h0 : n ≠ 0#8 := by intro e; rw [e] at h2; exact absurd h2 (by decide)
  have h1 : n ≠ 1#8 := by intro e; rw [e] at h2; exact absurd h2 (by decide)
  obtain ⟨s1, s2, s3⟩ := option_sizes cfg k h h0
  rw [if_neg h1] at s1
  have hs : Opt.split k o = .ok ((o.take n.toNat).take 2, (o.take n.toNat).drop 2) := by
    unfold Opt.split
    rw [h, Outcome.ok_bind, if_neg h1, sliceTo_ok hl, Outcome.ok_bind, splitAt_ok (by rw [List.length_take]; omega)]
  refine ⟨(o.take n.toNat).take 2, (o.take n.toNat).drop 2, ?_, ?_, ?_, ?_, ?_, ?_, rfl⟩
  · unfold Opt.header; rw [hs]; rfl
  · unfold Opt.payload; rw [hs]; rfl
  · rw [s1, List.length_take, List.length_take]
    congr 1
    omega
  · rw [s2, List.length_drop, List.length_take]
    congr 1
    omega
  · unfold Opt.asRef
    rw [s3, Outcome.ok_bind, sliceTo_ok hl, List.take_append_drop]
  · rw [List.take_take]
    congr 1
    omega

example : Opt.length tcpOptKind [2, 4, 5, 180, 1] = .ok 4#8 ∧ (2 ≤ (4#8).toNat) ∧
    (4#8).toNat ≤ [2, 4, 5, 180, (1 : U8)].length := by decide

end Verif.Props
