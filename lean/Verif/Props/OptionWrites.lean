import Verif.Props.Mutable
import Verif.Props.OptionSizes
import Verif.Samples

/-!
# C108: an option parsed on its own, and writes through it

`tcp::Option::new`, `ip::v4::Option::new` and `as_packet_mut()` give an option over any buffer, for instance over
`&mut packet.header_mut()[20 ..]`.
-/

namespace Verif.Props
open Verif Verif.Spec

/-- The first byte stands for `End` or `NoOperation`, options of a single byte. -/
def SingleByte (k : OptKind) (b : Bytes) : Prop := ∃ x, b[0]? = some x ∧ k.isSingle x = true

theorem optLength_eq (k : OptKind) (x : U8) (r : Bytes) :
    Opt.length k (x :: r) = if k.isSingle x then .ok 1#8 else idx (x :: r) 1 := rfl

/-- C108, what `Option::new` does with every buffer that is not one lone byte asking for a length: the empty buffer is
too small, a single-byte option is accepted, any other exactly if the length byte is at most the length of the buffer. -/
theorem C108_option_new_partial (k : OptKind) (b : Bytes) (h : b.length ≠ 1 ∨ SingleByte k b) :
    (SingleByte k b → Opt.new k b = .ok b) ∧
    (¬ SingleByte k b → Opt.new k b =
      if 2 ≤ b.length ∧ (b.getD 1 0#8).toNat ≤ b.length then .ok b else .err .smallBuffer) := by
  unfold Opt.new Opt.headerMin
  cases b with
  | nil =>
    refine ⟨fun ⟨x, hx, _⟩ => (by cases hx), fun _ => ?_⟩
    rw [if_pos (by simp), if_neg (by simp)]
  | cons x r =>
    rw [if_neg (by simp), optLength_eq]
    refine ⟨fun ⟨y, hy, hs⟩ => ?_, fun hs => ?_⟩
    · cases hy
      rw [if_pos hs]
      simp only [Outcome.ok_bind]
      rw [if_neg (by simp)]
    · have hx : ¬ k.isSingle x = true := fun e => hs ⟨x, rfl, e⟩
      rw [if_neg hx]
      cases r with
      | nil =>
        rcases h with h | h
        · exact absurd rfl h
        · exact absurd h hs
      | cons y r =>
        have e : idx (x :: y :: r) 1 = .ok y := rfl
        rw [e]
        simp only [Outcome.ok_bind]
        by_cases c : (x :: y :: r).length < y.toNat
        · rw [if_pos c, if_neg (fun h => (by have : y.toNat ≤ _ := h.2; omega))]
        · rw [if_neg c, if_pos ⟨by simp, by show y.toNat ≤ _; omega⟩]

/-- A concrete case that meets the hypotheses. -/
example := C108_option_new_partial tcpOptKind [2, 4, 5, 180] (.inl (by decide))

/-- C108 is false of the code: `Option::new` panics on one lone byte that is not `End` or `NoOperation`. -/
theorem C108_option_new_panics_refuted (k : OptKind) (x : U8) (h : k.isSingle x = false) : Opt.new k [x] = .panic := by
  unfold Opt.new Opt.headerMin
  rw [if_neg (by simp), optLength_eq, h]
  rfl

/-- A concrete case that meets the hypotheses. -/
example := C108_option_new_panics_refuted tcpOptKind 2 (by decide)

/-- `split()` of an accepted option with a length of at least one. -/
theorem option_split {k : OptKind} {b : Bytes} {n : U8} (h : Opt.length k b = .ok n) (h1 : 1 ≤ n.toNat)
    (hb : n.toNat ≤ b.length) :
    Opt.split k b = .ok (if n = 1#8 then (b.take 1, b.drop 1) else (b.take 2, (b.drop 2).take (n.toNat - 2))) := by
  unfold Opt.split
  rw [h, Outcome.ok_bind]
  by_cases c : n = 1#8
  · rw [if_pos c, if_pos c, splitAt_ok (by omega)]
  · have h2 : 2 ≤ n.toNat := by
      have : n.toNat ≠ 1 := fun e => c (BitVec.eq_of_toNat_eq e)
      omega
    rw [if_neg c, if_neg c, sliceTo_ok hb, Outcome.ok_bind, splitAt_ok (by rw [List.length_take]; omega)]
    congr 2
    · rw [List.take_take, Nat.min_eq_left h2]
    · rw [List.drop_take]

theorem option_new_iff {k : OptKind} {b : Bytes} {n : U8} (h : Opt.length k b = .ok n) :
    Opt.new k b = .ok b ↔ n.toNat ≤ b.length := by
  have hne : 1 ≤ b.length := by
    cases b with
    | nil => cases h
    | cons x r => simp
  unfold Opt.new Opt.headerMin
  rw [if_neg (by omega), h, Outcome.ok_bind]
  constructor
  · intro e
    by_cases c : b.length < n.toNat
    · rw [if_pos c] at e; cases e
    · omega
  · intro e
    rw [if_neg (by omega)]

/-- C108, `header_mut()` and `as_mut()`: for every accepted option whose length is not 0 they are write access to
exactly the bytes of `header()` and `as_ref()`. -/
theorem C108_option_header_mut (cfg : Cfg) (k : OptKind) {b : Bytes} {n : U8} (hn : Opt.new k b = .ok b)
    (h : Opt.length k b = .ok n) (h0 : n ≠ 0#8) :
    HeaderWritable (.option k) (fun b' => Opt.length k b' = Opt.length k b) b ∧
    BytesWritable (.option k) cfg b ∧ Opt.asRef cfg k b = .ok (b.take n.toNat) := by
  have hb := (option_new_iff h).1 hn
  have h1 : 1 ≤ n.toNat := by
    have : n.toNat ≠ 0 := fun e => h0 (BitVec.eq_of_toNat_eq e)
    omega
  have hr : Opt.asRef cfg k b = .ok (b.take n.toNat) := by
    unfold Opt.asRef
    rw [(option_sizes cfg k h h0).2.2, Outcome.ok_bind, sliceTo_ok hb]
  refine ⟨?_, bytesWritable_of hr, hr⟩
  by_cases c : n = 1#8
  · refine headerWritable_of 1 1 (b.length - 1) (Nat.le_refl _) (by omega) rfl fun b' hl hk => ?_
    show Opt.split k b' = _
    rw [option_split (hk.trans h) h1 (by omega), if_pos c, ← hl, ← List.length_drop, List.take_length]
  · have : n.toNat ≠ 1 := fun e => c (BitVec.eq_of_toNat_eq e)
    refine headerWritable_of 2 2 (n.toNat - 2) (Nat.le_refl _) (by omega) rfl fun b' hl hk => ?_
    show Opt.split k b' = _
    rw [option_split (hk.trans h) h1 (by omega), if_neg c]

/-- A concrete case that meets the hypotheses. -/
example (cfg : Cfg) := C108_option_header_mut cfg tcpOptKind (b := [2, 4, 5, 180]) (n := 4) (by decide) (by decide)
    (by decide)

theorem sameOutside_get {b b' : Bytes} {s e i : Nat} (h : SameOutside b b' s e) (hi : i < s ∨ e ≤ i) : b'[i]? = b[i]? := by
  exact h.2 i (by omega)

/-- C108, `payload_mut()`: on an option of at least two bytes it is write access to exactly `payload()`, the rest of the
option; and the option is still accepted, with the same header. -/
theorem C108_option_payload_mut (k : OptKind) {b : Bytes} {n : U8} (hn : Opt.new k b = .ok b)
    (h : Opt.length k b = .ok n) (h2 : 2 ≤ n.toNat) :
    PayloadWritable (.option k) b ∧ Opt.payload k b = .ok ((b.take n.toNat).drop 2) := by
  have hb := (option_new_iff h).1 hn
  have c : n ≠ 1#8 := fun e => by rw [e] at h2; exact absurd h2 (by decide)
  have hlen : ∀ b' : Bytes, b'.length = b.length → b'[0]? = b[0]? → b'[1]? = b[1]? → Opt.length k b' = Opt.length k b := by
    intro b' hl e0 e1
    unfold Opt.length idx
    rw [e0, e1]
  refine ⟨payloadWritable_of 2 (n.toNat - 2) 2 (Nat.le_refl _) ?_ (by omega) fun b' hs => ?_, ?_⟩
  · show Opt.headerSize k b = _
    unfold Opt.headerSize
    rw [h, Outcome.ok_bind, if_neg c]
  · have hl : b'.length = b.length := hs.length
    have e : Opt.length k b' = .ok n :=
      (hlen b' hl (sameOutside_get hs (.inl (by omega))) (sameOutside_get hs (.inl (by omega)))).trans h
    refine ⟨(option_new_iff e).2 (by omega), ?_⟩
    show Opt.split k b' = _
    rw [option_split e (by omega) (by omega), if_neg c]
  · unfold Opt.payload
    rw [option_split h (by omega) hb, if_neg c, Outcome.ok_bind, List.drop_take]

/-- A concrete case that meets the hypotheses. -/
example := C108_option_payload_mut tcpOptKind (b := [2, 4, 5, 180]) (n := 4) (by decide) (by decide) (by decide)

/-- C108 is false of the code for options of one byte: `payload_mut()` is everything behind the option, so writing it
overwrites the options that follow. -/
theorem C108_one_byte_payload_refuted (k : OptKind) {b : Bytes} (hn : Opt.new k b = .ok b)
    (h : Opt.length k b = .ok 1#8) :
    Opt.payload k b = .ok (b.drop 1) ∧
    ∀ v : Bytes, v.length + 1 = b.length → (Kind.option k).writePayload v b = (.ok (), b.take 1 ++ v) := by
  have hb := (option_new_iff h).1 hn
  have hs := option_split h (by decide) hb
  rw [if_pos rfl] at hs
  have h1 : 1 ≤ b.length := hb
  refine ⟨by unfold Opt.payload; rw [hs, Outcome.ok_bind], fun v hv => ?_⟩
  have hst : (Kind.option k).payloadAt b = .ok 1 := by
    show Opt.headerSize k b = _
    unfold Opt.headerSize
    rw [h]; rfl
  have hsp : (Kind.option k).split b = .ok (b.take 1, b.drop 1) := hs
  unfold Kind.writePayload
  rw [hsp, hst]
  simp only [List.length_drop]
  rw [if_pos (by omega), List.drop_eq_nil_of_le (by omega), List.append_nil]

/-- A concrete case that meets the hypotheses. -/
example := C108_one_byte_payload_refuted tcpOptKind (b := [2, 1, 5, 180]) (by decide) (by decide)

/-- The bytes `payload_mut()` gives access to lie inside the option exactly if the option has at least two bytes or
nothing follows it. -/
theorem C108_payload_inside_partial (k : OptKind) {b : Bytes} {n : U8} (hn : Opt.new k b = .ok b)
    (h : Opt.length k b = .ok n) (h0 : n ≠ 0#8) :
    ∃ p st, Opt.payload k b = .ok p ∧ (Kind.option k).payloadAt b = .ok st ∧ p = (b.drop st).take p.length ∧
      (st + p.length ≤ n.toNat ↔ 2 ≤ n.toNat ∨ b.length = 1) := by
  have hb := (option_new_iff h).1 hn
  have h1 : 1 ≤ n.toNat := by
    have : n.toNat ≠ 0 := fun e => h0 (BitVec.eq_of_toNat_eq e)
    omega
  by_cases c : n = 1#8
  · subst c
    have hb1 : 1 ≤ b.length := hb
    refine ⟨b.drop 1, 1, (C108_one_byte_payload_refuted k hn h).1, ?_, by rw [List.take_length], ?_⟩
    · show Opt.headerSize k b = _
      unfold Opt.headerSize
      rw [h]; rfl
    · rw [List.length_drop]
      show _ ≤ 1 ↔ 2 ≤ 1 ∨ _
      omega
  · have h2 : n.toNat ≠ 1 := fun e => c (BitVec.eq_of_toNat_eq e)
    obtain ⟨⟨p, st, h3, h4, h5, -⟩, h6⟩ := C108_option_payload_mut k hn h (by omega)
    have hp : p = (b.take n.toNat).drop 2 := by
      have : Opt.payload k b = .ok p := h3
      rw [h6] at this
      exact (Outcome.ok.inj this).symm
    have hst : st = 2 := by
      have : Opt.headerSize k b = .ok st := h4
      unfold Opt.headerSize at this
      rw [h, Outcome.ok_bind, if_neg c] at this
      exact (Outcome.ok.inj this).symm
    refine ⟨p, st, h3, h4, h5, ?_⟩
    rw [hp, hst, List.length_drop, List.length_take]
    omega

/-! Non-vacuity: a maximum segment size option followed by an option that is cut; a timestamp inside an area; a NOP. -/
example : Opt.new tcpOptKind [2, 4, 5, 180, 3] = .ok [2, 4, 5, 180, 3] ∧
    Opt.length tcpOptKind [2, 4, 5, 180, 3] = .ok 4#8 ∧
    (Kind.option tcpOptKind).writePayload [6, 7] [2, 4, 5, 180, 3] = (.ok (), [2, 4, 6, 7, 3]) := by decide
example : Opt.new tcpOptKind [2, 4, 5] = .err .smallBuffer := by decide
example : (Kind.option tcpOptKind).writePayload [9, 9, 9] [1, 2, 4, 5] = (.ok (), [1, 9, 9, 9]) := by decide
example : tcpOptKind.isSingle 8 = false ∧ v4OptKind.isSingle 7 = false := by decide

end Verif.Props
