import Verif.Props.V4
import Verif.Props.Typed
import Verif.Props.Reach
import Verif.Samples

/-!
# C114: editing accepted IPv4 packets whose header length is below 5
# C115: editing a received frame never panics, and what is left when a layer is refused
-/

namespace Verif.Props
open Verif Verif.Spec

/-- The header length (in words) from which on a setter's field is inside the header; `set_dscp`, `set_ecn` and `set_id`
do not look at the header length. -/
def wordsNeeded : V4.Set → Nat
  | .dscp _ | .ecn _ | .id _ => 0
  | .flags _ | .offset _ => 2
  | .ttl _ | .protocol _ => 3
  | .source _ => 4
  | .destination _ => 5

theorem onHeader_panic {f : Mut Bytes Unit} {b : Bytes} (h : 4 ≤ b.length) (hh : field b 4 4 * 4 ≤ b.length)
    (hf : ∀ c : Bytes, c.length = field b 4 4 * 4 → f c = (.panic, c)) : onHeader V4.split f b = (.panic, b) := by
  have hl : (b.take (field b 4 4 * 4)).length = field b 4 4 * 4 := by rw [List.length_take]; omega
  unfold onHeader
  rw [V4.split_eq h hh]
  simp only
  rw [hf _ hl]
  simp only [hl, List.take_append_drop]

theorem writeU16_panic {off : Nat} {v : U16} {c : Bytes} (h : c.length < off) : writeU16 off v c = (.panic, c) := by
  unfold writeU16 cursorWrite
  rw [if_neg (by omega)]

theorem setIdx_panic {i : Nat} {v : U8} {c : Bytes} (h : c.length ≤ i) : setIdx i v c = (.panic, c) := by
  unfold setIdx
  rw [if_neg (by omega)]

theorem copyRange_panic {i j : Nat} {bs c : Bytes} (h : c.length < j) : copyRange i j bs c = (.panic, c) := by
  unfold copyRange
  rw [if_neg (by omega)]

/-- C114: a setter whose field is outside the header panics and changes nothing. -/
theorem C114_v4_setter_panics (op : V4.Set) (b : Bytes) (h : V4.noPayload b = .ok b)
    (hn : field b 4 4 < wordsNeeded op) : op.run b = (.panic, b) := by
  have hok := (V4.noPayload_ok_iff.1 h).2
  have h1 := hok.long; have h2 := hok.header
  cases op <;> simp only [wordsNeeded, Nat.not_lt_zero] at hn
  · exact onHeader_panic (by omega) h2 (fun c hc => writeU16_panic (by omega))
  · exact onHeader_panic (by omega) h2 (fun c hc => writeU16_panic (by omega))
  · exact onHeader_panic (by omega) h2 (fun c hc => setIdx_panic (by omega))
  · exact onHeader_panic (by omega) h2 (fun c hc => copyRange_panic (by omega))
  · exact onHeader_panic (by omega) h2 (fun c hc => copyRange_panic (by omega))
  · exact onHeader_panic (by omega) h2 (fun c hc => setIdx_panic (by omega))

/-- A concrete case that meets the hypotheses. -/
example := C114_v4_setter_panics (.source ⟨10, 0, 0, 3⟩) Sample.shortPacket (by decide) (by decide)

/-- C114: every other setter call does what it does to a packet with a legal header length (C16, C18, C77). -/
theorem C114_v4_setter_works (op : V4.Set) (b : Bytes) (h : V4.noPayload b = .ok b)
    (hn : wordsNeeded op ≤ field b 4 4) :
    ∃ o b', op.run b = (o, b') ∧ o ≠ .panic ∧
      (match v4Written op with
        | some (s, w, v) => o = .ok () ∧ SetsField b b' s w v
        | none => ∃ x, SetsField b b' 8 8 x) ∧
      (field b' 8 6, field b' 14 2) = tosStep (field b 8 6, field b 14 2) op := by
  have hok := (V4.noPayload_ok_iff.1 h).2
  have h1 := hok.long; have h2 := hok.header
  have fin : ∀ {b'' : Bytes} {s w v : Nat}, op.run b = (.ok (), b'') → SetsField b b'' s w v →
      v4Written op = some (s, w, v) → 32 ≤ s →
      tosStep (field b 8 6, field b 14 2) op = (field b 8 6, field b 14 2) →
      ∃ o b', op.run b = (o, b') ∧ o ≠ .panic ∧
      (match v4Written op with
        | some (s, w, v) => o = .ok () ∧ SetsField b b' s w v
        | none => (∃ x, SetsField b b' 8 8 x)) ∧
      (field b' 8 6, field b' 14 2) = tosStep (field b 8 6, field b 14 2) op := by
    intro b'' s w v he hs hw h32 ht
    refine ⟨.ok (), b'', he, (fun hp => by cases hp), ?_, ?_⟩
    · rw [hw]; exact ⟨rfl, hs⟩
    · rw [ht]
      exact Prod.ext (hs.other (by omega)) (hs.other (by omega))
  have hrefl : SetsField b b 8 8 (field b 8 8) := ⟨rfl, rfl, fun _ _ => rfl⟩
  cases op with
  | dscp v =>
    by_cases hv : v.toNat ≤ 63
    · refine ⟨.ok (), _, v4_setDscp_eq h1 hv, (fun hp => by cases hp), ⟨_, setsField_put8 (off := 1) (by omega)⟩, ?_⟩
      have hs := v4_setDscp_sets h1 hv
      simp only [tosStep, if_pos hv]
      exact Prod.ext hs.value (hs.other (by omega))
    · exact ⟨.err .invalidValue, b, (C18_v4_range_checks b v).1 (by omega), (fun hp => by cases hp), ⟨_, hrefl⟩,
        by simp only [tosStep, if_neg hv]⟩
  | ecn v =>
    by_cases hv : v.toNat ≤ 3
    · have he := v4_setEcn_eq (b := b) h1 hv
      obtain ⟨b'', e1, e2, e3, -⟩ := C77_v4_set_ecn_exact b h1 v hv
      refine ⟨.ok (), b'', e1, (fun hp => by cases hp), ?_, by simp only [tosStep, if_pos hv, e2, e3]⟩
      rw [e1] at he
      have he : b'' = _ := congrArg Prod.snd he
      rw [he]
      exact ⟨_, setsField_put8 (off := 1) (by omega)⟩
    · exact ⟨.err .invalidValue, b, (C18_v4_range_checks b v).2 (by omega), (fun hp => by cases hp), ⟨_, hrefl⟩,
        by simp only [tosStep, if_neg hv]⟩
  | id v => exact fin (writeU16_ok (by omega)) (setsField_put16 (off := 4) (by omega)) rfl (by omega) rfl
  | flags v =>
    exact fin (V4.onHeader_split (by omega) h2 (by simp [be16]; simp only [wordsNeeded] at hn; omega)
      (fun c hc => writeU16_ok hc)) (setsField_put16 (off := 6) (by omega)) rfl (by omega) rfl
  | offset v =>
    exact fin (V4.onHeader_split (by omega) h2 (by simp [be16]; simp only [wordsNeeded] at hn; omega)
      (fun c hc => writeU16_ok hc)) (setsField_put16 (off := 6) (by omega)) rfl (by omega) rfl
  | ttl v =>
    exact fin (V4.onHeader_split (by omega) h2 (by simp; simp only [wordsNeeded] at hn; omega)
      (fun c hc => setIdx_ok hc)) (setsField_put8 (off := 8) (by omega)) rfl (by omega) rfl
  | protocol v =>
    exact fin (V4.onHeader_split (by omega) h2 (by simp; simp only [wordsNeeded] at hn; omega)
      (fun c hc => setIdx_ok hc)) (setsField_put8 (off := 9) (by omega)) rfl (by omega) rfl
  | source v =>
    exact fin (V4.onHeader_split (bs := v.octets) (by omega) h2 (by simp [Ipv4Addr.octets]; simp only [wordsNeeded] at hn; omega)
      (fun c hc => copyRange_ok rfl hc)) (setsField_put (off := 12) (bs := v.octets) (by simp [Ipv4Addr.octets]; omega)) rfl (by omega) rfl
  | destination v =>
    exact fin (V4.onHeader_split (bs := v.octets) (by omega) h2 (by simp [Ipv4Addr.octets]; simp only [wordsNeeded] at hn; omega)
      (fun c hc => copyRange_ok rfl hc)) (setsField_put (off := 16) (bs := v.octets) (by simp [Ipv4Addr.octets]; omega)) rfl (by omega) rfl

/-- A concrete case that meets the hypotheses. -/
example := C114_v4_setter_works (.id 9) Sample.shortPacket (by decide) (by decide)

/-- What one call leaves, besides DSCP and ECN. -/
theorem short_last (op : V4.Set) (b b' : Bytes) (h : V4.noPayload b = .ok b)
    (h1 : match v4Written op with
        | some (s, w, v) => SetsField b b' s w v
        | none => ∃ x, SetsField b b' 8 8 x) :
    V4.noPayload b' = .ok b' ∧ b'.length = b.length ∧ (∀ i, 160 ≤ i → bitAt b' i = bitAt b i) ∧
      field b' 0 8 = field b 0 8 ∧ field b' 16 16 = field b 16 16 ∧
      (∀ s w, (s, w) ∈ v4Fields → field b' s w =
        ((v4Written op).bind fun x => if x.1 = s then some x.2.2 else none).getD (field b s w)) ∧
      (∀ i, 64 ≤ i → 32 * wordsNeeded op ≤ i → bitAt b' i = bitAt b i) := by
  have hok := (V4.noPayload_ok_iff.1 h).2
  have acc : ∀ {s w v : Nat}, SetsField b b' s w v → 8 ≤ s → V4.noPayload b' = .ok b' := by
    intro s w v hs h8
    refine V4.noPayload_ok_iff.2 ⟨rfl, by rw [hs.length]; exact hok.long, ?_, ?_⟩
    · rw [hs.other (by omega)]; exact hok.version
    · rw [hs.other (by omega), hs.length]; exact hok.header
  cases hw : v4Written op with
  | none =>
    simp only [hw] at h1
    obtain ⟨x, hx⟩ := h1
    refine ⟨acc hx (by omega), hx.length, fun i hi => hx.frame i (by omega), hx.other (by omega), hx.other (by omega), ?_,
      fun i hi _ => hx.frame i (by omega)⟩
    intro s w hsw
    simp only [Option.bind_none, Option.getD_none]
    apply hx.other
    simp only [v4Fields, List.mem_cons, Prod.mk.injEq, List.not_mem_nil, or_false] at hsw
    omega
  | some x =>
    obtain ⟨s0, w0, v0⟩ := x
    simp only [hw] at h1
    have hmem : (s0, w0) ∈ v4Fields := by
      cases op <;> simp only [v4Written, Option.some.injEq, Prod.mk.injEq, reduceCtorEq] at hw <;>
        (obtain ⟨rfl, rfl, -⟩ := hw; simp [v4Fields])
    simp only [v4Fields, List.mem_cons, Prod.mk.injEq, List.not_mem_nil, or_false] at hmem
    refine ⟨acc h1 (by omega), h1.length, fun i hi => h1.frame i (by omega), h1.other (by omega), h1.other (by omega), ?_,
      fun i hi hi' => h1.frame i ?_⟩
    case refine_2 =>
      cases op <;> simp only [v4Written, Option.some.injEq, Prod.mk.injEq, reduceCtorEq] at hw <;>
        (obtain ⟨rfl, rfl, -⟩ := hw; simp only [wordsNeeded] at hi'; omega)
    intro s w hsw
    simp only [v4Fields, List.mem_cons, Prod.mk.injEq, List.not_mem_nil, or_false] at hsw
    simp only [Option.bind_some]
    by_cases hs : s0 = s
    · rw [if_pos hs, Option.getD_some, ← h1.value, ← hs]
      congr 1; omega
    · rw [if_neg hs, Option.getD_none]
      exact h1.other (by omega)

theorem ihl_same {b b' : Bytes} (h : field b' 0 8 = field b 0 8) : field b' 4 4 = field b 4 4 :=
  field_congr fun i h1 h2 => bits_of_field h i (by omega) (by omega)

/-- The calls of a session all of whose fields are in the header. -/
theorem short_run : ∀ (ops : List V4.Set) (b : Bytes), V4.noPayload b = .ok b →
    (∀ op ∈ ops, wordsNeeded op ≤ field b 4 4) →
    ∃ b', runIgnoringErrors (ops.map V4.Set.run) b = (.ok (), b') ∧ V4.noPayload b' = .ok b' ∧ b'.length = b.length ∧
      (∀ i, 160 ≤ i → bitAt b' i = bitAt b i) ∧ field b' 0 8 = field b 0 8 ∧ field b' 16 16 = field b 16 16 ∧
      (∀ s w, (s, w) ∈ v4Fields → field b' s w = v4Last s (field b s w) ops) ∧
      (field b' 8 6, field b' 14 2) = ops.foldl tosStep (field b 8 6, field b 14 2) ∧
      (∀ i, 64 ≤ i → 32 * field b 4 4 ≤ i → bitAt b' i = bitAt b i) := by
  intro ops
  induction ops with
  | nil => intro b hb _; exact ⟨b, rfl, hb, rfl, fun _ _ => rfl, rfl, rfl, fun _ _ _ => rfl, rfl, fun _ _ _ => rfl⟩
  | cons op ops ih =>
    intro b hb hn
    obtain ⟨o, b1, s1, s2, s3, s4⟩ := C114_v4_setter_works op b hb (hn op (by simp))
    have s3' : match v4Written op with
        | some (s, w, v) => SetsField b b1 s w v
        | none => ∃ x, SetsField b b1 8 8 x := by
      cases hw : v4Written op with
      | none => simp only [hw] at s3 ⊢; exact s3
      | some x => simp only [hw] at s3 ⊢; exact s3.2
    obtain ⟨l0, l1, l2, l3, l4, l5, l6⟩ := short_last op b b1 hb s3'
    obtain ⟨b₂, k1, k2, k3, k4, k5, k6, k7, k8, k9⟩ := ih b1 l0 (fun op ho => by
      rw [ihl_same l3]; exact hn op (by simp [ho]))
    refine ⟨b₂, ?_, k2, k3.trans l1, fun i hi => (k4 i hi).trans (l2 i hi), k5.trans l3, k6.trans l4, ?_, ?_, ?_⟩
    · simp only [List.map_cons, runIgnoringErrors]
      rw [s1]
      cases o with
      | ok a => exact k1
      | err e => exact k1
      | panic => exact absurd rfl s2
    · intro s w hsw
      rw [k7 s w hsw, l5 s w hsw]
      unfold v4Last
      rw [last_cons]
    · rw [k8, s4, List.foldl_cons]
    · intro i h1 h2
      have := hn op (by simp)
      rw [k9 i h1 (by rw [ihl_same l3]; exact h2), l6 i h1 (by omega)]

/-- The calls of a session with a field outside the header. -/
theorem short_run_panics : ∀ (ops : List V4.Set) (b : Bytes), V4.noPayload b = .ok b →
    (∃ op ∈ ops, field b 4 4 < wordsNeeded op) →
    ∃ b', runIgnoringErrors (ops.map V4.Set.run) b = (.panic, b') ∧ V4.noPayload b' = .ok b' ∧ b'.length = b.length := by
  intro ops
  induction ops with
  | nil => rintro b _ ⟨op, h, -⟩; cases h
  | cons op ops ih =>
    intro b hb hn
    by_cases ho : field b 4 4 < wordsNeeded op
    · refine ⟨b, ?_, hb, rfl⟩
      simp only [List.map_cons, runIgnoringErrors]
      rw [C114_v4_setter_panics op b hb ho]
    · obtain ⟨o, b1, s1, s2, s3, s4⟩ := C114_v4_setter_works op b hb (by omega)
      have s3' : match v4Written op with
          | some (s, w, v) => SetsField b b1 s w v
          | none => ∃ x, SetsField b b1 8 8 x := by
        cases hw : v4Written op with
        | none => simp only [hw] at s3 ⊢; exact s3
        | some x => simp only [hw] at s3 ⊢; exact s3.2
      obtain ⟨l0, l1, l2, l3, -⟩ := short_last op b b1 hb s3'
      obtain ⟨b₂, k1, k2, k3⟩ := ih b1 l0 (by
        obtain ⟨op', h1, h2⟩ := hn
        rcases List.mem_cons.1 h1 with rfl | h1
        · exact absurd h2 ho
        · exact ⟨op', h1, by rw [ihl_same l3]; exact h2⟩)
      refine ⟨b₂, ?_, k2, k3.trans l1⟩
      simp only [List.map_cons, runIgnoringErrors]
      rw [s1]
      cases o with
      | ok a => exact k1
      | err e => exact k1
      | panic => exact absurd rfl s2

/-- A session goes through: the checksum and every field that is set are inside the header. -/
def InHeader (ops : List V4.Set) (b : Bytes) : Prop :=
  3 ≤ field b 4 4 ∧ ∀ op ∈ ops, wordsNeeded op ≤ field b 4 4

/-- C114: such a session does what it does to a packet with a legal header length (C19). -/
theorem C114_v4_checked (cfg : Cfg) (b : Bytes) (h : V4.noPayload b = .ok b) (ops : List V4.Set) (hin : InHeader ops b) :
    ∃ b', V4.checkedRun cfg ops b = (.ok (), b') ∧ V4.isValid cfg b' = .ok true ∧ V4.noPayload b' = .ok b' ∧
      b'.length = b.length ∧ b'.drop 20 = b.drop 20 ∧ field b' 0 8 = field b 0 8 ∧ field b' 16 16 = field b 16 16 ∧
      (∀ s w, (s, w) ∈ v4Fields → field b' s w = v4Last s (field b s w) ops) ∧
      (field b' 8 6, field b' 14 2) = ops.foldl tosStep (field b 8 6, field b 14 2) ∧
      b'.drop (field b 4 4 * 4) = b.drop (field b 4 4 * 4) := by
  obtain ⟨b1, k1, k2, k3, k4, k5, k6, k7, k8, k9⟩ := short_run ops b h hin.2
  obtain ⟨b2, g1, g2, -, -, g5⟩ := v4_update cfg b1 k2 (by rw [ihl_same k5]; exact hin.1)
  have hf : ∀ s w, s + w ≤ 80 ∨ 96 ≤ s → field b2 s w = field b1 s w := fun s w hsw =>
    field_congr fun i h1 h2 => bitAt_congr (g5.frame _ (by omega))
  have hok := (V4.noPayload_ok_iff.1 k2).2
  refine ⟨b2, ?_, g2, ?_, g5.length.trans k3, ?_, (hf 0 8 (by omega)).trans k5, (hf 16 16 (by omega)).trans k6, ?_, ?_, ?_⟩
  · unfold V4.checkedRun
    refine (Mut.bind_ok k1).trans ?_
    simp [Mut.unwrap, g1]
  · exact V4.noPayload_ok_iff.2 ⟨rfl, by rw [g5.length]; exact hok.long, by rw [hf 0 4 (by omega)]; exact hok.version,
      by rw [hf 4 4 (by omega), g5.length]; exact hok.header⟩
  · refine drop_of_bits (g5.length.trans k3) (fun i hi => ?_)
    rw [← k4 i (by omega)]
    exact bitAt_congr (g5.frame _ (by omega))
  · intro s w hsw
    rw [hf s w (by
      simp only [v4Fields, List.mem_cons, Prod.mk.injEq, List.not_mem_nil, or_false] at hsw; omega)]
    exact k7 s w hsw
  · rw [hf 8 6 (by omega), hf 14 2 (by omega)]
    exact k8
  · have := hin.1
    refine drop_of_bits (g5.length.trans k3) (fun i hi => ?_)
    rw [← k9 i (by omega) (by omega)]
    exact bitAt_congr (g5.frame _ (by omega))

/-- A concrete case that meets the hypotheses. -/
example (cfg : Cfg) := C114_v4_checked cfg Sample.fourWords (by decide) [.ttl 9, .source ⟨10, 0, 0, 3⟩]
    ⟨by decide, List.forall_mem_cons.2 ⟨by decide, List.forall_mem_cons.2 ⟨by decide, fun _ h => (by cases h)⟩⟩⟩

/-- C114: every other session panics; the packet is still accepted and has its length. -/
theorem C114_v4_checked_panics (cfg : Cfg) (b : Bytes) (h : V4.noPayload b = .ok b) (ops : List V4.Set)
    (hin : ¬ InHeader ops b) :
    ∃ b', V4.checkedRun cfg ops b = (.panic, b') ∧ V4.noPayload b' = .ok b' ∧ b'.length = b.length := by
  by_cases hops : ∀ op ∈ ops, wordsNeeded op ≤ field b 4 4
  · have h3 : field b 4 4 < 3 := by
      refine Nat.lt_of_not_le (fun h3 => hin ⟨h3, hops⟩)
    obtain ⟨b1, k1, k2, k3, -, k5, -⟩ := short_run ops b h hops
    have hok := (V4.noPayload_ok_iff.1 k2).2
    have h1 := hok.long; have h2 := hok.header
    have h3 : field b1 4 4 < 3 := by rw [ihl_same k5]; exact h3
    refine ⟨b1, ?_, k2, k3⟩
    unfold V4.checkedRun
    refine (Mut.bind_ok k1).trans ?_
    have : V4.updateChecksum cfg b1 = (.panic, b1) := by
      unfold V4.updateChecksum
      obtain ⟨c, hc⟩ : ∃ c, V4.checksumOf cfg (b1.take (field b1 4 4 * 4)) = .ok c := ⟨_, V4.checksumOf_eq _ _⟩
      refine (Mut.bind_ok (a := c) (s' := b1) ?_).trans ?_
      · simp [Mut.read, V4.header_eq (show 4 ≤ b1.length by omega) h2, hc]
      · exact onHeader_panic (by omega) h2 (fun c hc => writeU16_panic (by omega))
    simp [Mut.unwrap, this]
  · obtain ⟨op, ho⟩ := Classical.not_forall.1 hops
    obtain ⟨h1, h2⟩ := Classical.not_imp.1 ho
    obtain ⟨b1, k1, k2, k3⟩ := short_run_panics ops b h ⟨op, h1, by omega⟩
    refine ⟨b1, ?_, k2, k3⟩
    unfold V4.checkedRun
    rw [Mut.bind_apply, k1]

/-- A packet of header length 4, accepted, on which `set_ttl` and `set_source` go through and `set_destination` panics;
with header length 2 a session without any call panics. -/
example : ∃ b c : Bytes, V4.new b = .ok b ∧ field b 4 4 = 4 ∧ InHeader [.ttl 3, .source ⟨1, 2, 3, 4⟩] b ∧
    ¬ InHeader [.destination ⟨1, 2, 3, 4⟩] b ∧ V4.new c = .ok c ∧ ¬ InHeader [] c :=
  ⟨[0x44, 0, 0, 20, 0, 0, 0, 0, 64, 17, 0, 0, 10, 0, 0, 1, 10, 0, 0, 2],
    [0x42, 0, 0, 20, 0, 0, 0, 0, 64, 17, 0, 0, 10, 0, 0, 1, 10, 0, 0, 2], by decide +kernel, by decide +kernel,
    ⟨by decide +kernel, by
      intro op hop
      simp only [List.mem_cons, List.not_mem_nil, or_false] at hop
      rcases hop with rfl | rfl
      · show 3 ≤ _; decide +kernel
      · show 4 ≤ _; decide +kernel⟩,
    fun h => absurd (h.2 (.destination ⟨1, 2, 3, 4⟩) (by simp)) (by show ¬ 5 ≤ _; decide +kernel), by decide +kernel,
    fun h => absurd h.1 (by decide +kernel)⟩

/-! ## C115 -/

/-- The transport part of a program that edits a frame (C100): what the payload of the IPv4 packet is parsed as, and the
calls made through `checked()`. -/
inductive Transport where
  | udp (ops : List Udp.Set)
  | tcp (ops : List Tcp.Set)
  | echo (ops : List Echo.Set)
  | timestamp (ops : List Timestamp.Set)
  | information (ops : List Information.Set)

/-- The constructor of the packet type. -/
def Transport.new : Transport → Bytes → Outcome Bytes
  | .udp _ => Udp.new
  | .tcp _ => Tcp.new
  | .echo _ => Echo.new
  | .timestamp _ => Timestamp.new
  | .information _ => Information.new

/-- The calls. -/
def Transport.edit (cfg : Cfg) : Transport → IpPacket → Mut Bytes Unit
  | .udp ops => Udp.editIn cfg ops
  | .tcp ops => Tcp.editIn cfg ops
  | .echo ops => Echo.editIn cfg ops
  | .timestamp ops => Timestamp.editIn cfg ops
  | .information ops => Information.editIn cfg ops

/-- The conditions of C100 on TCP. -/
def Transport.Fine (cfg : Cfg) : Transport → Bytes → Prop
  | .tcp ops, u => 5 ≤ field u 96 4 ∧ (u.length % 2 = 0 ∨ cfg.eofAdvances = false) ∧ ∀ op ∈ ops, notFlags op
  | _, _ => True

theorem editing_refused {new : Bytes → Outcome Bytes} {f : Mut Bytes Unit} {u : Bytes} {e : Error}
    (h : new u = .err e) : editing new f u = (.err e, u) := by
  unfold editing
  rw [h]

theorem Transport.refused (cfg : Cfg) (t : Transport) (ip : IpPacket) {u : Bytes} {e : Error} (h : t.new u = .err e) :
    t.edit cfg ip u = (.err e, u) := by
  cases t <;> exact editing_refused h

/-- No constructor panics, and what it accepts is the buffer itself. -/
theorem Transport.new_cases (t : Transport) (u : Bytes) : t.new u = .ok u ∨ ∃ e, t.new u = .err e := by
  cases t with
  | udp _ =>
    show Udp.new u = _ ∨ ∃ e, Udp.new u = _
    rw [(C21_udp_accept u).2]; split
    · exact .inl rfl
    · exact .inr ⟨_, rfl⟩
  | tcp _ =>
    show Tcp.new u = _ ∨ ∃ e, Tcp.new u = _
    rw [C24_tcp_accept u]; split
    · exact .inl rfl
    · exact .inr ⟨_, rfl⟩
  | echo _ =>
    show Echo.new u = _ ∨ ∃ e, Echo.new u = _
    rw [(C35_icmp_typed_accept u).1]; split
    · exact .inr ⟨_, rfl⟩
    · split
      · exact .inl rfl
      · exact .inr ⟨_, rfl⟩
  | timestamp _ =>
    show Timestamp.new u = _ ∨ ∃ e, Timestamp.new u = _
    rw [(C35_icmp_typed_accept u).2.1]; split
    · exact .inr ⟨_, rfl⟩
    · split
      · exact .inl rfl
      · exact .inr ⟨_, rfl⟩
  | information _ =>
    show Information.new u = _ ∨ ∃ e, Information.new u = _
    rw [(C35_icmp_typed_accept u).2.2.1]; split
    · exact .inr ⟨_, rfl⟩
    · split
      · exact .inl rfl
      · exact .inr ⟨_, rfl⟩

theorem v4_new_cases (p : Bytes) : V4.new p = .ok p ∨ ∃ e, V4.new p = .err e := by
  rw [C12_v4_new_accept]
  split
  · exact .inr ⟨_, rfl⟩
  split
  · exact .inr ⟨_, rfl⟩
  split
  · exact .inr ⟨_, rfl⟩
  · exact .inl rfl

/-- C115, the frame is refused: nothing changes. -/
theorem C115_frame_refused (cfg : Cfg) (b : Bytes) (h : b.length < 14) (eops : List Ether.Set) (vops : List V4.Set)
    (t : Transport) : Ether.editStack eops (V4.editStack cfg vops (t.edit cfg)) b = (.err .smallBuffer, b) :=
  editing_refused (by rw [C10_ether_accept, if_neg (by omega)])

/-- A concrete case that meets the hypotheses. -/
example (cfg : Cfg) := C115_frame_refused cfg [2, 0, 0, 0, 0, 2] (by decide)

/-- C115, the payload of the frame is refused as an IPv4 packet: the error is the one `ip::v4::Packet::new` gives, the
Ethernet fields have the values given, and the payload is as it was. -/
theorem C115_packet_refused (cfg : Cfg) (b p : Bytes) (e : Error) (hb : Ether.new b = .ok b)
    (hp : Ether.payload b = .ok p) (h : V4.new p = .err e) (eops : List Ether.Set) (vops : List V4.Set) (t : Transport) :
    ∃ b', Ether.editStack eops (V4.editStack cfg vops (t.edit cfg)) b = (.err e, b') ∧ Ether.new b' = .ok b' ∧
      Ether.payload b' = .ok p ∧ EtherEdited eops b b' :=
  ether_stack b p p hb hp eops _ (editing_refused h) rfl

/-- A concrete case that meets the hypotheses. -/
example (cfg : Cfg) := C115_packet_refused cfg (Sample.udpFrame.take 30) _ _ (by decide) rfl rfl

/-- C115, the payload of the IPv4 packet is refused: the error is the one the transport constructor gives, the Ethernet
and IPv4 fields have the values given, the IPv4 checksum verifies, and the payload is as it was. -/
theorem C115_payload_refused (cfg : Cfg) (b p u : Bytes) (e : Error) (hc : Carries b p u) (eops : List Ether.Set)
    (vops : List V4.Set) (t : Transport) (h : t.new u = .err e) :
    ∃ b' p', Ether.editStack eops (V4.editStack cfg vops (t.edit cfg)) b = (.err e, b') ∧ Carries b' p' u ∧
      EtherEdited eops b b' ∧ HeaderEdited vops p p' ∧ V4.isValid cfg p' = .ok true := by
  obtain ⟨b', p', u', ip, c1, c2, c3, c4, c5, c6, -⟩ := frame_stack cfg b p u hc eops vops (t.edit cfg)
    (fun ip _ => ⟨u, t.refused cfg (.v4 ip) h, rfl⟩)
  rw [t.refused cfg (.v4 ip) h] at c6
  have : u = u' := congrArg Prod.snd c6
  subst this
  exact ⟨b', p', c1, c2, c3, c4, c5⟩

/-- A concrete case that meets the hypotheses. -/
example (cfg : Cfg) (eops : List Ether.Set) (vops : List V4.Set) := C115_payload_refused cfg Sample.informationFrame
    Sample.informationPacket Sample.information _ ⟨by decide, by decide, by decide, by decide, by decide⟩ eops vops
    (.timestamp [.identifier 9]) rfl

/-- C115: editing any received bytes, whatever they are.  Unless an accepted IPv4 packet has a header length below 5
(C114) or the conditions of C100 on TCP fail, the program does not panic, the buffer keeps its length, and the program
succeeds exactly if all three layers are accepted. -/
theorem C115_any_frame (cfg : Cfg) (b : Bytes) (eops : List Ether.Set) (vops : List V4.Set) (t : Transport)
    (h5 : ∀ p, Ether.payload b = .ok p → V4.new p = .ok p → 5 ≤ field p 4 4)
    (hfine : ∀ p u, Carries b p u → t.new u = .ok u → t.Fine cfg u) :
    ∃ o b', Ether.editStack eops (V4.editStack cfg vops (t.edit cfg)) b = (o, b') ∧ o ≠ .panic ∧
      b'.length = b.length ∧ (o = .ok () ↔ ∃ p u, Carries b p u ∧ t.new u = .ok u) := by
  have uniq : ∀ {p u p' u' : Bytes}, Carries b p u → Carries b p' u' → u' = u := by
    intro p u p' u' h h'
    have h1 := h.packet; have h2 := h.inner
    rw [h'.packet] at h1
    rw [← Outcome.ok.inj h1, h'.inner] at h2
    exact Outcome.ok.inj h2
  by_cases h14 : 14 ≤ b.length
  case neg =>
    refine ⟨_, _, C115_frame_refused cfg b (by omega) eops vops t, (fun hp => by cases hp), rfl,
      (fun hp => by cases hp), ?_⟩
    rintro ⟨p, u, hc, -⟩
    have := hc.frame
    rw [C10_ether_accept, if_neg h14] at this
    cases this
  have hb : Ether.new b = .ok b := by rw [C10_ether_accept, if_pos h14]
  have hp : Ether.payload b = .ok (b.drop 14) := by
    unfold Ether.payload Ether.split
    rw [splitAt_ok h14]; rfl
  rcases v4_new_cases (b.drop 14) with hv | ⟨e, he⟩
  case inr =>
    obtain ⟨b', c1, -, -, c4⟩ := C115_packet_refused cfg b _ e hb hp he eops vops t
    refine ⟨_, b', c1, (fun hp => by cases hp), c4.length, (fun hp => by cases hp), ?_⟩
    rintro ⟨p, u, hc, -⟩
    have h1 := hc.packet
    rw [hp] at h1
    have h2 := hc.v4
    rw [← Outcome.ok.inj h1, he] at h2
    cases h2
  have hi := h5 _ hp hv
  obtain ⟨-, hok⟩ := V4.new_ok_iff.1 hv
  have hlong := hok.long
  have hc : Carries b (b.drop 14) _ := ⟨hb, hp, hv, hi, V4.payload_eq (by omega) hok.header⟩
  generalize ((b.drop 14).drop (field (b.drop 14) 4 4 * 4)).take
    (field (b.drop 14) 16 16 - field (b.drop 14) 4 4 * 4) = u at hc
  rcases t.new_cases u with hu | ⟨e, he⟩
  case inr =>
    obtain ⟨b', p', c1, -, c3, -⟩ := C115_payload_refused cfg b _ u e hc eops vops t he
    refine ⟨_, b', c1, (fun hp => by cases hp), c3.length, (fun hp => by cases hp), ?_⟩
    rintro ⟨p, u', hc', hu'⟩
    rw [uniq hc hc', he] at hu'
    cases hu'
  have hf := hfine _ _ hc hu
  have : ∃ b', Ether.editStack eops (V4.editStack cfg vops (t.edit cfg)) b = (.ok (), b') ∧ EtherEdited eops b b' := by
    cases t with
    | udp ops => obtain ⟨b', _, _, c1, -, c3, -⟩ := C100_udp_in_frame cfg b _ u hc hu eops vops ops; exact ⟨b', c1, c3⟩
    | tcp ops =>
      obtain ⟨b', _, _, c1, -, c3, -⟩ := C100_tcp_in_frame cfg b _ u hc hu hf.1 hf.2.1 eops vops ops hf.2.2
      exact ⟨b', c1, c3⟩
    | echo ops => obtain ⟨b', _, _, c1, -, c3, -⟩ := C100_echo_in_frame cfg b _ u hc hu eops vops ops; exact ⟨b', c1, c3⟩
    | timestamp ops =>
      obtain ⟨b', _, _, c1, -, c3, -⟩ := C100_timestamp_in_frame cfg b _ u hc hu eops vops ops; exact ⟨b', c1, c3⟩
    | information ops =>
      obtain ⟨b', _, _, c1, -, c3, -⟩ := C100_information_in_frame cfg b _ u hc hu eops vops ops; exact ⟨b', c1, c3⟩
  obtain ⟨b', c1, c3⟩ := this
  exact ⟨_, b', c1, (fun hp => by cases hp), c3.length, fun _ => ⟨_, u, hc, hu⟩, fun _ => rfl⟩

/-- A concrete case that meets the hypotheses. -/
example (cfg : Cfg) (eops : List Ether.Set) (vops : List V4.Set) := C115_any_frame cfg Sample.udpFrame eops vops
    (.udp [.source 9]) (fun p hp _ => by obtain rfl : Sample.udpPacket = p := Outcome.ok.inj hp; decide)
    (fun _ _ _ _ => trivial)

theorem Transport.edit_total (cfg : Cfg) (t : Transport) (ht : ∀ ops, t ≠ .tcp ops) (ip u : Bytes) (hip : 20 ≤ ip.length)
    (hu : u.length < cfg.usizeMod) : ∃ o u', t.edit cfg (.v4 ip) u = (o, u') ∧ o ≠ .panic ∧ u'.length = u.length ∧
      (o = .ok () ↔ t.new u = .ok u) := by
  rcases t.new_cases u with h | ⟨e, h⟩
  case inr =>
    refine ⟨.err e, u, t.refused cfg _ h, (fun hp => by cases hp), rfl, (fun hp => by cases hp), ?_⟩
    rw [h]
    exact fun hp => by cases hp
  cases t with
  | tcp ops => exact absurd rfl (ht ops)
  | udp ops =>
    have h : Udp.new u = .ok u := h
    obtain ⟨-, h8, -⟩ := Udp.new_ok_iff.1 h
    obtain ⟨u', e1, -, -, e4, -⟩ := C23_udp_checked cfg ip u hip (by rw [Udp.noPayload_eq, if_neg (by omega)]) ops
    refine ⟨.ok (), u', ?_, (fun hp => by cases hp), e4, fun _ => h, fun _ => rfl⟩
    show editing Udp.new _ u = _
    unfold editing; rw [h]; exact e1
  | echo ops =>
    have h : Echo.new u = .ok u := h
    obtain ⟨u', e1, -, e3, -⟩ := echo_checked_all cfg u (echo_ok h).1 hu ops
    refine ⟨.ok (), u', ?_, (fun hp => by cases hp), e3, fun _ => h, fun _ => rfl⟩
    show editing Echo.new _ u = _
    unfold editing; rw [h]; exact e1
  | timestamp ops =>
    have h : Timestamp.new u = .ok u := h
    obtain ⟨u', e1, -, e3, -⟩ := timestamp_checked_all cfg u (timestamp_ok h).1 ops
    refine ⟨.ok (), u', ?_, (fun hp => by cases hp), e3, fun _ => h, fun _ => rfl⟩
    show editing Timestamp.new _ u = _
    unfold editing; rw [h]; exact e1
  | information ops =>
    have h : Information.new u = .ok u := h
    obtain ⟨u', e1, -, e3, -⟩ := information_checked_all cfg u (information_ok h).1 ops
    refine ⟨.ok (), u', ?_, (fun hp => by cases hp), e3, fun _ => h, fun _ => rfl⟩
    show editing Information.new _ u = _
    unfold editing; rw [h]; exact e1

/-- C115: the outcome for any received bytes (UDP and ICMP; for TCP see `C115_tcp_panics_iff`): exactly which make the
program panic, and with exactly which it succeeds.  The buffer keeps its length in any case. -/
theorem C115_outcome (cfg : Cfg) (b : Bytes) (eops : List Ether.Set) (vops : List V4.Set) (t : Transport)
    (ht : ∀ ops, t ≠ .tcp ops) :
    ∃ o b', Ether.editStack eops (V4.editStack cfg vops (t.edit cfg)) b = (o, b') ∧ b'.length = b.length ∧
      (o = .panic ↔ ∃ p, Ether.payload b = .ok p ∧ V4.new p = .ok p ∧ ¬ InHeader vops p) ∧
      (o = .ok () ↔ ∃ p u, Ether.payload b = .ok p ∧ V4.new p = .ok p ∧ InHeader vops p ∧
        V4.payload p = .ok u ∧ t.new u = .ok u) := by
  by_cases h14 : 14 ≤ b.length
  case neg =>
    have hno : ∀ p, Ether.payload b ≠ .ok p := by
      intro p hp
      unfold Ether.payload Ether.split splitAt at hp
      rw [if_neg h14] at hp
      cases hp
    refine ⟨_, b, C115_frame_refused cfg b (by omega) eops vops t, rfl, ⟨(fun hp => by cases hp), ?_⟩,
      ⟨(fun hp => by cases hp), ?_⟩⟩
    · rintro ⟨p, hp, -⟩; exact absurd hp (hno p)
    · rintro ⟨p, u, hp, -⟩; exact absurd hp (hno p)
  have hb : Ether.new b = .ok b := by rw [C10_ether_accept, if_pos h14]
  have hp : Ether.payload b = .ok (b.drop 14) := by
    unfold Ether.payload Ether.split
    rw [splitAt_ok h14]; rfl
  have hex : ∀ Q : Bytes → Prop, (∃ p, Ether.payload b = .ok p ∧ Q p) ↔ Q (b.drop 14) := by
    intro Q
    constructor
    · rintro ⟨p, h1, h2⟩
      rw [hp] at h1
      rw [Outcome.ok.inj h1]
      exact h2
    · intro h; exact ⟨_, hp, h⟩
  have hex2 : (∃ p u, Ether.payload b = .ok p ∧ V4.new p = .ok p ∧ InHeader vops p ∧
        V4.payload p = .ok u ∧ t.new u = .ok u) ↔ (∃ u, V4.new (b.drop 14) = .ok (b.drop 14) ∧ InHeader vops (b.drop 14) ∧
        V4.payload (b.drop 14) = .ok u ∧ t.new u = .ok u) := by
    rw [← hex (fun p => ∃ u, V4.new p = .ok p ∧ InHeader vops p ∧ V4.payload p = .ok u ∧ t.new u = .ok u)]
    exact ⟨fun ⟨p, u, h, h'⟩ => ⟨p, h, u, h'⟩, fun ⟨p, h, u, h'⟩ => ⟨p, u, h, h'⟩⟩
  rw [hex (fun p => V4.new p = .ok p ∧ ¬ InHeader vops p), hex2]
  rcases v4_new_cases (b.drop 14) with hv | ⟨e, he⟩
  case inr =>
    obtain ⟨b', c1, -, -, c4⟩ := C115_packet_refused cfg b _ e hb hp he eops vops t
    refine ⟨_, b', c1, c4.length, ⟨(fun hp => by cases hp), ?_⟩, ⟨(fun hp => by cases hp), ?_⟩⟩
    · rintro ⟨h1, -⟩
      rw [he] at h1
      cases h1
    · rintro ⟨u, h1, -⟩
      rw [he] at h1
      cases h1
  generalize b.drop 14 = p at hp hv
  obtain ⟨-, hok⟩ := V4.new_ok_iff.1 hv
  have hno : V4.noPayload p = .ok p := V4.noPayload_ok_iff.2 ⟨rfl, hok.toHeaderOk⟩
  by_cases hin : InHeader vops p
  case neg =>
    obtain ⟨p', k1, -, k3⟩ := C114_v4_checked_panics cfg p hno vops hin
    obtain ⟨b', c1, -, -, c4⟩ := ether_stack b p p' hb hp eops (o := .panic) (V4.editStack cfg vops (t.edit cfg)) (by
      unfold V4.editStack editing
      rw [hv]
      show (V4.checkedRun cfg vops >>= _) p = _
      rw [Mut.bind_apply, k1]) k3
    exact ⟨_, b', c1, c4.length, ⟨fun _ => ⟨hv, hin⟩, fun _ => rfl⟩, ⟨(fun hp => by cases hp),
      fun ⟨u, _, h, _⟩ => absurd h hin⟩⟩
  obtain ⟨p1, k1, k2, k3, k4, k5, k6, k7, -, -, k9⟩ := C114_v4_checked cfg p hno vops hin
  have hok1 := (V4.noPayload_ok_iff.1 k3).2
  have hv1 : V4.new p1 = .ok p1 := V4.new_ok_iff.2 ⟨rfl, ⟨hok1, by rw [k7, k4]; exact hok.total⟩⟩
  have hlong := hok1.long
  have hlong0 := hok.long
  have h3 : 3 ≤ field p1 4 4 := by rw [ihl_same k6]; exact hin.1
  have hpay0 : V4.payload p = .ok _ := V4.payload_eq (b := p) (by omega) hok.header
  have hpay : Kind.payload .v4 p1 = V4.payload p := by
    show V4.payload p1 = _
    rw [V4.payload_eq (by omega) hok1.header, hpay0, ihl_same k6, k9, k7]
  generalize hu : (p.drop (field p 4 4 * 4)).take (field p 16 16 - field p 4 4 * 4) = u at hpay0
  rw [hpay0] at hpay
  have hsmall : u.length < cfg.usizeMod := by
    have := field_lt p 16 16
    have e : (2 : Nat) ^ 16 = 65536 := rfl
    have e' : (65536 : Nat) < cfg.usizeMod := by in_every_build
    refine Nat.lt_of_le_of_lt ?_ e'
    rw [← hu, List.length_take]
    omega
  obtain ⟨o, u', e1, e2, e3, e4⟩ := t.edit_total cfg ht p1 _ hlong hsmall
  obtain ⟨p2, st, g1, -, -, -, -, g6⟩ := inPayload_run (f := t.edit cfg (.v4 p1))
    (v4_payload_writable hv1 (by omega)) hpay e1 e3
  obtain ⟨b', c1, -, -, c4⟩ := ether_stack b p p2 hb hp eops (o := o) (V4.editStack cfg vops (t.edit cfg)) (by
    unfold V4.editStack editing
    rw [hv]
    show (V4.checkedRun cfg vops >>= _) p = _
    rw [Mut.bind_ok k1]
    exact g1) (g6.length.trans k4)
  refine ⟨o, b', c1, c4.length, ⟨fun h => absurd h e2, fun h => absurd hin h.2⟩, ?_⟩
  rw [e4]
  constructor
  · intro h; exact ⟨u, hv, hin, hpay0, h⟩
  · rintro ⟨u0, -, -, h1, h2⟩
    rw [hpay0] at h1
    rw [Outcome.ok.inj h1]
    exact h2

/-- A frame that carries an IPv4 packet that carries too short a UDP datagram: Ethernet and IPv4 are edited, the rest is
left, and the program fails. -/
example : ∃ b p u : Bytes, Carries b p u ∧ (Transport.udp []).new u = .err .smallBuffer :=
  ⟨[1, 2, 3, 4, 5, 6, 7, 8, 9, 10, 11, 12, 8, 0, 0x45, 0, 0, 22, 0, 0, 0, 0, 64, 17, 0, 0, 10, 0, 0, 1, 10, 0, 0, 2, 7, 8],
    [0x45, 0, 0, 22, 0, 0, 0, 0, 64, 17, 0, 0, 10, 0, 0, 1, 10, 0, 0, 2, 7, 8], [7, 8],
    ⟨by decide +kernel, by decide +kernel, by decide +kernel, by decide +kernel, by decide +kernel⟩, by decide +kernel⟩

end Verif.Props
