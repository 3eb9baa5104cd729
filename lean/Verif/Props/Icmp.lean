import Verif.Props.Checksum
import Verif.Props.V4
import Verif.Samples

/-! # C34 - C39: ICMP messages -/

namespace Verif.Props
open Verif Spec

theorem returns_ok {α : Type} {x : Outcome α} {a : α} (h : x = .ok a) : x.returns := by
  rw [h]; exact fun h => by cases h

/-! ## C34 -/

/-- C34, acceptance. -/
theorem C34_icmp_accept (b : Bytes) :
    Icmp.new b = if 4 ≤ b.length then .ok b else .err .smallBuffer := by
  unfold Icmp.new Icmp.headerMin
  split <;> split <;> first | rfl | omega

/-- C34, fields and views of an accepted message. -/
theorem C34_icmp_views (cfg : Cfg) (b : Bytes) (hb : b.length < cfg.usizeMod) (h : Icmp.new b = .ok b) :
    Icmp.kind b = .ok (IcmpKind.ofWire (BitVec.ofNat 8 (field b 0 8))) ∧
    Icmp.code b = .ok (BitVec.ofNat 8 (field b 8 8)) ∧
    Icmp.checksum b = .ok (BitVec.ofNat 16 (field b 16 16)) ∧
    Icmp.header b = .ok (b.take 4) ∧ Icmp.payload b = .ok (b.drop 4) ∧
    Icmp.headerSize b = .ok 4 ∧ Icmp.payloadSize cfg b = .ok (b.length - 4) ∧
    Icmp.asRef cfg b = .ok b ∧ (Icmp.isValid cfg b).returns := by
  have hl : 4 ≤ b.length := by
    rw [C34_icmp_accept] at h; split at h
    · assumption
    · cases h
  have hps : Icmp.payloadSize cfg b = .ok (b.length - 4) := by
    unfold Icmp.payloadSize; exact subUsize_ok hl
  refine ⟨?_, idx_field (k := 1) (by omega), readU16At_field (k := 2) (by omega), ?_, ?_, rfl, hps, ?_, ?_⟩
  · unfold Icmp.kind; rw [idx_field (k := 0) (by omega)]; rfl
  · simp [Icmp.header, Icmp.split, splitAt_ok hl]
  · simp [Icmp.payload, Icmp.split, splitAt_ok hl]
  · unfold Icmp.asRef Icmp.size
    rw [hps]
    simp only [Icmp.headerSize, Outcome.ok_bind]
    rw [addUsize_ok (by omega)]
    simp only [Outcome.ok_bind]
    rw [sliceTo_ok (by omega), List.take_of_length_le (by omega)]
  · unfold Icmp.isValid Icmp.checksum
    rw [Icmp.checksumOf_eq, Outcome.ok_bind, readU16At_ok (by omega)]
    exact fun h => by cases h

example : Icmp.new [8, 0, 0, 0] = .ok [8, 0, 0, 0] := by decide

/-! ## C35 -/

theorem typedNew_eq (min : Nat) (hmin : 0 < min) (kinds : List IcmpKind) (ks : List Nat)
    (hk : ∀ x : U8, IcmpKind.ofWire x ∈ kinds ↔ x.toNat ∈ ks) (b : Bytes) :
    Icmp.typedNew min kinds b =
      if b.length < min then .err .smallBuffer
      else if field b 0 8 ∈ ks then .ok b else .err .invalidPacket := by
  unfold Icmp.typedNew
  by_cases h : b.length < min
  · rw [if_pos h, if_pos h]
  · rw [if_neg h, if_neg h, idx_ok (by omega)]
    have hf := field_byte b 0
    simp only [Nat.mul_zero] at hf
    simp only [Outcome.ok_bind, hk, hf]

/-- C35: the six typed views accept exactly the messages that are long enough and whose type byte is one of
the RFC 792 numbers of the kind; SmallBuffer is decided before InvalidPacket; no panic. -/
theorem C35_icmp_typed_accept (b : Bytes) :
    Echo.new b = (if b.length < 8 then .err .smallBuffer
      else if field b 0 8 ∈ [8, 0] then .ok b else .err .invalidPacket) ∧
    Timestamp.new b = (if b.length < 20 then .err .smallBuffer
      else if field b 0 8 ∈ [13, 14] then .ok b else .err .invalidPacket) ∧
    Information.new b = (if b.length < 8 then .err .smallBuffer
      else if field b 0 8 ∈ [15, 16] then .ok b else .err .invalidPacket) ∧
    Previous.new b = (if b.length < 8 then .err .smallBuffer
      else if field b 0 8 ∈ [4, 3, 11] then .ok b else .err .invalidPacket) ∧
    Redirect.new b = (if b.length < 8 then .err .smallBuffer
      else if field b 0 8 ∈ [5] then .ok b else .err .invalidPacket) ∧
    ParamProblem.new b = (if b.length < 8 then .err .smallBuffer
      else if field b 0 8 ∈ [12] then .ok b else .err .invalidPacket) :=
  ⟨typedNew_eq 8 (by omega) _ [8, 0] (by decide) b, typedNew_eq 20 (by omega) _ [13, 14] (by decide) b,
    typedNew_eq 8 (by omega) _ [15, 16] (by decide) b, typedNew_eq 8 (by omega) _ [4, 3, 11] (by decide) b,
    typedNew_eq 8 (by omega) _ [5] (by decide) b, typedNew_eq 8 (by omega) _ [12] (by decide) b⟩

/-- The six acceptance functions. -/
def typedViews : List (Bytes → Outcome Bytes) :=
  [Echo.new, Timestamp.new, Information.new, Previous.new, Redirect.new, ParamProblem.new]

/-- C35: no message is accepted by two different views. -/
theorem C35_icmp_typed_disjoint (b : Bytes) (i j : Nat) (f g : Bytes → Outcome Bytes)
    (hi : typedViews[i]? = some f) (hj : typedViews[j]? = some g) (hf : f b = .ok b) (hg : g b = .ok b) :
    i = j := by
  obtain ⟨e1, e2, e3, e4, e5, e6⟩ := C35_icmp_typed_accept b
  have kinds : ∀ (i : Nat) f, typedViews[i]? = some f → f b = .ok b →
      (i = 0 ∧ field b 0 8 ∈ [8, 0]) ∨ (i = 1 ∧ field b 0 8 ∈ [13, 14]) ∨ (i = 2 ∧ field b 0 8 ∈ [15, 16]) ∨
      (i = 3 ∧ field b 0 8 ∈ [4, 3, 11]) ∨ (i = 4 ∧ field b 0 8 ∈ [5]) ∨ (i = 5 ∧ field b 0 8 ∈ [12]) := by
    intro i f hi hf
    have aux : ∀ {n : Nat} {ks : List Nat}, (if b.length < n then .err .smallBuffer
        else if field b 0 8 ∈ ks then .ok b else .err .invalidPacket) = Outcome.ok b → field b 0 8 ∈ ks := by
      intro n ks h
      split at h
      · cases h
      · split at h
        · assumption
        · cases h
    match i, hi with
    | 0, hi => cases hi; exact Or.inl ⟨rfl, aux (e1 ▸ hf)⟩
    | 1, hi => cases hi; exact Or.inr (Or.inl ⟨rfl, aux (e2 ▸ hf)⟩)
    | 2, hi => cases hi; exact Or.inr (Or.inr (Or.inl ⟨rfl, aux (e3 ▸ hf)⟩))
    | 3, hi => cases hi; exact Or.inr (Or.inr (Or.inr (Or.inl ⟨rfl, aux (e4 ▸ hf)⟩)))
    | 4, hi => cases hi; exact Or.inr (Or.inr (Or.inr (Or.inr (Or.inl ⟨rfl, aux (e5 ▸ hf)⟩))))
    | 5, hi => cases hi; exact Or.inr (Or.inr (Or.inr (Or.inr (Or.inr ⟨rfl, aux (e6 ▸ hf)⟩))))
    | n + 6, hi => simp [typedViews] at hi
  have k1 := kinds i f hi hf
  have k2 := kinds j g hj hg
  simp only [List.mem_cons, List.not_mem_nil, or_false] at k1 k2
  omega

example : Echo.new [8, 0, 0, 0, 0, 1, 0, 2, 65] = .ok [8, 0, 0, 0, 0, 1, 0, 2, 65] := by decide
example : Timestamp.new (13 :: zeros 19) = .ok (13 :: zeros 19) := by decide

/-! ## C36: echo -/

theorem echo_ok {b : Bytes} (h : Echo.new b = .ok b) : 8 ≤ b.length ∧ (field b 0 8 = 8 ∨ field b 0 8 = 0) := by
  rw [(C35_icmp_typed_accept b).1] at h
  split at h
  · cases h
  · split at h
    · next h1 h2 => exact ⟨by omega, by simpa using h2⟩
    · cases h

theorem kind_beq (b : Bytes) (h : 0 < b.length) (k : IcmpKind) (n : Nat)
    (hk : ∀ x : U8, (IcmpKind.ofWire x == k) = decide (x.toNat = n)) :
    (do let x ← idx b 0; Outcome.ok (IcmpKind.ofWire x == k)) = .ok (decide (field b 0 8 = n)) := by
  have hf := field_byte b 0
  simp only [Nat.mul_zero] at hf
  rw [idx_ok h, Outcome.ok_bind, hk, hf]

/-- C36, fields and views of an accepted echo message. -/
theorem C36_echo_fields (cfg : Cfg) (b : Bytes) (hb : b.length < cfg.usizeMod) (h : Echo.new b = .ok b) :
    Echo.isRequest b = .ok (decide (field b 0 8 = 8)) ∧ Echo.isReply b = .ok (decide (field b 0 8 = 0)) ∧
    ((field b 0 8 = 8 ∧ field b 0 8 ≠ 0) ∨ (field b 0 8 = 0 ∧ field b 0 8 ≠ 8)) ∧
    Echo.identifier b = .ok (BitVec.ofNat 16 (field b 32 16)) ∧
    Echo.sequence b = .ok (BitVec.ofNat 16 (field b 48 16)) ∧
    Echo.header b = .ok (b.take 8) ∧ Echo.payload b = .ok (b.drop 8) ∧
    Echo.headerSize b = .ok 8 ∧ Echo.payloadSize cfg b = .ok (b.length - 8) ∧ Echo.asRef cfg b = .ok b := by
  obtain ⟨hl, hk⟩ := echo_ok h
  have hps : Echo.payloadSize cfg b = .ok (b.length - 8) := by
    unfold Echo.payloadSize; exact subUsize_ok hl
  refine ⟨kind_beq b (by omega) _ 8 (by decide), kind_beq b (by omega) _ 0 (by decide), by omega,
    readU16At_field (k := 4) (by omega), readU16At_field (k := 6) (by omega), ?_, ?_, rfl, hps, ?_⟩
  · simp [Echo.header, Echo.split, splitAt_ok hl]
  · simp [Echo.payload, Echo.split, splitAt_ok hl]
  · unfold Echo.asRef Echo.size
    rw [hps]
    simp only [Echo.headerSize, Outcome.ok_bind]
    rw [addUsize_ok (by omega)]
    simp only [Outcome.ok_bind]
    rw [sliceTo_ok (by omega), List.take_of_length_le (by omega)]

/-- A concrete case that meets the hypotheses. -/
example (cfg : Cfg) := C36_echo_fields cfg Sample.echo (by in_every_build) (by decide)

/-- C36, setters. -/
theorem C36_echo_setters (b : Bytes) (h : Echo.new b = .ok b) :
    (∃ b', Echo.makeRequest b = (.ok (), b') ∧ SetsField b b' 0 8 8 ∧ Echo.new b' = .ok b' ∧
      Echo.isRequest b' = .ok true ∧ Echo.isReply b' = .ok false) ∧
    (∃ b', Echo.makeReply b = (.ok (), b') ∧ SetsField b b' 0 8 0 ∧ Echo.new b' = .ok b' ∧
      Echo.isReply b' = .ok true ∧ Echo.isRequest b' = .ok false) ∧
    (∀ v, ∃ b', Echo.setIdentifier v b = (.ok (), b') ∧ SetsField b b' 32 16 v.toNat ∧
      Echo.identifier b' = .ok v ∧ Echo.new b' = .ok b') ∧
    (∀ v, ∃ b', Echo.setSequence v b = (.ok (), b') ∧ SetsField b b' 48 16 v.toNat ∧
      Echo.sequence b' = .ok v ∧ Echo.new b' = .ok b') := by
  obtain ⟨hl, hk⟩ := echo_ok h
  have acc : ∀ {b' : Bytes}, b'.length = b.length → (field b' 0 8 = 8 ∨ field b' 0 8 = 0) →
      Echo.new b' = .ok b' := by
    intro b' h1 h2
    rw [(C35_icmp_typed_accept b').1, if_neg (by omega), if_pos (by simpa using h2)]
  have s1 : SetsField b (put b 0 [IcmpKind.echoRequest.toWire]) 0 8 8 := setsField_put8 (off := 0) (by omega)
  have s2 : SetsField b (put b 0 [IcmpKind.echoReply.toWire]) 0 8 0 := setsField_put8 (off := 0) (by omega)
  refine ⟨⟨_, setIdx_ok (by omega), s1, acc s1.length (Or.inl s1.value), ?_, ?_⟩,
    ⟨_, setIdx_ok (by omega), s2, acc s2.length (Or.inr s2.value), ?_, ?_⟩,
    fun v => ⟨_, writeU16_ok (by omega), setsField_put16 (off := 4) (by omega), readU16At_put (by omega), ?_⟩,
    fun v => ⟨_, writeU16_ok (by omega), setsField_put16 (off := 6) (by omega), readU16At_put (by omega), ?_⟩⟩
  · exact (kind_beq _ (by rw [s1.length]; omega) _ 8 (by decide)).trans (by rw [s1.value]; rfl)
  · exact (kind_beq _ (by rw [s1.length]; omega) _ 0 (by decide)).trans (by rw [s1.value]; rfl)
  · exact (kind_beq _ (by rw [s2.length]; omega) _ 0 (by decide)).trans (by rw [s2.value]; rfl)
  · exact (kind_beq _ (by rw [s2.length]; omega) _ 8 (by decide)).trans (by rw [s2.value]; rfl)
  · have s := setsField_put16 (b := b) (off := 4) (v := v) (by omega)
    exact acc s.length (by rw [s.other (by omega)]; exact hk)
  · have s := setsField_put16 (b := b) (off := 6) (v := v) (by omega)
    exact acc s.length (by rw [s.other (by omega)]; exact hk)

/-- A concrete case that meets the hypotheses. -/
example := C36_echo_setters Sample.echo (by decide)

/-! ## C37: timestamp and information -/

theorem timestamp_ok {b : Bytes} (h : Timestamp.new b = .ok b) :
    20 ≤ b.length ∧ (field b 0 8 = 13 ∨ field b 0 8 = 14) := by
  rw [(C35_icmp_typed_accept b).2.1] at h
  split at h
  · cases h
  · split at h
    · next h1 h2 => exact ⟨by omega, by simpa using h2⟩
    · cases h

theorem information_ok {b : Bytes} (h : Information.new b = .ok b) :
    8 ≤ b.length ∧ (field b 0 8 = 15 ∨ field b 0 8 = 16) := by
  rw [(C35_icmp_typed_accept b).2.2.1] at h
  split at h
  · cases h
  · split at h
    · next h1 h2 => exact ⟨by omega, by simpa using h2⟩
    · cases h

/-- C37 for timestamps: getters and the field setters. Not part of this claim: `make_request` and
`make_reply`. -/
theorem C37_timestamp (b : Bytes) (h : Timestamp.new b = .ok b) :
    Timestamp.isRequest b = .ok (decide (field b 0 8 = 13)) ∧
    Timestamp.isReply b = .ok (decide (field b 0 8 = 14)) ∧
    Timestamp.identifier b = .ok (BitVec.ofNat 16 (field b 32 16)) ∧
    Timestamp.sequence b = .ok (BitVec.ofNat 16 (field b 48 16)) ∧
    Timestamp.originate b = .ok (BitVec.ofNat 32 (field b 64 32)) ∧
    Timestamp.receive b = .ok (BitVec.ofNat 32 (field b 96 32)) ∧
    Timestamp.transmit b = .ok (BitVec.ofNat 32 (field b 128 32)) ∧
    (∀ v, ∃ b', Timestamp.setIdentifier v b = (.ok (), b') ∧ SetsField b b' 32 16 v.toNat ∧
      Timestamp.identifier b' = .ok v ∧ Timestamp.new b' = .ok b') ∧
    (∀ v, ∃ b', Timestamp.setSequence v b = (.ok (), b') ∧ SetsField b b' 48 16 v.toNat ∧
      Timestamp.sequence b' = .ok v ∧ Timestamp.new b' = .ok b') ∧
    (∀ v, ∃ b', Timestamp.setOriginate v b = (.ok (), b') ∧ SetsField b b' 64 32 v.toNat ∧
      Timestamp.originate b' = .ok v ∧ Timestamp.new b' = .ok b') ∧
    (∀ v, ∃ b', Timestamp.setReceive v b = (.ok (), b') ∧ SetsField b b' 96 32 v.toNat ∧
      Timestamp.receive b' = .ok v ∧ Timestamp.new b' = .ok b') ∧
    (∀ v, ∃ b', Timestamp.setTransmit v b = (.ok (), b') ∧ SetsField b b' 128 32 v.toNat ∧
      Timestamp.transmit b' = .ok v ∧ Timestamp.new b' = .ok b') := by
  obtain ⟨hl, hk⟩ := timestamp_ok h
  have acc : ∀ {b' : Bytes} {s w v : Nat}, SetsField b b' s w v → 8 ≤ s → Timestamp.new b' = .ok b' := by
    intro b' s w v hs h8
    rw [(C35_icmp_typed_accept b').2.1, if_neg (by rw [hs.length]; omega),
      if_pos (by rw [hs.other (by omega)]; simpa using hk)]
  refine ⟨kind_beq b (by omega) _ 13 (by decide), kind_beq b (by omega) _ 14 (by decide),
    readU16At_field (k := 4) (by omega), readU16At_field (k := 6) (by omega),
    readU32At_field (k := 8) (by omega), readU32At_field (k := 12) (by omega),
    readU32At_field (k := 16) (by omega), fun v => ?_, fun v => ?_, fun v => ?_, fun v => ?_, fun v => ?_⟩
  · have s := setsField_put16 (b := b) (off := 4) (v := v) (by omega)
    exact ⟨_, writeU16_ok (by omega), s, readU16At_put (by omega), acc s (by omega)⟩
  · have s := setsField_put16 (b := b) (off := 6) (v := v) (by omega)
    exact ⟨_, writeU16_ok (by omega), s, readU16At_put (by omega), acc s (by omega)⟩
  · have s := setsField_put32 (b := b) (off := 8) (v := v) (by omega)
    exact ⟨_, writeU32_ok (by omega), s, readU32At_put (by omega), acc s (by omega)⟩
  · have s := setsField_put32 (b := b) (off := 12) (v := v) (by omega)
    exact ⟨_, writeU32_ok (by omega), s, readU32At_put (by omega), acc s (by omega)⟩
  · have s := setsField_put32 (b := b) (off := 16) (v := v) (by omega)
    exact ⟨_, writeU32_ok (by omega), s, readU32At_put (by omega), acc s (by omega)⟩

/-- A concrete case that meets the hypotheses. -/
example := C37_timestamp Sample.timestamp (by decide)

/-- C37 for information messages. -/
theorem C37_information (b : Bytes) (h : Information.new b = .ok b) :
    Information.isRequest b = .ok (decide (field b 0 8 = 15)) ∧
    Information.isReply b = .ok (decide (field b 0 8 = 16)) ∧
    Information.identifier b = .ok (BitVec.ofNat 16 (field b 32 16)) ∧
    Information.sequence b = .ok (BitVec.ofNat 16 (field b 48 16)) ∧
    (∀ v, ∃ b', Information.setIdentifier v b = (.ok (), b') ∧ SetsField b b' 32 16 v.toNat ∧
      Information.identifier b' = .ok v ∧ Information.new b' = .ok b') ∧
    (∀ v, ∃ b', Information.setSequence v b = (.ok (), b') ∧ SetsField b b' 48 16 v.toNat ∧
      Information.sequence b' = .ok v ∧ Information.new b' = .ok b') := by
  obtain ⟨hl, hk⟩ := information_ok h
  have acc : ∀ {b' : Bytes} {s w v : Nat}, SetsField b b' s w v → 8 ≤ s → Information.new b' = .ok b' := by
    intro b' s w v hs h8
    rw [(C35_icmp_typed_accept b').2.2.1, if_neg (by rw [hs.length]; omega),
      if_pos (by rw [hs.other (by omega)]; simpa using hk)]
  refine ⟨kind_beq b (by omega) _ 15 (by decide), kind_beq b (by omega) _ 16 (by decide),
    readU16At_field (k := 4) (by omega), readU16At_field (k := 6) (by omega), fun v => ?_, fun v => ?_⟩
  · have s := setsField_put16 (b := b) (off := 4) (v := v) (by omega)
    exact ⟨_, writeU16_ok (by omega), s, readU16At_put (by omega), acc s (by omega)⟩
  · have s := setsField_put16 (b := b) (off := 6) (v := v) (by omega)
    exact ⟨_, writeU16_ok (by omega), s, readU16At_put (by omega), acc s (by omega)⟩

/-- A concrete case that meets the hypotheses. -/
example := C37_information Sample.information (by decide)

/-- C37, views: the header of a timestamp or information message is its first 8 bytes and the payload everything
after them, so the three times of a timestamp are in `payload()`. -/
theorem C37_views (b : Bytes) :
    (Timestamp.new b = .ok b → Timestamp.header b = .ok (b.take 8) ∧ Timestamp.payload b = .ok (b.drop 8)) ∧
    (Information.new b = .ok b → Information.header b = .ok (b.take 8) ∧ Information.payload b = .ok (b.drop 8)) := by
  refine ⟨fun h => ?_, fun h => ?_⟩
  · have hl := (timestamp_ok h).1
    have e : Timestamp.split b = .ok (b.take 8, b.drop 8) := splitAt_ok (by omega)
    unfold Timestamp.header Timestamp.payload
    rw [e]; exact ⟨rfl, rfl⟩
  · have hl := (information_ok h).1
    have e : Information.split b = .ok (b.take 8, b.drop 8) := splitAt_ok (by omega)
    unfold Information.header Information.payload
    rw [e]; exact ⟨rfl, rfl⟩

/-- C71 is false of the code, for every accepted message: `make_request`/`make_reply` turn a timestamp
into an echo message; it is neither a request nor a reply any more and is no longer accepted. -/
theorem C71_timestamp_make_refuted (b : Bytes) (h : Timestamp.new b = .ok b) :
    (∃ b', Timestamp.makeRequest b = (.ok (), b') ∧ Timestamp.isRequest b' = .ok false ∧
      Timestamp.new b' = .err .invalidPacket) ∧
    (∃ b', Timestamp.makeReply b = (.ok (), b') ∧ Timestamp.isReply b' = .ok false ∧
      Timestamp.new b' = .err .invalidPacket) := by
  obtain ⟨hl, hk⟩ := timestamp_ok h
  have s1 : SetsField b (put b 0 [IcmpKind.echoRequest.toWire]) 0 8 8 := setsField_put8 (off := 0) (by omega)
  have s2 : SetsField b (put b 0 [IcmpKind.echoReply.toWire]) 0 8 0 := setsField_put8 (off := 0) (by omega)
  refine ⟨⟨_, setIdx_ok (by omega), ?_, ?_⟩, ⟨_, setIdx_ok (by omega), ?_, ?_⟩⟩
  · exact (kind_beq _ (by rw [s1.length]; omega) _ 13 (by decide)).trans (by rw [s1.value]; rfl)
  · rw [(C35_icmp_typed_accept _).2.1, if_neg (by rw [s1.length]; omega), if_neg (by rw [s1.value]; decide)]
  · exact (kind_beq _ (by rw [s2.length]; omega) _ 14 (by decide)).trans (by rw [s2.value]; rfl)
  · rw [(C35_icmp_typed_accept _).2.1, if_neg (by rw [s2.length]; omega), if_neg (by rw [s2.value]; decide)]

/-- A concrete case that meets the hypotheses. -/
example := C71_timestamp_make_refuted Sample.timestamp (by decide)

/-- The same for information messages. -/
theorem C71_information_make_refuted (b : Bytes) (h : Information.new b = .ok b) :
    (∃ b', Information.makeRequest b = (.ok (), b') ∧ Information.isRequest b' = .ok false ∧
      Information.new b' = .err .invalidPacket) ∧
    (∃ b', Information.makeReply b = (.ok (), b') ∧ Information.isReply b' = .ok false ∧
      Information.new b' = .err .invalidPacket) := by
  obtain ⟨hl, hk⟩ := information_ok h
  have s1 : SetsField b (put b 0 [IcmpKind.echoRequest.toWire]) 0 8 8 := setsField_put8 (off := 0) (by omega)
  have s2 : SetsField b (put b 0 [IcmpKind.echoReply.toWire]) 0 8 0 := setsField_put8 (off := 0) (by omega)
  refine ⟨⟨_, setIdx_ok (by omega), ?_, ?_⟩, ⟨_, setIdx_ok (by omega), ?_, ?_⟩⟩
  · exact (kind_beq _ (by rw [s1.length]; omega) _ 15 (by decide)).trans (by rw [s1.value]; rfl)
  · rw [(C35_icmp_typed_accept _).2.2.1, if_neg (by rw [s1.length]; omega), if_neg (by rw [s1.value]; decide)]
  · exact (kind_beq _ (by rw [s2.length]; omega) _ 16 (by decide)).trans (by rw [s2.value]; rfl)
  · rw [(C35_icmp_typed_accept _).2.2.1, if_neg (by rw [s2.length]; omega), if_neg (by rw [s2.value]; decide)]

/-- A concrete case that meets the hypotheses. -/
example := C71_information_make_refuted Sample.information (by decide)

/-! ## C38: `checked()` -/

/-- The drop of an ICMP guard whose view is the first `n` bytes. -/
theorem dropChecked_ok (cfg : Cfg) {b : Bytes} {n : Nat} {view : Bytes → Outcome Nat} (h4 : 4 ≤ n)
    (hn : n ≤ b.length) (hv : view b = .ok n) :
    ∃ b', Icmp.dropChecked cfg view b = (.ok (), b') ∧ SameOutside b b' 2 4 ∧
      Icmp.isValid cfg (b'.take n) = .ok true := by
  have hvl : (b.take n).length = n := by rw [List.length_take]; omega
  have h2 : 2 + 2 ≤ (b.take n).length := by omega
  generalize hc : ckOf (65535 + (loopWords 4 (b.take n) 0).sum) = c
  have hck : Icmp.checksumOf cfg (b.take n) = .ok c := by rw [Icmp.checksumOf_eq, hc]
  refine ⟨put b 2 (be16 c), ?_, ?_, ?_⟩
  · unfold Icmp.dropChecked
    rw [hv]
    simp only [Outcome.ok_bind, sliceTo_ok hn, hck, writeU16_ok h2, Outcome.unwrap_ok, hvl]
    rw [put_append_drop (by simp [be16]; omega)]
  · have := sameOutside_put (b := b) (off := 2) (bs := be16 c) (by simp [be16]; omega)
    simpa [be16] using this
  · rw [take_put (by simp [be16]; omega) hn]
    unfold Icmp.isValid Icmp.checksum
    rw [Icmp.checksumOf_eq, Outcome.ok_bind, readU16At_put16 h2, Outcome.ok_bind]
    have := loopWords_put16 1 (b.take n) c (by omega)
    simp only [Nat.reduceMul, Nat.reduceAdd] at this
    rw [this, hc]
    simp

/-- C38 for echo: any history of setters. -/
theorem C38_echo_checked (cfg : Cfg) (b : Bytes) (hb : b.length < cfg.usizeMod) (h : Echo.new b = .ok b)
    (ops : List Echo.Set) :
    ∃ b', Echo.checkedRun cfg ops b = (.ok (), b') ∧ Icmp.isValid cfg b' = .ok true ∧
      Echo.new b' = .ok b' ∧ b'.length = b.length := by
  obtain ⟨b₁, e1, e2, e3⟩ := runIgnoringErrors_inv (P := fun c => c.length = b.length ∧ Echo.new c = .ok c)
    (ops.map Echo.Set.run) (by
      intro f hf s ⟨hs1, hs2⟩
      obtain ⟨op, -, rfl⟩ := List.mem_map.1 hf
      obtain ⟨⟨a, a1, a2, a3, -⟩, ⟨c, c1, c2, c3, -⟩, d, e⟩ := C36_echo_setters s hs2
      cases op with
      | request =>
        show (Echo.makeRequest s).1 ≠ .panic ∧ _
        simp only [Echo.Set.run, a1]; exact ⟨(fun h => by cases h), a2.length.trans hs1, a3⟩
      | reply =>
        show (Echo.makeReply s).1 ≠ .panic ∧ _
        simp only [Echo.Set.run, c1]; exact ⟨(fun h => by cases h), c2.length.trans hs1, c3⟩
      | identifier v =>
        obtain ⟨s', d1, d2, -, d3⟩ := d v
        show (Echo.setIdentifier v s).1 ≠ .panic ∧ _
        simp only [Echo.Set.run, d1]; exact ⟨(fun h => by cases h), d2.length.trans hs1, d3⟩
      | sequence v =>
        obtain ⟨s', d1, d2, -, d3⟩ := e v
        show (Echo.setSequence v s).1 ≠ .panic ∧ _
        simp only [Echo.Set.run, d1]; exact ⟨(fun h => by cases h), d2.length.trans hs1, d3⟩) b ⟨rfl, h⟩
  obtain ⟨hl, hk⟩ := echo_ok e3
  have hsz : Echo.size cfg b₁ = .ok b₁.length := by
    unfold Echo.size Echo.payloadSize
    simp only [Echo.headerSize, Outcome.ok_bind]
    rw [subUsize_ok hl, Outcome.ok_bind, addUsize_ok (by omega)]
    congr 1; omega
  obtain ⟨b₂, k1, k2, k3⟩ := dropChecked_ok cfg (n := b₁.length) (by omega) (Nat.le_refl _) hsz
  have hl2 := k2.length
  refine ⟨b₂, ?_, ?_, ?_, by omega⟩
  · unfold Echo.checkedRun
    exact (Mut.bind_ok e1).trans k1
  · rwa [List.take_of_length_le (by omega)] at k3
  · have hf : field b₂ 0 8 = field b₁ 0 8 :=
      field_congr fun i hi1 hi2 => bitAt_congr (k2.frame _ (by omega))
    rw [(C35_icmp_typed_accept b₂).1, if_neg (by omega), if_pos (by rw [hf]; simpa using hk)]

/-- A concrete case that meets the hypotheses. -/
example (cfg : Cfg) := C38_echo_checked cfg Sample.echo (by in_every_build) (by decide)

/-- C38 for timestamps: the first 20 bytes verify, whatever follows them. -/
theorem C38_timestamp_checked (cfg : Cfg) (b : Bytes) (h : Timestamp.new b = .ok b)
    (ops : List Timestamp.Set) :
    ∃ b', Timestamp.checkedRun cfg ops b = (.ok (), b') ∧ Timestamp.asRef b' = .ok (b'.take 20) ∧
      Icmp.isValid cfg (b'.take 20) = .ok true ∧ b'.length = b.length ∧ b'.drop 20 = b.drop 20 := by
  have h20 := (timestamp_ok h).1
  have inv : ∀ {s : Bytes} {off : Nat} {bs : Bytes}, s.length = b.length ∧ s.drop 20 = b.drop 20 →
      off + bs.length ≤ 20 →
      (put s off bs).length = b.length ∧ (put s off bs).drop 20 = b.drop 20 := by
    intro s off bs ⟨h1, h2⟩ ho
    refine ⟨(length_put (by omega)).trans h1, ?_⟩
    rw [← h2]
    apply List.ext_getElem?
    intro i
    rw [List.getElem?_drop, List.getElem?_drop, getElem?_put (by omega), if_neg (by omega), if_neg (by omega)]
  obtain ⟨b₁, e1, e2, e3⟩ := runIgnoringErrors_inv
    (P := fun c => c.length = b.length ∧ c.drop 20 = b.drop 20)
    (ops.map Timestamp.Set.run) (by
      intro f hf s hs
      obtain ⟨op, -, rfl⟩ := List.mem_map.1 hf
      have hs1 := hs.1
      have fin : ∀ {f : Mut Bytes Unit} {off : Nat} {bs : Bytes}, f s = (.ok (), put s off bs) →
          off + bs.length ≤ 20 → (f s).1 ≠ .panic ∧ (f s).2.length = b.length ∧ (f s).2.drop 20 = b.drop 20 := by
        intro f off bs hf ho
        rw [hf]; exact ⟨(fun h => by cases h), inv hs ho⟩
      cases op with
      | request => exact fin (setIdx_ok (by omega)) (by simp)
      | reply => exact fin (setIdx_ok (by omega)) (by simp)
      | identifier v => exact fin (writeU16_ok (by omega)) (by simp [be16])
      | sequence v => exact fin (writeU16_ok (by omega)) (by simp [be16])
      | originate v => exact fin (writeU32_ok (by omega)) (by simp [be32])
      | receive v => exact fin (writeU32_ok (by omega)) (by simp [be32])
      | transmit v => exact fin (writeU32_ok (by omega)) (by simp [be32])) b ⟨rfl, rfl⟩
  obtain ⟨b₂, k1, k2, k3⟩ := dropChecked_ok cfg (b := b₁) (n := 20) (view := Timestamp.size) (by omega)
    (by omega) rfl
  have hl2 := k2.length
  refine ⟨b₂, ?_, ?_, k3, by omega, ?_⟩
  · unfold Timestamp.checkedRun
    exact (Mut.bind_ok e1).trans k1
  · unfold Timestamp.asRef Timestamp.size Timestamp.headerSize Timestamp.payloadSize
    simp only [Outcome.ok_bind]
    rw [sliceTo_ok (by omega)]
  · rw [← e3]
    apply List.ext_getElem?
    intro i
    rw [List.getElem?_drop, List.getElem?_drop, k2.frame _ (by omega)]

/-- A concrete case that meets the hypotheses. -/
example (cfg : Cfg) := C38_timestamp_checked cfg Sample.timestamp (by decide)

/-- C38 for information messages: the first 8 bytes verify. -/
theorem C38_information_checked (cfg : Cfg) (b : Bytes) (h : Information.new b = .ok b)
    (ops : List Information.Set) :
    ∃ b', Information.checkedRun cfg ops b = (.ok (), b') ∧ Information.asRef b' = .ok (b'.take 8) ∧
      Icmp.isValid cfg (b'.take 8) = .ok true ∧ b'.length = b.length ∧ b'.drop 8 = b.drop 8 := by
  have h8 := (information_ok h).1
  have inv : ∀ {s : Bytes} {off : Nat} {bs : Bytes}, s.length = b.length ∧ s.drop 8 = b.drop 8 →
      off + bs.length ≤ 8 →
      (put s off bs).length = b.length ∧ (put s off bs).drop 8 = b.drop 8 := by
    intro s off bs ⟨h1, h2⟩ ho
    refine ⟨(length_put (by omega)).trans h1, ?_⟩
    rw [← h2]
    apply List.ext_getElem?
    intro i
    rw [List.getElem?_drop, List.getElem?_drop, getElem?_put (by omega), if_neg (by omega), if_neg (by omega)]
  obtain ⟨b₁, e1, e2, e3⟩ := runIgnoringErrors_inv
    (P := fun c => c.length = b.length ∧ c.drop 8 = b.drop 8)
    (ops.map Information.Set.run) (by
      intro f hf s hs
      obtain ⟨op, -, rfl⟩ := List.mem_map.1 hf
      have hs1 := hs.1
      have fin : ∀ {f : Mut Bytes Unit} {off : Nat} {bs : Bytes}, f s = (.ok (), put s off bs) →
          off + bs.length ≤ 8 → (f s).1 ≠ .panic ∧ (f s).2.length = b.length ∧ (f s).2.drop 8 = b.drop 8 := by
        intro f off bs hf ho
        rw [hf]; exact ⟨(fun h => by cases h), inv hs ho⟩
      cases op with
      | request => exact fin (setIdx_ok (by omega)) (by simp)
      | reply => exact fin (setIdx_ok (by omega)) (by simp)
      | identifier v => exact fin (writeU16_ok (by omega)) (by simp [be16])
      | sequence v => exact fin (writeU16_ok (by omega)) (by simp [be16])) b ⟨rfl, rfl⟩
  obtain ⟨b₂, k1, k2, k3⟩ := dropChecked_ok cfg (b := b₁) (n := 8) (view := Information.size) (by omega)
    (by omega) rfl
  have hl2 := k2.length
  refine ⟨b₂, ?_, ?_, k3, by omega, ?_⟩
  · unfold Information.checkedRun
    exact (Mut.bind_ok e1).trans k1
  · unfold Information.asRef Information.size Information.headerSize Information.payloadSize
    simp only [Outcome.ok_bind]
    rw [sliceTo_ok (by omega)]
  · rw [← e3]
    apply List.ext_getElem?
    intro i
    rw [List.getElem?_drop, List.getElem?_drop, k2.frame _ (by omega)]

/-- A concrete case that meets the hypotheses. -/
example (cfg : Cfg) := C38_information_checked cfg Sample.information (by decide)

/-! ### The values after `checked()` -/

/-- Any history of calls that each write one of a list of separate fields: each field holds the last value
given, every bit outside them is as before. -/
theorem field_history {Op : Type} (run : Op → Mut Bytes Unit) (written : Op → Nat × Nat × Nat)
    (fields : List (Nat × Nat)) (n : Nat) (hpos : ∀ f ∈ fields, 0 < f.2)
    (hdis : ∀ f ∈ fields, ∀ g ∈ fields, f = g ∨ f.1 + f.2 ≤ g.1 ∨ g.1 + g.2 ≤ f.1)
    (hmem : ∀ op, ((written op).1, (written op).2.1) ∈ fields)
    (hrun : ∀ op b, n ≤ b.length → ∃ b', run op b = (.ok (), b') ∧
      SetsField b b' (written op).1 (written op).2.1 (written op).2.2) :
    ∀ (ops : List Op) (b : Bytes), n ≤ b.length →
      ∃ b', runIgnoringErrors (ops.map run) b = (.ok (), b') ∧ b'.length = b.length ∧
        (∀ s w, (s, w) ∈ fields → field b' s w =
          last (fun op => if (written op).1 = s then some (written op).2.2 else none) (field b s w) ops) ∧
        (∀ i, (∀ s w, (s, w) ∈ fields → i < s ∨ s + w ≤ i) → bitAt b' i = bitAt b i) := by
  intro ops
  induction ops with
  | nil => intro b _; exact ⟨b, rfl, rfl, fun _ _ _ => rfl, fun _ _ => rfl⟩
  | cons op ops ih =>
    intro b hb
    obtain ⟨b₁, h1, h2⟩ := hrun op b hb
    obtain ⟨b₂, k1, k2, k3, k4⟩ := ih b₁ (by rw [h2.length]; exact hb)
    refine ⟨b₂, ?_, k2.trans h2.length, ?_, ?_⟩
    · simp only [List.map_cons, runIgnoringErrors]
      rw [h1]; exact k1
    · intro s w hsw
      rw [k3 s w hsw, last_cons]
      congr 1
      have hp := hpos _ hsw
      have hp2 := hpos _ (hmem op)
      have hd := hdis _ hsw _ (hmem op)
      simp only [Prod.mk.injEq] at hp hp2 hd
      by_cases he : (written op).1 = s
      · rw [if_pos he, Option.getD_some, ← h2.value, he]
        congr 1; omega
      · rw [if_neg he, Option.getD_none]
        exact h2.other (by omega)
    · intro i hi
      rw [k4 i hi]
      exact h2.frame i (hi _ _ (hmem op))

/-- Bytes whose bits agree agree. -/
theorem drop_of_bits {b b' : Bytes} {n : Nat} (hl : b'.length = b.length)
    (h : ∀ i, 8 * n ≤ i → bitAt b' i = bitAt b i) : b'.drop n = b.drop n := by
  apply List.ext_getElem?
  intro i
  rw [List.getElem?_drop, List.getElem?_drop]
  by_cases hi : n + i < b.length
  · rw [getD_of_lt (by omega), getD_of_lt hi]
    congr 1
    refine BitVec.eq_of_getMsbD_eq fun j hj => ?_
    rw [← bitAt_eq _ _ _ hj, ← bitAt_eq _ _ _ hj]
    exact h _ (by omega)
  · rw [List.getElem?_eq_none (by omega), List.getElem?_eq_none (by omega)]

/-- The field `(start, width, value)` a setter of echo `Checked` writes (RFC 792): the kind is 8 for
`make_request()` and 0 for `make_reply()`. -/
def echoWritten : Echo.Set → Nat × Nat × Nat
  | .request => (0, 8, 8)
  | .reply => (0, 8, 0)
  | .identifier v => (32, 16, v.toNat)
  | .sequence v => (48, 16, v.toNat)

/-- The same for timestamps; the kinds are those of C71. -/
def timestampWritten : Timestamp.Set → Nat × Nat × Nat
  | .request => (0, 8, 8)
  | .reply => (0, 8, 0)
  | .identifier v => (32, 16, v.toNat)
  | .sequence v => (48, 16, v.toNat)
  | .originate v => (64, 32, v.toNat)
  | .receive v => (96, 32, v.toNat)
  | .transmit v => (128, 32, v.toNat)

/-- The same for information messages; the kinds are those of C71. -/
def informationWritten : Information.Set → Nat × Nat × Nat
  | .request => (0, 8, 8)
  | .reply => (0, 8, 0)
  | .identifier v => (32, 16, v.toNat)
  | .sequence v => (48, 16, v.toNat)

/-- The last value a history writes to the field that starts at bit `s`. -/
def lastWritten {Op : Type} (written : Op → Nat × Nat × Nat) (s d : Nat) (ops : List Op) : Nat :=
  last (fun op => if (written op).1 = s then some (written op).2.2 else none) d ops

/-- What the guard leaves behind, when its view is the first `n` bytes. -/
theorem checked_all (cfg : Cfg) {Op : Type} (run : Op → Mut Bytes Unit) (written : Op → Nat × Nat × Nat)
    (fields : List (Nat × Nat)) (n m : Nat) (h4 : 4 ≤ n) (hpos : ∀ f ∈ fields, 0 < f.2)
    (hdis : ∀ f ∈ fields, ∀ g ∈ fields, f = g ∨ f.1 + f.2 ≤ g.1 ∨ g.1 + g.2 ≤ f.1)
    (hin : ∀ f ∈ fields, f.1 + f.2 ≤ 8 ∨ (32 ≤ f.1 ∧ f.1 + f.2 ≤ 8 * n))
    (hmem : ∀ op, ((written op).1, (written op).2.1) ∈ fields)
    (hrun : ∀ op b, n ≤ b.length → ∃ b', run op b = (.ok (), b') ∧
      SetsField b b' (written op).1 (written op).2.1 (written op).2.2)
    (view : Bytes → Outcome Nat) (b : Bytes) (hn : n ≤ m) (hm : m ≤ b.length)
    (hv : ∀ c : Bytes, c.length = b.length → view c = .ok m) (ops : List Op) :
    ∃ b', (do runIgnoringErrors (ops.map run); Icmp.dropChecked cfg view : Mut Bytes Unit) b = (.ok (), b') ∧
      Icmp.isValid cfg (b'.take m) = .ok true ∧ b'.length = b.length ∧ b'.drop n = b.drop n ∧ field b' 8 8 = field b 8 8 ∧
      (∀ s w, (s, w) ∈ fields → field b' s w = lastWritten written s (field b s w) ops) := by
  obtain ⟨b₁, h1, h2, h3, h5⟩ := field_history run written fields n hpos hdis hmem hrun ops b (by omega)
  obtain ⟨b₂, k1, k2, k3⟩ := dropChecked_ok cfg (b := b₁) (n := m) (view := view) (by omega) (by omega)
    (hv b₁ h2)
  refine ⟨b₂, (Mut.bind_ok h1).trans k1, k3, k2.length.trans h2, ?_, ?_, ?_⟩
  · apply drop_of_bits (k2.length.trans h2)
    intro i hi
    rw [bitAt_congr (k2.frame _ (by omega))]
    apply h5
    intro s w hsw
    have := hin _ hsw
    simp only at this
    omega
  · apply field_congr
    intro i hi1 hi2
    rw [bitAt_congr (k2.frame _ (by omega))]
    apply h5
    intro s w hsw
    have := hin _ hsw
    simp only at this
    omega
  · intro s w hsw
    unfold lastWritten
    rw [← h3 s w hsw]
    have := hin _ hsw
    simp only at this
    exact field_congr fun i hi1 hi2 => bitAt_congr (k2.frame _ (by omega))

theorem checked_fields (cfg : Cfg) {Op : Type} (run : Op → Mut Bytes Unit) (written : Op → Nat × Nat × Nat)
    (fields : List (Nat × Nat)) (n m : Nat) (h4 : 4 ≤ n) (hpos : ∀ f ∈ fields, 0 < f.2)
    (hdis : ∀ f ∈ fields, ∀ g ∈ fields, f = g ∨ f.1 + f.2 ≤ g.1 ∨ g.1 + g.2 ≤ f.1)
    (hin : ∀ f ∈ fields, f.1 + f.2 ≤ 8 ∨ (32 ≤ f.1 ∧ f.1 + f.2 ≤ 8 * n))
    (hmem : ∀ op, ((written op).1, (written op).2.1) ∈ fields)
    (hrun : ∀ op b, n ≤ b.length → ∃ b', run op b = (.ok (), b') ∧
      SetsField b b' (written op).1 (written op).2.1 (written op).2.2)
    (view : Bytes → Outcome Nat) (b : Bytes) (hn : n ≤ m) (hm : m ≤ b.length)
    (hv : ∀ c : Bytes, c.length = b.length → view c = .ok m) (ops : List Op) :
    ∃ b', (do runIgnoringErrors (ops.map run); Icmp.dropChecked cfg view : Mut Bytes Unit) b = (.ok (), b') ∧
      b'.length = b.length ∧ b'.drop n = b.drop n ∧ field b' 8 8 = field b 8 8 ∧
      (∀ s w, (s, w) ∈ fields → field b' s w = lastWritten written s (field b s w) ops) := by
  obtain ⟨b', h1, -, h2⟩ := checked_all cfg run written fields n m h4 hpos hdis hin hmem hrun view b hn hm hv ops
  exact ⟨b', h1, h2⟩

/-- C38, the values of echo: after any history through `checked()` kind, identifier and sequence number hold
the last value given (or the old one), the code and the payload are as before. -/
theorem C38_echo_checked_fields (cfg : Cfg) (b : Bytes) (hb : b.length < cfg.usizeMod) (h : Echo.new b = .ok b)
    (ops : List Echo.Set) :
    ∃ b', Echo.checkedRun cfg ops b = (.ok (), b') ∧
      b'.length = b.length ∧ b'.drop 8 = b.drop 8 ∧ field b' 8 8 = field b 8 8 ∧
      (∀ s w, (s, w) ∈ [(0, 8), (32, 16), (48, 16)] →
        field b' s w = lastWritten echoWritten s (field b s w) ops) := by
  have hl := (echo_ok h).1
  refine checked_fields cfg Echo.Set.run echoWritten _ 8 b.length (by omega) (by decide) (by decide) (by decide)
    (fun op => by cases op <;> simp [echoWritten]) ?_ (Echo.size cfg) b hl (Nat.le_refl _) ?_ ops
  · intro op c hc
    cases op with
    | request => exact ⟨_, setIdx_ok (by omega), setsField_put8 (off := 0) (by omega)⟩
    | reply => exact ⟨_, setIdx_ok (by omega), setsField_put8 (off := 0) (by omega)⟩
    | identifier v => exact ⟨_, writeU16_ok (by omega), setsField_put16 (off := 4) (by omega)⟩
    | sequence v => exact ⟨_, writeU16_ok (by omega), setsField_put16 (off := 6) (by omega)⟩
  · intro c hc
    unfold Echo.size Echo.payloadSize
    simp only [Echo.headerSize, Outcome.ok_bind]
    rw [subUsize_ok (by omega), Outcome.ok_bind, addUsize_ok (by omega)]
    congr 1; omega

/-- A concrete case that meets the hypotheses. -/
example (cfg : Cfg) := C38_echo_checked_fields cfg Sample.echo (by in_every_build) (by decide)

/-- C38, the values of timestamps. -/
theorem C38_timestamp_checked_fields (cfg : Cfg) (b : Bytes) (h : Timestamp.new b = .ok b)
    (ops : List Timestamp.Set) :
    ∃ b', Timestamp.checkedRun cfg ops b = (.ok (), b') ∧
      b'.length = b.length ∧ b'.drop 20 = b.drop 20 ∧ field b' 8 8 = field b 8 8 ∧
      (∀ s w, (s, w) ∈ [(0, 8), (32, 16), (48, 16), (64, 32), (96, 32), (128, 32)] →
        field b' s w = lastWritten timestampWritten s (field b s w) ops) := by
  have hl := (timestamp_ok h).1
  refine checked_fields cfg Timestamp.Set.run timestampWritten _ 20 20 (by omega) (by decide) (by decide)
    (by decide) (fun op => by cases op <;> simp [timestampWritten]) ?_ Timestamp.size b (Nat.le_refl _) hl
    (fun _ _ => rfl) ops
  intro op c hc
  cases op with
  | request => exact ⟨_, setIdx_ok (by omega), setsField_put8 (off := 0) (by omega)⟩
  | reply => exact ⟨_, setIdx_ok (by omega), setsField_put8 (off := 0) (by omega)⟩
  | identifier v => exact ⟨_, writeU16_ok (by omega), setsField_put16 (off := 4) (by omega)⟩
  | sequence v => exact ⟨_, writeU16_ok (by omega), setsField_put16 (off := 6) (by omega)⟩
  | originate v => exact ⟨_, writeU32_ok (by omega), setsField_put32 (off := 8) (by omega)⟩
  | receive v => exact ⟨_, writeU32_ok (by omega), setsField_put32 (off := 12) (by omega)⟩
  | transmit v => exact ⟨_, writeU32_ok (by omega), setsField_put32 (off := 16) (by omega)⟩

/-- A concrete case that meets the hypotheses. -/
example (cfg : Cfg) := C38_timestamp_checked_fields cfg Sample.timestamp (by decide)

/-- C38, the values of information messages. -/
theorem C38_information_checked_fields (cfg : Cfg) (b : Bytes) (h : Information.new b = .ok b)
    (ops : List Information.Set) :
    ∃ b', Information.checkedRun cfg ops b = (.ok (), b') ∧
      b'.length = b.length ∧ b'.drop 8 = b.drop 8 ∧ field b' 8 8 = field b 8 8 ∧
      (∀ s w, (s, w) ∈ [(0, 8), (32, 16), (48, 16)] →
        field b' s w = lastWritten informationWritten s (field b s w) ops) := by
  have hl := (information_ok h).1
  refine checked_fields cfg Information.Set.run informationWritten _ 8 8 (by omega) (by decide) (by decide)
    (by decide) (fun op => by cases op <;> simp [informationWritten]) ?_ Information.size b (Nat.le_refl _) hl
    (fun _ _ => rfl) ops
  intro op c hc
  cases op with
  | request => exact ⟨_, setIdx_ok (by omega), setsField_put8 (off := 0) (by omega)⟩
  | reply => exact ⟨_, setIdx_ok (by omega), setsField_put8 (off := 0) (by omega)⟩
  | identifier v => exact ⟨_, writeU16_ok (by omega), setsField_put16 (off := 4) (by omega)⟩
  | sequence v => exact ⟨_, writeU16_ok (by omega), setsField_put16 (off := 6) (by omega)⟩

/-- A history on an echo request with payload: it becomes a reply with the second sequence number. -/
example : ∃ b', Echo.checkedRun ⟨true, true, false⟩ [.sequence 1, .reply, .sequence 2] [8, 0, 1, 2, 0, 7, 0, 0, 65, 66] =
    (.ok (), b') ∧ b' = [0, 0, 190, 180, 0, 7, 0, 2, 65, 66] :=
  ⟨_, by decide +kernel, rfl⟩

/-! ## C39: messages that quote a packet -/

/-- C39: on every accepted message `pointer()`, `gateway()`, `packet()`, `split()` and
`as_ref()` return; pointer and gateway are the RFC 792 fields; `packet()` is the IPv4 packet from byte 8 on,
and succeeds when the whole quoted packet is there. Not part of this claim: quotes cut after the header and eight bytes. -/
theorem C39_quoted (cfg : Cfg) (b : Bytes) (hb : b.length < cfg.usizeMod)
    (h : Previous.new b = .ok b ∨ Redirect.new b = .ok b ∨ ParamProblem.new b = .ok b) :
    ParamProblem.pointer b = .ok (BitVec.ofNat 8 (field b 32 8)) ∧
    (∃ g, Redirect.gateway b = .ok g ∧ g.octets = (b.drop 4).take 4) ∧
    Previous.packet b = V4.new (b.drop 8) ∧ Redirect.packet b = V4.new (b.drop 8) ∧
    ParamProblem.packet b = V4.new (b.drop 8) ∧
    (V4.HeaderOk (b.drop 8) → field (b.drop 8) 16 16 ≤ b.length - 8 → Previous.packet b = .ok (b.drop 8)) ∧
    (Previous.packet b).returns ∧
    Previous.split b = .ok (b.take 4, b.drop 8) ∧ Redirect.split b = .ok (b.take 8, b.drop 8) ∧
    ParamProblem.split b = .ok (b.take 5, b.drop 8) ∧
    (Previous.asRef cfg b).returns ∧ (Redirect.asRef cfg b).returns ∧ (ParamProblem.asRef cfg b).returns := by
  have hl : 8 ≤ b.length := by
    obtain ⟨-, -, -, e4, e5, e6⟩ := C35_icmp_typed_accept b
    rcases h with h | h | h
    · rw [e4] at h; split at h
      · cases h
      · omega
    · rw [e5] at h; split at h
      · cases h
      · omega
    · rw [e6] at h; split at h
      · cases h
      · omega
  have hq : quotedPacket b = V4.new (b.drop 8) := by
    unfold quotedPacket; rw [sliceFrom_ok hl]; rfl
  have nn : V4.new (b.drop 8) ≠ .panic := by
    rw [V4.new_eq]; repeat' split
    all_goals exact fun h => by cases h
  have hdl : (b.drop 8).length = b.length - 8 := by rw [List.length_drop]
  have has : (quotedAsRef cfg b).returns := by
    unfold quotedAsRef quotedPayloadSize
    rw [hq]
    cases hv : V4.new (b.drop 8) with
    | panic => exact absurd hv nn
    | err e =>
      simp only []
      rw [subUsize_ok hl, Outcome.ok_bind, addUsize_ok (by omega), Outcome.ok_bind, sliceTo_ok (by omega)]
      exact fun h => by cases h
    | ok p =>
      obtain ⟨rfl, hok⟩ := V4.new_ok_iff.1 hv
      have hh := hok.header
      have hlong := hok.long
      simp only []
      rw [V4.headerSize_eq (by omega), Outcome.ok_bind, addUsize_ok (by omega), Outcome.ok_bind,
        sliceTo_ok (by omega)]
      exact fun h => by cases h
  refine ⟨idx_field (k := 4) (by omega), ?_, hq, hq, hq, ?_, ?_, ?_, ?_, ?_, has, has, has⟩
  · unfold Redirect.gateway
    rw [idx_ok (by omega), idx_ok (by omega), idx_ok (by omega), idx_ok (by omega)]
    refine ⟨_, rfl, ?_⟩
    rw [take4_drop (by omega)]; rfl
  · intro h1 h2
    show quotedPacket b = _
    rw [hq]
    exact V4.new_ok_iff.2 ⟨rfl, h1, by omega⟩
  · show quotedPacket b ≠ _
    rw [hq]; exact nn
  · unfold Previous.split
    rw [splitAt_ok hl, Outcome.ok_bind, sliceTo_ok (by rw [List.length_take]; omega), List.take_take]
    rfl
  · unfold Redirect.split; rw [splitAt_ok hl]
  · unfold ParamProblem.split
    rw [splitAt_ok hl, Outcome.ok_bind, sliceTo_ok (by rw [List.length_take]; omega), List.take_take]
    rfl

/-- A port-unreachable message quoting a UDP packet in full. -/
def portUnreachable : Bytes :=
  [3, 3, 0, 0, 0, 0, 0, 0] ++ [0x45, 0, 0, 28, 0, 0, 0, 0, 64, 17, 0, 0, 10, 0, 0, 1, 10, 0, 0, 2] ++
    [0, 53, 0, 54, 0, 8, 0, 0]

example : Previous.new portUnreachable = .ok portUnreachable ∧
    V4.HeaderOk (portUnreachable.drop 8) ∧ field (portUnreachable.drop 8) 16 16 ≤ portUnreachable.length - 8 := by
  refine ⟨by decide, ⟨by decide, by decide, by decide⟩, by decide⟩

/-- C72 is false of the code: what RFC 792 prescribes (header plus eight bytes of a longer packet) is
refused as SmallBuffer. -/
theorem C72_truncated_quote_refuted : ∃ b, Previous.new b = .ok b ∧ V4.HeaderOk (b.drop 8) ∧
    b.length = 8 + 4 * field (b.drop 8) 4 4 + 8 ∧ Previous.packet b = .err .smallBuffer := by
  refine ⟨[3, 3, 0, 0, 0, 0, 0, 0] ++ [0x45, 0, 0, 128, 0, 0, 0, 0, 64, 17, 0, 0, 10, 0, 0, 1, 10, 0, 0, 2] ++
    [0, 53, 0, 54, 0, 108, 0, 0], by decide, ⟨by decide, by decide, by decide⟩, by decide, by decide⟩

theorem bitAt_drop (b : Bytes) (k i : Nat) : bitAt (b.drop k) i = bitAt b (8 * k + i) := by
  unfold bitAt
  rw [Nat.mul_add_div (by omega), Nat.mul_add_mod, List.getD_eq_getElem?_getD, List.getElem?_drop,
    List.getD_eq_getElem?_getD]

theorem field_drop (b : Bytes) (k s : Nat) : ∀ w, field (b.drop k) s w = field b (8 * k + s) w
  | 0 => rfl
  | w + 1 => by
    unfold field
    rw [field_drop b k s w, bitAt_drop, Nat.add_assoc]

/-- C72 is false of the code for every truncated quote, of every length: whenever the quoted IPv4 header is
there and the packet it announces is not there entirely, all three kinds of message refuse it. -/
theorem C72_every_truncated_quote_refuted (cfg : Cfg) (b : Bytes) (hb : b.length < cfg.usizeMod)
    (h : Previous.new b = .ok b ∨ Redirect.new b = .ok b ∨ ParamProblem.new b = .ok b)
    (hlen : 28 ≤ b.length) (hver : field b 64 4 = 4) (hshort : b.length - 8 < field b 80 16) :
    Previous.packet b = .err .smallBuffer ∧ Redirect.packet b = .err .smallBuffer ∧
    ParamProblem.packet b = .err .smallBuffer := by
  obtain ⟨-, -, e1, e2, e3, -⟩ := C39_quoted cfg b hb h
  have d1 : field (b.drop 8) 0 4 = field b 64 4 := by rw [field_drop]
  have d2 : field (b.drop 8) 16 16 = field b 80 16 := by rw [field_drop]
  have hn : V4.new (b.drop 8) = .err .smallBuffer := by
    rw [V4.new_eq, List.length_drop, if_neg (by omega), if_neg (by omega), if_pos (by omega)]
  exact ⟨e1.trans hn, e2.trans hn, e3.trans hn⟩

/-- A concrete case that meets the hypotheses. -/
example (cfg : Cfg) := C72_every_truncated_quote_refuted cfg (Sample.unreachable.take 36) (by in_every_build)
    (.inl (by decide)) (by decide) (by decide) (by decide)

end Verif.Props
