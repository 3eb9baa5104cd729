import Verif.Spec.Wire
import Verif.Lemmas.Builders
import Verif.Lemmas.V4
import Verif.Props.Checksum

/-! # The Ethernet and IPv4 builders on the wire format -/

namespace Verif
open Verif Verif.Spec

/-! ## Ethernet -/

/-- What an Ethernet builder holds. -/
structure EtherState where
  dst : HwAddr
  src : HwAddr
  type : U16
  payload : Option Bytes

/-- The bytes of the layer. -/
def EtherState.bytes (a : EtherState) : Bytes :=
  ethernetFrame a.dst.octets a.src.octets a.type (a.payload.getD [])

def HwAddr.zero : HwAddr := ⟨0, 0, 0, 0, 0, 0⟩

/-- A builder on which nothing has been called. -/
def EtherState.init : EtherState := ⟨.zero, .zero, 0#16, none⟩

def EtherOp.step : EtherOp → EtherState → EtherState
  | .destination v, a => { a with dst := v }
  | .source v, a => { a with src := v }
  | .protocol v, a => { a with type := v.toWire }
  | .payload v, a => { a with payload := some v }

theorem EtherState.length (a : EtherState) : a.bytes.length = 14 + (a.payload.getD []).length := by
  simp [EtherState.bytes, ethernetFrame, HwAddr.octets, be16]; omega

section
variable {B : Type} [Buffer B] [LawfulBuffer B]
open LawfulBuffer

structure EtherRep (cfg : Cfg) (cap : Nat) (pre : Bytes) (fs : Finalization) (a : EtherState) (s : EtherBuilder B) :
    Prop where
  rep : Rep cfg cap s.buffer pre a.bytes
  fin : s.finalizer = fs
  payload : s.payload = a.payload.isSome

theorem ether_with (cfg : Cfg) {cap : Nat} {b : B} {pre layer : Bytes} (h : Rep cfg cap b pre layer)
    (hn : pre.length + layer.length + 14 ≤ cap) :
    ∃ s, EtherBuilder.«with» cfg b = .ok s ∧ EtherRep cfg cap (pre ++ layer) [] .init s := by
  obtain ⟨b', e1, r1⟩ := next cfg 14 h hn
  refine ⟨⟨b', [], false⟩, ?_, ⟨r1, rfl, rfl⟩⟩
  unfold EtherBuilder.«with» Ether.headerMin
  rw [onBuffer_ok e1]
  rfl

theorem ether_setter (cfg : Cfg) {cap : Nat} {pre : Bytes} {fs : Finalization} {a a' : EtherState}
    {s : EtherBuilder B} (h : EtherRep cfg cap pre fs a s) {f : Mut Bytes Unit}
    (hf : f a.bytes = (.ok (), a'.bytes)) (hp : a'.payload = a.payload) :
    ∃ s', EtherBuilder.setter cfg f s = .ok s' ∧ EtherRep cfg cap pre fs a' s' := by
  obtain ⟨b', e1, r1⟩ := modify cfg f h.rep hf (by rw [EtherState.length, EtherState.length, hp])
  refine ⟨{ s with buffer := b' }, ?_, ⟨r1, h.fin, by rw [hp]; exact h.payload⟩⟩
  unfold EtherBuilder.setter
  rw [onBuffer_ok e1]
  rfl

/-- When a call is allowed: a payload at most once, within the room there is. -/
def EtherOp.legal (B : Type) [Buffer B] [LawfulBuffer B] (cap : Nat) (pre : Bytes) :
    EtherOp → EtherState → Prop
  | .payload v, a => a.payload = none ∧ (Grows B ∨ v = []) ∧ pre.length + 14 + v.length ≤ cap
  | _, _ => True

theorem ether_step (cfg : Cfg) {cap : Nat} {pre : Bytes} {fs : Finalization} (op : EtherOp)
    (a : EtherState) (s : EtherBuilder B) (h : EtherRep cfg cap pre fs a s) (hl : op.legal B cap pre a) :
    ∃ s', op.run cfg s = .ok s' ∧ EtherRep cfg cap pre fs (op.step a) s' := by
  have hlen := a.length
  cases op with
  | destination v =>
    refine ether_setter cfg h ?_ rfl
    unfold Ether.setDestination
    rw [copyRange_ok (by rfl) (by omega)]
    rfl
  | source v =>
    refine ether_setter cfg h ?_ rfl
    unfold Ether.setSource
    rw [copyRange_ok (by rfl) (by omega)]
    rfl
  | protocol v =>
    refine ether_setter cfg h ?_ rfl
    unfold Ether.setProtocol
    rw [writeU16_ok (by omega)]
    rfl
  | payload v =>
    obtain ⟨hn, hg, hc⟩ := hl
    rw [hn] at hlen
    simp only [Option.getD_none, List.length_nil] at hlen
    obtain ⟨b', e1, r1⟩ := appendAll_ok cfg v s.buffer pre a.bytes h.rep hg (by omega)
    refine ⟨{ s with buffer := b', payload := true }, ?_, ⟨?_, h.fin, rfl⟩⟩
    · show EtherBuilder.setPayload cfg v s = _
      unfold EtherBuilder.setPayload
      rw [if_neg (by rw [h.payload, hn]; simp), onBuffer_ok e1]
      rfl
    · have : a.bytes ++ v = (EtherOp.step (.payload v) a).bytes := by
        unfold EtherState.bytes
        rw [hn]
        simp [ethernetFrame, EtherOp.step]
      rw [← this]
      exact r1

end

/-! ## IPv4 -/

/-- What an IPv4 builder holds. -/
structure V4State where
  fields : Ipv4Fields
  payload : Option Bytes

/-- The bytes of the layer while it is being built: length and checksum are still zero. -/
def V4State.bytes (a : V4State) : Bytes := ipv4Header a.fields 0#16 0#16 ++ a.payload.getD []

def Ipv4Addr.zero : Ipv4Addr := ⟨0, 0, 0, 0⟩

/-- A builder on which nothing has been called. -/
def V4State.init : V4State := ⟨⟨0, 0, 0, 0, 0, Ipv4Addr.zero.octets, Ipv4Addr.zero.octets⟩, none⟩

def V4Op.step : V4Op → V4State → V4State
  | .dscp v, a => { a with fields := { a.fields with tos := (a.fields.tos &&& 0b11#8) ||| (v <<< 2) } }
  | .ecn v, a => { a with fields := { a.fields with tos := (a.fields.tos &&& 0b111111#8) ||| v } }
  | .id v, a => { a with fields := { a.fields with id := v } }
  | .flags v, a => { a with fields := { a.fields with fragment := v.bits } }
  | .offset v, a => { a with fields := { a.fields with fragment := v } }
  | .ttl v, a => { a with fields := { a.fields with ttl := v } }
  | .source v, a => { a with fields := { a.fields with src := v.octets } }
  | .destination v, a => { a with fields := { a.fields with dst := v.octets } }
  | .protocol v, a => { a with fields := { a.fields with protocol := v.toWire } }
  | .payload v, a => { a with payload := some v }

/-- The addresses have four bytes. -/
def Ipv4Fields.ok (f : Ipv4Fields) : Prop :=
  (∃ s : Ipv4Addr, f.src = s.octets) ∧ (∃ d : Ipv4Addr, f.dst = d.octets)

theorem Ipv4Fields.ok.length {f : Ipv4Fields} (h : Ipv4Fields.ok f) (total ck : U16) :
    (ipv4Header f total ck).length = 20 := by
  obtain ⟨⟨s, hs⟩, ⟨d, hd⟩⟩ := h
  simp [ipv4Header, hs, hd, be16, Ipv4Addr.octets]

theorem ipv4Header_ihl (f : Ipv4Fields) (total ck : U16) (rest : Bytes) :
    field (ipv4Header f total ck ++ rest) 4 4 = 5 := by
  have h := field_lo4 (ipv4Header f total ck ++ rest) 0
  rw [show 8 * 0 + 4 = 4 from rfl] at h
  rw [h]
  have e : (ipv4Header f total ck ++ rest).getD 0 0#8 = 0x45#8 := rfl
  rw [e]
  rfl

theorem ipv4Header_version (f : Ipv4Fields) (total ck : U16) (rest : Bytes) :
    field (ipv4Header f total ck ++ rest) 0 4 = 4 := by
  have h := field_hi4 (ipv4Header f total ck ++ rest) 0
  rw [show 8 * 0 = 0 from rfl] at h
  rw [h]
  have e : (ipv4Header f total ck ++ rest).getD 0 0#8 = 0x45#8 := rfl
  rw [e]
  rfl

/-- The setters that go through the header view, on a header in the wire format. -/
theorem v4_onHeader {f : Ipv4Fields} (hf : Ipv4Fields.ok f) (total ck : U16) (rest : Bytes) (off : Nat)
    (bs : Bytes) (ho : off + bs.length ≤ 20) (g : Mut Bytes Unit)
    (hg : ∀ b : Bytes, off + bs.length ≤ b.length → g b = (.ok (), put b off bs)) :
    onHeader V4.split g (ipv4Header f total ck ++ rest)
      = (.ok (), put (ipv4Header f total ck ++ rest) off bs) := by
  have hl := hf.length total ck
  have hi := ipv4Header_ihl f total ck rest
  have hlen : (ipv4Header f total ck ++ rest).length = 20 + rest.length := by simp [hl]
  have hs := V4.split_eq (b := ipv4Header f total ck ++ rest) (by omega) (by omega)
  rw [hi] at hs
  have h20 : ((ipv4Header f total ck ++ rest).take 20).length = 20 := by rw [List.length_take]; omega
  unfold onHeader
  rw [hs]
  simp only []
  rw [show 5 * 4 = 20 from rfl]
  rw [hg _ (by omega), h20]
  simp only []
  rw [put_append_drop ho]

section
variable {B : Type} [Buffer B] [LawfulBuffer B]
open LawfulBuffer

structure V4Rep (cfg : Cfg) (cap : Nat) (pre : Bytes) (fs : Finalization) (a : V4State) (s : V4Builder B) : Prop where
  rep : Rep cfg cap s.buffer pre a.bytes
  fin : s.finalizer = fs
  payload : s.payload = a.payload.isSome
  ok : Ipv4Fields.ok a.fields

theorem V4State.length {a : V4State} (h : Ipv4Fields.ok a.fields) :
    a.bytes.length = 20 + (a.payload.getD []).length := by
  simp [V4State.bytes, h.length]

theorem v4_with (cfg : Cfg) {cap : Nat} {b : B} {pre layer : Bytes} (h : Rep cfg cap b pre layer)
    (hn : pre.length + layer.length + 20 ≤ cap) :
    ∃ s, V4Builder.«with» cfg b = .ok s ∧ V4Rep cfg cap (pre ++ layer) [] .init s := by
  obtain ⟨b1, e1, r1⟩ := next cfg 20 h hn
  obtain ⟨b2, e2, r2⟩ := modify (layer' := V4State.init.bytes) cfg
    (setIdx 0 ((4#8 <<< 4) ||| BitVec.ofNat 8 (V4.headerMin / 4))) r1 rfl rfl
  refine ⟨⟨b2, [], false⟩, ?_, ⟨r2, rfl, rfl, ⟨⟨_, rfl⟩, ⟨_, rfl⟩⟩⟩⟩
  unfold V4Builder.«with»
  rw [show V4.headerMin = 20 from rfl] at *
  rw [onBuffer_ok e1]
  simp only [Outcome.ok_bind]
  rw [onBuffer_ok e2]
  rfl

theorem v4_setter (cfg : Cfg) {cap : Nat} {pre : Bytes} {fs : Finalization} {a a' : V4State}
    {s : V4Builder B} (h : V4Rep cfg cap pre fs a s) {f : Mut Bytes Unit}
    (hf : f a.bytes = (.ok (), a'.bytes)) (hp : a'.payload = a.payload) (hok : Ipv4Fields.ok a'.fields) :
    ∃ s', V4Builder.setter cfg f s = .ok s' ∧ V4Rep cfg cap pre fs a' s' := by
  obtain ⟨b', e1, r1⟩ := modify cfg f h.rep hf (by rw [V4State.length hok, V4State.length h.ok, hp])
  refine ⟨{ s with buffer := b' }, ?_, ⟨r1, h.fin, by rw [hp]; exact h.payload, hok⟩⟩
  unfold V4Builder.setter
  rw [onBuffer_ok e1]
  rfl

/-- When a call is allowed. -/
def V4Op.legal (B : Type) [Buffer B] [LawfulBuffer B] (cap : Nat) (pre : Bytes) : V4Op → V4State → Prop
  | .payload v, a => a.payload = none ∧ (Grows B ∨ v = []) ∧ pre.length + 20 + v.length ≤ cap
  | .dscp v, _ => v.toNat ≤ 63
  | .ecn v, _ => v.toNat ≤ 3
  | _, _ => True

theorem v4_step (cfg : Cfg) {cap : Nat} {pre : Bytes} {fs : Finalization} (op : V4Op)
    (a : V4State) (s : V4Builder B) (h : V4Rep cfg cap pre fs a s) (hl : op.legal B cap pre a) :
    ∃ s', op.run cfg s = .ok s' ∧ V4Rep cfg cap pre fs (op.step a) s' := by
  have hok := h.ok
  have hlen := V4State.length hok
  obtain ⟨⟨src, hs⟩, ⟨dst, hd⟩⟩ := h.ok
  have hb : a.bytes = ipv4Header a.fields 0#16 0#16 ++ a.payload.getD [] := rfl
  cases op with
  | dscp v =>
    refine v4_setter cfg h ?_ rfl hok
    unfold V4.setDscp
    rw [if_neg (by simp only [V4Op.legal] at hl; simp [BitVec.lt_def]; omega)]
    have e : (Mut.read (idx · 1)) a.bytes = (.ok a.fields.tos, a.bytes) := rfl
    rw [Mut.bind_ok e, setIdx_ok (by omega)]
    rfl
  | ecn v =>
    refine v4_setter cfg h ?_ rfl hok
    unfold V4.setEcn
    rw [if_neg (by simp only [V4Op.legal] at hl; simp [BitVec.lt_def]; omega)]
    have e : (Mut.read (idx · 1)) a.bytes = (.ok a.fields.tos, a.bytes) := rfl
    rw [Mut.bind_ok e, setIdx_ok (by omega)]
    rfl
  | id v =>
    refine v4_setter cfg h ?_ rfl hok
    unfold V4.setId
    rw [writeU16_ok (by omega)]
    rfl
  | flags v =>
    refine v4_setter cfg h ?_ rfl hok
    unfold V4.setFlags
    rw [hb, v4_onHeader hok _ _ _ 6 (be16 v.bits) (Nat.le_of_ble_eq_true rfl) _ (fun b hb => writeU16_ok hb)]
    rfl
  | offset v =>
    refine v4_setter cfg h ?_ rfl hok
    unfold V4.setOffset
    rw [hb, v4_onHeader hok _ _ _ 6 (be16 v) (Nat.le_of_ble_eq_true rfl) _ (fun b hb => writeU16_ok hb)]
    rfl
  | ttl v =>
    refine v4_setter cfg h ?_ rfl hok
    unfold V4.setTtl
    rw [hb, v4_onHeader hok _ _ _ 8 [v] (Nat.le_of_ble_eq_true rfl) _ (fun b hb => setIdx_ok hb)]
    rfl
  | source v =>
    refine v4_setter cfg h ?_ rfl ⟨⟨v, rfl⟩, ⟨dst, hd⟩⟩
    unfold V4.setSource
    rw [hb, v4_onHeader hok _ _ _ 12 v.octets (Nat.le_of_ble_eq_true rfl) (copyRange 12 16 v.octets) (fun b hb => copyRange_ok rfl hb)]
    obtain ⟨f, p⟩ := a
    obtain ⟨tos, id, fragment, ttl, protocol, src', dst'⟩ := f
    cases hs
    rfl
  | destination v =>
    refine v4_setter cfg h ?_ rfl ⟨⟨src, hs⟩, ⟨v, rfl⟩⟩
    unfold V4.setDestination
    rw [hb, v4_onHeader hok _ _ _ 16 v.octets (Nat.le_of_ble_eq_true rfl) (copyRange 16 20 v.octets) (fun b hb => copyRange_ok rfl hb)]
    obtain ⟨f, p⟩ := a
    obtain ⟨tos, id, fragment, ttl, protocol, src', dst'⟩ := f
    cases hs
    cases hd
    rfl
  | protocol v =>
    refine v4_setter cfg h ?_ rfl hok
    unfold V4.setProtocol
    rw [hb, v4_onHeader hok _ _ _ 9 [v.toWire] (Nat.le_of_ble_eq_true rfl) _ (fun b hb => setIdx_ok hb)]
    rfl
  | payload v =>
    obtain ⟨hn, hg, hc⟩ := hl
    rw [hn] at hlen
    simp only [Option.getD_none, List.length_nil] at hlen
    obtain ⟨b', e1, r1⟩ := appendAll_ok cfg v s.buffer pre a.bytes h.rep hg (by omega)
    refine ⟨{ s with buffer := b', payload := true }, ?_, ⟨?_, h.fin, rfl, hok⟩⟩
    · show V4Builder.setPayload cfg v s = _
      unfold V4Builder.setPayload
      rw [if_neg (by rw [h.payload, hn]; simp), onBuffer_ok e1]
      rfl
    · have : a.bytes ++ v = (V4Op.step (.payload v) a).bytes := by
        unfold V4State.bytes
        rw [hn]
        simp [V4Op.step]
      rw [← this]
      exact r1

/-- Entering an inner protocol: the protocol field is set and the finalizer of the header is queued. -/
theorem v4_enter (cfg : Cfg) {cap : Nat} {pre : Bytes} {fs : Finalization} (p : IpProtocol)
    (a : V4State) (s : V4Builder B) (h : V4Rep cfg cap pre fs a s) (hp : a.payload = none) :
    ∃ s', V4Builder.enter cfg p s = .ok s' ∧
      V4Rep cfg cap pre (fs ++ [V4Builder.finalizerOf cfg pre.length 20]) (V4Op.step (.protocol p) a) s' := by
  obtain ⟨s1, e1, r1⟩ := v4_step cfg (.protocol p) a s h trivial
  refine ⟨V4Builder.prepare cfg s1, ?_, ⟨r1.rep, ?_, r1.payload, r1.ok⟩⟩
  · unfold V4Builder.enter
    rw [if_neg (by rw [h.payload, hp]; simp)]
    have e1 : V4Builder.protocol cfg p s = .ok s1 := e1
    rw [e1]
    rfl
  · unfold V4Builder.prepare Finalization.add
    simp only []
    rw [r1.fin, offset r1.rep, length r1.rep, V4State.length r1.ok]
    show _ ++ [V4Builder.finalizerOf cfg pre.length (20 + (a.payload.getD []).length)] = _
    rw [hp]
    rfl

end

/-! ## The finalizers -/

/-- The checksum the IPv4 builder stores is computed with its own field counted as zero. -/
theorem v4_checksum_skip (cfg : Cfg) {f : Ipv4Fields} (hf : Ipv4Fields.ok f) (total ck : U16) :
    V4.checksumOf cfg (ipv4Header f total ck) = V4.checksumOf cfg (ipv4Header f total 0#16) := by
  have hl := hf.length total 0#16
  have : ipv4Header f total ck = put (ipv4Header f total 0#16) (2 * 5) (be16 ck) := rfl
  rw [V4.checksumOf_eq, V4.checksumOf_eq, this]
  have := Props.loopWords_put16 5 (ipv4Header f total 0#16) ck (by omega)
  rw [this]

theorem Mut.read_of {σ α : Type} {f : σ → Outcome α} {s : σ} {r : Outcome α} (h : f s = r) :
    Mut.read f s = (r, s) := by unfold Mut.read; rw [h]

/-- A write inside the middle part of a buffer. -/
theorem put_at (pre hd bs hd' rest : Bytes) (off n : Nat) (h1 : hd.length = n) (h2 : off + bs.length ≤ n)
    (h3 : put hd off bs = hd') : put (pre ++ hd ++ rest) (pre.length + off) bs = pre ++ hd' ++ rest := by
  subst h3
  unfold put
  rw [List.append_assoc pre, List.take_append, List.drop_append (l₁ := pre),
    show pre.length + off + bs.length - pre.length = off + bs.length by omega, Nat.add_sub_cancel_left,
    List.take_of_length_le (show pre.length ≤ pre.length + off by omega),
    List.drop_of_length_le (show pre.length ≤ pre.length + off + bs.length by omega),
    List.take_append_of_le_length (by omega), List.drop_append_of_le_length (by omega)]
  simp

/-- The IPv4 finalizer completes the header. -/
theorem v4_finalizer (cfg : Cfg) {f : Ipv4Fields} (hf : Ipv4Fields.ok f) (pre rest : Bytes) :
    ∃ ck, V4.checksumOf cfg (ipv4Header f (BitVec.ofNat 16 (20 + rest.length)) 0#16) = .ok ck ∧
      V4Builder.finalizerOf cfg pre.length 20 (pre ++ ipv4Header f 0#16 0#16 ++ rest) =
        (.ok (), pre ++ ipv4Header f (BitVec.ofNat 16 (20 + rest.length)) ck ++ rest) := by
  have hl := fun t c => hf.length t c
  obtain ⟨ck, hck⟩ : ∃ ck, V4.checksumOf cfg
      (ipv4Header f (BitVec.ofNat 16 (20 + rest.length)) 0#16) = .ok ck := ⟨_, V4.checksumOf_eq _ _⟩
  refine ⟨ck, hck, ?_⟩
  have putAt := fun hd bs hd' off (h1 : hd.length = 20) => put_at pre hd bs hd' rest off 20 h1
  unfold V4Builder.finalizerOf
  have s1 : setIdx pre.length ((4#8 <<< 4) ||| BitVec.ofNat 8 (20 / 4)) (pre ++ ipv4Header f 0#16 0#16 ++ rest)
      = (.ok (), pre ++ ipv4Header f 0#16 0#16 ++ rest) := by
    rw [setIdx_ok (by simp [hl]; omega)]
    congr 1
    exact putAt _ _ _ 0 (hl _ _) (by simp) rfl
  rw [Mut.bind_ok s1]
  have s2 : (Mut.read fun out : Bytes => subUsize cfg out.length (pre.length + 20))
      (pre ++ ipv4Header f 0#16 0#16 ++ rest) = (.ok rest.length, pre ++ ipv4Header f 0#16 0#16 ++ rest) := by
    refine Mut.read_of ?_
    rw [subUsize_ok (by simp [hl])]
    simp only [List.length_append, hl]
    rw [show pre.length + 20 + rest.length - (pre.length + 20) = rest.length by omega]
  rw [Mut.bind_ok s2]
  have s3 : writeU16 (pre.length + 2) (BitVec.ofNat 16 (20 + rest.length)) (pre ++ ipv4Header f 0#16 0#16 ++ rest)
      = (.ok (), pre ++ ipv4Header f (BitVec.ofNat 16 (20 + rest.length)) 0#16 ++ rest) := by
    rw [writeU16_ok (by simp [hl]; omega)]
    congr 1
    exact putAt _ _ _ 2 (hl _ _) (by simp [be16]) rfl
  rw [Mut.bind_ok s3]
  have s4 : (Mut.read fun out : Bytes => do
      let h ← slice out pre.length (pre.length + 20 / 4 * 4)
      V4.checksumOf cfg h) (pre ++ ipv4Header f (BitVec.ofNat 16 (20 + rest.length)) 0#16 ++ rest)
      = (.ok ck, pre ++ ipv4Header f (BitVec.ofNat 16 (20 + rest.length)) 0#16 ++ rest) := by
    refine Mut.read_of ?_
    have := slice_middle pre (ipv4Header f (BitVec.ofNat 16 (20 + rest.length)) 0#16) rest
    rw [hl] at this
    rw [show 20 / 4 * 4 = 20 from rfl, this]
    simp only [Outcome.ok_bind]
    rw [hck]
  rw [Mut.bind_ok s4, writeU16_ok (by simp [hl]; omega)]
  congr 1
  exact putAt _ _ _ 10 (hl _ _) (by simp [be16]) rfl

/-- The Ethernet finalizer recognises an IPv4 packet and sets the EtherType. -/
theorem ether_finalizer (dst src : HwAddr) (type : U16) (pre : Bytes) (f : Ipv4Fields) (total ck : U16)
    (rest : Bytes) :
    EtherBuilder.ipFinalizer pre.length 14
      (pre ++ ethernetFrame dst.octets src.octets type (ipv4Header f total ck ++ rest)) =
      (.ok (), pre ++ ethernetFrame dst.octets src.octets 0x0800#16 (ipv4Header f total ck ++ rest)) := by
  have hlen : (ethernetFrame dst.octets src.octets type (ipv4Header f total ck ++ rest)).length =
      14 + (ipv4Header f total ck ++ rest).length := by
    simp [ethernetFrame, HwAddr.octets, be16]; omega
  unfold EtherBuilder.ipFinalizer
  have s1 : (Mut.read (idx · (pre.length + 14)))
      (pre ++ ethernetFrame dst.octets src.octets type (ipv4Header f total ck ++ rest)) = (.ok 0x45#8,
      pre ++ ethernetFrame dst.octets src.octets type (ipv4Header f total ck ++ rest)) := by
    unfold Mut.read
    have : idx (pre ++ ethernetFrame dst.octets src.octets type (ipv4Header f total ck ++ rest))
        (pre.length + 14) = .ok 0x45#8 := by
      unfold idx
      rw [List.getElem?_append_right (by omega), Nat.add_sub_cancel_left]
      rfl
    show (idx _ _, _) = _
    rw [this]
  rw [Mut.bind_ok s1, if_pos (by decide), writeU16_ok (by simp [hlen]; omega)]
  congr 1
  unfold put
  simp only [be16_length]
  rw [List.take_append, List.drop_append]
  simp only [Nat.add_sub_cancel_left, List.take_of_length_le (show pre.length ≤ pre.length + 12 by omega),
      List.drop_of_length_le (show pre.length ≤ pre.length + 12 + 2 by omega),
      show pre.length + 12 + 2 - pre.length = 14 by omega, List.append_assoc]
  rfl

end Verif
