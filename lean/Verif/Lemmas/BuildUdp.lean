import Verif.Lemmas.BuildV4
import Verif.Lemmas.Transport

/-! # The UDP builder on the wire format -/

namespace Verif
open Verif Verif.Spec

/-- What a UDP builder holds. -/
structure UdpState where
  sport : U16
  dport : U16
  payload : Option Bytes

/-- The bytes of the layer while it is being built. -/
def UdpState.bytes (a : UdpState) : Bytes := udpHeader a.sport a.dport 0#16 0#16 ++ a.payload.getD []

/-- A builder on which nothing has been called. -/
def UdpState.init : UdpState := ⟨0, 0, none⟩

def UdpOp.step : UdpOp → UdpState → UdpState
  | .source v, a => { a with sport := v }
  | .destination v, a => { a with dport := v }
  | .payload v, a => { a with payload := some v }

theorem UdpState.length (a : UdpState) : a.bytes.length = 8 + (a.payload.getD []).length := by
  simp [UdpState.bytes, udpHeader, be16]; omega

section
variable {B : Type} [Buffer B] [LawfulBuffer B]
open LawfulBuffer

structure UdpRep (cfg : Cfg) (cap : Nat) (pre : Bytes) (fs : Finalization) (ip : Nat × Nat) (a : UdpState)
    (s : UdpBuilder B) : Prop where
  rep : Rep cfg cap s.buffer pre a.bytes
  fin : s.finalizer = fs
  ip : s.ip = ip
  payload : s.payload = a.payload.isSome

theorem udp_with (cfg : Cfg) {cap : Nat} {b : B} {pre layer : Bytes} (h : Rep cfg cap b pre layer)
    (hn : pre.length + layer.length + 8 ≤ cap) :
    ∃ s, UdpBuilder.«with» cfg b = .ok s ∧
      UdpRep cfg cap (pre ++ layer) [] (pre.length, layer.length) .init s := by
  obtain ⟨b', e1, r1⟩ := next cfg 8 h hn
  refine ⟨⟨b', [], (Buffer.offset b, Buffer.length b), false⟩, ?_, ⟨r1, rfl, ?_, rfl⟩⟩
  · unfold UdpBuilder.«with» Udp.headerMin
    rw [onBuffer_ok e1]
    rfl
  · rw [offset h, length h]

theorem udp_setter (cfg : Cfg) {cap : Nat} {pre : Bytes} {fs : Finalization} {ip : Nat × Nat}
    {a a' : UdpState} {s : UdpBuilder B} (h : UdpRep cfg cap pre fs ip a s) {f : Mut Bytes Unit}
    (hf : f a.bytes = (.ok (), a'.bytes)) (hp : a'.payload = a.payload) :
    ∃ s', UdpBuilder.setter cfg f s = .ok s' ∧ UdpRep cfg cap pre fs ip a' s' := by
  obtain ⟨b', e1, r1⟩ := modify cfg f h.rep hf (by rw [UdpState.length, UdpState.length, hp])
  refine ⟨{ s with buffer := b' }, ?_, ⟨r1, h.fin, h.ip, by rw [hp]; exact h.payload⟩⟩
  unfold UdpBuilder.setter
  rw [onBuffer_ok e1]
  rfl

/-- When a call is allowed: a payload at most once, within the room there is. -/
def UdpOp.legal (B : Type) [Buffer B] [LawfulBuffer B] (cap : Nat) (pre : Bytes) :
    UdpOp → UdpState → Prop
  | .payload v, a => a.payload = none ∧ (Grows B ∨ v = []) ∧ pre.length + 8 + v.length ≤ cap
  | _, _ => True

theorem udp_step (cfg : Cfg) {cap : Nat} {pre : Bytes} {fs : Finalization} {ip : Nat × Nat} (op : UdpOp)
    (a : UdpState) (s : UdpBuilder B) (h : UdpRep cfg cap pre fs ip a s) (hl : op.legal B cap pre a) :
    ∃ s', op.run cfg s = .ok s' ∧ UdpRep cfg cap pre fs ip (op.step a) s' := by
  have hlen := a.length
  cases op with
  | source v =>
    refine udp_setter cfg h ?_ rfl
    rw [Udp.setSource_eq (by omega)]
    rfl
  | destination v =>
    refine udp_setter cfg h ?_ rfl
    rw [Udp.setDestination_eq (by omega)]
    rfl
  | payload v =>
    obtain ⟨hn, hg, hc⟩ := hl
    rw [hn] at hlen
    simp only [Option.getD_none, List.length_nil] at hlen
    obtain ⟨b', e1, r1⟩ := appendAll_ok cfg v s.buffer pre a.bytes h.rep hg (by omega)
    refine ⟨{ s with buffer := b', payload := true }, ?_, ⟨?_, h.fin, h.ip, rfl⟩⟩
    · show UdpBuilder.setPayload cfg v s = _
      unfold UdpBuilder.setPayload
      rw [if_neg (by rw [h.payload, hn]; simp), onBuffer_ok e1]
      rfl
    · have : a.bytes ++ v = (UdpOp.step (.payload v) a).bytes := by
        unfold UdpState.bytes
        rw [hn]
        simp [UdpOp.step]
      rw [← this]
      exact r1

end

/-! ## The finalizer -/

/-- The pseudo header only looks at the addresses. -/
theorem pseudoSum_v4 {f : Ipv4Fields} (hf : Ipv4Fields.ok f) (total ck : U16) (rest : Bytes) (proto : U8)
    (n : Nat) : pseudoSum (ipv4Header f total ck ++ rest) proto n
      = (words (pseudoHeader f.src f.dst proto n)).sum := by
  obtain ⟨⟨s, hs⟩, ⟨d, hd⟩⟩ := hf
  obtain ⟨tos, id, fragment, ttl, protocol, src, dst⟩ := f
  cases hs
  cases hd
  rfl

theorem noPayload_v4 {f : Ipv4Fields} (hf : Ipv4Fields.ok f) (total ck : U16) (rest : Bytes) :
    V4.noPayload (ipv4Header f total ck ++ rest) = .ok (ipv4Header f total ck ++ rest) := by
  have := hf.length total ck
  refine V4.noPayload_ok_iff.2 ⟨rfl, ⟨?_, ipv4Header_version .., ?_⟩⟩
  · simp; omega
  · rw [ipv4Header_ihl]; simp; omega

theorem udp_checksum_v4 (cfg : Cfg) {f : Ipv4Fields} (hf : Ipv4Fields.ok f) (total ck : U16)
    (rest d : Bytes) : Udp.checksumOf cfg (.v4 (ipv4Header f total ck ++ rest)) d =
      .ok (ckOf ((words (pseudoHeader f.src f.dst 17#8 d.length)).sum + (loopWords 8 d 0).sum
        + if cfg.eofAdvances then 0 else oddWord d)) := by
  have := hf.length total ck
  rw [Udp.checksumOf_eq cfg _ _ (by simp; omega), pseudoSum_v4 hf]

/-- Where the UDP finalizer works. -/
theorem udp_finalizerOf (cfg : Cfg) (pre hd d : Bytes) :
    UdpBuilder.finalizerOf cfg (pre.length, hd.length) d.length (pre ++ hd ++ d) =
      ((UdpBuilder.inner cfg hd d.length d).1, pre ++ hd ++ (UdpBuilder.inner cfg hd d.length d).2) := by
  unfold UdpBuilder.finalizerOf
  rw [splitAt_ok (by simp)]
  simp only []
  have e1 : (pre ++ hd ++ d).take (pre.length + hd.length) = pre ++ hd := by
    rw [← List.length_append, List.take_left' rfl]
  have e2 : (pre ++ hd ++ d).drop (pre.length + hd.length) = d := by
    rw [← List.length_append, List.drop_left' rfl]
  rw [e1, e2, sliceFrom_ok (by simp), sliceTo_ok (Nat.le_refl _)]
  simp

/-- The UDP finalizer completes the header. -/
theorem udp_finalizer (cfg : Cfg) {f : Ipv4Fields} (hf : Ipv4Fields.ok f) (pre : Bytes) (sport dport : U16)
    (payload : Bytes) :
    ∃ ck, Udp.checksumOf cfg (.v4 (ipv4Header f 0#16 0#16))
        (udpHeader sport dport (BitVec.ofNat 16 (8 + payload.length)) 0#16 ++ payload) = .ok ck ∧
      UdpBuilder.finalizerOf cfg (pre.length, 20) (8 + payload.length)
        (pre ++ ipv4Header f 0#16 0#16 ++ (udpHeader sport dport 0#16 0#16 ++ payload)) =
      (.ok (), pre ++ ipv4Header f 0#16 0#16 ++
        (udpHeader sport dport (BitVec.ofNat 16 (8 + payload.length)) ck ++ payload)) := by
  have hl := hf.length 0#16 0#16
  have hul : ∀ x y z w p, (udpHeader x y z w ++ p).length = 8 + p.length := by
    intro x y z w p; simp [udpHeader, be16]; omega
  have hnp : V4.noPayload (ipv4Header f 0#16 0#16) = .ok (ipv4Header f 0#16 0#16) := by
    have := noPayload_v4 hf 0#16 0#16 []
    rwa [List.append_nil] at this
  obtain ⟨ck, hck⟩ : ∃ ck, Udp.checksumOf cfg (.v4 (ipv4Header f 0#16 0#16))
      (udpHeader sport dport (BitVec.ofNat 16 (8 + payload.length)) 0#16 ++ payload) = .ok ck :=
    ⟨_, Udp.checksumOf_eq _ _ _ (by omega)⟩
  refine ⟨ck, hck, ?_⟩
  have h := udp_finalizerOf cfg pre (ipv4Header f 0#16 0#16) (udpHeader sport dport 0#16 0#16 ++ payload)
  rw [hl, hul] at h
  rw [h]
  have hi : UdpBuilder.inner cfg (ipv4Header f 0#16 0#16) (8 + payload.length)
      (udpHeader sport dport 0#16 0#16 ++ payload) =
      (.ok (), udpHeader sport dport (BitVec.ofNat 16 (8 + payload.length)) ck ++ payload) := by
    unfold UdpBuilder.inner
    have s1 : writeU16 4 (BitVec.ofNat 16 (8 + payload.length)) (udpHeader sport dport 0#16 0#16 ++ payload)
        = (.ok (), udpHeader sport dport (BitVec.ofNat 16 (8 + payload.length)) 0#16 ++ payload) := by
      rw [writeU16_ok (by rw [hul]; omega)]
      rfl
    rw [Mut.bind_ok s1]
    have s2 : Mut.read (UdpBuilder.checksumIn cfg (ipv4Header f 0#16 0#16))
        (udpHeader sport dport (BitVec.ofNat 16 (8 + payload.length)) 0#16 ++ payload) =
        (.ok ck, udpHeader sport dport (BitVec.ofNat 16 (8 + payload.length)) 0#16 ++ payload) := by
      refine Mut.read_of ?_
      unfold UdpBuilder.checksumIn
      rw [hnp]
      exact hck
    rw [Mut.bind_ok s2, writeU16_ok (by rw [hul]; omega)]
    rfl
  rw [hi]

section
variable {B : Type} [Buffer B] [LawfulBuffer B]
open LawfulBuffer

/-- The UDP stage of a build, on an IPv4 builder without payload. -/
theorem v4_udp_build (cfg : Cfg) {cap : Nat} {pre : Bytes} {fs : Finalization} {a : V4State}
    {s : V4Builder B} (h : V4Rep cfg cap pre fs a s) (hp : a.payload = none) (hn : pre.length + 28 ≤ cap)
    (ops : List UdpOp)
    (hops : ∀ hd : Bytes, hd.length = 20 → LegalRun UdpOp.step (UdpOp.legal B cap (pre ++ hd)) ops .init) :
    ∃ (f : Ipv4Fields) (u : UdpState) (uck ick : U16),
      f = { a.fields with protocol := 17#8 } ∧ Ipv4Fields.ok f ∧
      u = ops.foldl (fun a op => op.step a) .init ∧
      Udp.checksumOf cfg (.v4 (ipv4Header f 0#16 0#16)) (udpHeader u.sport u.dport
        (BitVec.ofNat 16 (8 + (u.payload.getD []).length)) 0#16 ++ u.payload.getD []) = .ok uck ∧
      V4.checksumOf cfg (ipv4Header f (BitVec.ofNat 16 (28 + (u.payload.getD []).length)) 0#16) = .ok ick ∧
      (do
        let u ← V4Builder.udp cfg s
        let u ← runOps (UdpOp.run cfg) ops u
        UdpBuilder.build cfg u) =
      finish fs (pre ++ ipv4Header f (BitVec.ofNat 16 (28 + (u.payload.getD []).length)) ick ++
        (udpHeader u.sport u.dport (BitVec.ofNat 16 (8 + (u.payload.getD []).length)) uck ++
          u.payload.getD [])) := by
  obtain ⟨s1, e1, r1⟩ := v4_enter cfg .udp a s h hp
  have hb : (V4Op.step (.protocol .udp) a).bytes = ipv4Header { a.fields with protocol := 17#8 } 0#16 0#16 := by
    show _ ++ a.payload.getD [] = _
    rw [hp]; exact List.append_nil _
  have hok : Ipv4Fields.ok { a.fields with protocol := 17#8 } := r1.ok
  have hr := r1.rep
  rw [hb] at hr
  have hl := hok.length 0#16 0#16
  obtain ⟨s2, e2, r2⟩ := udp_with cfg hr (by omega)
  have hr2 : UdpRep cfg cap (pre ++ ipv4Header { a.fields with protocol := 17#8 } 0#16 0#16)
      (fs ++ [V4Builder.finalizerOf cfg pre.length 20]) (pre.length, 20) .init
      { s2 with finalizer := s2.finalizer.extend s1.finalizer } := by
    refine ⟨r2.rep, ?_, ?_, r2.payload⟩
    · unfold Finalization.extend
      rw [r2.fin, r1.fin]
      rfl
    · rw [← hl]; exact r2.ip
  obtain ⟨s3, e3, r3⟩ := runOps_sim (run := UdpOp.run (B := B) cfg) _ UdpOp.step
    (UdpOp.legal B cap (pre ++ ipv4Header { a.fields with protocol := 17#8 } 0#16 0#16))
    (fun op a s hr hl => udp_step cfg op a s hr hl) ops _ _ hr2 (hops _ hl)
  generalize hu : ops.foldl (fun a op => op.step a) UdpState.init = u at r3
  obtain ⟨uck, hu1, hu2⟩ := udp_finalizer cfg hok pre u.sport u.dport (u.payload.getD [])
  obtain ⟨ick, hi1, hi2⟩ := v4_finalizer cfg hok pre (udpHeader u.sport u.dport
    (BitVec.ofNat 16 (8 + (u.payload.getD []).length)) uck ++ u.payload.getD [])
  have hul : ∀ x y z w p, (udpHeader x y z w ++ p).length = 8 + p.length := by
    intro x y z w p; simp [udpHeader, be16]; omega
  rw [hul, show 20 + (8 + (u.payload.getD []).length) = 28 + (u.payload.getD []).length by omega] at hi1 hi2
  refine ⟨_, u, uck, ick, rfl, hok, rfl, hu1, hi1, ?_⟩
  have e4 : V4Builder.udp cfg s = .ok { s2 with finalizer := s2.finalizer.extend s1.finalizer } := by
    unfold V4Builder.udp
    rw [e1]
    simp only [Outcome.ok_bind]
    rw [e2]
    rfl
  rw [e4]
  simp only [Outcome.ok_bind]
  rw [e3]
  simp only [Outcome.ok_bind]
  unfold UdpBuilder.build UdpBuilder.prepare Finalization.add
  simp only []
  rw [buildTail_eq r3.rep, r3.fin, r3.ip, length r3.rep, UdpState.length]
  unfold UdpState.bytes
  rw [finish_snoc hu2, finish_snoc hi2]

end
end Verif
