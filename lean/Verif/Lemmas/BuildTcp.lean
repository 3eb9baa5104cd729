import Verif.Lemmas.BuildUdp
import Verif.Props.Transport

/-! # The TCP builder on the wire format -/

namespace Verif
open Verif Verif.Spec

/-- What a TCP builder holds; `flags` is `none` as long as `flags()` has not been called. -/
structure TcpState where
  fields : TcpFields
  flags : Option TcpFlags
  payload : Option Bytes

/-- The word with data offset and flags while the segment is being built: `flags()` clears the offset. -/
def TcpState.word (a : TcpState) : U16 :=
  match a.flags with
  | none => 0x5000#16
  | some v => v.bits

/-- The flag bits that were asked for. -/
def TcpState.flagBits (a : TcpState) : U16 :=
  match a.flags with
  | none => 0#16
  | some v => v.bits

/-- The bytes of the layer while it is being built. -/
def TcpState.bytes (a : TcpState) : Bytes := tcpHeader a.fields a.word 0#16 ++ a.payload.getD []

/-- A builder on which nothing has been called. -/
def TcpState.init : TcpState := ⟨⟨0, 0, 0, 0, 0, 0⟩, none, none⟩

def TcpOp.step : TcpOp → TcpState → TcpState
  | .source v, a => { a with fields := { a.fields with sport := v } }
  | .destination v, a => { a with fields := { a.fields with dport := v } }
  | .sequence v, a => { a with fields := { a.fields with seq := v } }
  | .acknowledgment v, a => { a with fields := { a.fields with ack := v } }
  | .flags v, a => { a with flags := some v }
  | .window v, a => { a with fields := { a.fields with window := v } }
  | .pointer v, a => { a with fields := { a.fields with pointer := v } }
  | .payload v, a => { a with payload := some v }

theorem tcpHeader_length (f : TcpFields) (w ck : U16) : (tcpHeader f w ck).length = 20 := by
  simp [tcpHeader, be16, be32]

theorem TcpState.length (a : TcpState) : a.bytes.length = 20 + (a.payload.getD []).length := by
  simp [TcpState.bytes, tcpHeader_length]

theorem tcpHeader_offset (f : TcpFields) (w ck : U16) (rest : Bytes) :
    field (tcpHeader f w ck ++ rest) 96 4 = w.toNat / 4096 := by
  have h := field_hi4 (tcpHeader f w ck ++ rest) 12
  rw [show 8 * 12 = 96 from rfl] at h
  rw [h]
  have e : (tcpHeader f w ck ++ rest).getD 12 0#8 = BitVec.ofNat 8 (w.toNat / 256) := rfl
  rw [e]
  have := w.isLt
  simp only [BitVec.toNat_ofNat]
  omega

theorem TcpState.segOk {a : TcpState} (h : a.flags = none) : Tcp.SegOk a.bytes := by
  have hl := a.length
  have ho := tcpHeader_offset a.fields a.word 0#16 (a.payload.getD [])
  have hw : a.word = 0x5000#16 := by unfold TcpState.word; rw [h]
  have : field a.bytes 96 4 = 5 := by
    unfold TcpState.bytes
    rw [ho, hw]
    rfl
  exact ⟨by omega, by omega, by omega⟩

section
variable {B : Type} [Buffer B] [LawfulBuffer B]
open LawfulBuffer

structure TcpRep (cfg : Cfg) (cap : Nat) (pre : Bytes) (fs : Finalization) (ip : Nat × Nat) (a : TcpState)
    (s : TcpBuilder B) : Prop where
  rep : Rep cfg cap s.buffer pre a.bytes
  fin : s.finalizer = fs
  ip : s.ip = ip
  payload : s.payload = a.payload.isSome
  payloadLength : s.payloadLength = (a.payload.getD []).length

theorem tcp_with (cfg : Cfg) {cap : Nat} {b : B} {pre layer : Bytes} (h : Rep cfg cap b pre layer)
    (hn : pre.length + layer.length + 20 ≤ cap) :
    ∃ s, TcpBuilder.«with» cfg b = .ok s ∧
      TcpRep cfg cap (pre ++ layer) [] (pre.length, layer.length) .init s := by
  obtain ⟨b1, e1, r1⟩ := next cfg 20 h hn
  obtain ⟨b2, e2, r2⟩ := modify (layer' := TcpState.init.bytes) cfg
    (setIdx 12 (BitVec.ofNat 8 (Tcp.headerMin / 4) <<< 4)) r1 rfl rfl
  refine ⟨⟨b2, [], (Buffer.offset b, Buffer.length b), false, 0⟩, ?_, ⟨r2, rfl, ?_, rfl, rfl⟩⟩
  · unfold TcpBuilder.«with»
    rw [show Tcp.headerMin = 20 from rfl] at *
    simp only []
    rw [onBuffer_ok e1]
    simp only [Outcome.ok_bind]
    rw [onBuffer_ok e2]
    rfl
  · rw [offset h, length h]

theorem tcp_setter (cfg : Cfg) {cap : Nat} {pre : Bytes} {fs : Finalization} {ip : Nat × Nat}
    {a a' : TcpState} {s : TcpBuilder B} (h : TcpRep cfg cap pre fs ip a s) {f : Mut Bytes Unit}
    (hf : f a.bytes = (.ok (), a'.bytes)) (hp : a'.payload = a.payload) :
    ∃ s', TcpBuilder.setter cfg f s = .ok s' ∧ TcpRep cfg cap pre fs ip a' s' := by
  obtain ⟨b', e1, r1⟩ := modify cfg f h.rep hf (by rw [TcpState.length, TcpState.length, hp])
  refine ⟨{ s with buffer := b' }, ?_, ⟨r1, h.fin, h.ip, by rw [hp]; exact h.payload,
    by rw [hp]; exact h.payloadLength⟩⟩
  unfold TcpBuilder.setter
  rw [onBuffer_ok e1]
  rfl

/-- When a call is allowed: header setters before `flags()`, a payload at most once, within the room. -/
def TcpOp.legal (B : Type) [Buffer B] [LawfulBuffer B] (cap : Nat) (pre : Bytes) :
    TcpOp → TcpState → Prop
  | .payload v, a => a.payload = none ∧ (Grows B ∨ v = []) ∧ pre.length + 20 + v.length ≤ cap
  | _, a => a.flags = none

theorem tcp_step (cfg : Cfg) {cap : Nat} {pre : Bytes} {fs : Finalization} {ip : Nat × Nat} (op : TcpOp)
    (a : TcpState) (s : TcpBuilder B) (h : TcpRep cfg cap pre fs ip a s) (hl : op.legal B cap pre a) :
    ∃ s', op.run cfg s = .ok s' ∧ TcpRep cfg cap pre fs ip (op.step a) s' := by
  have hlen := a.length
  cases op with
  | source v => exact tcp_setter cfg h (Tcp.set16_eq (TcpState.segOk hl) (by omega)) rfl
  | destination v => exact tcp_setter cfg h (Tcp.set16_eq (TcpState.segOk hl) (by omega)) rfl
  | sequence v => exact tcp_setter cfg h (Tcp.set32_eq (TcpState.segOk hl) (by omega)) rfl
  | acknowledgment v => exact tcp_setter cfg h (Tcp.set32_eq (TcpState.segOk hl) (by omega)) rfl
  | flags v => exact tcp_setter cfg h (Props.tcp_setFlags_eq (TcpState.segOk hl) v) rfl
  | window v => exact tcp_setter cfg h (Tcp.set16_eq (TcpState.segOk hl) (by omega)) rfl
  | pointer v => exact tcp_setter cfg h (Tcp.set16_eq (TcpState.segOk hl) (by omega)) rfl
  | payload v =>
    obtain ⟨hn, hg, hc⟩ := hl
    rw [hn] at hlen
    simp only [Option.getD_none, List.length_nil] at hlen
    obtain ⟨b', e1, r1⟩ := appendAll_ok cfg v s.buffer pre a.bytes h.rep hg (by omega)
    refine ⟨{ s with buffer := b', payload := true, payloadLength := s.payloadLength + v.length },
      ?_, ⟨?_, h.fin, h.ip, rfl, ?_⟩⟩
    · show TcpBuilder.setPayload cfg v s = _
      unfold TcpBuilder.setPayload
      rw [if_neg (by rw [h.payload, hn]; simp), onBuffer_ok e1]
      rfl
    · have : a.bytes ++ v = (TcpOp.step (.payload v) a).bytes := by
        unfold TcpState.bytes
        rw [hn]
        simp [TcpOp.step, TcpState.word]
      rw [← this]
      exact r1
    · show s.payloadLength + v.length = v.length
      rw [h.payloadLength, hn]
      simp

end

/-! ## The finalizer -/

theorem TcpFlags.lt (f : TcpFlags) : f.bits.toNat < 512 := by
  have hval := f.valid
  have : f.bits &&& 0b1_1111_1111#16 = f.bits := by
    have e : f.bits = f.bits &&& (0b1_1111_1111#16 ||| ~~~0b1_1111_1111#16) := by
      rw [show (0b1_1111_1111#16 ||| ~~~0b1_1111_1111#16 : U16) = BitVec.allOnes 16 from by decide,
        BitVec.and_allOnes]
    rw [BitVec.and_or_distrib_left, hval, BitVec.or_zero] at e
    exact e.symm
  have h2 := Props.and511_toNat f.bits
  rw [this] at h2
  omega

theorem word_bits (n : Nat) (h : n < 512) :
    be16 (0x5000#16 ||| BitVec.ofNat 16 n) =
      [(BitVec.ofNat 8 (20 / 4) <<< 4) ||| (BitVec.ofNat 8 ((BitVec.ofNat 16 n).toNat / 256) &&& 0b1111#8),
        BitVec.ofNat 8 (BitVec.ofNat 16 n).toNat] := by
  revert n
  decide +kernel

/-- What the finalizer makes of the word with the flags. -/
theorem TcpState.finalWord (a : TcpState) :
    be16 (0x5000#16 ||| a.flagBits) =
      [(BitVec.ofNat 8 (20 / 4) <<< 4) ||| (BitVec.ofNat 8 (a.word.toNat / 256) &&& 0b1111#8),
        BitVec.ofNat 8 a.word.toNat] := by
  unfold TcpState.flagBits TcpState.word
  cases h : a.flags with
  | none => decide
  | some v =>
    have := word_bits v.bits.toNat v.lt
    rw [BitVec.ofNat_toNat, BitVec.setWidth_eq] at this
    exact this

theorem IpPacket.noPayload_v4' {f : Ipv4Fields} (hf : Ipv4Fields.ok f) (total ck : U16) :
    IpPacket.noPayload (ipv4Header f total ck) = .ok (.v4 (ipv4Header f total ck)) := by
  have hnp : V4.noPayload (ipv4Header f total ck) = .ok (ipv4Header f total ck) := by
    have := noPayload_v4 hf total ck []
    rwa [List.append_nil] at this
  unfold IpPacket.noPayload
  have e : idx (ipv4Header f total ck) 0 = .ok 0x45#8 := rfl
  rw [e]
  simp only [Outcome.ok_bind]
  rw [if_pos (by decide), hnp]
  rfl

theorem tcp_checksum_v4 (cfg : Cfg) {f : Ipv4Fields} (hf : Ipv4Fields.ok f) (total ck : U16)
    (rest d : Bytes) (hd : d.length ≤ 131000) :
    Tcp.checksumOf cfg (.v4 (ipv4Header f total ck ++ rest)) d =
      if d.length % 2 = 1 ∧ cfg.eofAdvances = true then .panic
      else .ok (ckOf ((words (pseudoHeader f.src f.dst 6#8 d.length)).sum + (loopWords 18 d 0).sum
        + oddWord d)) := by
  have := hf.length total ck
  rw [Tcp.checksumOf_eq cfg _ _ (by simp; omega) hd, pseudoSum_v4 hf]

/-- Where the TCP finalizer works. -/
theorem tcp_finalizerOf (cfg : Cfg) (pre hd d : Bytes) (n : Nat) :
    TcpBuilder.finalizerOf cfg (pre.length, hd.length) d.length n (pre ++ hd ++ d) =
      ((TcpBuilder.inner cfg hd d.length n d).1,
        pre ++ hd ++ (TcpBuilder.inner cfg hd d.length n d).2) := by
  unfold TcpBuilder.finalizerOf
  rw [splitAt_ok (by simp)]
  simp only []
  have e1 : (pre ++ hd ++ d).take (pre.length + hd.length) = pre ++ hd := by
    rw [← List.length_append, List.take_left' rfl]
  have e2 : (pre ++ hd ++ d).drop (pre.length + hd.length) = d := by
    rw [← List.length_append, List.drop_left' rfl]
  rw [e1, e2, sliceFrom_ok (by simp), sliceTo_ok (Nat.le_refl _)]
  simp

/-- What the TCP finalizer does, up to the outcome `r` of the checksum. -/
theorem tcp_finalizer (cfg : Cfg) {f : Ipv4Fields} (hf : Ipv4Fields.ok f) (pre : Bytes) (a : TcpState) :
    TcpBuilder.finalizerOf cfg (pre.length, 20) (20 + (a.payload.getD []).length)
        (a.payload.getD []).length (pre ++ ipv4Header f 0#16 0#16 ++ a.bytes) =
      match Tcp.checksumOf cfg (.v4 (ipv4Header f 0#16 0#16))
        (tcpHeader a.fields (0x5000#16 ||| a.flagBits) 0#16 ++ a.payload.getD []) with
      | .ok ck => (.ok (), pre ++ ipv4Header f 0#16 0#16 ++
          (tcpHeader a.fields (0x5000#16 ||| a.flagBits) ck ++ a.payload.getD []))
      | .err e => (.err e, pre ++ ipv4Header f 0#16 0#16 ++
          (tcpHeader a.fields (0x5000#16 ||| a.flagBits) 0#16 ++ a.payload.getD []))
      | .panic => (.panic, pre ++ ipv4Header f 0#16 0#16 ++
          (tcpHeader a.fields (0x5000#16 ||| a.flagBits) 0#16 ++ a.payload.getD [])) := by
  have hl := hf.length 0#16 0#16
  have hul : ∀ x y z p, (tcpHeader x y z ++ p).length = 20 + p.length := by
    intro x y z p; simp [tcpHeader_length]
  have hal := a.length
  have h := tcp_finalizerOf cfg pre (ipv4Header f 0#16 0#16) a.bytes (a.payload.getD []).length
  rw [hl, hal] at h
  rw [h]
  have hw := a.finalWord
  generalize hD : tcpHeader a.fields (0x5000#16 ||| a.flagBits) 0#16 ++ a.payload.getD [] = D
  have hDl : D.length = 20 + (a.payload.getD []).length := by rw [← hD, hul]
  have hput : ∀ ck, put D 16 (be16 ck) =
      tcpHeader a.fields (0x5000#16 ||| a.flagBits) ck ++ a.payload.getD [] := by
    intro ck
    rw [← hD]
    rfl
  have hi : TcpBuilder.inner cfg (ipv4Header f 0#16 0#16) (20 + (a.payload.getD []).length)
      (a.payload.getD []).length a.bytes =
      (match Tcp.checksumOf cfg (.v4 (ipv4Header f 0#16 0#16)) D with
      | .ok ck => (.ok (), put D 16 (be16 ck))
      | .err e => (.err e, D)
      | .panic => (.panic, D)) := by
    unfold TcpBuilder.inner
    have s1 : Mut.read (idx · 12) a.bytes = (.ok (BitVec.ofNat 8 (a.word.toNat / 256)), a.bytes) := rfl
    rw [Mut.bind_ok s1]
    have s2 : Mut.read (fun _ => subUsize cfg (20 + (a.payload.getD []).length) (a.payload.getD []).length)
        a.bytes = (.ok 20, a.bytes) := by
      refine Mut.read_of ?_
      rw [subUsize_ok (by omega)]
      congr 1
      omega
    rw [Mut.bind_ok s2]
    have s3 : setIdx 12 ((BitVec.ofNat 8 (20 / 4) <<< 4) ||| (BitVec.ofNat 8 (a.word.toNat / 256) &&& 0b1111#8))
        a.bytes = (.ok (), D) := by
      rw [setIdx_ok (by omega), ← hD]
      congr 1
      unfold tcpHeader
      rw [hw]
      rfl
    rw [Mut.bind_ok s3]
    have s4 : (Mut.read fun tcp => do
        let p ← IpPacket.noPayload (ipv4Header f 0#16 0#16)
        Tcp.checksumOf cfg p tcp) D = (Tcp.checksumOf cfg (.v4 (ipv4Header f 0#16 0#16)) D, D) := by
      refine Mut.read_of ?_
      rw [IpPacket.noPayload_v4' hf]
      rfl
    rw [Mut.bind_apply, s4]
    cases Tcp.checksumOf cfg (.v4 (ipv4Header f 0#16 0#16)) D with
    | ok ck => exact writeU16_ok (by omega)
    | err e => rfl
    | panic => rfl
  rw [hi]
  cases Tcp.checksumOf cfg (.v4 (ipv4Header f 0#16 0#16)) D with
  | ok ck => simp only []; rw [hput]
  | err e => rfl
  | panic => rfl

section
variable {B : Type} [Buffer B] [LawfulBuffer B]
open LawfulBuffer

/-- The state of the TCP stage once its setters have been called. -/
theorem v4_tcp_run (cfg : Cfg) {cap : Nat} {pre : Bytes} {fs : Finalization} {a : V4State}
    {s : V4Builder B} (h : V4Rep cfg cap pre fs a s) (hp : a.payload = none) (hn : pre.length + 40 ≤ cap)
    (ops : List TcpOp)
    (hops : ∀ hd : Bytes, hd.length = 20 → LegalRun TcpOp.step (TcpOp.legal B cap (pre ++ hd)) ops .init) :
    Ipv4Fields.ok { a.fields with protocol := 6#8 } ∧
    ∃ s', (do
        let t ← V4Builder.tcp cfg s
        runOps (TcpOp.run cfg) ops t) = .ok s' ∧
      TcpRep cfg cap (pre ++ ipv4Header { a.fields with protocol := 6#8 } 0#16 0#16)
        (fs ++ [V4Builder.finalizerOf cfg pre.length 20]) (pre.length, 20)
        (ops.foldl (fun a op => op.step a) .init) s' := by
  obtain ⟨s1, e1, r1⟩ := v4_enter cfg .tcp a s h hp
  have hb : (V4Op.step (.protocol .tcp) a).bytes = ipv4Header { a.fields with protocol := 6#8 } 0#16 0#16 := by
    show _ ++ a.payload.getD [] = _
    rw [hp]; exact List.append_nil _
  have hok : Ipv4Fields.ok { a.fields with protocol := 6#8 } := r1.ok
  have hr := r1.rep
  rw [hb] at hr
  have hl := hok.length 0#16 0#16
  obtain ⟨s2, e2, r2⟩ := tcp_with cfg hr (by omega)
  have hr2 : TcpRep cfg cap (pre ++ ipv4Header { a.fields with protocol := 6#8 } 0#16 0#16)
      (fs ++ [V4Builder.finalizerOf cfg pre.length 20]) (pre.length, 20) .init
      { s2 with finalizer := s2.finalizer.extend s1.finalizer } := by
    refine ⟨r2.rep, ?_, ?_, r2.payload, r2.payloadLength⟩
    · unfold Finalization.extend
      rw [r2.fin, r1.fin]
      rfl
    · rw [← hl]; exact r2.ip
  obtain ⟨s3, e3, r3⟩ := runOps_sim (run := TcpOp.run (B := B) cfg) _ TcpOp.step
    (TcpOp.legal B cap (pre ++ ipv4Header { a.fields with protocol := 6#8 } 0#16 0#16))
    (fun op a s hr hl => tcp_step cfg op a s hr hl) ops _ _ hr2 (hops _ hl)
  refine ⟨hok, s3, ?_, r3⟩
  have e4 : V4Builder.tcp cfg s = .ok { s2 with finalizer := s2.finalizer.extend s1.finalizer } := by
    unfold V4Builder.tcp
    rw [e1]
    simp only [Outcome.ok_bind]
    rw [e2]
    rfl
  rw [e4]
  simp only [Outcome.ok_bind]
  exact e3

/-- The TCP stage of a build, on an IPv4 builder without payload. -/
theorem v4_tcp_build (cfg : Cfg) {cap : Nat} {pre : Bytes} {fs : Finalization} {a : V4State}
    {s : V4Builder B} (h : V4Rep cfg cap pre fs a s) (hp : a.payload = none) (hn : pre.length + 40 ≤ cap)
    (ops : List TcpOp)
    (hops : ∀ hd : Bytes, hd.length = 20 → LegalRun TcpOp.step (TcpOp.legal B cap (pre ++ hd)) ops .init) :
    ∃ (f : Ipv4Fields) (t : TcpState),
      f = { a.fields with protocol := 6#8 } ∧ Ipv4Fields.ok f ∧
      t = ops.foldl (fun a op => op.step a) .init ∧
      (∀ tck, Tcp.checksumOf cfg (.v4 (ipv4Header f 0#16 0#16))
          (tcpHeader t.fields (0x5000#16 ||| t.flagBits) 0#16 ++ t.payload.getD []) = .ok tck →
        ∃ ick, V4.checksumOf cfg (ipv4Header f (BitVec.ofNat 16 (40 + (t.payload.getD []).length)) 0#16)
            = .ok ick ∧
          (do
            let t ← V4Builder.tcp cfg s
            let t ← runOps (TcpOp.run cfg) ops t
            TcpBuilder.build cfg t) =
          finish fs (pre ++ ipv4Header f (BitVec.ofNat 16 (40 + (t.payload.getD []).length)) ick ++
            (tcpHeader t.fields (0x5000#16 ||| t.flagBits) tck ++ t.payload.getD []))) ∧
      (Tcp.checksumOf cfg (.v4 (ipv4Header f 0#16 0#16))
          (tcpHeader t.fields (0x5000#16 ||| t.flagBits) 0#16 ++ t.payload.getD []) = .panic →
        (do
          let t ← V4Builder.tcp cfg s
          let t ← runOps (TcpOp.run cfg) ops t
          TcpBuilder.build cfg t) = .panic) := by
  obtain ⟨hok, s3, e3, r3⟩ := v4_tcp_run cfg h hp hn ops hops
  have eb : (do
      let t ← V4Builder.tcp cfg s
      let t ← runOps (TcpOp.run cfg) ops t
      TcpBuilder.build cfg t) = TcpBuilder.build cfg s3 := by
    have : (do
      let t ← V4Builder.tcp cfg s
      let t ← runOps (TcpOp.run cfg) ops t
      TcpBuilder.build cfg t) = (do
        let t ← V4Builder.tcp cfg s
        runOps (TcpOp.run cfg) ops t) >>= TcpBuilder.build cfg := by
      cases V4Builder.tcp cfg s <;> rfl
    rw [this, e3]
    rfl
  generalize hu : ops.foldl (fun a op => op.step a) TcpState.init = t at r3
  have hfin := tcp_finalizer cfg hok pre t
  have ebuild : TcpBuilder.build cfg s3 = finish (fs ++ [V4Builder.finalizerOf cfg pre.length 20] ++
      [TcpBuilder.finalizerOf cfg (pre.length, 20) (20 + (t.payload.getD []).length)
        (t.payload.getD []).length])
      (pre ++ ipv4Header { a.fields with protocol := 6#8 } 0#16 0#16 ++ t.bytes) := by
    unfold TcpBuilder.build TcpBuilder.prepare Finalization.add
    simp only []
    rw [buildTail_eq r3.rep, r3.fin, r3.ip, length r3.rep, TcpState.length, r3.payloadLength]
  refine ⟨_, t, rfl, hok, rfl, ?_, ?_⟩
  · intro tck htck
    rw [htck] at hfin
    simp only [] at hfin
    obtain ⟨ick, hi1, hi2⟩ := v4_finalizer cfg hok pre
      (tcpHeader t.fields (0x5000#16 ||| t.flagBits) tck ++ t.payload.getD [])
    have hul : ∀ x y z p, (tcpHeader x y z ++ p).length = 20 + p.length := by
      intro x y z p; simp [tcpHeader_length]
    rw [hul, show 20 + (20 + (t.payload.getD []).length) = 40 + (t.payload.getD []).length by omega] at hi1 hi2
    refine ⟨ick, hi1, ?_⟩
    rw [eb, ebuild, finish_snoc hfin, finish_snoc hi2]
  · intro hp
    rw [hp] at hfin
    simp only [] at hfin
    rw [eb, ebuild, finish_snoc_panic hfin]

end
end Verif
