import Verif.Lemmas.BuildV4

/-! # The ICMP builders on the wire format -/

namespace Verif
open Verif Verif.Spec

/-- The ICMP finalizer stores the checksum of the message. -/
theorem icmp_finalizer (cfg : Cfg) (pre m : Bytes) (hm : 4 ≤ m.length) :
    ∃ ck, Icmp.checksumOf cfg m = .ok ck ∧
      IcmpBuilder.finalizerOf cfg pre.length m.length (pre ++ m) = (.ok (), pre ++ put m 2 (be16 ck)) := by
  obtain ⟨ck, hck⟩ : ∃ ck, Icmp.checksumOf cfg m = .ok ck := ⟨_, Icmp.checksumOf_eq _ _⟩
  refine ⟨ck, hck, ?_⟩
  unfold IcmpBuilder.finalizerOf
  have s1 : (Mut.read fun out => do
      let m ← slice out pre.length (pre.length + m.length)
      Icmp.checksumOf cfg m) (pre ++ m) = (.ok ck, pre ++ m) := by
    refine Mut.read_of ?_
    have := slice_middle pre m []
    rw [List.append_nil] at this
    rw [this]
    exact hck
  rw [Mut.bind_ok s1, writeU16_ok (by simp; omega)]
  congr 1
  have := put_at pre m (be16 ck) _ [] 2 m.length rfl (by rw [be16_length]; omega) rfl
  rwa [List.append_nil, List.append_nil] at this

/-- The checksum of an ICMP message does not depend on what its checksum field holds. -/
theorem icmp_checksum_skip (cfg : Cfg) (m : Bytes) (hm : 4 ≤ m.length) (ck : U16) :
    Icmp.checksumOf cfg (put m 2 (be16 ck)) = Icmp.checksumOf cfg m := by
  rw [Icmp.checksumOf_eq, Icmp.checksumOf_eq]
  have := Props.loopWords_put16 1 m ck (by omega)
  rw [show 2 * 1 + 2 = 4 from rfl, show 2 * 1 = 2 from rfl] at this
  rw [this]

/-- `v4.icmp()`. -/
theorem v4_icmp_enter {B : Type} [Buffer B] [LawfulBuffer B] (cfg : Cfg) {cap : Nat} {pre : Bytes}
    {fs : Finalization} {a : V4State} {s : V4Builder B} (h : V4Rep cfg cap pre fs a s) (hp : a.payload = none) :
    Ipv4Fields.ok { a.fields with protocol := 1#8 } ∧
    ∃ b', V4Builder.icmp cfg s = .ok ⟨b', fs ++ [V4Builder.finalizerOf cfg pre.length 20]⟩ ∧
      LawfulBuffer.Rep cfg cap b' pre (ipv4Header { a.fields with protocol := 1#8 } 0#16 0#16) := by
  obtain ⟨s1, e1, r1⟩ := v4_enter cfg .icmp a s h hp
  have hb : (V4Op.step (.protocol .icmp) a).bytes = ipv4Header { a.fields with protocol := 1#8 } 0#16 0#16 := by
    show _ ++ a.payload.getD [] = _
    rw [hp]; exact List.append_nil _
  have hr := r1.rep
  rw [hb] at hr
  refine ⟨r1.ok, s1.buffer, ?_, hr⟩
  unfold V4Builder.icmp
  rw [e1]
  unfold IcmpBuilder.«with» Finalization.extend
  simp only [Outcome.ok_bind]
  rw [r1.fin]
  rfl

theorem legalRun_true {A Op : Type} {step : Op → A → A} : ∀ (ops : List Op) (a : A),
    LegalRun step (fun _ _ => True) ops a
  | [], _ => trivial
  | _ :: ops, _ => ⟨trivial, legalRun_true ops _⟩

/-! ## Echo -/

/-- What an echo builder holds; `kind` is `none` until `request()` or `reply()` has been called. -/
structure EchoState where
  kind : Option U8
  id : U16
  seq : U16
  payload : Option Bytes

/-- The bytes of the layer with checksum `ck`. -/
def EchoState.msg (a : EchoState) (ck : U16) : Bytes :=
  icmpEchoHeader (a.kind.getD 0) ck a.id a.seq ++ a.payload.getD []

/-- A builder on which nothing has been called. -/
def EchoState.init : EchoState := ⟨none, 0, 0, none⟩

def EchoOp.step : EchoOp → EchoState → EchoState
  | .request, a => { a with kind := some IcmpKind.echoRequest.toWire }
  | .reply, a => { a with kind := some IcmpKind.echoReply.toWire }
  | .identifier v, a => { a with id := v }
  | .sequence v, a => { a with seq := v }
  | .payload v, a => { a with payload := some v }

theorem EchoState.length (a : EchoState) (ck : U16) : (a.msg ck).length = 8 + (a.payload.getD []).length := by
  simp [EchoState.msg, icmpEchoHeader, be16]; omega

section
variable {B : Type} [Buffer B] [LawfulBuffer B]
open LawfulBuffer

structure EchoRep (cfg : Cfg) (cap : Nat) (pre : Bytes) (fs : Finalization) (a : EchoState) (s : EchoBuilder B) :
    Prop where
  rep : Rep cfg cap s.buffer pre (a.msg 0#16)
  fin : s.finalizer = fs
  kind : s.kind = a.kind.isSome
  payload : s.payload = a.payload.isSome

theorem echo_with (cfg : Cfg) {cap : Nat} {b : B} {pre layer : Bytes} (h : Rep cfg cap b pre layer)
    (hn : pre.length + layer.length + 8 ≤ cap) :
    ∃ s, EchoBuilder.«with» cfg b = .ok s ∧ EchoRep cfg cap (pre ++ layer) [] .init s := by
  obtain ⟨b', e1, r1⟩ := next cfg 8 h hn
  refine ⟨⟨b', [], false, false⟩, ?_, ⟨r1, rfl, rfl, rfl⟩⟩
  unfold EchoBuilder.«with»
  rw [onBuffer_ok e1]
  rfl

theorem echo_setter (cfg : Cfg) {cap : Nat} {pre : Bytes} {fs : Finalization} {a a' : EchoState}
    {s : EchoBuilder B} (k : Bool) (h : EchoRep cfg cap pre fs a s) {f : Mut Bytes Unit}
    (hf : f (a.msg 0#16) = (.ok (), a'.msg 0#16)) (hk : k = a'.kind.isSome) (hp : a'.payload = a.payload) :
    ∃ s', EchoBuilder.setter cfg f { s with kind := k } = .ok s' ∧ EchoRep cfg cap pre fs a' s' := by
  obtain ⟨b', e1, r1⟩ := modify cfg f h.rep hf (by rw [EchoState.length, EchoState.length, hp])
  refine ⟨{ s with buffer := b', kind := k }, ?_, ⟨r1, h.fin, hk, by rw [hp]; exact h.payload⟩⟩
  unfold EchoBuilder.setter
  rw [onBuffer_ok e1]
  rfl

/-- When a call is allowed: a payload at most once, within the room there is. -/
def EchoOp.legal (B : Type) [Buffer B] [LawfulBuffer B] (cap : Nat) (pre : Bytes) :
    EchoOp → EchoState → Prop
  | .payload v, a => a.payload = none ∧ (Grows B ∨ v = []) ∧ pre.length + 8 + v.length ≤ cap
  | _, _ => True

theorem echo_step (cfg : Cfg) {cap : Nat} {pre : Bytes} {fs : Finalization} (op : EchoOp)
    (a : EchoState) (s : EchoBuilder B) (h : EchoRep cfg cap pre fs a s) (hl : op.legal B cap pre a) :
    ∃ s', op.run cfg s = .ok s' ∧ EchoRep cfg cap pre fs (op.step a) s' := by
  have hlen := a.length 0#16
  cases op with
  | request =>
    refine echo_setter cfg true h ?_ rfl rfl
    rw [setIdx_ok (by omega)]
    rfl
  | reply =>
    refine echo_setter cfg true h ?_ rfl rfl
    rw [setIdx_ok (by omega)]
    rfl
  | identifier v =>
    refine echo_setter cfg s.kind h ?_ h.kind rfl
    rw [writeU16_ok (by omega)]
    rfl
  | sequence v =>
    refine echo_setter cfg s.kind h ?_ h.kind rfl
    rw [writeU16_ok (by omega)]
    rfl
  | payload v =>
    obtain ⟨hn, hg, hc⟩ := hl
    rw [hn] at hlen
    simp only [Option.getD_none, List.length_nil] at hlen
    obtain ⟨b', e1, r1⟩ := appendAll_ok cfg v s.buffer pre (a.msg 0#16) h.rep hg (by omega)
    refine ⟨{ s with buffer := b', payload := true }, ?_, ⟨?_, h.fin, h.kind, rfl⟩⟩
    · show EchoBuilder.setPayload cfg v s = _
      unfold EchoBuilder.setPayload
      rw [if_neg (by rw [h.payload, hn]; simp), onBuffer_ok e1]
      rfl
    · have : a.msg 0#16 ++ v = (EchoOp.step (.payload v) a).msg 0#16 := by
        unfold EchoState.msg
        rw [hn]
        simp [EchoOp.step]
      rw [← this]
      exact r1

/-- A whole echo build on top of what is in the buffer. -/
theorem echo_build (cfg : Cfg) {cap : Nat} {b : B} {pre layer : Bytes} (h : Rep cfg cap b pre layer)
    (hn : pre.length + layer.length + 8 ≤ cap) (fs : Finalization) (ops : List EchoOp)
    (hops : LegalRun EchoOp.step (EchoOp.legal B cap (pre ++ layer)) ops .init) :
    ∃ (a : EchoState) (ck : U16), a = ops.foldl (fun a op => op.step a) .init ∧
      Icmp.checksumOf cfg (a.msg 0#16) = .ok ck ∧
      (do
        let e ← IcmpBuilder.echo cfg (⟨b, fs⟩ : IcmpBuilder B)
        let e ← runOps (EchoOp.run cfg) ops e
        EchoBuilder.build cfg e) =
      if a.kind.isSome then finish fs (pre ++ layer ++ a.msg ck) else .err .invalidPacket := by
  obtain ⟨s1, e1, r1⟩ := echo_with cfg h hn
  have r1' : EchoRep cfg cap (pre ++ layer) fs .init { s1 with finalizer := s1.finalizer.extend fs } := by
    refine ⟨r1.rep, ?_, r1.kind, r1.payload⟩
    unfold Finalization.extend
    rw [r1.fin]
    rfl
  obtain ⟨s2, e2, r2⟩ := runOps_sim (run := EchoOp.run (B := B) cfg) _ EchoOp.step
    (EchoOp.legal B cap (pre ++ layer)) (fun op a s hr hl => echo_step cfg op a s hr hl) ops _ _ r1' hops
  generalize hu : ops.foldl (fun a op => op.step a) EchoState.init = a at r2
  have hal := fun ck => a.length ck
  obtain ⟨ck, hck, hf⟩ := icmp_finalizer cfg (pre ++ layer) (a.msg 0#16) (by rw [hal]; omega)
  refine ⟨a, ck, rfl, hck, ?_⟩
  have e3 : IcmpBuilder.echo cfg (⟨b, fs⟩ : IcmpBuilder B)
      = .ok { s1 with finalizer := s1.finalizer.extend fs } := by
    unfold IcmpBuilder.echo
    simp only []
    rw [e1]
    rfl
  rw [e3]
  simp only [Outcome.ok_bind]
  rw [e2]
  simp only [Outcome.ok_bind]
  unfold EchoBuilder.build
  rw [r2.kind]
  cases hk : a.kind with
  | none => simp
  | some k =>
    rw [if_neg (by simp), if_pos (by simp)]
    unfold IcmpBuilder.prepare Finalization.add
    rw [buildTail_eq r2.rep, r2.fin, offset r2.rep, length r2.rep, finish_snoc hf]
    rfl

end

/-! ## Information -/

/-- What an information builder holds; `kind` is `none` until `request()` or `reply()` has been called. -/
structure InformationState where
  kind : Option U8
  id : U16
  seq : U16

/-- The bytes of the layer with checksum `ck`. -/
def InformationState.msg (a : InformationState) (ck : U16) : Bytes :=
  icmpEchoHeader (a.kind.getD 0) ck a.id a.seq

/-- A builder on which nothing has been called. -/
def InformationState.init : InformationState := ⟨none, 0, 0⟩

def InformationOp.step : InformationOp → InformationState → InformationState
  | .request, a => { a with kind := some IcmpKind.informationRequest.toWire }
  | .reply, a => { a with kind := some IcmpKind.informationReply.toWire }
  | .identifier v, a => { a with id := v }
  | .sequence v, a => { a with seq := v }

theorem InformationState.length (a : InformationState) (ck : U16) : (a.msg ck).length = 8 := by
  simp [InformationState.msg, icmpEchoHeader, be16]

section
variable {B : Type} [Buffer B] [LawfulBuffer B]
open LawfulBuffer

structure InformationRep (cfg : Cfg) (cap : Nat) (pre : Bytes) (fs : Finalization) (a : InformationState) (s : InformationBuilder B) :
    Prop where
  rep : Rep cfg cap s.buffer pre (a.msg 0#16)
  fin : s.finalizer = fs
  kind : s.kind = a.kind.isSome


theorem information_with (cfg : Cfg) {cap : Nat} {b : B} {pre layer : Bytes} (h : Rep cfg cap b pre layer)
    (hn : pre.length + layer.length + 8 ≤ cap) :
    ∃ s, InformationBuilder.«with» cfg b = .ok s ∧ InformationRep cfg cap (pre ++ layer) [] .init s := by
  obtain ⟨b', e1, r1⟩ := next cfg 8 h hn
  refine ⟨⟨b', [], false⟩, ?_, ⟨r1, rfl, rfl⟩⟩
  unfold InformationBuilder.«with»
  rw [onBuffer_ok e1]
  rfl

theorem information_setter (cfg : Cfg) {cap : Nat} {pre : Bytes} {fs : Finalization} {a a' : InformationState}
    {s : InformationBuilder B} (k : Bool) (h : InformationRep cfg cap pre fs a s) {f : Mut Bytes Unit}
    (hf : f (a.msg 0#16) = (.ok (), a'.msg 0#16)) (hk : k = a'.kind.isSome) :
    ∃ s', InformationBuilder.setter cfg f { s with kind := k } = .ok s' ∧ InformationRep cfg cap pre fs a' s' := by
  obtain ⟨b', e1, r1⟩ := modify cfg f h.rep hf (by rw [InformationState.length, InformationState.length])
  refine ⟨{ s with buffer := b', kind := k }, ?_, ⟨r1, h.fin, hk⟩⟩
  unfold InformationBuilder.setter
  rw [onBuffer_ok e1]
  rfl



theorem information_step (cfg : Cfg) {cap : Nat} {pre : Bytes} {fs : Finalization} (op : InformationOp)
    (a : InformationState) (s : InformationBuilder B) (h : InformationRep cfg cap pre fs a s) :
    ∃ s', op.run cfg s = .ok s' ∧ InformationRep cfg cap pre fs (op.step a) s' := by
  have hlen := a.length 0#16
  cases op with
  | request =>
    refine information_setter cfg true h ?_ rfl
    rw [setIdx_ok (by omega)]
    rfl
  | reply =>
    refine information_setter cfg true h ?_ rfl
    rw [setIdx_ok (by omega)]
    rfl
  | identifier v =>
    refine information_setter cfg s.kind h ?_ h.kind
    rw [writeU16_ok (by omega)]
    rfl
  | sequence v =>
    refine information_setter cfg s.kind h ?_ h.kind
    rw [writeU16_ok (by omega)]
    rfl

/-- A whole information build on top of what is in the buffer. -/
theorem information_build (cfg : Cfg) {cap : Nat} {b : B} {pre layer : Bytes} (h : Rep cfg cap b pre layer)
    (hn : pre.length + layer.length + 8 ≤ cap) (fs : Finalization) (ops : List InformationOp) :
    ∃ (a : InformationState) (ck : U16), a = ops.foldl (fun a op => op.step a) .init ∧
      Icmp.checksumOf cfg (a.msg 0#16) = .ok ck ∧
      (do
        let e ← IcmpBuilder.information cfg (⟨b, fs⟩ : IcmpBuilder B)
        let e ← runOps (InformationOp.run cfg) ops e
        InformationBuilder.build cfg e) =
      if a.kind.isSome then finish fs (pre ++ layer ++ a.msg ck) else .err .invalidPacket := by
  obtain ⟨s1, e1, r1⟩ := information_with cfg h hn
  have r1' : InformationRep cfg cap (pre ++ layer) fs .init { s1 with finalizer := s1.finalizer.extend fs } := by
    refine ⟨r1.rep, ?_, r1.kind⟩
    unfold Finalization.extend
    rw [r1.fin]
    rfl
  obtain ⟨s2, e2, r2⟩ := runOps_sim (run := InformationOp.run (B := B) cfg) _ InformationOp.step
    (fun _ _ => True) (fun op a s hr _ => information_step cfg op a s hr) ops _ _ r1' (legalRun_true ops _)
  generalize hu : ops.foldl (fun a op => op.step a) InformationState.init = a at r2
  have hal := fun ck => a.length ck
  obtain ⟨ck, hck, hf⟩ := icmp_finalizer cfg (pre ++ layer) (a.msg 0#16) (by rw [hal]; omega)
  refine ⟨a, ck, rfl, hck, ?_⟩
  have e3 : IcmpBuilder.information cfg (⟨b, fs⟩ : IcmpBuilder B)
      = .ok { s1 with finalizer := s1.finalizer.extend fs } := by
    unfold IcmpBuilder.information
    simp only []
    rw [e1]
    rfl
  rw [e3]
  simp only [Outcome.ok_bind]
  rw [e2]
  simp only [Outcome.ok_bind]
  unfold InformationBuilder.build
  rw [r2.kind]
  cases hk : a.kind with
  | none => simp
  | some k =>
    rw [if_neg (by simp), if_pos (by simp)]
    unfold IcmpBuilder.prepare Finalization.add
    rw [buildTail_eq r2.rep, r2.fin, offset r2.rep, length r2.rep, finish_snoc hf]
    rfl

end

/-! ## Timestamp -/

/-- What a timestamp builder holds; `kind` is `none` until `request()` or `reply()` has been called. -/
structure TimestampState where
  kind : Option U8
  id : U16
  seq : U16
  originate : U32
  receive : U32
  transmit : U32

/-- The bytes of the layer with checksum `ck`. -/
def TimestampState.msg (a : TimestampState) (ck : U16) : Bytes :=
  icmpTimestamp (a.kind.getD 0) ck a.id a.seq a.originate a.receive a.transmit

/-- A builder on which nothing has been called. -/
def TimestampState.init : TimestampState := ⟨none, 0, 0, 0, 0, 0⟩

def TimestampOp.step : TimestampOp → TimestampState → TimestampState
  | .request, a => { a with kind := some IcmpKind.timestampRequest.toWire }
  | .reply, a => { a with kind := some IcmpKind.timestampReply.toWire }
  | .identifier v, a => { a with id := v }
  | .sequence v, a => { a with seq := v }
  | .originate v, a => { a with originate := v }
  | .receive v, a => { a with receive := v }
  | .transmit v, a => { a with transmit := v }

theorem TimestampState.length (a : TimestampState) (ck : U16) : (a.msg ck).length = 20 := by
  simp [TimestampState.msg, icmpTimestamp, be16, be32]

section
variable {B : Type} [Buffer B] [LawfulBuffer B]
open LawfulBuffer

structure TimestampRep (cfg : Cfg) (cap : Nat) (pre : Bytes) (fs : Finalization) (a : TimestampState) (s : TimestampBuilder B) :
    Prop where
  rep : Rep cfg cap s.buffer pre (a.msg 0#16)
  fin : s.finalizer = fs
  kind : s.kind = a.kind.isSome


theorem timestamp_with (cfg : Cfg) {cap : Nat} {b : B} {pre layer : Bytes} (h : Rep cfg cap b pre layer)
    (hn : pre.length + layer.length + 20 ≤ cap) :
    ∃ s, TimestampBuilder.«with» cfg b = .ok s ∧ TimestampRep cfg cap (pre ++ layer) [] .init s := by
  obtain ⟨b', e1, r1⟩ := next cfg 20 h hn
  refine ⟨⟨b', [], false⟩, ?_, ⟨r1, rfl, rfl⟩⟩
  unfold TimestampBuilder.«with»
  rw [onBuffer_ok e1]
  rfl

theorem timestamp_setter (cfg : Cfg) {cap : Nat} {pre : Bytes} {fs : Finalization} {a a' : TimestampState}
    {s : TimestampBuilder B} (k : Bool) (h : TimestampRep cfg cap pre fs a s) {f : Mut Bytes Unit}
    (hf : f (a.msg 0#16) = (.ok (), a'.msg 0#16)) (hk : k = a'.kind.isSome) :
    ∃ s', TimestampBuilder.setter cfg f { s with kind := k } = .ok s' ∧ TimestampRep cfg cap pre fs a' s' := by
  obtain ⟨b', e1, r1⟩ := modify cfg f h.rep hf (by rw [TimestampState.length, TimestampState.length])
  refine ⟨{ s with buffer := b', kind := k }, ?_, ⟨r1, h.fin, hk⟩⟩
  unfold TimestampBuilder.setter
  rw [onBuffer_ok e1]
  rfl



theorem timestamp_step (cfg : Cfg) {cap : Nat} {pre : Bytes} {fs : Finalization} (op : TimestampOp)
    (a : TimestampState) (s : TimestampBuilder B) (h : TimestampRep cfg cap pre fs a s) :
    ∃ s', op.run cfg s = .ok s' ∧ TimestampRep cfg cap pre fs (op.step a) s' := by
  have hlen := a.length 0#16
  cases op with
  | request =>
    refine timestamp_setter cfg true h ?_ rfl
    rw [setIdx_ok (by omega)]
    rfl
  | reply =>
    refine timestamp_setter cfg true h ?_ rfl
    rw [setIdx_ok (by omega)]
    rfl
  | identifier v =>
    refine timestamp_setter cfg s.kind h ?_ h.kind
    rw [writeU16_ok (by omega)]
    rfl
  | sequence v =>
    refine timestamp_setter cfg s.kind h ?_ h.kind
    rw [writeU16_ok (by omega)]
    rfl
  | originate v =>
    refine timestamp_setter cfg s.kind h ?_ h.kind
    rw [writeU32_ok (by omega)]
    rfl
  | receive v =>
    refine timestamp_setter cfg s.kind h ?_ h.kind
    rw [writeU32_ok (by omega)]
    rfl
  | transmit v =>
    refine timestamp_setter cfg s.kind h ?_ h.kind
    rw [writeU32_ok (by omega)]
    rfl

/-- A whole timestamp build on top of what is in the buffer. -/
theorem timestamp_build (cfg : Cfg) {cap : Nat} {b : B} {pre layer : Bytes} (h : Rep cfg cap b pre layer)
    (hn : pre.length + layer.length + 20 ≤ cap) (fs : Finalization) (ops : List TimestampOp) :
    ∃ (a : TimestampState) (ck : U16), a = ops.foldl (fun a op => op.step a) .init ∧
      Icmp.checksumOf cfg (a.msg 0#16) = .ok ck ∧
      (do
        let e ← IcmpBuilder.timestamp cfg (⟨b, fs⟩ : IcmpBuilder B)
        let e ← runOps (TimestampOp.run cfg) ops e
        TimestampBuilder.build cfg e) =
      if a.kind.isSome then finish fs (pre ++ layer ++ a.msg ck) else .err .invalidPacket := by
  obtain ⟨s1, e1, r1⟩ := timestamp_with cfg h hn
  have r1' : TimestampRep cfg cap (pre ++ layer) fs .init { s1 with finalizer := s1.finalizer.extend fs } := by
    refine ⟨r1.rep, ?_, r1.kind⟩
    unfold Finalization.extend
    rw [r1.fin]
    rfl
  obtain ⟨s2, e2, r2⟩ := runOps_sim (run := TimestampOp.run (B := B) cfg) _ TimestampOp.step
    (fun _ _ => True) (fun op a s hr _ => timestamp_step cfg op a s hr) ops _ _ r1' (legalRun_true ops _)
  generalize hu : ops.foldl (fun a op => op.step a) TimestampState.init = a at r2
  have hal := fun ck => a.length ck
  obtain ⟨ck, hck, hf⟩ := icmp_finalizer cfg (pre ++ layer) (a.msg 0#16) (by rw [hal]; omega)
  refine ⟨a, ck, rfl, hck, ?_⟩
  have e3 : IcmpBuilder.timestamp cfg (⟨b, fs⟩ : IcmpBuilder B)
      = .ok { s1 with finalizer := s1.finalizer.extend fs } := by
    unfold IcmpBuilder.timestamp
    simp only []
    rw [e1]
    rfl
  rw [e3]
  simp only [Outcome.ok_bind]
  rw [e2]
  simp only [Outcome.ok_bind]
  unfold TimestampBuilder.build
  rw [r2.kind]
  cases hk : a.kind with
  | none => simp
  | some k =>
    rw [if_neg (by simp), if_pos (by simp)]
    unfold IcmpBuilder.prepare Finalization.add
    rw [buildTail_eq r2.rep, r2.fin, offset r2.rep, length r2.rep, finish_snoc hf]
    rfl

end

end Verif
