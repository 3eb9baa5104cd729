import Verif.Model.Programs
import Verif.Lemmas.BuildTcp
import Verif.Lemmas.BuildIcmp

/-!
# Every builder program, whatever its calls do

For each builder a deterministic abstract semantics (`abs`), including the calls that fail or panic, and the
theorem that the modelled builder on any lawful buffer does exactly that.
-/

set_option linter.unusedSimpArgs false

namespace Verif
open Verif Verif.Spec

/-- Room for `n` bytes in all. -/
def need (cap n : Nat) : Outcome Unit := if n ≤ cap then .ok () else .err .smallBuffer

/-! ## One call -/

def EtherOp.abs : EtherOp → EtherState → Outcome EtherState
  | .payload v, a => if a.payload.isSome then .err .alreadyDefined else .ok (EtherOp.step (.payload v) a)
  | op, a => .ok (op.step a)

def V4Op.abs : V4Op → V4State → Outcome V4State
  | .payload v, a => if a.payload.isSome then .err .alreadyDefined else .ok (V4Op.step (.payload v) a)
  | .dscp v, a => if 63 < v.toNat then .err .invalidValue else .ok (V4Op.step (.dscp v) a)
  | .ecn v, a => if 3 < v.toNat then .err .invalidValue else .ok (V4Op.step (.ecn v) a)
  | op, a => .ok (op.step a)

def UdpOp.abs : UdpOp → UdpState → Outcome UdpState
  | .payload v, a => if a.payload.isSome then .err .alreadyDefined else .ok (UdpOp.step (.payload v) a)
  | op, a => .ok (op.step a)

/-- After `flags()` the header setters no longer find a header. -/
def TcpOp.abs : TcpOp → TcpState → Outcome TcpState
  | .payload v, a => if a.payload.isSome then .err .alreadyDefined else .ok (TcpOp.step (.payload v) a)
  | .source v, a => if a.flags.isSome then .err .io else .ok (TcpOp.step (.source v) a)
  | op, a => if a.flags.isSome then .panic else .ok (op.step a)

def EchoOp.abs : EchoOp → EchoState → Outcome EchoState
  | .payload v, a => if a.payload.isSome then .err .invalidPacket else .ok (EchoOp.step (.payload v) a)
  | op, a => .ok (op.step a)

def TimestampOp.abs (op : TimestampOp) (a : TimestampState) : Outcome TimestampState := .ok (op.step a)
def InformationOp.abs (op : InformationOp) (a : InformationState) : Outcome InformationState :=
  .ok (op.step a)

section
variable (B : Type) [Buffer B] [LawfulBuffer B]
open LawfulBuffer

/-- A payload of `v` behind `n` bytes can be stored. -/
def Room (cap n : Nat) (v : Bytes) : Prop := (Grows B ∨ v = []) ∧ n + v.length ≤ cap

def EtherOp.room (cap n : Nat) : EtherOp → Prop
  | .payload v => Room B cap (n + 14) v
  | _ => True
def V4Op.room (cap n : Nat) : V4Op → Prop
  | .payload v => Room B cap (n + 20) v
  | _ => True
def UdpOp.room (cap n : Nat) : UdpOp → Prop
  | .payload v => Room B cap (n + 8) v
  | _ => True
def TcpOp.room (cap n : Nat) : TcpOp → Prop
  | .payload v => Room B cap (n + 20) v
  | _ => True
def EchoOp.room (cap n : Nat) : EchoOp → Prop
  | .payload v => Room B cap (n + 8) v
  | _ => True
end

section
variable {B : Type} [Buffer B] [LawfulBuffer B]
open LawfulBuffer

theorem ether_abs (cfg : Cfg) {cap : Nat} {pre : Bytes} {fs : Finalization} (op : EtherOp)
    (a : EtherState) (s : EtherBuilder B) (h : EtherRep cfg cap pre fs a s) (hr : op.room B cap pre.length) :
    Sim (EtherRep cfg cap pre fs) (op.run cfg s) (op.abs a) := by
  cases op with
  | payload v =>
    cases hp : a.payload with
    | some w =>
      simp only [EtherOp.abs, hp, Option.isSome_some, Option.isSome_none, if_true, Bool.false_eq_true, if_false]
      show EtherBuilder.setPayload cfg v s = _
      unfold EtherBuilder.setPayload
      rw [if_pos (by rw [h.payload, hp]; rfl)]
    | none =>
      simp only [EtherOp.abs, hp, Option.isSome_some, Option.isSome_none, if_true, Bool.false_eq_true, if_false]
      exact ether_step cfg (.payload v) a s h ⟨hp, hr.1, hr.2⟩
  | _ => exact ether_step cfg _ a s h trivial

theorem v4_abs (cfg : Cfg) {cap : Nat} {pre : Bytes} {fs : Finalization} (op : V4Op)
    (a : V4State) (s : V4Builder B) (h : V4Rep cfg cap pre fs a s) (hr : op.room B cap pre.length) :
    Sim (V4Rep cfg cap pre fs) (op.run cfg s) (op.abs a) := by
  cases op with
  | payload v =>
    cases hp : a.payload with
    | some w =>
      simp only [V4Op.abs, hp, Option.isSome_some, Option.isSome_none, if_true, Bool.false_eq_true, if_false]
      show V4Builder.setPayload cfg v s = _
      unfold V4Builder.setPayload
      rw [if_pos (by rw [h.payload, hp]; rfl)]
    | none =>
      simp only [V4Op.abs, hp, Option.isSome_some, Option.isSome_none, if_true, Bool.false_eq_true, if_false]
      exact v4_step cfg (.payload v) a s h ⟨hp, hr.1, hr.2⟩
  | dscp v =>
    by_cases hv : 63 < v.toNat
    · simp only [V4Op.abs, if_pos hv]
      have hf : V4.setDscp v a.bytes = (.err .invalidValue, a.bytes) := by
        unfold V4.setDscp
        rw [if_pos (by simp [BitVec.lt_def]; omega)]
        rfl
      obtain ⟨b', e1, -⟩ := modify cfg _ h.rep hf rfl
      show V4Builder.setter cfg (V4.setDscp v) s = _
      unfold V4Builder.setter onBuffer
      rw [e1]
      rfl
    · simp only [V4Op.abs, if_neg hv]
      exact v4_step cfg (.dscp v) a s h (by show v.toNat ≤ 63; omega)
  | ecn v =>
    by_cases hv : 3 < v.toNat
    · simp only [V4Op.abs, if_pos hv]
      have hf : V4.setEcn v a.bytes = (.err .invalidValue, a.bytes) := by
        unfold V4.setEcn
        rw [if_pos (by simp [BitVec.lt_def]; omega)]
        rfl
      obtain ⟨b', e1, -⟩ := modify cfg _ h.rep hf rfl
      show V4Builder.setter cfg (V4.setEcn v) s = _
      unfold V4Builder.setter onBuffer
      rw [e1]
      rfl
    · simp only [V4Op.abs, if_neg hv]
      exact v4_step cfg (.ecn v) a s h (by show v.toNat ≤ 3; omega)
  | _ => exact v4_step cfg _ a s h trivial

theorem udp_abs (cfg : Cfg) {cap : Nat} {pre : Bytes} {fs : Finalization} {ip : Nat × Nat} (op : UdpOp)
    (a : UdpState) (s : UdpBuilder B) (h : UdpRep cfg cap pre fs ip a s) (hr : op.room B cap pre.length) :
    Sim (UdpRep cfg cap pre fs ip) (op.run cfg s) (op.abs a) := by
  cases op with
  | payload v =>
    cases hp : a.payload with
    | some w =>
      simp only [UdpOp.abs, hp, Option.isSome_some, Option.isSome_none, if_true, Bool.false_eq_true, if_false]
      show UdpBuilder.setPayload cfg v s = _
      unfold UdpBuilder.setPayload
      rw [if_pos (by rw [h.payload, hp]; rfl)]
    | none =>
      simp only [UdpOp.abs, hp, Option.isSome_some, Option.isSome_none, if_true, Bool.false_eq_true, if_false]
      exact udp_step cfg (.payload v) a s h ⟨hp, hr.1, hr.2⟩
  | _ => exact udp_step cfg _ a s h trivial

theorem echo_abs (cfg : Cfg) {cap : Nat} {pre : Bytes} {fs : Finalization} (op : EchoOp)
    (a : EchoState) (s : EchoBuilder B) (h : EchoRep cfg cap pre fs a s) (hr : op.room B cap pre.length) :
    Sim (EchoRep cfg cap pre fs) (op.run cfg s) (op.abs a) := by
  cases op with
  | payload v =>
    cases hp : a.payload with
    | some w =>
      simp only [EchoOp.abs, hp, Option.isSome_some, Option.isSome_none, if_true, Bool.false_eq_true, if_false]
      show EchoBuilder.setPayload cfg v s = _
      unfold EchoBuilder.setPayload
      rw [if_pos (by rw [h.payload, hp]; rfl)]
    | none =>
      simp only [EchoOp.abs, hp, Option.isSome_some, Option.isSome_none, if_true, Bool.false_eq_true, if_false]
      exact echo_step cfg (.payload v) a s h ⟨hp, hr.1, hr.2⟩
  | _ => exact echo_step cfg _ a s h trivial

/-- After `flags()` the header of the segment being built is empty. -/
theorem TcpState.split_flagged {a : TcpState} {v : TcpFlags} (h : a.flags = some v) :
    Tcp.split a.bytes = .ok ([], a.bytes) := by
  have hl := a.length
  have ho := tcpHeader_offset a.fields a.word 0#16 (a.payload.getD [])
  have hw : a.word = v.bits := by unfold TcpState.word; rw [h]
  have hv := v.lt
  rw [hw, Nat.div_eq_of_lt (by omega)] at ho
  unfold Tcp.split
  have h0 : field a.bytes 96 4 = 0 := by rw [← ho, ← hw]; rfl
  rw [Tcp.offset_field (by omega), h0]
  simp only [Outcome.ok_bind]
  show splitAt a.bytes 0 = _
  rw [splitAt_ok (by omega)]
  rfl

theorem tcp_abs (cfg : Cfg) {cap : Nat} {pre : Bytes} {fs : Finalization} {ip : Nat × Nat} (op : TcpOp)
    (a : TcpState) (s : TcpBuilder B) (h : TcpRep cfg cap pre fs ip a s) (hr : op.room B cap pre.length) :
    Sim (TcpRep cfg cap pre fs ip) (op.run cfg s) (op.abs a) := by
  have hset : ∀ {f : Mut Bytes Unit} {r : Outcome Unit}, (∀ u, r ≠ .ok u) → f a.bytes = (r, a.bytes) →
      TcpBuilder.setter cfg f s = (r >>= fun _ => .ok s) := by
    intro f r hr hf
    obtain ⟨b', e1, -⟩ := modify cfg f h.rep hf rfl
    unfold TcpBuilder.setter onBuffer
    rw [e1]
    cases r with
    | ok u => exact (hr u rfl).elim
    | err e => rfl
    | panic => rfl
  cases hfl : a.flags with
  | none =>
    cases op with
    | payload v =>
      cases hp : a.payload with
      | some w =>
        simp only [TcpOp.abs, hp, Option.isSome_some, Option.isSome_none, if_true, Bool.false_eq_true, if_false]
        show TcpBuilder.setPayload cfg v s = _
        unfold TcpBuilder.setPayload
        rw [if_pos (by rw [h.payload, hp]; rfl)]
      | none =>
        simp only [TcpOp.abs, hp, Option.isSome_some, Option.isSome_none, if_true, Bool.false_eq_true, if_false]
        exact tcp_step cfg (.payload v) a s h ⟨hp, hr.1, hr.2⟩
    | _ =>
      simp only [TcpOp.abs, hfl, Option.isSome_some, Option.isSome_none, if_true, Bool.false_eq_true, if_false]
      exact tcp_step cfg _ a s h hfl
  | some v =>
    have hs := TcpState.split_flagged hfl
    have on : ∀ g : Mut Bytes Unit, onHeader Tcp.split g a.bytes = ((g []).1, (g []).2 ++ a.bytes.drop 0) := by
      intro g
      unfold onHeader
      rw [hs]
      rfl
    cases op with
    | payload v =>
      cases hp : a.payload with
      | some w =>
        simp only [TcpOp.abs, hp, Option.isSome_some, Option.isSome_none, if_true, Bool.false_eq_true, if_false]
        show TcpBuilder.setPayload cfg v s = _
        unfold TcpBuilder.setPayload
        rw [if_pos (by rw [h.payload, hp]; rfl)]
      | none =>
        simp only [TcpOp.abs, hp, Option.isSome_some, Option.isSome_none, if_true, Bool.false_eq_true, if_false]
        exact tcp_step cfg (.payload v) a s h ⟨hp, hr.1, hr.2⟩
    | source w =>
      simp only [TcpOp.abs, hfl, Option.isSome_some, Option.isSome_none, if_true, Bool.false_eq_true, if_false]
      exact hset (r := .err .io) (fun _ h => by cases h) (by unfold Tcp.setSource; rw [on]; rfl)
    | destination w =>
      simp only [TcpOp.abs, hfl, Option.isSome_some, Option.isSome_none, if_true, Bool.false_eq_true, if_false]
      exact hset (r := .panic) (fun _ h => by cases h) (by unfold Tcp.setDestination; rw [on]; rfl)
    | sequence w =>
      simp only [TcpOp.abs, hfl, Option.isSome_some, Option.isSome_none, if_true, Bool.false_eq_true, if_false]
      exact hset (r := .panic) (fun _ h => by cases h) (by unfold Tcp.setSequence; rw [on]; rfl)
    | acknowledgment w =>
      simp only [TcpOp.abs, hfl, Option.isSome_some, Option.isSome_none, if_true, Bool.false_eq_true, if_false]
      exact hset (r := .panic) (fun _ h => by cases h) (by unfold Tcp.setAcknowledgment; rw [on]; rfl)
    | window w =>
      simp only [TcpOp.abs, hfl, Option.isSome_some, Option.isSome_none, if_true, Bool.false_eq_true, if_false]
      exact hset (r := .panic) (fun _ h => by cases h) (by unfold Tcp.setWindow; rw [on]; rfl)
    | pointer w =>
      simp only [TcpOp.abs, hfl, Option.isSome_some, Option.isSome_none, if_true, Bool.false_eq_true, if_false]
      exact hset (r := .panic) (fun _ h => by cases h) (by unfold Tcp.setPointer; rw [on]; rfl)
    | flags w =>
      simp only [TcpOp.abs, hfl, Option.isSome_some, Option.isSome_none, if_true, Bool.false_eq_true, if_false]
      refine hset (r := .panic) (fun _ h => by cases h) ?_
      unfold Tcp.setFlags
      have : Mut.read (fun b => do
          let h ← Tcp.header b
          idx h 12) a.bytes = (.panic, a.bytes) := by
        refine Mut.read_of ?_
        unfold Tcp.header
        rw [hs]
        rfl
      rw [Mut.bind_apply, this]

end

end Verif
