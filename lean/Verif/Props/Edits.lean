import Verif.Model.Edits
import Verif.Props.BuildersView
import Verif.Props.Icmp
import Verif.Samples

/-!
# C86, C87: editing a packet under construction through `as_packet_mut()`

The specification: the builder call with the same effect as a setter (`call`), and programs in which every
edit is replaced by that call (`calls`).
-/

namespace Verif
open Verif Verif.Spec

/-! ## Specification: the builder call that corresponds to a setter -/

def Ether.Set.call : Ether.Set → EtherOp
  | .destination v => .destination v
  | .source v => .source v
  | .protocol v => .protocol v
def V4.Set.call : V4.Set → V4Op
  | .dscp v => .dscp v
  | .ecn v => .ecn v
  | .id v => .id v
  | .flags v => .flags v
  | .offset v => .offset v
  | .ttl v => .ttl v
  | .source v => .source v
  | .destination v => .destination v
  | .protocol v => .protocol v
def Udp.Set.call : Udp.Set → UdpOp
  | .source v => .source v
  | .destination v => .destination v
def Tcp.Set.call : Tcp.Set → TcpOp
  | .source v => .source v
  | .destination v => .destination v
  | .sequence v => .sequence v
  | .acknowledgment v => .acknowledgment v
  | .flags v => .flags v
  | .window v => .window v
  | .pointer v => .pointer v
def Echo.Set.call : Echo.Set → EchoOp
  | .request => .request
  | .reply => .reply
  | .identifier v => .identifier v
  | .sequence v => .sequence v
def Timestamp.Set.call : Timestamp.Set → TimestampOp
  | .request => .request
  | .reply => .reply
  | .identifier v => .identifier v
  | .sequence v => .sequence v
  | .originate v => .originate v
  | .receive v => .receive v
  | .transmit v => .transmit v
def Information.Set.call : Information.Set → InformationOp
  | .request => .request
  | .reply => .reply
  | .identifier v => .identifier v
  | .sequence v => .sequence v

/-- The call made by a step, or the one that corresponds to its edit. -/
def Step.calls {Op Edit : Type} (call : Edit → Op) : Step Op Edit → Op
  | .call op => op
  | .edit e => call e

/-- The same program with builder calls only. -/
def IcmpSteps.calls : IcmpSteps → IcmpInner
  | .none => .none
  | .echo steps => .echo (steps.map (Step.calls Echo.Set.call))
  | .timestamp steps => .timestamp (steps.map (Step.calls Timestamp.Set.call))
  | .information steps => .information (steps.map (Step.calls Information.Set.call))
/-- The same program with builder calls only. -/
def InnerSteps.calls : InnerSteps → Inner
  | .plain => .plain
  | .udp steps => .udp (steps.map (Step.calls Udp.Set.call))
  | .tcp steps => .tcp (steps.map (Step.calls Tcp.Set.call))
  | .icmp inner => .icmp inner.calls

/-- An edit that does not change the kind of the message. -/
def Echo.Set.Field (e : Echo.Set) : Prop := e ≠ .request ∧ e ≠ .reply
def Timestamp.Set.Field (e : Timestamp.Set) : Prop := e ≠ .request ∧ e ≠ .reply
def Information.Set.Field (e : Information.Set) : Prop := e ≠ .request ∧ e ≠ .reply

/-- The kind of the message is never edited, and on timestamp and information messages `request()` or
`reply()` is called before the first edit. -/
def IcmpSteps.Fields : IcmpSteps → Prop
  | .none => True
  | .echo steps => ∀ e, .edit e ∈ steps → e.Field
  | .timestamp steps => ∀ pre e post, steps = pre ++ .edit e :: post →
      e.Field ∧ (.call .request ∈ pre ∨ .call .reply ∈ pre)
  | .information steps => ∀ pre e post, steps = pre ++ .edit e :: post →
      e.Field ∧ (.call .request ∈ pre ∨ .call .reply ∈ pre)
def InnerSteps.Fields : InnerSteps → Prop
  | .icmp inner => inner.Fields
  | _ => True

/-! ## Generic lemmas -/

theorem Sim.bind_congr {A σ β : Type} {R : A → σ → Prop} {o : Outcome σ} {p : Outcome A} (h : Sim R o p)
    {f g : σ → Outcome β} (hfg : ∀ a s, R a s → f s = g s) : (o >>= f) = (o >>= g) := by
  cases p with
  | ok a => obtain ⟨s, e, r⟩ := h; rw [e]; exact hfg a s r
  | err e => have h : o = .err e := h; rw [h]; rfl
  | panic => have h : o = .panic := h; rw [h]; rfl

/-- Edits can be replaced by calls one after the other. -/
theorem steps_eq {A σ Op Edit : Type} {R : A → σ → Prop} {run : Op → σ → Outcome σ}
    {abs : Op → A → Outcome A} {edit : Edit → σ → Outcome σ} {call : Edit → Op} (room : Op → Prop)
    (hstep : ∀ op a s, R a s → room op → Sim R (run op s) (abs op a)) (ok : Edit → Prop)
    (hedit : ∀ e a s, R a s → ok e → edit e s = run (call e) s) :
    ∀ (steps : List (Step Op Edit)) (a : A) (s : σ), R a s → (∀ op ∈ steps.map (Step.calls call), room op) →
      (∀ e, .edit e ∈ steps → ok e) →
      runOps (Step.run run edit) steps s = runOps run (steps.map (Step.calls call)) s := by
  intro steps
  induction steps with
  | nil => intros; rfl
  | cons st rest ih =>
    intro a s hr hroom hok
    have e1 : Step.run run edit st s = run (st.calls call) s := by
      cases st with
      | call op => rfl
      | edit e => exact hedit e a s hr (hok e (by simp))
    show (Step.run run edit st s >>= runOps (Step.run run edit) rest) =
      (run (st.calls call) s >>= runOps run (rest.map (Step.calls call)))
    rw [e1]
    exact (hstep _ a s hr (hroom _ (by simp))).bind_congr fun a' s' hr' =>
      ih a' s' hr' (fun op h => hroom op (by simp only [List.map_cons, List.mem_cons]; exact .inr h))
        (fun e h => hok e (List.mem_cons_of_mem _ h))

theorem editing_ok {new : Bytes → Outcome Bytes} {d : Bytes} (h : new d = .ok d) (f : Mut Bytes Unit) :
    editing new f d = f d := by
  unfold editing; rw [h]

section
variable {B : Type} [Buffer B] [LawfulBuffer B]
open LawfulBuffer

theorem onBuffer_editing (cfg : Cfg) {cap : Nat} {b : B} {pre layer : Bytes} (h : Rep cfg cap b pre layer)
    {new : Bytes → Outcome Bytes} (hn : new layer = .ok layer) (f : Mut Bytes Unit) :
    onBuffer (Buffer.modifyData cfg (editing new f)) b = onBuffer (Buffer.modifyData cfg f) b := by
  unfold onBuffer
  rw [modify_congr cfg _ f (data cfg h) (editing_ok hn f)]

/-! ## Every edit is a call -/

theorem ether_edit (cfg : Cfg) {cap : Nat} {pre : Bytes} {fs : Finalization} (e : Ether.Set)
    (a : EtherState) (s : EtherBuilder B) (h : EtherRep cfg cap pre fs a s) :
    EtherBuilder.edit cfg e s = e.call.run cfg s := by
  have hn : Ether.new a.bytes = .ok a.bytes := (ether_view a.dst a.src a.type (a.payload.getD [])).1
  have : EtherBuilder.edit cfg e s = EtherBuilder.setter cfg e.run s := by
    unfold EtherBuilder.edit EtherBuilder.setter
    rw [onBuffer_editing cfg h.rep hn]
  rw [this]
  cases e <;> rfl

theorem v4_edit (cfg : Cfg) {cap : Nat} {pre : Bytes} {fs : Finalization} (e : V4.Set)
    (a : V4State) (s : V4Builder B) (h : V4Rep cfg cap pre fs a s) :
    V4Builder.edit cfg e s = e.call.run cfg s := by
  have hn : V4.new a.bytes = .ok a.bytes := v4_accepted h.ok 0#16 0#16 _ (by simp)
  have : V4Builder.edit cfg e s = V4Builder.setter cfg e.run s := by
    unfold V4Builder.edit V4Builder.setter
    rw [onBuffer_editing cfg h.rep hn]
  rw [this]
  cases e <;> rfl

theorem udp_edit (cfg : Cfg) {cap : Nat} {pre : Bytes} {fs : Finalization} {ip : Nat × Nat} (e : Udp.Set)
    (a : UdpState) (s : UdpBuilder B) (h : UdpRep cfg cap pre fs ip a s) :
    UdpBuilder.edit cfg e s = e.call.run cfg s := by
  have hn : Udp.new a.bytes = .ok a.bytes := (udp_view a.sport a.dport 0#16 0#16 (a.payload.getD [])).2.2.2.2.1 (by simp)
  have : UdpBuilder.edit cfg e s = UdpBuilder.setter cfg e.run s := by
    unfold UdpBuilder.edit UdpBuilder.setter
    rw [onBuffer_editing cfg h.rep hn]
  rw [this]
  cases e <;> rfl

theorem TcpState.accepted (a : TcpState) : Tcp.new a.bytes = .ok a.bytes := by
  have hl := a.length
  have ho := tcpHeader_offset a.fields a.word 0#16 (a.payload.getD [])
  have hw : a.word.toNat / 4096 ≤ 5 := by
    unfold TcpState.word
    cases a.flags with
    | none => decide
    | some v => have := v.lt; simp only []; omega
  exact Tcp.new_ok_iff.2 ⟨rfl, by omega, by unfold TcpState.bytes at *; rw [ho]; omega⟩

theorem tcp_edit (cfg : Cfg) {cap : Nat} {pre : Bytes} {fs : Finalization} {ip : Nat × Nat} (e : Tcp.Set)
    (a : TcpState) (s : TcpBuilder B) (h : TcpRep cfg cap pre fs ip a s) :
    TcpBuilder.edit cfg e s = e.call.run cfg s := by
  have : TcpBuilder.edit cfg e s = TcpBuilder.setter cfg e.run s := by
    unfold TcpBuilder.edit TcpBuilder.setter
    rw [onBuffer_editing cfg h.rep a.accepted]
  rw [this]
  cases e <;> rfl

/-- A kind a builder of this sort can have set. -/
def KindOk (kind : Option U8) (ks : List U8) : Prop := ∀ k, kind = some k → k ∈ ks

theorem field_head (x : U8) (xs : Bytes) : field (x :: xs) 0 8 = x.toNat := by
  have := field_byte (x :: xs) 0
  rw [show 8 * 0 = 0 from rfl] at this
  rw [this]
  rfl

theorem echo_edit (cfg : Cfg) {cap : Nat} {pre : Bytes} {fs : Finalization} (e : Echo.Set)
    (a : EchoState) (s : EchoBuilder B) (h : EchoRep cfg cap pre fs a s) (hk : KindOk a.kind [8#8, 0#8])
    (he : e.Field) : EchoBuilder.edit cfg e s = e.call.run cfg s := by
  have hl : (a.msg 0#16).length = 8 + (a.payload.getD []).length := a.length 0#16
  have hn : Echo.new (a.msg 0#16) = .ok (a.msg 0#16) := by
    rw [(Props.C35_icmp_typed_accept (a.msg 0#16)).1, if_neg (by omega)]
    have : a.msg 0#16 = (a.kind.getD 0) :: (a.msg 0#16).drop 1 := rfl
    rw [this, field_head, if_pos ?_]
    cases hh : a.kind with
    | none => decide
    | some k =>
      have := hk k hh
      simp only [List.mem_cons, List.not_mem_nil, or_false] at this
      rcases this with rfl | rfl <;> decide
  have : EchoBuilder.edit cfg e s = EchoBuilder.setter cfg e.run s := by
    unfold EchoBuilder.edit EchoBuilder.setter
    rw [onBuffer_editing cfg h.rep hn]
  rw [this]
  cases e with
  | request => exact (he.1 rfl).elim
  | reply => exact (he.2 rfl).elim
  | _ => rfl

theorem timestamp_edit (cfg : Cfg) {cap : Nat} {pre : Bytes} {fs : Finalization} (e : Timestamp.Set)
    (a : TimestampState) (s : TimestampBuilder B) (h : TimestampRep cfg cap pre fs a s)
    (hk : KindOk a.kind [13#8, 14#8]) (hs : a.kind.isSome)
    (he : e.Field) : TimestampBuilder.edit cfg e s = e.call.run cfg s := by
  have hl : (a.msg 0#16).length = 20 := a.length 0#16
  have hn : Timestamp.new (a.msg 0#16) = .ok (a.msg 0#16) := by
    rw [(Props.C35_icmp_typed_accept (a.msg 0#16)).2.1, if_neg (by omega)]
    have : a.msg 0#16 = (a.kind.getD 0) :: (a.msg 0#16).drop 1 := rfl
    rw [this, field_head, if_pos ?_]
    cases hh : a.kind with
    | none => rw [hh] at hs; cases hs
    | some k =>
      have := hk k hh
      simp only [List.mem_cons, List.not_mem_nil, or_false] at this
      rcases this with rfl | rfl <;> decide
  have : TimestampBuilder.edit cfg e s = TimestampBuilder.setter cfg e.run s := by
    unfold TimestampBuilder.edit TimestampBuilder.setter
    rw [onBuffer_editing cfg h.rep hn]
  rw [this]
  cases e with
  | request => exact (he.1 rfl).elim
  | reply => exact (he.2 rfl).elim
  | _ => rfl

theorem information_edit (cfg : Cfg) {cap : Nat} {pre : Bytes} {fs : Finalization} (e : Information.Set)
    (a : InformationState) (s : InformationBuilder B) (h : InformationRep cfg cap pre fs a s)
    (hk : KindOk a.kind [15#8, 16#8]) (hs : a.kind.isSome)
    (he : e.Field) : InformationBuilder.edit cfg e s = e.call.run cfg s := by
  have hl : (a.msg 0#16).length = 8 := a.length 0#16
  have hn : Information.new (a.msg 0#16) = .ok (a.msg 0#16) := by
    rw [(Props.C35_icmp_typed_accept (a.msg 0#16)).2.2.1, if_neg (by omega)]
    have : a.msg 0#16 = (a.kind.getD 0) :: (a.msg 0#16).drop 1 := rfl
    rw [this, field_head, if_pos ?_]
    cases hh : a.kind with
    | none => rw [hh] at hs; cases hs
    | some k =>
      have := hk k hh
      simp only [List.mem_cons, List.not_mem_nil, or_false] at this
      rcases this with rfl | rfl <;> decide
  have : InformationBuilder.edit cfg e s = InformationBuilder.setter cfg e.run s := by
    unfold InformationBuilder.edit InformationBuilder.setter
    rw [onBuffer_editing cfg h.rep hn]
  rw [this]
  cases e with
  | request => exact (he.1 rfl).elim
  | reply => exact (he.2 rfl).elim
  | _ => rfl

theorem Sim.and {A σ : Type} {R : A → σ → Prop} {o : Outcome σ} {p : Outcome A} (h : Sim R o p)
    {Q : A → Prop} (hq : ∀ a, p = .ok a → Q a) : Sim (fun a s => R a s ∧ Q a) o p := by
  cases p with
  | ok a => obtain ⟨s, e, r⟩ := h; exact ⟨s, e, r, hq a rfl⟩
  | err e => exact h
  | panic => exact h

theorem echo_kind {op : EchoOp} {a a' : EchoState} (h : op.abs a = .ok a')
    (hk : KindOk a.kind [8#8, 0#8]) : KindOk a'.kind [8#8, 0#8] := by
  cases op with
  | payload v =>
    simp only [EchoOp.abs] at h
    split at h
    · cases h
    · injection h with h; subst h; exact hk
  | request => injection h with h; subst h; intro k e; injection e with e; subst e; decide
  | reply => injection h with h; subst h; intro k e; injection e with e; subst e; decide
  | _ => injection h with h; subst h; exact hk

theorem timestamp_kind (op : TimestampOp) (a : TimestampState)
    (hk : KindOk a.kind [13#8, 14#8]) : KindOk (op.step a).kind [13#8, 14#8] := by
  cases op with
  | request => intro k e; injection e with e; subst e; decide
  | reply => intro k e; injection e with e; subst e; decide
  | _ => exact hk

theorem information_kind (op : InformationOp) (a : InformationState)
    (hk : KindOk a.kind [15#8, 16#8]) : KindOk (op.step a).kind [15#8, 16#8] := by
  cases op with
  | request => intro k e; injection e with e; subst e; decide
  | reply => intro k e; injection e with e; subst e; decide
  | _ => exact hk

theorem timestamp_steps (cfg : Cfg) {cap : Nat} {pre : Bytes} {fs : Finalization} :
    ∀ (steps : List (Step TimestampOp Timestamp.Set)) (a : TimestampState) (s : TimestampBuilder B),
      TimestampRep cfg cap pre fs a s → KindOk a.kind [13#8, 14#8] →
      (∀ pre e post, steps = pre ++ .edit e :: post →
        e.Field ∧ (a.kind.isSome ∨ .call .request ∈ pre ∨ .call .reply ∈ pre)) →
      runOps (Step.run (TimestampOp.run cfg) (TimestampBuilder.edit cfg)) steps s =
        runOps (TimestampOp.run cfg) (steps.map (Step.calls Timestamp.Set.call)) s := by
  intro steps
  induction steps with
  | nil => intros; rfl
  | cons st rest ih =>
    intro a s hr hk hf
    have e1 : Step.run (TimestampOp.run cfg) (TimestampBuilder.edit cfg) st s =
        (st.calls Timestamp.Set.call).run cfg s := by
      cases st with
      | call op => rfl
      | edit e =>
        have := hf [] e rest rfl
        refine timestamp_edit cfg e a s hr hk ?_ this.1
        rcases this.2 with h | h | h
        · exact h
        · cases h
        · cases h
    show (Step.run _ _ st s >>= runOps (Step.run _ _) rest) =
      ((st.calls Timestamp.Set.call).run cfg s >>= runOps _ (rest.map (Step.calls Timestamp.Set.call)))
    rw [e1]
    obtain ⟨s', e2, r'⟩ := timestamp_step cfg (st.calls Timestamp.Set.call) a s hr
    rw [e2]
    refine ih _ s' r' (timestamp_kind _ a hk) fun p e post hp => ?_
    have h := hf (st :: p) e post (by rw [hp]; rfl)
    refine ⟨h.1, ?_⟩
    rcases h.2 with h | h | h
    · refine .inl ?_
      generalize st.calls Timestamp.Set.call = op
      cases op <;> first | rfl | exact h
    · rcases List.mem_cons.1 h with h | h
      · subst h; exact .inl rfl
      · exact .inr (.inl h)
    · rcases List.mem_cons.1 h with h | h
      · subst h; exact .inl rfl
      · exact .inr (.inr h)

theorem information_steps (cfg : Cfg) {cap : Nat} {pre : Bytes} {fs : Finalization} :
    ∀ (steps : List (Step InformationOp Information.Set)) (a : InformationState) (s : InformationBuilder B),
      InformationRep cfg cap pre fs a s → KindOk a.kind [15#8, 16#8] →
      (∀ pre e post, steps = pre ++ .edit e :: post →
        e.Field ∧ (a.kind.isSome ∨ .call .request ∈ pre ∨ .call .reply ∈ pre)) →
      runOps (Step.run (InformationOp.run cfg) (InformationBuilder.edit cfg)) steps s =
        runOps (InformationOp.run cfg) (steps.map (Step.calls Information.Set.call)) s := by
  intro steps
  induction steps with
  | nil => intros; rfl
  | cons st rest ih =>
    intro a s hr hk hf
    have e1 : Step.run (InformationOp.run cfg) (InformationBuilder.edit cfg) st s =
        (st.calls Information.Set.call).run cfg s := by
      cases st with
      | call op => rfl
      | edit e =>
        have := hf [] e rest rfl
        refine information_edit cfg e a s hr hk ?_ this.1
        rcases this.2 with h | h | h
        · exact h
        · cases h
        · cases h
    show (Step.run _ _ st s >>= runOps (Step.run _ _) rest) =
      ((st.calls Information.Set.call).run cfg s >>= runOps _ (rest.map (Step.calls Information.Set.call)))
    rw [e1]
    obtain ⟨s', e2, r'⟩ := information_step cfg (st.calls Information.Set.call) a s hr
    rw [e2]
    refine ih _ s' r' (information_kind _ a hk) fun p e post hp => ?_
    have h := hf (st :: p) e post (by rw [hp]; rfl)
    refine ⟨h.1, ?_⟩
    rcases h.2 with h | h | h
    · refine .inl ?_
      generalize st.calls Information.Set.call = op
      cases op <;> first | rfl | exact h
    · rcases List.mem_cons.1 h with h | h
      · subst h; exact .inl rfl
      · exact .inr (.inl h)
    · rcases List.mem_cons.1 h with h | h
      · subst h; exact .inl rfl
      · exact .inr (.inr h)

/-! ## Whole programs -/

theorem icmp_edits (cfg : Cfg) {cap : Nat} {b : B} {pre layer : Bytes} (h : Rep cfg cap b pre layer)
    (fs : Finalization) (inner : IcmpSteps) (hr : inner.calls.room B cap (pre.length + layer.length))
    (hf : inner.Fields) :
    inner.build cfg (⟨b, fs⟩ : IcmpBuilder B) = inner.calls.build cfg (⟨b, fs⟩ : IcmpBuilder B) := by
  cases inner with
  | none => rfl
  | echo steps =>
    have h1 := ((echo_with_total cfg h hr.1).map (Q := EchoRep cfg cap (pre ++ layer) fs)
      (fun s => { s with finalizer := s.finalizer.extend fs })
      (fun a s r => ⟨r.rep, by simp [Finalization.extend, r.fin], r.kind, r.payload⟩)).and
        (Q := fun a => KindOk a.kind [8#8, 0#8]) (by
          intro a ha k hk
          unfold need at ha
          split at ha
          · injection ha with ha; subst ha; cases hk
          · cases ha)
    refine h1.bind_congr (f := fun e => runOps _ steps e >>= EchoBuilder.build cfg)
      (g := fun e => runOps _ _ e >>= EchoBuilder.build cfg) fun a s r => ?_
    have := steps_eq (R := fun a s => EchoRep cfg cap (pre ++ layer) fs a s ∧ KindOk a.kind [8#8, 0#8])
      (run := EchoOp.run cfg) (abs := EchoOp.abs) (edit := EchoBuilder.edit cfg) (call := Echo.Set.call)
      (fun op => op.room B cap (pre ++ layer).length)
      (fun op a s hr hl => (echo_abs cfg op a s hr.1 hl).and fun a' ha => echo_kind ha hr.2)
      (fun e => e.Field) (fun e a s hr he => echo_edit cfg e a s hr.1 hr.2 he) steps a s r
      (by rw [List.length_append]; exact hr.2) hf
    rw [this]
  | timestamp steps =>
    have h1 := ((timestamp_with_total cfg h hr).map (Q := TimestampRep cfg cap (pre ++ layer) fs)
      (fun s => { s with finalizer := s.finalizer.extend fs })
      (fun a s r => ⟨r.rep, by simp [Finalization.extend, r.fin], r.kind⟩)).and
        (Q := fun a => KindOk a.kind [13#8, 14#8]) (by
          intro a ha k hk
          unfold need at ha
          split at ha
          · injection ha with ha; subst ha; cases hk
          · cases ha)
    refine h1.bind_congr (f := fun e => runOps _ steps e >>= TimestampBuilder.build cfg)
      (g := fun e => runOps _ _ e >>= TimestampBuilder.build cfg) fun a s r => ?_
    rw [timestamp_steps cfg steps a s r.1 r.2 fun p e post hp => ⟨(hf p e post hp).1, .inr (hf p e post hp).2⟩]
  | information steps =>
    have h1 := ((information_with_total cfg h hr).map (Q := InformationRep cfg cap (pre ++ layer) fs)
      (fun s => { s with finalizer := s.finalizer.extend fs })
      (fun a s r => ⟨r.rep, by simp [Finalization.extend, r.fin], r.kind⟩)).and
        (Q := fun a => KindOk a.kind [15#8, 16#8]) (by
          intro a ha k hk
          unfold need at ha
          split at ha
          · injection ha with ha; subst ha; cases hk
          · cases ha)
    refine h1.bind_congr (f := fun e => runOps _ steps e >>= InformationBuilder.build cfg)
      (g := fun e => runOps _ _ e >>= InformationBuilder.build cfg) fun a s r => ?_
    rw [information_steps cfg steps a s r.1 r.2 fun p e post hp => ⟨(hf p e post hp).1, .inr (hf p e post hp).2⟩]

theorem inner_edits (cfg : Cfg) {cap : Nat} {pre : Bytes} {fs : Finalization} {a : V4State}
    {s : V4Builder B} (h : V4Rep cfg cap pre fs a s) (inner : InnerSteps) (hr : inner.calls.room B cap pre.length)
    (hf : inner.Fields) : inner.build cfg s = inner.calls.build cfg s := by
  cases inner with
  | plain => rfl
  | udp steps =>
    by_cases hp : a.payload.isSome
    · simp only [Inner.build, InnerSteps.build, InnerSteps.calls, V4Builder.udp, enter_defined cfg _ h hp]
      rfl
    · have hp' : a.payload = none := by simpa using hp
      obtain ⟨s1, e1, r1⟩ := v4_enter cfg .udp a s h hp'
      have hl : (V4Op.step (.protocol .udp) a).bytes.length = 20 := by
        rw [V4State.length r1.ok]
        show 20 + (a.payload.getD []).length = 20
        rw [hp']; rfl
      have h0 := udp_with_total cfg r1.rep (by rw [hl]; exact hr.1)
      have h1 := h0.map (Q := UdpRep cfg cap (pre ++ (V4Op.step (.protocol .udp) a).bytes)
          (fs ++ [V4Builder.finalizerOf cfg pre.length 20]) (pre.length, (V4Op.step (.protocol .udp) a).bytes.length))
        (fun u => { u with finalizer := u.finalizer.extend s1.finalizer })
        (fun u s r => ⟨r.rep, by simp [Finalization.extend, r.fin, r1.fin], r.ip, r.payload⟩)
      have hu : V4Builder.udp cfg s = (UdpBuilder.«with» cfg s1.buffer >>= fun u =>
          .ok { u with finalizer := u.finalizer.extend s1.finalizer }) := by
        simp only [V4Builder.udp, e1, Outcome.ok_bind]
      show (V4Builder.udp cfg s >>= fun u => runOps _ steps u >>= UdpBuilder.build cfg) =
        (V4Builder.udp cfg s >>= fun u => runOps _ _ u >>= UdpBuilder.build cfg)
      rw [hu]
      refine h1.bind_congr fun u s r => ?_
      rw [steps_eq (fun op => op.room B cap (pre ++ (V4Op.step (.protocol .udp) a).bytes).length)
        (fun op a s hr hl => udp_abs cfg op a s hr hl) (fun _ => True)
        (fun e a s hr _ => udp_edit cfg e a s hr) steps u s r
        (by rw [List.length_append, hl]; exact hr.2) (fun _ _ => trivial)]
  | tcp steps =>
    by_cases hp : a.payload.isSome
    · simp only [Inner.build, InnerSteps.build, InnerSteps.calls, V4Builder.tcp, enter_defined cfg _ h hp]
      rfl
    · have hp' : a.payload = none := by simpa using hp
      obtain ⟨s1, e1, r1⟩ := v4_enter cfg .tcp a s h hp'
      have hl : (V4Op.step (.protocol .tcp) a).bytes.length = 20 := by
        rw [V4State.length r1.ok]
        show 20 + (a.payload.getD []).length = 20
        rw [hp']; rfl
      have h0 := tcp_with_total cfg r1.rep (by rw [hl]; exact hr.1)
      have h1 := h0.map (Q := TcpRep cfg cap (pre ++ (V4Op.step (.protocol .tcp) a).bytes)
          (fs ++ [V4Builder.finalizerOf cfg pre.length 20]) (pre.length, (V4Op.step (.protocol .tcp) a).bytes.length))
        (fun u => { u with finalizer := u.finalizer.extend s1.finalizer })
        (fun u s r => ⟨r.rep, by simp [Finalization.extend, r.fin, r1.fin], r.ip, r.payload, r.payloadLength⟩)
      have hu : V4Builder.tcp cfg s = (TcpBuilder.«with» cfg s1.buffer >>= fun u =>
          .ok { u with finalizer := u.finalizer.extend s1.finalizer }) := by
        simp only [V4Builder.tcp, e1, Outcome.ok_bind]
      show (V4Builder.tcp cfg s >>= fun u => runOps _ steps u >>= TcpBuilder.build cfg) =
        (V4Builder.tcp cfg s >>= fun u => runOps _ _ u >>= TcpBuilder.build cfg)
      rw [hu]
      refine h1.bind_congr fun u s r => ?_
      rw [steps_eq (fun op => op.room B cap (pre ++ (V4Op.step (.protocol .tcp) a).bytes).length)
        (fun op a s hr hl => tcp_abs cfg op a s hr hl) (fun _ => True)
        (fun e a s hr _ => tcp_edit cfg e a s hr) steps u s r
        (by rw [List.length_append, hl]; exact hr.2) (fun _ _ => trivial)]
  | icmp inner =>
    by_cases hp : a.payload.isSome
    · simp only [Inner.build, InnerSteps.build, InnerSteps.calls, V4Builder.icmp, enter_defined cfg _ h hp]
      rfl
    · have hp' : a.payload = none := by simpa using hp
      obtain ⟨hok, b', e1, hrep⟩ := v4_icmp_enter cfg h hp'
      have hl := hok.length 0#16 0#16
      simp only [Inner.build, InnerSteps.build, InnerSteps.calls, e1, Outcome.ok_bind]
      exact icmp_edits cfg hrep _ inner (by rw [hl]; exact hr) hf

theorem v4_edits (cfg : Cfg) {cap : Nat} {pre : Bytes} {fs : Finalization} {a : V4State}
    {s : V4Builder B} (h : V4Rep cfg cap pre fs a s) (vsteps : List (Step V4Op V4.Set)) (inner : InnerSteps)
    (hv : ∀ op ∈ vsteps.map (Step.calls V4.Set.call), op.room B cap pre.length)
    (hr : inner.calls.room B cap pre.length) (hf : inner.Fields) :
    (runOps (Step.run (V4Op.run cfg) (V4Builder.edit cfg)) vsteps s >>= fun v => inner.build cfg v) =
      (runOps (V4Op.run cfg) (vsteps.map (Step.calls V4.Set.call)) s >>= fun v => inner.calls.build cfg v) := by
  rw [steps_eq (fun op => op.room B cap pre.length) (fun op a s hr hl => v4_abs cfg op a s hr hl)
    (fun _ => True) (fun e a s hr _ => v4_edit cfg e a s hr) vsteps a s h hv (fun _ _ => trivial)]
  have h2 := runOps_abs _ (fun op : V4Op => op.room B cap pre.length)
    (fun op a s hr hl => v4_abs cfg op a s hr hl) _ a s h hv
  exact h2.bind_congr fun a s r => inner_edits cfg r inner hr hf

theorem ipv4Steps_eq (cfg : Cfg) {cap : Nat} {b : B} {pre layer : Bytes} (h : Rep cfg cap b pre layer)
    (vsteps : List (Step V4Op V4.Set)) (inner : InnerSteps) (hf : Fine B cap (pre.length + layer.length + 20))
    (hv : ∀ op ∈ vsteps.map (Step.calls V4.Set.call), op.room B cap (pre.length + layer.length))
    (hi : inner.calls.room B cap (pre.length + layer.length)) (hfi : inner.Fields) :
    ipv4Steps cfg b vsteps inner =
      ipv4Program cfg b (vsteps.map (Step.calls V4.Set.call)) inner.calls := by
  refine (v4_with_total cfg h hf).bind_congr fun a s r => ?_
  exact v4_edits cfg r vsteps inner (by rw [List.length_append]; exact hv)
    (by rw [List.length_append]; exact hi) hfi

theorem etherSteps_eq (cfg : Cfg) {cap : Nat} {b : B} {pre layer : Bytes} (h : Rep cfg cap b pre layer)
    (esteps : List (Step EtherOp Ether.Set)) (hf : Fine B cap (pre.length + layer.length + 14))
    (he : ∀ op ∈ esteps.map (Step.calls Ether.Set.call), op.room B cap (pre.length + layer.length)) :
    etherSteps cfg b esteps = etherProgram cfg b (esteps.map (Step.calls Ether.Set.call)) := by
  refine (ether_with_total cfg h hf).bind_congr fun a s r => ?_
  rw [← List.length_append] at he
  rw [steps_eq (fun op => op.room B cap (pre ++ layer).length) (fun op a s hr hl => ether_abs cfg op a s hr hl)
    (fun _ => True) (fun e a s hr _ => ether_edit cfg e a s hr) esteps a s r he (fun _ _ => trivial)]

theorem ethernetSteps_eq (cfg : Cfg) {cap : Nat} {b : B} {pre layer : Bytes} (h : Rep cfg cap b pre layer)
    (esteps : List (Step EtherOp Ether.Set)) (vsteps : List (Step V4Op V4.Set)) (inner : InnerSteps)
    (hf : Fine B cap (pre.length + layer.length + 14)) (hf2 : Fine B cap (pre.length + layer.length + 34))
    (he : ∀ op ∈ esteps.map (Step.calls Ether.Set.call), op.room B cap (pre.length + layer.length))
    (hv : ∀ op ∈ vsteps.map (Step.calls V4.Set.call), op.room B cap (pre.length + layer.length + 14))
    (hi : inner.calls.room B cap (pre.length + layer.length + 14)) (hfi : inner.Fields) :
    ethernetSteps cfg b esteps vsteps inner =
      ethernetProgram cfg b (esteps.map (Step.calls Ether.Set.call)) (vsteps.map (Step.calls V4.Set.call))
        inner.calls := by
  refine (ether_with_total cfg h hf).bind_congr fun a s r => ?_
  have he' := he
  rw [← List.length_append] at he'
  rw [steps_eq (fun op => op.room B cap (pre ++ layer).length) (fun op a s hr hl => ether_abs cfg op a s hr hl)
    (fun _ => True) (fun e a s hr _ => ether_edit cfg e a s hr) esteps a s r he' (fun _ _ => trivial)]
  have h2 := runOps_abs _ (fun op : EtherOp => op.room B cap (pre ++ layer).length)
    (fun op a s hr hl => ether_abs cfg op a s hr hl) _ a s r he'
  refine h2.bind_congr fun e s r => ?_
  unfold EtherBuilder.ip
  rw [r.payload]
  cases hp : e.payload with
  | some v => rfl
  | none =>
    have hl := e.length
    rw [hp] at hl
    have hl : e.bytes.length = 14 := hl
    simp only [Option.isSome_none, Bool.false_eq_true, if_false, Outcome.ok_bind]
    have hv4 := (v4_with_total cfg r.rep (by rw [hl, List.length_append]; exact hf2)).map
      (Q := V4Rep cfg cap (pre ++ layer ++ e.bytes) (Finalization.extend [] (Finalization.add s.finalizer
          (EtherBuilder.ipFinalizer (Buffer.offset s.buffer) (Buffer.length s.buffer)))))
      (fun v => { v with finalizer := v.finalizer.extend (Finalization.extend [] (Finalization.add s.finalizer
          (EtherBuilder.ipFinalizer (Buffer.offset s.buffer) (Buffer.length s.buffer)))) })
      (fun a s r => ⟨r.rep, by simp [Finalization.extend, r.fin], r.payload, r.ok⟩)
    refine hv4.bind_congr fun a s r => ?_
    have e3 : (pre ++ layer ++ e.bytes).length = pre.length + layer.length + 14 := by
      rw [List.length_append, List.length_append, hl]
    exact v4_edits cfg r vsteps inner (by rw [e3]; exact hv) (by rw [e3]; exact hi) hfi

theorem icmpSteps_eq (cfg : Cfg) {cap : Nat} {b : B} {pre layer : Bytes} (h : Rep cfg cap b pre layer)
    (inner : IcmpSteps) (hi : inner.calls.room B cap (pre.length + layer.length)) (hf : inner.Fields) :
    icmpSteps cfg b inner = icmpProgram cfg b inner.calls := icmp_edits cfg h [] inner hi hf

end
end Verif

namespace Verif.Props
open Verif Verif.Spec

/-- C86, growable buffer: a program that edits the packet under construction through `as_packet_mut()`, at any
points and in any layer, has the outcome of the program that makes the corresponding builder calls instead. -/
theorem C86_ethernet_edits (cfg : Cfg) (esteps : List (Step EtherOp Ether.Set))
    (vsteps : List (Step V4Op V4.Set)) (inner : InnerSteps)
    (he : ∀ op ∈ esteps.map (Step.calls Ether.Set.call), op.Sane cfg)
    (hv : ∀ op ∈ vsteps.map (Step.calls V4.Set.call), op.Sane cfg) (hi : inner.calls.Sane cfg) (hf : inner.Fields) :
    ethernetSteps cfg Dynamic.new esteps vsteps inner =
      ethernetProgram cfg Dynamic.new (esteps.map (Step.calls Ether.Set.call))
        (vsteps.map (Step.calls V4.Set.call)) inner.calls :=
  ethernetSteps_eq cfg Dynamic.rep_new esteps vsteps inner (fine_dynamic (by simp)) (fine_dynamic (by simp))
    (ether_sane_room (by simp) he) (v4_sane_room (by simp) hv) (inner.calls.sane_room (by simp) hi) hf

/-- C86 for a program that starts with an IPv4 builder. -/
theorem C86_ipv4_edits (cfg : Cfg) (vsteps : List (Step V4Op V4.Set)) (inner : InnerSteps)
    (hv : ∀ op ∈ vsteps.map (Step.calls V4.Set.call), op.Sane cfg) (hi : inner.calls.Sane cfg) (hf : inner.Fields) :
    ipv4Steps cfg Dynamic.new vsteps inner =
      ipv4Program cfg Dynamic.new (vsteps.map (Step.calls V4.Set.call)) inner.calls :=
  ipv4Steps_eq cfg Dynamic.rep_new vsteps inner (fine_dynamic (by simp))
    (v4_sane_room (by simp) hv) (inner.calls.sane_room (by simp) hi) hf

/-- A concrete case that meets the hypotheses. -/
example (cfg : Cfg) := C86_ipv4_edits cfg [.call (.id 7), .edit (.ttl 64)]
    (.udp [.call (.source 53), .edit (.destination 4000), .call (.payload [1, 2, 3, 4])])
    (by simp [Step.calls, V4.Set.call, V4Op.Sane, V4Op.payload?])
    (by intro v hv; obtain rfl : v = [1, 2, 3, 4] := List.mem_singleton.1 hv; in_every_build) trivial

/-- C86 for a program that only uses an Ethernet builder. -/
theorem C86_ether_edits (cfg : Cfg) (esteps : List (Step EtherOp Ether.Set))
    (he : ∀ op ∈ esteps.map (Step.calls Ether.Set.call), op.Sane cfg) :
    etherSteps cfg Dynamic.new esteps = etherProgram cfg Dynamic.new (esteps.map (Step.calls Ether.Set.call)) :=
  etherSteps_eq cfg Dynamic.rep_new esteps (fine_dynamic (by simp)) (ether_sane_room (by simp) he)

/-- A concrete case that meets the hypotheses. -/
example (cfg : Cfg) := C86_ether_edits cfg
    [.call (.source ⟨2, 0, 0, 0, 0, 1⟩), .edit (.destination ⟨2, 0, 0, 0, 0, 2⟩)]
    (by simp [Step.calls, Ether.Set.call, EtherOp.Sane, EtherOp.payload?])

/-- C86, caller's buffer of any size: the same, for programs without payload calls. -/
theorem C86_slice_edits (cfg : Cfg) (storage : Bytes) (hs : storage.length ≤ cfg.isizeMax)
    (esteps : List (Step EtherOp Ether.Set)) (vsteps : List (Step V4Op V4.Set)) (inner : InnerSteps)
    (he : (esteps.map (Step.calls Ether.Set.call)).filterMap EtherOp.payload? = [])
    (hv : (vsteps.map (Step.calls V4.Set.call)).filterMap V4Op.payload? = [])
    (hi : inner.calls.payloads = []) (hf : inner.Fields) :
    ethernetSteps cfg (Slice.new storage) esteps vsteps inner =
      ethernetProgram cfg (Slice.new storage) (esteps.map (Step.calls Ether.Set.call))
        (vsteps.map (Step.calls V4.Set.call)) inner.calls ∧
    ipv4Steps cfg (Slice.new storage) vsteps inner =
      ipv4Program cfg (Slice.new storage) (vsteps.map (Step.calls V4.Set.call)) inner.calls ∧
    etherSteps cfg (Slice.new storage) esteps =
      etherProgram cfg (Slice.new storage) (esteps.map (Step.calls Ether.Set.call)) :=
  ⟨ethernetSteps_eq cfg (Slice.rep_new hs) esteps vsteps inner (fine_slice ..) (fine_slice ..)
    (ether_room_slice he) (v4_room_slice hv) (inner_room_slice hi) hf,
   ipv4Steps_eq cfg (Slice.rep_new hs) vsteps inner (fine_slice ..) (v4_room_slice hv) (inner_room_slice hi) hf,
   etherSteps_eq cfg (Slice.rep_new hs) esteps (fine_slice ..) (ether_room_slice he)⟩

/-- A concrete case that meets the hypotheses. -/
example (cfg : Cfg) := C86_slice_edits cfg (zeros 100) (by call_by_call)
    [.call (.source ⟨2, 0, 0, 0, 0, 1⟩), .edit (.destination ⟨2, 0, 0, 0, 0, 2⟩)] [.call (.id 7), .edit (.ttl 64)]
    (.udp [.call (.source 53), .edit (.destination 4000)]) rfl rfl rfl trivial

/-- C86 for a program that starts with an ICMP builder. -/
theorem C86_icmp_edits (cfg : Cfg) (inner : IcmpSteps) (hi : (Inner.icmp inner.calls).Sane cfg) (hf : inner.Fields) :
    icmpSteps cfg Dynamic.new inner = icmpProgram cfg Dynamic.new inner.calls := by
  refine icmpSteps_eq cfg Dynamic.rep_new inner ?_ hf
  cases inner with
  | none => trivial
  | echo steps =>
    refine ⟨fine_dynamic (by simp), fun op hop => ?_⟩
    cases op with
    | payload v => exact room_dynamic (by simp) (hi v (List.mem_filterMap.2 ⟨_, hop, rfl⟩))
    | _ => trivial
  | timestamp steps => exact fine_dynamic (by simp)
  | information steps => exact fine_dynamic (by simp)

/-- A concrete case that meets the hypotheses. -/
example (cfg : Cfg) := C86_icmp_edits cfg (.echo [.call .request, .edit (.identifier 42), .call (.payload [1, 2])])
    (by intro v hv; obtain rfl : v = [1, 2] := List.mem_singleton.1 hv; in_every_build)
    (by simp [IcmpSteps.Fields, Echo.Set.Field])

/-- The exception in C86: on a timestamp or information builder an edit before `request()` or `reply()` makes
the program fail with `InvalidPacket`, whatever comes before and after it. -/
theorem C86_edit_before_kind (cfg : Cfg) :
    (∀ (before : List TimestampOp) (e : Timestamp.Set) (after : List (Step TimestampOp Timestamp.Set)),
      .request ∉ before → .reply ∉ before →
      icmpSteps cfg Dynamic.new (.timestamp (before.map .call ++ .edit e :: after)) = .err .invalidPacket) ∧
    (∀ (before : List InformationOp) (e : Information.Set) (after : List (Step InformationOp Information.Set)),
      .request ∉ before → .reply ∉ before →
      icmpSteps cfg Dynamic.new (.information (before.map .call ++ .edit e :: after)) = .err .invalidPacket) := by
  refine ⟨fun before e after h1 h2 => ?_, fun before e after h1 h2 => ?_⟩
  · have h := ((timestamp_with_total (B := Dynamic) cfg Dynamic.rep_new (fine_dynamic (by simp))).map
      (Q := TimestampRep cfg cfg.isizeMax ([] ++ []) []) (fun s => { s with finalizer := s.finalizer.extend [] })
      (fun a s r => ⟨r.rep, by simp [Finalization.extend, r.fin], r.kind⟩))
    rw [need_dynamic (by simp), Outcome.ok_bind] at h
    obtain ⟨s, e0, r⟩ := h
    have key : ∀ (before : List TimestampOp) (a : TimestampState) (s : TimestampBuilder Dynamic),
        .request ∉ before → .reply ∉ before → a.kind = none → TimestampRep cfg cfg.isizeMax ([] ++ []) [] a s →
        runOps (Step.run (TimestampOp.run cfg) (TimestampBuilder.edit cfg))
          (before.map .call ++ .edit e :: after) s = .err .invalidPacket := by
      intro before
      induction before with
      | nil =>
        intro a s _ _ hk r
        have hl : (a.msg 0#16).length = 20 := a.length 0#16
        have hn : Timestamp.new (a.msg 0#16) = .err .invalidPacket := by
          rw [(Props.C35_icmp_typed_accept (a.msg 0#16)).2.1, if_neg (by omega)]
          have : a.msg 0#16 = (a.kind.getD 0) :: (a.msg 0#16).drop 1 := rfl
          rw [this, field_head, hk, if_neg (by decide)]
        have he : editing Timestamp.new e.run (a.msg 0#16) = (.err .invalidPacket, a.msg 0#16) := by
          unfold editing; rw [hn]
        obtain ⟨b', e1, -⟩ := LawfulBuffer.modify cfg _ r.rep he rfl
        show (TimestampBuilder.edit cfg e s >>= _) = _
        unfold TimestampBuilder.edit TimestampBuilder.setter onBuffer
        rw [e1]
        rfl
      | cons op ops ih =>
        intro a s h1 h2 hk r
        obtain ⟨s', e1, r'⟩ := timestamp_step cfg op a s r
        have hk' : (op.step a).kind = none := by
          cases op with
          | request => exact (h1 (by simp)).elim
          | reply => exact (h2 (by simp)).elim
          | _ => exact hk
        show (op.run cfg s >>= _) = _
        rw [e1]
        exact ih _ s' (fun h => h1 (List.mem_cons_of_mem _ h)) (fun h => h2 (List.mem_cons_of_mem _ h)) hk' r'
    have := key before .init s h1 h2 rfl r
    show (IcmpBuilder.timestamp cfg ⟨Dynamic.new, []⟩ >>= fun s => runOps _ _ s >>= _) = _
    unfold IcmpBuilder.timestamp
    rw [e0, Outcome.ok_bind, this]
    rfl
  · have h := ((information_with_total (B := Dynamic) cfg Dynamic.rep_new (fine_dynamic (by simp))).map
      (Q := InformationRep cfg cfg.isizeMax ([] ++ []) []) (fun s => { s with finalizer := s.finalizer.extend [] })
      (fun a s r => ⟨r.rep, by simp [Finalization.extend, r.fin], r.kind⟩))
    rw [need_dynamic (by simp), Outcome.ok_bind] at h
    obtain ⟨s, e0, r⟩ := h
    have key : ∀ (before : List InformationOp) (a : InformationState) (s : InformationBuilder Dynamic),
        .request ∉ before → .reply ∉ before → a.kind = none → InformationRep cfg cfg.isizeMax ([] ++ []) [] a s →
        runOps (Step.run (InformationOp.run cfg) (InformationBuilder.edit cfg))
          (before.map .call ++ .edit e :: after) s = .err .invalidPacket := by
      intro before
      induction before with
      | nil =>
        intro a s _ _ hk r
        have hl : (a.msg 0#16).length = 8 := a.length 0#16
        have hn : Information.new (a.msg 0#16) = .err .invalidPacket := by
          rw [(Props.C35_icmp_typed_accept (a.msg 0#16)).2.2.1, if_neg (by omega)]
          have : a.msg 0#16 = (a.kind.getD 0) :: (a.msg 0#16).drop 1 := rfl
          rw [this, field_head, hk, if_neg (by decide)]
        have he : editing Information.new e.run (a.msg 0#16) = (.err .invalidPacket, a.msg 0#16) := by
          unfold editing; rw [hn]
        obtain ⟨b', e1, -⟩ := LawfulBuffer.modify cfg _ r.rep he rfl
        show (InformationBuilder.edit cfg e s >>= _) = _
        unfold InformationBuilder.edit InformationBuilder.setter onBuffer
        rw [e1]
        rfl
      | cons op ops ih =>
        intro a s h1 h2 hk r
        obtain ⟨s', e1, r'⟩ := information_step cfg op a s r
        have hk' : (op.step a).kind = none := by
          cases op with
          | request => exact (h1 (by simp)).elim
          | reply => exact (h2 (by simp)).elim
          | _ => exact hk
        show (op.run cfg s >>= _) = _
        rw [e1]
        exact ih _ s' (fun h => h1 (List.mem_cons_of_mem _ h)) (fun h => h2 (List.mem_cons_of_mem _ h)) hk' r'
    have := key before .init s h1 h2 rfl r
    show (IcmpBuilder.information cfg ⟨Dynamic.new, []⟩ >>= fun s => runOps _ _ s >>= _) = _
    unfold IcmpBuilder.information
    rw [e0, Outcome.ok_bind, this]
    rfl

theorem runOps_preserves {σ Op : Type} {run : Op → σ → Outcome σ} (P : σ → Prop) (ok : Op → Prop)
    (h : ∀ op s s', ok op → P s → run op s = .ok s' → P s') :
    ∀ (ops : List Op) (s s' : σ), (∀ op ∈ ops, ok op) → P s → runOps run ops s = .ok s' → P s' := by
  intro ops
  induction ops with
  | nil => intro s s' _ hp e; injection e with e; subst e; exact hp
  | cons op ops ih =>
    intro s s' hok hp e
    have e : (run op s >>= runOps run ops) = .ok s' := e
    cases h1 : run op s with
    | ok s1 =>
      rw [h1] at e
      exact ih s1 s' (fun o ho => hok o (List.mem_cons_of_mem _ ho)) (h op s s1 (hok op (by simp)) hp h1) e
    | err e' => rw [h1] at e; cases e
    | panic => rw [h1] at e; cases e

/-- C87 is false of the code: a message kind chosen with `make_request()` or `make_reply()` through
`as_packet_mut()` is not honoured.  On every buffer and for every history of calls and edits in which the
builder's own `request()` or `reply()` is never called, `build()` does not succeed. -/
theorem C87_kind_edit_refuted (cfg : Cfg) {B : Type} [Buffer B] (b : B) (fs : Finalization) :
    (∀ steps : List (Step EchoOp Echo.Set), .call .request ∉ steps → .call .reply ∉ steps →
      ∀ out, (IcmpSteps.echo steps).build cfg (⟨b, fs⟩ : IcmpBuilder B) ≠ .ok out) ∧
    (∀ steps : List (Step TimestampOp Timestamp.Set), .call .request ∉ steps → .call .reply ∉ steps →
      ∀ out, (IcmpSteps.timestamp steps).build cfg (⟨b, fs⟩ : IcmpBuilder B) ≠ .ok out) ∧
    (∀ steps : List (Step InformationOp Information.Set), .call .request ∉ steps → .call .reply ∉ steps →
      ∀ out, (IcmpSteps.information steps).build cfg (⟨b, fs⟩ : IcmpBuilder B) ≠ .ok out) := by
  refine ⟨fun steps h1 h2 out h => ?_, fun steps h1 h2 out h => ?_, fun steps h1 h2 out h => ?_⟩
  · have hset : ∀ (f : Mut Bytes Unit) (s s' : EchoBuilder B), EchoBuilder.setter cfg f s = .ok s' → s'.kind = s.kind := by
      intro f s s' h
      unfold EchoBuilder.setter at h
      cases h3 : onBuffer (Buffer.modifyData cfg f) s.buffer <;> rw [h3] at h <;> cases h
      rfl
    unfold IcmpSteps.build at h
    cases h3 : IcmpBuilder.echo cfg (⟨b, fs⟩ : IcmpBuilder B) with
    | ok s =>
      have hk : s.kind = false := by
        unfold IcmpBuilder.echo EchoBuilder.«with» at h3
        cases h4 : onBuffer (Buffer.next cfg 8) b <;> rw [h4] at h3 <;> cases h3
        rfl
      simp only [h3, Outcome.ok_bind] at h
      cases h5 : runOps (Step.run (EchoOp.run cfg) (EchoBuilder.edit cfg)) steps s with
      | ok s' =>
        have := runOps_preserves (fun s : EchoBuilder B => s.kind = false)
          (fun st => st ≠ Step.call EchoOp.request ∧ st ≠ Step.call EchoOp.reply) (by
            intro st s s' hst hk e
            cases st with
            | edit x => rw [hset _ _ _ e]; exact hk
            | call op =>
              cases op with
              | request => exact (hst.1 rfl).elim
              | reply => exact (hst.2 rfl).elim
              | identifier v => rw [hset _ _ _ e]; exact hk
              | sequence v => rw [hset _ _ _ e]; exact hk
              | payload v =>
                have e : EchoBuilder.setPayload cfg v s = .ok s' := e
                unfold EchoBuilder.setPayload at e
                split at e
                · cases e
                · cases h6 : onBuffer (appendAll cfg v) s.buffer <;> rw [h6] at e <;> cases e
                  exact hk)
          steps s s' (fun op hop => ⟨fun h => h1 (h ▸ hop), fun h => h2 (h ▸ hop)⟩) hk h5
        rw [h5, Outcome.ok_bind] at h
        unfold EchoBuilder.build at h
        rw [if_pos (by rw [this]; simp)] at h
        cases h
      | err e => rw [h5] at h; cases h
      | panic => rw [h5] at h; cases h
    | err e => simp only [h3] at h; cases h
    | panic => simp only [h3] at h; cases h
  · have hset : ∀ (f : Mut Bytes Unit) (s s' : TimestampBuilder B), TimestampBuilder.setter cfg f s = .ok s' → s'.kind = s.kind := by
      intro f s s' h
      unfold TimestampBuilder.setter at h
      cases h3 : onBuffer (Buffer.modifyData cfg f) s.buffer <;> rw [h3] at h <;> cases h
      rfl
    unfold IcmpSteps.build at h
    cases h3 : IcmpBuilder.timestamp cfg (⟨b, fs⟩ : IcmpBuilder B) with
    | ok s =>
      have hk : s.kind = false := by
        unfold IcmpBuilder.timestamp TimestampBuilder.«with» at h3
        cases h4 : onBuffer (Buffer.next cfg 20) b <;> rw [h4] at h3 <;> cases h3
        rfl
      simp only [h3, Outcome.ok_bind] at h
      cases h5 : runOps (Step.run (TimestampOp.run cfg) (TimestampBuilder.edit cfg)) steps s with
      | ok s' =>
        have := runOps_preserves (fun s : TimestampBuilder B => s.kind = false)
          (fun st => st ≠ Step.call TimestampOp.request ∧ st ≠ Step.call TimestampOp.reply) (by
            intro st s s' hst hk e
            cases st with
            | edit x => rw [hset _ _ _ e]; exact hk
            | call op =>
              cases op with
              | request => exact (hst.1 rfl).elim
              | reply => exact (hst.2 rfl).elim
              | _ => rw [hset _ _ _ e]; exact hk)
          steps s s' (fun op hop => ⟨fun h => h1 (h ▸ hop), fun h => h2 (h ▸ hop)⟩) hk h5
        rw [h5, Outcome.ok_bind] at h
        unfold TimestampBuilder.build at h
        rw [if_pos (by rw [this]; simp)] at h
        cases h
      | err e => rw [h5] at h; cases h
      | panic => rw [h5] at h; cases h
    | err e => simp only [h3] at h; cases h
    | panic => simp only [h3] at h; cases h
  · have hset : ∀ (f : Mut Bytes Unit) (s s' : InformationBuilder B), InformationBuilder.setter cfg f s = .ok s' → s'.kind = s.kind := by
      intro f s s' h
      unfold InformationBuilder.setter at h
      cases h3 : onBuffer (Buffer.modifyData cfg f) s.buffer <;> rw [h3] at h <;> cases h
      rfl
    unfold IcmpSteps.build at h
    cases h3 : IcmpBuilder.information cfg (⟨b, fs⟩ : IcmpBuilder B) with
    | ok s =>
      have hk : s.kind = false := by
        unfold IcmpBuilder.information InformationBuilder.«with» at h3
        cases h4 : onBuffer (Buffer.next cfg 8) b <;> rw [h4] at h3 <;> cases h3
        rfl
      simp only [h3, Outcome.ok_bind] at h
      cases h5 : runOps (Step.run (InformationOp.run cfg) (InformationBuilder.edit cfg)) steps s with
      | ok s' =>
        have := runOps_preserves (fun s : InformationBuilder B => s.kind = false)
          (fun st => st ≠ Step.call InformationOp.request ∧ st ≠ Step.call InformationOp.reply) (by
            intro st s s' hst hk e
            cases st with
            | edit x => rw [hset _ _ _ e]; exact hk
            | call op =>
              cases op with
              | request => exact (hst.1 rfl).elim
              | reply => exact (hst.2 rfl).elim
              | _ => rw [hset _ _ _ e]; exact hk)
          steps s s' (fun op hop => ⟨fun h => h1 (h ▸ hop), fun h => h2 (h ▸ hop)⟩) hk h5
        rw [h5, Outcome.ok_bind] at h
        unfold InformationBuilder.build at h
        rw [if_pos (by rw [this]; simp)] at h
        cases h
      | err e => rw [h5] at h; cases h
      | panic => rw [h5] at h; cases h
    | err e => simp only [h3] at h; cases h
    | panic => simp only [h3] at h; cases h

/-- C86 applies: a UDP datagram inside IPv4 inside Ethernet, edited in every layer. -/
example (cfg : Cfg) : ethernetSteps cfg Dynamic.new
    [.call (.source ⟨1, 2, 3, 4, 5, 6⟩), .edit (.destination ⟨6, 5, 4, 3, 2, 1⟩)]
    [.edit (.source ⟨10, 0, 0, 1⟩), .call (.ttl 64), .edit (.destination ⟨10, 0, 0, 2⟩)]
    (.udp [.call (.payload [1, 2, 3]), .edit (.source 53), .edit (.destination 5353)]) =
    ethernetProgram cfg Dynamic.new
      [.source ⟨1, 2, 3, 4, 5, 6⟩, .destination ⟨6, 5, 4, 3, 2, 1⟩]
      [.source ⟨10, 0, 0, 1⟩, .ttl 64, .destination ⟨10, 0, 0, 2⟩]
      (.udp [.payload [1, 2, 3], .source 53, .destination 5353]) := by
  refine C86_ethernet_edits cfg _ _ _ ?_ ?_ ?_ trivial
  · intro op hop v hv
    simp only [List.map_cons, List.map_nil, List.mem_cons, List.not_mem_nil, or_false] at hop
    rcases hop with rfl | rfl <;> cases hv
  · intro op hop v hv
    simp only [List.map_cons, List.map_nil, List.mem_cons, List.not_mem_nil, or_false] at hop
    rcases hop with rfl | rfl | rfl <;> cases hv
  · intro v hv
    have : v = [1, 2, 3] := by simpa [InnerSteps.calls, Inner.payloads, Step.calls, Udp.Set.call, UdpOp.payload?] using hv
    subst this
    in_every_build

/-- The timestamp condition of C86 can be met. -/
example : (IcmpSteps.timestamp [.call .request, .edit (.originate 7)]).Fields := by
  intro pre e post h
  match pre, h with
  | [], h => cases h
  | [_], h =>
    injection h with h1 h2
    injection h2 with h2 h3
    injection h2 with h2
    subst h1 h2
    exact ⟨⟨(fun h => by cases h), (fun h => by cases h)⟩, .inl (by simp)⟩
  | _ :: _ :: _ :: _, h => injection h with _ h; injection h with _ h; cases h
  | [_, _], h => injection h with _ h; injection h with _ h; cases h

/-- C87 concretely: after `as_packet_mut()?.make_request()` the packet under construction is a request, and
`build()` fails; after `request()` it succeeds. -/
example (cfg : Cfg) :
    (∃ s d, (EchoBuilder.«with» cfg Dynamic.new >>= EchoBuilder.edit cfg .request) = .ok s ∧
      s.asPacket cfg = .ok d ∧ Echo.isRequest d = .ok true ∧ s.build cfg = .err .invalidPacket) ∧
    icmpSteps cfg Dynamic.new (.echo [.call .request]) = .ok [8, 0, 0xf7, 0xff, 0, 0, 0, 0] := by
  obtain ⟨oc, ea, nw⟩ := cfg
  cases oc <;> cases ea <;> cases nw <;>
    exact ⟨⟨_, _, rfl, rfl, rfl, rfl⟩, rfl⟩

end Verif.Props
