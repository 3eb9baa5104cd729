import Verif.Model.UserFinalizers
import Verif.Props.Finalizer
import Verif.Samples

/-!
# C85: finalizers added by the program

`b.finalizer().add(f)` may come between any two calls, on any layer.
-/

namespace Verif.Props
open Verif

/-- The operations of a history. -/
def opsOf {Op : Type} (calls : List (Call Op)) : List Op := calls.filterMap Call.op?
/-- The finalizers of a history, in the order in which they were added. -/
def finsOf {Op : Type} (calls : List (Call Op)) : List Finalizer := calls.filterMap Call.finalizer?

/-- The program without its finalizers. -/
def UserIcmp.erase : UserIcmp → IcmpInner
  | .none => .none
  | .echo calls => .echo (opsOf calls)
  | .timestamp calls => .timestamp (opsOf calls)
  | .information calls => .information (opsOf calls)

/-- The program without its finalizers. -/
def UserInner.erase : UserInner → Inner
  | .plain => .plain
  | .udp calls => .udp (opsOf calls)
  | .tcp calls => .tcp (opsOf calls)
  | .icmp _ inner => .icmp (UserIcmp.erase inner)

/-- The finalizers added to the innermost builder. -/
def UserIcmp.fins : UserIcmp → List Finalizer
  | .none => []
  | .echo calls => finsOf calls
  | .timestamp calls => finsOf calls
  | .information calls => finsOf calls

/-- The finalizers added to the builders inside the IPv4 builder, in the order in which they were added. -/
def UserInner.fins : UserInner → List Finalizer
  | .plain => []
  | .udp calls => finsOf calls
  | .tcp calls => finsOf calls
  | .icmp fs inner => fs ++ UserIcmp.fins inner

/-- What `build()` returns if executing the finalizers `fs` from left to right on `raw` ends with `o` and
the bytes `out`. -/
def built (o : Outcome Unit) (out : Bytes) : Outcome Bytes :=
  match o with
  | .ok () => .ok out
  | .err e => .err e
  | .panic => .panic

/-- `build()` executes `fs` from left to right on `raw`. -/
def Builds (fs : List Finalizer) (raw : Bytes) (r : Outcome Bytes) : Prop :=
  ∃ o out, Executes fs raw o out ∧ r = built o out

/-! ## Adding a finalizer commutes with every call -/

theorem run_calls {σ Op : Type} (get : σ → Finalization) (set : Finalization → σ → σ)
    (run : Op → σ → Outcome σ) (add : Finalizer → σ → σ)
    (hadd : ∀ f s, add f s = set (get s ++ [f]) s)
    (hgs : ∀ F s, get (set F s) = F) (hss : ∀ F G s, set F (set G s) = set F s) (hsg : ∀ s, set (get s) s = s)
    (hrun : ∀ op F s, run op (set F s) = (do let s' ← run op s; .ok (set F s')))
    (calls : List (Call Op)) : ∀ (F : Finalization) (s : σ),
    runOps (Call.run run add) calls (set F s) =
      (do let s' ← runOps run (opsOf calls) s; .ok (set (F ++ finsOf calls) s')) := by
  induction calls with
  | nil => intro F s; simp [runOps, opsOf, finsOf]
  | cons c calls ih =>
    intro F s
    cases c with
    | op o =>
      have e1 : opsOf (Call.op o :: calls) = o :: opsOf calls := rfl
      have e2 : finsOf (Call.op o :: calls) = finsOf calls := rfl
      rw [e1, e2, runOps, runOps, Call.run, hrun]
      cases run o s with
      | ok s' => simp only [Outcome.ok_bind]; exact ih F s'
      | err e => rfl
      | panic => rfl
    | finalizer f =>
      have e1 : opsOf (Call.finalizer f :: calls) = opsOf calls := rfl
      have e2 : finsOf (Call.finalizer f :: calls) = f :: finsOf calls := rfl
      rw [e1, e2, runOps, Call.run, Outcome.ok_bind, hadd, hgs, hss, ih]
      simp

section
variable {B : Type} [Buffer B]

theorem ether_calls (cfg : Cfg) (calls : List (Call EtherOp)) (F : Finalization) (s : EtherBuilder B) :
    runOps (Call.run (EtherOp.run cfg) EtherBuilder.addFinalizer) calls { s with finalizer := F } =
      (do let s' ← runOps (EtherOp.run cfg) (opsOf calls) s; .ok { s' with finalizer := F ++ finsOf calls }) := by
  refine run_calls (EtherBuilder.finalizer) (fun F s => { s with finalizer := F }) (EtherOp.run cfg) _
    (fun _ _ => rfl) (fun _ _ => rfl) (fun _ _ _ => rfl) (fun _ => rfl) ?_ calls F s
  intro op F s
  have hs : ∀ f : Mut Bytes Unit, EtherBuilder.setter cfg f { s with finalizer := F } =
      (do let s' ← EtherBuilder.setter cfg f s; .ok { s' with finalizer := F }) := by
    intro f
    unfold EtherBuilder.setter
    cases onBuffer (Buffer.modifyData cfg f) s.buffer <;> rfl
  cases op with
  | payload v =>
    simp only [EtherOp.run, EtherBuilder.setPayload]
    cases s.payload
    · cases onBuffer (appendAll cfg v) s.buffer <;> rfl
    · rfl
  | _ => exact hs _

theorem v4_calls (cfg : Cfg) (calls : List (Call V4Op)) (F : Finalization) (s : V4Builder B) :
    runOps (Call.run (V4Op.run cfg) V4Builder.addFinalizer) calls { s with finalizer := F } =
      (do let s' ← runOps (V4Op.run cfg) (opsOf calls) s; .ok { s' with finalizer := F ++ finsOf calls }) := by
  refine run_calls (V4Builder.finalizer) (fun F s => { s with finalizer := F }) (V4Op.run cfg) _
    (fun _ _ => rfl) (fun _ _ => rfl) (fun _ _ _ => rfl) (fun _ => rfl) ?_ calls F s
  intro op F s
  have hs : ∀ f : Mut Bytes Unit, V4Builder.setter cfg f { s with finalizer := F } =
      (do let s' ← V4Builder.setter cfg f s; .ok { s' with finalizer := F }) := by
    intro f
    unfold V4Builder.setter
    cases onBuffer (Buffer.modifyData cfg f) s.buffer <;> rfl
  cases op with
  | payload v =>
    simp only [V4Op.run, V4Builder.setPayload]
    cases s.payload
    · cases onBuffer (appendAll cfg v) s.buffer <;> rfl
    · rfl
  | _ => exact hs _

theorem udp_calls (cfg : Cfg) (calls : List (Call UdpOp)) (F : Finalization) (s : UdpBuilder B) :
    runOps (Call.run (UdpOp.run cfg) UdpBuilder.addFinalizer) calls { s with finalizer := F } =
      (do let s' ← runOps (UdpOp.run cfg) (opsOf calls) s; .ok { s' with finalizer := F ++ finsOf calls }) := by
  refine run_calls (UdpBuilder.finalizer) (fun F s => { s with finalizer := F }) (UdpOp.run cfg) _
    (fun _ _ => rfl) (fun _ _ => rfl) (fun _ _ _ => rfl) (fun _ => rfl) ?_ calls F s
  intro op F s
  have hs : ∀ f : Mut Bytes Unit, UdpBuilder.setter cfg f { s with finalizer := F } =
      (do let s' ← UdpBuilder.setter cfg f s; .ok { s' with finalizer := F }) := by
    intro f
    unfold UdpBuilder.setter
    cases onBuffer (Buffer.modifyData cfg f) s.buffer <;> rfl
  cases op with
  | payload v =>
    simp only [UdpOp.run, UdpBuilder.setPayload]
    cases s.payload
    · cases onBuffer (appendAll cfg v) s.buffer <;> rfl
    · rfl
  | _ => exact hs _

theorem tcp_calls (cfg : Cfg) (calls : List (Call TcpOp)) (F : Finalization) (s : TcpBuilder B) :
    runOps (Call.run (TcpOp.run cfg) TcpBuilder.addFinalizer) calls { s with finalizer := F } =
      (do let s' ← runOps (TcpOp.run cfg) (opsOf calls) s; .ok { s' with finalizer := F ++ finsOf calls }) := by
  refine run_calls (TcpBuilder.finalizer) (fun F s => { s with finalizer := F }) (TcpOp.run cfg) _
    (fun _ _ => rfl) (fun _ _ => rfl) (fun _ _ _ => rfl) (fun _ => rfl) ?_ calls F s
  intro op F s
  have hs : ∀ f : Mut Bytes Unit, TcpBuilder.setter cfg f { s with finalizer := F } =
      (do let s' ← TcpBuilder.setter cfg f s; .ok { s' with finalizer := F }) := by
    intro f
    unfold TcpBuilder.setter
    cases onBuffer (Buffer.modifyData cfg f) s.buffer <;> rfl
  cases op with
  | payload v =>
    simp only [TcpOp.run, TcpBuilder.setPayload]
    cases s.payload
    · cases onBuffer (appendAll cfg v) s.buffer <;> rfl
    · rfl
  | _ => exact hs _

theorem echo_calls (cfg : Cfg) (calls : List (Call EchoOp)) (F : Finalization) (s : EchoBuilder B) :
    runOps (Call.run (EchoOp.run cfg) EchoBuilder.addFinalizer) calls { s with finalizer := F } =
      (do let s' ← runOps (EchoOp.run cfg) (opsOf calls) s; .ok { s' with finalizer := F ++ finsOf calls }) := by
  refine run_calls (EchoBuilder.finalizer) (fun F s => { s with finalizer := F }) (EchoOp.run cfg) _
    (fun _ _ => rfl) (fun _ _ => rfl) (fun _ _ _ => rfl) (fun _ => rfl) ?_ calls F s
  intro op F s
  have hs : ∀ (f : Mut Bytes Unit) (k : Bool), EchoBuilder.setter cfg f { s with finalizer := F, kind := k } =
      (do let s' ← EchoBuilder.setter cfg f { s with kind := k }; .ok { s' with finalizer := F }) := by
    intro f k
    unfold EchoBuilder.setter
    cases onBuffer (Buffer.modifyData cfg f) s.buffer <;> rfl
  cases op with
  | payload v =>
    simp only [EchoOp.run, EchoBuilder.setPayload]
    cases s.payload
    · cases onBuffer (appendAll cfg v) s.buffer <;> rfl
    · rfl
  | request => exact hs _ true
  | reply => exact hs _ true
  | _ => exact hs _ s.kind

theorem timestamp_calls (cfg : Cfg) (calls : List (Call TimestampOp)) (F : Finalization)
    (s : TimestampBuilder B) :
    runOps (Call.run (TimestampOp.run cfg) TimestampBuilder.addFinalizer) calls { s with finalizer := F } =
      (do let s' ← runOps (TimestampOp.run cfg) (opsOf calls) s
          .ok { s' with finalizer := F ++ finsOf calls }) := by
  refine run_calls (TimestampBuilder.finalizer) (fun F s => { s with finalizer := F }) (TimestampOp.run cfg) _
    (fun _ _ => rfl) (fun _ _ => rfl) (fun _ _ _ => rfl) (fun _ => rfl) ?_ calls F s
  intro op F s
  have hs : ∀ (f : Mut Bytes Unit) (k : Bool), TimestampBuilder.setter cfg f { s with finalizer := F, kind := k } =
      (do let s' ← TimestampBuilder.setter cfg f { s with kind := k }; .ok { s' with finalizer := F }) := by
    intro f k
    unfold TimestampBuilder.setter
    cases onBuffer (Buffer.modifyData cfg f) s.buffer <;> rfl
  cases op with
  | request => exact hs _ true
  | reply => exact hs _ true
  | _ => exact hs _ s.kind

theorem information_calls (cfg : Cfg) (calls : List (Call InformationOp)) (F : Finalization)
    (s : InformationBuilder B) :
    runOps (Call.run (InformationOp.run cfg) InformationBuilder.addFinalizer) calls { s with finalizer := F } =
      (do let s' ← runOps (InformationOp.run cfg) (opsOf calls) s
          .ok { s' with finalizer := F ++ finsOf calls }) := by
  refine run_calls (InformationBuilder.finalizer) (fun F s => { s with finalizer := F }) (InformationOp.run cfg) _
    (fun _ _ => rfl) (fun _ _ => rfl) (fun _ _ _ => rfl) (fun _ => rfl) ?_ calls F s
  intro op F s
  have hs : ∀ (f : Mut Bytes Unit) (k : Bool), InformationBuilder.setter cfg f { s with finalizer := F, kind := k } =
      (do let s' ← InformationBuilder.setter cfg f { s with kind := k }; .ok { s' with finalizer := F }) := by
    intro f k
    unfold InformationBuilder.setter
    cases onBuffer (Buffer.modifyData cfg f) s.buffer <;> rfl
  cases op with
  | request => exact hs _ true
  | reply => exact hs _ true
  | _ => exact hs _ s.kind

/-! ## The order of execution -/

theorem builds_tail (b : B) :
    (∃ o : Outcome Bytes, (∀ x, o ≠ .ok x) ∧ ∀ G, buildTail b G = o) ∨
    ∃ raw, ∀ G : Finalization, Builds G.reverse raw (buildTail b G) := by
  cases h : Buffer.intoInner b with
  | ok raw =>
    refine Or.inr ⟨raw, fun G => ⟨_, _, executes_runAll G.reverse raw, ?_⟩⟩
    unfold buildTail
    rw [h, Outcome.ok_bind]
    show ((match Finalization.runAll G.reverse raw with
      | (.ok (), out) => .ok out
      | (.err e, _) => .err e
      | (.panic, _) => .panic) : Outcome Bytes) = _
    cases Finalization.runAll G.reverse raw with
    | mk o out => cases o <;> rfl
  | err e =>
    refine Or.inl ⟨.err e, (fun _ h => by cases h), fun G => ?_⟩
    unfold buildTail; rw [h]; rfl
  | panic =>
    refine Or.inl ⟨.panic, (fun _ h => by cases h), fun G => ?_⟩
    unfold buildTail; rw [h]; rfl

/-- One layer: make the builder, inherit the finalizers `F` of the enclosing layers, make the calls, build. -/
theorem leaf_core {σ Op : Type} (w : Outcome σ) (set : Finalization → σ → σ) (run : Op → σ → Outcome σ)
    (add : Finalizer → σ → σ) (build : σ → Outcome Bytes)
    (hcalls : ∀ (calls : List (Call Op)) (F : Finalization) (s : σ), runOps (Call.run run add) calls (set F s) =
      (do let s' ← runOps run (opsOf calls) s; .ok (set (F ++ finsOf calls) s')))
    (hbuild : ∀ s, (∃ o : Outcome Bytes, (∀ x, o ≠ .ok x) ∧ ∀ G, build (set G s) = o) ∨
      ∃ raw own, ∀ G : Finalization, Builds (G ++ [own]).reverse raw (build (set G s)))
    (ops : List Op) :
    (∃ o : Outcome Bytes, (∀ x, o ≠ .ok x) ∧ ∀ (F : Finalization) (calls : List (Call Op)), opsOf calls = ops →
      (do let e ← w; let e ← runOps (Call.run run add) calls (set F e); build e) = o) ∨
    ∃ raw own, ∀ (F : Finalization) (calls : List (Call Op)), opsOf calls = ops →
      Builds (F ++ finsOf calls ++ [own]).reverse raw
        (do let e ← w; let e ← runOps (Call.run run add) calls (set F e); build e) := by
  cases w with
  | err e => exact Or.inl ⟨.err e, (fun _ h => by cases h), fun _ _ _ => rfl⟩
  | panic => exact Or.inl ⟨.panic, (fun _ h => by cases h), fun _ _ _ => rfl⟩
  | ok e =>
    simp only [Outcome.ok_bind, hcalls]
    cases h : runOps run ops e with
    | err x =>
      exact Or.inl ⟨.err x, (fun _ h => by cases h), fun _ _ hc => by rw [hc, h]; rfl⟩
    | panic =>
      exact Or.inl ⟨.panic, (fun _ h => by cases h), fun _ _ hc => by rw [hc, h]; rfl⟩
    | ok s =>
      rcases hbuild s with ⟨o, o1, o2⟩ | ⟨raw, own, hr⟩
      · refine Or.inl ⟨o, o1, fun F calls hc => ?_⟩
        rw [hc, h]; exact o2 _
      · refine Or.inr ⟨raw, own, fun F calls hc => ?_⟩
        rw [hc, h]; exact hr _

/-- A build that only pushes one finalizer of its own. -/
theorem push_build {σ : Type} (buf : σ → B) (own : σ → Finalizer) (set : Finalization → σ → σ)
    (build : σ → Outcome Bytes) (h : ∀ G s, build (set G s) = buildTail (buf s) (G ++ [own s])) (s : σ) :
    (∃ o : Outcome Bytes, (∀ x, o ≠ .ok x) ∧ ∀ G, build (set G s) = o) ∨
      ∃ raw own, ∀ G : Finalization, Builds (G ++ [own]).reverse raw (build (set G s)) := by
  rcases builds_tail (buf s) with ⟨o, o1, o2⟩ | ⟨raw, hr⟩
  · exact Or.inl ⟨o, o1, fun G => by rw [h]; exact o2 _⟩
  · exact Or.inr ⟨raw, own s, fun G => by rw [h]; exact hr _⟩

/-- The same behind the check that the kind was set. -/
theorem kind_build {σ : Type} (buf : σ → B) (kind : σ → Bool) (own : σ → Finalizer) (set : Finalization → σ → σ)
    (build : σ → Outcome Bytes) (h : ∀ G s, build (set G s) =
      if ¬ kind s then .err .invalidPacket else buildTail (buf s) (G ++ [own s])) (s : σ) :
    (∃ o : Outcome Bytes, (∀ x, o ≠ .ok x) ∧ ∀ G, build (set G s) = o) ∨
      ∃ raw own, ∀ G : Finalization, Builds (G ++ [own]).reverse raw (build (set G s)) := by
  by_cases hk : kind s = true
  · rcases builds_tail (buf s) with ⟨o, o1, o2⟩ | ⟨raw, hr⟩
    · exact Or.inl ⟨o, o1, fun G => by rw [h, if_neg (by simp [hk])]; exact o2 _⟩
    · exact Or.inr ⟨raw, own s, fun G => by rw [h, if_neg (by simp [hk])]; exact hr _⟩
  · exact Or.inl ⟨.err .invalidPacket, (fun _ h => by cases h), fun G => by rw [h, if_pos hk]⟩

/-- The finalizers an `icmp::Builder` program adds, and its own checksum finalizer, in order. -/
theorem icmp_core (cfg : Cfg) (b : B) (inner : IcmpInner) :
    (∃ o : Outcome Bytes, (∀ x, o ≠ .ok x) ∧ ∀ (F : Finalization) (u : UserIcmp), UserIcmp.erase u = inner →
      u.build cfg ⟨b, F⟩ = o) ∨
    ∃ raw own, ∀ (F : Finalization) (u : UserIcmp), UserIcmp.erase u = inner →
      Builds (F ++ UserIcmp.fins u ++ [own]).reverse raw (u.build cfg ⟨b, F⟩) := by
  cases inner with
  | none =>
    refine Or.inl ⟨.err .invalidPacket, (fun _ h => by cases h), fun F u hu => ?_⟩
    cases u <;> first | rfl | cases hu
  | echo ops =>
    have hb : ∀ (F : Finalization) (calls : List (Call EchoOp)),
        UserIcmp.build cfg (⟨b, F⟩ : IcmpBuilder B) (.echo calls) =
          (do let e ← EchoBuilder.«with» cfg b
              let e ← runOps (Call.run (EchoOp.run cfg) EchoBuilder.addFinalizer) calls { e with finalizer := F }
              EchoBuilder.build cfg e) := by
      intro F calls
      simp only [UserIcmp.build, IcmpBuilder.echo, EchoBuilder.«with»]
      cases onBuffer (Buffer.next cfg 8) b <;> rfl
    rcases leaf_core (EchoBuilder.«with» cfg b) (fun F s => { s with finalizer := F }) (EchoOp.run cfg) _
      (EchoBuilder.build cfg) (echo_calls cfg) (kind_build EchoBuilder.buffer EchoBuilder.kind
        (fun s => IcmpBuilder.finalizerOf cfg (Buffer.offset s.buffer) (Buffer.length s.buffer)) _ _
        (fun _ _ => rfl)) ops with ⟨o, o1, o2⟩ | ⟨raw, own, h⟩
    · refine Or.inl ⟨o, o1, fun F u hu => ?_⟩
      cases u <;> first | (injection hu with hu; rw [hb]; exact o2 F _ hu) | cases hu
    · refine Or.inr ⟨raw, own, fun F u hu => ?_⟩
      cases u <;> first | (injection hu with hu; rw [hb]; exact h F _ hu) | cases hu
  | timestamp ops =>
    have hb : ∀ (F : Finalization) (calls : List (Call TimestampOp)),
        UserIcmp.build cfg (⟨b, F⟩ : IcmpBuilder B) (.timestamp calls) =
          (do let e ← TimestampBuilder.«with» cfg b
              let e ← runOps (Call.run (TimestampOp.run cfg) TimestampBuilder.addFinalizer) calls
                { e with finalizer := F }
              TimestampBuilder.build cfg e) := by
      intro F calls
      simp only [UserIcmp.build, IcmpBuilder.timestamp, TimestampBuilder.«with»]
      cases onBuffer (Buffer.next cfg 20) b <;> rfl
    rcases leaf_core (TimestampBuilder.«with» cfg b) (fun F s => { s with finalizer := F })
      (TimestampOp.run cfg) _ (TimestampBuilder.build cfg) (timestamp_calls cfg)
      (kind_build TimestampBuilder.buffer TimestampBuilder.kind
        (fun s => IcmpBuilder.finalizerOf cfg (Buffer.offset s.buffer) (Buffer.length s.buffer)) _ _
        (fun _ _ => rfl)) ops with ⟨o, o1, o2⟩ | ⟨raw, own, h⟩
    · refine Or.inl ⟨o, o1, fun F u hu => ?_⟩
      cases u <;> first | (injection hu with hu; rw [hb]; exact o2 F _ hu) | cases hu
    · refine Or.inr ⟨raw, own, fun F u hu => ?_⟩
      cases u <;> first | (injection hu with hu; rw [hb]; exact h F _ hu) | cases hu
  | information ops =>
    have hb : ∀ (F : Finalization) (calls : List (Call InformationOp)),
        UserIcmp.build cfg (⟨b, F⟩ : IcmpBuilder B) (.information calls) =
          (do let e ← InformationBuilder.«with» cfg b
              let e ← runOps (Call.run (InformationOp.run cfg) InformationBuilder.addFinalizer) calls
                { e with finalizer := F }
              InformationBuilder.build cfg e) := by
      intro F calls
      simp only [UserIcmp.build, IcmpBuilder.information, InformationBuilder.«with»]
      cases onBuffer (Buffer.next cfg 8) b <;> rfl
    rcases leaf_core (InformationBuilder.«with» cfg b) (fun F s => { s with finalizer := F })
      (InformationOp.run cfg) _ (InformationBuilder.build cfg) (information_calls cfg)
      (kind_build InformationBuilder.buffer InformationBuilder.kind
        (fun s => IcmpBuilder.finalizerOf cfg (Buffer.offset s.buffer) (Buffer.length s.buffer)) _ _
        (fun _ _ => rfl)) ops with ⟨o, o1, o2⟩ | ⟨raw, own, h⟩
    · refine Or.inl ⟨o, o1, fun F u hu => ?_⟩
      cases u <;> first | (injection hu with hu; rw [hb]; exact o2 F _ hu) | cases hu
    · refine Or.inr ⟨raw, own, fun F u hu => ?_⟩
      cases u <;> first | (injection hu with hu; rw [hb]; exact h F _ hu) | cases hu

/-- The same for whatever is built inside an IPv4 builder. -/
theorem inner_core (cfg : Cfg) (s : V4Builder B) (inner : Inner) :
    (∃ o : Outcome Bytes, (∀ x, o ≠ .ok x) ∧ ∀ (F : Finalization) (u : UserInner), UserInner.erase u = inner →
      u.build cfg { s with finalizer := F } = o) ∨
    ∃ raw ownV ownI, ∀ (F : Finalization) (u : UserInner), UserInner.erase u = inner →
      Builds (F ++ [ownV] ++ UserInner.fins u ++ ownI).reverse raw (u.build cfg { s with finalizer := F }) := by
  have hen : ∀ p, (∃ o : Outcome (V4Builder B), (∀ x, o ≠ .ok x) ∧
        ∀ F, V4Builder.enter cfg p { s with finalizer := F } = o) ∨
      ∃ (s' : V4Builder B) (own : Finalizer), ∀ F : Finalization,
        V4Builder.enter cfg p { s with finalizer := F } = .ok { s' with finalizer := F ++ [own] } := by
    intro p
    unfold V4Builder.enter V4Builder.protocol V4Builder.setter
    cases hp : s.payload with
    | true => exact Or.inl ⟨.err .alreadyDefined, (fun _ h => by cases h), fun F => rfl⟩
    | false =>
      cases h : onBuffer (Buffer.modifyData cfg (V4.setProtocol p)) s.buffer with
      | ok b' =>
        refine Or.inr ⟨⟨b', [], false⟩, V4Builder.finalizerOf cfg (Buffer.offset b') (Buffer.length b'), fun F => ?_⟩
        simp only [Bool.false_eq_true, if_false, h, Outcome.ok_bind]
        rfl
      | err e =>
        refine Or.inl ⟨.err e, (fun _ h => by cases h), fun F => ?_⟩
        simp only [Bool.false_eq_true, if_false, h]; rfl
      | panic =>
        refine Or.inl ⟨.panic, (fun _ h => by cases h), fun F => ?_⟩
        simp only [Bool.false_eq_true, if_false, h]; rfl
  cases inner with
  | plain =>
    rcases push_build V4Builder.buffer
      (fun s => V4Builder.finalizerOf cfg (Buffer.offset s.buffer) (Buffer.length s.buffer))
      (fun F s => { s with finalizer := F }) (V4Builder.build cfg) (fun _ _ => rfl) s with ⟨o, o1, o2⟩ | ⟨raw, own, h⟩
    · refine Or.inl ⟨o, o1, fun F u hu => ?_⟩
      cases u <;> first | exact o2 F | cases hu
    · refine Or.inr ⟨raw, own, [], fun F u hu => ?_⟩
      cases u <;> first | (have := h F; simp only [UserInner.fins, List.append_nil]; exact this) | cases hu
  | udp ops =>
    rcases hen .udp with ⟨o, o1, o2⟩ | ⟨s', own, hs⟩
    · cases o with
      | ok x => exact absurd rfl (o1 x)
      | err e =>
        refine Or.inl ⟨.err e, (fun _ h => by cases h), fun F u hu => ?_⟩
        cases u <;> first | (simp only [UserInner.build, V4Builder.udp, o2]; rfl) | cases hu
      | panic =>
        refine Or.inl ⟨.panic, (fun _ h => by cases h), fun F u hu => ?_⟩
        cases u <;> first | (simp only [UserInner.build, V4Builder.udp, o2]; rfl) | cases hu
    · have hb : ∀ (F : Finalization) (calls : List (Call UdpOp)),
          UserInner.build cfg { s with finalizer := F } (.udp calls) =
            (do let e ← UdpBuilder.«with» cfg s'.buffer
                let e ← runOps (Call.run (UdpOp.run cfg) UdpBuilder.addFinalizer) calls
                  { e with finalizer := F ++ [own] }
                UdpBuilder.build cfg e) := by
        intro F calls
        simp only [UserInner.build, V4Builder.udp, hs, Outcome.ok_bind, UdpBuilder.«with»]
        cases onBuffer (Buffer.next cfg Udp.headerMin) s'.buffer <;> rfl
      rcases leaf_core (UdpBuilder.«with» cfg s'.buffer) (fun F s => { s with finalizer := F }) (UdpOp.run cfg) _
        (UdpBuilder.build cfg) (udp_calls cfg) (push_build UdpBuilder.buffer
          (fun s => UdpBuilder.finalizerOf cfg s.ip (Buffer.length s.buffer)) _ _ (fun _ _ => rfl)) ops
        with ⟨o, o1, o2⟩ | ⟨raw, own', h⟩
      · refine Or.inl ⟨o, o1, fun F u hu => ?_⟩
        cases u <;> first | (injection hu with hu; rw [hb]; exact o2 _ _ hu) | cases hu
      · refine Or.inr ⟨raw, own, [own'], fun F u hu => ?_⟩
        cases u <;> first | (injection hu with hu; rw [hb]; exact h _ _ hu) | cases hu
  | tcp ops =>
    rcases hen .tcp with ⟨o, o1, o2⟩ | ⟨s', own, hs⟩
    · cases o with
      | ok x => exact absurd rfl (o1 x)
      | err e =>
        refine Or.inl ⟨.err e, (fun _ h => by cases h), fun F u hu => ?_⟩
        cases u <;> first | (simp only [UserInner.build, V4Builder.tcp, o2]; rfl) | cases hu
      | panic =>
        refine Or.inl ⟨.panic, (fun _ h => by cases h), fun F u hu => ?_⟩
        cases u <;> first | (simp only [UserInner.build, V4Builder.tcp, o2]; rfl) | cases hu
    · have hb : ∀ (F : Finalization) (calls : List (Call TcpOp)),
          UserInner.build cfg { s with finalizer := F } (.tcp calls) =
            (do let e ← TcpBuilder.«with» cfg s'.buffer
                let e ← runOps (Call.run (TcpOp.run cfg) TcpBuilder.addFinalizer) calls
                  { e with finalizer := F ++ [own] }
                TcpBuilder.build cfg e) := by
        intro F calls
        simp only [UserInner.build, V4Builder.tcp, hs, Outcome.ok_bind, TcpBuilder.«with»]
        cases onBuffer (Buffer.next cfg Tcp.headerMin) s'.buffer with
        | ok b₁ =>
          simp only [Outcome.ok_bind]
          cases onBuffer (Buffer.modifyData cfg (setIdx 12 (BitVec.ofNat 8 (Tcp.headerMin / 4) <<< 4))) b₁ <;> rfl
        | err e => rfl
        | panic => rfl
      rcases leaf_core (TcpBuilder.«with» cfg s'.buffer) (fun F s => { s with finalizer := F }) (TcpOp.run cfg) _
        (TcpBuilder.build cfg) (tcp_calls cfg) (push_build TcpBuilder.buffer
          (fun s => TcpBuilder.finalizerOf cfg s.ip (Buffer.length s.buffer) s.payloadLength) _ _ (fun _ _ => rfl)) ops
        with ⟨o, o1, o2⟩ | ⟨raw, own', h⟩
      · refine Or.inl ⟨o, o1, fun F u hu => ?_⟩
        cases u <;> first | (injection hu with hu; rw [hb]; exact o2 _ _ hu) | cases hu
      · refine Or.inr ⟨raw, own, [own'], fun F u hu => ?_⟩
        cases u <;> first | (injection hu with hu; rw [hb]; exact h _ _ hu) | cases hu
  | icmp inner =>
    rcases hen .icmp with ⟨o, o1, o2⟩ | ⟨s', own, hs⟩
    · cases o with
      | ok x => exact absurd rfl (o1 x)
      | err e =>
        refine Or.inl ⟨.err e, (fun _ h => by cases h), fun F u hu => ?_⟩
        cases u <;> first | (simp only [UserInner.build, V4Builder.icmp, o2]; rfl) | cases hu
      | panic =>
        refine Or.inl ⟨.panic, (fun _ h => by cases h), fun F u hu => ?_⟩
        cases u <;> first | (simp only [UserInner.build, V4Builder.icmp, o2]; rfl) | cases hu
    · have hfold : ∀ (fs : List Finalizer) (F : Finalization), fs.foldl (fun (i : IcmpBuilder B) f => i.addFinalizer f)
          ⟨s'.buffer, F⟩ = ⟨s'.buffer, F ++ fs⟩ := by
        intro fs
        induction fs with
        | nil => intro F; simp
        | cons f fs ih =>
          intro F
          rw [List.foldl_cons, show IcmpBuilder.addFinalizer f (⟨s'.buffer, F⟩ : IcmpBuilder B) =
            ⟨s'.buffer, F ++ [f]⟩ from rfl, ih]
          simp
      have hb : ∀ (F : Finalization) (fs : List Finalizer) (ui : UserIcmp),
          UserInner.build cfg { s with finalizer := F } (.icmp fs ui) =
            ui.build cfg ⟨s'.buffer, F ++ [own] ++ fs⟩ := by
        intro F fs ui
        simp only [UserInner.build, V4Builder.icmp, hs, Outcome.ok_bind, IcmpBuilder.«with»]
        rw [← hfold]; rfl
      rcases icmp_core cfg s'.buffer inner with ⟨o, o1, o2⟩ | ⟨raw, own', h⟩
      · refine Or.inl ⟨o, o1, fun F u hu => ?_⟩
        cases u <;> first | (injection hu with hu; rw [hb]; exact o2 _ _ hu) | cases hu
      · refine Or.inr ⟨raw, own, [own'], fun F u hu => ?_⟩
        cases u with
        | icmp fs ui =>
          injection hu with hu
          have := h (F ++ [own] ++ fs) ui hu
          rw [hb]
          simpa only [UserInner.fins, List.append_assoc] using this
        | _ => cases hu

/-- C85, an IPv4 packet.  Fix the builder calls.  Either the program fails, in one and the same way whatever
finalizers it adds (and runs none of them); or there are bytes `raw` and finalizers of the builders
themselves, such that whatever finalizers the program adds, and wherever between its calls it adds them,
`build()` runs on `raw`, in this order: the inner builder's own finalizer, the finalizers added inside the
IPv4 builder, latest first, the IPv4 builder's own finalizer, the finalizers added to it, latest first. -/
theorem C85_ipv4_user_finalizers (cfg : Cfg) (b : B) (vops : List V4Op) (inner : Inner) :
    (∃ o : Outcome Bytes, (∀ x, o ≠ .ok x) ∧ ∀ vcalls u, opsOf vcalls = vops → UserInner.erase u = inner →
      userIpv4 cfg b vcalls u = o) ∨
    ∃ (raw : Bytes) (ownInner : List Finalizer) (ownV4 : Finalizer),
      ∀ vcalls u, opsOf vcalls = vops → UserInner.erase u = inner →
        Builds (ownInner ++ (UserInner.fins u).reverse ++ [ownV4] ++ (finsOf vcalls).reverse) raw
          (userIpv4 cfg b vcalls u) := by
  unfold userIpv4
  cases h1 : (V4Builder.«with» cfg b : Outcome (V4Builder B)) with
  | err e => exact Or.inl ⟨.err e, (fun _ h => by cases h), fun _ _ _ _ => rfl⟩
  | panic => exact Or.inl ⟨.panic, (fun _ h => by cases h), fun _ _ _ _ => rfl⟩
  | ok s =>
    have hf : s = { s with finalizer := [] } := by
      unfold V4Builder.«with» at h1
      cases h : onBuffer (Buffer.next cfg V4.headerMin) b with
      | ok b₁ =>
        rw [h, Outcome.ok_bind] at h1
        cases h' : onBuffer (Buffer.modifyData cfg
          (setIdx 0 ((4#8 <<< 4) ||| BitVec.ofNat 8 (V4.headerMin / 4)))) b₁ with
        | ok b₂ => rw [h'] at h1; cases h1; rfl
        | err _ => rw [h'] at h1; cases h1
        | panic => rw [h'] at h1; cases h1
      | err _ => rw [h] at h1; cases h1
      | panic => rw [h] at h1; cases h1
    have hc : ∀ vcalls, runOps (Call.run (V4Op.run cfg) V4Builder.addFinalizer) vcalls s =
        (do let s' ← runOps (V4Op.run cfg) (opsOf vcalls) s; .ok { s' with finalizer := finsOf vcalls }) := by
      intro vcalls
      have := v4_calls cfg vcalls [] s
      rw [← hf] at this
      simpa using this
    simp only [Outcome.ok_bind, hc]
    cases h2 : runOps (V4Op.run cfg) vops s with
    | err e => exact Or.inl ⟨.err e, (fun _ h => by cases h), fun _ _ hv _ => by rw [hv, h2]; rfl⟩
    | panic => exact Or.inl ⟨.panic, (fun _ h => by cases h), fun _ _ hv _ => by rw [hv, h2]; rfl⟩
    | ok s' =>
      rcases inner_core cfg s' inner with ⟨o, o1, o2⟩ | ⟨raw, ownV, ownI, h⟩
      · exact Or.inl ⟨o, o1, fun _ u hv hu => by rw [hv, h2]; exact o2 _ u hu⟩
      · refine Or.inr ⟨raw, ownI.reverse, ownV, fun vcalls u hv hu => ?_⟩
        rw [hv, h2]
        have := h (finsOf vcalls) u hu
        simp only [List.reverse_append, List.reverse_singleton, List.append_assoc] at this ⊢
        exact this

/-- C85, a whole Ethernet frame: the same with the Ethernet layer's finalizers last; the finalizers `fs` of
the `ip::Builder` run between those of the IPv4 builder and the Ethernet builder's own. -/
theorem C85_ethernet_user_finalizers (cfg : Cfg) (b : B) (eops : List EtherOp) (vops : List V4Op) (inner : Inner) :
    (∃ o : Outcome Bytes, (∀ x, o ≠ .ok x) ∧ ∀ ecalls fs vcalls u, opsOf ecalls = eops → opsOf vcalls = vops →
      UserInner.erase u = inner → userEthernet cfg b ecalls fs vcalls u = o) ∨
    ∃ (raw : Bytes) (ownInner : List Finalizer) (ownV4 ownEther : Finalizer),
      ∀ ecalls fs vcalls u, opsOf ecalls = eops → opsOf vcalls = vops → UserInner.erase u = inner →
        Builds (ownInner ++ (UserInner.fins u).reverse ++ [ownV4] ++ (finsOf vcalls).reverse ++ fs.reverse ++
          [ownEther] ++ (finsOf ecalls).reverse) raw (userEthernet cfg b ecalls fs vcalls u) := by
  unfold userEthernet
  cases h1 : (EtherBuilder.«with» cfg b : Outcome (EtherBuilder B)) with
  | err e => exact Or.inl ⟨.err e, (fun _ h => by cases h), fun _ _ _ _ _ _ _ => rfl⟩
  | panic => exact Or.inl ⟨.panic, (fun _ h => by cases h), fun _ _ _ _ _ _ _ => rfl⟩
  | ok s =>
    have hf : s = { s with finalizer := [] } := by
      unfold EtherBuilder.«with» at h1
      cases h : onBuffer (Buffer.next cfg Ether.headerMin) b with
      | ok b₁ => rw [h] at h1; cases h1; rfl
      | err _ => rw [h] at h1; cases h1
      | panic => rw [h] at h1; cases h1
    have hc : ∀ ecalls, runOps (Call.run (EtherOp.run cfg) EtherBuilder.addFinalizer) ecalls s =
        (do let s' ← runOps (EtherOp.run cfg) (opsOf ecalls) s; .ok { s' with finalizer := finsOf ecalls }) := by
      intro ecalls
      have := ether_calls cfg ecalls [] s
      rw [← hf] at this
      simpa using this
    simp only [Outcome.ok_bind, hc]
    cases h2 : runOps (EtherOp.run cfg) eops s with
    | err e => exact Or.inl ⟨.err e, (fun _ h => by cases h), fun _ _ _ _ he _ _ => by rw [he, h2]; rfl⟩
    | panic => exact Or.inl ⟨.panic, (fun _ h => by cases h), fun _ _ _ _ he _ _ => by rw [he, h2]; rfl⟩
    | ok e =>
      cases hp : e.payload with
      | true =>
        refine Or.inl ⟨.err .alreadyDefined, (fun _ h => by cases h), fun _ _ _ _ he _ _ => ?_⟩
        rw [he, h2, Outcome.ok_bind, Outcome.ok_bind]
        simp only [EtherBuilder.ip, hp, if_true]
        rfl
      | false =>
        have hfold : ∀ (fs : List Finalizer) (F : Finalization),
            fs.foldl (fun (i : IpBuilder B) f => i.addFinalizer f) ⟨e.buffer, F⟩ = ⟨e.buffer, F ++ fs⟩ := by
          intro fs
          induction fs with
          | nil => intro F; simp
          | cons f fs ih =>
            intro F
            rw [List.foldl_cons, show IpBuilder.addFinalizer f (⟨e.buffer, F⟩ : IpBuilder B) =
              ⟨e.buffer, F ++ [f]⟩ from rfl, ih]
            simp
        have hip : ∀ F : Finalization, EtherBuilder.ip { e with finalizer := F } = .ok ⟨e.buffer,
            F ++ [EtherBuilder.ipFinalizer (Buffer.offset e.buffer) (Buffer.length e.buffer)]⟩ := by
          intro F
          simp only [EtherBuilder.ip, hp, Bool.false_eq_true, if_false]
          rfl
        have hv4 : ∀ F : Finalization, IpBuilder.v4 cfg (⟨e.buffer, F⟩ : IpBuilder B) =
            (do let v ← V4Builder.«with» cfg e.buffer; .ok { v with finalizer := F }) := by
          intro F
          unfold IpBuilder.v4 V4Builder.«with»
          cases onBuffer (Buffer.next cfg V4.headerMin) e.buffer with
          | ok b₁ =>
            simp only [Outcome.ok_bind]
            cases onBuffer (Buffer.modifyData cfg
              (setIdx 0 ((4#8 <<< 4) ||| BitVec.ofNat 8 (V4.headerMin / 4)))) b₁ <;> rfl
          | err _ => rfl
          | panic => rfl
        cases h3 : (V4Builder.«with» cfg e.buffer : Outcome (V4Builder B)) with
        | err x =>
          refine Or.inl ⟨.err x, (fun _ h => by cases h), fun _ _ _ _ he _ _ => ?_⟩
          simp only [he, h2, Outcome.ok_bind, hip, hfold, hv4, h3]; rfl
        | panic =>
          refine Or.inl ⟨.panic, (fun _ h => by cases h), fun _ _ _ _ he _ _ => ?_⟩
          simp only [he, h2, Outcome.ok_bind, hip, hfold, hv4, h3]; rfl
        | ok v =>
          cases h4 : runOps (V4Op.run cfg) vops v with
          | err x =>
            refine Or.inl ⟨.err x, (fun _ h => by cases h), fun _ _ _ _ he hv _ => ?_⟩
            simp only [he, h2, Outcome.ok_bind, hip, hfold, hv4, h3, v4_calls, hv, h4]; rfl
          | panic =>
            refine Or.inl ⟨.panic, (fun _ h => by cases h), fun _ _ _ _ he hv _ => ?_⟩
            simp only [he, h2, Outcome.ok_bind, hip, hfold, hv4, h3, v4_calls, hv, h4]; rfl
          | ok v' =>
            rcases inner_core cfg v' inner with ⟨o, o1, o2⟩ | ⟨raw, ownV, ownI, h⟩
            · refine Or.inl ⟨o, o1, fun _ _ _ u he hv hu => ?_⟩
              simp only [he, h2, Outcome.ok_bind, hip, hfold, hv4, h3, v4_calls, hv, h4]
              exact o2 _ u hu
            · refine Or.inr ⟨raw, ownI.reverse, ownV, EtherBuilder.ipFinalizer (Buffer.offset e.buffer)
                (Buffer.length e.buffer), fun ecalls fs vcalls u he hv hu => ?_⟩
              simp only [he, h2, Outcome.ok_bind, hip, hfold, hv4, h3, v4_calls, hv, h4]
              have := h (finsOf ecalls ++ [EtherBuilder.ipFinalizer (Buffer.offset e.buffer)
                (Buffer.length e.buffer)] ++ fs ++ finsOf vcalls) u hu
              simp only [List.reverse_append, List.reverse_singleton, List.append_assoc] at this ⊢
              exact this

/-- C85, an Ethernet frame without an inner builder: only the program's finalizers run, latest first. -/
theorem C85_ether_user_finalizers (cfg : Cfg) (b : B) (ops : List EtherOp) :
    (∃ o : Outcome Bytes, (∀ x, o ≠ .ok x) ∧ ∀ calls, opsOf calls = ops → userEther cfg b calls = o) ∨
    ∃ raw, ∀ calls, opsOf calls = ops → Builds (finsOf calls).reverse raw (userEther cfg b calls) := by
  unfold userEther
  cases h1 : (EtherBuilder.«with» cfg b : Outcome (EtherBuilder B)) with
  | err e => exact Or.inl ⟨.err e, (fun _ h => by cases h), fun _ _ => rfl⟩
  | panic => exact Or.inl ⟨.panic, (fun _ h => by cases h), fun _ _ => rfl⟩
  | ok s =>
    have hf : s = { s with finalizer := [] } := by
      unfold EtherBuilder.«with» at h1
      cases h : onBuffer (Buffer.next cfg Ether.headerMin) b with
      | ok b₁ => rw [h] at h1; cases h1; rfl
      | err _ => rw [h] at h1; cases h1
      | panic => rw [h] at h1; cases h1
    have hc : ∀ calls, runOps (Call.run (EtherOp.run cfg) EtherBuilder.addFinalizer) calls s =
        (do let s' ← runOps (EtherOp.run cfg) (opsOf calls) s; .ok { s' with finalizer := finsOf calls }) := by
      intro calls
      have := ether_calls cfg calls [] s
      rw [← hf] at this
      simpa using this
    simp only [Outcome.ok_bind, hc]
    cases h2 : runOps (EtherOp.run cfg) ops s with
    | err e => exact Or.inl ⟨.err e, (fun _ h => by cases h), fun _ he => by rw [he, h2]; rfl⟩
    | panic => exact Or.inl ⟨.panic, (fun _ h => by cases h), fun _ he => by rw [he, h2]; rfl⟩
    | ok e =>
      rcases builds_tail e.buffer with ⟨o, o1, o2⟩ | ⟨raw, h⟩
      · exact Or.inl ⟨o, o1, fun _ he => by rw [he, h2]; exact o2 _⟩
      · exact Or.inr ⟨raw, fun _ he => by rw [he, h2]; exact h _⟩

theorem runOps_calls {σ Op : Type} (run : Op → σ → Outcome σ) (add : Finalizer → σ → σ) (ops : List Op) (s : σ) :
    runOps (Call.run run add) (ops.map Call.op) s = runOps run ops s := by
  induction ops generalizing s with
  | nil => rfl
  | cons o ops ih =>
    simp only [List.map_cons, runOps, Call.run]
    cases run o s with
    | ok s' => exact ih s'
    | err e => rfl
    | panic => rfl

/-- A program that adds no finalizers. -/
def liftIcmp : IcmpInner → UserIcmp
  | .none => .none
  | .echo ops => .echo (ops.map .op)
  | .timestamp ops => .timestamp (ops.map .op)
  | .information ops => .information (ops.map .op)

/-- A program that adds no finalizers. -/
def liftInner : Inner → UserInner
  | .plain => .plain
  | .udp ops => .udp (ops.map .op)
  | .tcp ops => .tcp (ops.map .op)
  | .icmp inner => .icmp [] (liftIcmp inner)

theorem liftInner_build (cfg : Cfg) (s : V4Builder B) (inner : Inner) :
    (liftInner inner).build cfg s = inner.build cfg s := by
  cases inner with
  | plain => rfl
  | udp ops => simp only [liftInner, UserInner.build, Inner.build, runOps_calls]
  | tcp ops => simp only [liftInner, UserInner.build, Inner.build, runOps_calls]
  | icmp inner =>
    simp only [liftInner, UserInner.build, Inner.build, List.foldl_nil]
    cases inner <;> simp only [liftIcmp, UserIcmp.build, IcmpInner.build, runOps_calls]

/-- The programs of the other properties are the ones that add no finalizers. -/
theorem C85_no_finalizers (cfg : Cfg) (b : B) (eops : List EtherOp) (vops : List V4Op) (inner : Inner) :
    userEther cfg b (eops.map .op) = etherProgram cfg b eops ∧
    userIpv4 cfg b (vops.map .op) (liftInner inner) = ipv4Program cfg b vops inner ∧
    userEthernet cfg b (eops.map .op) [] (vops.map .op) (liftInner inner) = ethernetProgram cfg b eops vops inner := by
  refine ⟨?_, ?_, ?_⟩
  · simp only [userEther, etherProgram, runOps_calls]
  · simp only [userIpv4, ipv4Program, runOps_calls, liftInner_build]
  · simp only [userEthernet, ethernetProgram, runOps_calls, liftInner_build, List.foldl_nil]

theorem opsOf_lift {Op : Type} (ops : List Op) : opsOf (ops.map Call.op) = ops := by
  induction ops with
  | nil => rfl
  | cons o ops ih =>
    show o :: opsOf (ops.map Call.op) = _
    rw [ih]

theorem finsOf_lift {Op : Type} (ops : List Op) : finsOf (ops.map Call.op) = [] := by
  induction ops with
  | nil => rfl
  | cons o ops ih => exact ih

theorem erase_lift (inner : Inner) : UserInner.erase (liftInner inner) = inner := by
  cases inner with
  | icmp inner => cases inner <;> simp [liftInner, liftIcmp, UserInner.erase, UserIcmp.erase, opsOf_lift]
  | _ => simp [liftInner, UserInner.erase, opsOf_lift]

theorem fins_lift (inner : Inner) : UserInner.fins (liftInner inner) = [] := by
  cases inner with
  | icmp inner => cases inner <;> simp [liftInner, liftIcmp, UserInner.fins, UserIcmp.fins, finsOf_lift]
  | _ => simp [liftInner, UserInner.fins, finsOf_lift]

theorem Executes.append {fs gs : List Finalizer} {b b' : Bytes} {r : Outcome Unit} {b₂ : Bytes}
    (h : Executes fs b (.ok ()) b') (h' : Executes gs b' r b₂) : Executes (fs ++ gs) b r b₂ := by
  induction fs generalizing b with
  | nil => cases h; exact h'
  | cons f fs ih =>
    cases h with
    | step h1 h2 => exact .step h1 (ih h2)

theorem built_ok {o : Outcome Unit} {out p : Bytes} (h : .ok p = built o out) : o = .ok () ∧ p = out := by
  cases o with
  | ok u => cases h; exact ⟨rfl, rfl⟩
  | err e => cases h
  | panic => cases h

/-- C85, the outermost layer: finalizers added to the Ethernet builder see the finished frame, exactly the
one the program builds without them. -/
theorem C85_outermost_sees_finished (cfg : Cfg) (b : B) (ecalls : List (Call EtherOp)) (vops : List V4Op)
    (inner : Inner) (p : Bytes) (h : ethernetProgram cfg b (opsOf ecalls) vops inner = .ok p) :
    Builds (finsOf ecalls).reverse p (userEthernet cfg b ecalls [] (vops.map .op) (liftInner inner)) := by
  rw [← (C85_no_finalizers cfg b (opsOf ecalls) vops inner).2.2] at h
  rcases C85_ethernet_user_finalizers cfg b (opsOf ecalls) vops inner with ⟨o, o1, o2⟩ | ⟨raw, own, v, e, hr⟩
  · rw [o2 _ _ _ _ (opsOf_lift _) (opsOf_lift _) (erase_lift _)] at h
    exact absurd h (o1 p)
  · obtain ⟨o, out, k1, k2⟩ := hr _ [] _ _ (opsOf_lift (opsOf ecalls)) (opsOf_lift vops) (erase_lift inner)
    rw [h] at k2
    obtain ⟨rfl, rfl⟩ := built_ok k2
    obtain ⟨o', out', m1, m2⟩ := hr ecalls [] _ _ rfl (opsOf_lift vops) (erase_lift inner)
    simp only [finsOf_lift, fins_lift, List.reverse_nil, List.append_nil] at k1 m1
    refine ⟨_, _, executes_runAll _ p, ?_⟩
    have := k1.append (executes_runAll (finsOf ecalls).reverse p)
    obtain ⟨e1, e2⟩ := this.functional m1
    rw [m2, e1, e2]

/-- A concrete case that meets the hypotheses. -/
example (B : Type) (cfg : Cfg) := C85_outermost_sees_finished cfg Dynamic.new
    [.op (.source ⟨2, 0, 0, 0, 0, 1⟩), .finalizer (fun b => (.ok (), b.reverse))] Sample.vops (.udp Sample.uops) _
    (Sample.value_of (by in_every_build))

/-- The same for finalizers added to the outermost IPv4 builder. -/
theorem C85_outermost_ipv4_sees_finished (cfg : Cfg) (b : B) (vcalls : List (Call V4Op))
    (inner : Inner) (p : Bytes) (h : ipv4Program cfg b (opsOf vcalls) inner = .ok p) :
    Builds (finsOf vcalls).reverse p (userIpv4 cfg b vcalls (liftInner inner)) := by
  rw [← (C85_no_finalizers cfg b [] (opsOf vcalls) inner).2.1] at h
  rcases C85_ipv4_user_finalizers cfg b (opsOf vcalls) inner with ⟨o, o1, o2⟩ | ⟨raw, own, v, hr⟩
  · rw [o2 _ _ (opsOf_lift _) (erase_lift _)] at h
    exact absurd h (o1 p)
  · obtain ⟨o, out, k1, k2⟩ := hr _ _ (opsOf_lift (opsOf vcalls)) (erase_lift inner)
    rw [h] at k2
    obtain ⟨rfl, rfl⟩ := built_ok k2
    obtain ⟨o', out', m1, m2⟩ := hr vcalls _ rfl (erase_lift inner)
    simp only [finsOf_lift, fins_lift, List.reverse_nil, List.append_nil] at k1 m1
    refine ⟨_, _, executes_runAll _ p, ?_⟩
    have := k1.append (executes_runAll (finsOf vcalls).reverse p)
    obtain ⟨e1, e2⟩ := this.functional m1
    rw [m2, e1, e2]

end

/-- A finalizer that copies byte `i` to byte `j`. -/
def copyByte (i j : Nat) : Finalizer := fun b => (.ok (), put b j [b.getD i 0#8])

/-- A program with finalizers on two layers.  The one added to the UDP builder runs after the UDP checksum and
before the IPv4 header is completed: it sees the old low byte of the total length (0).  The one added to the
IPv4 builder, although added first, sees the total length 31. -/
example : userIpv4 ⟨true, true, false⟩ (⟨[], 0, 0⟩ : Dynamic)
    [.finalizer (copyByte 3 29), .op (.source ⟨10, 0, 0, 1⟩)]
    (.udp [.op (.payload [7, 7, 7]), .finalizer (copyByte 3 28)]) =
    (userIpv4 ⟨true, true, false⟩ (⟨[], 0, 0⟩ : Dynamic) [.op (.source ⟨10, 0, 0, 1⟩)]
      (.udp [.op (.payload [7, 7, 7])])).bind fun p => .ok (put p 28 [0, 31]) := by
  decide +kernel

/-- A finalizer that fails makes `build()` fail. -/
example : userIpv4 ⟨true, true, false⟩ (⟨[], 0, 0⟩ : Dynamic) [.finalizer fun b => (.err .invalidValue, b)] .plain =
    .err .invalidValue := by
  decide +kernel

end Verif.Props
