import Verif.Lemmas.AnyBuffer

/-!
# Every builder call, on two buffers
-/

namespace Verif.AnyBuffer
open Verif Verif.Spec Verif.Props

theorem onBuffer_fail {B α : Type} {f : Mut B α} {b : B} {x : Option Error} (h : (f b).1 = failWith x) :
    onBuffer f b = failWith x := by
  unfold onBuffer
  rcases e : f b with ⟨o, b'⟩
  rw [e] at h
  simp only at h
  subst h
  cases x <;> rfl

theorem onBuffer_done {B α : Type} {f : Mut B α} {b b' : B} {a : α} (h : f b = (.ok a, b')) :
    onBuffer f b = .ok b' := by unfold onBuffer; rw [h]

theorem onBuffer_bind {B β : Type} (x : Mut B Unit) (k : Mut B β) (b : B) :
    onBuffer (x >>= fun _ => k) b = (onBuffer x b >>= onBuffer k) := by
  unfold onBuffer
  rw [Mut.bind_apply]
  rcases x b with ⟨_ | _ | _, b'⟩ <;> rfl

theorem CallPair.ite {S T S' T' : Type} {same : Prop} {f1 f2 : Option Error} {Q : S → T → Prop} {P : T → Prop}
    {Q' : S' → T' → Prop} {P' : T' → Prop} {c1 : S → Bool} {c2 : T → Bool} {k1 l1 : S → Outcome S'}
    {k2 l2 : T → Outcome T'} (hc : ∀ s t, Q s t → c2 t = c1 s) (hk : CallPair same f1 f2 Q P Q' P' k1 k2)
    (hl : CallPair same f1 f2 Q P Q' P' l1 l2) :
    CallPair same f1 f2 Q P Q' P' (fun s => if c1 s then k1 s else l1 s) (fun t => if c2 t then k2 t else l2 t) where
  pair s t h := by
    rw [hc s t h]
    cases c1 s
    · exact hl.pair s t h
    · exact hk.pair s t h
  big t h t' e := by
    cases ec : c2 t
    · rw [ec] at e; exact hl.big t h t' e
    · rw [ec] at e; exact hk.big t h t' e

section
variable {B1 B2 : Type}

/-- Both buffers show the same layers. -/
def Joint (R1 : B1 → Layers → Prop) (R2 : B2 → Layers → Prop) (b1 : B1) (b2 : B2) : Prop := ∃ l, R1 b1 l ∧ R2 b2 l
/-- The second buffer already holds more than the first can. -/
def Big (cap1 : Nat) (R2 : B2 → Layers → Prop) (b2 : B2) : Prop := ∃ l, R2 b2 l ∧ cap1 < l.all.length

variable [Buffer B1] [Buffer B2] {cfg : Cfg} {cap1 cap2 : Nat} {f1 f2 : Option Error}
  {R1 : B1 → Layers → Prop} {R2 : B2 → Layers → Prop}

theorem step_grow (hle : cap1 ≤ cap2) (n : Nat) {a1 : Mut B1 Unit} {a2 : Mut B2 Unit} {g : Layers → Layers}
    (hg : ∀ l, (g l).all.length = l.all.length + n)
    (ok1 : ∀ {b l}, R1 b l → l.all.length + n ≤ cap1 → ∃ b', a1 b = (.ok (), b') ∧ R1 b' (g l))
    (ok2 : ∀ {b l}, R2 b l → l.all.length + n ≤ cap2 → ∃ b', a2 b = (.ok (), b') ∧ R2 b' (g l))
    (no1 : ∀ {b l}, R1 b l → cap1 < l.all.length + n → (a1 b).1 = failWith f1)
    (no2 : ∀ {b l}, R2 b l → cap2 < l.all.length + n → (a2 b).1 = failWith f2) :
    CallPair (cap1 = cap2) f1 f2 (Joint R1 R2) (Big cap1 R2) (Joint R1 R2) (Big cap1 R2) (onBuffer a1) (onBuffer a2) where
  pair s t h := by
    obtain ⟨l, r1, r2⟩ := h
    by_cases hc : l.all.length + n ≤ cap1
    · obtain ⟨s', e1, r1'⟩ := ok1 r1 hc
      obtain ⟨t', e2, r2'⟩ := ok2 r2 (by omega)
      exact .inl ⟨s', t', onBuffer_done e1, onBuffer_done e2, _, r1', r2'⟩
    · refine .inr (.inr ⟨onBuffer_fail (no1 r1 (by omega)), fun t' e => ?_, fun hs => onBuffer_fail (no2 r2 (by omega))⟩)
      by_cases hc2 : l.all.length + n ≤ cap2
      · obtain ⟨t'', e2, r2'⟩ := ok2 r2 hc2
        rw [onBuffer_done e2] at e
        cases e
        exact ⟨_, r2', by rw [hg]; omega⟩
      · rw [onBuffer_fail (no2 r2 (by omega))] at e
        exact absurd e (failWith_ne _ _)
  big t h t' e := by
    obtain ⟨l, r2, hb⟩ := h
    by_cases hc2 : l.all.length + n ≤ cap2
    · obtain ⟨t'', e2, r2'⟩ := ok2 r2 hc2
      rw [onBuffer_done e2] at e
      cases e
      exact ⟨_, r2', by rw [hg]; omega⟩
    · rw [onBuffer_fail (no2 r2 (by omega))] at e
      exact absurd e (failWith_ne _ _)

variable (h1 : Backs cfg cap1 f1 R1) (h2 : Backs cfg cap2 f2 R2) (hle : cap1 ≤ cap2)
include h1 h2 hle

theorem step_next {n : Nat} (hn : n ≤ cfg.isizeMax) :
    CallPair (cap1 = cap2) f1 f2 (Joint R1 R2) (Big cap1 R2) (Joint R1 R2) (Big cap1 R2)
      (onBuffer (Buffer.next cfg n)) (onBuffer (Buffer.next cfg n)) :=
  step_grow hle n (g := (BufOp.next n).step) (fun l => by simp [BufOp.step, Layers.all, Nat.add_assoc])
    (fun r hc => h1.next n r hc) (fun r hc => h2.next n r hc) (fun r hc => h1.nextFull n r hn hc)
    (fun r hc => h2.nextFull n r hn hc)

theorem step_more {n : Nat} (hn : n ≤ cfg.isizeMax) :
    CallPair (cap1 = cap2) f1 f2 (Joint R1 R2) (Big cap1 R2) (Joint R1 R2) (Big cap1 R2)
      (onBuffer (Buffer.more cfg n)) (onBuffer (Buffer.more cfg n)) :=
  step_grow hle n (g := (BufOp.more n).step) (fun l => by simp [BufOp.step, Layers.all]; omega)
    (fun r hc => h1.more n r hc) (fun r hc => h2.more n r hc) (fun r hc => h1.moreFull n r hn hc)
    (fun r hc => h2.moreFull n r hn hc)

omit hle in
theorem step_modify {f : Mut Bytes Unit} (hf : KeepsLen f) :
    CallPair (cap1 = cap2) f1 f2 (Joint R1 R2) (Big cap1 R2) (Joint R1 R2) (Big cap1 R2)
      (onBuffer (Buffer.modifyData cfg f)) (onBuffer (Buffer.modifyData cfg f)) where
  pair s t h := by
    obtain ⟨l, r1, r2⟩ := h
    obtain ⟨s', e1, r1'⟩ := h1.modify f r1 hf
    obtain ⟨t', e2, r2'⟩ := h2.modify f r2 hf
    rcases e : (f l.top).1 with u | x | _
    · rw [e] at e1 e2
      exact .inl ⟨s', t', onBuffer_done e1, onBuffer_done e2, _, r1', r2'⟩
    · rw [e] at e1 e2
      exact .inr (.inl ⟨some x, onBuffer_fail (by rw [e1]; rfl), onBuffer_fail (by rw [e2]; rfl)⟩)
    · rw [e] at e1 e2
      exact .inr (.inl ⟨none, onBuffer_fail (by rw [e1]; rfl), onBuffer_fail (by rw [e2]; rfl)⟩)
  big t h t' e := by
    obtain ⟨l, r2, hb⟩ := h
    obtain ⟨t'', e2, r2'⟩ := h2.modify f r2 hf
    have : t'' = t' := by
      unfold onBuffer at e
      rw [e2] at e
      rcases e' : (f l.top).1 with u | x | _
      · rw [e'] at e; cases e; rfl
      · rw [e'] at e; cases e
      · rw [e'] at e; cases e
    subst this
    refine ⟨_, r2', ?_⟩
    have := hf l.top
    simp only [Layers.all, List.length_append] at hb ⊢
    omega

theorem step_append : ∀ v : Bytes,
    CallPair (cap1 = cap2) f1 f2 (Joint R1 R2) (Big cap1 R2) (Joint R1 R2) (Big cap1 R2)
      (onBuffer (appendAll cfg v)) (onBuffer (appendAll cfg v))
  | [] => CallPair.ok (fun _ _ h => h) (fun _ h => h)
  | x :: v => by
    have e : ∀ {B : Type} [Buffer B], onBuffer (appendAll (B := B) cfg (x :: v)) = fun b =>
        (onBuffer (Buffer.more cfg 1) b >>= fun b =>
          (onBuffer (Buffer.modifyData cfg (setLast x)) b >>= onBuffer (appendAll cfg v))) := by
      intro B _
      funext b
      show onBuffer (Buffer.more cfg 1 >>= fun _ => Buffer.modifyData cfg (setLast x) >>= fun _ => appendAll cfg v) b = _
      rw [onBuffer_bind]
      congr 1
      funext b
      rw [onBuffer_bind]
    rw [e, e]
    exact (step_more h1 h2 hle (by have := cfg.width; omega)).comp ((step_modify h1 h2 (KeepsLen.setLast x)).comp (step_append v))

omit hle in
theorem step_tail {S T : Type} {Q : S → T → Prop} {P : T → Prop} {b1 : S → B1} {b2 : T → B2}
    {fs1 : S → Finalization} {fs2 : T → Finalization} (hq : ∀ s t, Q s t → Joint R1 R2 (b1 s) (b2 t) ∧
      fs2 t = fs1 s ∧ ∀ f ∈ fs1 s, KeepsLen f) (hp : ∀ t, P t → Big cap1 R2 (b2 t) ∧ ∀ f ∈ fs2 t, KeepsLen f) :
    CallPair (cap1 = cap2) f1 f2 Q P (fun o1 o2 => o2 = o1 ∧ o1.length ≤ cap1) (fun o => cap1 < o.length)
      (fun s => buildTail (b1 s) (fs1 s)) (fun t => buildTail (b2 t) (fs2 t)) where
  pair s t h := by
    obtain ⟨⟨l, r1, r2⟩, ef, hk⟩ := hq s t h
    unfold buildTail
    rw [(h1.shows r1).inner, (h2.shows r2).inner, ef]
    simp only [Outcome.ok_bind]
    have hl := KeepsLen.finalize hk l.all
    have hw := h1.within r1
    rcases e : Finalization.finalize (fs1 s) l.all with ⟨_ | x | _, out⟩
    · rw [e] at hl
      refine .inl ⟨_, _, rfl, rfl, rfl, ?_⟩
      simp only at hl
      omega
    · exact .inr (.inl ⟨some x, rfl, rfl⟩)
    · exact .inr (.inl ⟨none, rfl, rfl⟩)
  big t h t' e := by
    obtain ⟨⟨l, r2, hb⟩, hk⟩ := hp t h
    unfold buildTail at e
    rw [(h2.shows r2).inner] at e
    simp only [Outcome.ok_bind] at e
    have hl := KeepsLen.finalize hk l.all
    rcases e' : Finalization.finalize (fs2 t) l.all with ⟨_ | x | _, out⟩
    · rw [e'] at e hl
      cases e
      simp only at hl
      omega
    · rw [e'] at e; cases e
    · rw [e'] at e; cases e

omit hle in
theorem joint_same {b1 : B1} {b2 : B2} (h : Joint R1 R2 b1 b2) :
    Buffer.offset b2 = Buffer.offset b1 ∧ Buffer.length b2 = Buffer.length b1 := by
  obtain ⟨l, r1, r2⟩ := h
  have s1 := h1.shows r1
  have s2 := h2.shows r2
  exact ⟨s2.offset.trans s1.offset.symm, s2.length.trans s1.length.symm⟩

end

/-! ## The builders -/

/-- A builder as its buffer, its finalizers and the rest of its fields. -/
structure View (S B ρ : Type) where
  buf : S → B
  fin : S → Finalization
  rest : S → ρ

def etherView (B : Type) : View (EtherBuilder B) B Bool := ⟨(·.buffer), (·.finalizer), (·.payload)⟩
def ipView (B : Type) : View (IpBuilder B) B Unit := ⟨(·.buffer), (·.finalizer), fun _ => ()⟩
def v4View (B : Type) : View (V4Builder B) B Bool := ⟨(·.buffer), (·.finalizer), (·.payload)⟩
def udpView (B : Type) : View (UdpBuilder B) B ((Nat × Nat) × Bool) :=
  ⟨(·.buffer), (·.finalizer), fun s => (s.ip, s.payload)⟩
def tcpView (B : Type) : View (TcpBuilder B) B ((Nat × Nat) × Bool × Nat) :=
  ⟨(·.buffer), (·.finalizer), fun s => (s.ip, s.payload, s.payloadLength)⟩
def icmpView (B : Type) : View (IcmpBuilder B) B Unit := ⟨(·.buffer), (·.finalizer), fun _ => ()⟩
def echoView (B : Type) : View (EchoBuilder B) B (Bool × Bool) :=
  ⟨(·.buffer), (·.finalizer), fun s => (s.kind, s.payload)⟩
def timestampView (B : Type) : View (TimestampBuilder B) B Bool := ⟨(·.buffer), (·.finalizer), (·.kind)⟩
def informationView (B : Type) : View (InformationBuilder B) B Bool := ⟨(·.buffer), (·.finalizer), (·.kind)⟩

section
variable {B1 B2 : Type} [Buffer B1] [Buffer B2] {cfg : Cfg} {cap1 cap2 : Nat} {f1 f2 : Option Error}
  {R1 : B1 → Layers → Prop} {R2 : B2 → Layers → Prop}

/-- The same builder on two buffers. -/
def SameView (R1 : B1 → Layers → Prop) (R2 : B2 → Layers → Prop) {S T ρ : Type} (v1 : View S B1 ρ) (v2 : View T B2 ρ)
    (s : S) (t : T) : Prop :=
  Joint R1 R2 (v1.buf s) (v2.buf t) ∧ (v2.fin t = v1.fin s ∧ ∀ f ∈ v1.fin s, KeepsLen f) ∧ v2.rest t = v1.rest s

/-- A builder that holds too much already. -/
def BigView (cap1 : Nat) (R2 : B2 → Layers → Prop) {T ρ : Type} (v2 : View T B2 ρ) (t : T) : Prop :=
  Big cap1 R2 (v2.buf t) ∧ ∀ f ∈ v2.fin t, KeepsLen f

/-- `CallPair` between builders. -/
def BuilderPair (cap2 : Nat) (f1 f2 : Option Error) (R1 : B1 → Layers → Prop) (R2 : B2 → Layers → Prop)
    (cap1 : Nat) {S T ρ S' T' ρ' : Type} (v1 : View S B1 ρ) (v2 : View T B2 ρ) (w1 : View S' B1 ρ') (w2 : View T' B2 ρ')
    (k1 : S → Outcome S') (k2 : T → Outcome T') : Prop :=
  CallPair (cap1 = cap2) f1 f2 (SameView R1 R2 v1 v2) (BigView cap1 R2 v2) (SameView R1 R2 w1 w2) (BigView cap1 R2 w2) k1 k2

/-- The last step of a program. -/
def BuildPair (cap2 : Nat) (f1 f2 : Option Error) (R1 : B1 → Layers → Prop) (R2 : B2 → Layers → Prop)
    (cap1 : Nat) {S T ρ : Type} (v1 : View S B1 ρ) (v2 : View T B2 ρ) (k1 : S → Outcome Bytes) (k2 : T → Outcome Bytes) :
    Prop :=
  CallPair (cap1 = cap2) f1 f2 (SameView R1 R2 v1 v2) (BigView cap1 R2 v2) (fun o1 o2 => o2 = o1 ∧ o1.length ≤ cap1)
    (fun o => cap1 < o.length) k1 k2

omit [Buffer B1] [Buffer B2] in
/-- A buffer action inside a builder; the rest changes by `r`. -/
theorem bstep_on {S T ρ S' T' ρ' : Type} {v1 : View S B1 ρ} {v2 : View T B2 ρ} {w1 : View S' B1 ρ'} {w2 : View T' B2 ρ'}
    {k1 : B1 → Outcome B1} {k2 : B2 → Outcome B2}
    (h : CallPair (cap1 = cap2) f1 f2 (Joint R1 R2) (Big cap1 R2) (Joint R1 R2) (Big cap1 R2) k1 k2)
    {g1 : S → B1 → S'} {g2 : T → B2 → T'} (b1 : ∀ s b, w1.buf (g1 s b) = b) (b2 : ∀ t b, w2.buf (g2 t b) = b)
    (e1 : ∀ s b, w1.fin (g1 s b) = v1.fin s) (e2 : ∀ t b, w2.fin (g2 t b) = v2.fin t)
    (r : ∀ s t b c, SameView R1 R2 v1 v2 s t → w2.rest (g2 t c) = w1.rest (g1 s b)) :
    BuilderPair cap2 f1 f2 R1 R2 cap1 v1 v2 w1 w2 (fun s => k1 (v1.buf s) >>= fun b => .ok (g1 s b))
      (fun t => k2 (v2.buf t) >>= fun b => .ok (g2 t b)) :=
  CallPair.on h (fun _ _ h => h.1) (fun _ h => h.1)
    (fun s t u v hs hj => ⟨by rw [b1, b2]; exact hj, by rw [e1, e2]; exact hs.2.1, r s t u v hs⟩)
    (fun s t v hs hj => ⟨by rw [b2]; exact hj, by rw [e2, hs.2.1.1]; exact hs.2.1.2⟩)
    (fun t v hs hj => ⟨by rw [b2]; exact hj, by rw [e2]; exact hs.2⟩)

variable (h1 : Backs cfg cap1 f1 R1) (h2 : Backs cfg cap2 f2 R2) (hle : cap1 ≤ cap2)
include h1 h2

local notation "E" => BuilderPair cap2 f1 f2 R1 R2 cap1 (etherView B1) (etherView B2) (etherView B1) (etherView B2)
local notation "V" => BuilderPair cap2 f1 f2 R1 R2 cap1 (v4View B1) (v4View B2) (v4View B1) (v4View B2)
local notation "U" => BuilderPair cap2 f1 f2 R1 R2 cap1 (udpView B1) (udpView B2) (udpView B1) (udpView B2)
local notation "T" => BuilderPair cap2 f1 f2 R1 R2 cap1 (tcpView B1) (tcpView B2) (tcpView B1) (tcpView B2)
local notation "C" => BuilderPair cap2 f1 f2 R1 R2 cap1 (echoView B1) (echoView B2) (echoView B1) (echoView B2)
local notation "M" => BuilderPair cap2 f1 f2 R1 R2 cap1 (timestampView B1) (timestampView B2) (timestampView B1) (timestampView B2)
local notation "N" => BuilderPair cap2 f1 f2 R1 R2 cap1 (informationView B1) (informationView B2) (informationView B1) (informationView B2)

theorem ether_setter {f : Mut Bytes Unit} (hf : KeepsLen f) : E (EtherBuilder.setter cfg f) (EtherBuilder.setter cfg f) :=
  bstep_on (v1 := etherView B1) (v2 := etherView B2) (w1 := etherView B1) (w2 := etherView B2)
      (step_modify h1 h2 hf) (g1 := fun s b => { s with buffer := b }) (g2 := fun s b => { s with buffer := b })
    (fun _ _ => rfl) (fun _ _ => rfl) (fun _ _ => rfl) (fun _ _ => rfl) (fun _ _ _ _ h => h.2.2)

theorem v4_setter {f : Mut Bytes Unit} (hf : KeepsLen f) : V (V4Builder.setter cfg f) (V4Builder.setter cfg f) :=
  bstep_on (v1 := v4View B1) (v2 := v4View B2) (w1 := v4View B1) (w2 := v4View B2)
      (step_modify h1 h2 hf) (g1 := fun s b => { s with buffer := b }) (g2 := fun s b => { s with buffer := b })
    (fun _ _ => rfl) (fun _ _ => rfl) (fun _ _ => rfl) (fun _ _ => rfl) (fun _ _ _ _ h => h.2.2)

theorem udp_setter {f : Mut Bytes Unit} (hf : KeepsLen f) : U (UdpBuilder.setter cfg f) (UdpBuilder.setter cfg f) :=
  bstep_on (v1 := udpView B1) (v2 := udpView B2) (w1 := udpView B1) (w2 := udpView B2)
      (step_modify h1 h2 hf) (g1 := fun s b => { s with buffer := b }) (g2 := fun s b => { s with buffer := b })
    (fun _ _ => rfl) (fun _ _ => rfl) (fun _ _ => rfl) (fun _ _ => rfl) (fun _ _ _ _ h => h.2.2)

theorem tcp_setter {f : Mut Bytes Unit} (hf : KeepsLen f) : T (TcpBuilder.setter cfg f) (TcpBuilder.setter cfg f) :=
  bstep_on (v1 := tcpView B1) (v2 := tcpView B2) (w1 := tcpView B1) (w2 := tcpView B2)
      (step_modify h1 h2 hf) (g1 := fun s b => { s with buffer := b }) (g2 := fun s b => { s with buffer := b })
    (fun _ _ => rfl) (fun _ _ => rfl) (fun _ _ => rfl) (fun _ _ => rfl) (fun _ _ _ _ h => h.2.2)

theorem echo_setter {f : Mut Bytes Unit} (hf : KeepsLen f) : C (EchoBuilder.setter cfg f) (EchoBuilder.setter cfg f) :=
  bstep_on (v1 := echoView B1) (v2 := echoView B2) (w1 := echoView B1) (w2 := echoView B2)
      (step_modify h1 h2 hf) (g1 := fun s b => { s with buffer := b }) (g2 := fun s b => { s with buffer := b })
    (fun _ _ => rfl) (fun _ _ => rfl) (fun _ _ => rfl) (fun _ _ => rfl) (fun _ _ _ _ h => h.2.2)

theorem timestamp_setter {f : Mut Bytes Unit} (hf : KeepsLen f) :
    M (TimestampBuilder.setter cfg f) (TimestampBuilder.setter cfg f) :=
  bstep_on (v1 := timestampView B1) (v2 := timestampView B2) (w1 := timestampView B1) (w2 := timestampView B2)
      (step_modify h1 h2 hf) (g1 := fun s b => { s with buffer := b }) (g2 := fun s b => { s with buffer := b })
    (fun _ _ => rfl) (fun _ _ => rfl) (fun _ _ => rfl) (fun _ _ => rfl) (fun _ _ _ _ h => h.2.2)

theorem information_setter {f : Mut Bytes Unit} (hf : KeepsLen f) :
    N (InformationBuilder.setter cfg f) (InformationBuilder.setter cfg f) :=
  bstep_on (v1 := informationView B1) (v2 := informationView B2) (w1 := informationView B1) (w2 := informationView B2)
      (step_modify h1 h2 hf) (g1 := fun s b => { s with buffer := b }) (g2 := fun s b => { s with buffer := b })
    (fun _ _ => rfl) (fun _ _ => rfl) (fun _ _ => rfl) (fun _ _ => rfl) (fun _ _ _ _ h => h.2.2)

/-- `kind := true`, then the write. -/
theorem echo_kind {f : Mut Bytes Unit} (hf : KeepsLen f) :
    C (fun s => EchoBuilder.setter cfg f { s with kind := true }) (fun s => EchoBuilder.setter cfg f { s with kind := true }) :=
  bstep_on (v1 := echoView B1) (v2 := echoView B2) (w1 := echoView B1) (w2 := echoView B2)
      (step_modify h1 h2 hf) (g1 := fun s b => { s with kind := true, buffer := b })
    (g2 := fun s b => { s with kind := true, buffer := b })
    (fun _ _ => rfl) (fun _ _ => rfl) (fun _ _ => rfl) (fun _ _ => rfl)
    (fun _ _ _ _ h => congrArg (fun x => (true, x.2)) h.2.2)

theorem timestamp_kind {f : Mut Bytes Unit} (hf : KeepsLen f) :
    M (fun s => TimestampBuilder.setter cfg f { s with kind := true })
      (fun s => TimestampBuilder.setter cfg f { s with kind := true }) :=
  bstep_on (v1 := timestampView B1) (v2 := timestampView B2) (w1 := timestampView B1) (w2 := timestampView B2)
      (step_modify h1 h2 hf) (g1 := fun s b => { s with kind := true, buffer := b })
    (g2 := fun s b => { s with kind := true, buffer := b })
    (fun _ _ => rfl) (fun _ _ => rfl) (fun _ _ => rfl) (fun _ _ => rfl) (fun _ _ _ _ _ => rfl)

theorem information_kind {f : Mut Bytes Unit} (hf : KeepsLen f) :
    N (fun s => InformationBuilder.setter cfg f { s with kind := true })
      (fun s => InformationBuilder.setter cfg f { s with kind := true }) :=
  bstep_on (v1 := informationView B1) (v2 := informationView B2) (w1 := informationView B1) (w2 := informationView B2)
      (step_modify h1 h2 hf) (g1 := fun s b => { s with kind := true, buffer := b })
    (g2 := fun s b => { s with kind := true, buffer := b })
    (fun _ _ => rfl) (fun _ _ => rfl) (fun _ _ => rfl) (fun _ _ => rfl) (fun _ _ _ _ _ => rfl)

include hle

theorem ether_payload (v : Bytes) : E (EtherBuilder.setPayload cfg v) (EtherBuilder.setPayload cfg v) :=
  CallPair.ite (c1 := EtherBuilder.payload) (c2 := EtherBuilder.payload) (fun _ _ h => h.2.2) (CallPair.fail .alreadyDefined)
    (bstep_on (v1 := etherView B1) (v2 := etherView B2) (w1 := etherView B1) (w2 := etherView B2)
      (step_append h1 h2 hle v) (g1 := fun s b => { s with buffer := b, payload := true })
      (g2 := fun s b => { s with buffer := b, payload := true })
      (fun _ _ => rfl) (fun _ _ => rfl) (fun _ _ => rfl) (fun _ _ => rfl) (fun _ _ _ _ _ => rfl))

theorem v4_payload (v : Bytes) : V (V4Builder.setPayload cfg v) (V4Builder.setPayload cfg v) :=
  CallPair.ite (c1 := V4Builder.payload) (c2 := V4Builder.payload) (fun _ _ h => h.2.2) (CallPair.fail .alreadyDefined)
    (bstep_on (v1 := v4View B1) (v2 := v4View B2) (w1 := v4View B1) (w2 := v4View B2)
      (step_append h1 h2 hle v) (g1 := fun s b => { s with buffer := b, payload := true })
      (g2 := fun s b => { s with buffer := b, payload := true })
      (fun _ _ => rfl) (fun _ _ => rfl) (fun _ _ => rfl) (fun _ _ => rfl) (fun _ _ _ _ _ => rfl))

theorem udp_payload (v : Bytes) : U (UdpBuilder.setPayload cfg v) (UdpBuilder.setPayload cfg v) :=
  CallPair.ite (c1 := UdpBuilder.payload) (c2 := UdpBuilder.payload) (fun _ _ h => congrArg (fun x => x.2) h.2.2) (CallPair.fail .alreadyDefined)
    (bstep_on (v1 := udpView B1) (v2 := udpView B2) (w1 := udpView B1) (w2 := udpView B2)
      (step_append h1 h2 hle v) (g1 := fun s b => { s with buffer := b, payload := true })
      (g2 := fun s b => { s with buffer := b, payload := true })
      (fun _ _ => rfl) (fun _ _ => rfl) (fun _ _ => rfl) (fun _ _ => rfl)
      (fun _ _ _ _ h => congrArg (fun x => (x.1, true)) h.2.2))

theorem tcp_payload (v : Bytes) : T (TcpBuilder.setPayload cfg v) (TcpBuilder.setPayload cfg v) :=
  CallPair.ite (c1 := TcpBuilder.payload) (c2 := TcpBuilder.payload) (fun _ _ h => congrArg (fun x => x.2.1) h.2.2)
    (CallPair.fail .alreadyDefined)
    (bstep_on (v1 := tcpView B1) (v2 := tcpView B2) (w1 := tcpView B1) (w2 := tcpView B2)
      (step_append h1 h2 hle v)
      (g1 := fun s b => { s with buffer := b, payload := true, payloadLength := s.payloadLength + v.length })
      (g2 := fun s b => { s with buffer := b, payload := true, payloadLength := s.payloadLength + v.length })
      (fun _ _ => rfl) (fun _ _ => rfl) (fun _ _ => rfl) (fun _ _ => rfl)
      (fun _ _ _ _ h => congrArg (fun x => (x.1, true, x.2.2 + v.length)) h.2.2))

theorem echo_payload (v : Bytes) : C (EchoBuilder.setPayload cfg v) (EchoBuilder.setPayload cfg v) :=
  CallPair.ite (c1 := EchoBuilder.payload) (c2 := EchoBuilder.payload) (fun _ _ h => congrArg (fun x => x.2) h.2.2) (CallPair.fail .invalidPacket)
    (bstep_on (v1 := echoView B1) (v2 := echoView B2) (w1 := echoView B1) (w2 := echoView B2)
      (step_append h1 h2 hle v) (g1 := fun s b => { s with buffer := b, payload := true })
      (g2 := fun s b => { s with buffer := b, payload := true })
      (fun _ _ => rfl) (fun _ _ => rfl) (fun _ _ => rfl) (fun _ _ => rfl)
      (fun _ _ _ _ h => congrArg (fun x => (x.1, true)) h.2.2))

theorem ether_op (op : EtherOp) : E (op.run cfg) (op.run cfg) := by
  cases op with
  | destination v => exact ether_setter h1 h2 (KeepsLen.copyRange _ _ _)
  | source v => exact ether_setter h1 h2 (KeepsLen.copyRange _ _ _)
  | protocol v => exact ether_setter h1 h2 (KeepsLen.writeU16 _ _)
  | payload v => exact ether_payload h1 h2 hle v

theorem v4_op (op : V4Op) : V (op.run cfg) (op.run cfg) := by
  cases op with
  | dscp v => exact v4_setter h1 h2 (KeepsLen.v4Dscp _)
  | ecn v => exact v4_setter h1 h2 (KeepsLen.v4Ecn _)
  | id v => exact v4_setter h1 h2 (KeepsLen.writeU16 _ _)
  | flags v => exact v4_setter h1 h2 (KeepsLen.v4 (KeepsLen.writeU16 _ _))
  | offset v => exact v4_setter h1 h2 (KeepsLen.v4 (KeepsLen.writeU16 _ _))
  | ttl v => exact v4_setter h1 h2 (KeepsLen.v4 (KeepsLen.setIdx _ _))
  | source v => exact v4_setter h1 h2 (KeepsLen.v4 (KeepsLen.copyRange _ _ _))
  | destination v => exact v4_setter h1 h2 (KeepsLen.v4 (KeepsLen.copyRange _ _ _))
  | protocol v => exact v4_setter h1 h2 (KeepsLen.v4 (KeepsLen.setIdx _ _))
  | payload v => exact v4_payload h1 h2 hle v

theorem udp_op (op : UdpOp) : U (op.run cfg) (op.run cfg) := by
  cases op with
  | source v => exact udp_setter h1 h2 (KeepsLen.udp (KeepsLen.writeU16 _ _))
  | destination v => exact udp_setter h1 h2 (KeepsLen.udp (KeepsLen.writeU16 _ _))
  | payload v => exact udp_payload h1 h2 hle v

theorem tcp_op (op : TcpOp) : T (op.run cfg) (op.run cfg) := by
  cases op with
  | source v => exact tcp_setter h1 h2 (KeepsLen.tcp (KeepsLen.writeU16 _ _))
  | destination v => exact tcp_setter h1 h2 (KeepsLen.tcp (KeepsLen.writeU16 _ _))
  | sequence v => exact tcp_setter h1 h2 (KeepsLen.tcp (KeepsLen.writeU32 _ _))
  | acknowledgment v => exact tcp_setter h1 h2 (KeepsLen.tcp (KeepsLen.writeU32 _ _))
  | flags v => exact tcp_setter h1 h2 (KeepsLen.tcpFlags _)
  | window v => exact tcp_setter h1 h2 (KeepsLen.tcp (KeepsLen.writeU16 _ _))
  | pointer v => exact tcp_setter h1 h2 (KeepsLen.tcp (KeepsLen.writeU16 _ _))
  | payload v => exact tcp_payload h1 h2 hle v

theorem echo_op (op : EchoOp) : C (op.run cfg) (op.run cfg) := by
  cases op with
  | request => exact echo_kind h1 h2 (KeepsLen.setIdx _ _)
  | reply => exact echo_kind h1 h2 (KeepsLen.setIdx _ _)
  | identifier v => exact echo_setter h1 h2 (KeepsLen.writeU16 _ _)
  | sequence v => exact echo_setter h1 h2 (KeepsLen.writeU16 _ _)
  | payload v => exact echo_payload h1 h2 hle v

omit hle

theorem timestamp_op (op : TimestampOp) : M (op.run cfg) (op.run cfg) := by
  cases op with
  | request => exact timestamp_kind h1 h2 (KeepsLen.setIdx _ _)
  | reply => exact timestamp_kind h1 h2 (KeepsLen.setIdx _ _)
  | identifier v => exact timestamp_setter h1 h2 (KeepsLen.writeU16 _ _)
  | sequence v => exact timestamp_setter h1 h2 (KeepsLen.writeU16 _ _)
  | originate v => exact timestamp_setter h1 h2 (KeepsLen.writeU32 _ _)
  | receive v => exact timestamp_setter h1 h2 (KeepsLen.writeU32 _ _)
  | transmit v => exact timestamp_setter h1 h2 (KeepsLen.writeU32 _ _)

theorem information_op (op : InformationOp) : N (op.run cfg) (op.run cfg) := by
  cases op with
  | request => exact information_kind h1 h2 (KeepsLen.setIdx _ _)
  | reply => exact information_kind h1 h2 (KeepsLen.setIdx _ _)
  | identifier v => exact information_setter h1 h2 (KeepsLen.writeU16 _ _)
  | sequence v => exact information_setter h1 h2 (KeepsLen.writeU16 _ _)

end

end Verif.AnyBuffer
