import Verif.Lemmas.Profiles

/-! # Debug and release builds: buffers and builders -/

namespace Verif
open Verif.Spec

/-! ## Buffers -/

theorem Dynamic.data_agrees (d r : Cfg) (p : Stricter d r) (b : Dynamic) :
    SameUnlessPanic (Dynamic.data d b) (Dynamic.data r b) :=
  SameUnlessPanic.bind (p.addUsize _ _) fun _ => .inr rfl

theorem Slice.data_agrees (d r : Cfg) (p : Stricter d r) (b : Slice) : SameUnlessPanic (Slice.data d b) (Slice.data r b) :=
  SameUnlessPanic.bind (p.addUsize _ _) fun _ => .inr rfl

theorem Dynamic.modifyData_agrees {α : Type} (d r : Cfg) (p : Stricter d r) {f g : Mut Bytes α}
    (h : SameUnlessPanicMut f g) : SameUnlessPanicMut (Dynamic.modifyData d f) (Dynamic.modifyData r g) := by
  intro b
  unfold Dynamic.modifyData
  rcases Dynamic.data_agrees d r p b with hd | hd
  · left; rw [hd]
  · rw [hd]
    cases Dynamic.data d b with
    | ok v =>
      rcases h v with hc | hc
      · exact .inl hc
      · right; simp only [hc]
    | err e => exact .inr rfl
    | panic => exact .inr rfl

theorem Slice.modifyData_agrees {α : Type} (d r : Cfg) (p : Stricter d r) {f g : Mut Bytes α}
    (h : SameUnlessPanicMut f g) : SameUnlessPanicMut (Slice.modifyData d f) (Slice.modifyData r g) := by
  intro b
  unfold Slice.modifyData
  rcases Slice.data_agrees d r p b with hd | hd
  · left; rw [hd]
  · rw [hd]
    cases Slice.data d b with
    | ok v =>
      rcases h v with hc | hc
      · exact .inl hc
      · right; simp only [hc]
    | err e => exact .inr rfl
    | panic => exact .inr rfl

theorem Dynamic.next_agrees (d r : Cfg) (p : Stricter d r) (n : Nat) :
    SameUnlessPanicMut (Dynamic.next d n) (Dynamic.next r n) := by
  intro b
  unfold Dynamic.next
  rcases p.addUsize b.offset b.length with h | h
  · left; rw [h]
  · rw [h]
    cases addUsize d b.offset b.length with
    | ok off =>
      simp only []
      rcases p.addUsize b.inner.length n with h | h
      · left; rw [h]
      · rw [h]
        cases addUsize d b.inner.length n with
        | ok m =>
          simp only []
          rcases p.vecResize b.inner m with h | h
          · left; rw [h]
          · right; rw [h]
        | err e => exact .inr rfl
        | panic => exact .inr rfl
    | err e => exact .inr rfl
    | panic => exact .inr rfl

theorem Dynamic.more_agrees (d r : Cfg) (p : Stricter d r) (n : Nat) :
    SameUnlessPanicMut (Dynamic.more d n) (Dynamic.more r n) := by
  intro b
  unfold Dynamic.more
  simp only []
  rcases p.addUsize b.inner.length n with h | h
  · left; rw [h]
  · rw [h]
    cases addUsize d b.inner.length n with
    | ok m =>
      simp only []
      rcases p.vecResize b.inner m with h | h
      · left; rw [h]
      rw [h]
      cases vecResize d b.inner m with
      | ok v =>
        simp only []
        rcases p.addUsize b.length n with h | h
        · left; rw [h]
        · right; rw [h]
      | err e => exact .inr rfl
      | panic => exact .inr rfl
    | err e => exact .inr rfl
    | panic => exact .inr rfl

theorem Slice.next_agrees (d r : Cfg) (p : Stricter d r) (n : Nat) :
    SameUnlessPanicMut (Slice.next d n) (Slice.next r n) := by
  intro b
  unfold Slice.next
  rcases p.addUsize b.used n with h | h
  · left; rw [h]
  · rw [h]
    cases addUsize d b.used n with
    | ok m =>
      simp only []
      by_cases hl : b.inner.length < m
      · rw [if_pos hl, if_pos hl]; exact .inr rfl
      · rw [if_neg hl, if_neg hl]
        exact Slice.modifyData_agrees d r p (.refl _) _
    | err e => exact .inr rfl
    | panic => exact .inr rfl

theorem Slice.more_agrees (d r : Cfg) (p : Stricter d r) (n : Nat) :
    SameUnlessPanicMut (Slice.more d n) (Slice.more r n) := by
  intro b
  unfold Slice.more
  rcases p.addUsize b.used n with h | h
  · left; rw [h]
  · rw [h]
    cases addUsize d b.used n with
    | ok m =>
      simp only []
      by_cases hl : b.inner.length < m
      · rw [if_pos hl, if_pos hl]; exact .inr rfl
      · rw [if_neg hl, if_neg hl]
        rcases p.addUsize b.length n with h2 | h2
        · left; rw [h2]
        · rw [h2]
          cases addUsize d b.length n with
          | ok len =>
            simp only []
            rcases p.addUsize b.used n with h4 | h4
            · left; rw [h4]
            · rw [h4]
              cases addUsize d b.used n with
              | ok used =>
                simp only []
                rcases p.subUsize len n with h3 | h3
                · left; rw [h3]
                · rw [h3]
                  cases subUsize d len n with
                  | ok st => exact Slice.modifyData_agrees d r p (.refl _) _
                  | err e => exact .inr rfl
                  | panic => exact .inr rfl
              | err e => exact .inr rfl
              | panic => exact .inr rfl
          | err e => exact .inr rfl
          | panic => exact .inr rfl
    | err e => exact .inr rfl
    | panic => exact .inr rfl

instance : SameBuffer Dynamic where
  next e n := Dynamic.next_agrees _ _ e n
  more e n := Dynamic.more_agrees _ _ e n
  data e b := Dynamic.data_agrees _ _ e b
  edit e _ _ h := Dynamic.modifyData_agrees _ _ e h

instance : SameBuffer Slice where
  next e n := Slice.next_agrees _ _ e n
  more e n := Slice.more_agrees _ _ e n
  data e b := Slice.data_agrees _ _ e b
  edit e _ _ h := Slice.modifyData_agrees _ _ e h

/-! ## Outcomes that carry related values -/

/-- The first panics, or both return related values, or both return the same error. -/
inductive Rel {α β : Type} (R : α → β → Prop) : Outcome α → Outcome β → Prop where
  | panic (y : Outcome β) : Rel R .panic y
  | err (e : Error) : Rel R (.err e) (.err e)
  | ok {a : α} {b : β} (h : R a b) : Rel R (.ok a) (.ok b)

namespace Rel
variable {α β γ δ : Type} {R : α → β → Prop} {S : γ → δ → Prop}

theorem bind {x : Outcome α} {y : Outcome β} {f : α → Outcome γ} {g : β → Outcome δ} (h : Rel R x y)
    (hf : ∀ a b, R a b → Rel S (f a) (g b)) : Rel S (x >>= f) (y >>= g) := by
  cases h with
  | panic y => exact .panic _
  | err e => exact .err e
  | ok h => exact hf _ _ h

theorem same {x y : Outcome α} {f : α → Outcome γ} {g : α → Outcome δ} (h : SameUnlessPanic x y)
    (hf : ∀ a, Rel S (f a) (g a)) : Rel S (x >>= f) (y >>= g) := by
  rcases h with rfl | rfl
  · exact .panic _
  · cases y with
    | ok a => exact hf a
    | err e => exact .err e
    | panic => exact .panic _

theorem out {x : Outcome α} {y : Outcome β} {f : α → Outcome γ} {g : β → Outcome γ} (h : Rel R x y)
    (hf : ∀ a b, R a b → SameUnlessPanic (f a) (g b)) : SameUnlessPanic (x >>= f) (y >>= g) := by
  cases h with
  | panic y => exact .inl rfl
  | err e => exact .inr rfl
  | ok h => exact hf _ _ h

theorem runOps {σ Op : Type} {R : σ → σ → Prop} {f g : Op → σ → Outcome σ}
    (h : ∀ op s t, R s t → Rel R (f op s) (g op t)) :
    ∀ ops s t, R s t → Rel R (runOps f ops s) (Verif.runOps g ops t)
  | [], _, _, hr => .ok hr
  | op :: ops, s, t, hr => bind (h op s t hr) fun a b hab => runOps h ops a b hab

end Rel

/-! ## Finalizers -/

/-- Finalizers that agree one by one. -/
inductive Fins : Finalization → Finalization → Prop where
  | nil : Fins [] []
  | cons {f g : Finalizer} {fs gs : Finalization} (h : SameUnlessPanicMut f g) (t : Fins fs gs) : Fins (f :: fs) (g :: gs)

theorem Fins.append {a b c e : Finalization} (h : Fins a b) (k : Fins c e) : Fins (a ++ c) (b ++ e) := by
  induction h with
  | nil => exact k
  | cons h t ih => exact .cons h ih

theorem Fins.reverse {a b : Finalization} (h : Fins a b) : Fins a.reverse b.reverse := by
  induction h with
  | nil => exact .nil
  | cons h t ih => rw [List.reverse_cons, List.reverse_cons]; exact ih.append (.cons h .nil)

theorem Fins.runAll {a b : Finalization} (h : Fins a b) :
    SameUnlessPanicMut (Finalization.runAll a) (Finalization.runAll b) := by
  induction h with
  | nil => exact .refl _
  | cons h t ih => exact SameUnlessPanicMut.bind h fun _ => ih

theorem Fins.add {a b : Finalization} {f g : Finalizer} (h : Fins a b) (k : SameUnlessPanicMut f g) :
    Fins (a.add f) (b.add g) := h.append (.cons k .nil)

theorem Fins.extend {a b : Finalization} (h : Fins a b) : Fins (Finalization.extend [] a) (Finalization.extend [] b) := h

theorem Fins.buildTail {B : Type} [Buffer B] {a b : Finalization} (h : Fins a b) (s : B) :
    SameUnlessPanic (buildTail s a) (buildTail s b) := by
  unfold Verif.buildTail
  refine SameUnlessPanic.bind (.inr rfl) fun out => ?_
  unfold Finalization.finalize
  rcases h.reverse.runAll out with hx | hx
  · left
    rcases hy : Finalization.runAll (List.reverse a) out with ⟨x, o⟩
    rw [hy] at hx
    cases hx
    rfl
  · right; rw [hx]

variable {d r : Cfg}

theorem V4Builder.finalizer_agrees (p : Stricter d r) (o l : Nat) :
    SameUnlessPanicMut (V4Builder.finalizerOf d o l) (V4Builder.finalizerOf r o l) :=
  SameUnlessPanicMut.bind (.refl _) fun _ =>
    SameUnlessPanicMut.bind (SameUnlessPanicMut.read fun _ => p.subUsize _ _) fun _ =>
    SameUnlessPanicMut.bind (.refl _) fun _ =>
    SameUnlessPanicMut.bind (SameUnlessPanicMut.read fun _ => SameUnlessPanic.bind (.inr rfl) fun _ => p.v4Sum _)
      fun _ => .refl _

theorem IcmpBuilder.finalizer_agrees (p : Stricter d r) (o l : Nat) :
    SameUnlessPanicMut (IcmpBuilder.finalizerOf d o l) (IcmpBuilder.finalizerOf r o l) :=
  SameUnlessPanicMut.bind (SameUnlessPanicMut.read fun _ => SameUnlessPanic.bind (.inr rfl) fun _ => p.icmpSum _)
    fun _ => .refl _

theorem UdpBuilder.checksumIn_agrees (p : Stricter d r) (ip udp : Bytes) :
    SameUnlessPanic (UdpBuilder.checksumIn d ip udp) (UdpBuilder.checksumIn r ip udp) := by
  unfold UdpBuilder.checksumIn
  cases V4.noPayload ip with
  | ok q => exact p.udpSum _ _
  | panic => exact .inr rfl
  | err e =>
    simp only []
    cases V6.noPayload ip with
    | ok q => exact p.udpSum _ _
    | panic => exact .inr rfl
    | err e => exact .inr rfl

theorem UdpBuilder.inner_agrees (p : Stricter d r) (ip : Bytes) (l : Nat) :
    SameUnlessPanicMut (UdpBuilder.inner d ip l) (UdpBuilder.inner r ip l) :=
  SameUnlessPanicMut.bind (.refl _) fun _ =>
    SameUnlessPanicMut.bind (SameUnlessPanicMut.read fun _ => UdpBuilder.checksumIn_agrees p _ _) fun _ => .refl _

theorem TcpBuilder.inner_agrees (p : Stricter d r) (ip : Bytes) (l n : Nat) :
    SameUnlessPanicMut (TcpBuilder.inner d ip l n) (TcpBuilder.inner r ip l n) :=
  SameUnlessPanicMut.bind (.refl _) fun _ =>
    SameUnlessPanicMut.bind (SameUnlessPanicMut.read fun _ => p.subUsize _ _) fun _ =>
    SameUnlessPanicMut.bind (.refl _) fun _ =>
    SameUnlessPanicMut.bind (SameUnlessPanicMut.read fun _ => SameUnlessPanic.bind (.inr rfl) fun _ => p.tcpSum _ _)
      fun _ => .refl _

theorem UdpBuilder.finalizer_agrees (p : Stricter d r) (ip : Nat × Nat) (l : Nat) :
    SameUnlessPanicMut (UdpBuilder.finalizerOf d ip l) (UdpBuilder.finalizerOf r ip l) := by
  intro out
  unfold UdpBuilder.finalizerOf
  cases splitAt out (ip.1 + ip.2) with
  | ok s =>
    obtain ⟨before, after⟩ := s
    simp only []
    cases sliceFrom before ip.1 with
    | ok ipb =>
      cases sliceTo after l with
      | ok udp =>
        rcases UdpBuilder.inner_agrees p ipb l udp with h | h
        · exact .inl h
        · right; simp only [h]
      | err e => exact .inr rfl
      | panic => exact .inr rfl
    | err e => exact .inr rfl
    | panic => exact .inr rfl
  | err e => exact .inr rfl
  | panic => exact .inr rfl

theorem TcpBuilder.finalizer_agrees (p : Stricter d r) (ip : Nat × Nat) (l n : Nat) :
    SameUnlessPanicMut (TcpBuilder.finalizerOf d ip l n) (TcpBuilder.finalizerOf r ip l n) := by
  intro out
  unfold TcpBuilder.finalizerOf
  cases splitAt out (ip.1 + ip.2) with
  | ok s =>
    obtain ⟨before, after⟩ := s
    simp only []
    cases sliceFrom before ip.1 with
    | ok ipb =>
      cases sliceTo after l with
      | ok udp =>
        rcases TcpBuilder.inner_agrees p ipb l n udp with h | h
        · exact .inl h
        · right; simp only [h]
      | err e => exact .inr rfl
      | panic => exact .inr rfl
    | err e => exact .inr rfl
    | panic => exact .inr rfl
  | err e => exact .inr rfl
  | panic => exact .inr rfl

/-! ## Builders -/

section
variable {B : Type} [Buffer B] [SameBuffer B] {d r : Cfg} (e : Stricter d r)

local notation "D" => d
local notation "R" => r

include e in
theorem appendAll_agrees : ∀ v : Bytes, SameUnlessPanicMut (appendAll (B := B) D v) (appendAll R v)
  | [] => .refl _
  | _ :: vs => SameUnlessPanicMut.bind (SameBuffer.more e 1) fun _ =>
      SameUnlessPanicMut.bind (SameBuffer.edit e _ _ (.refl _)) fun _ => appendAll_agrees vs

include e in
theorem onData_agrees {f g : Mut Bytes Unit} (h : SameUnlessPanicMut f g) (b : B) :
    SameUnlessPanic (onBuffer (Buffer.modifyData D f) b) (onBuffer (Buffer.modifyData R g) b) :=
  SameUnlessPanicMut.onBuffer (SameBuffer.edit e f g h) b

include e in
theorem next_agrees (n : Nat) (b : B) :
    SameUnlessPanic (onBuffer (Buffer.next D n) b) (onBuffer (Buffer.next R n) b) :=
  SameUnlessPanicMut.onBuffer (SameBuffer.next e n) b

include e in
theorem append_agrees (v : Bytes) (b : B) :
    SameUnlessPanic (onBuffer (appendAll D v) b) (onBuffer (appendAll R v) b) :=
  SameUnlessPanicMut.onBuffer (appendAll_agrees e v) b

/-- The same builder but for finalizers, which agree. -/
def EtherRel (s t : EtherBuilder B) : Prop := ∃ gs, Fins s.finalizer gs ∧ t = { s with finalizer := gs }
/-- The same builder but for finalizers, which agree. -/
def IpRel (s t : IpBuilder B) : Prop := ∃ gs, Fins s.finalizer gs ∧ t = { s with finalizer := gs }
/-- The same builder but for finalizers, which agree. -/
def V4Rel (s t : V4Builder B) : Prop := ∃ gs, Fins s.finalizer gs ∧ t = { s with finalizer := gs }
/-- The same builder but for finalizers, which agree. -/
def UdpRel (s t : UdpBuilder B) : Prop := ∃ gs, Fins s.finalizer gs ∧ t = { s with finalizer := gs }
/-- The same builder but for finalizers, which agree. -/
def TcpRel (s t : TcpBuilder B) : Prop := ∃ gs, Fins s.finalizer gs ∧ t = { s with finalizer := gs }
/-- The same builder but for finalizers, which agree. -/
def IcmpRel (s t : IcmpBuilder B) : Prop := ∃ gs, Fins s.finalizer gs ∧ t = { s with finalizer := gs }
/-- The same builder but for finalizers, which agree. -/
def EchoRel (s t : EchoBuilder B) : Prop := ∃ gs, Fins s.finalizer gs ∧ t = { s with finalizer := gs }
/-- The same builder but for finalizers, which agree. -/
def TimestampRel (s t : TimestampBuilder B) : Prop := ∃ gs, Fins s.finalizer gs ∧ t = { s with finalizer := gs }
/-- The same builder but for finalizers, which agree. -/
def InformationRel (s t : InformationBuilder B) : Prop := ∃ gs, Fins s.finalizer gs ∧ t = { s with finalizer := gs }

include e in
theorem EtherBuilder.setter_agrees {f g : Mut Bytes Unit} (h : SameUnlessPanicMut f g) (s t : EtherBuilder B) (hr : EtherRel s t) :
    Rel EtherRel (EtherBuilder.setter D f s) (EtherBuilder.setter R g t) := by
  obtain ⟨gs, hf, rfl⟩ := hr
  exact Rel.same (onData_agrees e h s.buffer) fun b => .ok ⟨gs, hf, rfl⟩

include e in
theorem V4Builder.setter_agrees {f g : Mut Bytes Unit} (h : SameUnlessPanicMut f g) (s t : V4Builder B) (hr : V4Rel s t) :
    Rel V4Rel (V4Builder.setter D f s) (V4Builder.setter R g t) := by
  obtain ⟨gs, hf, rfl⟩ := hr
  exact Rel.same (onData_agrees e h s.buffer) fun b => .ok ⟨gs, hf, rfl⟩

include e in
theorem UdpBuilder.setter_agrees {f g : Mut Bytes Unit} (h : SameUnlessPanicMut f g) (s t : UdpBuilder B) (hr : UdpRel s t) :
    Rel UdpRel (UdpBuilder.setter D f s) (UdpBuilder.setter R g t) := by
  obtain ⟨gs, hf, rfl⟩ := hr
  exact Rel.same (onData_agrees e h s.buffer) fun b => .ok ⟨gs, hf, rfl⟩

include e in
theorem TcpBuilder.setter_agrees {f g : Mut Bytes Unit} (h : SameUnlessPanicMut f g) (s t : TcpBuilder B) (hr : TcpRel s t) :
    Rel TcpRel (TcpBuilder.setter D f s) (TcpBuilder.setter R g t) := by
  obtain ⟨gs, hf, rfl⟩ := hr
  exact Rel.same (onData_agrees e h s.buffer) fun b => .ok ⟨gs, hf, rfl⟩

include e in
theorem EchoBuilder.setter_agrees {f g : Mut Bytes Unit} (h : SameUnlessPanicMut f g) (s t : EchoBuilder B) (hr : EchoRel s t) :
    Rel EchoRel (EchoBuilder.setter D f s) (EchoBuilder.setter R g t) := by
  obtain ⟨gs, hf, rfl⟩ := hr
  exact Rel.same (onData_agrees e h s.buffer) fun b => .ok ⟨gs, hf, rfl⟩

include e in
theorem TimestampBuilder.setter_agrees {f g : Mut Bytes Unit} (h : SameUnlessPanicMut f g) (s t : TimestampBuilder B) (hr : TimestampRel s t) :
    Rel TimestampRel (TimestampBuilder.setter D f s) (TimestampBuilder.setter R g t) := by
  obtain ⟨gs, hf, rfl⟩ := hr
  exact Rel.same (onData_agrees e h s.buffer) fun b => .ok ⟨gs, hf, rfl⟩

include e in
theorem InformationBuilder.setter_agrees {f g : Mut Bytes Unit} (h : SameUnlessPanicMut f g) (s t : InformationBuilder B) (hr : InformationRel s t) :
    Rel InformationRel (InformationBuilder.setter D f s) (InformationBuilder.setter R g t) := by
  obtain ⟨gs, hf, rfl⟩ := hr
  exact Rel.same (onData_agrees e h s.buffer) fun b => .ok ⟨gs, hf, rfl⟩

include e in
theorem EtherBuilder.payload_agrees (v : Bytes) (s t : EtherBuilder B) (hr : EtherRel s t) :
    Rel EtherRel (EtherBuilder.setPayload D v s) (EtherBuilder.setPayload R v t) := by
  obtain ⟨gs, hf, rfl⟩ := hr
  unfold EtherBuilder.setPayload
  by_cases hp : s.payload
  · rw [if_pos hp, if_pos (by exact hp)]; exact .err _
  · rw [if_neg hp, if_neg (by exact hp)]
    exact Rel.same (append_agrees e v s.buffer) fun b => .ok ⟨gs, hf, rfl⟩

include e in
theorem V4Builder.payload_agrees (v : Bytes) (s t : V4Builder B) (hr : V4Rel s t) :
    Rel V4Rel (V4Builder.setPayload D v s) (V4Builder.setPayload R v t) := by
  obtain ⟨gs, hf, rfl⟩ := hr
  unfold V4Builder.setPayload
  by_cases hp : s.payload
  · rw [if_pos hp, if_pos (by exact hp)]; exact .err _
  · rw [if_neg hp, if_neg (by exact hp)]
    exact Rel.same (append_agrees e v s.buffer) fun b => .ok ⟨gs, hf, rfl⟩

include e in
theorem UdpBuilder.payload_agrees (v : Bytes) (s t : UdpBuilder B) (hr : UdpRel s t) :
    Rel UdpRel (UdpBuilder.setPayload D v s) (UdpBuilder.setPayload R v t) := by
  obtain ⟨gs, hf, rfl⟩ := hr
  unfold UdpBuilder.setPayload
  by_cases hp : s.payload
  · rw [if_pos hp, if_pos (by exact hp)]; exact .err _
  · rw [if_neg hp, if_neg (by exact hp)]
    exact Rel.same (append_agrees e v s.buffer) fun b => .ok ⟨gs, hf, rfl⟩

include e in
theorem TcpBuilder.payload_agrees (v : Bytes) (s t : TcpBuilder B) (hr : TcpRel s t) :
    Rel TcpRel (TcpBuilder.setPayload D v s) (TcpBuilder.setPayload R v t) := by
  obtain ⟨gs, hf, rfl⟩ := hr
  unfold TcpBuilder.setPayload
  by_cases hp : s.payload
  · rw [if_pos hp, if_pos (by exact hp)]; exact .err _
  · rw [if_neg hp, if_neg (by exact hp)]
    exact Rel.same (append_agrees e v s.buffer) fun b => .ok ⟨gs, hf, rfl⟩

include e in
theorem EchoBuilder.payload_agrees (v : Bytes) (s t : EchoBuilder B) (hr : EchoRel s t) :
    Rel EchoRel (EchoBuilder.setPayload D v s) (EchoBuilder.setPayload R v t) := by
  obtain ⟨gs, hf, rfl⟩ := hr
  unfold EchoBuilder.setPayload
  by_cases hp : s.payload
  · rw [if_pos hp, if_pos (by exact hp)]; exact .err _
  · rw [if_neg hp, if_neg (by exact hp)]
    exact Rel.same (append_agrees e v s.buffer) fun b => .ok ⟨gs, hf, rfl⟩

include e in
theorem EtherOp.agrees (op : EtherOp) (s t : EtherBuilder B) (hr : EtherRel s t) : Rel EtherRel (op.run D s) (op.run R t) := by
  cases op with
  | destination v => exact EtherBuilder.setter_agrees e (.refl _) s t hr
  | source v => exact EtherBuilder.setter_agrees e (.refl _) s t hr
  | protocol v => exact EtherBuilder.setter_agrees e (.refl _) s t hr
  | payload v => exact EtherBuilder.payload_agrees e v s t hr

include e in
theorem V4Op.agrees (op : V4Op) (s t : V4Builder B) (hr : V4Rel s t) : Rel V4Rel (op.run D s) (op.run R t) := by
  cases op with
  | dscp v => exact V4Builder.setter_agrees e (.refl _) s t hr
  | ecn v => exact V4Builder.setter_agrees e (.refl _) s t hr
  | id v => exact V4Builder.setter_agrees e (.refl _) s t hr
  | flags v => exact V4Builder.setter_agrees e (.refl _) s t hr
  | offset v => exact V4Builder.setter_agrees e (.refl _) s t hr
  | ttl v => exact V4Builder.setter_agrees e (.refl _) s t hr
  | source v => exact V4Builder.setter_agrees e (.refl _) s t hr
  | destination v => exact V4Builder.setter_agrees e (.refl _) s t hr
  | protocol v => exact V4Builder.setter_agrees e (.refl _) s t hr
  | payload v => exact V4Builder.payload_agrees e v s t hr

include e in
theorem UdpOp.agrees (op : UdpOp) (s t : UdpBuilder B) (hr : UdpRel s t) : Rel UdpRel (op.run D s) (op.run R t) := by
  cases op with
  | source v => exact UdpBuilder.setter_agrees e (.refl _) s t hr
  | destination v => exact UdpBuilder.setter_agrees e (.refl _) s t hr
  | payload v => exact UdpBuilder.payload_agrees e v s t hr

include e in
theorem TcpOp.agrees (op : TcpOp) (s t : TcpBuilder B) (hr : TcpRel s t) : Rel TcpRel (op.run D s) (op.run R t) := by
  cases op with
  | source v => exact TcpBuilder.setter_agrees e (.refl _) s t hr
  | destination v => exact TcpBuilder.setter_agrees e (.refl _) s t hr
  | sequence v => exact TcpBuilder.setter_agrees e (.refl _) s t hr
  | acknowledgment v => exact TcpBuilder.setter_agrees e (.refl _) s t hr
  | flags v => exact TcpBuilder.setter_agrees e (.refl _) s t hr
  | window v => exact TcpBuilder.setter_agrees e (.refl _) s t hr
  | pointer v => exact TcpBuilder.setter_agrees e (.refl _) s t hr
  | payload v => exact TcpBuilder.payload_agrees e v s t hr

include e in
theorem EchoOp.agrees (op : EchoOp) (s t : EchoBuilder B) (hr : EchoRel s t) : Rel EchoRel (op.run D s) (op.run R t) := by
  cases op with
  | request =>
    obtain ⟨gs, hf, rfl⟩ := hr
    exact EchoBuilder.setter_agrees e (.refl _) _ _ ⟨gs, hf, rfl⟩
  | reply =>
    obtain ⟨gs, hf, rfl⟩ := hr
    exact EchoBuilder.setter_agrees e (.refl _) _ _ ⟨gs, hf, rfl⟩
  | identifier v => exact EchoBuilder.setter_agrees e (.refl _) s t hr
  | sequence v => exact EchoBuilder.setter_agrees e (.refl _) s t hr
  | payload v => exact EchoBuilder.payload_agrees e v s t hr

include e in
theorem TimestampOp.agrees (op : TimestampOp) (s t : TimestampBuilder B) (hr : TimestampRel s t) : Rel TimestampRel (op.run D s) (op.run R t) := by
  cases op with
  | request =>
    obtain ⟨gs, hf, rfl⟩ := hr
    exact TimestampBuilder.setter_agrees e (.refl _) _ _ ⟨gs, hf, rfl⟩
  | reply =>
    obtain ⟨gs, hf, rfl⟩ := hr
    exact TimestampBuilder.setter_agrees e (.refl _) _ _ ⟨gs, hf, rfl⟩
  | identifier v => exact TimestampBuilder.setter_agrees e (.refl _) s t hr
  | sequence v => exact TimestampBuilder.setter_agrees e (.refl _) s t hr
  | originate v => exact TimestampBuilder.setter_agrees e (.refl _) s t hr
  | receive v => exact TimestampBuilder.setter_agrees e (.refl _) s t hr
  | transmit v => exact TimestampBuilder.setter_agrees e (.refl _) s t hr

include e in
theorem InformationOp.agrees (op : InformationOp) (s t : InformationBuilder B) (hr : InformationRel s t) : Rel InformationRel (op.run D s) (op.run R t) := by
  cases op with
  | request =>
    obtain ⟨gs, hf, rfl⟩ := hr
    exact InformationBuilder.setter_agrees e (.refl _) _ _ ⟨gs, hf, rfl⟩
  | reply =>
    obtain ⟨gs, hf, rfl⟩ := hr
    exact InformationBuilder.setter_agrees e (.refl _) _ _ ⟨gs, hf, rfl⟩
  | identifier v => exact InformationBuilder.setter_agrees e (.refl _) s t hr
  | sequence v => exact InformationBuilder.setter_agrees e (.refl _) s t hr

include e in
theorem EtherBuilder.edit_agrees (op : Ether.Set) (s t : EtherBuilder B) (hr : EtherRel s t) :
    Rel EtherRel (EtherBuilder.edit D op s) (EtherBuilder.edit R op t) := EtherBuilder.setter_agrees e (.refl _) s t hr

include e in
theorem V4Builder.edit_agrees (op : V4.Set) (s t : V4Builder B) (hr : V4Rel s t) :
    Rel V4Rel (V4Builder.edit D op s) (V4Builder.edit R op t) := V4Builder.setter_agrees e (.refl _) s t hr

include e in
theorem UdpBuilder.edit_agrees (op : Udp.Set) (s t : UdpBuilder B) (hr : UdpRel s t) :
    Rel UdpRel (UdpBuilder.edit D op s) (UdpBuilder.edit R op t) := UdpBuilder.setter_agrees e (.refl _) s t hr

include e in
theorem TcpBuilder.edit_agrees (op : Tcp.Set) (s t : TcpBuilder B) (hr : TcpRel s t) :
    Rel TcpRel (TcpBuilder.edit D op s) (TcpBuilder.edit R op t) := TcpBuilder.setter_agrees e (.refl _) s t hr

include e in
theorem EchoBuilder.edit_agrees (op : Echo.Set) (s t : EchoBuilder B) (hr : EchoRel s t) :
    Rel EchoRel (EchoBuilder.edit D op s) (EchoBuilder.edit R op t) := EchoBuilder.setter_agrees e (.refl _) s t hr

include e in
theorem TimestampBuilder.edit_agrees (op : Timestamp.Set) (s t : TimestampBuilder B) (hr : TimestampRel s t) :
    Rel TimestampRel (TimestampBuilder.edit D op s) (TimestampBuilder.edit R op t) := TimestampBuilder.setter_agrees e (.refl _) s t hr

include e in
theorem InformationBuilder.edit_agrees (op : Information.Set) (s t : InformationBuilder B) (hr : InformationRel s t) :
    Rel InformationRel (InformationBuilder.edit D op s) (InformationBuilder.edit R op t) := InformationBuilder.setter_agrees e (.refl _) s t hr

theorem EtherBuilder.addFinalizer_agrees {f g : Finalizer} (h : SameUnlessPanicMut f g) (s t : EtherBuilder B) (hr : EtherRel s t) :
    EtherRel (s.addFinalizer f) (t.addFinalizer g) := by
  obtain ⟨gs, hf, rfl⟩ := hr
  exact ⟨_, hf.add h, rfl⟩

theorem V4Builder.addFinalizer_agrees {f g : Finalizer} (h : SameUnlessPanicMut f g) (s t : V4Builder B) (hr : V4Rel s t) :
    V4Rel (s.addFinalizer f) (t.addFinalizer g) := by
  obtain ⟨gs, hf, rfl⟩ := hr
  exact ⟨_, hf.add h, rfl⟩

theorem UdpBuilder.addFinalizer_agrees {f g : Finalizer} (h : SameUnlessPanicMut f g) (s t : UdpBuilder B) (hr : UdpRel s t) :
    UdpRel (s.addFinalizer f) (t.addFinalizer g) := by
  obtain ⟨gs, hf, rfl⟩ := hr
  exact ⟨_, hf.add h, rfl⟩

theorem TcpBuilder.addFinalizer_agrees {f g : Finalizer} (h : SameUnlessPanicMut f g) (s t : TcpBuilder B) (hr : TcpRel s t) :
    TcpRel (s.addFinalizer f) (t.addFinalizer g) := by
  obtain ⟨gs, hf, rfl⟩ := hr
  exact ⟨_, hf.add h, rfl⟩

theorem EchoBuilder.addFinalizer_agrees {f g : Finalizer} (h : SameUnlessPanicMut f g) (s t : EchoBuilder B) (hr : EchoRel s t) :
    EchoRel (s.addFinalizer f) (t.addFinalizer g) := by
  obtain ⟨gs, hf, rfl⟩ := hr
  exact ⟨_, hf.add h, rfl⟩

theorem TimestampBuilder.addFinalizer_agrees {f g : Finalizer} (h : SameUnlessPanicMut f g) (s t : TimestampBuilder B) (hr : TimestampRel s t) :
    TimestampRel (s.addFinalizer f) (t.addFinalizer g) := by
  obtain ⟨gs, hf, rfl⟩ := hr
  exact ⟨_, hf.add h, rfl⟩

theorem InformationBuilder.addFinalizer_agrees {f g : Finalizer} (h : SameUnlessPanicMut f g) (s t : InformationBuilder B) (hr : InformationRel s t) :
    InformationRel (s.addFinalizer f) (t.addFinalizer g) := by
  obtain ⟨gs, hf, rfl⟩ := hr
  exact ⟨_, hf.add h, rfl⟩

theorem IpBuilder.addFinalizer_agrees {f g : Finalizer} (h : SameUnlessPanicMut f g) (s t : IpBuilder B) (hr : IpRel s t) :
    IpRel (s.addFinalizer f) (t.addFinalizer g) := by
  obtain ⟨gs, hf, rfl⟩ := hr
  exact ⟨_, hf.add h, rfl⟩

theorem IcmpBuilder.addFinalizer_agrees {f g : Finalizer} (h : SameUnlessPanicMut f g) (s t : IcmpBuilder B) (hr : IcmpRel s t) :
    IcmpRel (s.addFinalizer f) (t.addFinalizer g) := by
  obtain ⟨gs, hf, rfl⟩ := hr
  exact ⟨_, hf.add h, rfl⟩

include e in
theorem EtherBuilder.with_agrees (b : B) : Rel EtherRel (EtherBuilder.«with» D b) (EtherBuilder.«with» R b) :=
  Rel.same (next_agrees e _ b) fun _ => .ok ⟨[], .nil, rfl⟩

include e in
theorem V4Builder.with_agrees (b : B) : Rel V4Rel (V4Builder.«with» D b) (V4Builder.«with» R b) :=
  Rel.same (next_agrees e _ b) fun b => Rel.same (onData_agrees e (.refl _) b) fun _ => .ok ⟨[], .nil, rfl⟩

include e in
theorem UdpBuilder.with_agrees (b : B) : Rel UdpRel (UdpBuilder.«with» D b) (UdpBuilder.«with» R b) :=
  Rel.same (next_agrees e _ b) fun _ => .ok ⟨[], .nil, rfl⟩

include e in
theorem TcpBuilder.with_agrees (b : B) : Rel TcpRel (TcpBuilder.«with» D b) (TcpBuilder.«with» R b) :=
  Rel.same (next_agrees e _ b) fun b => Rel.same (onData_agrees e (.refl _) b) fun _ => .ok ⟨[], .nil, rfl⟩

include e in
theorem EchoBuilder.with_agrees (b : B) : Rel EchoRel (EchoBuilder.«with» D b) (EchoBuilder.«with» R b) :=
  Rel.same (next_agrees e _ b) fun _ => .ok ⟨[], .nil, rfl⟩

include e in
theorem TimestampBuilder.with_agrees (b : B) :
    Rel TimestampRel (TimestampBuilder.«with» D b) (TimestampBuilder.«with» R b) :=
  Rel.same (next_agrees e _ b) fun _ => .ok ⟨[], .nil, rfl⟩

include e in
theorem InformationBuilder.with_agrees (b : B) :
    Rel InformationRel (InformationBuilder.«with» D b) (InformationBuilder.«with» R b) :=
  Rel.same (next_agrees e _ b) fun _ => .ok ⟨[], .nil, rfl⟩

theorem EtherBuilder.ip_agrees (s t : EtherBuilder B) (hr : EtherRel s t) :
    Rel IpRel (EtherBuilder.ip s) (EtherBuilder.ip t) := by
  obtain ⟨gs, hf, rfl⟩ := hr
  unfold EtherBuilder.ip
  by_cases hp : s.payload
  · rw [if_pos hp, if_pos (by exact hp)]; exact .err _
  · rw [if_neg hp, if_neg (by exact hp)]
    exact .ok ⟨_, (hf.add (.refl _)).extend, rfl⟩

include e in
theorem V4Builder.prepare_agrees (s t : V4Builder B) (hr : V4Rel s t) : V4Rel (s.prepare D) (t.prepare R) := by
  obtain ⟨gs, hf, rfl⟩ := hr
  exact ⟨_, hf.add (V4Builder.finalizer_agrees e _ _), rfl⟩

include e in
theorem V4Builder.enter_agrees (q : IpProtocol) (s t : V4Builder B) (hr : V4Rel s t) :
    Rel V4Rel (s.enter D q) (t.enter R q) := by
  have hp : t.payload = s.payload := by obtain ⟨gs, hf, rfl⟩ := hr; rfl
  unfold V4Builder.enter
  rw [hp]
  split
  · exact .err _
  · exact Rel.bind (V4Builder.setter_agrees e (.refl _) s t hr) fun a b hab => .ok (V4Builder.prepare_agrees e a b hab)

include e in
theorem IpBuilder.v4_agrees (s t : IpBuilder B) (hr : IpRel s t) : Rel V4Rel (s.v4 D) (t.v4 R) := by
  obtain ⟨gs, hf, rfl⟩ := hr
  refine Rel.bind (V4Builder.with_agrees e s.buffer) fun a b hab => ?_
  obtain ⟨hs, hh, rfl⟩ := hab
  exact .ok ⟨_, hh.append hf, rfl⟩

include e in
theorem V4Builder.udp_agrees (s t : V4Builder B) (hr : V4Rel s t) : Rel UdpRel (s.udp D) (t.udp R) := by
  refine Rel.bind (V4Builder.enter_agrees e _ s t hr) fun a b hab => ?_
  obtain ⟨gs, hf, rfl⟩ := hab
  refine Rel.bind (UdpBuilder.with_agrees e a.buffer) fun u v huv => ?_
  obtain ⟨hs, hh, rfl⟩ := huv
  exact .ok ⟨_, hh.append hf, rfl⟩

include e in
theorem V4Builder.tcp_agrees (s t : V4Builder B) (hr : V4Rel s t) : Rel TcpRel (s.tcp D) (t.tcp R) := by
  refine Rel.bind (V4Builder.enter_agrees e _ s t hr) fun a b hab => ?_
  obtain ⟨gs, hf, rfl⟩ := hab
  refine Rel.bind (TcpBuilder.with_agrees e a.buffer) fun u v huv => ?_
  obtain ⟨hs, hh, rfl⟩ := huv
  exact .ok ⟨_, hh.append hf, rfl⟩

include e in
theorem V4Builder.icmp_agrees (s t : V4Builder B) (hr : V4Rel s t) : Rel IcmpRel (s.icmp D) (t.icmp R) := by
  refine Rel.bind (V4Builder.enter_agrees e _ s t hr) fun a b hab => ?_
  obtain ⟨gs, hf, rfl⟩ := hab
  exact .ok ⟨_, hf, rfl⟩

include e in
theorem IcmpBuilder.echo_agrees (s t : IcmpBuilder B) (hr : IcmpRel s t) : Rel EchoRel (s.echo D) (t.echo R) := by
  obtain ⟨gs, hf, rfl⟩ := hr
  refine Rel.bind (EchoBuilder.with_agrees e s.buffer) fun u v huv => ?_
  obtain ⟨hs, hh, rfl⟩ := huv
  exact .ok ⟨_, hh.append hf, rfl⟩

include e in
theorem IcmpBuilder.timestamp_agrees (s t : IcmpBuilder B) (hr : IcmpRel s t) :
    Rel TimestampRel (s.timestamp D) (t.timestamp R) := by
  obtain ⟨gs, hf, rfl⟩ := hr
  refine Rel.bind (TimestampBuilder.with_agrees e s.buffer) fun u v huv => ?_
  obtain ⟨hs, hh, rfl⟩ := huv
  exact .ok ⟨_, hh.append hf, rfl⟩

include e in
theorem IcmpBuilder.information_agrees (s t : IcmpBuilder B) (hr : IcmpRel s t) :
    Rel InformationRel (s.information D) (t.information R) := by
  obtain ⟨gs, hf, rfl⟩ := hr
  refine Rel.bind (InformationBuilder.with_agrees e s.buffer) fun u v huv => ?_
  obtain ⟨hs, hh, rfl⟩ := huv
  exact .ok ⟨_, hh.append hf, rfl⟩

theorem EtherBuilder.build_agrees (s t : EtherBuilder B) (hr : EtherRel s t) : SameUnlessPanic s.build t.build := by
  obtain ⟨gs, hf, rfl⟩ := hr
  exact hf.buildTail _

include e in
theorem V4Builder.build_agrees (s t : V4Builder B) (hr : V4Rel s t) : SameUnlessPanic (s.build D) (t.build R) := by
  obtain ⟨gs, hf, rfl⟩ := hr
  exact (hf.add (V4Builder.finalizer_agrees e _ _)).buildTail _

include e in
theorem UdpBuilder.build_agrees (s t : UdpBuilder B) (hr : UdpRel s t) : SameUnlessPanic (s.build D) (t.build R) := by
  obtain ⟨gs, hf, rfl⟩ := hr
  exact (hf.add (UdpBuilder.finalizer_agrees e _ _)).buildTail _

include e in
theorem TcpBuilder.build_agrees (s t : TcpBuilder B) (hr : TcpRel s t) : SameUnlessPanic (s.build D) (t.build R) := by
  obtain ⟨gs, hf, rfl⟩ := hr
  exact (hf.add (TcpBuilder.finalizer_agrees e _ _ _)).buildTail _

include e in
theorem EchoBuilder.build_agrees (s t : EchoBuilder B) (hr : EchoRel s t) : SameUnlessPanic (s.build D) (t.build R) := by
  obtain ⟨gs, hf, rfl⟩ := hr
  unfold EchoBuilder.build
  by_cases hk : ¬ s.kind = true
  · rw [if_pos hk, if_pos (by exact hk)]; exact .inr rfl
  · rw [if_neg hk, if_neg (by exact hk)]
    exact (hf.add (IcmpBuilder.finalizer_agrees e _ _)).buildTail _

include e in
theorem TimestampBuilder.build_agrees (s t : TimestampBuilder B) (hr : TimestampRel s t) : SameUnlessPanic (s.build D) (t.build R) := by
  obtain ⟨gs, hf, rfl⟩ := hr
  unfold TimestampBuilder.build
  by_cases hk : ¬ s.kind = true
  · rw [if_pos hk, if_pos (by exact hk)]; exact .inr rfl
  · rw [if_neg hk, if_neg (by exact hk)]
    exact (hf.add (IcmpBuilder.finalizer_agrees e _ _)).buildTail _

include e in
theorem InformationBuilder.build_agrees (s t : InformationBuilder B) (hr : InformationRel s t) : SameUnlessPanic (s.build D) (t.build R) := by
  obtain ⟨gs, hf, rfl⟩ := hr
  unfold InformationBuilder.build
  by_cases hk : ¬ s.kind = true
  · rw [if_pos hk, if_pos (by exact hk)]; exact .inr rfl
  · rw [if_neg hk, if_neg (by exact hk)]
    exact (hf.add (IcmpBuilder.finalizer_agrees e _ _)).buildTail _

include e in
theorem EtherBuilder.asPacket_agrees (s t : EtherBuilder B) (hr : EtherRel s t) : SameUnlessPanic (s.asPacket D) (t.asPacket R) := by
  obtain ⟨gs, hf, rfl⟩ := hr
  exact SameUnlessPanic.bind (SameBuffer.data e s.buffer) fun _ => .inr rfl

include e in
theorem V4Builder.asPacket_agrees (s t : V4Builder B) (hr : V4Rel s t) : SameUnlessPanic (s.asPacket D) (t.asPacket R) := by
  obtain ⟨gs, hf, rfl⟩ := hr
  exact SameUnlessPanic.bind (SameBuffer.data e s.buffer) fun _ => .inr rfl

include e in
theorem UdpBuilder.asPacket_agrees (s t : UdpBuilder B) (hr : UdpRel s t) : SameUnlessPanic (s.asPacket D) (t.asPacket R) := by
  obtain ⟨gs, hf, rfl⟩ := hr
  exact SameUnlessPanic.bind (SameBuffer.data e s.buffer) fun _ => .inr rfl

include e in
theorem TcpBuilder.asPacket_agrees (s t : TcpBuilder B) (hr : TcpRel s t) : SameUnlessPanic (s.asPacket D) (t.asPacket R) := by
  obtain ⟨gs, hf, rfl⟩ := hr
  exact SameUnlessPanic.bind (SameBuffer.data e s.buffer) fun _ => .inr rfl

include e in
theorem EchoBuilder.asPacket_agrees (s t : EchoBuilder B) (hr : EchoRel s t) : SameUnlessPanic (s.asPacket D) (t.asPacket R) := by
  obtain ⟨gs, hf, rfl⟩ := hr
  exact SameUnlessPanic.bind (SameBuffer.data e s.buffer) fun _ => .inr rfl

include e in
theorem TimestampBuilder.asPacket_agrees (s t : TimestampBuilder B) (hr : TimestampRel s t) : SameUnlessPanic (s.asPacket D) (t.asPacket R) := by
  obtain ⟨gs, hf, rfl⟩ := hr
  exact SameUnlessPanic.bind (SameBuffer.data e s.buffer) fun _ => .inr rfl

include e in
theorem InformationBuilder.asPacket_agrees (s t : InformationBuilder B) (hr : InformationRel s t) : SameUnlessPanic (s.asPacket D) (t.asPacket R) := by
  obtain ⟨gs, hf, rfl⟩ := hr
  exact SameUnlessPanic.bind (SameBuffer.data e s.buffer) fun _ => .inr rfl

end

end Verif
