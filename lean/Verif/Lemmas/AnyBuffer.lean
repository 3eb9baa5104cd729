import Verif.Props.Buffer
import Verif.Spec.AnyBuffer

/-!
# The same program on two buffers

`Backs R` says that `R b l` relates a buffer to the stack of layers it shows.  `CallPair` relates one and the same call
made on two buffers of different types; programs are compositions of such calls.
-/

namespace Verif.AnyBuffer
open Verif Verif.Spec Verif.Props

theorem failWith_bind {α β : Type} (x : Option Error) (k : α → Outcome β) :
    (failWith x >>= k) = (failWith x : Outcome β) := by cases x <;> rfl

theorem failWith_ne {α : Type} (x : Option Error) (a : α) : (failWith x : Outcome α) ≠ .ok a := by
  cases x <;> (intro h; cases h)

/-- The write does not change how long the slice is. -/
def KeepsLen {α : Type} (m : Mut Bytes α) : Prop := ∀ d, (m d).2.length = d.length

/-! ## What keeps the length -/

namespace KeepsLen

theorem read {α : Type} (f : Bytes → Outcome α) : KeepsLen (Mut.read f) := fun _ => rfl
theorem fail {α : Type} (e : Error) : KeepsLen (Mut.fail e : Mut Bytes α) := fun _ => rfl
theorem panic {α : Type} : KeepsLen (Mut.panic : Mut Bytes α) := fun _ => rfl
theorem pure {α : Type} (a : α) : KeepsLen (Pure.pure a : Mut Bytes α) := fun _ => rfl

theorem bind {α β : Type} {x : Mut Bytes α} {k : α → Mut Bytes β} (hx : KeepsLen x) (hk : ∀ a, KeepsLen (k a)) :
    KeepsLen (x >>= k) := by
  intro d
  have h := hx d
  rw [Mut.bind_apply]
  rcases e : x d with ⟨o, d'⟩
  rw [e] at h
  cases o with
  | ok a => exact (hk a d').trans h
  | err _ => exact h
  | panic => exact h

theorem put_len {b bs : Bytes} {off : Nat} (h : off + bs.length ≤ b.length) : (put b off bs).length = b.length := by
  simp only [put, List.length_append, List.length_take, List.length_drop]
  omega

theorem setIdx (i : Nat) (v : U8) : KeepsLen (setIdx i v) := by
  intro d
  unfold Verif.setIdx
  split
  · exact put_len (by simp; omega)
  · rfl

theorem copyRange (i j : Nat) (bs : Bytes) : KeepsLen (copyRange i j bs) := by
  intro d
  unfold Verif.copyRange
  split
  · exact put_len (by omega)
  · rfl

theorem cursorWrite (off : Nat) (bs : Bytes) : KeepsLen (cursorWrite off bs) := by
  intro d
  unfold Verif.cursorWrite
  split
  · split
    · exact put_len (by omega)
    · exact put_len (by simp only [List.length_take]; omega)
  · rfl

theorem writeU16 (off : Nat) (v : U16) : KeepsLen (writeU16 off v) := cursorWrite _ _
theorem writeU32 (off : Nat) (v : U32) : KeepsLen (writeU32 off v) := cursorWrite _ _

theorem setLast (v : U8) : KeepsLen (setLast v) := by
  intro d
  unfold Verif.setLast
  split
  · rfl
  · exact put_len (by simp; omega)

theorem onHeader {split : Bytes → Outcome (Bytes × Bytes)} (hs : ∀ b h p, split b = .ok (h, p) → h.length ≤ b.length)
    {f : Mut Bytes Unit} (hf : KeepsLen f) : KeepsLen (onHeader split f) := by
  intro d
  unfold Verif.onHeader
  rcases e : split d with ⟨h, p⟩ | x | _
  · have := hs d h p e
    simp only [List.length_append, List.length_drop, hf h]
    omega
  · rfl
  · rfl

end KeepsLen

/-! ## The setters and finalizers of the builders keep the length -/

theorem splitAt_len {b h p : Bytes} {i : Nat} (e : splitAt b i = .ok (h, p)) : h.length ≤ b.length := by
  unfold splitAt at e
  split at e
  · injection e with e
    injection e with e _
    rw [← e, List.length_take]
    omega
  · cases e

theorem V4.split_len (b h p : Bytes) (e : V4.split b = .ok (h, p)) : h.length ≤ b.length := by
  unfold V4.split at e
  rcases e1 : V4.ihl b with x | x | _
  · rcases e2 : V4.payloadSize b with y | y | _
    · rw [e1, e2] at e
      simp only [Outcome.ok_bind] at e
      split at e
      · exact splitAt_len e
      · unfold sliceTo at e
        split at e
        · have := splitAt_len e
          rw [List.length_take] at this
          omega
        · cases e
    · rw [e1, e2] at e; cases e
    · rw [e1, e2] at e; cases e
  · rw [e1] at e; cases e
  · rw [e1] at e; cases e

theorem Udp.split_len (b h p : Bytes) (e : Udp.split b = .ok (h, p)) : h.length ≤ b.length := by
  unfold Udp.split at e
  rcases e2 : Udp.payloadSize b with y | y | _
  · rw [e2] at e
    simp only [Outcome.ok_bind] at e
    split at e
    · exact splitAt_len e
    · unfold sliceTo at e
      split at e
      · have := splitAt_len e
        rw [List.length_take] at this
        omega
      · cases e
  · rw [e2] at e; cases e
  · rw [e2] at e; cases e

theorem Tcp.split_len (b h p : Bytes) (e : Tcp.split b = .ok (h, p)) : h.length ≤ b.length := by
  unfold Tcp.split at e
  rcases e1 : Tcp.offset b with x | x | _
  · rw [e1] at e
    exact splitAt_len e
  · rw [e1] at e; cases e
  · rw [e1] at e; cases e

namespace KeepsLen

theorem v4Dscp (v : U8) : KeepsLen (V4.setDscp v) := by
  unfold V4.setDscp
  split
  · exact fail _
  · exact bind (read _) fun _ => setIdx _ _

theorem v4Ecn (v : U8) : KeepsLen (V4.setEcn v) := by
  unfold V4.setEcn
  split
  · exact fail _
  · exact bind (read _) fun _ => setIdx _ _

theorem v4 {f : Mut Bytes Unit} (h : KeepsLen f) : KeepsLen (Verif.onHeader V4.split f) := onHeader V4.split_len h
theorem udp {f : Mut Bytes Unit} (h : KeepsLen f) : KeepsLen (Verif.onHeader Udp.split f) := onHeader Udp.split_len h
theorem tcp {f : Mut Bytes Unit} (h : KeepsLen f) : KeepsLen (Verif.onHeader Tcp.split f) := onHeader Tcp.split_len h

theorem tcpFlags (v : TcpFlags) : KeepsLen (Tcp.setFlags v) := bind (read _) fun _ => tcp (writeU16 _ _)

theorem ipFinalizer (o l : Nat) : KeepsLen (EtherBuilder.ipFinalizer o l) := by
  unfold EtherBuilder.ipFinalizer
  refine bind (read _) fun x => ?_
  split
  · exact writeU16 _ _
  · split
    · exact writeU16 _ _
    · exact panic

theorem v4Finalizer (cfg : Cfg) (o l : Nat) : KeepsLen (V4Builder.finalizerOf cfg o l) := by
  unfold V4Builder.finalizerOf
  exact bind (setIdx _ _) fun _ => bind (read _) fun _ => bind (writeU16 _ _) fun _ => bind (read _) fun _ => writeU16 _ _

theorem icmpFinalizer (cfg : Cfg) (o l : Nat) : KeepsLen (IcmpBuilder.finalizerOf cfg o l) := by
  unfold IcmpBuilder.finalizerOf
  exact bind (read _) fun _ => writeU16 _ _

theorem udpInner (cfg : Cfg) (ip : Bytes) (l : Nat) : KeepsLen (UdpBuilder.inner cfg ip l) := by
  unfold UdpBuilder.inner
  exact bind (writeU16 _ _) fun _ => bind (read _) fun _ => writeU16 _ _

theorem tcpInner (cfg : Cfg) (ip : Bytes) (l p : Nat) : KeepsLen (TcpBuilder.inner cfg ip l p) := by
  unfold TcpBuilder.inner
  exact bind (read _) fun _ => bind (read _) fun _ => bind (setIdx _ _) fun _ => bind (read _) fun _ => writeU16 _ _

theorem udpFinalizer (cfg : Cfg) (ip : Nat × Nat) (l : Nat) : KeepsLen (UdpBuilder.finalizerOf cfg ip l) := by
  intro d
  unfold UdpBuilder.finalizerOf
  rcases e : splitAt d (ip.1 + ip.2) with ⟨before, after⟩ | x | _
  · simp only []
    have e' := e
    unfold splitAt at e'
    split at e'
    · rename_i hle
      injection e' with e'
      injection e' with e1 e2
      rcases e3 : sliceFrom before ip.1 with ipb | x | _
      · rcases e4 : sliceTo after l with u | x | _
        · simp only []
          unfold sliceTo at e4
          split at e4
          · rename_i hl
            injection e4 with e4
            have := udpInner cfg ipb l u
            simp only [List.length_append, List.length_drop, this]
            rw [← e4, ← e1, List.length_take, List.length_take]
            rw [← e2, List.length_drop] at hl ⊢
            omega
          · cases e4
        · rfl
        · rfl
      · rfl
      · rfl
    · cases e'
  · rfl
  · rfl

theorem tcpFinalizer (cfg : Cfg) (ip : Nat × Nat) (l p : Nat) : KeepsLen (TcpBuilder.finalizerOf cfg ip l p) := by
  intro d
  unfold TcpBuilder.finalizerOf
  rcases e : splitAt d (ip.1 + ip.2) with ⟨before, after⟩ | x | _
  · simp only []
    have e' := e
    unfold splitAt at e'
    split at e'
    · rename_i hle
      injection e' with e'
      injection e' with e1 e2
      rcases e3 : sliceFrom before ip.1 with ipb | x | _
      · rcases e4 : sliceTo after l with u | x | _
        · simp only []
          unfold sliceTo at e4
          split at e4
          · rename_i hl
            injection e4 with e4
            have := tcpInner cfg ipb l p u
            simp only [List.length_append, List.length_drop, this]
            rw [← e4, ← e1, List.length_take, List.length_take]
            rw [← e2, List.length_drop] at hl ⊢
            omega
          · cases e4
        · rfl
        · rfl
      · rfl
      · rfl
    · cases e'
  · rfl
  · rfl

theorem finalize {fs : Finalization} (h : ∀ f ∈ fs, KeepsLen f) : KeepsLen (Finalization.finalize fs) := by
  unfold Finalization.finalize
  have h' : ∀ f ∈ fs.reverse, KeepsLen f := fun f hf => h f (by simpa using hf)
  generalize fs.reverse = gs at h'
  induction gs with
  | nil => exact pure ()
  | cons g gs ih =>
    exact bind (h' g (by simp)) fun _ => ih fun f hf => h' f (by simp [hf])

end KeepsLen

/-! ## One call on two buffers -/

/-- `R b l`: the buffer `b`, of capacity `cap`, shows the layers `l` and goes on to do so.  A request beyond the
capacity fails with `full`. -/
structure Backs (cfg : Cfg) {B : Type} [Buffer B] (cap : Nat) (full : Option Error) (R : B → Layers → Prop) : Prop where
  shows : ∀ {b l}, R b l → ShowsLayers cfg b l
  within : ∀ {b l}, R b l → l.all.length ≤ cap
  next : ∀ {b l} (n : Nat), R b l → l.all.length + n ≤ cap →
    ∃ b', Buffer.next cfg n b = (.ok (), b') ∧ R b' ((BufOp.next n).step l)
  more : ∀ {b l} (n : Nat), R b l → l.all.length + n ≤ cap →
    ∃ b', Buffer.more cfg n b = (.ok (), b') ∧ R b' ((BufOp.more n).step l)
  modify : ∀ {b l} (f : Mut Bytes Unit), R b l → KeepsLen f →
    ∃ b', Buffer.modifyData cfg f b = ((f l.top).1, b') ∧ R b' ⟨l.below, (f l.top).2⟩
  nextFull : ∀ {b l} (n : Nat), R b l → n ≤ cfg.isizeMax → cap < l.all.length + n →
    (Buffer.next cfg n b).1 = failWith full
  moreFull : ∀ {b l} (n : Nat), R b l → n ≤ cfg.isizeMax → cap < l.all.length + n →
    (Buffer.more cfg n b).1 = failWith full

/-- The outcomes of the same call on two buffers: both succeed with states related by `Q`; both fail alike; or the first
ran out of room, and then the second, if it succeeds, holds too much for the first (`P`). -/
def OutPair {S T : Type} (same : Prop) (f1 f2 : Option Error) (Q : S → T → Prop) (P : T → Prop) (o1 : Outcome S)
    (o2 : Outcome T) : Prop :=
  (∃ s t, o1 = .ok s ∧ o2 = .ok t ∧ Q s t) ∨
  (∃ x : Option Error, o1 = failWith x ∧ o2 = failWith x) ∨
  (o1 = failWith f1 ∧ (∀ t, o2 = .ok t → P t) ∧ (same → o2 = failWith f2))

structure CallPair {S T S' T' : Type} (same : Prop) (f1 f2 : Option Error) (Q : S → T → Prop) (P : T → Prop)
    (Q' : S' → T' → Prop) (P' : T' → Prop) (k1 : S → Outcome S') (k2 : T → Outcome T') : Prop where
  pair : ∀ s t, Q s t → OutPair same f1 f2 Q' P' (k1 s) (k2 t)
  big : ∀ t, P t → ∀ t', k2 t = .ok t' → P' t'

section
variable {same : Prop} {f1 f2 : Option Error}

theorem CallPair.comp {S T S' T' S'' T'' : Type} {Q : S → T → Prop} {P : T → Prop}
    {Q' : S' → T' → Prop} {P' : T' → Prop} {Q'' : S'' → T'' → Prop} {P'' : T'' → Prop}
    {k1 : S → Outcome S'} {k2 : T → Outcome T'} {l1 : S' → Outcome S''} {l2 : T' → Outcome T''}
    (h : CallPair same f1 f2 Q P Q' P' k1 k2) (h' : CallPair same f1 f2 Q' P' Q'' P'' l1 l2) :
    CallPair same f1 f2 Q P Q'' P'' (fun s => k1 s >>= l1) (fun t => k2 t >>= l2) where
  pair s t hq := by
    rcases h.pair s t hq with ⟨s', t', e1, e2, hq'⟩ | ⟨x, e1, e2⟩ | ⟨e1, e2, e3⟩
    · rw [e1, e2]
      exact h'.pair s' t' hq'
    · rw [e1, e2]
      exact .inr (.inl ⟨x, failWith_bind _ _, failWith_bind _ _⟩)
    · refine .inr (.inr ⟨by rw [e1]; exact failWith_bind _ _, fun t'' et => ?_, fun hs => ?_⟩)
      · rcases e : k2 t with t' | x | _
        · rw [e] at et
          exact h'.big t' (e2 t' e) t'' et
        · rw [e] at et; cases et
        · rw [e] at et; cases et
      · rw [e3 hs]; exact failWith_bind _ _
  big t hp t'' et := by
    rcases e : k2 t with t' | x | _
    · rw [e] at et
      exact h'.big t' (h.big t hp t' e) t'' et
    · rw [e] at et; cases et
    · rw [e] at et; cases et

/-- A pure step. -/
theorem CallPair.ok {S T S' T' : Type} {Q : S → T → Prop} {P : T → Prop}
    {Q' : S' → T' → Prop} {P' : T' → Prop} {g1 : S → S'} {g2 : T → T'} (h : ∀ s t, Q s t → Q' (g1 s) (g2 t))
    (hp : ∀ t, P t → P' (g2 t)) :
    CallPair same f1 f2 Q P Q' P' (fun s => .ok (g1 s)) (fun t => .ok (g2 t)) where
  pair s t hq := .inl ⟨_, _, rfl, rfl, h s t hq⟩
  big t hpt t' e := by
    cases e
    exact hp t hpt

theorem CallPair.fail {S T S' T' : Type} {Q : S → T → Prop} {P : T → Prop}
    {Q' : S' → T' → Prop} {P' : T' → Prop} (e : Error) :
    CallPair same f1 f2 Q P Q' P' (fun _ => .err e) (fun _ => .err e) where
  pair _ _ _ := .inr (.inl ⟨some e, rfl, rfl⟩)
  big _ _ _ h := by cases h

theorem CallPair.runOps {S T Op : Type} {Q : S → T → Prop} {P : T → Prop} {r1 : Op → S → Outcome S}
    {r2 : Op → T → Outcome T} (h : ∀ op, CallPair same f1 f2 Q P Q P (r1 op) (r2 op)) :
    ∀ ops, CallPair same f1 f2 Q P Q P (Verif.runOps r1 ops) (Verif.runOps r2 ops)
  | [] => CallPair.ok (fun _ _ h => h) (fun _ h => h)
  | op :: ops => (h op).comp (CallPair.runOps h ops)

/-- Run the step on a part of the state. -/
theorem CallPair.on {S T S' T' U V U' V' : Type} {Q : S → T → Prop} {P : T → Prop} {Q' : S' → T' → Prop} {P' : T' → Prop}
    {QU : U → V → Prop} {PV : V → Prop} {QU' : U' → V' → Prop} {PV' : V' → Prop} {k1 : U → Outcome U'}
    {k2 : V → Outcome V'} (h : CallPair same f1 f2 QU PV QU' PV' k1 k2) {p1 : S → U} {p2 : T → V} {g1 : S → U' → S'}
    {g2 : T → V' → T'} (hp : ∀ s t, Q s t → QU (p1 s) (p2 t)) (hb : ∀ t, P t → PV (p2 t))
    (hq : ∀ s t u v, Q s t → QU' u v → Q' (g1 s u) (g2 t v)) (hb' : ∀ s t v, Q s t → PV' v → P' (g2 t v))
    (hb'' : ∀ t v, P t → PV' v → P' (g2 t v)) :
    CallPair same f1 f2 Q P Q' P' (fun s => k1 (p1 s) >>= fun u => .ok (g1 s u)) (fun t => k2 (p2 t) >>= fun v => .ok (g2 t v)) where
  pair s t hst := by
    rcases h.pair _ _ (hp s t hst) with ⟨s', t', e1, e2, hq'⟩ | ⟨x, e1, e2⟩ | ⟨e1, e2, e3⟩
    · rw [e1, e2]
      exact .inl ⟨_, _, rfl, rfl, hq s t s' t' hst hq'⟩
    · rw [e1, e2]
      exact .inr (.inl ⟨x, failWith_bind _ _, failWith_bind _ _⟩)
    · refine .inr (.inr ⟨by rw [e1]; exact failWith_bind _ _, fun t'' et => ?_, fun hs => ?_⟩)
      · rcases e : k2 (p2 t) with t' | x | _
        · rw [e] at et
          cases et
          exact hb' s t t' hst (e2 t' e)
        · rw [e] at et; cases et
        · rw [e] at et; cases et
      · rw [e3 hs]; exact failWith_bind _ _
  big t ht t'' et := by
    rcases e : k2 (p2 t) with t' | x | _
    · rw [e] at et
      cases et
      exact hb'' t t' ht (h.big _ (hb t ht) t' e)
    · rw [e] at et; cases et
    · rw [e] at et; cases et

end

end Verif.AnyBuffer
