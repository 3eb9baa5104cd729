import Verif.Model.Builders
import Verif.Lemmas.Buffer
import Verif.Lemmas.Checksum

/-!
# Builders, generically in the buffer

`LawfulBuffer B` collects what the builders use of a buffer: both buffers of the crate satisfy it, `Slice`
without the ability to grow a non-empty layer (`Grows`).
-/

namespace Verif
open Verif Verif.Spec

/-- What builders rely on.  `Rep cfg cap b pre layer`: at most `cap` bytes can be handed out, `pre` has been
handed out below the current layer, and the current layer is `layer`. -/
class LawfulBuffer (B : Type) [Buffer B] where
  Rep : Cfg → Nat → B → Bytes → Bytes → Prop
  /-- `more` works on a non-empty layer. -/
  Grows : Prop
  cap_le : ∀ {cfg cap b pre layer}, Rep cfg cap b pre layer → cap ≤ cfg.isizeMax
  fits : ∀ {cfg cap b pre layer}, Rep cfg cap b pre layer → pre.length + layer.length ≤ cap
  offset : ∀ {cfg cap b pre layer}, Rep cfg cap b pre layer → Buffer.offset b = pre.length
  length : ∀ {cfg cap b pre layer}, Rep cfg cap b pre layer → Buffer.length b = layer.length
  inner : ∀ {cfg cap b pre layer}, Rep cfg cap b pre layer → Buffer.intoInner b = .ok (pre ++ layer)
  data : ∀ {cap b pre layer} (cfg : Cfg), Rep cfg cap b pre layer → Buffer.data cfg b = .ok layer
  next : ∀ {cap b pre layer} (cfg : Cfg) (n : Nat), Rep cfg cap b pre layer →
    pre.length + layer.length + n ≤ cap →
    ∃ b', Buffer.next cfg n b = (.ok (), b') ∧ Rep cfg cap b' (pre ++ layer) (zeros n)
  modify : ∀ {cap b pre layer layer'} {α : Type} {r : Outcome α} (cfg : Cfg) (f : Mut Bytes α),
    Rep cfg cap b pre layer → f layer = (r, layer') → layer'.length = layer.length →
    ∃ b', Buffer.modifyData cfg f b = (r, b') ∧ Rep cfg cap b' pre layer'
  /-- What `f` does elsewhere does not matter. -/
  modify_congr : ∀ {b : B} {d : Bytes} {α : Type} (cfg : Cfg) (f g : Mut Bytes α), Buffer.data cfg b = .ok d → f d = g d →
    Buffer.modifyData cfg f b = Buffer.modifyData cfg g b
  more : ∀ {cap b pre layer} (cfg : Cfg) (n : Nat), Grows → Rep cfg cap b pre layer →
    pre.length + layer.length + n ≤ cap →
    ∃ b', Buffer.more cfg n b = (.ok (), b') ∧ Rep cfg cap b' pre (layer ++ zeros n)
  /-- A layer that does not fit is refused. -/
  Refuses : Prop
  refuse : ∀ {cap b pre layer} (cfg : Cfg) (n : Nat), Refuses → Rep cfg cap b pre layer → n ≤ cfg.isizeMax →
    cap < pre.length + layer.length + n → Buffer.next cfg n b = (.err .smallBuffer, b)

instance : LawfulBuffer Dynamic where
  Rep cfg cap b pre layer := cap = cfg.isizeMax ∧ DynRep cfg b pre layer
  Grows := True
  cap_le h := by rw [h.1]; exact Nat.le_refl _
  fits h := by rw [h.1]; exact h.2.bound
  offset h := h.2.offset
  length h := h.2.length
  inner h := by
    show Outcome.ok _ = _
    rw [h.2.inner]
  data cfg h := h.2.data cfg
  next cfg n h hn := by
    obtain ⟨b', e1, e2⟩ := h.2.next cfg (n := n) (by rw [← h.1]; exact hn)
    exact ⟨b', e1, h.1, e2⟩
  modify cfg f h hf hl := by
    obtain ⟨b', e1, e2⟩ := h.2.modifyData cfg f (by rw [hf]; exact hl)
    rw [hf] at e1 e2
    exact ⟨b', e1, h.1, e2⟩
  modify_congr {b d} _ cfg f g h hfg := by
    have h : Dynamic.data cfg b = .ok d := h
    show Dynamic.modifyData cfg f b = Dynamic.modifyData cfg g b
    unfold Dynamic.modifyData
    rw [h]
    simp only [hfg]
  more cfg n _ h hn := by
    obtain ⟨b', e1, e2⟩ := h.2.more cfg (n := n) (by rw [← h.1]; exact hn)
    exact ⟨b', e1, h.1, e2⟩
  Refuses := False
  refuse _ _ g := g.elim

instance : LawfulBuffer Slice where
  Rep cfg cap b pre layer := cap = b.inner.length ∧ ∃ tail, SliceRep cfg b pre layer tail
  Grows := False
  cap_le h := by obtain ⟨h, _, hr⟩ := h; rw [h]; exact hr.bound
  fits h := by
    obtain ⟨h, _, hr⟩ := h
    have := hr.total
    omega
  offset h := by obtain ⟨h, _, hr⟩ := h; exact hr.offset
  length h := by obtain ⟨h, _, hr⟩ := h; exact hr.length
  inner h := by
    obtain ⟨h, tail, hr⟩ := h
    have hl := hr.total
    have hu := hr.used
    show Slice.intoInner _ = _
    unfold Slice.intoInner
    rw [slice_ok (by omega) (by omega), hu, hr.inner]
    congr 1
    rw [List.drop_zero, ← List.length_append, List.take_left' rfl]
  data cfg h := by obtain ⟨h, _, hr⟩ := h; exact hr.data cfg
  next cfg n h hn := by
    obtain ⟨h, tail, hr⟩ := h
    obtain ⟨b', e1, e2⟩ := hr.next cfg (n := n) (by rw [← h]; exact hn)
    refine ⟨b', e1, ?_, _, e2⟩
    have t1 := hr.total
    have t2 := e2.total
    simp [zeros_length] at t2; omega
  modify cfg f h hf hl := by
    obtain ⟨h, tail, hr⟩ := h
    obtain ⟨b', e1, e2⟩ := hr.modifyData cfg f (by rw [hf]; exact hl)
    rw [hf] at e1 e2
    refine ⟨b', e1, ?_, _, e2⟩
    have t1 := hr.total
    have t2 := e2.total
    simp only [] at t2
    omega
  modify_congr {b d} _ cfg f g h hfg := by
    have h : Slice.data cfg b = .ok d := h
    show Slice.modifyData cfg f b = Slice.modifyData cfg g b
    unfold Slice.modifyData
    rw [h]
    simp only [hfg]
  more _ _ g := g.elim
  Refuses := True
  refuse {cap b pre layer} cfg n _ h hn hc := by
    obtain ⟨h, tail, hr⟩ := h
    have hu := hr.used
    have hb := hr.bound
    have ht := hr.total
    have hm := cfg.width
    show Slice.next cfg n b = _
    unfold Slice.next addUsize
    rw [if_pos (by omega)]
    simp only []
    rw [if_pos (by omega)]

theorem Dynamic.rep_new {cfg : Cfg} : LawfulBuffer.Rep cfg cfg.isizeMax Dynamic.new [] [] := ⟨rfl, DynRep.new⟩

theorem Slice.rep_new {cfg : Cfg} {s : Bytes} (h : s.length ≤ cfg.isizeMax) :
    LawfulBuffer.Rep cfg s.length (Slice.new s) [] [] := ⟨rfl, s, SliceRep.new h⟩

theorem dynamic_grows : LawfulBuffer.Grows Dynamic := trivial

section
variable {B : Type} [Buffer B] [LawfulBuffer B]
open LawfulBuffer

omit [Buffer B] [LawfulBuffer B] in
theorem onBuffer_ok {α : Type} {f : Mut B α} {b b' : B} {a : α} (h : f b = (.ok a, b')) :
    onBuffer f b = .ok b' := by unfold onBuffer; rw [h]

theorem setLast_snoc (d : Bytes) (x v : U8) : setLast v (d ++ [x]) = (.ok (), d ++ [v]) := by
  unfold setLast
  rw [if_neg (by simp)]
  have := put_middle d [x] [] [v] rfl
  simp only [List.append_nil] at this
  simp [this]

/-- The payload loop of the builders. -/
theorem appendAll_ok (cfg : Cfg) {cap : Nat} : ∀ (v : Bytes) (b : B) (pre layer : Bytes),
    Rep cfg cap b pre layer → Grows B ∨ v = [] → pre.length + layer.length + v.length ≤ cap →
    ∃ b', appendAll cfg v b = (.ok (), b') ∧ Rep cfg cap b' pre (layer ++ v) := by
  intro v
  induction v with
  | nil => intro b pre layer h _ _; exact ⟨b, rfl, by simpa using h⟩
  | cons x v ih =>
    intro b pre layer h hg hn
    have hg : Grows B := by
      rcases hg with hg | hg
      · exact hg
      · cases hg
    simp only [List.length_cons] at hn
    obtain ⟨b1, e1, r1⟩ := more cfg 1 hg h (by omega)
    have z : zeros 1 = [0#8] := rfl
    rw [z] at r1
    obtain ⟨b2, e2, r2⟩ := modify cfg (setLast x) r1 (setLast_snoc layer 0#8 x) (by simp)
    obtain ⟨b3, e3, r3⟩ := ih b2 pre (layer ++ [x]) r2 (.inl hg) (by simp; omega)
    refine ⟨b3, ?_, by simpa using r3⟩
    have e : appendAll (B := B) cfg (x :: v) = (Buffer.more cfg 1 >>= fun _ =>
      Buffer.modifyData cfg (setLast x) >>= fun _ => appendAll cfg v) := rfl
    rw [e, Mut.bind_ok e1, Mut.bind_ok e2, e3]

/-- What is left to do once the inner finalizers have run: the finalizers `fs` of the outer layers. -/
def finish (fs : Finalization) (out : Bytes) : Outcome Bytes :=
  match Finalization.finalize fs out with
  | (.ok (), out) => .ok out
  | (.err e, _) => .err e
  | (.panic, _) => .panic

theorem finish_nil (out : Bytes) : finish [] out = .ok out := rfl

theorem buildTail_eq {cfg : Cfg} {cap : Nat} {b : B} {pre layer : Bytes} (h : Rep cfg cap b pre layer) (fs : Finalization) :
    buildTail b fs = finish fs (pre ++ layer) := by
  unfold buildTail
  rw [inner h]
  rfl

theorem finish_snoc {fs : Finalization} {f : Finalizer} {out out' : Bytes} (h : f out = (.ok (), out')) :
    finish (fs ++ [f]) out = finish fs out' := by
  unfold finish Finalization.finalize
  rw [List.reverse_append, List.reverse_singleton, List.singleton_append]
  have e : Finalization.runAll (f :: fs.reverse) = (f >>= fun _ => Finalization.runAll fs.reverse) := rfl
  rw [e, Mut.bind_ok h]

theorem finish_snoc_err {fs : Finalization} {f : Finalizer} {out out' : Bytes} {e : Error}
    (h : f out = (.err e, out')) : finish (fs ++ [f]) out = .err e := by
  unfold finish Finalization.finalize
  rw [List.reverse_append, List.reverse_singleton, List.singleton_append]
  have e : Finalization.runAll (f :: fs.reverse) = (f >>= fun _ => Finalization.runAll fs.reverse) := rfl
  rw [e, Mut.bind_apply, h]

theorem finish_snoc_panic {fs : Finalization} {f : Finalizer} {out out' : Bytes}
    (h : f out = (.panic, out')) : finish (fs ++ [f]) out = .panic := by
  unfold finish Finalization.finalize
  rw [List.reverse_append, List.reverse_singleton, List.singleton_append]
  have e : Finalization.runAll (f :: fs.reverse) = (f >>= fun _ => Finalization.runAll fs.reverse) := rfl
  rw [e, Mut.bind_apply, h]

end

/-! ## Histories -/

/-- A history all of whose calls are allowed in the abstract state they are made in. -/
def LegalRun {A Op : Type} (step : Op → A → A) (legal : Op → A → Prop) : List Op → A → Prop
  | [], _ => True
  | op :: ops, a => legal op a ∧ LegalRun step legal ops (step op a)

theorem runOps_sim {A Op σ : Type} {run : Op → σ → Outcome σ} (R : A → σ → Prop) (step : Op → A → A)
    (legal : Op → A → Prop)
    (hstep : ∀ op a s, R a s → legal op a → ∃ s', run op s = .ok s' ∧ R (step op a) s') :
    ∀ (ops : List Op) (a : A) (s : σ), R a s → LegalRun step legal ops a →
      ∃ s', runOps run ops s = .ok s' ∧ R (ops.foldl (fun a op => step op a) a) s' := by
  intro ops
  induction ops with
  | nil => intro a s h _; exact ⟨s, rfl, h⟩
  | cons op ops ih =>
    intro a s h hl
    obtain ⟨s1, e1, r1⟩ := hstep op a s h hl.1
    obtain ⟨s2, e2, r2⟩ := ih _ _ r1 hl.2
    refine ⟨s2, ?_, r2⟩
    show (run op s >>= fun s => runOps run ops s) = _
    rw [e1]
    exact e2

/-- A concrete outcome matches an abstract one: same error, same panic, or related states. -/
def Sim {A σ : Type} (R : A → σ → Prop) (o : Outcome σ) : Outcome A → Prop
  | .ok a => ∃ s, o = .ok s ∧ R a s
  | .err e => o = .err e
  | .panic => o = .panic

theorem runOps_abs {A Op σ : Type} {run : Op → σ → Outcome σ} {abs : Op → A → Outcome A}
    (R : A → σ → Prop) (room : Op → Prop)
    (hstep : ∀ op a s, R a s → room op → Sim R (run op s) (abs op a)) :
    ∀ (ops : List Op) (a : A) (s : σ), R a s → (∀ op ∈ ops, room op) →
      Sim R (runOps run ops s) (runOps abs ops a) := by
  intro ops
  induction ops with
  | nil => intro a s h _; exact ⟨s, rfl, h⟩
  | cons op ops ih =>
    intro a s h hr
    have h1 := hstep op a s h (hr op (by simp))
    show Sim R (run op s >>= fun s => runOps run ops s) (abs op a >>= fun a => runOps abs ops a)
    cases ha : abs op a with
    | ok a' =>
      rw [ha] at h1
      obtain ⟨s1, e1, r1⟩ := h1
      rw [e1]
      exact ih a' s1 r1 (fun op h => hr op (by simp [h]))
    | err e =>
      rw [ha] at h1
      have h1 : run op s = .err e := h1
      rw [h1]
      rfl
    | panic =>
      rw [ha] at h1
      have h1 : run op s = .panic := h1
      rw [h1]
      rfl

/-- Continuing after matching outcomes. -/
theorem Sim.bind {A σ β : Type} {R : A → σ → Prop} {o : Outcome σ} {p : Outcome A} (h : Sim R o p)
    {f : σ → Outcome β} {g : A → Outcome β} (hfg : ∀ a s, R a s → f s = g a) :
    (o >>= f) = (p >>= g) := by
  cases p with
  | ok a => obtain ⟨s, e, r⟩ := h; rw [e]; exact hfg a s r
  | err e => have h : o = .err e := h; rw [h]; rfl
  | panic => have h : o = .panic := h; rw [h]; rfl

/-- A history without errors, abstractly. -/
theorem runOps_ok {A Op : Type} {abs : Op → A → Outcome A} {step : Op → A → A} :
    ∀ (ops : List Op) (a : A),
      LegalRun step (fun op a => abs op a = .ok (step op a)) ops a →
      runOps abs ops a = .ok (ops.foldl (fun a op => step op a) a) := by
  intro ops
  induction ops with
  | nil => intro a _; rfl
  | cons op ops ih =>
    intro a h
    show (abs op a >>= fun a => runOps abs ops a) = _
    rw [h.1]
    exact ih _ h.2

/-- At most one payload, and calls that are otherwise fine. -/
theorem legalRun_once {A Op : Type} {step : Op → A → A} {legal : Op → A → Prop} (pl : Op → Option Bytes)
    (st : A → Option Bytes) (hst : ∀ op a, pl op = none → st (step op a) = st a)
    (P : Op → Prop) (hl : ∀ op a, P op → pl op = none ∨ st a = none → legal op a) :
    ∀ (ops : List Op) (a : A), (∀ op ∈ ops, P op) →
      ((ops.filterMap pl).length = 0 ∨ (st a = none ∧ (ops.filterMap pl).length ≤ 1)) →
      LegalRun step legal ops a := by
  intro ops
  induction ops with
  | nil => intro a _ _; trivial
  | cons op ops ih =>
    intro a hp h
    cases hop : pl op with
    | none =>
      simp only [List.filterMap_cons, hop] at h
      refine ⟨hl op a (hp op (by simp)) (.inl hop), ih _ (fun o h => hp o (by simp [h])) ?_⟩
      rw [hst op a hop]
      exact h
    | some v =>
      simp only [List.filterMap_cons, hop, List.length_cons] at h
      rcases h with h | ⟨h1, h2⟩
      · omega
      · exact ⟨hl op a (hp op (by simp)) (.inr h1),
          ih _ (fun o h => hp o (by simp [h])) (.inl (by omega))⟩

/-- A component of the abstract state that each call either replaces or keeps ends up as the last value
given to it. -/
theorem foldl_last {A Op α : Type} (step : Op → A → A) (π : A → α) (f : Op → Option α)
    (h : ∀ op a, π (step op a) = (f op).getD (π a)) :
    ∀ (ops : List Op) (a : A), π (ops.foldl (fun a op => step op a) a) = last f (π a) ops := by
  intro ops
  induction ops with
  | nil => intro a; rfl
  | cons op ops ih =>
    intro a
    rw [List.foldl_cons, ih, last_cons, h]

/-- The same under an invariant and for a restricted set of calls. -/
theorem foldl_last_on {A Op α : Type} (step : Op → A → A) (π : A → α) (f : Op → Option α) (P : Op → Prop)
    (I : A → Prop) (hI : ∀ op a, P op → I a → I (step op a))
    (h : ∀ op a, P op → I a → π (step op a) = (f op).getD (π a)) :
    ∀ (ops : List Op) (a : A), (∀ op ∈ ops, P op) → I a →
      π (ops.foldl (fun a op => step op a) a) = last f (π a) ops := by
  intro ops
  induction ops with
  | nil => intro a _ _; rfl
  | cons op ops ih =>
    intro a hp hi
    rw [List.foldl_cons, ih _ (fun o h => hp o (by simp [h])) (hI op a (hp op (by simp)) hi), last_cons,
      h op a (hp op (by simp)) hi]

end Verif
