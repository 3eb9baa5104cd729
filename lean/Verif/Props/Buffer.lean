import Verif.Spec.Layers
import Verif.Lemmas.Buffer
import Verif.Samples

/-!
# C01 - C03: `buffer::Dynamic` and `buffer::Slice`
-/

namespace Verif.Props
open Verif Verif.Spec

section
variable {B : Type} [Buffer B]

/-- The call of the crate a `BufOp` stands for. -/
def callOf (cfg : Cfg) : BufOp → Mut B Unit
  | .next n => Buffer.next cfg n
  | .more n => Buffer.more cfg n
  | .clear => fun b => (.ok (), Buffer.clear b)
  | .edit f _ => Buffer.modifyData cfg fun d => (.ok (), f d)

/-- A history of calls, stopping at the first error or panic. -/
def history (cfg : Cfg) : List BufOp → Mut B Unit
  | [] => pure ()
  | op :: ops => do callOf cfg op; history cfg ops

/-- Everything a user can observe of a buffer agrees with the stack of layers `l`. -/
structure ShowsLayers (cfg : Cfg) (b : B) (l : Layers) : Prop where
  data : Buffer.data cfg b = .ok l.top
  offset : Buffer.offset b = l.pre.length
  length : Buffer.length b = l.top.length
  used : Buffer.used b = l.all.length
  inner : Buffer.intoInner b = .ok l.all

theorem history_cons (cfg : Cfg) (op : BufOp) (ops : List BufOp) (b b' : B)
    (h : callOf cfg op b = (.ok (), b')) : history cfg (op :: ops) b = history cfg ops b' := by
  have e : history (B := B) cfg (op :: ops) = (callOf cfg op >>= fun _ => history cfg ops) := rfl
  rw [e, Mut.bind_ok h]

end

/-! ## C01 -/

theorem dyn_step (cfg : Cfg) (op : BufOp) (b : Dynamic) (l : Layers) (h : DynRep cfg b l.pre l.top)
    (hf : (op.step l).all.length ≤ cfg.isizeMax) :
    ∃ b', callOf cfg op b = (.ok (), b') ∧ DynRep cfg b' (op.step l).pre (op.step l).top := by
  cases op with
  | next n =>
    obtain ⟨b', e1, e2⟩ := h.next cfg (n := n)
      (by simpa [Layers.all, Layers.pre, BufOp.step, Nat.add_assoc] using hf)
    refine ⟨b', e1, ?_⟩
    simpa [BufOp.step, Layers.pre, zeros] using e2
  | more n =>
    obtain ⟨b', e1, e2⟩ := h.more cfg (n := n)
      (by simpa [Layers.all, Layers.pre, BufOp.step, Nat.add_assoc] using hf)
    exact ⟨b', e1, e2⟩
  | clear => exact ⟨_, rfl, DynRep.new⟩
  | edit f hl =>
    obtain ⟨b', e1, e2⟩ := h.modifyData cfg (fun d => (Outcome.ok (), f d)) (hl _)
    exact ⟨b', e1, e2⟩

theorem dyn_shows (cfg : Cfg) (b : Dynamic) (l : Layers) (h : DynRep cfg b l.pre l.top) : ShowsLayers cfg b l where
  data := h.data cfg
  offset := h.offset
  length := h.length
  used := by
    show b.inner.length = _
    rw [h.inner]; rfl
  inner := by
    show Outcome.ok b.inner = _
    rw [h.inner]; rfl

theorem fits_head {cap : Nat} {ops : List BufOp} {l : Layers} (h : BufOp.Fits cap ops l) :
    l.all.length ≤ cap := by
  cases ops with
  | nil => exact h
  | cons op ops => exact h.1

/-- C01: every history of calls on a fresh `buffer::Dynamic` whose total stays within `isize::MAX` bytes
succeeds, and all observers agree with the stack of layers. -/
theorem C01_dynamic_layers (cfg : Cfg) (ops : List BufOp) (h : BufOp.Fits (cfg.isizeMax) ops .empty) :
    ∃ b : Dynamic, history cfg ops Dynamic.new = (.ok (), b) ∧ ShowsLayers cfg b (BufOp.after ops .empty) := by
  have key : ∀ (ops : List BufOp) (b : Dynamic) (l : Layers), DynRep cfg b l.pre l.top →
      BufOp.Fits cfg.isizeMax ops l →
      ∃ b' : Dynamic, history cfg ops b = (.ok (), b') ∧ ShowsLayers cfg b' (BufOp.after ops l) := by
    intro ops
    induction ops with
    | nil => intro b l hr _; exact ⟨b, rfl, dyn_shows cfg b l hr⟩
    | cons op ops ih =>
      intro b l hr hf
      obtain ⟨b1, e1, e2⟩ := dyn_step cfg op b l hr (fits_head hf.2)
      rw [history_cons cfg op ops b b1 e1]
      exact ih b1 _ e2 hf.2
  exact key ops _ .empty DynRep.new h

/-- The hypothesis holds of a three-layer history with a growing top layer and a write. -/
example (cfg : Cfg) : BufOp.Fits (cfg.isizeMax) [.next 14, .edit (fun d => d.map (· + 1)) (by simp), .next 20, .more 5]
    .empty := by
  have := cfg.width
  refine ⟨?_, ?_, ?_, ?_, ?_⟩ <;> (show (_ : Nat) ≤ cfg.isizeMax; simp [BufOp.step, Layers.empty, Layers.all, zeros]; try omega)

/-- What the specification says about that history: the lower layer keeps what was written, the rest is
zero. -/
example : (BufOp.after [.next 2, .edit (fun d => d.map (· + 1)) (by simp), .next 3, .more 1] .empty).all
    = [1, 1, 0, 0, 0, 0] := by decide

theorem dyn_history (cfg : Cfg) : ∀ (ops : List BufOp) (b : Dynamic) (l : Layers), DynRep cfg b l.pre l.top →
    BufOp.Fits cfg.isizeMax ops l →
    ∃ b' : Dynamic, history cfg ops b = (.ok (), b') ∧
      DynRep cfg b' (BufOp.after ops l).pre (BufOp.after ops l).top := by
  intro ops
  induction ops with
  | nil => intro b l hr _; exact ⟨b, rfl, hr⟩
  | cons op ops ih =>
    intro b l hr hf
    obtain ⟨b1, e1, e2⟩ := dyn_step cfg op b l hr (fits_head hf.2)
    rw [history_cons cfg op ops b b1 e1]
    exact ih b1 _ e2 hf.2

theorem addUsize_over {cfg : Cfg} {a b : Nat} (h : cfg.usizeMod ≤ a + b) :
    addUsize cfg a b = if cfg.overflowChecks then .panic else .ok ((a + b) % cfg.usizeMod) := by
  unfold addUsize
  rw [if_neg (show ¬ a + b < cfg.usizeMod from Nat.not_lt.2 h)]

theorem mod_sub {a m : Nat} (h1 : m ≤ a) (h2 : a < 2 * m) : a % m = a - m := by
  rw [Nat.mod_eq_sub_mod h1, Nat.mod_eq_of_lt (by omega)]

/-- C01: after any history as above, a request that would make the total exceed `isize::MAX` panics, unless the
total exceeds even `usize` and overflow checks are off. -/
theorem C01_unallocatable (cfg : Cfg) (ops : List BufOp) (h : BufOp.Fits (cfg.isizeMax) ops .empty) (b : Dynamic)
    (hb : history cfg ops Dynamic.new = (.ok (), b)) (n : Nat)
    (h1 : cfg.isizeMax < Buffer.used b + n) (h2 : Buffer.used b + n < cfg.usizeMod ∨ cfg.overflowChecks = true) :
    (callOf cfg (.next n) b).1 = .panic ∧ (callOf cfg (.more n) b).1 = .panic := by
  obtain ⟨b', e1, hr⟩ := dyn_history cfg ops _ .empty DynRep.new h
  rw [hb] at e1
  obtain rfl : b = b' := congrArg Prod.snd e1
  have hbd := hr.bound
  have hm := cfg.width
  have hu : Buffer.used b = b.inner.length := rfl
  rw [hu] at h1 h2
  have hl : b.inner.length = (BufOp.after ops .empty).pre.length + (BufOp.after ops .empty).top.length := by
    rw [hr.inner]; simp
  by_cases h3 : b.inner.length + n < cfg.usizeMod
  · constructor
    · show (Dynamic.next cfg n b).1 = .panic
      unfold Dynamic.next
      rw [addUsize_ok (by rw [hr.offset, hr.length]; omega)]
      simp only []
      rw [addUsize_ok (.inr h3)]
      simp only [vecResize]
      rw [if_neg (by omega)]
    · show (Dynamic.more cfg n b).1 = .panic
      unfold Dynamic.more
      simp only []
      rw [addUsize_ok (.inr h3)]
      simp only [vecResize]
      rw [if_neg (by omega)]
  · have hc : cfg.overflowChecks = true := h2.resolve_left h3
    constructor
    · show (Dynamic.next cfg n b).1 = .panic
      unfold Dynamic.next
      rw [addUsize_ok (by rw [hr.offset, hr.length]; omega)]
      simp only []
      rw [addUsize_over (Nat.not_lt.1 h3), hc]
      rfl
    · show (Dynamic.more cfg n b).1 = .panic
      unfold Dynamic.more
      simp only []
      rw [addUsize_over (Nat.not_lt.1 h3), hc]
      rfl

/-- Such a request exists after every history. -/
example (cfg : Cfg) : ∃ b : Dynamic, history cfg [.next 3] Dynamic.new = (.ok (), b) ∧
    cfg.isizeMax < Buffer.used b + (cfg.isizeMax - 2) ∧ Buffer.used b + (cfg.isizeMax - 2) < cfg.usizeMod := by
  obtain ⟨oc, ea, nw⟩ := cfg
  cases oc <;> cases ea <;> cases nw <;> exact ⟨⟨zeros 3, 0, 3⟩, rfl, by decide, by decide⟩

/-- C01 fails at the end of the `usize` range when overflow checks are off, after every history: a request so large
that `used + size` wraps is accepted and throws written bytes away, also of the lower layers; after `next` the layer
cannot even be looked at, and after `more` only if nothing of the lower layers was lost. -/
theorem C01_wraparound (cfg : Cfg) (hc : cfg.overflowChecks = false) (ops : List BufOp)
    (h : BufOp.Fits (cfg.isizeMax) ops .empty) (b : Dynamic) (hb : history cfg ops Dynamic.new = (.ok (), b)) (n : Nat)
    (h1 : cfg.usizeMod ≤ Buffer.used b + n) (h2 : n < cfg.usizeMod) :
    (∃ b', callOf cfg (.next n) b = (.ok (), b') ∧ Buffer.used b' = Buffer.used b + n - cfg.usizeMod ∧
      Buffer.used b' < Buffer.used b ∧ Buffer.data cfg b' = .panic) ∧
    (∃ b', callOf cfg (.more n) b = (.ok (), b') ∧ Buffer.used b' = Buffer.used b + n - cfg.usizeMod ∧
      Buffer.used b' < Buffer.used b ∧
      Buffer.data cfg b' =
        if (BufOp.after ops .empty).pre.length ≤ Buffer.used b'
        then .ok ((BufOp.after ops .empty).top.take (Buffer.used b' - (BufOp.after ops .empty).pre.length))
        else .panic) := by
  obtain ⟨b', e1, hr⟩ := dyn_history cfg ops _ .empty DynRep.new h
  rw [hb] at e1
  obtain rfl : b = b' := congrArg Prod.snd e1
  have hbd := hr.bound
  have hm := cfg.width
  have hu : Buffer.used b = b.inner.length := rfl
  rw [hu] at h1 ⊢
  clear hu
  generalize BufOp.after ops .empty = l at hr hbd ⊢
  have hl : b.inner.length = l.pre.length + l.top.length := by rw [hr.inner]; simp
  have ho := hr.offset
  have hlen := hr.length
  have hin := hr.inner
  obtain ⟨inner, offset, length⟩ := b
  simp only at ho hlen hin hl h1 ⊢
  obtain ⟨w, hw⟩ : ∃ w, w = inner.length + n - cfg.usizeMod := ⟨_, rfl⟩
  rw [← hw]
  have hmod : (inner.length + n) % cfg.usizeMod = w := by rw [hw]; exact mod_sub h1 (by omega)
  have hres : vecResize cfg inner (w) = .ok (inner.take (w)) := by
    unfold vecResize
    rw [if_pos (by omega), show w - inner.length = 0 by omega]
    simp [zeros]
  have htake : (inner.take (w)).length = w := by
    rw [List.length_take]; omega
  constructor
  · refine ⟨⟨inner.take (w), offset + length, n⟩, ?_, htake, ?_, ?_⟩
    · show Dynamic.next cfg n _ = _
      unfold Dynamic.next
      simp only []
      rw [addUsize_ok (by omega)]
      simp only []
      rw [addUsize_over h1, hc, hmod]
      simp only [Bool.false_eq_true, if_false]
      rw [hres]
    · show (inner.take (w)).length < inner.length
      omega
    · show Dynamic.data cfg _ = _
      unfold Dynamic.data
      simp only []
      rw [addUsize_over (by omega), hc]
      simp only [Bool.false_eq_true, if_false, Outcome.ok_bind]
      unfold slice
      rw [if_neg (by omega)]
  · refine ⟨⟨inner.take (w), offset, (length + n) % cfg.usizeMod⟩, ?_, htake, ?_, ?_⟩
    · show Dynamic.more cfg n _ = _
      unfold Dynamic.more
      simp only []
      rw [addUsize_over h1, hc, hmod]
      simp only [Bool.false_eq_true, if_false]
      rw [hres]
      simp only []
      by_cases h3 : length + n < cfg.usizeMod
      · rw [addUsize_ok (.inr h3), Nat.mod_eq_of_lt h3]
      · rw [addUsize_over (Nat.not_lt.1 h3), hc]
        simp only [Bool.false_eq_true, if_false]
    · show (inner.take (w)).length < inner.length
      omega
    · show Dynamic.data cfg _ = if _ ≤ (inner.take (w)).length
        then Outcome.ok (l.top.take ((inner.take (w)).length - l.pre.length)) else .panic
      unfold Dynamic.data
      simp only []
      have hstop : addUsize cfg offset ((length + n) % cfg.usizeMod) = .ok (w) := by
        by_cases h3 : offset + (length + n) % cfg.usizeMod < cfg.usizeMod
        · rw [addUsize_ok (.inr h3)]
          by_cases h5 : length + n < cfg.usizeMod
          · rw [Nat.mod_eq_of_lt h5] at h3 ⊢
            omega
          · rw [mod_sub (Nat.not_lt.1 h5) (by omega)]; congr 1; omega
        · rw [addUsize_over (Nat.not_lt.1 h3), hc]
          simp only [Bool.false_eq_true, if_false]
          by_cases h5 : length + n < cfg.usizeMod
          · rw [Nat.mod_eq_of_lt h5] at h3 ⊢
            rw [mod_sub (Nat.not_lt.1 h3) (by omega)]; congr 1; omega
          · rw [mod_sub (Nat.not_lt.1 h5) (by omega)] at h3 ⊢
            omega
      rw [hstop, htake]
      simp only [Outcome.ok_bind]
      unfold slice
      rw [htake, ho]
      by_cases h4 : l.pre.length ≤ w
      · rw [if_pos ⟨h4, Nat.le_refl _⟩, if_pos h4, List.take_take, Nat.min_self, hin, List.drop_take,
          List.drop_left' rfl]
      · rw [if_neg (fun h => h4 h.1), if_neg h4]

/-- The hypotheses are met: ten bytes are in use, five are left. -/
example : let cfg : Cfg := ⟨false, true, false⟩
    ∃ b b' : Dynamic, history cfg [.next 10] Dynamic.new = (.ok (), b) ∧
      Buffer.used b = 10 ∧ callOf cfg (.next (cfg.usizeMod - 5)) b = (.ok (), b') ∧ Buffer.used b' = 5 ∧
      Buffer.data cfg b' = .panic :=
  ⟨⟨zeros 10, 0, 10⟩, ⟨zeros 5, 10, 2 ^ 64 - 5⟩, rfl, rfl, rfl, rfl, rfl⟩

/-! ## C02 -/

theorem slice_shows (cfg : Cfg) (b : Slice) (l : Layers) (tail : Bytes) (h : SliceRep cfg b l.pre l.top tail) :
    ShowsLayers cfg b l where
  data := h.data cfg
  offset := h.offset
  length := h.length
  used := by
    show b.used = _
    rw [h.used]; simp [Layers.all, Layers.pre]
  inner := by
    have hl := h.total
    have hu := h.used
    show Slice.intoInner b = _
    unfold Slice.intoInner
    rw [slice_ok (by omega) (by omega), hu, h.inner]
    congr 1
    rw [List.drop_zero, ← List.length_append, List.take_left' rfl]
    rfl

theorem slice_step (cfg : Cfg) (op : BufOp) (b : Slice) (l : Layers) (storage : Bytes)
    (h : ∃ tail, SliceRep cfg b l.pre l.top tail) (hc : b.inner.length = storage.length)
    (hm : ∀ n, op = .more n → l.top = []) (hf : (op.step l).all.length ≤ storage.length) :
    ∃ b', callOf cfg op b = (.ok (), b') ∧ (∃ tail, SliceRep cfg b' (op.step l).pre (op.step l).top tail) ∧
      b'.inner.length = storage.length := by
  obtain ⟨tail, h⟩ := h
  cases op with
  | next n =>
    have hn : l.pre.length + l.top.length + n ≤ b.inner.length := by
      rw [hc]; simpa [Layers.all, Layers.pre, BufOp.step, Nat.add_assoc] using hf
    obtain ⟨b', e1, e2⟩ := h.next cfg hn
    have t1 := h.total
    have t2 := e2.total
    refine ⟨b', e1, ⟨_, by simpa [BufOp.step, Layers.pre, zeros] using e2⟩, ?_⟩
    simp [zeros_length] at t2; omega
  | more n =>
    have ht := hm n rfl
    have hn : l.pre.length + n ≤ b.inner.length := by
      rw [hc]; simpa [Layers.all, Layers.pre, BufOp.step, ht] using hf
    rw [ht] at h
    obtain ⟨b', e1, e2⟩ := h.more_empty cfg hn
    have t1 := h.total
    have t2 := e2.total
    refine ⟨b', e1, ⟨_, by simpa [BufOp.step, Layers.pre, zeros, ht] using e2⟩, ?_⟩
    simp [zeros_length] at t2 t1; omega
  | clear =>
    exact ⟨_, rfl, ⟨b.inner, rfl, rfl, rfl, rfl, h.bound⟩, hc⟩
  | edit f hl =>
    obtain ⟨b', e1, e2⟩ := h.modifyData cfg (fun d => (Outcome.ok (), f d)) (hl _)
    have t1 := h.total
    have t2 := e2.total
    refine ⟨b', e1, ⟨_, e2⟩, ?_⟩
    simp only [hl] at t2
    omega

/-- C02: on a `buffer::Slice` over any storage, every history in which `more` is only
called on an empty layer and whose total stays within the storage succeeds and shows the stack of layers.
Not part of this claim: `more` on a non-empty layer (see `C64_slice_more_refuted`). -/
theorem C02_slice_layers (cfg : Cfg) (storage : Bytes) (hs : storage.length ≤ cfg.isizeMax)
    (ops : List BufOp) (hm : BufOp.MoreOnEmpty ops .empty) (h : BufOp.Fits storage.length ops .empty) :
    ∃ b : Slice, history cfg ops (Slice.new storage) = (.ok (), b) ∧
      ShowsLayers cfg b (BufOp.after ops .empty) := by
  have key : ∀ (ops : List BufOp) (b : Slice) (l : Layers), (∃ tail, SliceRep cfg b l.pre l.top tail) →
      b.inner.length = storage.length → BufOp.MoreOnEmpty ops l → BufOp.Fits storage.length ops l →
      ∃ b' : Slice, history cfg ops b = (.ok (), b') ∧ ShowsLayers cfg b' (BufOp.after ops l) := by
    intro ops
    induction ops with
    | nil => intro b l ⟨_, hr⟩ _ _ _; exact ⟨b, rfl, slice_shows cfg b l _ hr⟩
    | cons op ops ih =>
      intro b l hr hc hm hf
      obtain ⟨b1, e1, e2, e3⟩ := slice_step cfg op b l storage hr hc hm.1 (fits_head hf.2)
      rw [history_cons cfg op ops b b1 e1]
      exact ih b1 _ e2 e3 hm.2 hf.2
  exact key ops _ .empty ⟨_, SliceRep.new hs⟩ rfl hm h

/-- The hypotheses hold of a nested history on storage full of garbage. -/
example : BufOp.MoreOnEmpty [.next 1, .edit (fun d => d.map (· + 1)) (by simp), .next 0, .more 2, .next 1] .empty ∧
    BufOp.Fits (List.replicate 4 0xee#8).length
      [.next 1, .edit (fun d => d.map (· + 1)) (by simp), .next 0, .more 2, .next 1] .empty := by
  refine ⟨⟨?_, ?_, ?_, ?_, ?_, trivial⟩, ⟨?_, ?_, ?_, ?_, ?_, ?_⟩⟩
  all_goals first | (show _ ≤ _; decide) | (intro n h; cases h; done) | (intro n h; rfl)

theorem slice_history (cfg : Cfg) (storage : Bytes) : ∀ (ops : List BufOp) (b : Slice) (l : Layers),
    (∃ tail, SliceRep cfg b l.pre l.top tail) → b.inner.length = storage.length → BufOp.MoreOnEmpty ops l →
    BufOp.Fits storage.length ops l →
    ∃ b' : Slice, history cfg ops b = (.ok (), b') ∧
      (∃ tail, SliceRep cfg b' (BufOp.after ops l).pre (BufOp.after ops l).top tail) ∧
      b'.inner.length = storage.length := by
  intro ops
  induction ops with
  | nil => intro b l hr hc _ _; exact ⟨b, rfl, hr, hc⟩
  | cons op ops ih =>
    intro b l hr hc hm hf
    obtain ⟨b1, e1, e2, e3⟩ := slice_step cfg op b l storage hr hc hm.1 (fits_head hf.2)
    rw [history_cons cfg op ops b b1 e1]
    exact ih b1 _ e2 e3 hm.2 hf.2

theorem slice_more_moves (cfg : Cfg) (b : Slice) (pre layer tail : Bytes) (h : SliceRep cfg b pre layer tail)
    (hne : layer ≠ []) (n : Nat) (hn : pre.length + layer.length + n ≤ b.inner.length) :
    (Buffer.more cfg n b).1 = .panic ∨
    ∃ b', Buffer.more cfg n b = (.ok (), b') ∧ Buffer.offset b = pre.length ∧
      Buffer.offset b' = pre.length + layer.length ∧ Buffer.offset b' ≠ Buffer.offset b ∧
      ∀ x : Layers, ShowsLayers cfg b' x → x.pre ≠ pre := by
  have hb := h.bound
  have hm := cfg.width
  have hl := h.total
  have hu := h.used
  have h0 := h.length
  have hpos : 0 < layer.length := List.length_pos_iff.2 hne
  have hd : (Buffer.more cfg n b) = Slice.modifyData cfg (Slice.zeroFrom layer.length)
      { b with offset := b.used, length := b.length + n, used := b.used + n } := by
    show Slice.more cfg n b = _
    unfold Slice.more
    rw [addUsize_ok (by omega)]
    simp only []
    rw [if_neg (by omega), addUsize_ok (by omega)]
    simp only []
    rw [addUsize_ok (by omega)]
    simp only []
    rw [subUsize_ok (by omega)]
    simp only []
    rw [show b.length + n - n = layer.length by omega]
  rw [hd]
  unfold Slice.modifyData
  cases e : Slice.data cfg { b with offset := b.used, length := b.length + n, used := b.used + n } with
  | panic => exact .inl rfl
  | err x =>
    exfalso
    unfold Slice.data at e
    rw [addUsize_ok (by simp only []; omega)] at e
    simp only [Outcome.ok_bind] at e
    unfold slice at e
    split at e <;> cases e
  | ok d =>
    have hdl : d.length = layer.length + n := by
      unfold Slice.data at e
      rw [addUsize_ok (by simp only []; omega)] at e
      simp only [Outcome.ok_bind] at e
      unfold slice at e
      split at e
      · rename_i hc
        cases e
        simp only [List.length_drop, List.length_take]
        omega
      · cases e
    simp only [Slice.zeroFrom]
    rw [if_pos (by omega)]
    refine .inr ⟨_, rfl, h.offset, hu, ?_, fun x hx hp => ?_⟩
    · show b.used ≠ b.offset
      rw [h.offset]; omega
    · have ho : b.used = x.pre.length := hx.offset
      rw [hp] at ho
      omega

/-- C64 is false of the code, in every situation not covered by C02: after any history of C02 that leaves a
non-empty layer on top, a `more` that fits either panics or moves the start of the current layer
(`offset()` becomes the old `used()`), so that `data()` is no longer the layer that was being filled. -/
theorem C64_slice_more_refuted (cfg : Cfg) (storage : Bytes) (hs : storage.length ≤ cfg.isizeMax)
    (ops : List BufOp) (hm : BufOp.MoreOnEmpty ops .empty) (hf : BufOp.Fits storage.length ops .empty) (b : Slice)
    (hb : history cfg ops (Slice.new storage) = (.ok (), b)) (hne : (BufOp.after ops .empty).top ≠ [])
    (n : Nat) (hn : Buffer.used b + n ≤ storage.length) :
    (callOf cfg (.more n) b).1 = .panic ∨
    ∃ b', callOf cfg (.more n) b = (.ok (), b') ∧ Buffer.offset b' = Buffer.used b ∧
      Buffer.offset b' ≠ Buffer.offset b ∧ ¬ ShowsLayers cfg b' (BufOp.after (ops ++ [.more n]) .empty) := by
  obtain ⟨b1, e1, ⟨tail, hr⟩, hc⟩ := slice_history cfg storage ops _ .empty ⟨_, SliceRep.new hs⟩ rfl hm hf
  rw [hb] at e1
  obtain rfl : b = b1 := congrArg Prod.snd e1
  have hu : Buffer.used b = (BufOp.after ops .empty).pre.length + (BufOp.after ops .empty).top.length := hr.used
  rcases slice_more_moves cfg b _ _ tail hr hne n (by omega) with h | ⟨b', h1, h2, h3, h4, h5⟩
  · exact .inl h
  · refine .inr ⟨b', h1, by rw [h3, hu], h4, fun hx => h5 _ hx ?_⟩
    have : BufOp.after (ops ++ [.more n]) .empty = (BufOp.more n).step (BufOp.after ops .empty) := by
      simp [BufOp.after]
    rw [this]
    rfl

/-- A concrete case that meets the hypotheses. -/
example (cfg : Cfg) := C64_slice_more_refuted cfg (zeros 100) (by call_by_call) [.next 4]
    ⟨fun _ h => (by cases h), trivial⟩ ⟨by decide, by show _ ≤ _; decide⟩ _ (Prod.ext (by in_every_build) rfl)
    (by decide) 2 (by in_every_build)

/-- The same on a concrete history: write `7` into a layer of one byte, then grow it by one byte.  The layer
should be `[7, 0]`; `data()` shows `[0, 0]` (with four bytes of storage), and with two bytes of storage the
call panics although the total is 2. -/
theorem C64_slice_more_example (cfg : Cfg) :
    (∃ b, history cfg [.next 1, .edit (fun d => d.map fun _ => 7) (by simp), .more 1] (Slice.new (zeros 4))
        = (.ok (), b) ∧ Buffer.data cfg b = .ok [0, 0] ∧
      (BufOp.after [.next 1, .edit (fun d => d.map fun _ => 7) (by simp), .more 1] .empty).top = [7, 0]) ∧
    (history cfg [.next 1, .more 1] (Slice.new (zeros 2))).1 = .panic := by
  obtain ⟨oc, ea, nw⟩ := cfg
  cases oc <;> cases ea <;> cases nw <;> exact ⟨⟨⟨[7, 0, 0, 0], 1, 2, 2⟩, by decide +kernel, by decide +kernel, rfl⟩, by decide +kernel⟩

/-! ## C03 -/

/-- C03: for every state of a `buffer::Slice` whatsoever and every request whose end does not overflow `usize`:
if it does not fit, `next` and `more` return `SmallBuffer` and change nothing at all; if it fits, `next`
succeeds, hands out exactly `size` zero bytes, keeps what was handed out before, and leaves the storage
behind `used()` alone; so does any later write to the layer. -/
theorem C03_slice_refuses (cfg : Cfg) (b : Slice) (n : Nat) (hw : Buffer.used b + n < cfg.usizeMod) :
    (b.inner.length < Buffer.used b + n →
      Buffer.next cfg n b = (.err .smallBuffer, b) ∧ Buffer.more cfg n b = (.err .smallBuffer, b)) ∧
    (Buffer.used b + n ≤ b.inner.length →
      ∃ b', Buffer.next cfg n b = (.ok (), b') ∧ Buffer.data cfg b' = .ok (List.replicate n 0) ∧
        Buffer.used b' = Buffer.used b + n ∧ Buffer.offset b' = Buffer.used b ∧ Buffer.length b' = n ∧
        b'.inner = b.inner.take (Buffer.used b) ++ List.replicate n 0 ++ b.inner.drop (Buffer.used b + n) ∧
        ∀ f : Bytes → Bytes, (∀ d, (f d).length = d.length) →
          ∃ b'', Buffer.modifyData cfg (fun d => (Outcome.ok (), f d)) b' = (.ok (), b'') ∧
            b''.inner = b.inner.take (Buffer.used b) ++ f (List.replicate n 0) ++
              b.inner.drop (Buffer.used b + n)) := by
  have hu : Buffer.used b = b.used := rfl
  rw [hu] at hw ⊢
  constructor
  · intro hs
    constructor
    · show Slice.next cfg n b = _
      unfold Slice.next
      rw [addUsize_ok (by omega)]
      simp only []
      rw [if_pos (by omega)]
    · show Slice.more cfg n b = _
      unfold Slice.more
      rw [addUsize_ok (by omega)]
      simp only []
      rw [if_pos (by omega)]
  · intro hs
    have hd : ∀ inner : Bytes, inner.length = b.inner.length →
        Slice.data cfg ⟨inner, b.used, n, b.used + n⟩ = .ok ((inner.drop b.used).take n) := by
      intro inner hi
      show (addUsize cfg b.used n >>= fun stop => slice inner b.used stop) = _
      rw [addUsize_ok (.inr hw), Outcome.ok_bind, slice_ok (by omega) (by omega), List.drop_take,
        show b.used + n - b.used = n by omega]
    have hm : ∀ (inner : Bytes) (g : Mut Bytes Unit), inner.length = b.inner.length →
        (∀ d, (g d).1 = .ok ()) → (∀ d, (g d).2.length = d.length) →
        Slice.modifyData cfg g ⟨inner, b.used, n, b.used + n⟩ =
          (.ok (), ⟨inner.take b.used ++ (g ((inner.drop b.used).take n)).2 ++ inner.drop (b.used + n),
            b.used, n, b.used + n⟩) := by
      intro inner g hi h1 h2
      unfold Slice.modifyData
      rw [hd inner hi]
      simp only []
      rw [h1]
      unfold put
      rw [h2, List.length_take, List.length_drop, Nat.min_eq_left (by omega)]
    have hz : ((b.inner.drop b.used).take n).length = n := by
      rw [List.length_take, List.length_drop, Nat.min_eq_left (by omega)]
    generalize hinner : b.inner.take b.used ++ List.replicate n 0#8 ++ b.inner.drop (b.used + n) = inner'
    have hil : inner'.length = b.inner.length := by
      rw [← hinner]
      simp
      omega
    have hnext : Slice.next cfg n b = (.ok (), ⟨inner', b.used, n, b.used + n⟩) := by
      unfold Slice.next
      rw [addUsize_ok (by omega)]
      simp only []
      rw [if_neg (by omega)]
      have := hm b.inner Slice.zeroAll rfl (fun _ => rfl) (fun d => by simp [Slice.zeroAll, zeros])
      rw [this]
      simp only [Slice.zeroAll, zeros]
      rw [hz, hinner]
    have htk : inner'.take b.used = b.inner.take b.used := by
      rw [← hinner, List.append_assoc, List.take_left' (by rw [List.length_take]; omega)]
    have hdp : (inner'.drop b.used).take n = List.replicate n 0#8 := by
      rw [← hinner, List.append_assoc, List.drop_left' (by rw [List.length_take]; omega),
        List.take_left' (by simp)]
    have hdr : inner'.drop (b.used + n) = b.inner.drop (b.used + n) := by
      rw [← hinner, List.drop_left' (by rw [List.length_append, List.length_take, List.length_replicate]; omega)]
    refine ⟨_, hnext, ?_, rfl, rfl, rfl, rfl, fun f hf => ?_⟩
    · show Slice.data cfg _ = _
      rw [hd inner' hil, hdp]
      rfl
    · refine ⟨_, hm inner' (fun d => (Outcome.ok (), f d)) hil (fun _ => rfl) hf, ?_⟩
      show inner'.take b.used ++ f ((inner'.drop b.used).take n) ++ inner'.drop (b.used + n) = _
      rw [htk, hdp, hdr]
      rfl

/-- A concrete case that meets the hypotheses. -/
example (cfg : Cfg) := C03_slice_refuses cfg (Slice.new (zeros 10)) 11 (by in_every_build)

/-- A history of calls whose errors (and even caught panics) are ignored. -/
def anyHistory {B : Type} [Buffer B] (cfg : Cfg) (ops : List BufOp) (b : B) : B :=
  ops.foldl (fun b op => (callOf cfg op b).2) b

theorem slice_bounds_step (cfg : Cfg) (op : BufOp) (b : Slice) (h : b.used ≤ b.inner.length) :
    (callOf cfg op b).2.used ≤ (callOf cfg op b).2.inner.length ∧
      (callOf cfg op b).2.inner.length = b.inner.length := by
  have hmod : ∀ (g : Mut Bytes Unit) (c : Slice), (∀ d, (g d).2.length = d.length) →
      (Slice.modifyData cfg g c).2.used = c.used ∧ (Slice.modifyData cfg g c).2.inner.length = c.inner.length := by
    intro g c hg
    unfold Slice.modifyData
    cases e : Slice.data cfg c with
    | err x => exact ⟨rfl, rfl⟩
    | panic => exact ⟨rfl, rfl⟩
    | ok d =>
      refine ⟨rfl, ?_⟩
      unfold Slice.data at e
      cases e' : addUsize cfg c.offset c.length with
      | err x => rw [e'] at e; cases e
      | panic => rw [e'] at e; cases e
      | ok stop =>
        rw [e', Outcome.ok_bind] at e
        unfold slice at e
        split at e
        · rename_i hc
          cases e
          exact length_put (by rw [hg]; simp; omega)
        · cases e
  have hzf : ∀ k d, (Slice.zeroFrom k d).2.length = d.length := by
    intro k d
    unfold Slice.zeroFrom
    split
    · simp [zeros]; omega
    · rfl
  cases op with
  | clear => exact ⟨Nat.zero_le _, rfl⟩
  | edit f hf =>
    obtain ⟨h1, h2⟩ := hmod (fun d => (Outcome.ok (), f d)) b hf
    have h1 : (callOf cfg (.edit f hf) b).2.used = b.used := h1
    have h2 : (callOf cfg (.edit f hf) b).2.inner.length = b.inner.length := h2
    exact ⟨by omega, h2⟩
  | next n =>
    show (Slice.next cfg n b).2.used ≤ (Slice.next cfg n b).2.inner.length ∧
      (Slice.next cfg n b).2.inner.length = b.inner.length
    unfold Slice.next
    cases e : addUsize cfg b.used n with
    | err x => exact ⟨h, rfl⟩
    | panic => exact ⟨h, rfl⟩
    | ok total =>
      simp only []
      split
      · exact ⟨h, rfl⟩
      · obtain ⟨h1, h2⟩ := hmod Slice.zeroAll ⟨b.inner, b.used, n, total⟩ (fun d => by simp [Slice.zeroAll, zeros])
        rw [h1, h2]
        exact ⟨by simp only []; omega, rfl⟩
  | more n =>
    show (Slice.more cfg n b).2.used ≤ (Slice.more cfg n b).2.inner.length ∧
      (Slice.more cfg n b).2.inner.length = b.inner.length
    unfold Slice.more
    cases e : addUsize cfg b.used n with
    | err x => exact ⟨h, rfl⟩
    | panic => exact ⟨h, rfl⟩
    | ok total =>
      simp only []
      split
      · exact ⟨h, rfl⟩
      · cases e2 : addUsize cfg b.length n with
        | err x => exact ⟨h, rfl⟩
        | panic => exact ⟨h, rfl⟩
        | ok len =>
          simp only []
          rw [e]
          simp only []
          cases e3 : subUsize cfg len n with
          | err x => exact ⟨by simp only []; omega, rfl⟩
          | panic => exact ⟨by simp only []; omega, rfl⟩
          | ok start =>
            simp only []
            obtain ⟨h1, h2⟩ := hmod (Slice.zeroFrom start) ⟨b.inner, b.used, len, total⟩ (hzf start)
            rw [h1, h2]
            exact ⟨by simp only []; omega, rfl⟩

/-- C03: whatever is called in whatever order, and whatever came of it, `used()` never exceeds the wrapped slice,
whose length never changes, and `into_inner()` gives the first `used()` bytes. -/
theorem C03_states (cfg : Cfg) (storage : Bytes) (ops : List BufOp) :
    Buffer.used (anyHistory cfg ops (Slice.new storage)) ≤ storage.length ∧
    (anyHistory cfg ops (Slice.new storage)).inner.length = storage.length ∧
    Buffer.intoInner (anyHistory cfg ops (Slice.new storage)) =
      .ok ((anyHistory cfg ops (Slice.new storage)).inner.take
        (Buffer.used (anyHistory cfg ops (Slice.new storage)))) := by
  have key : ∀ (ops : List BufOp) (b : Slice), b.used ≤ b.inner.length → b.inner.length = storage.length →
      (anyHistory cfg ops b).used ≤ storage.length ∧ (anyHistory cfg ops b).inner.length = storage.length := by
    intro ops
    induction ops with
    | nil => intro b h1 h2; exact ⟨h2 ▸ h1, h2⟩
    | cons op ops ih =>
      intro b h1 h2
      obtain ⟨h3, h4⟩ := slice_bounds_step cfg op b h1
      exact ih _ h3 (h4.trans h2)
  obtain ⟨h1, h2⟩ := key ops (Slice.new storage) (Nat.zero_le _) rfl
  refine ⟨h1, h2, ?_⟩
  show Slice.intoInner _ = _
  unfold Slice.intoInner
  rw [slice_ok (Nat.zero_le _) (by omega)]
  rfl

/-- C03 at the end of the `usize` range: if `used() + size` overflows, the request certainly does not
fit, yet the call panics (in both build profiles) instead of returning `SmallBuffer`. -/
theorem C03_wraparound (cfg : Cfg) (storage : Bytes) (hs : storage.length ≤ cfg.isizeMax) (ops : List BufOp) (b : Slice)
    (hb : b = anyHistory cfg ops (Slice.new storage)) (n : Nat) (hn : n < cfg.usizeMod)
    (hw : cfg.usizeMod ≤ Buffer.used b + n) :
    (Buffer.next cfg n b).1 = .panic := by
  obtain ⟨h1, h2, -⟩ := C03_states cfg storage ops
  rw [← hb] at h1 h2
  have hu : Buffer.used b = b.used := rfl
  rw [hu] at h1 hw
  have hm := cfg.width
  have hadd : addUsize cfg b.used n = if cfg.overflowChecks then .panic else .ok (b.used + n - cfg.usizeMod) := by
    rw [addUsize_over hw, mod_sub hw (by omega)]
  show (Slice.next cfg n b).1 = .panic
  unfold Slice.next
  rw [hadd]
  cases cfg.overflowChecks with
  | true => rfl
  | false =>
    simp only [Bool.false_eq_true, if_false]
    rw [if_neg (by omega)]
    unfold Slice.modifyData Slice.data
    simp only []
    rw [hadd]
    cases cfg.overflowChecks with
    | true => rfl
    | false =>
      simp only [Bool.false_eq_true, if_false, Outcome.ok_bind]
      unfold slice
      rw [if_neg (by omega)]

/-- A concrete case that meets the hypotheses. -/
example (cfg : Cfg) := C03_wraparound cfg (zeros 100) (by call_by_call) [.next 4] _ rfl (cfg.usizeMod - 1) (by in_every_build)
    (by in_every_build)

/-- Zeroing from beyond the end of the bytes in view panics, whatever the position of the view. -/
theorem zero_past_panics (cfg : Cfg) (storage : Bytes) (off len used start : Nat) (h : len < start) :
    (Slice.modifyData cfg (Slice.zeroFrom start) ⟨storage, off, len, used⟩).1 = .panic := by
  have hd : ∀ d, Slice.data cfg ⟨storage, off, len, used⟩ = .ok d → d.length ≤ len := by
    intro d hd
    have hd : (addUsize cfg off len >>= fun stop => slice storage off stop) = .ok d := hd
    cases e : addUsize cfg off len with
    | err x => rw [e] at hd; cases hd
    | panic => rw [e] at hd; cases hd
    | ok stop =>
      rw [e] at hd
      have hd : slice storage off stop = .ok d := hd
      have hstop : stop ≤ off + len := by
        unfold addUsize at e
        split at e
        · cases e; exact Nat.le_refl _
        · split at e
          · cases e
          · have e := Outcome.ok.inj e
            rw [← e]; exact Nat.mod_le _ _
      unfold slice at hd
      split at hd
      · have hd := Outcome.ok.inj hd
        rw [← hd]
        simp only [List.length_drop, List.length_take]
        omega
      · cases hd
  have he : ∀ x, Slice.data cfg ⟨storage, off, len, used⟩ ≠ .err x := by
    intro x hx
    have hx : (addUsize cfg off len >>= fun stop => slice storage off stop) = .err x := hx
    cases e : addUsize cfg off len with
    | err y =>
      unfold addUsize at e
      split at e
      · cases e
      · split at e <;> cases e
    | panic => rw [e] at hx; cases hx
    | ok stop =>
      rw [e] at hx
      have hx : slice storage off stop = .err x := hx
      unfold slice at hx
      split at hx <;> cases hx
  unfold Slice.modifyData
  cases e : Slice.data cfg ⟨storage, off, len, used⟩ with
  | panic => rfl
  | err x => exact absurd e (he x)
  | ok d =>
    have := hd d e
    show (Slice.zeroFrom start d).1 = .panic
    unfold Slice.zeroFrom
    rw [if_neg (by omega)]

/-- The same for `more`. -/
theorem C03_more_wraparound (cfg : Cfg) (storage : Bytes) (hs : storage.length ≤ cfg.isizeMax) (ops : List BufOp)
    (b : Slice) (hb : b = anyHistory cfg ops (Slice.new storage)) (n : Nat) (hn : n < cfg.usizeMod)
    (hlen : Buffer.length b < cfg.usizeMod) (hw : cfg.usizeMod ≤ Buffer.used b + n) :
    (Buffer.more cfg n b).1 = .panic := by
  obtain ⟨h1, h2, -⟩ := C03_states cfg storage ops
  rw [← hb] at h1 h2
  have hu : Buffer.used b = b.used := rfl
  have hl : Buffer.length b = b.length := rfl
  rw [hu] at h1 hw
  rw [hl] at hlen
  have hm := cfg.width
  have hadd : addUsize cfg b.used n = if cfg.overflowChecks then .panic else .ok (b.used + n - cfg.usizeMod) := by
    rw [addUsize_over hw, mod_sub hw (by omega)]
  show (Slice.more cfg n b).1 = .panic
  unfold Slice.more
  cases hoc : cfg.overflowChecks with
  | true => rw [hadd, hoc]; rfl
  | false =>
    rw [hoc] at hadd
    simp only [Bool.false_eq_true, if_false] at hadd
    simp only [hadd]
    rw [if_neg (by omega)]
    by_cases hc : b.length + n < cfg.usizeMod
    · rw [addUsize_ok (.inr hc)]
      simp only []
      rw [subUsize_ok (by omega)]
      simp only []
      unfold Slice.modifyData Slice.data
      simp only []
      have : addUsize cfg b.used (b.length + n) = .ok (b.used + (b.length + n) - cfg.usizeMod) := by
        rw [addUsize_over (by omega), mod_sub (by omega) (by omega), hoc]
        rfl
      rw [this]
      simp only [Outcome.ok_bind]
      unfold slice
      rw [if_neg (by omega)]
    · have e1 : addUsize cfg b.length n = .ok (b.length + n - cfg.usizeMod) := by
        rw [addUsize_over (by omega), mod_sub (by omega) (by omega), hoc]
        rfl
      rw [e1]
      simp only []
      have e2 : subUsize cfg (b.length + n - cfg.usizeMod) n = .ok b.length := by
        unfold subUsize
        rw [if_neg (by omega), hoc, if_neg (by simp),
          show cfg.usizeMod + (b.length + n - cfg.usizeMod) - n = b.length from by omega]
      rw [e2]
      simp only []
      have hlt : b.length + n - cfg.usizeMod < b.length := by omega
      exact zero_past_panics cfg b.inner b.used _ _ b.length hlt

/-- Such a request exists as soon as one byte is in use. -/
example (cfg : Cfg) : cfg.usizeMod ≤ Buffer.used (anyHistory cfg [.next 1] (Slice.new (zeros 4))) + (cfg.usizeMod - 1) := by
  obtain ⟨oc, ea, nw⟩ := cfg
  cases oc <;> cases ea <;> cases nw <;> decide

/-- A history that fails in between: the third call does not fit, the fourth panics. -/
example : Buffer.used (anyHistory ⟨false, false, false⟩ [.next 1, .next 2, .next 9, .more (2 ^ 64 - 1)]
    (Slice.new (zeros 4))) = 2 := by decide

end Verif.Props
