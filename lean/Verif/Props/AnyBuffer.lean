import Verif.Lemmas.AnyBufferProg
import Verif.Samples

/-!
# C107: any buffer that does what `trait Buffer` documents gives the same packets
-/

namespace Verif.Props
open Verif Verif.Spec Verif.AnyBuffer

/-- The contract of a buffer that is fresh in the state `start`, can hand out `cap` bytes and answers a request beyond
that with `full`: after every history of calls that stays within `cap` it shows the stack of layers; a closure run on
`data_mut()` sees the current layer, its result comes back and its writes are an edit of the layer; a request beyond
`cap` fails with `full`. -/
structure MeetsContract (cfg : Cfg) {B : Type} [Buffer B] (start : B) (cap : Nat) (full : Option Error) : Prop where
  layers : ∀ ops, BufOp.Fits cap ops .empty →
    ∃ b, history cfg ops start = (.ok (), b) ∧ ShowsLayers cfg b (BufOp.after ops .empty)
  writes : ∀ ops b, BufOp.Fits cap ops .empty → history cfg ops start = (.ok (), b) →
    ∀ (f : Mut Bytes Unit) (g : Bytes → Bytes) (hg : ∀ d, (g d).length = d.length),
      g (BufOp.after ops .empty).top = (f (BufOp.after ops .empty).top).2 →
      Buffer.modifyData cfg f b = ((f (BufOp.after ops .empty).top).1, (callOf cfg (.edit g hg) b).2)
  refuses : ∀ ops b, BufOp.Fits cap ops .empty → history cfg ops start = (.ok (), b) →
    ∀ n ≤ cfg.isizeMax, cap < (BufOp.after ops .empty).all.length + n →
      (callOf cfg (.next n) b).1 = failWith full ∧ (callOf cfg (.more n) b).1 = failWith full

section
variable {B : Type} [Buffer B]

theorem history_snoc (cfg : Cfg) (op : BufOp) : ∀ (ops : List BufOp) (b b' : B), history cfg ops b = (.ok (), b') →
    (callOf cfg op b').1 = .ok () → history cfg (ops ++ [op]) b = (.ok (), (callOf cfg op b').2) := by
  intro ops
  induction ops with
  | nil =>
    intro b b' h ho
    have : b = b' := congrArg Prod.snd h
    subst this
    have e : callOf cfg op b = (.ok (), (callOf cfg op b).2) := by rw [← ho]
    exact (history_cons cfg op [] b _ e).trans rfl
  | cons o ops ih =>
    intro b b' h ho
    rcases e : callOf cfg o b with ⟨r, b1⟩
    have e2 : history (B := B) cfg (o :: ops) = (callOf cfg o >>= fun _ => history cfg ops) := rfl
    rw [e2, Mut.bind_apply, e] at h
    cases r with
    | ok u =>
      rw [List.cons_append, history_cons cfg o (ops ++ [op]) b b1 e]
      exact ih b1 b' h ho
    | err x => cases congrArg Prod.fst h
    | panic => cases congrArg Prod.fst h

theorem history_snoc_inv (cfg : Cfg) (op : BufOp) : ∀ (ops : List BufOp) (b b' b'' : B),
    history cfg ops b = (.ok (), b') → history cfg (ops ++ [op]) b = (.ok (), b'') →
    callOf cfg op b' = (.ok (), b'') := by
  intro ops
  induction ops with
  | nil =>
    intro b b' b'' h h2
    have : b = b' := congrArg Prod.snd h
    subst this
    have e2 : history (B := B) cfg ([] ++ [op]) = (callOf cfg op >>= fun _ => history cfg []) := rfl
    rw [e2, Mut.bind_apply] at h2
    rcases e : callOf cfg op b with ⟨r, b1⟩
    rw [e] at h2
    cases r with
    | ok u => exact h2
    | err x => cases congrArg Prod.fst h2
    | panic => cases congrArg Prod.fst h2
  | cons o ops ih =>
    intro b b' b'' h h2
    rcases e : callOf cfg o b with ⟨r, b1⟩
    have e2 : history (B := B) cfg (o :: ops) = (callOf cfg o >>= fun _ => history cfg ops) := rfl
    rw [e2, Mut.bind_apply, e] at h
    cases r with
    | ok u =>
      rw [List.cons_append, history_cons cfg o (ops ++ [op]) b b1 e] at h2
      exact ih b1 b' b'' h h2
    | err x => cases congrArg Prod.fst h
    | panic => cases congrArg Prod.fst h

end

theorem fits_snoc {cap : Nat} {op : BufOp} : ∀ {ops : List BufOp} {l : Layers}, BufOp.Fits cap ops l →
    (op.step (BufOp.after ops l)).all.length ≤ cap → BufOp.Fits cap (ops ++ [op]) l := by
  intro ops
  induction ops with
  | nil => intro l h h2; exact ⟨h, h2⟩
  | cons o ops ih => intro l h h2; exact ⟨h.1, ih h.2 h2⟩

theorem fits_last {cap : Nat} : ∀ {ops : List BufOp} {l : Layers}, BufOp.Fits cap ops l →
    (BufOp.after ops l).all.length ≤ cap := by
  intro ops
  induction ops with
  | nil => intro l h; exact h
  | cons o ops ih => intro l h; exact ih h.2

theorem fits_mono {c d : Nat} (hle : c ≤ d) : ∀ {ops : List BufOp} {l : Layers}, BufOp.Fits c ops l → BufOp.Fits d ops l := by
  intro ops
  induction ops with
  | nil => intro l h; exact Nat.le_trans h hle
  | cons o ops ih => intro l h; exact ⟨Nat.le_trans h.1 hle, ih h.2⟩

theorem after_snoc (ops : List BufOp) (op : BufOp) (l : Layers) :
    BufOp.after (ops ++ [op]) l = op.step (BufOp.after ops l) := by
  simp [BufOp.after, List.foldl_append]

/-- The states a contract speaks of. -/
def Reached (cfg : Cfg) {B : Type} [Buffer B] (start : B) (cap : Nat) (b : B) (l : Layers) : Prop :=
  ∃ ops, BufOp.Fits cap ops .empty ∧ history cfg ops start = (.ok (), b) ∧ BufOp.after ops .empty = l

theorem contract_backs {cfg : Cfg} {B : Type} [Buffer B] {start : B} {cap : Nat} {full : Option Error}
    (h : MeetsContract cfg start cap full) : Backs cfg cap full (Reached cfg start cap) := by
  have step : ∀ {b l} (op : BufOp), Reached cfg start cap b l → (op.step l).all.length ≤ cap →
      ∃ b', callOf cfg op b = (.ok (), b') ∧ Reached cfg start cap b' (op.step l) := by
    intro b l op ⟨ops, hf, hh, ha⟩ hc
    subst ha
    have hf' := fits_snoc hf hc
    obtain ⟨b', e, _⟩ := h.layers _ hf'
    have e' := history_snoc_inv cfg op ops start b b' hh e
    exact ⟨b', e', ops ++ [op], hf', e, after_snoc _ _ _⟩
  refine ⟨?_, ?_, ?_, ?_, ?_, ?_, ?_⟩
  · intro b l ⟨ops, hf, hh, ha⟩
    obtain ⟨b', e, hs⟩ := h.layers ops hf
    rw [hh] at e
    obtain rfl : b = b' := congrArg Prod.snd e
    rw [← ha]; exact hs
  · intro b l ⟨ops, hf, hh, ha⟩
    rw [← ha]; exact fits_last hf
  · intro b l n hr hc
    exact step (.next n) hr (by simpa [BufOp.step, Layers.all, Nat.add_assoc] using hc)
  · intro b l n hr hc
    exact step (.more n) hr (by simpa [BufOp.step, Layers.all, Nat.add_assoc] using hc)
  · intro b l f hr hk
    have hgl : ∀ d, ((fun d => (f d).2) d).length = d.length := hk
    obtain ⟨b', e, hr'⟩ := step (.edit (fun d => (f d).2) hgl) hr (by
      obtain ⟨ops, hf, hh, ha⟩ := hr
      have := fits_last hf
      rw [ha] at this
      have hk' := hk l.top
      simp only [BufOp.step, Layers.all, List.length_append] at this ⊢
      omega)
    obtain ⟨ops, hf, hh, ha⟩ := hr
    have hw := h.writes ops b hf hh f (fun d => (f d).2) hgl rfl
    rw [ha, e] at hw
    exact ⟨b', hw, hr'⟩
  · intro b l n ⟨ops, hf, hh, ha⟩ hn hc
    exact (h.refuses ops b hf hh n hn (by rw [ha]; exact hc)).1
  · intro b l n ⟨ops, hf, hh, ha⟩ hn hc
    exact (h.refuses ops b hf hh n hn (by rw [ha]; exact hc)).2

theorem program_final {cfg : Cfg} {B1 B2 : Type} [Buffer B1] [Buffer B2] {s1 b1 : B1} {s2 b2 : B2} {cap1 cap2 : Nat}
    {f1 f2 : Option Error} (h1 : MeetsContract cfg s1 cap1 f1) (h2 : MeetsContract cfg s2 cap2 f2) (hle : cap1 ≤ cap2)
    {before : List BufOp} (hf : BufOp.Fits cap1 before .empty) (hb1 : history cfg before s1 = (.ok (), b1))
    (hb2 : history cfg before s2 = (.ok (), b2))
    (p : Program) : Final cap1 (cap1 = cap2) f1 f2 (p.run cfg b1) (p.run cfg b2) := by
  have hj : Joint (Reached cfg s1 cap1) (Reached cfg s2 cap2) b1 b2 :=
    ⟨_, ⟨before, hf, hb1, rfl⟩, ⟨before, fits_mono hle hf, hb2, rfl⟩⟩
  have k1 := contract_backs h1
  have k2 := contract_backs h2
  cases p with
  | ether ops => exact ether_final k1 k2 hle hj ops
  | ipv4 vops inner => exact ipv4_final k1 k2 hle hj vops inner
  | ethernet eops vops inner => exact ethernet_final k1 k2 hle hj eops vops inner
  | icmp inner => exact icmp_final k1 k2 hle hj inner
  | udp ops => exact udp_final k1 k2 hle hj ops
  | tcp ops => exact tcp_final k1 k2 hle hj ops

/-- C107: two buffers that meet the contract with the same capacity and the same way of refusing, on which the same has
been done before (nothing, if `before` is empty), give the same outcome for every program: the same packet, the same
error or the same panic. -/
theorem C107_same_outcome (cfg : Cfg) {B1 B2 : Type} [Buffer B1] [Buffer B2] (s1 b1 : B1) (s2 b2 : B2) (cap : Nat)
    (full : Option Error) (h1 : MeetsContract cfg s1 cap full) (h2 : MeetsContract cfg s2 cap full)
    (before : List BufOp) (hf : BufOp.Fits cap before .empty) (hb1 : history cfg before s1 = (.ok (), b1))
    (hb2 : history cfg before s2 = (.ok (), b2)) (p : Program) : p.run cfg b1 = p.run cfg b2 := by
  rcases program_final h1 h2 (Nat.le_refl _) hf hb1 hb2 p with ⟨o1, o2, e1, e2, e3, _⟩ | ⟨x, e1, e2⟩ | ⟨e1, _, e3⟩
  · rw [e1, e2, e3]
  · rw [e1, e2]
  · rw [e1, e3 rfl]

/-- C107: with different capacities, the smaller buffer gives what the larger gives, or refuses. -/
theorem C107_or_full (cfg : Cfg) {B1 B2 : Type} [Buffer B1] [Buffer B2] (s1 b1 : B1) (s2 b2 : B2) (cap1 cap2 : Nat)
    (f1 f2 : Option Error) (h1 : MeetsContract cfg s1 cap1 f1) (h2 : MeetsContract cfg s2 cap2 f2) (hle : cap1 ≤ cap2)
    (before : List BufOp) (hf : BufOp.Fits cap1 before .empty) (hb1 : history cfg before s1 = (.ok (), b1))
    (hb2 : history cfg before s2 = (.ok (), b2))
    (p : Program) : p.run cfg b1 = p.run cfg b2 ∨ p.run cfg b1 = failWith f1 := by
  rcases program_final h1 h2 hle hf hb1 hb2 p with ⟨o1, o2, e1, e2, e3, _⟩ | ⟨x, e1, e2⟩ | ⟨e1, _, _⟩
  · rw [e1, e2, e3]; exact .inl rfl
  · rw [e1, e2]; exact .inl rfl
  · exact .inr e1

/-- C107: a program that builds a packet on the larger buffer builds the same packet on the smaller one exactly if all
that is in the buffer then fits, and is refused otherwise. -/
theorem C107_capacity (cfg : Cfg) {B1 B2 : Type} [Buffer B1] [Buffer B2] (s1 b1 : B1) (s2 b2 : B2) (cap1 cap2 : Nat)
    (f1 f2 : Option Error) (h1 : MeetsContract cfg s1 cap1 f1) (h2 : MeetsContract cfg s2 cap2 f2) (hle : cap1 ≤ cap2)
    (before : List BufOp) (hf : BufOp.Fits cap1 before .empty) (hb1 : history cfg before s1 = (.ok (), b1))
    (hb2 : history cfg before s2 = (.ok (), b2))
    (p : Program) (packet : Bytes) (hp : p.run cfg b2 = .ok packet) :
    p.run cfg b1 = if packet.length ≤ cap1 then .ok packet else failWith f1 := by
  rcases program_final h1 h2 hle hf hb1 hb2 p with ⟨o1, o2, e1, e2, e3, e4⟩ | ⟨x, e1, e2⟩ | ⟨e1, e2, _⟩
  · rw [hp] at e2
    cases e2
    rw [e1, e3, if_pos e4]
  · rw [hp] at e2
    exact absurd e2.symm (failWith_ne _ _)
  · rw [e1, if_neg (Nat.not_le.2 (e2 packet hp))]

/-- C107: `buffer::Dynamic` meets the contract: it hands out up to `isize::MAX` bytes, beyond that it panics. -/
theorem C107_dynamic (cfg : Cfg) : MeetsContract cfg Dynamic.new (cfg.isizeMax) none where
  layers ops hf := C01_dynamic_layers cfg ops hf
  writes ops b hf hb f g hg e := by
    obtain ⟨b', e1, hr⟩ := dyn_history cfg ops _ .empty DynRep.new hf
    rw [hb] at e1
    obtain rfl : b = b' := congrArg Prod.snd e1
    have hd := hr.data cfg
    show Dynamic.modifyData cfg f b = (_, (Dynamic.modifyData cfg _ b).2)
    unfold Dynamic.modifyData
    rw [hd]
    simp only [e]
  refuses ops b hf hb n hn hc := by
    obtain ⟨b', e1, hs⟩ := C01_dynamic_layers cfg ops hf
    rw [hb] at e1
    obtain rfl : b = b' := congrArg Prod.snd e1
    have hw := fits_last hf
    exact C01_unallocatable cfg ops hf b hb n (by rw [hs.used]; exact hc) (.inl (by rw [hs.used]; (have := cfg.width; omega)))

/-- C107: a fresh buffer of the user's own that meets the contract, against a fresh `buffer::Dynamic`. -/
theorem C107_like_dynamic (cfg : Cfg) {B : Type} [Buffer B] (start : B) (cap : Nat) (hcap : cap ≤ cfg.isizeMax)
    (full : Option Error) (h : MeetsContract cfg start cap full) (p : Program) :
    (p.run cfg start = p.run cfg Dynamic.new ∨ p.run cfg start = failWith full) ∧
    ∀ packet, p.run cfg Dynamic.new = .ok packet →
      p.run cfg start = if packet.length ≤ cap then .ok packet else failWith full :=
  ⟨C107_or_full cfg start start Dynamic.new _ cap _ full none h (C107_dynamic cfg) hcap [] (Nat.zero_le _) rfl rfl p,
    fun packet hp => C107_capacity cfg start start Dynamic.new _ cap _ full none h (C107_dynamic cfg) hcap [] (Nat.zero_le _)
      rfl rfl p packet hp⟩

/-! ## A repaired `buffer::Slice`

`buffer::Slice` does not meet the contract (C64): `more` moves the start of the layer.  Dropping that one assignment is
enough. -/

/-- `buffer::Slice` as it would be without line 70 of `src/buffer/slice.rs`. -/
structure Repaired where
  inner : Slice

/-- Run a call of `buffer::Slice`. -/
def Repaired.lift {α : Type} (f : Mut Slice α) : Mut Repaired α := fun b => ((f b.inner).1, ⟨(f b.inner).2⟩)

/-- `src/buffer/slice.rs:65-80` without line 70. -/
def Repaired.more (cfg : Cfg) (size : Nat) : Mut Slice Unit := fun b =>
  match addUsize cfg b.used size with
  | .ok total =>
    if b.inner.length < total then (.err .smallBuffer, b)
    else
      match addUsize cfg b.length size with
      | .ok length =>
        let b := { b with length := length }
        match addUsize cfg b.used size with
        | .ok used =>
          let b := { b with used := used }
          match subUsize cfg length size with
          | .ok start => Slice.modifyData cfg (Slice.zeroFrom start) b
          | _ => (.panic, b)
        | _ => (.panic, b)
      | _ => (.panic, b)
  | .err e => (.err e, b)
  | .panic => (.panic, b)

/-- The other calls are those of `src/buffer/slice.rs:42-107`. -/
instance : Buffer Repaired where
  intoInner b := Slice.intoInner b.inner
  next cfg n := Repaired.lift (Slice.next cfg n)
  more cfg n := Repaired.lift (Repaired.more cfg n)
  clear b := ⟨Slice.clear b.inner⟩
  used b := b.inner.used
  offset b := b.inner.offset
  length b := b.inner.length
  data cfg b := Slice.data cfg b.inner
  modifyData cfg f := Repaired.lift (Slice.modifyData cfg f)

theorem repaired_more {b : Slice} {pre layer tail : Bytes} (cfg : Cfg) (h : SliceRep cfg b pre layer tail) {n : Nat}
    (hn : pre.length + layer.length + n ≤ b.inner.length) :
    ∃ b', Repaired.more cfg n b = (.ok (), b') ∧ SliceRep cfg b' pre (layer ++ zeros n) (tail.drop n) := by
  have hb := h.bound
  have hm := cfg.width
  have hl := h.total
  have hu := h.used
  have h0 := h.length
  unfold Repaired.more
  rw [addUsize_ok (by omega)]
  simp only []
  rw [if_neg (by omega), addUsize_ok (by omega)]
  simp only []
  rw [subUsize_ok (by omega)]
  simp only []
  rw [addUsize_ok (by omega)]
  simp only []
  have h1 : SliceRep cfg { b with length := b.length + n, used := b.used + n } pre
      (layer ++ tail.take n) (tail.drop n) := by
    refine ⟨?_, h.offset, ?_, ?_, hb⟩
    · simp [h.inner, List.take_append_drop]
    · simp only [List.length_append, List.length_take]; omega
    · simp only [h.used, List.length_append, List.length_take]; omega
  have hz : (Slice.zeroFrom (b.length + n - n) (layer ++ tail.take n)) = (.ok (), layer ++ zeros n) := by
    unfold Slice.zeroFrom
    have ht : (tail.take n).length = n := by simp; omega
    rw [if_pos (by rw [List.length_append]; omega), show b.length + n - n = layer.length by omega, List.take_left' rfl,
      List.length_append, ht, Nat.add_sub_cancel_left]
  obtain ⟨b', e1, e2⟩ := h1.modifyData cfg (Slice.zeroFrom (b.length + n - n))
    (by rw [hz, List.length_append, List.length_append, zeros_length]; simp; omega)
  rw [hz] at e1 e2
  exact ⟨b', e1, e2⟩

theorem repaired_step (cfg : Cfg) (op : BufOp) (b : Repaired) (l : Layers) (storage : Bytes)
    (h : ∃ tail, SliceRep cfg b.inner l.pre l.top tail) (hc : b.inner.inner.length = storage.length)
    (hf : (op.step l).all.length ≤ storage.length) :
    ∃ b', callOf cfg op b = (.ok (), b') ∧ (∃ tail, SliceRep cfg b'.inner (op.step l).pre (op.step l).top tail) ∧
      b'.inner.inner.length = storage.length := by
  cases op with
  | more n =>
    obtain ⟨tail, h⟩ := h
    have hn : l.pre.length + l.top.length + n ≤ b.inner.inner.length := by
      rw [hc]; simpa [Layers.all, Layers.pre, BufOp.step, Nat.add_assoc] using hf
    obtain ⟨b', e1, e2⟩ := repaired_more cfg h hn
    have t1 := h.total
    have t2 := e2.total
    refine ⟨⟨b'⟩, ?_, ⟨_, e2⟩, ?_⟩
    · show Repaired.lift (Repaired.more cfg n) b = _
      unfold Repaired.lift
      rw [e1]
    · simp [zeros_length] at t2 t1; show b'.inner.length = _; omega
  | next n =>
    obtain ⟨b', e1, e2, e3⟩ := slice_step cfg (.next n) b.inner l storage h hc (fun _ h => (by cases h)) hf
    refine ⟨⟨b'⟩, ?_, e2, e3⟩
    have e1 : Slice.next cfg n b.inner = (.ok (), b') := e1
    show Repaired.lift (Slice.next cfg n) b = _
    unfold Repaired.lift
    rw [e1]
  | clear =>
    obtain ⟨b', e1, e2, e3⟩ := slice_step cfg .clear b.inner l storage h hc (fun _ h => (by cases h)) hf
    refine ⟨⟨b'⟩, ?_, e2, e3⟩
    have e1 : Slice.clear b.inner = b' := congrArg Prod.snd e1
    show (Outcome.ok (), (⟨Slice.clear b.inner⟩ : Repaired)) = _
    rw [e1]
  | edit f hl =>
    obtain ⟨b', e1, e2, e3⟩ := slice_step cfg (.edit f hl) b.inner l storage h hc (fun _ h => (by cases h)) hf
    refine ⟨⟨b'⟩, ?_, e2, e3⟩
    have e1 : Slice.modifyData cfg (fun d => (.ok (), f d)) b.inner = (.ok (), b') := e1
    show Repaired.lift (Slice.modifyData cfg _) b = _
    unfold Repaired.lift
    rw [e1]

theorem repaired_history (cfg : Cfg) (storage : Bytes) : ∀ (ops : List BufOp) (b : Repaired) (l : Layers),
    (∃ tail, SliceRep cfg b.inner l.pre l.top tail) → b.inner.inner.length = storage.length →
    BufOp.Fits storage.length ops l →
    ∃ b' : Repaired, history cfg ops b = (.ok (), b') ∧
      (∃ tail, SliceRep cfg b'.inner (BufOp.after ops l).pre (BufOp.after ops l).top tail) ∧
      b'.inner.inner.length = storage.length := by
  intro ops
  induction ops with
  | nil => intro b l hr hc _; exact ⟨b, rfl, hr, hc⟩
  | cons op ops ih =>
    intro b l hr hc hf
    obtain ⟨b1, e1, e2, e3⟩ := repaired_step cfg op b l storage hr hc (fits_head hf.2)
    rw [history_cons cfg op ops b b1 e1]
    exact ih b1 _ e2 e3 hf.2

/-- C107: the repaired `buffer::Slice` meets the contract over every storage, so every program gives on it the packet it
gives on `buffer::Dynamic`, or `SmallBuffer` if the packet does not fit. -/
theorem C107_repaired_slice (cfg : Cfg) (storage : Bytes) (hs : storage.length ≤ cfg.isizeMax) :
    MeetsContract cfg (Repaired.mk (Slice.new storage)) storage.length (some .smallBuffer) := by
  have reach : ∀ ops, BufOp.Fits storage.length ops .empty → ∃ b : Repaired,
      history cfg ops (Repaired.mk (Slice.new storage)) = (.ok (), b) ∧
      (∃ tail, SliceRep cfg b.inner (BufOp.after ops .empty).pre (BufOp.after ops .empty).top tail) ∧
      b.inner.inner.length = storage.length := fun ops hf =>
    repaired_history cfg storage ops _ .empty ⟨_, SliceRep.new hs⟩ rfl hf
  refine ⟨fun ops hf => ?_, fun ops b hf hb f g hg e => ?_, fun ops b hf hb n hn hc => ?_⟩
  · obtain ⟨b, e1, ⟨tail, hr⟩, _⟩ := reach ops hf
    have hs := slice_shows cfg b.inner _ tail hr
    exact ⟨b, e1, hs.data, hs.offset, hs.length, hs.used, hs.inner⟩
  · obtain ⟨b', e1, ⟨tail, hr⟩, _⟩ := reach ops hf
    rw [hb] at e1
    obtain rfl : b = b' := congrArg Prod.snd e1
    have hd := hr.data cfg
    show Repaired.lift (Slice.modifyData cfg f) b = (_, (Repaired.lift (Slice.modifyData cfg _) b).2)
    unfold Repaired.lift Slice.modifyData
    rw [hd]
    simp only [e]
  · obtain ⟨b', e1, ⟨tail, hr⟩, hl⟩ := reach ops hf
    rw [hb] at e1
    obtain rfl : b = b' := congrArg Prod.snd e1
    have hu : b.inner.used = (BufOp.after ops .empty).all.length := by
      rw [hr.used]; simp [Layers.all, Layers.pre]
    have hw := fits_last hf
    constructor
    · show (Slice.next cfg n b.inner).1 = .err .smallBuffer
      unfold Slice.next
      rw [addUsize_ok (by (have := cfg.width; omega))]
      simp only []
      rw [if_pos (by omega)]
    · show (Repaired.more cfg n b.inner).1 = .err .smallBuffer
      unfold Repaired.more
      rw [addUsize_ok (by (have := cfg.width; omega))]
      simp only []
      rw [if_pos (by omega)]

/-- A concrete case that meets the hypotheses. -/
example (cfg : Cfg) := C107_repaired_slice cfg (zeros 100) (by in_every_build)

/-- C107 says nothing about `buffer::Slice` as it is: over a storage of two bytes or more it does not meet the contract. -/
theorem C107_not_slice (cfg : Cfg) (storage : Bytes) (hs : storage.length ≤ cfg.isizeMax) (h2 : 2 ≤ storage.length)
    (full : Option Error) : ¬ MeetsContract cfg (Slice.new storage) storage.length full := by
  intro h
  have hf : BufOp.Fits storage.length [.next 1] .empty := by
    refine ⟨Nat.zero_le _, ?_⟩
    show (1 : Nat) ≤ _
    omega
  have hf2 : BufOp.Fits storage.length ([.next 1] ++ [.more 1]) .empty := fits_snoc hf (by show (2 : Nat) ≤ _; exact h2)
  obtain ⟨b, e1, hs1⟩ := h.layers _ hf
  obtain ⟨b', e2, hs2⟩ := h.layers _ hf2
  have e3 := history_snoc_inv cfg (.more 1) [.next 1] _ b b' e1 e2
  have hu : Buffer.used b = 1 := hs1.used
  have hm : BufOp.MoreOnEmpty [.next 1] .empty := ⟨(fun _ h => (by cases h)), trivial⟩
  rcases C64_slice_more_refuted cfg storage hs [.next 1] hm hf b e1 (by decide) 1 (by omega) with hp | ⟨b2, e4, _, _, hn⟩
  · rw [e3] at hp; cases hp
  · rw [e3] at e4
    obtain rfl : b' = b2 := congrArg Prod.snd e4
    exact hn hs2

/-- The two buffers of the last theorems and a program with a payload: a UDP datagram in IPv4, 30 bytes long, needs a
storage of 30 bytes. -/
example : let cfg : Cfg := ⟨true, true, false⟩
    let p : Program := .ipv4 [.ttl 64, .source ⟨10, 0, 0, 1⟩, .destination ⟨10, 0, 0, 2⟩] (.udp [.source 53, .payload [1, 2]])
    (List.length <$> p.run cfg Dynamic.new) = .ok 30 ∧
    p.run cfg (Repaired.mk (Slice.new (List.replicate 30 0xee#8))) = p.run cfg Dynamic.new ∧
    p.run cfg (Repaired.mk (Slice.new (List.replicate 29 0xee#8))) = .err .smallBuffer ∧
    p.run cfg (Slice.new (List.replicate 30 0xee#8)) ≠ p.run cfg Dynamic.new := by
  refine ⟨?_, ?_, ?_, ?_⟩ <;> decide +kernel

/-- A concrete case that meets the hypotheses. -/
example (cfg : Cfg) (B1 : Type) (B2 : Type) := C107_same_outcome cfg (Repaired.mk (Slice.new (zeros 100))) _
    (Repaired.mk (Slice.new (List.replicate 100 0x55#8))) _ 100 _ (C107_repaired_slice cfg (zeros 100) (by in_every_build))
    (C107_repaired_slice cfg (List.replicate 100 0x55#8) (by in_every_build)) [.next 4] ⟨by decide, by show _ ≤ _; decide⟩
    (Prod.ext (by in_every_build) rfl) (Prod.ext (by in_every_build) rfl)

/-- A concrete case that meets the hypotheses. -/
example (cfg : Cfg) (B1 : Type) (B2 : Type) := C107_or_full cfg (Repaired.mk (Slice.new (zeros 100))) _ Dynamic.new _
    100 _ _ _ (C107_repaired_slice cfg (zeros 100) (by in_every_build)) (C107_dynamic cfg) (by in_every_build) [.next 4]
    ⟨by decide, by show _ ≤ _; decide⟩ (Prod.ext (by in_every_build) rfl) (Prod.ext (by in_every_build) rfl)

/-- A concrete case that meets the hypotheses. -/
example (cfg : Cfg) (B1 : Type) (B2 : Type) := C107_capacity cfg (Repaired.mk (Slice.new (zeros 100))) _ Dynamic.new _
    100 _ _ _ (C107_repaired_slice cfg (zeros 100) (by in_every_build)) (C107_dynamic cfg) (by in_every_build) [.next 4]
    ⟨by decide, by show _ ≤ _; decide⟩ (Prod.ext (by in_every_build) rfl) (Prod.ext (by in_every_build) rfl)
    (.ethernet Sample.eops Sample.vops (.udp Sample.uops)) _ (Sample.value_of (by in_every_build))

/-- A concrete case that meets the hypotheses. -/
example (cfg : Cfg) (B : Type) := C107_like_dynamic cfg (Repaired.mk (Slice.new (zeros 100))) 100 (by in_every_build) _
    (C107_repaired_slice cfg (zeros 100) (by in_every_build))

end Verif.Props
