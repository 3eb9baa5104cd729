import Verif.Props.BuildersSlice
import Verif.Spec.Static
import Verif.Samples

/-! # What payloads do on a static buffer, exactly (C104) -/

namespace Verif.Props
open Verif Verif.Spec

/-! ## The loop -/

/-- Bytes written at every second place from `p` on. -/
def scatter (m : Bytes) : Nat → Bytes → Bytes
  | _, [] => m
  | p, y :: ys => scatter (put m p [y]) (p + 2) ys

theorem scatter_length : ∀ (v : Bytes) (m : Bytes) (p : Nat), (v ≠ [] → p + 2 * v.length ≤ m.length + 1) →
    (scatter m p v).length = m.length := by
  intro v
  induction v with
  | nil => intros; rfl
  | cons y ys ih =>
    intro m p h
    have h := h (by simp)
    simp only [List.length_cons] at h
    have hl : (put m p [y]).length = m.length := length_put (by simp; omega)
    unfold scatter
    rw [ih _ _ (by intro hne; have := List.length_pos_iff.2 hne; omega), hl]

theorem scatter_get : ∀ (v : Bytes) (m : Bytes) (p : Nat), (v ≠ [] → p + 2 * v.length ≤ m.length + 1) →
    ∀ j, (scatter m p v)[j]? =
      if p ≤ j ∧ (j - p) % 2 = 0 ∧ (j - p) / 2 < v.length then v[(j - p) / 2]? else m[j]? := by
  intro v
  induction v with
  | nil => intro m p _ j; simp [scatter]
  | cons y ys ih =>
    intro m p h j
    have h := h (by simp)
    simp only [List.length_cons] at h
    have hl : (put m p [y]).length = m.length := length_put (by simp; omega)
    unfold scatter
    rw [ih _ _ (by intro hne; have := List.length_pos_iff.2 hne; omega), getElem?_put (by simp; omega)]
    simp only [List.length_cons, List.length_nil]
    by_cases h1 : j < p
    · rw [if_neg (by omega), if_pos h1, if_neg (by omega)]
    · by_cases h2 : j = p
      · subst h2
        rw [if_neg (by omega), if_neg h1, if_pos (by omega), if_pos (by omega)]
        simp
      · by_cases h3 : (j - p) % 2 = 0 ∧ (j - p) / 2 < ys.length + 1
        · have e : (j - p) / 2 = (j - (p + 2)) / 2 + 1 := by omega
          rw [if_pos (by omega), if_pos (by omega), e, List.getElem?_cons_succ]
        · rw [if_neg (by omega), if_neg h1, if_neg (by omega), if_neg (by omega)]

/-- The first byte, then the rest. -/
theorem append_cons (cfg : Cfg) (y : U8) (ys : Bytes) (b : Slice) : appendAll cfg (y :: ys) b =
    ((Buffer.more cfg 1 >>= fun _ => Buffer.modifyData cfg (setLast y)) >>=
      fun _ => appendAll cfg ys : Mut Slice Unit) b := by
  show (Buffer.more cfg 1 >>= fun _ => (Buffer.modifyData cfg (setLast y) >>= fun _ =>
    appendAll cfg ys) : Mut Slice Unit) b = _
  rw [Mut.bind_apply, Mut.bind_apply, Mut.bind_apply]
  rcases h : (Buffer.more cfg 1 : Mut Slice Unit) b with ⟨o, b1⟩
  cases o
  · show (Buffer.modifyData cfg (setLast y) >>= fun _ => appendAll cfg ys : Mut Slice Unit) b1 = _
    rw [Mut.bind_apply]
  · rfl
  · rfl

/-- One byte that has its place. -/
theorem slice_one_put (cfg : Cfg) (b : Slice) (hb : b.inner.length ≤ cfg.isizeMax) (y : U8)
    (h : b.used + b.length + 1 ≤ b.inner.length) :
    (Buffer.more cfg 1 >>= fun _ => Buffer.modifyData cfg (setLast y) : Mut Slice Unit) b =
      (.ok (), ⟨put b.inner (b.used + b.length) [y], b.used, b.length + 1, b.used + 1⟩) := by
  obtain ⟨A, M, x, R, hi, hA, hM⟩ : ∃ (A M : Bytes) (x : U8) (R : Bytes), b.inner = A ++ (M ++ [x]) ++ R ∧
      A.length = b.used ∧ M.length = b.length := by
    have h2 : (b.inner.drop (b.used + b.length)) ≠ [] := by
      intro h
      have := congrArg List.length h
      rw [List.length_drop] at this
      simp at this
      omega
    obtain ⟨x, R, hx⟩ := List.exists_cons_of_ne_nil h2
    refine ⟨b.inner.take b.used, (b.inner.drop b.used).take b.length, x, R, ?_, ?_, ?_⟩
    · rw [List.append_assoc, List.append_assoc, List.singleton_append, ← hx, ← List.drop_drop,
        List.take_append_drop, List.take_append_drop]
    · rw [List.length_take]; omega
    · rw [List.length_take, List.length_drop]; omega
  rw [slice_one cfg b hb A M R x y hi hA.symm hM.symm, ← hA, ← hM, hi]
  have := put_middle (A ++ M) [x] R [y] rfl
  rw [List.length_append] at this
  rw [show A ++ (M ++ [x]) ++ R = A ++ M ++ [x] ++ R by simp [List.append_assoc], this]
  simp [List.append_assoc]

/-- A payload every byte of which has its place. -/
theorem slice_append_ok (cfg : Cfg) : ∀ (v : Bytes) (b : Slice), b.inner.length ≤ cfg.isizeMax → v ≠ [] →
    b.used + b.length + 2 * v.length ≤ b.inner.length + 1 →
    appendAll cfg v b = (.ok (), ⟨scatter b.inner (b.used + b.length) v, b.used + v.length - 1,
      b.length + v.length, b.used + v.length⟩) := by
  intro v
  induction v with
  | nil => intro b _ h; exact (h rfl).elim
  | cons y ys ih =>
    intro b hb _ hroom
    simp only [List.length_cons] at hroom
    have hl : (put b.inner (b.used + b.length) [y]).length = b.inner.length := length_put (by simp; omega)
    rw [append_cons, Mut.bind_ok (slice_one_put cfg b hb y (by omega))]
    by_cases hy : ys = []
    · subst hy
      show (Outcome.ok (), _) = (Outcome.ok (), _)
      simp [scatter]
    · rw [ih _ (by rw [hl]; exact hb) hy (by rw [hl]; simp only []; omega)]
      simp only [List.length_cons]
      have e1 : b.used + 1 + (b.length + 1) = b.used + b.length + 2 := by omega
      have e2 : b.used + 1 + ys.length - 1 = b.used + (ys.length + 1) - 1 := by omega
      have e3 : b.length + 1 + ys.length = b.length + (ys.length + 1) := by omega
      have e4 : b.used + 1 + ys.length = b.used + (ys.length + 1) := by omega
      rw [e1, e2, e3, e4]
      rfl

theorem slice_append_small (cfg : Cfg) (b : Slice) (hb : b.inner.length ≤ cfg.isizeMax) (v : Bytes) (hv : v ≠ [])
    (h : b.used = b.inner.length) : onBuffer (appendAll cfg v) b = .err .smallBuffer := by
  obtain ⟨y, ys, rfl⟩ := List.exists_cons_of_ne_nil hv
  have hm := cfg.width
  unfold onBuffer appendAll
  have : (Buffer.more cfg 1 : Mut Slice Unit) b = (.err .smallBuffer, b) := by
    show Slice.more cfg 1 b = _
    unfold Slice.more
    rw [addUsize_ok (by omega)]
    simp only []
    rw [if_pos (by omega)]
  rw [Mut.bind_apply, this]

theorem onBuffer_bind_ok {α β : Type} {f : Mut Slice α} {g : α → Mut Slice β} {b b' : Slice} {a : α}
    (h : f b = (.ok a, b')) : onBuffer (f >>= g) b = onBuffer (g a) b' := by
  unfold onBuffer
  rw [Mut.bind_ok h]

theorem slice_append_panic (cfg : Cfg) : ∀ (v : Bytes) (b : Slice), b.inner.length ≤ cfg.isizeMax →
    1 ≤ b.length → b.used < b.inner.length → b.length ≤ cfg.isizeMax →
    b.inner.length + 1 < b.used + b.length + 2 * v.length → v ≠ [] →
    onBuffer (appendAll cfg v) b = .panic := by
  intro v
  induction v with
  | nil => intro b _ _ _ _ _ h; exact (h rfl).elim
  | cons y ys ih =>
    intro b hb h1 hu hl hroom _
    simp only [List.length_cons] at hroom
    by_cases hp : b.inner.length < b.used + b.length + 1
    · exact slice_append_panics cfg b hb y ys (by omega) hp hl
    · have hl' : (put b.inner (b.used + b.length) [y]).length = b.inner.length := length_put (by simp; omega)
      have e : onBuffer (appendAll cfg (y :: ys)) b = onBuffer (appendAll cfg ys)
          ⟨put b.inner (b.used + b.length) [y], b.used, b.length + 1, b.used + 1⟩ := by
        have := onBuffer_bind_ok (g := fun _ => appendAll cfg ys) (slice_one_put cfg b hb y (by omega))
        rw [← this]
        unfold onBuffer
        rw [append_cons]
      rw [e]
      refine ih _ (by rw [hl']; exact hb) (by simp only []; omega) (by rw [hl']; simp only []; omega)
        (by simp only []; omega) (by rw [hl']; simp only []; omega) ?_
      intro hne
      subst hne
      simp at hroom
      omega

/-! ## A static buffer and what its storage held -/

/-- As `SliceRep`, remembering that the storage behind what is used is untouched. -/
def Fresh (cfg : Cfg) (storage : Bytes) (b : Slice) (pre layer : Bytes) : Prop :=
  SliceRep cfg b pre layer (storage.drop (pre.length + layer.length)) ∧ b.inner.length = storage.length

/-- Static buffers over a given storage are lawful. -/
def fresh (storage : Bytes) : LawfulBuffer Slice where
  Rep cfg cap b pre layer := cap = storage.length ∧ Fresh cfg storage b pre layer
  Grows := False
  cap_le h := by obtain ⟨h, hr, hl⟩ := h; rw [h, ← hl]; exact hr.bound
  fits h := by
    obtain ⟨h, hr, hl⟩ := h
    have := hr.total
    omega
  offset h := h.2.1.offset
  length h := h.2.1.length
  inner {cfg cap b pre layer} h := by
    obtain ⟨h, hr, hl⟩ := h
    exact @LawfulBuffer.inner Slice _ _ cfg b.inner.length b pre layer ⟨rfl, _, hr⟩
  data cfg h := h.2.1.data cfg
  next {cap b pre layer} cfg n h hn := by
    obtain ⟨h, hr, hl⟩ := h
    obtain ⟨b', e1, e2⟩ := hr.next cfg (n := n) (by rw [hl, ← h]; exact hn)
    have hz : (zeros n).length = n := List.length_replicate ..
    have t := e2.total
    rw [hz, List.length_append, List.drop_drop, List.length_drop] at t
    rw [List.drop_drop] at e2
    refine ⟨b', e1, h, ?_, by omega⟩
    rw [List.length_append, hz]
    exact e2
  modify {cap b pre layer layer' α r} cfg f h hf hl := by
    obtain ⟨h, hr, hl2⟩ := h
    obtain ⟨b', e1, e2⟩ := hr.modifyData cfg f (by rw [hf]; exact hl)
    rw [hf] at e1 e2
    have e2 : SliceRep cfg b' pre layer' _ := e2
    have t1 := hr.total
    have t2 := e2.total
    refine ⟨b', e1, h, ?_, by omega⟩
    rw [hl]
    exact e2
  modify_congr {b d} _ cfg f g h hfg :=
    LawfulBuffer.modify_congr (b := b) (d := d) cfg f g h hfg
  more _ _ g := g.elim
  Refuses := True
  refuse {cap b pre layer} cfg n _ h hn hc := by
    obtain ⟨h, hr, hl⟩ := h
    exact @LawfulBuffer.refuse Slice _ _ b.inner.length b pre layer cfg n trivial ⟨rfl, _, hr⟩ hn (by omega)

theorem misplaced_length (L : Nat) (rest v : Bytes) : (misplaced L rest v).length = v.length := by
  simp [misplaced]

theorem misplaced_get (L : Nat) (rest v : Bytes) (hr : v.length ≤ rest.length) (j : Nat) (hj : j < v.length) :
    (misplaced L rest v)[j]? = if L ≤ j ∧ (j - L) % 2 = 0 then v[(j - L) / 2]? else rest[j]? := by
  unfold misplaced
  rw [List.getElem?_map, List.getElem?_range hj]
  simp only [Option.map_some]
  by_cases h : L ≤ j ∧ (j - L) % 2 = 0
  · rw [if_pos h, if_pos h, List.getD_eq_getElem?_getD, List.getElem?_eq_getElem (by omega)]
    rfl
  · rw [if_neg h, if_neg h, List.getD_eq_getElem?_getD, List.getElem?_eq_getElem (by omega)]
    rfl

/-- `payload()` on a static buffer, exactly. -/
theorem fresh_payload (cfg : Cfg) {storage : Bytes} {b : Slice} {pre layer : Bytes} (h : Fresh cfg storage b pre layer)
    (v : Bytes) (hv : v ≠ []) (hl : 1 ≤ layer.length) :
    match payloadEnd storage.length (pre.length + layer.length) layer.length v.length with
    | .refused => onBuffer (appendAll cfg v) b = .err .smallBuffer
    | .panics => onBuffer (appendAll cfg v) b = .panic
    | .stored => ∃ b', onBuffer (appendAll cfg v) b = .ok b' ∧
        Buffer.intoInner b' =
          .ok (pre ++ layer ++ misplaced layer.length (storage.drop (pre.length + layer.length)) v) ∧
        Buffer.length b' = layer.length + v.length ∧
        Buffer.offset b' = pre.length + layer.length + v.length - 1 := by
  obtain ⟨hr, hc⟩ := h
  have h1 := hr.used
  have h2 := hr.length
  have h3 := hr.total
  have h4 := hr.bound
  have hn := List.length_pos_iff.2 hv
  rw [List.length_drop] at h3
  unfold payloadEnd
  by_cases c1 : storage.length ≤ pre.length + layer.length
  · rw [if_pos c1]
    exact slice_append_small cfg b h4 v hv (by omega)
  · rw [if_neg c1]
    by_cases c2 : storage.length ≤ pre.length + layer.length + layer.length + 2 * (v.length - 1)
    · rw [if_pos c2]
      exact slice_append_panic cfg v b h4 (by omega) (by omega) (by omega) (by omega) hv
    · rw [if_neg c2]
      have hroom : b.used + b.length + 2 * v.length ≤ b.inner.length + 1 := by omega
      refine ⟨_, onBuffer_ok (slice_append_ok cfg v b h4 hv hroom), ?_, ?_, ?_⟩
      · show Slice.intoInner _ = _
        unfold Slice.intoInner
        simp only []
        have hsl := scatter_length v b.inner (b.used + b.length) (fun _ => hroom)
        rw [slice_ok (by omega) (by rw [hsl]; omega), List.drop_zero]
        congr 1
        apply List.ext_getElem?
        intro j
        have hm := misplaced_length layer.length (storage.drop (pre.length + layer.length)) v
        by_cases hj : j < b.used + v.length
        · rw [List.getElem?_take_of_lt hj, scatter_get v b.inner _ (fun _ => hroom)]
          by_cases hj2 : j < pre.length + layer.length
          · rw [if_neg (by omega), List.getElem?_append_left (by rw [List.length_append]; exact hj2), hr.inner,
              List.getElem?_append_left (by rw [List.length_append]; exact hj2)]
          · rw [List.getElem?_append_right (by rw [List.length_append]; omega), List.length_append,
              misplaced_get _ _ _ (by rw [List.length_drop]; omega) _ (by omega), hr.inner,
              List.getElem?_append_right (by rw [List.length_append]; omega), List.length_append]
            by_cases hc : layer.length ≤ j - (pre.length + layer.length) ∧
                (j - (pre.length + layer.length) - layer.length) % 2 = 0
            · rw [if_pos (by omega), if_pos hc, h1, h2, Nat.sub_sub]
            · rw [if_neg (by omega), if_neg hc]
        · rw [List.getElem?_eq_none (by rw [List.length_take]; omega),
            List.getElem?_eq_none (by rw [List.length_append, List.length_append, hm]; omega)]
      · show b.length + v.length = _
        rw [h2]
      · show b.used + v.length - 1 = _
        rw [h1]

/-! ## Builders up to the payload, on any buffer -/

theorem buildTail_congr {B C : Type} [Buffer B] [Buffer C] {b : B} {c : C} (fs : Finalization)
    (h : Buffer.intoInner b = Buffer.intoInner c) : buildTail b fs = buildTail c fs := by
  unfold buildTail
  rw [h]

theorem runOps_snoc {A Op : Type} {run : Op → A → Outcome A} (ops : List Op) (op : Op) (a : A) :
    runOps run (ops ++ [op]) a = runOps run ops a >>= run op := by
  rw [runOps_append]
  congr 1
  funext s
  show (run op s >>= fun s => Outcome.ok s) = _
  cases run op s <;> rfl

section
variable {B : Type} [Buffer B] [LawfulBuffer B]
open LawfulBuffer

theorem ether_free {cap n : Nat} {ops : List EtherOp} (h : ops.filterMap EtherOp.payload? = []) :
    ∀ op ∈ ops, op.room B cap n := by
  intro op hop
  rw [List.filterMap_eq_nil_iff] at h
  cases op with
  | payload v => cases h _ hop
  | _ => trivial

theorem v4_free {cap n : Nat} {ops : List V4Op} (h : ops.filterMap V4Op.payload? = []) :
    ∀ op ∈ ops, op.room B cap n := by
  intro op hop
  rw [List.filterMap_eq_nil_iff] at h
  cases op with
  | payload v => cases h _ hop
  | _ => trivial

theorem udp_free {cap n : Nat} {ops : List UdpOp} (h : ops.filterMap UdpOp.payload? = []) :
    ∀ op ∈ ops, op.room B cap n := by
  intro op hop
  rw [List.filterMap_eq_nil_iff] at h
  cases op with
  | payload v => cases h _ hop
  | _ => trivial

theorem tcp_free {cap n : Nat} {ops : List TcpOp} (h : ops.filterMap TcpOp.payload? = []) :
    ∀ op ∈ ops, op.room B cap n := by
  intro op hop
  rw [List.filterMap_eq_nil_iff] at h
  cases op with
  | payload v => cases h _ hop
  | _ => trivial

theorem echo_free {cap n : Nat} {ops : List EchoOp} (h : ops.filterMap EchoOp.payload? = []) :
    ∀ op ∈ ops, op.room B cap n := by
  intro op hop
  rw [List.filterMap_eq_nil_iff] at h
  cases op with
  | payload v => cases h _ hop
  | _ => trivial

omit [Buffer B] [LawfulBuffer B] in
/-- What a simulation behind a size check says. -/
theorem sim_need {A σ : Type} {R : A → σ → Prop} {o : Outcome σ} {cap n : Nat} {p : Outcome A} {a : A}
    (h : Sim R o (need cap n >>= fun _ => p)) (hp : p = .ok a) :
    (n ≤ cap → ∃ s, o = .ok s ∧ R a s) ∧ (cap < n → o = .err .smallBuffer) := by
  subst hp
  unfold need at h
  constructor
  · intro hn
    rw [if_pos hn] at h
    exact h
  · intro hn
    rw [if_neg (by omega)] at h
    exact h

theorem ether_prefix (cfg : Cfg) {cap : Nat} {b : B} {pre layer : Bytes} (h : Rep cfg cap b pre layer)
    (ops : List EtherOp) (ho : ops.filterMap EtherOp.payload? = []) {e : EtherState}
    (he : runOps EtherOp.abs ops .init = .ok e) (hf : Fine B cap (pre.length + layer.length + 14)) :
    (pre.length + layer.length + 14 ≤ cap →
      ∃ s, (EtherBuilder.«with» cfg b >>= runOps (EtherOp.run cfg) ops) = .ok s ∧
        EtherRep cfg cap (pre ++ layer) [] e s) ∧
    (cap < pre.length + layer.length + 14 →
      (EtherBuilder.«with» cfg b >>= runOps (EtherOp.run cfg) ops) = .err .smallBuffer) := by
  have h2 := (ether_with_total cfg h hf).run _ (fun op a s hr hl => ether_abs cfg op a s hr hl) ops (ether_free ho)
  rw [bind_assoc] at h2
  exact sim_need h2 he

theorem v4_prefix (cfg : Cfg) {cap : Nat} {b : B} {pre layer : Bytes} (h : Rep cfg cap b pre layer) (fs : Finalization)
    (vops : List V4Op) (ho : vops.filterMap V4Op.payload? = []) {a : V4State}
    (ha : runOps V4Op.abs vops .init = .ok a) (hf : Fine B cap (pre.length + layer.length + 20)) :
    (pre.length + layer.length + 20 ≤ cap →
      ∃ s, (IpBuilder.v4 cfg (⟨b, fs⟩ : IpBuilder B) >>= runOps (V4Op.run cfg) vops) = .ok s ∧
        V4Rep cfg cap (pre ++ layer) fs a s) ∧
    (cap < pre.length + layer.length + 20 →
      (IpBuilder.v4 cfg (⟨b, fs⟩ : IpBuilder B) >>= runOps (V4Op.run cfg) vops) = .err .smallBuffer) := by
  have h1 := (v4_with_total cfg h hf).map (Q := V4Rep cfg cap (pre ++ layer) fs)
    (fun v => { v with finalizer := v.finalizer.extend fs })
    (fun a s r => ⟨r.rep, by simp [Finalization.extend, r.fin], r.payload, r.ok⟩)
  have h2 := h1.run _ (fun op a s hr hl => v4_abs cfg op a s hr hl) vops (v4_free ho)
  rw [bind_assoc (x := need _ _)] at h2
  exact sim_need h2 ha

theorem udp_prefix (cfg : Cfg) {cap : Nat} {pre : Bytes} {fs : Finalization} {a : V4State} {s : V4Builder B}
    (h : V4Rep cfg cap pre fs a s) (hp : a.payload = none) (ops : List UdpOp) (ho : ops.filterMap UdpOp.payload? = [])
    {u : UdpState} (hu : runOps UdpOp.abs ops .init = .ok u) (hf : Fine B cap (pre.length + 28)) :
    (pre.length + 28 ≤ cap → ∃ t, (V4Builder.udp cfg s >>= runOps (UdpOp.run cfg) ops) = .ok t ∧
      UdpRep cfg cap (pre ++ ipv4Header { a.fields with protocol := 17#8 } 0#16 0#16)
        (fs ++ [V4Builder.finalizerOf cfg pre.length 20]) (pre.length, 20) u t) ∧
    (cap < pre.length + 28 → (V4Builder.udp cfg s >>= runOps (UdpOp.run cfg) ops) = .err .smallBuffer) := by
  obtain ⟨s1, e1, r1⟩ := v4_enter cfg .udp a s h hp
  have hb : (V4Op.step (.protocol .udp) a).bytes = ipv4Header { a.fields with protocol := 17#8 } 0#16 0#16 := by
    show _ ++ a.payload.getD [] = _
    rw [hp]; exact List.append_nil _
  have hok : Ipv4Fields.ok { a.fields with protocol := 17#8 } := r1.ok
  have hrep := r1.rep
  rw [hb] at hrep
  have hl := hok.length 0#16 0#16
  have h0 := udp_with_total cfg hrep (by rw [hl]; exact hf)
  rw [hl] at h0
  have h1 := h0.map (Q := UdpRep cfg cap (pre ++ ipv4Header { a.fields with protocol := 17#8 } 0#16 0#16)
      (fs ++ [V4Builder.finalizerOf cfg pre.length 20]) (pre.length, 20))
    (fun u => { u with finalizer := u.finalizer.extend s1.finalizer })
    (fun u s r => ⟨r.rep, by simp [Finalization.extend, r.fin, r1.fin], r.ip, r.payload⟩)
  have h2 := h1.run _ (fun op a s hr hl => udp_abs cfg op a s hr hl) ops (udp_free ho)
  rw [bind_assoc (x := need _ _)] at h2
  unfold V4Builder.udp
  rw [e1, Outcome.ok_bind]
  exact sim_need h2 hu

theorem tcp_prefix (cfg : Cfg) {cap : Nat} {pre : Bytes} {fs : Finalization} {a : V4State} {s : V4Builder B}
    (h : V4Rep cfg cap pre fs a s) (hp : a.payload = none) (ops : List TcpOp) (ho : ops.filterMap TcpOp.payload? = [])
    {u : TcpState} (hu : runOps TcpOp.abs ops .init = .ok u) (hf : Fine B cap (pre.length + 40)) :
    (pre.length + 40 ≤ cap → ∃ t, (V4Builder.tcp cfg s >>= runOps (TcpOp.run cfg) ops) = .ok t ∧
      TcpRep cfg cap (pre ++ ipv4Header { a.fields with protocol := 6#8 } 0#16 0#16)
        (fs ++ [V4Builder.finalizerOf cfg pre.length 20]) (pre.length, 20) u t) ∧
    (cap < pre.length + 40 → (V4Builder.tcp cfg s >>= runOps (TcpOp.run cfg) ops) = .err .smallBuffer) := by
  obtain ⟨s1, e1, r1⟩ := v4_enter cfg .tcp a s h hp
  have hb : (V4Op.step (.protocol .tcp) a).bytes = ipv4Header { a.fields with protocol := 6#8 } 0#16 0#16 := by
    show _ ++ a.payload.getD [] = _
    rw [hp]; exact List.append_nil _
  have hok : Ipv4Fields.ok { a.fields with protocol := 6#8 } := r1.ok
  have hrep := r1.rep
  rw [hb] at hrep
  have hl := hok.length 0#16 0#16
  have h0 := tcp_with_total cfg hrep (by rw [hl]; exact hf)
  rw [hl] at h0
  have h1 := h0.map (Q := TcpRep cfg cap (pre ++ ipv4Header { a.fields with protocol := 6#8 } 0#16 0#16)
      (fs ++ [V4Builder.finalizerOf cfg pre.length 20]) (pre.length, 20))
    (fun u => { u with finalizer := u.finalizer.extend s1.finalizer })
    (fun u s r => ⟨r.rep, by simp [Finalization.extend, r.fin, r1.fin], r.ip, r.payload, r.payloadLength⟩)
  have h2 := h1.run _ (fun op a s hr hl => tcp_abs cfg op a s hr hl) ops (tcp_free ho)
  rw [bind_assoc (x := need _ _)] at h2
  unfold V4Builder.tcp
  rw [e1, Outcome.ok_bind]
  exact sim_need h2 hu

theorem echo_prefix (cfg : Cfg) {cap : Nat} {b : B} {pre layer : Bytes} (h : Rep cfg cap b pre layer) (fs : Finalization)
    (ops : List EchoOp) (ho : ops.filterMap EchoOp.payload? = []) {a : EchoState}
    (ha : runOps EchoOp.abs ops .init = .ok a) (hf : Fine B cap (pre.length + layer.length + 8)) :
    (pre.length + layer.length + 8 ≤ cap →
      ∃ s, (IcmpBuilder.echo cfg (⟨b, fs⟩ : IcmpBuilder B) >>= runOps (EchoOp.run cfg) ops) = .ok s ∧
        EchoRep cfg cap (pre ++ layer) fs a s) ∧
    (cap < pre.length + layer.length + 8 →
      (IcmpBuilder.echo cfg (⟨b, fs⟩ : IcmpBuilder B) >>= runOps (EchoOp.run cfg) ops) = .err .smallBuffer) := by
  have h1 := (echo_with_total cfg h hf).map (Q := EchoRep cfg cap (pre ++ layer) fs)
    (fun s => { s with finalizer := s.finalizer.extend fs })
    (fun a s r => ⟨r.rep, by simp [Finalization.extend, r.fin], r.kind, r.payload⟩)
  have h2 := h1.run _ (fun op a s hr hl => echo_abs cfg op a s hr hl) ops (echo_free ho)
  rw [bind_assoc (x := need _ _)] at h2
  exact sim_need h2 ha

end

/-! ## Ethernet -/

/-- C104, Ethernet: exactly what a frame with a payload becomes on a static buffer of any size. -/
theorem C104_ether (cfg : Cfg) (storage : Bytes) (ops : List EtherOp) (v : Bytes) (hv : v ≠ [])
    (he : ops.filterMap EtherOp.payload? = []) (hs : storage.length ≤ cfg.isizeMax) :
    etherProgram cfg (Slice.new storage) (ops ++ [.payload v]) =
      match payloadEnd storage.length 14 14 v.length with
      | .refused => .err .smallBuffer
      | .panics => .panic
      | .stored => etherProgram cfg Dynamic.new (ops ++ [.payload (misplaced 14 (storage.drop 14) v)]) := by
  obtain ⟨e, hrun, hpay⟩ : ∃ e, runOps EtherOp.abs ops .init = .ok e ∧ e.payload = none :=
    ⟨_, ether_run ops (by rw [he]; decide), by show (ops.filterMap EtherOp.payload?).getLast? = _; rw [he]; rfl⟩
  have hl := EtherState.length e
  rw [hpay] at hl
  have hl : e.bytes.length = 14 := hl
  have unfoldP : ∀ {B : Type} [Buffer B] (b : B) (w : Bytes), etherProgram cfg b (ops ++ [.payload w]) =
      ((EtherBuilder.«with» cfg b >>= runOps (EtherOp.run cfg) ops) >>= fun s =>
        EtherBuilder.setPayload cfg w s >>= EtherBuilder.build) := by
    intro B _ b w
    unfold etherProgram
    rw [bind_assoc]
    congr 1
    funext s
    rw [runOps_snoc, bind_assoc]
    rfl
  have hrep : (fresh storage).Rep cfg storage.length (Slice.new storage) [] [] := ⟨rfl, SliceRep.new hs, rfl⟩
  have hS := @ether_prefix Slice _ (fresh storage) cfg _ _ _ _ hrep ops he e hrun (.inr trivial)
  simp only [List.length_nil, Nat.zero_add, List.append_nil] at hS
  rw [unfoldP]
  by_cases h14 : storage.length < 14
  · rw [hS.2 h14]
    unfold payloadEnd
    rw [if_pos (by omega)]
    rfl
  · obtain ⟨s, e1, ⟨rrep, rfin, rpay⟩⟩ := hS.1 (by omega)
    rw [e1, Outcome.ok_bind]
    have hfr : Fresh cfg storage s.buffer [] e.bytes := rrep.2
    have hP := fresh_payload cfg hfr v hv (by omega)
    simp only [List.length_nil, Nat.zero_add, hl, List.nil_append] at hP
    have hset : EtherBuilder.setPayload cfg v s =
        (onBuffer (appendAll cfg v) s.buffer >>= fun b => .ok { s with buffer := b, payload := true }) := by
      unfold EtherBuilder.setPayload
      rw [rpay, hpay]
      rfl
    rw [hset]
    cases hc : payloadEnd storage.length 14 14 v.length with
    | refused => rw [hc] at hP; have hP : _ = _ := hP; rw [hP]; rfl
    | panics => rw [hc] at hP; have hP : _ = _ := hP; rw [hP]; rfl
    | stored =>
      rw [hc] at hP
      obtain ⟨b', e2, e3, -, -⟩ := hP
      rw [e2, Outcome.ok_bind, Outcome.ok_bind, unfoldP]
      have hvl : v.length ≤ cfg.usizeMod / 4 := by
        unfold payloadEnd at hc
        split at hc
        · cases hc
        · split at hc
          · cases hc
          · have := cfg.width; omega
      obtain ⟨d, d1, rd⟩ := (ether_prefix cfg Dynamic.rep_new ops he hrun (.inl (by in_every_build))).1 (by in_every_build)
      rw [d1, Outcome.ok_bind]
      have hd := ether_abs cfg (.payload (misplaced 14 (storage.drop 14) v)) e d rd
        (room_dynamic (by simp) (by rw [misplaced_length]; exact hvl))
      have ha : EtherOp.abs (.payload (misplaced 14 (storage.drop 14) v)) e =
          .ok { e with payload := some (misplaced 14 (storage.drop 14) v) } := by
        show (if e.payload.isSome then _ else _) = _
        rw [hpay]
        rfl
      rw [ha] at hd
      obtain ⟨d', d2, rd'⟩ := hd
      have d2 : EtherBuilder.setPayload cfg (misplaced 14 (storage.drop 14) v) d = .ok d' := d2
      rw [d2, Outcome.ok_bind]
      unfold EtherBuilder.build
      simp only []
      rw [rfin, rd'.fin]
      apply buildTail_congr
      rw [e3, LawfulBuffer.inner rd'.rep]
      congr 1
      simp [EtherState.bytes, ethernetFrame, hpay]

/-! ## UDP and TCP -/

/-- What a program does from `ip::Builder` on. -/
def ipPart {B : Type} [Buffer B] (cfg : Cfg) (i : IpBuilder B) (vops : List V4Op) (inner : Inner) : Outcome Bytes := do
  let v ← IpBuilder.v4 cfg i
  let v ← runOps (V4Op.run cfg) vops v
  inner.build cfg v

/-- UDP behind any bytes: the static buffer against the growable one. -/
theorem udp_static (cfg : Cfg) {storage : Bytes} {b : Slice} {d : Dynamic} {pre layer : Bytes}
    (hb : Fresh cfg storage b pre layer) (hd : DynRep cfg d pre layer) (hn : pre.length + layer.length ≤ 100)
    (fs : Finalization) (vops : List V4Op) (ops : List UdpOp) (v : Bytes) (hv : v ≠ [])
    (hvo : vops.filterMap V4Op.payload? = []) (ho : ops.filterMap UdpOp.payload? = []) {a : V4State}
    (ha : runOps V4Op.abs vops .init = .ok a) (hap : a.payload = none) {u : UdpState}
    (hu : runOps UdpOp.abs ops .init = .ok u) (hup : u.payload = none) :
    ipPart cfg (⟨b, fs⟩ : IpBuilder Slice) vops (.udp (ops ++ [.payload v])) =
      match payloadEnd storage.length (pre.length + layer.length + 28) 8 v.length with
      | .refused => .err .smallBuffer
      | .panics => .panic
      | .stored => ipPart cfg (⟨d, fs⟩ : IpBuilder Dynamic) vops
          (.udp (ops ++ [.payload (misplaced 8 (storage.drop (pre.length + layer.length + 28)) v)])) := by
  have hl := UdpState.length u
  rw [hup] at hl
  have hl : u.bytes.length = 8 := hl
  have unfoldP : ∀ {B : Type} [Buffer B] (b : B) (w : Bytes),
      ipPart cfg (⟨b, fs⟩ : IpBuilder B) vops (.udp (ops ++ [.payload w])) =
        ((IpBuilder.v4 cfg (⟨b, fs⟩ : IpBuilder B) >>= runOps (V4Op.run cfg) vops) >>= fun s =>
          (V4Builder.udp cfg s >>= runOps (UdpOp.run cfg) ops) >>= fun t =>
            UdpBuilder.setPayload cfg w t >>= UdpBuilder.build cfg) := by
    intro B _ b w
    unfold ipPart
    rw [bind_assoc]
    congr 1
    funext s
    congr 1
    funext s
    show (V4Builder.udp cfg s >>= fun t => runOps (UdpOp.run cfg) (ops ++ [.payload w]) t >>= UdpBuilder.build cfg) = _
    rw [bind_assoc]
    congr 1
    funext t
    rw [runOps_snoc, bind_assoc]
    rfl
  have hrep : (fresh storage).Rep cfg storage.length b pre layer := ⟨rfl, hb⟩
  have hS := @v4_prefix Slice _ (fresh storage) cfg _ _ _ _ hrep fs vops hvo a ha (.inr trivial)
  rw [unfoldP]
  by_cases h20 : storage.length < pre.length + layer.length + 20
  · rw [hS.2 h20]
    unfold payloadEnd
    rw [if_pos (by omega)]
    rfl
  · obtain ⟨s, e1, r⟩ := hS.1 (by omega)
    have hdrep : LawfulBuffer.Rep cfg cfg.isizeMax d pre layer := ⟨rfl, hd⟩
    obtain ⟨D1, hD1⟩ := v4_prefix cfg hdrep fs vops hvo ha (.inl (by have := cfg.width; omega))
    obtain ⟨ds, d1, rd⟩ := D1 (by have := cfg.width; omega)
    have hok := rd.ok
    have hok : Ipv4Fields.ok { a.fields with protocol := 17#8 } := hok
    have hip := hok.length 0#16 0#16
    have hlen : (pre ++ layer).length = pre.length + layer.length := List.length_append
    have hU := @udp_prefix Slice _ (fresh storage) cfg _ _ _ _ _ r hap ops ho u hu (.inr trivial)
    rw [e1, Outcome.ok_bind]
    by_cases h28 : storage.length < pre.length + layer.length + 28
    · rw [hU.2 (by rw [hlen]; omega)]
      unfold payloadEnd
      rw [if_pos (by omega)]
      rfl
    · obtain ⟨t, e2, ⟨rrep, rfin, rip, rpay⟩⟩ := hU.1 (by rw [hlen]; omega)
      rw [e2, Outcome.ok_bind]
      have hfr : Fresh cfg storage t.buffer _ u.bytes := rrep.2
      have hP := fresh_payload cfg hfr v hv (by omega)
      have hused : (pre ++ layer ++ ipv4Header { a.fields with protocol := 17#8 } 0#16 0#16).length +
          u.bytes.length = pre.length + layer.length + 28 := by
        rw [List.length_append, hlen, hip, hl]
      rw [hused, hl] at hP
      have hset : UdpBuilder.setPayload cfg v t = (onBuffer (appendAll cfg v) t.buffer >>= fun b =>
          .ok { t with buffer := b, payload := true }) := by
        unfold UdpBuilder.setPayload
        rw [rpay, hup]
        rfl
      rw [hset]
      cases hc : payloadEnd storage.length (pre.length + layer.length + 28) 8 v.length with
      | refused => rw [hc] at hP; have hP : _ = _ := hP; rw [hP]; rfl
      | panics => rw [hc] at hP; have hP : _ = _ := hP; rw [hP]; rfl
      | stored =>
        rw [hc] at hP
        obtain ⟨b', e3, e4, e5, -⟩ := hP
        rw [e3, Outcome.ok_bind, Outcome.ok_bind, unfoldP]
        have hvl : v.length ≤ cfg.usizeMod / 4 := by
          have hbd := hb.1.bound
          have hbl := hb.2
          unfold payloadEnd at hc
          split at hc
          · cases hc
          · split at hc
            · cases hc
            · have := cfg.width; omega
        rw [d1, Outcome.ok_bind]
        obtain ⟨dt, d2, rdt⟩ := (udp_prefix cfg rd hap ops ho hu (.inl (by rw [hlen]; have := cfg.width; omega))).1
          (by rw [hlen]; have := cfg.width; omega)
        rw [d2, Outcome.ok_bind]
        generalize hw : misplaced 8 (storage.drop (pre.length + layer.length + 28)) v = w at e4 ⊢
        have hwl : w.length = v.length := by rw [← hw, misplaced_length]
        have hda := udp_abs cfg (.payload w) u dt rdt
          (room_dynamic (by rw [List.length_append, hlen, hip]; omega) (by rw [hwl]; exact hvl))
        have habs : UdpOp.abs (.payload w) u = .ok { u with payload := some w } := by
          show (if u.payload.isSome then _ else _) = _
          rw [hup]
          rfl
        rw [habs] at hda
        obtain ⟨d', d3, rd'⟩ := hda
        have d3 : UdpBuilder.setPayload cfg w dt = .ok d' := d3
        have hbytes : UdpState.bytes { u with payload := some w } = u.bytes ++ w := by
          simp [UdpState.bytes, hup]
        rw [d3, Outcome.ok_bind]
        have hbl : (u.bytes ++ w).length = 8 + v.length := by rw [List.length_append, hl, hwl]
        unfold UdpBuilder.build UdpBuilder.prepare
        simp only []
        rw [rfin, rd'.fin, rip, rd'.ip, e5, LawfulBuffer.length rd'.rep, hbytes, hbl]
        apply buildTail_congr
        rw [e4, LawfulBuffer.inner rd'.rep, hbytes, List.append_assoc _ u.bytes w]

/-- TCP behind any bytes: the static buffer against the growable one. -/
theorem tcp_static (cfg : Cfg) {storage : Bytes} {b : Slice} {d : Dynamic} {pre layer : Bytes}
    (hb : Fresh cfg storage b pre layer) (hd : DynRep cfg d pre layer) (hn : pre.length + layer.length ≤ 100)
    (fs : Finalization) (vops : List V4Op) (ops : List TcpOp) (v : Bytes) (hv : v ≠ [])
    (hvo : vops.filterMap V4Op.payload? = []) (ho : ops.filterMap TcpOp.payload? = []) {a : V4State}
    (ha : runOps V4Op.abs vops .init = .ok a) (hap : a.payload = none) {u : TcpState}
    (hu : runOps TcpOp.abs ops .init = .ok u) (hup : u.payload = none) :
    ipPart cfg (⟨b, fs⟩ : IpBuilder Slice) vops (.tcp (ops ++ [.payload v])) =
      match payloadEnd storage.length (pre.length + layer.length + 40) 20 v.length with
      | .refused => .err .smallBuffer
      | .panics => .panic
      | .stored => ipPart cfg (⟨d, fs⟩ : IpBuilder Dynamic) vops
          (.tcp (ops ++ [.payload (misplaced 20 (storage.drop (pre.length + layer.length + 40)) v)])) := by
  have hl := TcpState.length u
  rw [hup] at hl
  have hl : u.bytes.length = 20 := hl
  have unfoldP : ∀ {B : Type} [Buffer B] (b : B) (w : Bytes),
      ipPart cfg (⟨b, fs⟩ : IpBuilder B) vops (.tcp (ops ++ [.payload w])) =
        ((IpBuilder.v4 cfg (⟨b, fs⟩ : IpBuilder B) >>= runOps (V4Op.run cfg) vops) >>= fun s =>
          (V4Builder.tcp cfg s >>= runOps (TcpOp.run cfg) ops) >>= fun t =>
            TcpBuilder.setPayload cfg w t >>= TcpBuilder.build cfg) := by
    intro B _ b w
    unfold ipPart
    rw [bind_assoc]
    congr 1
    funext s
    congr 1
    funext s
    show (V4Builder.tcp cfg s >>= fun t => runOps (TcpOp.run cfg) (ops ++ [.payload w]) t >>= TcpBuilder.build cfg) = _
    rw [bind_assoc]
    congr 1
    funext t
    rw [runOps_snoc, bind_assoc]
    rfl
  have hrep : (fresh storage).Rep cfg storage.length b pre layer := ⟨rfl, hb⟩
  have hS := @v4_prefix Slice _ (fresh storage) cfg _ _ _ _ hrep fs vops hvo a ha (.inr trivial)
  rw [unfoldP]
  by_cases h20 : storage.length < pre.length + layer.length + 20
  · rw [hS.2 h20]
    unfold payloadEnd
    rw [if_pos (by omega)]
    rfl
  · obtain ⟨s, e1, r⟩ := hS.1 (by omega)
    have hdrep : LawfulBuffer.Rep cfg cfg.isizeMax d pre layer := ⟨rfl, hd⟩
    obtain ⟨D1, hD1⟩ := v4_prefix cfg hdrep fs vops hvo ha (.inl (by have := cfg.width; omega))
    obtain ⟨ds, d1, rd⟩ := D1 (by have := cfg.width; omega)
    have hok := rd.ok
    have hok : Ipv4Fields.ok { a.fields with protocol := 6#8 } := hok
    have hip := hok.length 0#16 0#16
    have hlen : (pre ++ layer).length = pre.length + layer.length := List.length_append
    have hU := @tcp_prefix Slice _ (fresh storage) cfg _ _ _ _ _ r hap ops ho u hu (.inr trivial)
    rw [e1, Outcome.ok_bind]
    by_cases h28 : storage.length < pre.length + layer.length + 40
    · rw [hU.2 (by rw [hlen]; omega)]
      unfold payloadEnd
      rw [if_pos (by omega)]
      rfl
    · obtain ⟨t, e2, ⟨rrep, rfin, rip, rpay, rpl⟩⟩ := hU.1 (by rw [hlen]; omega)
      rw [e2, Outcome.ok_bind]
      have hfr : Fresh cfg storage t.buffer _ u.bytes := rrep.2
      have hP := fresh_payload cfg hfr v hv (by omega)
      have hused : (pre ++ layer ++ ipv4Header { a.fields with protocol := 6#8 } 0#16 0#16).length +
          u.bytes.length = pre.length + layer.length + 40 := by
        rw [List.length_append, hlen, hip, hl]
      rw [hused, hl] at hP
      have hset : TcpBuilder.setPayload cfg v t = (onBuffer (appendAll cfg v) t.buffer >>= fun b =>
          .ok { t with buffer := b, payload := true, payloadLength := t.payloadLength + v.length }) := by
        unfold TcpBuilder.setPayload
        rw [rpay, hup]
        rfl
      rw [hset]
      cases hc : payloadEnd storage.length (pre.length + layer.length + 40) 20 v.length with
      | refused => rw [hc] at hP; have hP : _ = _ := hP; rw [hP]; rfl
      | panics => rw [hc] at hP; have hP : _ = _ := hP; rw [hP]; rfl
      | stored =>
        rw [hc] at hP
        obtain ⟨b', e3, e4, e5, -⟩ := hP
        rw [e3, Outcome.ok_bind, Outcome.ok_bind, unfoldP]
        have hvl : v.length ≤ cfg.usizeMod / 4 := by
          have hbd := hb.1.bound
          have hbl := hb.2
          unfold payloadEnd at hc
          split at hc
          · cases hc
          · split at hc
            · cases hc
            · have := cfg.width; omega
        rw [d1, Outcome.ok_bind]
        obtain ⟨dt, d2, rdt⟩ := (tcp_prefix cfg rd hap ops ho hu (.inl (by rw [hlen]; have := cfg.width; omega))).1
          (by rw [hlen]; have := cfg.width; omega)
        rw [d2, Outcome.ok_bind]
        generalize hw : misplaced 20 (storage.drop (pre.length + layer.length + 40)) v = w at e4 ⊢
        have hwl : w.length = v.length := by rw [← hw, misplaced_length]
        have hda := tcp_abs cfg (.payload w) u dt rdt
          (room_dynamic (by rw [List.length_append, hlen, hip]; omega) (by rw [hwl]; exact hvl))
        have habs : TcpOp.abs (.payload w) u = .ok { u with payload := some w } := by
          show (if u.payload.isSome then _ else _) = _
          rw [hup]
          rfl
        rw [habs] at hda
        obtain ⟨d', d3, rd'⟩ := hda
        have d3 : TcpBuilder.setPayload cfg w dt = .ok d' := d3
        have hbytes : TcpState.bytes { u with payload := some w } = u.bytes ++ w := by
          simp [TcpState.bytes, TcpState.word, hup]
        rw [d3, Outcome.ok_bind]
        have hbl : (u.bytes ++ w).length = 20 + v.length := by rw [List.length_append, hl, hwl]
        unfold TcpBuilder.build TcpBuilder.prepare
        simp only []
        rw [rfin, rd'.fin, rip, rd'.ip, e5, LawfulBuffer.length rd'.rep, hbytes, hbl, rpl, rd'.payloadLength, hup, Option.getD_none, Option.getD_some, hwl, List.length_nil, Nat.zero_add]
        apply buildTail_congr
        rw [e4, LawfulBuffer.inner rd'.rep, hbytes, List.append_assoc _ u.bytes w]

/-! ## Raw IPv4 payloads and echo messages -/

/-- The finalizer of an IPv4 builder whose buffer says that the header starts at its last byte. -/
theorem v4_finalizer_lost (cfg : Cfg) (fs : Finalization) (off len : Nat) (out : Bytes) (ho : out.length = off + 1)
    (hlen : 2 ≤ len) : finish (fs ++ [V4Builder.finalizerOf cfg off len]) out = .panic := by
  have h : ∃ out', V4Builder.finalizerOf cfg off len out = (.panic, out') := by
    unfold V4Builder.finalizerOf
    rw [Mut.bind_ok (setIdx_ok (by omega))]
    generalize hp : put out off [(4#8 <<< 4) ||| BitVec.ofNat 8 (len / 4)] = p
    have hpl : p.length = off + 1 := by rw [← hp, length_put (by simp; omega), ho]
    by_cases hc : cfg.overflowChecks
    · have h1 : (Mut.read fun out : Bytes => subUsize cfg out.length (off + len)) p = (.panic, p) := by
        show (subUsize cfg p.length (off + len), p) = _
        unfold subUsize
        rw [if_neg (by omega), if_pos hc]
      rw [Mut.bind_apply, h1]; exact ⟨_, rfl⟩
    · have h1 : (Mut.read fun out : Bytes => subUsize cfg out.length (off + len)) p =
          (.ok (cfg.usizeMod + p.length - (off + len)), p) := by
        show (subUsize cfg p.length (off + len), p) = _
        unfold subUsize
        rw [if_neg (by omega), if_neg hc]
      rw [Mut.bind_ok h1]
      show ∃ out', (writeU16 (off + 2) _ >>= _ : Mut Bytes Unit) p = (.panic, out')
      rw [Mut.bind_apply]
      unfold writeU16 cursorWrite
      rw [if_neg (by omega)]
      exact ⟨_, rfl⟩
  obtain ⟨out', h⟩ := h
  exact finish_snoc_panic h

theorem icmp_finalizer_lost (cfg : Cfg) (fs : Finalization) (off len : Nat) (out : Bytes) (ho : out.length = off + 1)
    (hlen : 2 ≤ len) : finish (fs ++ [IcmpBuilder.finalizerOf cfg off len]) out = .panic := by
  have h : IcmpBuilder.finalizerOf cfg off len out = (.panic, out) := by
    unfold IcmpBuilder.finalizerOf
    have hs : slice out off (off + len) = .panic := by unfold slice; rw [if_neg (by omega)]
    have h1 : (Mut.read fun out : Bytes => slice out off (off + len) >>= fun m => Icmp.checksumOf cfg m) out =
        (.panic, out) := by
      show (slice out off (off + len) >>= fun m => Icmp.checksumOf cfg m, out) = _
      rw [hs]
      rfl
    rw [Mut.bind_apply, h1]
  exact finish_snoc_panic h

theorem buildTail_of {B : Type} [Buffer B] {b : B} {out : Bytes} (h : Buffer.intoInner b = .ok out)
    (fs : Finalization) : buildTail b fs = finish fs out := by
  unfold buildTail
  rw [h]
  rfl

theorem raw_static (cfg : Cfg) {storage : Bytes} {b : Slice} {pre layer : Bytes}
    (hb : Fresh cfg storage b pre layer) (fs : Finalization) (vops : List V4Op) (v : Bytes) (hv : v ≠ [])
    (hvo : vops.filterMap V4Op.payload? = []) {a : V4State}
    (ha : runOps V4Op.abs vops .init = .ok a) (hap : a.payload = none) :
    ipPart cfg (⟨b, fs⟩ : IpBuilder Slice) (vops ++ [.payload v]) .plain =
      if storage.length ≤ pre.length + layer.length + 20 then .err .smallBuffer else .panic := by
  have unfoldP : ipPart cfg (⟨b, fs⟩ : IpBuilder Slice) (vops ++ [.payload v]) .plain =
      ((IpBuilder.v4 cfg (⟨b, fs⟩ : IpBuilder Slice) >>= runOps (V4Op.run cfg) vops) >>= fun s =>
        V4Builder.setPayload cfg v s >>= V4Builder.build cfg) := by
    unfold ipPart
    rw [bind_assoc]
    congr 1
    funext s
    rw [runOps_snoc, bind_assoc]
    rfl
  have hrep : (fresh storage).Rep cfg storage.length b pre layer := ⟨rfl, hb⟩
  have hS := @v4_prefix Slice _ (fresh storage) cfg _ _ _ _ hrep fs vops hvo a ha (.inr trivial)
  rw [unfoldP]
  by_cases h20 : storage.length < pre.length + layer.length + 20
  · rw [hS.2 h20, if_pos (by omega)]
    rfl
  · obtain ⟨s, e1, ⟨rrep, rfin, rpay, rok⟩⟩ := hS.1 (by omega)
    have hl := V4State.length rok
    rw [hap] at hl
    have hl : a.bytes.length = 20 := hl
    rw [e1, Outcome.ok_bind]
    have hfr : Fresh cfg storage s.buffer _ a.bytes := rrep.2
    have hP := fresh_payload cfg hfr v hv (by omega)
    rw [List.length_append, hl] at hP
    have hset : V4Builder.setPayload cfg v s = (onBuffer (appendAll cfg v) s.buffer >>= fun b =>
        .ok { s with buffer := b, payload := true }) := by
      unfold V4Builder.setPayload
      rw [rpay, hap]
      rfl
    have hn := List.length_pos_iff.2 hv
    rw [hset]
    cases hc : payloadEnd storage.length (pre.length + layer.length + 20) 20 v.length with
    | refused =>
      rw [hc] at hP
      have hP : _ = _ := hP
      rw [hP, if_pos (by unfold payloadEnd at hc; split at hc; assumption; split at hc <;> cases hc)]
      rfl
    | panics =>
      rw [hc] at hP
      have hP : _ = _ := hP
      rw [hP, if_neg (by unfold payloadEnd at hc; split at hc; cases hc; assumption)]
      rfl
    | stored =>
      rw [hc] at hP
      obtain ⟨b', e2, e3, e4, e5⟩ := hP
      rw [e2, Outcome.ok_bind, Outcome.ok_bind, if_neg (by unfold payloadEnd at hc; split at hc; cases hc; assumption)]
      unfold V4Builder.build V4Builder.prepare Finalization.add
      simp only []
      rw [buildTail_of e3, e4, e5]
      exact v4_finalizer_lost cfg _ _ _ _ (by
        rw [List.length_append, List.length_append, List.length_append, misplaced_length, hl]; omega) (by omega)

theorem echo_static (cfg : Cfg) {storage : Bytes} {b : Slice} {pre layer : Bytes}
    (hb : Fresh cfg storage b pre layer) (fs : Finalization) (ops : List EchoOp) (v : Bytes) (hv : v ≠ [])
    (ho : ops.filterMap EchoOp.payload? = []) {a : EchoState}
    (ha : runOps EchoOp.abs ops .init = .ok a) (hap : a.payload = none) (hak : a.kind.isSome) :
    IcmpInner.build cfg (⟨b, fs⟩ : IcmpBuilder Slice) (.echo (ops ++ [.payload v])) =
      if storage.length ≤ pre.length + layer.length + 8 then .err .smallBuffer else .panic := by
  have unfoldP : IcmpInner.build cfg (⟨b, fs⟩ : IcmpBuilder Slice) (.echo (ops ++ [.payload v])) =
      ((IcmpBuilder.echo cfg (⟨b, fs⟩ : IcmpBuilder Slice) >>= runOps (EchoOp.run cfg) ops) >>= fun s =>
        EchoBuilder.setPayload cfg v s >>= EchoBuilder.build cfg) := by
    show (IcmpBuilder.echo cfg (⟨b, fs⟩ : IcmpBuilder Slice) >>= fun e =>
      runOps (EchoOp.run cfg) (ops ++ [.payload v]) e >>= EchoBuilder.build cfg) = _
    rw [bind_assoc]
    congr 1
    funext s
    rw [runOps_snoc, bind_assoc]
    rfl
  have hrep : (fresh storage).Rep cfg storage.length b pre layer := ⟨rfl, hb⟩
  have hS := @echo_prefix Slice _ (fresh storage) cfg _ _ _ _ hrep fs ops ho a ha (.inr trivial)
  rw [unfoldP]
  by_cases h20 : storage.length < pre.length + layer.length + 8
  · rw [hS.2 h20, if_pos (by omega)]
    rfl
  · obtain ⟨s, e1, ⟨rrep, rfin, rkind, rpay⟩⟩ := hS.1 (by omega)
    have hl := EchoState.length a 0#16
    rw [hap] at hl
    have hl : (a.msg 0#16).length = 8 := hl
    rw [e1, Outcome.ok_bind]
    have hfr : Fresh cfg storage s.buffer _ (a.msg 0#16) := rrep.2
    have hP := fresh_payload cfg hfr v hv (by omega)
    rw [List.length_append, hl] at hP
    have hset : EchoBuilder.setPayload cfg v s = (onBuffer (appendAll cfg v) s.buffer >>= fun b =>
        .ok { s with buffer := b, payload := true }) := by
      unfold EchoBuilder.setPayload
      rw [rpay, hap]
      rfl
    have hn := List.length_pos_iff.2 hv
    rw [hset]
    cases hc : payloadEnd storage.length (pre.length + layer.length + 8) 8 v.length with
    | refused =>
      rw [hc] at hP
      have hP : _ = _ := hP
      rw [hP, if_pos (by unfold payloadEnd at hc; split at hc; assumption; split at hc <;> cases hc)]
      rfl
    | panics =>
      rw [hc] at hP
      have hP : _ = _ := hP
      rw [hP, if_neg (by unfold payloadEnd at hc; split at hc; cases hc; assumption)]
      rfl
    | stored =>
      rw [hc] at hP
      obtain ⟨b', e2, e3, e4, e5⟩ := hP
      rw [e2, Outcome.ok_bind, Outcome.ok_bind, if_neg (by unfold payloadEnd at hc; split at hc; cases hc; assumption)]
      unfold EchoBuilder.build IcmpBuilder.prepare Finalization.add
      simp only []
      rw [rkind, hak, if_neg (by simp), buildTail_of e3, e4, e5]
      exact icmp_finalizer_lost cfg _ _ _ _ (by
        rw [List.length_append, List.length_append, List.length_append, misplaced_length, hl]; omega) (by omega)

theorem icmp_echo_static (cfg : Cfg) {storage : Bytes} {b : Slice} {pre layer : Bytes}
    (hb : Fresh cfg storage b pre layer) (fs : Finalization) (vops : List V4Op) (ops : List EchoOp) (v : Bytes)
    (hv : v ≠ []) (hvo : vops.filterMap V4Op.payload? = []) (ho : ops.filterMap EchoOp.payload? = []) {a : V4State}
    (ha : runOps V4Op.abs vops .init = .ok a) (hap : a.payload = none) {u : EchoState}
    (hu : runOps EchoOp.abs ops .init = .ok u) (hup : u.payload = none) (huk : u.kind.isSome) :
    ipPart cfg (⟨b, fs⟩ : IpBuilder Slice) vops (.icmp (.echo (ops ++ [.payload v]))) =
      if storage.length ≤ pre.length + layer.length + 28 then .err .smallBuffer else .panic := by
  have unfoldP : ipPart cfg (⟨b, fs⟩ : IpBuilder Slice) vops (.icmp (.echo (ops ++ [.payload v]))) =
      ((IpBuilder.v4 cfg (⟨b, fs⟩ : IpBuilder Slice) >>= runOps (V4Op.run cfg) vops) >>= fun s =>
        V4Builder.icmp cfg s >>= fun i => IcmpInner.build cfg i (.echo (ops ++ [.payload v]))) := by
    unfold ipPart
    rw [bind_assoc]
    rfl
  have hrep : (fresh storage).Rep cfg storage.length b pre layer := ⟨rfl, hb⟩
  have hS := @v4_prefix Slice _ (fresh storage) cfg _ _ _ _ hrep fs vops hvo a ha (.inr trivial)
  rw [unfoldP]
  by_cases h20 : storage.length < pre.length + layer.length + 20
  · rw [hS.2 h20, if_pos (by omega)]
    rfl
  · obtain ⟨s, e1, r⟩ := hS.1 (by omega)
    obtain ⟨hok, b', e2, r2⟩ := @v4_icmp_enter Slice _ (fresh storage) cfg _ _ _ _ _ r hap
    rw [e1, Outcome.ok_bind, e2, Outcome.ok_bind]
    have hl := Ipv4Fields.ok.length hok 0#16 0#16
    have hfr : Fresh cfg storage b' (pre ++ layer) (ipv4Header { a.fields with protocol := 1#8 } 0#16 0#16) := r2.2
    have := echo_static cfg hfr (fs ++ [V4Builder.finalizerOf cfg (pre ++ layer).length 20]) ops v hv ho hu hup huk
    rw [this, hl, List.length_append, Nat.add_assoc _ 20 8]

/-! ## Whole programs -/

theorem ipv4_part {B : Type} [Buffer B] (cfg : Cfg) (b : B) (vops : List V4Op) (inner : Inner) :
    ipv4Program cfg b vops inner = ipPart cfg (⟨b, []⟩ : IpBuilder B) vops inner := by
  have e : IpBuilder.v4 cfg (⟨b, []⟩ : IpBuilder B) = V4Builder.«with» cfg b := by
    unfold IpBuilder.v4 Finalization.extend
    simp only [List.append_nil]
    cases V4Builder.«with» cfg b <;> rfl
  unfold ipv4Program ipPart
  rw [e]

theorem ethernet_part {B : Type} [Buffer B] [LawfulBuffer B] (cfg : Cfg) {cap : Nat} {b : B}
    (h : LawfulBuffer.Rep cfg cap b [] []) (eops : List EtherOp) (ho : eops.filterMap EtherOp.payload? = [])
    {e : EtherState} (he : runOps EtherOp.abs eops .init = .ok e) (hp : e.payload = none) (hf : Fine B cap 14) :
    (14 ≤ cap → ∃ b', LawfulBuffer.Rep cfg cap b' [] e.bytes ∧ ∀ vops inner,
      ethernetProgram cfg b eops vops inner =
        ipPart cfg (⟨b', [EtherBuilder.ipFinalizer 0 14]⟩ : IpBuilder B) vops inner) ∧
    (cap < 14 → ∀ vops inner, ethernetProgram cfg b eops vops inner = .err .smallBuffer) := by
  have hS := ether_prefix cfg h eops ho he (by simpa using hf)
  have e0 : ∀ vops inner, ethernetProgram cfg b eops vops inner =
      ((EtherBuilder.«with» cfg b >>= runOps (EtherOp.run cfg) eops) >>= fun s => EtherBuilder.ip s >>= fun i =>
        ipPart cfg i vops inner) := by
    intro vops inner
    unfold ethernetProgram ipPart
    rw [bind_assoc]
  refine ⟨fun hc => ?_, fun hc vops inner => ?_⟩
  · obtain ⟨s, e1, r⟩ := hS.1 (by simpa using hc)
    refine ⟨s.buffer, r.rep, ?_⟩
    intro vops inner
    have hl := e.length
    rw [hp] at hl
    have hl : e.bytes.length = 14 := hl
    have e2 : EtherBuilder.ip s = .ok ⟨s.buffer, [EtherBuilder.ipFinalizer 0 14]⟩ := by
      unfold EtherBuilder.ip
      rw [if_neg (by rw [r.payload, hp]; simp), r.fin, LawfulBuffer.offset r.rep, LawfulBuffer.length r.rep, hl]
      rfl
    rw [e0, e1, Outcome.ok_bind, e2, Outcome.ok_bind]
  · rw [e0, hS.2 (by simpa using hc)]
    rfl

theorem v4_none {vops : List V4Op} {a : V4State} (hn : vops.filterMap V4Op.payload? = [])
    (h : runOps V4Op.abs vops .init = .ok a) : a.payload = none := by
  refine runOps_keeps V4Op.payload? (fun a : V4State => a.payload) ?_ vops _ a hn h
  intro op a b h hs
  cases op with
  | payload v => cases hs
  | _ => simp only [V4Op.abs] at h; (try split at h) <;> first | (injection h with h; subst h; rfl) | cases h

theorem sane_of_nil {cfg : Cfg} {inner : Inner} (h : inner.payloads = []) : inner.Sane cfg := by
  intro v hv
  rw [h] at hv
  cases hv

theorem ipv4_runs {cfg : Cfg} {vops : List V4Op} {inner : Inner} {packet : Bytes}
    (hvo : vops.filterMap V4Op.payload? = []) (hi : inner.payloads = [])
    (h : ipv4Program cfg Dynamic.new vops inner = .ok packet) :
    ∃ a out, runOps V4Op.abs vops .init = .ok a ∧ a.payload = none ∧ inner.abs cfg cfg.isizeMax 0 a = .ok out := by
  rw [ipv4Program_dynamic cfg vops inner (v4_sane_of_none hvo) (sane_of_nil hi)] at h
  obtain ⟨-, -, h⟩ := bind_ok_inv h
  obtain ⟨a, h1, h2⟩ := bind_ok_inv h
  exact ⟨a, packet, h1, v4_none hvo h1, h2⟩

theorem ethernet_runs {cfg : Cfg} {eops : List EtherOp} {vops : List V4Op} {inner : Inner} {packet : Bytes}
    (heo : eops.filterMap EtherOp.payload? = [])
    (hvo : vops.filterMap V4Op.payload? = []) (hi : inner.payloads = [])
    (h : ethernetProgram cfg Dynamic.new eops vops inner = .ok packet) :
    ∃ e a out, runOps EtherOp.abs eops .init = .ok e ∧ e.payload = none ∧
      runOps V4Op.abs vops .init = .ok a ∧ a.payload = none ∧ inner.abs cfg cfg.isizeMax 14 a = .ok out := by
  rw [ethernetProgram_dynamic cfg eops vops inner (by
    intro op hop v hv
    rw [List.filterMap_eq_nil_iff] at heo
    rw [heo op hop] at hv
    cases hv) (v4_sane_of_none hvo) (sane_of_nil hi)] at h
  obtain ⟨-, -, h⟩ := bind_ok_inv h
  obtain ⟨e, h1, h2⟩ := bind_ok_inv h
  have hr := ether_run eops (by rw [heo]; exact Nat.zero_le _)
  have hp : e.payload = none := by
    rw [h1] at hr
    have hr := Outcome.ok.inj hr
    rw [hr, heo]
    rfl
  rw [hp] at h2
  obtain ⟨out, h3, -⟩ := bind_ok_inv (show (ipv4Abs cfg cfg.isizeMax 14 vops inner >>= fun out => e.seal out) = _ from h2)
  obtain ⟨-, -, h3⟩ := bind_ok_inv h3
  obtain ⟨a, h4, h5⟩ := bind_ok_inv h3
  exact ⟨e, a, out, h1, hp, h4, v4_none hvo h4, h5⟩

theorem udp_none {cfg : Cfg} {n : Nat} {ops : List UdpOp} (ho : ops.filterMap UdpOp.payload? = []) :
    ∃ u, runOps UdpOp.abs ops .init = .ok u ∧ u.payload = none := by
  refine ⟨_, udp_run ops (by rw [ho]; exact Nat.zero_le _), ?_⟩
  rw [ho]
  rfl

theorem tcp_none {cfg : Cfg} {n : Nat} {a : V4State} {out : Bytes} {ops : List TcpOp} (hap : a.payload = none)
    (ho : ops.filterMap TcpOp.payload? = []) (h : (Inner.tcp ops).abs cfg cfg.isizeMax n a = .ok out) :
    ∃ u, runOps TcpOp.abs ops .init = .ok u ∧ u.payload = none := by
  unfold Inner.abs at h
  simp only [hap] at h
  obtain ⟨-, -, h⟩ := bind_ok_inv h
  obtain ⟨t, h1, -⟩ := bind_ok_inv h
  exact ⟨t, h1, tcp_keeps ops t ho h1⟩

theorem echo_none {cfg : Cfg} {n : Nat} {out : Bytes} {ops : List EchoOp}
    (ho : ops.filterMap EchoOp.payload? = []) (h : (IcmpInner.echo ops).abs cfg cfg.isizeMax n = .ok out) :
    ∃ u, runOps EchoOp.abs ops .init = .ok u ∧ u.payload = none ∧ u.kind.isSome := by
  unfold IcmpInner.abs at h
  simp only [] at h
  obtain ⟨-, -, h⟩ := bind_ok_inv h
  obtain ⟨t, h1, h2⟩ := bind_ok_inv h
  have hr := echo_run ops (by rw [ho]; exact Nat.zero_le _)
  have hp : t.payload = none := by
    rw [h1] at hr
    have hr := Outcome.ok.inj hr
    rw [hr, ho]
    rfl
  refine ⟨t, h1, hp, ?_⟩
  cases hk : t.kind.isSome with
  | true => rfl
  | false => rw [hk] at h2; cases h2

theorem fresh_new {cfg : Cfg} {storage : Bytes} (hs : storage.length ≤ cfg.isizeMax) : Fresh cfg storage (Slice.new storage) [] [] :=
  ⟨SliceRep.new hs, rfl⟩

/-- C104, UDP in IPv4: exactly what a datagram with a payload becomes on a static buffer of any size. -/
theorem C104_udp (cfg : Cfg) (storage : Bytes) (vops : List V4Op) (ops : List UdpOp) (v : Bytes) (hv : v ≠ [])
    (hvo : vops.filterMap V4Op.payload? = []) (ho : ops.filterMap UdpOp.payload? = [])
    (hs : storage.length ≤ cfg.isizeMax) (packet : Bytes)
    (hp : ipv4Program cfg Dynamic.new vops (.udp ops) = .ok packet) :
    ipv4Program cfg (Slice.new storage) vops (.udp (ops ++ [.payload v])) =
      match payloadEnd storage.length 28 8 v.length with
      | .refused => .err .smallBuffer
      | .panics => .panic
      | .stored => ipv4Program cfg Dynamic.new vops (.udp (ops ++ [.payload (misplaced 8 (storage.drop 28) v)])) := by
  obtain ⟨a, out, ha, hap, hi⟩ := ipv4_runs hvo (inner := .udp ops) ho hp
  obtain ⟨u, hu, hup⟩ := udp_none (cfg := cfg) (n := 0) ho
  rw [ipv4_part, ipv4_part]
  have := udp_static cfg (fresh_new hs) DynRep.new (by simp) [] vops ops v hv hvo ho ha hap hu hup
  simpa using this

/-- A concrete case that meets the hypotheses. -/
example (cfg : Cfg) := C104_udp cfg (zeros 100) Sample.vops Sample.udpHead [1, 2, 3, 4] (by decide) rfl rfl
    (by in_every_build) _ (Sample.value_of (by in_every_build))

/-- C104, TCP in IPv4. -/
theorem C104_tcp (cfg : Cfg) (storage : Bytes) (vops : List V4Op) (ops : List TcpOp) (v : Bytes) (hv : v ≠ [])
    (hvo : vops.filterMap V4Op.payload? = []) (ho : ops.filterMap TcpOp.payload? = [])
    (hs : storage.length ≤ cfg.isizeMax) (packet : Bytes)
    (hp : ipv4Program cfg Dynamic.new vops (.tcp ops) = .ok packet) :
    ipv4Program cfg (Slice.new storage) vops (.tcp (ops ++ [.payload v])) =
      match payloadEnd storage.length 40 20 v.length with
      | .refused => .err .smallBuffer
      | .panics => .panic
      | .stored => ipv4Program cfg Dynamic.new vops (.tcp (ops ++ [.payload (misplaced 20 (storage.drop 40) v)])) := by
  obtain ⟨a, out, ha, hap, hi⟩ := ipv4_runs hvo (inner := .tcp ops) ho hp
  obtain ⟨u, hu, hup⟩ := tcp_none hap ho hi
  rw [ipv4_part, ipv4_part]
  have := tcp_static cfg (fresh_new hs) DynRep.new (by simp) [] vops ops v hv hvo ho ha hap hu hup
  simpa using this

/-- A concrete case that meets the hypotheses. -/
example (cfg : Cfg) := C104_tcp cfg (zeros 100) Sample.vops Sample.tcpHead [1, 2, 3, 4] (by decide) rfl rfl
    (by in_every_build) _ (Sample.value_of (by in_every_build))

/-- C104, a raw IPv4 payload: never built. -/
theorem C104_raw (cfg : Cfg) (storage : Bytes) (vops : List V4Op) (v : Bytes) (hv : v ≠ [])
    (hvo : vops.filterMap V4Op.payload? = []) (hs : storage.length ≤ cfg.isizeMax) (packet : Bytes)
    (hp : ipv4Program cfg Dynamic.new vops .plain = .ok packet) :
    ipv4Program cfg (Slice.new storage) (vops ++ [.payload v]) .plain =
      if storage.length ≤ 20 then .err .smallBuffer else .panic := by
  obtain ⟨a, out, ha, hap, hi⟩ := ipv4_runs hvo rfl hp
  rw [ipv4_part]
  have := raw_static cfg (fresh_new hs) [] vops v hv hvo ha hap
  simpa using this

/-- A concrete case that meets the hypotheses. -/
example (cfg : Cfg) := C104_raw cfg (zeros 100) Sample.vops [1, 2, 3, 4] (by decide) rfl (by in_every_build) _
    (Sample.value_of (by in_every_build))

/-- C104, an echo message: never built. -/
theorem C104_echo (cfg : Cfg) (storage : Bytes) (ops : List EchoOp) (v : Bytes) (hv : v ≠ [])
    (ho : ops.filterMap EchoOp.payload? = []) (hs : storage.length ≤ cfg.isizeMax) (packet : Bytes)
    (hp : icmpProgram cfg Dynamic.new (.echo ops) = .ok packet) :
    icmpProgram cfg (Slice.new storage) (.echo (ops ++ [.payload v])) =
      if storage.length ≤ 8 then .err .smallBuffer else .panic := by
  rw [icmpProgram_dynamic cfg _ (sane_of_nil (inner := .icmp (.echo ops)) ho)] at hp
  obtain ⟨u, hu, hup, huk⟩ := echo_none ho hp
  have := echo_static cfg (fresh_new hs) [] ops v hv ho hu hup huk
  simp only [List.length_nil, Nat.zero_add] at this
  exact this

/-- A concrete case that meets the hypotheses. -/
example (cfg : Cfg) := C104_echo cfg (zeros 100) Sample.echoHead [1, 2, 3, 4] (by decide) rfl (by in_every_build) _
    (Sample.value_of (by in_every_build))

/-- C104, an echo message in IPv4: never built. -/
theorem C104_icmp_echo (cfg : Cfg) (storage : Bytes) (vops : List V4Op) (ops : List EchoOp) (v : Bytes) (hv : v ≠ [])
    (hvo : vops.filterMap V4Op.payload? = []) (ho : ops.filterMap EchoOp.payload? = [])
    (hs : storage.length ≤ cfg.isizeMax) (packet : Bytes)
    (hp : ipv4Program cfg Dynamic.new vops (.icmp (.echo ops)) = .ok packet) :
    ipv4Program cfg (Slice.new storage) vops (.icmp (.echo (ops ++ [.payload v]))) =
      if storage.length ≤ 28 then .err .smallBuffer else .panic := by
  obtain ⟨a, out, ha, hap, hi⟩ := ipv4_runs hvo (inner := .icmp (.echo ops)) ho hp
  unfold Inner.abs at hi
  simp only [hap] at hi
  obtain ⟨d, hi, -⟩ := bind_ok_inv hi
  obtain ⟨u, hu, hup, huk⟩ := echo_none ho hi
  rw [ipv4_part]
  have := icmp_echo_static cfg (fresh_new hs) [] vops ops v hv hvo ho ha hap hu hup huk
  simpa using this

/-- A concrete case that meets the hypotheses. -/
example (cfg : Cfg) := C104_icmp_echo cfg (zeros 100) Sample.vops Sample.echoHead [1, 2, 3, 4] (by decide) rfl rfl
    (by in_every_build) _ (Sample.value_of (by in_every_build))

/-- What a frame on a static buffer and one on a growable buffer hand to the IPv4 part. -/
theorem frame_parts (cfg : Cfg) {storage : Bytes} (hs : storage.length ≤ cfg.isizeMax) (eops : List EtherOp)
    (heo : eops.filterMap EtherOp.payload? = []) {e : EtherState}
    (he : runOps EtherOp.abs eops .init = .ok e) (hep : e.payload = none) :
    (14 ≤ storage.length → ∃ b d hdr, hdr.length = 14 ∧ Fresh cfg storage b [] hdr ∧ DynRep cfg d [] hdr ∧ ∀ vops inner,
      ethernetProgram cfg (Slice.new storage) eops vops inner =
        ipPart cfg (⟨b, [EtherBuilder.ipFinalizer 0 14]⟩ : IpBuilder Slice) vops inner ∧
      ethernetProgram cfg Dynamic.new eops vops inner =
        ipPart cfg (⟨d, [EtherBuilder.ipFinalizer 0 14]⟩ : IpBuilder Dynamic) vops inner) ∧
    (storage.length < 14 → ∀ vops inner,
      ethernetProgram cfg (Slice.new storage) eops vops inner = .err .smallBuffer) := by
  have hrep : (fresh storage).Rep cfg storage.length (Slice.new storage) [] [] := ⟨rfl, fresh_new hs⟩
  have hS := @ethernet_part Slice _ (fresh storage) cfg _ _ hrep eops heo e he hep (.inr trivial)
  refine ⟨fun hc => ?_, hS.2⟩
  obtain ⟨b, rb, hb⟩ := hS.1 hc
  obtain ⟨d, rd, hd⟩ := (ethernet_part cfg Dynamic.rep_new eops heo he hep (.inl (by in_every_build))).1 (by in_every_build)
  have hl := e.length
  rw [hep] at hl
  exact ⟨b, d, e.bytes, hl, rb.2, rd.2, fun vops inner => ⟨hb vops inner, hd vops inner⟩⟩

/-- C104, UDP in IPv4 in Ethernet. -/
theorem C104_frame_udp (cfg : Cfg) (storage : Bytes) (eops : List EtherOp) (vops : List V4Op) (ops : List UdpOp)
    (v : Bytes) (hv : v ≠ []) (heo : eops.filterMap EtherOp.payload? = [])
    (hvo : vops.filterMap V4Op.payload? = []) (ho : ops.filterMap UdpOp.payload? = [])
    (hs : storage.length ≤ cfg.isizeMax) (packet : Bytes)
    (hp : ethernetProgram cfg Dynamic.new eops vops (.udp ops) = .ok packet) :
    ethernetProgram cfg (Slice.new storage) eops vops (.udp (ops ++ [.payload v])) =
      match payloadEnd storage.length 42 8 v.length with
      | .refused => .err .smallBuffer
      | .panics => .panic
      | .stored => ethernetProgram cfg Dynamic.new eops vops
          (.udp (ops ++ [.payload (misplaced 8 (storage.drop 42) v)])) := by
  obtain ⟨e, a, out, he, hep, ha, hap, hi⟩ := ethernet_runs heo hvo (inner := .udp ops) ho hp
  obtain ⟨u, hu, hup⟩ := udp_none (cfg := cfg) (n := 0) ho
  obtain ⟨h1, h2⟩ := frame_parts cfg hs eops heo he hep
  by_cases hc : 14 ≤ storage.length
  · obtain ⟨b, d, hdr, hl, hb, hd, hpr⟩ := h1 hc
    rw [(hpr _ _).1, (hpr _ _).2]
    have := udp_static cfg hb hd (by simp; omega) [EtherBuilder.ipFinalizer 0 14] vops ops v hv hvo ho ha hap hu hup
    simpa [hl] using this
  · rw [h2 (by omega)]
    unfold payloadEnd
    rw [if_pos (by omega)]

/-- A concrete case that meets the hypotheses. -/
example (cfg : Cfg) := C104_frame_udp cfg (zeros 100) Sample.eops Sample.vops Sample.udpHead [1, 2, 3, 4] (by decide)
    rfl rfl rfl (by in_every_build) _ (Sample.value_of (by in_every_build))

/-- C104, TCP in IPv4 in Ethernet. -/
theorem C104_frame_tcp (cfg : Cfg) (storage : Bytes) (eops : List EtherOp) (vops : List V4Op) (ops : List TcpOp)
    (v : Bytes) (hv : v ≠ []) (heo : eops.filterMap EtherOp.payload? = [])
    (hvo : vops.filterMap V4Op.payload? = []) (ho : ops.filterMap TcpOp.payload? = [])
    (hs : storage.length ≤ cfg.isizeMax) (packet : Bytes)
    (hp : ethernetProgram cfg Dynamic.new eops vops (.tcp ops) = .ok packet) :
    ethernetProgram cfg (Slice.new storage) eops vops (.tcp (ops ++ [.payload v])) =
      match payloadEnd storage.length 54 20 v.length with
      | .refused => .err .smallBuffer
      | .panics => .panic
      | .stored => ethernetProgram cfg Dynamic.new eops vops
          (.tcp (ops ++ [.payload (misplaced 20 (storage.drop 54) v)])) := by
  obtain ⟨e, a, out, he, hep, ha, hap, hi⟩ := ethernet_runs heo hvo (inner := .tcp ops) ho hp
  obtain ⟨u, hu, hup⟩ := tcp_none hap ho hi
  obtain ⟨h1, h2⟩ := frame_parts cfg hs eops heo he hep
  by_cases hc : 14 ≤ storage.length
  · obtain ⟨b, d, hdr, hl, hb, hd, hpr⟩ := h1 hc
    rw [(hpr _ _).1, (hpr _ _).2]
    have := tcp_static cfg hb hd (by simp; omega) [EtherBuilder.ipFinalizer 0 14] vops ops v hv hvo ho ha hap hu hup
    simpa [hl] using this
  · rw [h2 (by omega)]
    unfold payloadEnd
    rw [if_pos (by omega)]

/-- A concrete case that meets the hypotheses. -/
example (cfg : Cfg) := C104_frame_tcp cfg (zeros 100) Sample.eops Sample.vops Sample.tcpHead [1, 2, 3, 4] (by decide)
    rfl rfl rfl (by in_every_build) _ (Sample.value_of (by in_every_build))

/-- C104, a raw IPv4 payload in Ethernet: never built. -/
theorem C104_frame_raw (cfg : Cfg) (storage : Bytes) (eops : List EtherOp) (vops : List V4Op) (v : Bytes) (hv : v ≠ [])
    (heo : eops.filterMap EtherOp.payload? = []) (hvo : vops.filterMap V4Op.payload? = [])
    (hs : storage.length ≤ cfg.isizeMax) (packet : Bytes)
    (hp : ethernetProgram cfg Dynamic.new eops vops .plain = .ok packet) :
    ethernetProgram cfg (Slice.new storage) eops (vops ++ [.payload v]) .plain =
      if storage.length ≤ 34 then .err .smallBuffer else .panic := by
  obtain ⟨e, a, out, he, hep, ha, hap, hi⟩ := ethernet_runs heo hvo rfl hp
  obtain ⟨h1, h2⟩ := frame_parts cfg hs eops heo he hep
  by_cases hc : 14 ≤ storage.length
  · obtain ⟨b, d, hdr, hl, hb, hd, hpr⟩ := h1 hc
    rw [(hpr _ _).1]
    have := raw_static cfg hb [EtherBuilder.ipFinalizer 0 14] vops v hv hvo ha hap
    simpa [hl] using this
  · rw [h2 (by omega), if_pos (by omega)]

/-- A concrete case that meets the hypotheses. -/
example (cfg : Cfg) := C104_frame_raw cfg (zeros 100) Sample.eops Sample.vops [1, 2, 3, 4] (by decide) rfl rfl
    (by in_every_build) _ (Sample.value_of (by in_every_build))

/-- C104, an echo message in IPv4 in Ethernet: never built. -/
theorem C104_frame_echo (cfg : Cfg) (storage : Bytes) (eops : List EtherOp) (vops : List V4Op) (ops : List EchoOp)
    (v : Bytes) (hv : v ≠ []) (heo : eops.filterMap EtherOp.payload? = [])
    (hvo : vops.filterMap V4Op.payload? = []) (ho : ops.filterMap EchoOp.payload? = [])
    (hs : storage.length ≤ cfg.isizeMax) (packet : Bytes)
    (hp : ethernetProgram cfg Dynamic.new eops vops (.icmp (.echo ops)) = .ok packet) :
    ethernetProgram cfg (Slice.new storage) eops vops (.icmp (.echo (ops ++ [.payload v]))) =
      if storage.length ≤ 42 then .err .smallBuffer else .panic := by
  obtain ⟨e, a, out, he, hep, ha, hap, hi⟩ := ethernet_runs heo hvo (inner := .icmp (.echo ops)) ho hp
  unfold Inner.abs at hi
  simp only [hap] at hi
  obtain ⟨x, hi, -⟩ := bind_ok_inv hi
  obtain ⟨u, hu, hup, huk⟩ := echo_none ho hi
  obtain ⟨h1, h2⟩ := frame_parts cfg hs eops heo he hep
  by_cases hc : 14 ≤ storage.length
  · obtain ⟨b, d, hdr, hl, hb, hd, hpr⟩ := h1 hc
    rw [(hpr _ _).1]
    have := icmp_echo_static cfg hb [EtherBuilder.ipFinalizer 0 14] vops ops v hv hvo ho ha hap hu hup huk
    simpa [hl] using this
  · rw [h2 (by omega), if_pos (by omega)]

/-! ## Concrete cases -/

/-- A two-byte payload on a zeroed 64-byte buffer: the frame ends in two stale bytes, not in the payload. -/
example (cfg : Cfg) : etherProgram cfg (Slice.new (List.replicate 64 0x55#8)) [.payload [1, 2]] =
    .ok (List.replicate 14 0#8 ++ [0x55#8, 0x55#8]) := by
  rw [show ([EtherOp.payload [1, 2]] : List EtherOp) = [] ++ [.payload [1, 2]] from rfl,
    C104_ether cfg _ [] [1, 2] (by decide) rfl (by in_every_build)]
  obtain ⟨oc, ea, nw⟩ := cfg
  cases oc <;> cases ea <;> cases nw <;> decide +kernel

/-- A UDP datagram with ten payload bytes on a 64-byte buffer: places 8 and 9 behind the header get the
first payload byte and a stale one. -/
example : misplaced 8 (List.replicate 36 0x55#8) [1, 2, 3, 4, 5, 6, 7, 8, 9, 10] =
    [0x55, 0x55, 0x55, 0x55, 0x55, 0x55, 0x55, 0x55, 1, 0x55] := by decide

example : payloadEnd 64 28 8 10 = .stored ∧ payloadEnd 54 28 8 10 = .panics ∧ payloadEnd 28 28 8 10 = .refused := by
  decide

/-- The same as a whole packet. -/
example (cfg : Cfg) : ipv4Program cfg (Slice.new (List.replicate 64 0x55#8)) []
    (.udp [.payload [1, 2, 3, 4, 5, 6, 7, 8, 9, 10]]) =
    .ok [69, 0, 0, 38, 0, 0, 0, 0, 0, 17, 186, 200, 0, 0, 0, 0, 0, 0, 0, 0, 0, 0, 0, 0, 0, 18, 169, 32, 85, 85, 85, 85,
      85, 85, 85, 85, 1, 85] := by
  obtain ⟨oc, ea, nw⟩ := cfg
  cases oc <;> cases ea <;> cases nw <;> decide +kernel

/-- The programs without a payload that the theorems ask for. -/
example (cfg : Cfg) : ipv4Program cfg Dynamic.new [] (.udp []) =
    .ok [69, 0, 0, 28, 0, 0, 0, 0, 0, 17, 186, 210, 0, 0, 0, 0, 0, 0, 0, 0, 0, 0, 0, 0, 0, 8, 255, 222] := by
  obtain ⟨oc, ea, nw⟩ := cfg
  cases oc <;> cases ea <;> cases nw <;> decide +kernel

example (cfg : Cfg) : ipv4Program cfg Dynamic.new [] (.tcp []) =
    .ok [69, 0, 0, 40, 0, 0, 0, 0, 0, 6, 186, 209, 0, 0, 0, 0, 0, 0, 0, 0, 0, 0, 0, 0, 0, 0, 0, 0, 0, 0, 0, 0, 80, 0, 0,
      0, 175, 229, 0, 0] := by
  obtain ⟨oc, ea, nw⟩ := cfg
  cases oc <;> cases ea <;> cases nw <;> decide +kernel

example (cfg : Cfg) : ipv4Program cfg Dynamic.new [] .plain =
    .ok [69, 0, 0, 20, 0, 0, 0, 0, 0, 0, 186, 235, 0, 0, 0, 0, 0, 0, 0, 0] := by
  obtain ⟨oc, ea, nw⟩ := cfg
  cases oc <;> cases ea <;> cases nw <;> decide +kernel

example (cfg : Cfg) : icmpProgram cfg Dynamic.new (.echo [.request]) = .ok [8, 0, 247, 255, 0, 0, 0, 0] := by
  obtain ⟨oc, ea, nw⟩ := cfg
  cases oc <;> cases ea <;> cases nw <;> decide +kernel

end Verif.Props
