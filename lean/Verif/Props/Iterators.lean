import Verif.Lemmas.Iterators
import Verif.Lemmas.Builders
import Verif.Lemmas.ProfileBuilders
import Verif.Props.AnyBuffer
import Verif.Samples

/-! # C122: payloads from iterators -/

namespace Verif.Props
open Verif Verif.Spec Verif.AnyBuffer

section
variable {B : Type} [Buffer B]

theorem ends_of_feed {cfg : Cfg} {src : Source} {s : PayloadBuilder B} (hs : s.hasPayload = false) {n k : Nat}
    {r : Outcome B} (h : feed cfg src n 0 s.buffer = some (k, r)) :
    Ends cfg src s k (r >>= fun b => .ok (s.put (k - 1) b)) := by
  refine ⟨n, ?_⟩
  rw [PayloadBuilder.payloadFrom_eq, hs, if_neg (by decide), h]
  rfl

theorem feed_of_ends {cfg : Cfg} {src : Source} {s : PayloadBuilder B} (hs : s.hasPayload = false) {k : Nat}
    {r : Outcome (PayloadBuilder B)} (h : Ends cfg src s k r) :
    ∃ n r', feed cfg src n 0 s.buffer = some (k, r') ∧ r = (r' >>= fun b => .ok (s.put (k - 1) b)) := by
  obtain ⟨n, h⟩ := h
  rw [PayloadBuilder.payloadFrom_eq, hs, if_neg (by decide)] at h
  cases e : feed cfg src n 0 s.buffer with
  | none => rw [e] at h; cases h
  | some x =>
    rw [e] at h
    obtain ⟨k', r'⟩ := x
    have h := Option.some.inj h
    have h1 : k' = k := congrArg Prod.fst h
    have h2 := congrArg Prod.snd h
    subst h1
    exact ⟨n, r', e, h2.symm⟩

theorem setPayload_fresh {cfg : Cfg} {v : Bytes} {s : PayloadBuilder B} (hs : s.hasPayload = false) :
    s.setPayload cfg v = (onBuffer (appendAll cfg v) s.buffer >>= fun b => .ok (s.put v.length b)) := by
  rw [PayloadBuilder.setPayload_eq, hs, if_neg (by decide)]

/-- C122: a builder that has a payload refuses without asking the iterator anything: `InvalidPacket` from the echo
builder, `AlreadyDefined` from the others. -/
theorem C122_again (cfg : Cfg) (src : Source) (s : PayloadBuilder B) (hs : s.hasPayload = true) :
    Ends cfg src s 0 (.err (match s with | .echo _ => .invalidPacket | _ => .alreadyDefined)) := by
  refine ⟨0, ?_⟩
  rw [PayloadBuilder.payloadFrom_eq, hs, if_pos rfl]
  cases s <;> rfl

/-- C122: how `payload` ends does not depend on how long one waits: the outcome and the number of questions are unique,
and as many rounds as questions are enough. -/
theorem C122_final (cfg : Cfg) (src : Source) (s : PayloadBuilder B) (k : Nat) (r : Outcome (PayloadBuilder B))
    (h : Ends cfg src s k r) :
    (∀ k' r', Ends cfg src s k' r' → k' = k ∧ r' = r) ∧
    ∀ rounds ≥ k, s.payloadFrom cfg src rounds = some (k, r) := by
  have key : ∀ k r, Ends cfg src s k r → ∀ rounds ≥ k, s.payloadFrom cfg src rounds = some (k, r) := by
    intro k r h rounds hr
    cases hs : s.hasPayload with
    | true =>
      obtain ⟨n, h⟩ := h
      rw [PayloadBuilder.payloadFrom_eq, hs, if_pos rfl] at h ⊢
      exact h
    | false =>
      obtain ⟨n, r', e, rfl⟩ := feed_of_ends hs h
      rw [PayloadBuilder.payloadFrom_eq, hs, if_neg (by decide), feed_rounds cfg src n rounds 0 _ _ _ e (by omega)]
      rfl
  refine ⟨fun k' r' h' => ?_, key k r h⟩
  have h1 := key k r h (max k k') (Nat.le_max_left ..)
  have h2 := key k' r' h' (max k k') (Nat.le_max_right ..)
  rw [h1] at h2
  have h2 := Option.some.inj h2
  exact ⟨(congrArg Prod.fst h2).symm, (congrArg Prod.snd h2).symm⟩

/-- C122: only the answers to the questions that were asked matter: an iterator that agrees on them and does anything at
all later gives the same outcome. -/
theorem C122_only_asked (cfg : Cfg) (src src' : Source) (s : PayloadBuilder B) (k : Nat)
    (r : Outcome (PayloadBuilder B)) (h : Ends cfg src s k r) (ha : ∀ j < k, src' j = src j) :
    Ends cfg src' s k r := by
  cases hs : s.hasPayload with
  | true =>
    obtain ⟨n, h⟩ := h
    refine ⟨n, ?_⟩
    rw [PayloadBuilder.payloadFrom_eq, hs, if_pos rfl] at h ⊢
    exact h
  | false =>
    obtain ⟨n, r', e, rfl⟩ := feed_of_ends hs h
    exact ends_of_feed hs (feed_agree cfg src src' n 0 _ _ _ e fun j _ hj => ha j hj)

theorem bind_failWith {α β : Type} (x : Option Error) (f : α → Outcome β) : (failWith x >>= f) = failWith x := by
  cases x <;> rfl

theorem outcome_cases {α : Type} (o : Outcome α) : (∃ a, o = .ok a) ∨ ∃ x, o = failWith x := by
  cases o with
  | ok a => exact .inl ⟨a, rfl⟩
  | err e => exact .inr ⟨some e, rfl⟩
  | panic => exact .inr ⟨none, rfl⟩

/-- C122: an iterator whose first bytes already fail as a list fails the same way, whatever it would do later: it is not
asked for more than these bytes. -/
theorem C122_refused (cfg : Cfg) (src : Source) (s : PayloadBuilder B) (v : Bytes) (hv : Gives src v)
    (hf : ∀ s', s.setPayload cfg v ≠ .ok s') : ∃ k ≤ v.length, Ends cfg src s k (s.setPayload cfg v) := by
  cases hs : s.hasPayload with
  | true =>
    refine ⟨0, Nat.zero_le _, 0, ?_⟩
    rw [PayloadBuilder.payloadFrom_eq, PayloadBuilder.setPayload_eq, hs, if_pos rfl, if_pos rfl]
  | false =>
    rw [setPayload_fresh hs] at hf ⊢
    rcases outcome_cases (onBuffer (appendAll cfg v) s.buffer) with ⟨b, e⟩ | ⟨x, e⟩
    · rw [e] at hf; exact (hf _ rfl).elim
    · obtain ⟨k, hk, ek⟩ := feed_refused cfg src v 0 s.buffer x (fun j hj => by rw [Nat.zero_add]; exact hv j hj) e
      refine ⟨k, by omega, ?_⟩
      have := ends_of_feed hs ek
      rw [bind_failWith] at this
      rw [e, bind_failWith]
      exact this

theorem ends_after {cfg : Cfg} {src : Source} {s : PayloadBuilder B} {v : Bytes} (hv : Gives src v)
    (hs : s.hasPayload = false) {b : B} (e : onBuffer (appendAll cfg v) s.buffer = .ok b) {r : Outcome B}
    (hr : feed cfg src 1 v.length b = some (v.length + 1, r)) :
    Ends cfg src s (v.length + 1) (r >>= fun b => .ok (s.put v.length b)) := by
  have := feed_taken cfg src 1 v 0 s.buffer b (fun j hj => by rw [Nat.zero_add]; exact hv j hj) e
  rw [Nat.zero_add, hr] at this
  exact ends_of_feed hs this

/-- C122: an iterator that gives the bytes of a list and then ends is as good as the list: `payload` does the same thing
with it, on every buffer, in every state of the builder.  If it succeeds it has asked once more than there are bytes,
otherwise no more than that. -/
theorem C122_lists (cfg : Cfg) (src : Source) (s : PayloadBuilder B) (v : Bytes) (hv : Lists src v) :
    ∃ k ≤ v.length + 1, Ends cfg src s k (s.setPayload cfg v) ∧
      ∀ s', s.setPayload cfg v = .ok s' → k = v.length + 1 := by
  rcases outcome_cases (s.setPayload cfg v) with ⟨s', e⟩ | ⟨x, e⟩
  · have hs : s.hasPayload = false := by
      rw [PayloadBuilder.setPayload_eq] at e
      cases h : s.hasPayload with
      | false => rfl
      | true => rw [h, if_pos rfl] at e; cases e
    refine ⟨v.length + 1, Nat.le_refl _, ?_, fun _ _ => rfl⟩
    rw [setPayload_fresh hs] at e ⊢
    rcases outcome_cases (onBuffer (appendAll cfg v) s.buffer) with ⟨b, e2⟩ | ⟨x, e2⟩
    · rw [e2]
      exact ends_after (r := .ok b) hv.1 hs e2 (by unfold feed; rw [hv.2])
    · rw [e2, bind_failWith] at e; cases x <;> cases e
  · obtain ⟨k, hk, h⟩ := C122_refused cfg src s v hv.1 (by rw [e]; intro s' h; cases x <;> cases h)
    exact ⟨k, by omega, h, by rw [e]; intro s' h; cases x <;> cases h⟩

/-- C122: a panic of the iterator comes through, unless one of the bytes before it failed already. -/
theorem C122_breaks (cfg : Cfg) (src : Source) (s : PayloadBuilder B) (v : Bytes) (hv : Breaks src v) :
    ∃ k ≤ v.length + 1, Ends cfg src s k (s.setPayload cfg v >>= fun _ => .panic) := by
  rcases outcome_cases (s.setPayload cfg v) with ⟨s', e⟩ | ⟨x, e⟩
  · have hs : s.hasPayload = false := by
      rw [PayloadBuilder.setPayload_eq] at e
      cases h : s.hasPayload with
      | false => rfl
      | true => rw [h, if_pos rfl] at e; cases e
    refine ⟨v.length + 1, Nat.le_refl _, ?_⟩
    rw [e]
    rw [setPayload_fresh hs] at e
    rcases outcome_cases (onBuffer (appendAll cfg v) s.buffer) with ⟨b, e2⟩ | ⟨x, e2⟩
    · exact ends_after (r := .panic) hv.1 hs e2 (by unfold feed; rw [hv.2])
    · rw [e2, bind_failWith] at e; cases x <;> cases e
  · obtain ⟨k, hk, h⟩ := C122_refused cfg src s v hv.1 (by rw [e]; intro s' h; cases x <;> cases h)
    refine ⟨k, by omega, ?_⟩
    rw [e] at h ⊢
    rw [bind_failWith]
    cases x <;> exact h

/-- C122: `payload` succeeds only if the iterator ended, and then with the bytes it gave, all of them. -/
theorem C122_success (cfg : Cfg) (src : Source) (s s' : PayloadBuilder B) (k : Nat) (h : Ends cfg src s k (.ok s')) :
    ∃ v, Lists src v ∧ k = v.length + 1 ∧ s.setPayload cfg v = .ok s' := by
  cases hs : s.hasPayload with
  | true =>
    obtain ⟨n, h⟩ := h
    rw [PayloadBuilder.payloadFrom_eq, hs, if_pos rfl] at h
    cases h
  | false =>
    obtain ⟨n, r', e, hr⟩ := feed_of_ends hs h
    rcases outcome_cases r' with ⟨b, rfl⟩ | ⟨x, rfl⟩
    · obtain ⟨v, hk, hv, hd, ha⟩ := feed_ok cfg src n 0 _ _ _ e
      refine ⟨v, ⟨fun j hj => ?_, ?_⟩, by omega, ?_⟩
      · have := hv j hj
        rwa [Nat.zero_add] at this
      · rwa [Nat.zero_add] at hd
      · have ek : k - 1 = v.length := by omega
        rw [setPayload_fresh hs, ha, hr, ek]
    · rw [bind_failWith] at hr
      cases x <;> cases hr

theorem feed_profiles [SameBuffer B] {d r : Cfg} (p : Stricter d r) (src : Source) : ∀ (n i : Nat) (b : B),
    (∃ k, feed d src n i b = some (k, .panic)) ∨
      feed r src n i b = feed d src n i b := by
  intro n
  induction n with
  | zero => intros; exact .inr rfl
  | succ n ih =>
    intro i b
    unfold feed
    cases src i with
    | done => exact .inr rfl
    | panics => exact .inr rfl
    | byte v =>
      have h : SameUnlessPanic (onBuffer (appendOne (B := B) d v) b)
          (onBuffer (appendOne (B := B) r v) b) :=
        SameUnlessPanicMut.onBuffer (SameUnlessPanicMut.bind (SameBuffer.more p 1) fun _ =>
          SameBuffer.edit p _ _ (.refl _)) b
      rcases h with h | h
      · left
        exact ⟨i + 1, by simp only [h]⟩
      · simp only []
        rw [h]
        cases onBuffer (appendOne d v) b with
        | ok b' => exact ih _ _
        | err x => exact .inr rfl
        | panic => exact .inr rfl

theorem payloadFrom_profiles [SameBuffer B] {d r : Cfg} (p : Stricter d r) (src : Source) (s : PayloadBuilder B)
    (rounds : Nat) : (∃ k, s.payloadFrom d src rounds = some (k, .panic)) ∨
      s.payloadFrom r src rounds = s.payloadFrom d src rounds := by
  rw [PayloadBuilder.payloadFrom_eq, PayloadBuilder.payloadFrom_eq]
  cases s.hasPayload with
  | true => exact .inr rfl
  | false =>
    rw [if_neg (by decide), if_neg (by decide)]
    rcases feed_profiles p src rounds 0 s.buffer with ⟨k, h⟩ | h
    · left; exact ⟨k, by rw [h]; rfl⟩
    · right; rw [h]

/-- C122, C121: the release build asks the same questions and ends the same way, or is still running when the debug build
is, unless the debug build panics. -/
theorem C122_profiles [SameBuffer B] (e w : Bool) (src : Source) (s : PayloadBuilder B) (rounds : Nat) :
    (∃ k, s.payloadFrom (debugBuild e w) src rounds = some (k, .panic)) ∨
      s.payloadFrom (releaseBuild e w) src rounds = s.payloadFrom (debugBuild e w) src rounds :=
  payloadFrom_profiles (Stricter.mk' e w) src s rounds

/-! ## How long it can take -/

theorem first_answers (src : Source) : ∀ n : Nat, (∃ v : Bytes, v.length = n ∧ Gives src v) ∨
    ∃ v : Bytes, v.length < n ∧ (Lists src v ∨ Breaks src v) := by
  intro n
  induction n with
  | zero => exact .inl ⟨[], rfl, fun j h => absurd h (Nat.not_lt_zero _)⟩
  | succ n ih =>
    rcases ih with ⟨v, hl, hv⟩ | ⟨v, hl, hv⟩
    · cases e : src n with
      | byte x =>
        refine .inl ⟨v ++ [x], by simp [hl], fun j hj => ?_⟩
        by_cases hjn : j < v.length
        · rw [List.getElem_append_left hjn]; exact hv j hjn
        · have : j = n := by simp at hj; omega
          subst this
          rw [e, List.getElem_append_right (by omega)]
          simp
      | done => exact .inr ⟨v, by omega, .inl ⟨hv, by rw [hl]; exact e⟩⟩
      | panics => exact .inr ⟨v, by omega, .inr ⟨hv, by rw [hl]; exact e⟩⟩
    · exact .inr ⟨v, by omega, hv⟩

/-- If `n` bytes cannot be appended, no iterator is asked more than `n` times. -/
theorem ends_within (cfg : Cfg) (src : Source) (s : PayloadBuilder B) (n : Nat)
    (h : ∀ v : Bytes, v.length = n → ∀ s', s.setPayload cfg v ≠ .ok s') : ∃ k ≤ n, ∃ r, Ends cfg src s k r := by
  rcases first_answers src n with ⟨v, hl, hv⟩ | ⟨v, hl, hv | hv⟩
  · obtain ⟨k, hk, he⟩ := C122_refused cfg src s v hv (h v hl)
    exact ⟨k, by omega, _, he⟩
  · obtain ⟨k, hk, he, _⟩ := C122_lists cfg src s v hv
    exact ⟨k, by omega, _, he⟩
  · obtain ⟨k, hk, he⟩ := C122_breaks cfg src s v hv
    exact ⟨k, by omega, _, he⟩

end

section
variable {B : Type} [Buffer B]

theorem backs_one {cfg : Cfg} {cap : Nat} {full : Option Error} {R : B → Layers → Prop} (h : Backs cfg cap full R)
    {b : B} {l : Layers} (hb : R b l) (x : U8) (hc : l.all.length + 1 ≤ cap) :
    ∃ b', onBuffer (appendOne cfg x) b = .ok b' ∧ R b' ⟨l.below, l.top ++ [x]⟩ := by
  obtain ⟨b1, e1, r1⟩ := h.more 1 hb hc
  obtain ⟨b2, e2, r2⟩ := h.modify (setLast x) r1 (KeepsLen.setLast x)
  have hl : setLast x ((BufOp.more 1).step l).top = (.ok (), l.top ++ [x]) := setLast_snoc l.top 0#8 x
  rw [hl] at e2 r2
  refine ⟨b2, ?_, r2⟩
  show onBuffer (Buffer.more cfg 1 >>= fun _ => Buffer.modifyData cfg (setLast x)) b = _
  rw [onBuffer_bind, onBuffer_done e1]
  exact onBuffer_done e2

theorem backs_all {cfg : Cfg} {cap : Nat} {full : Option Error} {R : B → Layers → Prop} (h : Backs cfg cap full R) :
    ∀ (v : Bytes) {b : B} {l : Layers}, R b l → l.all.length + v.length ≤ cap →
    ∃ b', onBuffer (appendAll cfg v) b = .ok b' ∧ R b' ⟨l.below, l.top ++ v⟩ := by
  intro v
  induction v with
  | nil => intro b l hb _; exact ⟨b, rfl, by simpa using hb⟩
  | cons x v ih =>
    intro b l hb hc
    simp only [List.length_cons] at hc
    obtain ⟨b1, e1, r1⟩ := backs_one h hb x (by omega)
    obtain ⟨b2, e2, r2⟩ := ih r1 (by simp only [Layers.all, List.length_append, List.length_singleton] at hc ⊢; omega)
    refine ⟨b2, ?_, by simpa using r2⟩
    rw [onBuffer_appendAll_cons, e1]
    exact e2

theorem backs_full {cfg : Cfg} {cap : Nat} {full : Option Error} {R : B → Layers → Prop} (h : Backs cfg cap full R)
    {b : B} {l : Layers} (hb : R b l) (x : U8) (hc : l.all.length = cap) :
    onBuffer (appendOne cfg x) b = failWith full := by
  show onBuffer (Buffer.more cfg 1 >>= fun _ => Buffer.modifyData cfg (setLast x)) b = _
  rw [onBuffer_bind, onBuffer_fail (h.moreFull 1 hb (by in_every_build) (by omega)), bind_failWith]

/-- C122 on a buffer that meets the contract of `trait Buffer` (`buffer::Dynamic` does, with `isize::MAX` bytes), with
`room` bytes left behind what was handed out before.  An iterator that ends within the room succeeds after one question
more than there are bytes, and the current layer is extended by exactly these bytes.  One that panics within the room
panics.  One that gives more bytes than there is room fails as the buffer does when it is full, after `room + 1`
questions: at the first byte that does not fit. -/
theorem C122_contract (cfg : Cfg) (start : B) (cap : Nat) (full : Option Error) (hc : MeetsContract cfg start cap full)
    (before : List BufOp) (hf : BufOp.Fits cap before .empty) (s : PayloadBuilder B) (hs : s.hasPayload = false)
    (hb : history cfg before start = (.ok (), s.buffer)) (room : Nat)
    (hr : (BufOp.after before .empty).all.length + room = cap) (src : Source) (v : Bytes) :
    (Lists src v → v.length ≤ room → ∃ s', Ends cfg src s (v.length + 1) (.ok s') ∧ s.setPayload cfg v = .ok s' ∧
      ShowsLayers cfg s'.buffer ⟨(BufOp.after before .empty).below, (BufOp.after before .empty).top ++ v⟩) ∧
    (Breaks src v → v.length ≤ room → Ends cfg src s (v.length + 1) .panic) ∧
    (Gives src v → v.length = room + 1 → Ends cfg src s (room + 1) (failWith full)) := by
  have hk := contract_backs hc
  have hR : Reached cfg start cap s.buffer (BufOp.after before .empty) := ⟨before, hf, hb, rfl⟩
  generalize BufOp.after before .empty = l at hr hR ⊢
  refine ⟨fun hv hl => ?_, fun hv hl => ?_, fun hv hl => ?_⟩
  · obtain ⟨b', e, r⟩ := backs_all hk v hR (by omega)
    refine ⟨s.put v.length b', ends_after (r := .ok b') hv.1 hs e (by unfold feed; rw [hv.2]), ?_, ?_⟩
    · rw [setPayload_fresh hs, e]; rfl
    · have : (s.put v.length b').buffer = b' := by cases s <;> rfl
      rw [this]
      exact hk.shows r
  · obtain ⟨b', e, r⟩ := backs_all hk v hR (by omega)
    exact ends_after (r := .panic) hv.1 hs e (by unfold feed; rw [hv.2])
  · obtain ⟨w, x, rfl⟩ : ∃ (w : Bytes) (x : U8), v = w ++ [x] := by
      have hne : v ≠ [] := by intro h; subst h; simp at hl
      exact ⟨v.dropLast, v.getLast hne, (List.dropLast_concat_getLast hne).symm⟩
    have hw : w.length = room := by simpa using hl
    have hgw : Gives src w := fun j hj => by
      rw [hv j (by simp; omega), List.getElem_append_left hj]
    have hx : src room = .byte x := by
      rw [hv room (by simp; omega), List.getElem_append_right (by omega)]
      simp
    obtain ⟨b', e, r⟩ := backs_all hk w hR (by omega)
    have hfull := backs_full hk r x (by simp only [Layers.all, List.length_append] at hr ⊢; omega)
    have := ends_after (r := failWith full) hgw hs e (by
      unfold feed
      rw [hw, hx]
      simp only [hfull]
      cases full <;> rfl)
    rw [bind_failWith, hw] at this
    exact this

/-- C122: on such a buffer every iterator comes to an end, after at most one question more than there is room. -/
theorem C122_contract_ends (cfg : Cfg) (start : B) (cap : Nat) (full : Option Error)
    (hc : MeetsContract cfg start cap full) (before : List BufOp) (hf : BufOp.Fits cap before .empty)
    (s : PayloadBuilder B) (hb : history cfg before start = (.ok (), s.buffer)) (room : Nat)
    (hr : (BufOp.after before .empty).all.length + room = cap) (src : Source) :
    (∃ k ≤ room + 1, ∃ r, Ends cfg src s k r) ∧
    (Endless src → s.hasPayload = false → Ends cfg src s (room + 1) (failWith full)) := by
  refine ⟨?_, fun he hs => ?_⟩
  · cases hs : s.hasPayload with
    | true => exact ⟨0, Nat.zero_le _, _, C122_again cfg src s hs⟩
    | false =>
      rcases first_answers src (room + 1) with ⟨v, hl, hv⟩ | ⟨v, hl, hv | hv⟩
      · exact ⟨_, Nat.le_refl _, _, (C122_contract cfg start cap full hc before hf s hs hb room hr src v).2.2 hv hl⟩
      · obtain ⟨s', h, _⟩ := (C122_contract cfg start cap full hc before hf s hs hb room hr src v).1 hv (by omega)
        exact ⟨_, by omega, _, h⟩
      · exact ⟨_, by omega, _, (C122_contract cfg start cap full hc before hf s hs hb room hr src v).2.1 hv (by omega)⟩
  · rcases first_answers src (room + 1) with ⟨v, hl, hv⟩ | ⟨v, hl, hv | hv⟩
    · exact (C122_contract cfg start cap full hc before hf s hs hb room hr src v).2.2 hv hl
    · obtain ⟨x, hx⟩ := he v.length
      rw [hv.2] at hx
      cases hx
    · obtain ⟨x, hx⟩ := he v.length
      rw [hv.2] at hx
      cases hx

end

/-! ## The static buffer -/

theorem slice_step_used (cfg : Cfg) (x : U8) (b b' : Slice) (h : b.used ≤ b.inner.length)
    (hi : b.inner.length ≤ cfg.isizeMax) (e : onBuffer (appendOne cfg x) b = .ok b') :
    b'.used = b.used + 1 ∧ b'.inner.length = b.inner.length ∧ b'.used ≤ b'.inner.length := by
  have e0 : (onBuffer (Buffer.more cfg 1) b >>= onBuffer (Buffer.modifyData cfg (setLast x))) = .ok b' := by
    rw [← e]
    exact (onBuffer_bind (Buffer.more cfg 1) (Buffer.modifyData cfg (setLast x)) b).symm
  have hmod : ∀ (g : Mut Bytes Unit) (c c' : Slice), (∀ d, (g d).2.length = d.length) →
      onBuffer (Buffer.modifyData cfg g) c = .ok c' → c'.used = c.used ∧ c'.inner.length = c.inner.length := by
    intro g c c' hg he
    have hc := slice_bounds_step cfg (.edit (fun d => (g d).2) hg) c
    unfold onBuffer at he
    have : c' = (Slice.modifyData cfg g c).2 := by
      rcases e : (Buffer.modifyData cfg g c) with ⟨_ | _ | _, d⟩
      · rw [e] at he
        rw [← Outcome.ok.inj he]
        exact (congrArg Prod.snd e).symm
      · rw [e] at he; cases he
      · rw [e] at he; cases he
    subst this
    unfold Slice.modifyData
    cases e : Slice.data cfg c with
    | err x => exact ⟨rfl, rfl⟩
    | panic => exact ⟨rfl, rfl⟩
    | ok d =>
      refine ⟨rfl, ?_⟩
      unfold Slice.data at e
      cases e' : addUsize cfg c.offset c.length with
      | err x => rw [e'] at e; cases e
      | panic => rw [e'] at e; cases e
      | ok stop =>
        rw [e', Outcome.ok_bind] at e
        unfold slice at e
        split at e
        · cases e
          exact length_put (by rw [hg]; simp; omega)
        · cases e
  cases e1 : onBuffer (Buffer.more cfg 1) b with
  | err y => rw [e1] at e0; cases e0
  | panic => rw [e1] at e0; cases e0
  | ok b1 =>
    rw [e1] at e0
    obtain ⟨m1, m2⟩ := hmod (setLast x) b1 b' (fun d => KeepsLen.setLast x d) e0
    have hb := slice_bounds_step cfg (.more 1) b h
    have hmore : b1 = (Slice.more cfg 1 b).2 ∧ (Slice.more cfg 1 b).1 = .ok () := by
      unfold onBuffer at e1
      rcases e : (Buffer.more cfg 1 b) with ⟨_ | _ | _, d⟩
      · rw [e] at e1
        have := Outcome.ok.inj e1
        subst this
        exact ⟨(congrArg Prod.snd e).symm, congrArg Prod.fst e⟩
      · rw [e] at e1; cases e1
      · rw [e] at e1; cases e1
    have hb : (Slice.more cfg 1 b).2.used ≤ (Slice.more cfg 1 b).2.inner.length ∧
        (Slice.more cfg 1 b).2.inner.length = b.inner.length := hb
    rw [← hmore.1] at hb
    have hu : b1.used = b.used + 1 := by
      rw [hmore.1]
      have h2 := hmore.2
      unfold Slice.more at h2 ⊢
      rw [addUsize_ok (Or.inr (by (have := cfg.width; omega)))] at h2 ⊢
      simp only at h2 ⊢
      split at h2
      · cases h2
      · rename_i hn
        rw [if_neg hn]
        cases e2 : addUsize cfg b.length 1 with
        | err x => rw [e2] at h2; cases h2
        | panic => rw [e2] at h2; cases h2
        | ok len =>
          rw [e2] at h2
          simp only at h2 ⊢
          rw [addUsize_ok (Or.inr (by (have := cfg.width; omega)))] at h2 ⊢
          simp only at h2 ⊢
          cases e3 : subUsize cfg len 1 with
          | err x => rw [e3] at h2
          | panic => rw [e3] at h2
          | ok start =>
            simp only
            unfold Slice.modifyData
            cases Slice.data cfg ⟨b.inner, b.used, len, b.used + 1⟩ <;> rfl
    omega

theorem slice_room (cfg : Cfg) : ∀ (v : Bytes) (b b' : Slice), b.used ≤ b.inner.length →
    b.inner.length ≤ cfg.isizeMax → onBuffer (appendAll cfg v) b = .ok b' → b.used + v.length ≤ b.inner.length := by
  intro v
  induction v with
  | nil => intro b b' h _ _; simpa using h
  | cons x v ih =>
    intro b b' h hi e
    rw [onBuffer_appendAll_cons] at e
    cases e1 : onBuffer (appendOne cfg x) b with
    | err y => rw [e1] at e; cases e
    | panic => rw [e1] at e; cases e
    | ok b1 =>
      rw [e1] at e
      obtain ⟨h1, h2, h3⟩ := slice_step_used cfg x b b1 h hi e1
      have := ih b1 b' h3 (by omega) e
      simp only [List.length_cons]
      omega

/-- C122 on `buffer::Slice`, in whatever state earlier calls, failed ones included, have left it: every iterator comes
to an end after at most one question more than there are unused bytes, and `payload` does not succeed unless the
iterator ended within them. -/
theorem C122_slice (cfg : Cfg) (storage : Bytes) (hl : storage.length ≤ cfg.isizeMax) (before : List BufOp)
    (s : PayloadBuilder Slice) (hb : s.buffer = anyHistory cfg before (Slice.new storage)) (src : Source) :
    (∃ k ≤ storage.length - Buffer.used s.buffer + 1, ∃ r, Ends cfg src s k r) ∧
    ∀ k s', Ends cfg src s k (.ok s') → ∃ v, Lists src v ∧ Buffer.used s.buffer + v.length ≤ storage.length := by
  obtain ⟨h1, h2, -⟩ := C03_states cfg storage before
  rw [← hb] at h1 h2
  have h1 : s.buffer.used ≤ storage.length := h1
  have key : ∀ v s', s.setPayload cfg v = .ok s' → s.buffer.used + v.length ≤ storage.length := by
    intro v s' e
    rw [PayloadBuilder.setPayload_eq] at e
    cases h : s.hasPayload with
    | true => rw [h, if_pos rfl] at e; cases e
    | false =>
      rw [h, if_neg (by decide)] at e
      cases e2 : onBuffer (appendAll cfg v) s.buffer with
      | err y => rw [e2] at e; cases e
      | panic => rw [e2] at e; cases e
      | ok b' =>
        have := slice_room cfg v s.buffer b' (by omega) (by omega) e2
        omega
  constructor
  · refine ends_within cfg src s _ fun v hv s' e => ?_
    have := key v s' e
    have hv : v.length = storage.length - s.buffer.used + 1 := hv
    omega
  · intro k s' h
    obtain ⟨v, hv, _, e⟩ := C122_success cfg src s s' k h
    exact ⟨v, hv, key v s' e⟩

/-! ## Concrete cases

An Ethernet builder on a fresh `buffer::Dynamic`, and iterators that give four bytes and then end, panic or go on. -/

def fourThen (last : Item) : Source := fun j => if j < 4 then .byte (BitVec.ofNat 8 (j + 1)) else last
def etherOn {B : Type} (b : B) : PayloadBuilder B := .ether ⟨b, [], false⟩
def freshEther : PayloadBuilder Dynamic := etherOn ⟨zeros 14, 0, 14⟩
def freshSlice : PayloadBuilder Slice := etherOn ⟨zeros 40, 0, 14, 14⟩
def tightSlice : PayloadBuilder Slice := etherOn ⟨zeros 16, 0, 14, 14⟩

theorem gives_four (last : Item) : Gives (fourThen last) [1, 2, 3, 4] := by
  intro j hj
  match j, hj with
  | 0, _ => rfl
  | 1, _ => rfl
  | 2, _ => rfl
  | 3, _ => rfl

theorem four_fits (cfg : Cfg) : freshEther.payloadFrom cfg (fourThen .done) 5 =
    some (5, .ok (.ether ⟨⟨zeros 14 ++ [1, 2, 3, 4], 0, 18⟩, [], true⟩)) := by
  obtain ⟨oc, ea, nw⟩ := cfg
  cases oc <;> cases ea <;> cases nw <;> rfl

theorem ends_four (cfg : Cfg) : Ends cfg (fourThen .done) freshEther 5
    (.ok (.ether ⟨⟨zeros 14 ++ [1, 2, 3, 4], 0, 18⟩, [], true⟩)) := ⟨5, four_fits cfg⟩

/-- A concrete case that meets the hypotheses of `C122_again`. -/
example (cfg : Cfg) := C122_again cfg (fourThen .done) (.echo ⟨Dynamic.new, [], false, true⟩) rfl
/-- A concrete case that meets the hypotheses of `C122_final`, `C122_only_asked` and `C122_success`. -/
example (cfg : Cfg) := C122_final cfg _ _ _ _ (ends_four cfg)
example (cfg : Cfg) := C122_only_asked cfg (fourThen .done) (fun j => if j = 5 then .panics else fourThen .done j) _ _ _
  (ends_four cfg) (fun j hj => if_neg (Nat.ne_of_lt hj))
example (cfg : Cfg) := C122_success cfg _ _ _ _ (ends_four cfg)
/-- A concrete case that meets the hypotheses of `C122_lists` and `C122_breaks`. -/
example (cfg : Cfg) := C122_lists cfg (fourThen .done) freshEther [1, 2, 3, 4] ⟨gives_four _, rfl⟩
example (cfg : Cfg) := C122_breaks cfg (fourThen .panics) freshEther [1, 2, 3, 4] ⟨gives_four _, rfl⟩
/-- A concrete case that meets the hypotheses of `C122_refused`: two unused bytes. -/
example (cfg : Cfg) := C122_refused cfg (fourThen (.byte 0)) tightSlice [1, 2, 3, 4] (gives_four _) (by
  obtain ⟨oc, ea, nw⟩ := cfg
  have h : tightSlice.setPayload ⟨oc, ea, nw⟩ [1, 2, 3, 4] = .panic := by cases oc <;> cases ea <;> cases nw <;> rfl
  rw [h]
  intro s' h
  cases h)
/-- A concrete case that meets the hypotheses of `C122_contract` and `C122_contract_ends`. -/
example (cfg : Cfg) := (C122_contract cfg Dynamic.new _ none (C107_dynamic cfg) [.next 14] ⟨by in_every_build, (by in_every_build : _ ≤ _)⟩ freshEther rfl
  (by obtain ⟨oc, ea, nw⟩ := cfg; cases oc <;> cases ea <;> cases nw <;> rfl) (cfg.isizeMax - 14) (by in_every_build) (fourThen .done) [1, 2, 3, 4]).1
  ⟨gives_four _, rfl⟩ (by in_every_build)
example (cfg : Cfg) := (C122_contract cfg Dynamic.new _ none (C107_dynamic cfg) [.next 14] ⟨by in_every_build, (by in_every_build : _ ≤ _)⟩ freshEther rfl
  (by obtain ⟨oc, ea, nw⟩ := cfg; cases oc <;> cases ea <;> cases nw <;> rfl) (cfg.isizeMax - 14) (by in_every_build) (fourThen .panics) [1, 2, 3, 4]).2.1
  ⟨gives_four _, rfl⟩ (by in_every_build)
example (cfg : Cfg) := (C122_contract_ends cfg Dynamic.new _ none (C107_dynamic cfg) [.next 14] ⟨by in_every_build, (by in_every_build : _ ≤ _)⟩ freshEther
  (by obtain ⟨oc, ea, nw⟩ := cfg; cases oc <;> cases ea <;> cases nw <;> rfl) (cfg.isizeMax - 14) (by in_every_build) (fun _ => .byte 7)).2
  (fun _ => ⟨7, rfl⟩) rfl
/-- A concrete case that meets the hypotheses of `C122_slice`. -/
example (cfg : Cfg) := C122_slice cfg (zeros 40) (by in_every_build) [.next 14] freshSlice
  (by obtain ⟨oc, ea, nw⟩ := cfg; cases oc <;> cases ea <;> cases nw <;> rfl) (fun _ => .byte 7)

end Verif.Props
