import Verif.Spec.Iterators
import Verif.Lemmas.AnyBufferStep

/-! # The loop of `payload`, round by round -/

namespace Verif
open Verif.Spec Verif.AnyBuffer

section
variable {B : Type} [Buffer B]

theorem onBuffer_appendAll_cons (cfg : Cfg) (x : U8) (v : Bytes) (b : B) :
    onBuffer (appendAll cfg (x :: v)) b = (onBuffer (appendOne cfg x) b >>= onBuffer (appendAll cfg v)) := by
  have e1 : onBuffer (appendAll cfg (x :: v)) b = (onBuffer (Buffer.more cfg 1) b >>= fun b =>
      (onBuffer (Buffer.modifyData cfg (setLast x)) b >>= onBuffer (appendAll cfg v))) := by
    show onBuffer (Buffer.more cfg 1 >>= fun _ => Buffer.modifyData cfg (setLast x) >>= fun _ => appendAll cfg v) b = _
    rw [onBuffer_bind]
    congr 1
    funext b
    rw [onBuffer_bind]
  have e2 : onBuffer (appendOne cfg x) b = (onBuffer (Buffer.more cfg 1) b >>= fun b =>
      onBuffer (Buffer.modifyData cfg (setLast x)) b) := by
    show onBuffer (Buffer.more cfg 1 >>= fun _ => Buffer.modifyData cfg (setLast x)) b = _
    rw [onBuffer_bind]
  rw [e1, e2]
  cases onBuffer (Buffer.more cfg 1) b <;> rfl

theorem feed_more (cfg : Cfg) (src : Source) : ∀ (n m i : Nat) (b : B) (x : Nat × Outcome B), n ≤ m →
    feed cfg src n i b = some x → feed cfg src m i b = some x := by
  intro n
  induction n with
  | zero => intro m i b x _ h; cases h
  | succ n ih =>
    intro m i b x hm h
    obtain ⟨m, rfl⟩ : ∃ k, m = k + 1 := ⟨m - 1, by omega⟩
    unfold feed at h ⊢
    cases e : src i with
    | done => rw [e] at h; exact h
    | panics => rw [e] at h; exact h
    | byte v =>
      rw [e] at h
      simp only at h ⊢
      cases e2 : onBuffer (appendOne cfg v) b with
      | ok b' => rw [e2] at h; exact ih m _ _ _ (by omega) h
      | err y => rw [e2] at h; exact h
      | panic => rw [e2] at h; exact h

theorem feed_asked (cfg : Cfg) (src : Source) : ∀ (n i : Nat) (b : B) (k : Nat) (r : Outcome B),
    feed cfg src n i b = some (k, r) → i < k ∧ k ≤ i + n := by
  intro n
  induction n with
  | zero => intro i b k r h; cases h
  | succ n ih =>
    intro i b k r h
    unfold feed at h
    cases e : src i with
    | done => rw [e] at h; cases h; omega
    | panics => rw [e] at h; cases h; omega
    | byte v =>
      rw [e] at h
      simp only at h
      cases e2 : onBuffer (appendOne cfg v) b with
      | ok b' =>
        rw [e2] at h
        have := ih _ _ _ _ h
        omega
      | err y => rw [e2] at h; cases h; omega
      | panic => rw [e2] at h; cases h; omega

/-- As many rounds as questions are enough. -/
theorem feed_rounds (cfg : Cfg) (src : Source) : ∀ (n m i : Nat) (b : B) (k : Nat) (r : Outcome B),
    feed cfg src n i b = some (k, r) → k ≤ i + m → feed cfg src m i b = some (k, r) := by
  intro n
  induction n with
  | zero => intro m i b k r h; cases h
  | succ n ih =>
    intro m i b k r h hm
    have := (feed_asked cfg src _ _ _ _ _ h).1
    obtain ⟨m, rfl⟩ : ∃ k, m = k + 1 := ⟨m - 1, by omega⟩
    unfold feed at h ⊢
    cases e : src i with
    | done => rw [e] at h; exact h
    | panics => rw [e] at h; exact h
    | byte v =>
      rw [e] at h
      simp only at h ⊢
      cases e2 : onBuffer (appendOne cfg v) b with
      | ok b' => rw [e2] at h; exact ih m _ _ _ _ h (by omega)
      | err y => rw [e2] at h; exact h
      | panic => rw [e2] at h; exact h

theorem feed_agree (cfg : Cfg) (src src' : Source) : ∀ (n i : Nat) (b : B) (k : Nat) (r : Outcome B),
    feed cfg src n i b = some (k, r) → (∀ j, i ≤ j → j < k → src' j = src j) → feed cfg src' n i b = some (k, r) := by
  intro n
  induction n with
  | zero => intro i b k r h; cases h
  | succ n ih =>
    intro i b k r h ha
    have hik := (feed_asked cfg src _ _ _ _ _ h).1
    unfold feed at h ⊢
    rw [ha i (Nat.le_refl _) hik]
    cases e : src i with
    | done => rw [e] at h; exact h
    | panics => rw [e] at h; exact h
    | byte v =>
      rw [e] at h
      simp only at h ⊢
      cases e2 : onBuffer (appendOne cfg v) b with
      | ok b' => rw [e2] at h; exact ih _ _ _ _ h fun j h1 h2 => ha j (by omega) h2
      | err y => rw [e2] at h; exact h
      | panic => rw [e2] at h; exact h

/-- Bytes that are all taken. -/
theorem feed_taken (cfg : Cfg) (src : Source) (n : Nat) : ∀ (v : Bytes) (i : Nat) (b b' : B),
    (∀ j (h : j < v.length), src (i + j) = .byte v[j]) → onBuffer (appendAll cfg v) b = .ok b' →
    feed cfg src (v.length + n) i b = feed cfg src n (i + v.length) b' := by
  intro v
  induction v with
  | nil =>
    intro i b b' _ h
    have : b = b' := Outcome.ok.inj h
    subst this
    simp
  | cons x v ih =>
    intro i b b' hs h
    rw [onBuffer_appendAll_cons] at h
    cases e : onBuffer (appendOne cfg x) b with
    | err y => rw [e] at h; cases h
    | panic => rw [e] at h; cases h
    | ok b1 =>
      rw [e] at h
      have h0 : src i = .byte x := hs 0 (by simp)
      have := ih (i + 1) b1 b' (fun j hj => by
        have := hs (j + 1) (by simpa using hj)
        rw [show i + 1 + j = i + (j + 1) by omega, this]
        rfl) h
      rw [List.length_cons, show v.length + 1 + n = (v.length + n) + 1 by omega]
      conv => lhs; unfold feed
      rw [h0]
      simp only [e]
      rw [this, show i + 1 + v.length = i + (v.length + 1) by omega]

/-- Bytes one of which is refused. -/
theorem feed_refused (cfg : Cfg) (src : Source) : ∀ (v : Bytes) (i : Nat) (b : B) (x : Option Error),
    (∀ j (h : j < v.length), src (i + j) = .byte v[j]) → onBuffer (appendAll cfg v) b = failWith x →
    ∃ k, k ≤ i + v.length ∧ feed cfg src v.length i b = some (k, failWith x) := by
  intro v
  induction v with
  | nil => intro i b x _ h; cases x <;> cases h
  | cons y v ih =>
    intro i b x hs h
    rw [onBuffer_appendAll_cons] at h
    have h0 : src i = .byte y := hs 0 (by simp)
    cases e : onBuffer (appendOne cfg y) b with
    | ok b1 =>
      rw [e] at h
      obtain ⟨k, hk, ek⟩ := ih (i + 1) b1 x (fun j hj => by
        have := hs (j + 1) (by simpa using hj)
        rw [show i + 1 + j = i + (j + 1) by omega, this]
        rfl) h
      refine ⟨k, by simp only [List.length_cons]; omega, ?_⟩
      rw [List.length_cons]
      unfold feed
      rw [h0]
      simp only [e]
      exact ek
    | err z =>
      rw [e] at h
      refine ⟨i + 1, by simp only [List.length_cons]; omega, ?_⟩
      rw [List.length_cons]
      unfold feed
      rw [h0]
      simp only [e]
      rw [← h]
      rfl
    | panic =>
      rw [e] at h
      refine ⟨i + 1, by simp only [List.length_cons]; omega, ?_⟩
      rw [List.length_cons]
      unfold feed
      rw [h0]
      simp only [e]
      rw [← h]
      rfl

/-- A loop that ended well was given bytes and then `None`. -/
theorem feed_ok (cfg : Cfg) (src : Source) : ∀ (n i : Nat) (b : B) (k : Nat) (b' : B),
    feed cfg src n i b = some (k, .ok b') → ∃ v : Bytes, k = i + v.length + 1 ∧
      (∀ j (h : j < v.length), src (i + j) = .byte v[j]) ∧ src (i + v.length) = .done ∧
      onBuffer (appendAll cfg v) b = .ok b' := by
  intro n
  induction n with
  | zero => intro i b k b' h; cases h
  | succ n ih =>
    intro i b k b' h
    unfold feed at h
    cases e : src i with
    | done =>
      rw [e] at h
      cases h
      exact ⟨[], by simp, by simp, by simpa using e, rfl⟩
    | panics => rw [e] at h; cases h
    | byte y =>
      rw [e] at h
      simp only at h
      cases e2 : onBuffer (appendOne cfg y) b with
      | err z => rw [e2] at h; cases h
      | panic => rw [e2] at h; cases h
      | ok b1 =>
        rw [e2] at h
        obtain ⟨v, hk, hv, hd, ha⟩ := ih _ _ _ _ h
        refine ⟨y :: v, by simp only [List.length_cons]; omega, ?_, ?_, ?_⟩
        · intro j hj
          cases j with
          | zero => simpa using e
          | succ j =>
            have := hv j (by simpa using hj)
            rw [show i + (j + 1) = i + 1 + j by omega, this]
            rfl
        · rw [List.length_cons, show i + (v.length + 1) = i + 1 + v.length by omega]; exact hd
        · rw [onBuffer_appendAll_cons, e2]; exact ha

/-! ## The five builders at once -/

namespace PayloadBuilder

/-- What `payload` says the second time. -/
def again : PayloadBuilder B → Error
  | .echo _ => .invalidPacket
  | _ => .alreadyDefined

/-- The builder when `n` bytes have been appended and the buffer is `b`. -/
def put : PayloadBuilder B → Nat → B → PayloadBuilder B
  | .ether s, _, b => .ether { s with buffer := b, payload := true }
  | .v4 s, _, b => .v4 { s with buffer := b, payload := true }
  | .udp s, _, b => .udp { s with buffer := b, payload := true }
  | .tcp s, n, b => .tcp { s with buffer := b, payload := true, payloadLength := s.payloadLength + n }
  | .echo s, _, b => .echo { s with buffer := b, payload := true }

theorem setPayload_eq (cfg : Cfg) (v : Bytes) (s : PayloadBuilder B) : s.setPayload cfg v =
    if s.hasPayload then .err s.again else (onBuffer (appendAll cfg v) s.buffer >>= fun b => .ok (s.put v.length b)) := by
  cases hp : s.hasPayload
  · rw [if_neg (by decide)]
    cases s with
    | ether s =>
      have hp : s.payload = false := hp
      simp only [setPayload, EtherBuilder.setPayload, hp, buffer, put]
      cases onBuffer (appendAll cfg v) s.buffer <;> rfl
    | v4 s =>
      have hp : s.payload = false := hp
      simp only [setPayload, V4Builder.setPayload, hp, buffer, put]
      cases onBuffer (appendAll cfg v) s.buffer <;> rfl
    | udp s =>
      have hp : s.payload = false := hp
      simp only [setPayload, UdpBuilder.setPayload, hp, buffer, put]
      cases onBuffer (appendAll cfg v) s.buffer <;> rfl
    | tcp s =>
      have hp : s.payload = false := hp
      simp only [setPayload, TcpBuilder.setPayload, hp, buffer, put]
      cases onBuffer (appendAll cfg v) s.buffer <;> rfl
    | echo s =>
      have hp : s.payload = false := hp
      simp only [setPayload, EchoBuilder.setPayload, hp, buffer, put]
      cases onBuffer (appendAll cfg v) s.buffer <;> rfl
  · rw [if_pos rfl]
    cases s with
    | ether s => exact congrArg (· >>= fun s => Outcome.ok (PayloadBuilder.ether s)) (if_pos hp : EtherBuilder.setPayload cfg v s = _)
    | v4 s => exact congrArg (· >>= fun s => Outcome.ok (PayloadBuilder.v4 s)) (if_pos hp : V4Builder.setPayload cfg v s = _)
    | udp s => exact congrArg (· >>= fun s => Outcome.ok (PayloadBuilder.udp s)) (if_pos hp : UdpBuilder.setPayload cfg v s = _)
    | tcp s => exact congrArg (· >>= fun s => Outcome.ok (PayloadBuilder.tcp s)) (if_pos hp : TcpBuilder.setPayload cfg v s = _)
    | echo s => exact congrArg (· >>= fun s => Outcome.ok (PayloadBuilder.echo s)) (if_pos hp : EchoBuilder.setPayload cfg v s = _)

theorem payloadFrom_eq (cfg : Cfg) (src : Source) (n : Nat) (s : PayloadBuilder B) : s.payloadFrom cfg src n =
    if s.hasPayload then some (0, .err s.again)
    else (feed cfg src n 0 s.buffer).map fun (k, r) => (k, r >>= fun b => .ok (s.put (k - 1) b)) := by
  cases hp : s.hasPayload
  · rw [if_neg (by decide)]
    cases s with
    | ether s =>
      have hp : ¬ s.payload = true := fun h => by rw [show s.payload = false from hp] at h; cases h
      simp only [payloadFrom, EtherBuilder.payloadFrom, if_neg hp, buffer, put]
      rcases feed cfg src n 0 s.buffer with _ | ⟨k, _ | _ | _⟩ <;> rfl
    | v4 s =>
      have hp : ¬ s.payload = true := fun h => by rw [show s.payload = false from hp] at h; cases h
      simp only [payloadFrom, V4Builder.payloadFrom, if_neg hp, buffer, put]
      rcases feed cfg src n 0 s.buffer with _ | ⟨k, _ | _ | _⟩ <;> rfl
    | udp s =>
      have hp : ¬ s.payload = true := fun h => by rw [show s.payload = false from hp] at h; cases h
      simp only [payloadFrom, UdpBuilder.payloadFrom, if_neg hp, buffer, put]
      rcases feed cfg src n 0 s.buffer with _ | ⟨k, _ | _ | _⟩ <;> rfl
    | tcp s =>
      have hp : ¬ s.payload = true := fun h => by rw [show s.payload = false from hp] at h; cases h
      simp only [payloadFrom, TcpBuilder.payloadFrom, if_neg hp, buffer, put]
      rcases feed cfg src n 0 s.buffer with _ | ⟨k, _ | _ | _⟩ <;> rfl
    | echo s =>
      have hp : ¬ s.payload = true := fun h => by rw [show s.payload = false from hp] at h; cases h
      simp only [payloadFrom, EchoBuilder.payloadFrom, if_neg hp, buffer, put]
      rcases feed cfg src n 0 s.buffer with _ | ⟨k, _ | _ | _⟩ <;> rfl
  · rw [if_pos rfl]
    cases s with
    | ether s =>
      have hp : s.payload = true := hp
      simp only [payloadFrom, EtherBuilder.payloadFrom, if_pos hp, again]
      rfl
    | v4 s =>
      have hp : s.payload = true := hp
      simp only [payloadFrom, V4Builder.payloadFrom, if_pos hp, again]
      rfl
    | udp s =>
      have hp : s.payload = true := hp
      simp only [payloadFrom, UdpBuilder.payloadFrom, if_pos hp, again]
      rfl
    | tcp s =>
      have hp : s.payload = true := hp
      simp only [payloadFrom, TcpBuilder.payloadFrom, if_pos hp, again]
      rfl
    | echo s =>
      have hp : s.payload = true := hp
      simp only [payloadFrom, EchoBuilder.payloadFrom, if_pos hp, again]
      rfl

end PayloadBuilder

end

end Verif
