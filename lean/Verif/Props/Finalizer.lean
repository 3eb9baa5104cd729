import Verif.Model.Buffer
import Verif.Samples

/-!
# C41: the order in which finalizers run

A `Finalization` is built with `Default` (no finalizers), `add` and `extend`; the specification below
names a list of finalizers in the order in which they were added.
-/

namespace Verif.Props
open Verif

/-- Specification: executing `fs` from left to right starting with the bytes `b` ends with result `r` and
bytes `b'`; each finalizer sees the bytes its predecessor left, and the first failure ends the execution. -/
inductive Executes : List Finalizer → Bytes → Outcome Unit → Bytes → Prop where
  | done (b) : Executes [] b (.ok ()) b
  | step {f fs b b1 r b2} : f b = (.ok (), b1) → Executes fs b1 r b2 → Executes (f :: fs) b r b2
  | error {f fs b e b1} : f b = (.err e, b1) → Executes (f :: fs) b (.err e) b1
  | panic {f fs b b1} : f b = (.panic, b1) → Executes (f :: fs) b .panic b1

/-- The specification determines the outcome. -/
theorem Executes.functional {fs b r b'} (h : Executes fs b r b') :
    ∀ {r2 b2}, Executes fs b r2 b2 → r2 = r ∧ b2 = b' := by
  induction h with
  | done b => intro r2 b2 h; cases h; exact ⟨rfl, rfl⟩
  | step h1 _ ih =>
    intro r2 b2 h
    cases h with
    | step h3 h4 => rw [h1] at h3; cases h3; exact ih h4
    | error h3 => rw [h1] at h3; cases h3
    | panic h3 => rw [h1] at h3; cases h3
  | error h1 =>
    intro r2 b2 h
    cases h with
    | step h3 h4 => rw [h1] at h3; cases h3
    | error h3 => rw [h1] at h3; cases h3; exact ⟨rfl, rfl⟩
    | panic h3 => rw [h1] at h3; cases h3
  | panic h1 =>
    intro r2 b2 h
    cases h with
    | step h3 h4 => rw [h1] at h3; cases h3
    | error h3 => rw [h1] at h3; cases h3
    | panic h3 => rw [h1] at h3; cases h3; exact ⟨rfl, rfl⟩

theorem runAll_cons (f : Finalizer) (fs : List Finalizer) (b : Bytes) :
    Finalization.runAll (f :: fs) b = match f b with
      | (.ok _, s') => Finalization.runAll fs s'
      | (.err e, s') => (.err e, s')
      | (.panic, s') => (.panic, s') := by
  have h : Finalization.runAll (f :: fs) = (f >>= fun _ => Finalization.runAll fs) := rfl
  rw [h, Mut.bind_apply]
  cases f b with
  | mk o c => cases o <;> rfl

theorem executes_runAll (fs : List Finalizer) (b : Bytes) :
    Executes fs b (Finalization.runAll fs b).1 (Finalization.runAll fs b).2 := by
  induction fs generalizing b with
  | nil => exact .done b
  | cons f fs ih =>
    rw [runAll_cons]
    cases e : f b with
    | mk o b1 =>
      cases o with
      | ok u => exact .step (by rw [e]) (ih b1)
      | err e' => exact .error e
      | panic => exact .panic e

/-- C41: for the finalizers `fs` in the order they were added, `finalize` executes them from the last added
to the first added. -/
theorem C41_finalize_executes (fs : List Finalizer) (b : Bytes) :
    Executes fs.reverse b (Finalization.finalize (fs.foldl Finalization.add []) b).1
      (Finalization.finalize (fs.foldl Finalization.add []) b).2 := by
  have h : ∀ (fs acc : List Finalizer), fs.foldl Finalization.add acc = acc ++ fs := by
    intro fs
    induction fs with
    | nil => intro acc; simp
    | cons f fs ih => intro acc; simp [ih, Finalization.add]
  rw [h]
  exact executes_runAll _ b

/-- A finalizer that leaves a mark. -/
def mark (t : U8) : Finalizer := fun b => (.ok (), b ++ [t])

/-- C41, observed with finalizers that each append their own tag: every one runs exactly once, last added
first. -/
theorem C41_each_once_in_reverse (tags : List U8) (b : Bytes) :
    Finalization.finalize ((tags.map mark).foldl Finalization.add []) b = (.ok (), b ++ tags.reverse) := by
  have key : ∀ (ts : List U8) (b : Bytes), Executes (ts.map mark) b (.ok ()) (b ++ ts) := by
    intro ts
    induction ts with
    | nil => intro b; simpa using Executes.done b
    | cons t ts ih =>
      intro b
      refine .step (b1 := b ++ [t]) rfl ?_
      have := ih (b ++ [t])
      simpa using this
  have h1 := C41_finalize_executes (tags.map mark) b
  have h2 := key tags.reverse b
  rw [List.map_reverse] at h2
  obtain ⟨e1, e2⟩ := h2.functional h1
  rw [← e1, ← e2]

/-- C41, the first failing finalizer decides: it is reached with the bytes left by the ones added after it,
its error is returned, and nothing added before it runs (whatever that is). -/
theorem C41_first_error_stops (before after : List Finalizer) (f : Finalizer) (b b1 b2 : Bytes) (e : Error)
    (h1 : Finalization.finalize after b = (.ok (), b1)) (h2 : f b1 = (.err e, b2)) :
    Finalization.finalize (Finalization.extend (Finalization.add before f) after) b = (.err e, b2) := by
  have key : ∀ (fs gs : List Finalizer) (b b1 : Bytes), Finalization.runAll fs b = (.ok (), b1) →
      Finalization.runAll (fs ++ gs) b = Finalization.runAll gs b1 := by
    intro fs
    induction fs with
    | nil => intro gs b b1 h; cases h; rfl
    | cons g fs ih =>
      intro gs b b1 h
      rw [List.cons_append, runAll_cons]
      rw [runAll_cons] at h
      cases eg : g b with
      | mk o c =>
        rw [eg] at h
        cases o with
        | ok u => exact ih _ _ _ h
        | err e' => cases h
        | panic => cases h
  unfold Finalization.finalize Finalization.extend Finalization.add at *
  rw [List.reverse_append, List.reverse_append, key _ _ _ _ h1]
  rw [List.reverse_singleton, List.singleton_append, runAll_cons, h2]

/-- A concrete case that meets the hypotheses. -/
example := C41_first_error_stops [fun b => (.ok (), b)] [fun b => (.ok (), b.reverse)]
    (fun b => (.err .invalidPacket, b)) [1, 2] _ _ _ rfl rfl

/-- C41: `extend` appends in order, so the finalizers of the extension run first. -/
theorem C41_extend (fs gs : List Finalizer) :
    Finalization.extend (fs.foldl Finalization.add []) (gs.foldl Finalization.add []) =
      (fs ++ gs).foldl Finalization.add [] := by
  have h : ∀ (fs acc : List Finalizer), fs.foldl Finalization.add acc = acc ++ fs := by
    intro fs
    induction fs with
    | nil => intro acc; simp
    | cons f fs ih => intro acc; simp [ih, Finalization.add]
  simp [h, Finalization.extend]

example : Finalization.finalize ((Finalization.add (Finalization.add [] (mark 1)) (mark 2))) [9]
    = (.ok (), [9, 2, 1]) := by decide

example : (Finalization.finalize [mark 1, fun b => (.err .invalidValue, b ++ [7]), mark 2] [])
    = (.err .invalidValue, [2, 7]) := by decide

end Verif.Props
