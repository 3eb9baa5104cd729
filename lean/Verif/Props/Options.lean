import Verif.Model.Options
import Verif.Model.V4
import Verif.Model.Tcp
import Verif.Lemmas.Bits
import Verif.Spec.Options
import Verif.Samples

/-! # C29 - C33: option iteration -/

namespace Verif.Props
open Verif Spec

/-- `End` is one of the single-byte options. -/
structure LawfulKind (k : OptKind) : Prop where
  endSingle : ∀ x, k.isEnd x = true → k.isSingle x = true

theorem v4_lawful : LawfulKind v4OptKind :=
  ⟨fun x h => by simp only [v4OptKind] at *; rw [h]; rfl⟩
theorem tcp_lawful : LawfulKind tcpOptKind :=
  ⟨fun x h => by simp only [tcpOptKind] at *; rw [h]; rfl⟩

/-- The size in the release profile of an option with length byte 0 wraps to 0. -/
theorem opt_size {cfg : Cfg} {k : OptKind} {x l : U8} {r : Bytes} (hs : k.isSingle x = false) :
    Opt.size cfg k (x :: l :: r) =
      if l = 0#8 ∧ cfg.overflowChecks = true then .panic else .ok l.toNat := by
  have hl : Opt.length k (x :: l :: r) = .ok l := by
    simp [Opt.length, idx, hs]
  unfold Opt.size Opt.headerSize Opt.payloadSize
  rw [hl]
  simp only [Outcome.ok_bind]
  by_cases h1 : l = 1#8
  · subst h1
    rw [if_pos rfl, if_pos rfl, if_neg (by simp)]
    exact addUsize_ok (.inl (by decide))
  · rw [if_neg h1, if_neg h1]
    simp only [Outcome.ok_bind]
    by_cases h0 : l = 0#8
    · subst h0
      unfold subUsize addUsize Cfg.usizeMod
      cases cfg.overflowChecks <;> cases cfg.narrow <;> simp
    · rw [if_neg (by simp [h0])]
      have : 2 ≤ l.toNat := by
        have e0 : l.toNat ≠ 0 := fun h => h0 (BitVec.eq_of_toNat_eq h)
        have e1 : l.toNat ≠ 1 := fun h => h1 (BitVec.eq_of_toNat_eq h)
        omega
      have hlt := l.isLt
      rw [subUsize_ok this, Outcome.ok_bind, addUsize_ok (by omega)]
      congr 1
      omega

/-- One call of `next()`, on every state. -/
theorem next_cases (cfg : Cfg) {k : OptKind} (lawful : LawfulKind k) (b : Bytes) :
    (b = [] ∧ Opt.next cfg k b = (.ok none, b)) ∨
    (∃ x r, b = x :: r ∧ k.isEnd x = true ∧ Opt.next cfg k b = (.ok none, b)) ∨
    (∃ x r, b = x :: r ∧ k.isSingle x = true ∧ k.isEnd x = false ∧
      Opt.next cfg k b = (.ok (some (.ok b)), r) ∧ Opt.length k b = .ok 1#8 ∧ Opt.asRef cfg k b = .ok [x]) ∨
    (∃ x, b = [x] ∧ k.isSingle x = false ∧ Opt.next cfg k b = (.panic, b)) ∨
    (∃ x l r, b = x :: l :: r ∧ k.isSingle x = false ∧ b.length < l.toNat ∧
      Opt.next cfg k b = (.ok (some (.error .smallBuffer)), b)) ∨
    (∃ x l r, b = x :: l :: r ∧ k.isSingle x = false ∧ l = 0#8 ∧ cfg.overflowChecks = true ∧
      Opt.next cfg k b = (.panic, b)) ∨
    (∃ x l r, b = x :: l :: r ∧ k.isSingle x = false ∧ l.toNat ≤ b.length ∧
      (l = 0#8 → cfg.overflowChecks = false) ∧
      Opt.next cfg k b = (.ok (some (.ok b)), b.drop l.toNat) ∧ Opt.length k b = .ok l ∧
      Opt.asRef cfg k b = .ok (b.take l.toNat)) := by
  match b with
  | [] => exact Or.inl ⟨rfl, rfl⟩
  | x :: r =>
    right
    cases hs : k.isSingle x with
    | true =>
      have hlen : Opt.length k (x :: r) = .ok 1#8 := by simp [Opt.length, idx, hs]
      have hnew : Opt.new k (x :: r) = .ok (x :: r) := by
        unfold Opt.new Opt.headerMin
        rw [if_neg (by simp), hlen, Outcome.ok_bind, if_neg (by simp)]
      have hsize : Opt.size cfg k (x :: r) = .ok 1 := by
        unfold Opt.size Opt.headerSize Opt.payloadSize
        rw [hlen]; exact addUsize_ok (.inl (by decide))
      cases he : k.isEnd x with
      | true =>
        left
        refine ⟨x, r, rfl, he, ?_⟩
        simp [Opt.next, hnew, idx, he]
      | false =>
        right; left
        refine ⟨x, r, rfl, hs, he, ?_, hlen, ?_⟩
        · simp [Opt.next, hnew, idx, he, hsize, sliceFrom]
        · simp [Opt.asRef, hsize, sliceTo]
    | false =>
      have he : k.isEnd x = false := by
        cases he : k.isEnd x with
        | false => rfl
        | true => rw [lawful.endSingle x he] at hs; cases hs
      right; right
      match r with
      | [] =>
        left
        refine ⟨x, rfl, hs, ?_⟩
        simp [Opt.next, Opt.new, Opt.headerMin, Opt.length, idx, hs]
      | l :: r =>
        right
        have hlen : Opt.length k (x :: l :: r) = .ok l := by simp [Opt.length, idx, hs]
        have hnew : Opt.new k (x :: l :: r) =
            if (x :: l :: r).length < l.toNat then .err .smallBuffer else .ok (x :: l :: r) := by
          unfold Opt.new Opt.headerMin
          rw [if_neg (by simp), hlen, Outcome.ok_bind]
        by_cases hshort : (x :: l :: r).length < l.toNat
        · left
          refine ⟨x, l, r, rfl, hs, hshort, ?_⟩
          rw [if_pos hshort] at hnew
          simp [Opt.next, hnew]
        · right
          rw [if_neg hshort] at hnew
          have hle : l.toNat ≤ (x :: l :: r).length := by omega
          by_cases hz : l = 0#8 ∧ cfg.overflowChecks = true
          · left
            have hsize := opt_size (cfg := cfg) (l := l) (r := r) hs
            rw [if_pos hz] at hsize
            refine ⟨x, l, r, rfl, hs, hz.1, hz.2, ?_⟩
            simp [Opt.next, hnew, idx, he, hsize]
          · right
            have hsize := opt_size (cfg := cfg) (l := l) (r := r) hs
            rw [if_neg hz] at hsize
            refine ⟨x, l, r, rfl, hs, hle, ?_, ?_, hlen, ?_⟩
            · intro h0
              cases hc : cfg.overflowChecks with
              | false => rfl
              | true => exact absurd ⟨h0, hc⟩ hz
            · have hsl := sliceFrom_ok hle
              simp only [Opt.next, hnew, List.isEmpty_cons, Bool.false_eq_true, if_false, hsize, hsl]
              simp [idx, he]
            · unfold Opt.asRef
              rw [hsize, Outcome.ok_bind, sliceTo_ok hle]

theorem take_succ (cfg : Cfg) (k : OptKind) (n : Nat) (b : Bytes) :
    Opt.take cfg k (n + 1) b = match Opt.next cfg k b with
    | (.ok none, b') => (.ok [], b')
    | (.ok (some item), b') =>
      match Opt.take cfg k n b' with
      | (.ok items, b'') => (.ok (item :: items), b'')
      | (.err e, b'') => (.err e, b'')
      | (.panic, b'') => (.panic, b'')
    | (.err e, b') => (.err e, b')
    | (.panic, b') => (.panic, b') := rfl

/-! ## C29, C30 -/

/-- The yielded option `o` shows the encoded option `w`: its bytes, its length, and its data as payload.
For NoOperation `payload()` is not described here: it is not empty in general (see the refutation). -/
def Shows (cfg : Cfg) (k : OptKind) (w : WireOption) (o : Bytes) : Prop :=
  idx o 0 = .ok w.kind ∧ Opt.asRef cfg k o = .ok w.encode ∧
  Opt.length k o = .ok (BitVec.ofNat 8 w.size) ∧
  (∀ kind data, w = .tlv kind data → Opt.payload k o = .ok data ∧ Opt.header k o = .ok [kind, BitVec.ofNat 8 (data.length + 2)])

theorem take_encoded (cfg : Cfg) {k : OptKind} (lawful : LawfulKind k) (h0 : k.isEnd 0#8 = true)
    (h1 : k.isSingle 1#8 = true) (h1' : k.isEnd 1#8 = false) (tail : Bytes) (ht : IsOptionTail tail) :
    ∀ (opts : List WireOption), (∀ o ∈ opts, ∀ kind data, o = .tlv kind data →
      k.isSingle kind = false ∧ data.length + 2 < 256) → ∀ m,
    ∃ os : List Bytes, Opt.take cfg k (opts.length + 1 + m) (encodeOptions opts ++ tail)
      = (.ok (os.map .ok), tail) ∧ os.length = opts.length ∧
      ∀ (i : Nat) w o, opts[i]? = some w → os[i]? = some o → Shows cfg k w o := by
  intro opts
  induction opts with
  | nil =>
    intro _ m
    refine ⟨[], ?_, rfl, fun i w o h => by simp at h⟩
    have : Opt.next cfg k tail = (.ok none, tail) := by
      rcases ht with rfl | ⟨pad, rfl⟩
      · rfl
      · have hs := lawful.endSingle _ h0
        simp [Opt.next, Opt.new, Opt.headerMin, Opt.length, idx, hs, h0]
    show Opt.take cfg k (0 + 1 + m) ([] ++ tail) = _
    rw [show 0 + 1 + m = m + 1 by omega, List.nil_append, take_succ, this]
    rfl
  | cons w opts ih =>
    intro hlegal m
    obtain ⟨os, e1, e2, e3⟩ := ih (fun o ho => hlegal o (by simp [ho])) m
    have hb : encodeOptions (w :: opts) ++ tail = w.encode ++ (encodeOptions opts ++ tail) := by
      simp [encodeOptions]
    have hshow : Opt.next cfg k (w.encode ++ (encodeOptions opts ++ tail))
        = (.ok (some (.ok (w.encode ++ (encodeOptions opts ++ tail)))), encodeOptions opts ++ tail) ∧
        Shows cfg k w (w.encode ++ (encodeOptions opts ++ tail)) := by
      generalize hR : encodeOptions opts ++ tail = R
      cases w with
      | nop =>
        have hlen : Opt.length k (1#8 :: R) = .ok 1#8 := by simp [Opt.length, idx, h1]
        have hsize : Opt.size cfg k (1#8 :: R) = .ok 1 := by
          unfold Opt.size Opt.headerSize Opt.payloadSize; rw [hlen]; exact addUsize_ok (.inl (by decide))
        refine ⟨?_, rfl, ?_, hlen, fun _ _ h => by cases h⟩
        · simp only [WireOption.encode, List.singleton_append, Opt.next, List.isEmpty_cons,
            Bool.false_eq_true, if_false, Opt.new, Opt.headerMin, hlen, Outcome.ok_bind]
          simp [idx, h1', hsize, sliceFrom]
        · simp [WireOption.encode, Opt.asRef, hsize, sliceTo]
      | tlv kind data =>
        obtain ⟨hk, hd⟩ := hlegal (.tlv kind data) (by simp) kind data rfl
        have he : k.isEnd kind = false := by
          cases he : k.isEnd kind with
          | false => rfl
          | true => rw [lawful.endSingle _ he] at hk; cases hk
        have hl : (BitVec.ofNat 8 (data.length + 2)).toNat = data.length + 2 := by
          simp; omega
        have hne0 : BitVec.ofNat 8 (data.length + 2) ≠ 0#8 := by
          intro h; rw [h] at hl; simp at hl
        have hne1 : BitVec.ofNat 8 (data.length + 2) ≠ 1#8 := by
          intro h; rw [h] at hl; simp at hl
        have hsize := opt_size (cfg := cfg) (l := BitVec.ofNat 8 (data.length + 2)) (r := data ++ R) hk
        rw [if_neg (by simp [hne0]), hl] at hsize
        have hlen : Opt.length k (kind :: BitVec.ofNat 8 (data.length + 2) :: (data ++ R))
            = .ok (BitVec.ofNat 8 (data.length + 2)) := by
          simp [Opt.length, idx, hk]
        have hbl : data.length + 2 ≤ (kind :: BitVec.ofNat 8 (data.length + 2) :: (data ++ R)).length := by
          simp
        have hnew : Opt.new k (kind :: BitVec.ofNat 8 (data.length + 2) :: (data ++ R))
            = .ok (kind :: BitVec.ofNat 8 (data.length + 2) :: (data ++ R)) := by
          unfold Opt.new Opt.headerMin
          rw [if_neg (by simp), hlen, Outcome.ok_bind, hl, if_neg (by omega)]
        have hsplit : Opt.split k (kind :: BitVec.ofNat 8 (data.length + 2) :: (data ++ R))
            = .ok ([kind, BitVec.ofNat 8 (data.length + 2)], data) := by
          unfold Opt.split
          rw [hlen, Outcome.ok_bind, if_neg hne1, hl, sliceTo_ok hbl, Outcome.ok_bind, splitAt_ok (by simp)]
          simp
        refine ⟨?_, rfl, ?_, ?_, ?_⟩
        · have hsl := sliceFrom_ok hbl
          simp only [WireOption.encode, List.cons_append, Opt.next, hnew, List.isEmpty_cons,
            Bool.false_eq_true, if_false, hsize, hsl]
          simp [idx, he]
        · simp only [WireOption.encode, List.cons_append, Opt.asRef, hsize, Outcome.ok_bind]
          rw [sliceTo_ok hbl]
          simp
        · simpa [WireOption.encode, WireOption.size] using hlen
        · intro kind' data' h
          cases h
          simp only [WireOption.encode, List.cons_append, Opt.payload, Opt.header, hsplit, Outcome.ok_bind]
          exact ⟨trivial, trivial⟩
    refine ⟨(w.encode ++ (encodeOptions opts ++ tail)) :: os, ?_, by simp [e2], ?_⟩
    · rw [hb, show (w :: opts).length + 1 + m = (opts.length + 1 + m) + 1 by simp; omega, take_succ,
        hshow.1]
      simp only [e1]
      rfl
    · intro i w' o h1 h2
      cases i with
      | zero =>
        simp only [List.getElem?_cons_zero, Option.some.injEq] at h1 h2
        subst h1; subst h2; exact hshow.2
      | succ i =>
        simp only [List.getElem?_cons_succ] at h1 h2
        exact e3 i w' o h1 h2

/-- C29: an option area that is the encoding of a list of TCP options yields exactly these options in
order, each with its bytes, number, length and (for kind/length/data options) data, and then ends, however
often `next()` is called. Not part of this claim: the payload of NoOperation (see `C70_nop_payload_refuted`). -/
theorem C29_tcp_options (cfg : Cfg) (opts : List WireOption) (hopts : ∀ o ∈ opts, o.LegalTcp)
    (tail : Bytes) (ht : IsOptionTail tail) (m : Nat) :
    ∃ os : List Bytes, Opt.take cfg tcpOptKind (opts.length + 1 + m) (encodeOptions opts ++ tail)
      = (.ok (os.map .ok), tail) ∧ os.length = opts.length ∧
      ∀ (i : Nat) w o, opts[i]? = some w → os[i]? = some o →
        Shows cfg tcpOptKind w o ∧ TcpOpt.number o = .ok (TcpOptNumber.ofWire w.kind) := by
  have single : ∀ x : U8, tcpOptKind.isSingle x = false ↔ (x ≠ 0#8 ∧ x ≠ 1#8) := by decide
  obtain ⟨os, e1, e2, e3⟩ := take_encoded cfg tcp_lawful (by decide) (by decide) (by decide) tail ht opts
    (fun o ho kind data hw => by
      have := hopts o ho
      subst hw
      exact ⟨(single kind).2 ⟨this.1, this.2.1⟩, this.2.2⟩) m
  refine ⟨os, e1, e2, fun i w o h1 h2 => ?_⟩
  have := e3 i w o h1 h2
  refine ⟨this, ?_⟩
  unfold TcpOpt.number
  rw [this.1]; rfl

/-- A concrete case that meets the hypotheses. -/
example (cfg : Cfg) := C29_tcp_options cfg [.tlv 2 [5, 180], .nop] (by simp [WireOption.LegalTcp]) [0, 0]
    (.inr ⟨[0], rfl⟩)

/-- C30: the same for IPv4; moreover copied flag, class and number are the bits of the first byte. -/
theorem C30_v4_options (cfg : Cfg) (opts : List WireOption) (hopts : ∀ o ∈ opts, o.LegalV4)
    (tail : Bytes) (ht : IsOptionTail tail) (m : Nat) :
    ∃ os : List Bytes, Opt.take cfg v4OptKind (opts.length + 1 + m) (encodeOptions opts ++ tail)
      = (.ok (os.map .ok), tail) ∧ os.length = opts.length ∧
      ∀ (i : Nat) w o, opts[i]? = some w → os[i]? = some o →
        Shows cfg v4OptKind w o ∧
        V4Opt.isCopied o = .ok (decide (w.kind.toNat / 128 = 1)) ∧
        (∃ c, V4Opt.class_ o = .ok c ∧ c.toWire = BitVec.ofNat 8 (w.kind.toNat / 32 % 4)) ∧
        V4Opt.number o = .ok (V4OptNumber.ofWire (BitVec.ofNat 8 (w.kind.toNat % 32))) := by
  have single : ∀ x : U8, v4OptKind.isSingle x = false ↔ (x.toNat % 32 ≠ 0 ∧ x.toNat % 32 ≠ 1) := by decide
  obtain ⟨os, e1, e2, e3⟩ := take_encoded cfg v4_lawful (by decide) (by decide) (by decide) tail ht opts
    (fun o ho kind data hw => by
      have := hopts o ho
      subst hw
      exact ⟨(single kind).2 ⟨this.1, this.2.1⟩, this.2.2⟩) m
  refine ⟨os, e1, e2, fun i w o h1 h2 => ?_⟩
  have := e3 i w o h1 h2
  refine ⟨this, ?_, ?_, ?_⟩
  · unfold V4Opt.isCopied
    rw [this.1, Outcome.ok_bind]
    have : ∀ x : U8, (x >>> 7 == 1#8) = decide (x.toNat / 128 = 1) := by decide
    rw [this]
  · unfold V4Opt.class_
    rw [this.1, Outcome.ok_bind]
    have hv : ∀ x : U8, (x >>> 5) &&& 0b011#8 = BitVec.ofNat 8 (x.toNat / 32 % 4) := by decide
    rw [← hv]
    dsimp only
    generalize (w.kind >>> 5) &&& 0b011#8 = v
    split
    · next h => exact ⟨_, rfl, h ▸ rfl⟩
    · split
      · next h => exact ⟨_, rfl, h ▸ rfl⟩
      · exact ⟨_, rfl, rfl⟩
  · unfold V4Opt.number
    rw [this.1, Outcome.ok_bind]
    have : ∀ x : U8, x &&& 0b11111#8 = BitVec.ofNat 8 (x.toNat % 32) := by decide
    rw [this]

/-- A concrete area: MSS 1460, NoOperation, window scale 7, End, padding. -/
example : encodeOptions [.tlv 2 [5, 0xb4], .nop, .tlv 3 [7]] ++ [0, 0] = [2, 4, 5, 0xb4, 1, 3, 3, 7, 0, 0] ∧
    (∀ o ∈ [WireOption.tlv 2 [5, 0xb4], .nop, .tlv 3 [7]], o.LegalTcp) ∧ IsOptionTail [0, 0] := by
  refine ⟨rfl, ?_, Or.inr ⟨[0], rfl⟩⟩
  intro o ho
  simp only [List.mem_cons, List.not_mem_nil, or_false] at ho
  rcases ho with rfl | rfl | rfl <;> simp [WireOption.LegalTcp]

/-- C70 is false of the code for the payload of NoOperation: it is the rest of the area. -/
theorem C70_nop_payload_refuted (cfg : Cfg) (r : Bytes) :
    Opt.next cfg tcpOptKind (1#8 :: r) = (.ok (some (.ok (1#8 :: r))), r) ∧
    Opt.payload tcpOptKind (1#8 :: r) = .ok r ∧
    Opt.next cfg v4OptKind (1#8 :: r) = (.ok (some (.ok (1#8 :: r))), r) ∧
    Opt.payload v4OptKind (1#8 :: r) = .ok r := by
  have h1 : tcpOptKind.isSingle 1#8 = true := by decide
  have h2 : v4OptKind.isSingle 1#8 = true := by decide
  have h3 : tcpOptKind.isEnd 1#8 = false := by decide
  have h4 : v4OptKind.isEnd 1#8 = false := by decide
  have e : ∀ k : OptKind, LawfulKind k → k.isSingle 1#8 = true → k.isEnd 1#8 = false →
      Opt.next cfg k (1#8 :: r) = (.ok (some (.ok (1#8 :: r))), r) ∧
      Opt.payload k (1#8 :: r) = .ok r := by
    intro k lk hs he
    constructor
    · rcases next_cases cfg lk (1#8 :: r) with h | ⟨x, r', h, h', -⟩ | ⟨x, r', h, -, -, h', -⟩ |
        ⟨x, h, h', -⟩ | ⟨x, l, r', h, h', -⟩ | ⟨x, l, r', h, h', -⟩ | ⟨x, l, r', h, h', -⟩
      · cases h.1
      · cases h; rw [he] at h'; cases h'
      · cases h; exact h'
      · cases h; rw [hs] at h'; cases h'
      · cases h; rw [hs] at h'; cases h'
      · cases h; rw [hs] at h'; cases h'
      · cases h; rw [hs] at h'; cases h'
    · simp [Opt.payload, Opt.split, Opt.length, idx, hs, splitAt]
  exact ⟨(e _ tcp_lawful h1 h3).1, (e _ tcp_lawful h1 h3).2, (e _ v4_lawful h2 h4).1, (e _ v4_lawful h2 h4).2⟩

/-! ## C33: the options tile the area -/

/-- The general form: the buffers `os` of the options yielded as `Ok`, and the bytes `segs` they cover. -/
theorem take_tiles (cfg : Cfg) {k : OptKind} (lawful : LawfulKind k) : ∀ (n : Nat) (b : Bytes) items rest,
    Opt.take cfg k n b = (.ok items, rest) →
    ∃ (os segs : List Bytes) (errs : Nat), items = os.map .ok ++ List.replicate errs (.error .smallBuffer) ∧
      os.length = segs.length ∧ segs.flatten ++ rest = b ∧
      (∀ (i : Nat) o s, os[i]? = some o → segs[i]? = some s →
        o = b.drop (segs.take i).flatten.length ∧ Opt.asRef cfg k o = .ok s ∧ Opt.length k o = .ok (BitVec.ofNat 8 s.length)) ∧
      (cfg.overflowChecks = true → ∀ s ∈ segs, s ≠ []) := by
  intro n
  induction n with
  | zero =>
    intro b items rest h
    cases h
    exact ⟨[], [], 0, rfl, rfl, rfl, fun i o s h => by simp at h, fun _ _ h => by simp at h⟩
  | succ n ih =>
    intro b items rest h
    rw [take_succ] at h
    have okStep : ∀ (o seg r : Bytes), o = b → seg ++ r = b → Opt.next cfg k b = (.ok (some (.ok o)), r) →
        Opt.asRef cfg k o = .ok seg → Opt.length k o = .ok (BitVec.ofNat 8 seg.length) →
        (cfg.overflowChecks = true → seg ≠ []) →
        ∃ (os segs : List Bytes) (errs : Nat), items = os.map .ok ++ List.replicate errs (.error .smallBuffer) ∧
          os.length = segs.length ∧ segs.flatten ++ rest = b ∧
          (∀ (i : Nat) o s, os[i]? = some o → segs[i]? = some s →
            o = b.drop (segs.take i).flatten.length ∧ Opt.asRef cfg k o = .ok s ∧
              Opt.length k o = .ok (BitVec.ofNat 8 s.length)) ∧
          (cfg.overflowChecks = true → ∀ s ∈ segs, s ≠ []) := by
      intro o seg r ho hseg hn ha hlen hne
      rw [hn] at h
      simp only at h
      cases ht : Opt.take cfg k n r with
      | mk out r' =>
        rw [ht] at h
        cases out with
        | err e => cases h
        | panic => cases h
        | ok its =>
          cases h
          obtain ⟨os, segs, errs, e1, e2, e3, e4, e5⟩ := ih r its rest ht
          refine ⟨o :: os, seg :: segs, errs, by rw [e1]; rfl, by simp [e2], ?_, ?_, ?_⟩
          · rw [List.flatten_cons, List.append_assoc, e3, hseg]
          · intro i o' s' h1 h2
            cases i with
            | zero =>
              simp only [List.getElem?_cons_zero, Option.some.injEq] at h1 h2
              subst h1; subst h2
              exact ⟨by rw [ho]; rfl, ha, hlen⟩
            | succ i =>
              simp only [List.getElem?_cons_succ] at h1 h2
              obtain ⟨f1, f2, f3⟩ := e4 i o' s' h1 h2
              refine ⟨?_, f2, f3⟩
              rw [f1, List.take_succ_cons, List.flatten_cons, List.length_append, ← hseg,
                ← List.drop_drop, List.drop_left]
          · intro hc s hs
            rcases List.mem_cons.1 hs with rfl | hs
            · exact hne hc
            · exact e5 hc s hs
    rcases next_cases cfg lawful b with ⟨-, hn⟩ | ⟨x, r, -, -, hn⟩ | ⟨x, r, hb, -, -, hn, hl, ha⟩ |
        ⟨x, -, -, hn⟩ | ⟨x, l, r, -, -, -, hn⟩ | ⟨x, l, r, -, -, -, -, hn⟩ |
        ⟨x, l, r, hb, -, hle, hz, hn, hl, ha⟩
    · rw [hn] at h; cases h
      exact ⟨[], [], 0, rfl, rfl, rfl, fun i o s h => by simp at h, fun _ _ h => by simp at h⟩
    · rw [hn] at h; cases h
      exact ⟨[], [], 0, rfl, rfl, rfl, fun i o s h => by simp at h, fun _ _ h => by simp at h⟩
    · exact okStep b [x] r rfl (by rw [hb]; rfl) hn ha hl (fun _ => by simp)
    · rw [hn] at h; cases h
    · rw [hn] at h
      have : ∀ n, Opt.take cfg k n b = (.ok (List.replicate n (.error .smallBuffer)), b) := by
        intro n
        induction n with
        | zero => rfl
        | succ n ihn => rw [take_succ, hn]; simp only [ihn]; rfl
      simp only [this n] at h
      cases h
      exact ⟨[], [], n + 1, rfl, rfl, rfl, fun i o s h => by simp at h, fun _ _ h => by simp at h⟩
    · rw [hn] at h; cases h
    · have hlen : (b.take l.toNat).length = l.toNat := by rw [List.length_take]; omega
      refine okStep b (b.take l.toNat) (b.drop l.toNat) rfl (List.take_append_drop _ _) hn ha
        (by rw [hlen, hl]; simp) ?_
      intro hc hnil
      rw [hnil] at hlen
      have : l = 0#8 := BitVec.eq_of_toNat_eq (by simpa using hlen.symm)
      rw [hz this] at hc; cases hc

/-- C33: whatever the area contains and however many items are taken, the options yielded as `Ok` are
consecutive pieces of the area that start at its beginning: option `i` is the buffer from the end of the
pieces before it, `as_ref()` is its piece, whose length is `length()`, and the pieces followed by what the
iterator has left are the area. Errors come only after all `Ok`s. -/
theorem C33_options_tile (cfg : Cfg) (n : Nat) (b : Bytes) (items : List (Except Error Bytes)) (rest : Bytes) :
    (Opt.take cfg tcpOptKind n b = (.ok items, rest) →
      ∃ (os segs : List Bytes) (errs : Nat),
        items = os.map .ok ++ List.replicate errs (.error .smallBuffer) ∧
        os.length = segs.length ∧ segs.flatten ++ rest = b ∧
        ∀ (i : Nat) o s, os[i]? = some o → segs[i]? = some s → o = b.drop (segs.take i).flatten.length ∧
          Opt.asRef cfg tcpOptKind o = .ok s ∧ Opt.length tcpOptKind o = .ok (BitVec.ofNat 8 s.length)) ∧
    (Opt.take cfg v4OptKind n b = (.ok items, rest) →
      ∃ (os segs : List Bytes) (errs : Nat),
        items = os.map .ok ++ List.replicate errs (.error .smallBuffer) ∧
        os.length = segs.length ∧ segs.flatten ++ rest = b ∧
        ∀ (i : Nat) o s, os[i]? = some o → segs[i]? = some s → o = b.drop (segs.take i).flatten.length ∧
          Opt.asRef cfg v4OptKind o = .ok s ∧ Opt.length v4OptKind o = .ok (BitVec.ofNat 8 s.length)) := by
  constructor
  · intro h
    obtain ⟨os, segs, errs, e1, e2, e3, e4, -⟩ := take_tiles cfg tcp_lawful n b items rest h
    exact ⟨os, segs, errs, e1, e2, e3, e4⟩
  · intro h
    obtain ⟨os, segs, errs, e1, e2, e3, e4, -⟩ := take_tiles cfg v4_lawful n b items rest h
    exact ⟨os, segs, errs, e1, e2, e3, e4⟩

example (cfg : Cfg) : Opt.take cfg tcpOptKind 3 [2, 4, 5, 0xb4, 1, 3, 3, 7] =
    (.ok [.ok [2, 4, 5, 0xb4, 1, 3, 3, 7], .ok [1, 3, 3, 7], .ok [3, 3, 7]], []) := by
  cases cfg with | mk a b c => cases a <;> cases b <;> cases c <;> rfl

/-! ## C31: termination -/

/-- C73: in a build with overflow checks, iteration yields at most as many `Ok`
options as the area has bytes before it ends, reports an error or panics. So a loop that leaves at the
first error ends. -/
theorem C73_options_terminate (ea nw : Bool) (n : Nat) (b : Bytes) (k : OptKind)
    (hk : k = tcpOptKind ∨ k = v4OptKind) (items : List (Except Error Bytes)) (rest : Bytes)
    (h : Opt.take ⟨true, ea, nw⟩ k n b = (.ok items, rest)) :
    (items.filter fun | .ok _ => true | .error _ => false).length ≤ b.length := by
  have lawful : LawfulKind k := by
    rcases hk with rfl | rfl
    · exact tcp_lawful
    · exact v4_lawful
  obtain ⟨os, segs, errs, e1, e2, e3, -, e5⟩ := take_tiles _ lawful n b items rest h
  have hf : (items.filter fun | .ok _ => true | .error _ => false).length = os.length := by
    rw [e1, List.filter_append, List.length_append]
    have a1 : ∀ l : List Bytes, ((l.map Except.ok).filter
        fun | (.ok _ : Except Error Bytes) => true | .error _ => false).length = l.length := by
      intro l; induction l with
      | nil => rfl
      | cons a l ih => simpa using ih
    have a2 : ∀ m, ((List.replicate m (.error .smallBuffer)).filter
        fun | (.ok _ : Except Error Bytes) => true | .error _ => false).length = 0 := by
      intro m; induction m with
      | zero => rfl
      | succ m ih => simpa [List.replicate_succ] using ih
    rw [a1, a2]; rfl
  have hlen : ∀ l : List Bytes, (∀ s ∈ l, s ≠ []) → l.length ≤ l.flatten.length := by
    intro l
    induction l with
    | nil => intro _; simp
    | cons a l ih =>
      intro h
      have := ih (fun s hs => h s (by simp [hs]))
      have ha := List.length_pos_iff.2 (h a (by simp))
      simp only [List.length_cons, List.flatten_cons, List.length_append]; omega
  have := hlen segs (e5 rfl)
  have := congrArg List.length e3
  rw [List.length_append] at this
  omega

/-- A concrete case that meets the hypotheses. -/
example (ea nw : Bool) := C73_options_terminate ea nw 9 [1, 2, 4, 5, 180] tcpOptKind (.inl rfl)
    [.ok [1, 2, 4, 5, 180], .ok [2, 4, 5, 180]] [] (by cases ea <;> cases nw <;> rfl)

/-- C73: an error never goes away: the iterator does not advance, so iteration that does not stop at the
first error never ends. -/
theorem C73_error_forever (cfg : Cfg) (b b' : Bytes) (k : OptKind) (hk : k = tcpOptKind ∨ k = v4OptKind)
    (e : Error) (h : Opt.next cfg k b = (.ok (some (.error e)), b')) :
    b' = b ∧ ∀ n, Opt.take cfg k n b = (.ok (List.replicate n (.error e)), b) := by
  have lawful : LawfulKind k := by
    rcases hk with rfl | rfl
    · exact tcp_lawful
    · exact v4_lawful
  have hb : b' = b := by
    rcases next_cases cfg lawful b with ⟨-, hn⟩ | ⟨x, r, -, -, hn⟩ | ⟨x, r, hb, -, -, hn, hl, ha⟩ |
        ⟨x, -, -, hn⟩ | ⟨x, l, r, -, -, -, hn⟩ | ⟨x, l, r, -, -, -, -, hn⟩ |
        ⟨x, l, r, hb, -, hle, hz, hn, hl, ha⟩ <;> rw [hn] at h <;> cases h
    rfl
  refine ⟨hb, ?_⟩
  subst hb
  intro n
  induction n with
  | zero => rfl
  | succ n ih => rw [take_succ, h]; simp only [ih]; rfl

/-- A concrete case that meets the hypotheses. -/
example (cfg : Cfg) := C73_error_forever cfg [2, 9, 5] _ tcpOptKind (.inl rfl) _
    (by obtain ⟨_ | _, _ | _, _ | _⟩ := cfg <;> rfl)

/-- C31 is false of the code: a truncated option gives an endless stream of errors, in every build. -/
theorem C31_error_stream_refuted (cfg : Cfg) : ∃ b : Bytes,
    ∀ n, Opt.take cfg tcpOptKind n b = (.ok (List.replicate n (.error .smallBuffer)), b) ∧
      Opt.take cfg v4OptKind n b = (.ok (List.replicate n (.error .smallBuffer)), b) := by
  refine ⟨[2, 4], fun n => ⟨(C73_error_forever cfg [2, 4] [2, 4] _ (Or.inl rfl) _ ?_).2 n,
    (C73_error_forever cfg [2, 4] [2, 4] _ (Or.inr rfl) _ ?_).2 n⟩⟩ <;> rfl

/-- C31 is false of the code: in a release build an option with length byte 0 is yielded forever. -/
theorem C31_zero_length_refuted (ea nw : Bool) (r : Bytes) (x : U8) (hx : tcpOptKind.isSingle x = false) (n : Nat) :
    Opt.take ⟨false, ea, nw⟩ tcpOptKind n (x :: 0#8 :: r) =
      (.ok (List.replicate n (.ok (x :: 0#8 :: r))), x :: 0#8 :: r) := by
  have hn : Opt.next ⟨false, ea, nw⟩ tcpOptKind (x :: 0#8 :: r) = (.ok (some (.ok (x :: 0#8 :: r))), x :: 0#8 :: r) := by
    rcases next_cases ⟨false, ea, nw⟩ tcp_lawful (x :: 0#8 :: r) with h | ⟨y, r', h, h', -⟩ |
        ⟨y, r', h, h', -⟩ | ⟨y, h, h', -⟩ | ⟨y, l, r', h, -, h', -⟩ | ⟨y, l, r', h, -, -, h', -⟩ |
        ⟨y, l, r', h, -, -, -, h', -⟩
    · cases h.1
    · cases h; rw [tcp_lawful.endSingle _ h'] at hx; cases hx
    · cases h; rw [hx] at h'; cases h'
    · cases h
    · cases h; simp at h'
    · cases h'
    · cases h; simpa using h'
  induction n with
  | zero => rfl
  | succ n ih => rw [take_succ, hn]; simp only [ih]; rfl

example : tcpOptKind.isSingle 8#8 = false := by decide

/-! ## C32: panics -/

/-- C73, exactly when `next()` panics: on a lone last byte that is not End/NoOperation, and, with overflow
checks, on a length byte of 0. -/
theorem C73_next_panics_iff (cfg : Cfg) (b : Bytes) (k : OptKind) (hk : k = tcpOptKind ∨ k = v4OptKind) :
    (Opt.next cfg k b).1 = .panic ↔ ∃ x, k.isSingle x = false ∧
      (b = [x] ∨ (cfg.overflowChecks = true ∧ ∃ r, b = x :: 0#8 :: r)) := by
  have lawful : LawfulKind k := by
    rcases hk with rfl | rfl
    · exact tcp_lawful
    · exact v4_lawful
  have single_of_end := lawful.endSingle
  rcases next_cases cfg lawful b with ⟨hb, hn⟩ | ⟨x, r, hb, hx, hn⟩ | ⟨x, r, hb, hx, -, hn, -, -⟩ |
      ⟨x, hb, hx, hn⟩ | ⟨x, l, r, hb, hx, hlt, hn⟩ | ⟨x, l, r, hb, hx, h0, hc, hn⟩ |
      ⟨x, l, r, hb, hx, hle, hz, hn, -, -⟩ <;> rw [hn]
  · subst hb
    exact ⟨(fun h => by cases h), fun ⟨x, _, h⟩ => by rcases h with h | ⟨-, r, h⟩ <;> cases h⟩
  · subst hb
    refine ⟨(fun h => by cases h), fun ⟨y, hy, h⟩ => ?_⟩
    rcases h with h | ⟨-, r', h⟩ <;> cases h <;> rw [single_of_end _ hx] at hy <;> cases hy
  · subst hb
    refine ⟨(fun h => by cases h), fun ⟨y, hy, h⟩ => ?_⟩
    rcases h with h | ⟨-, r', h⟩ <;> cases h <;> rw [hx] at hy <;> cases hy
  · exact ⟨fun _ => ⟨x, hx, Or.inl hb⟩, fun _ => rfl⟩
  · subst hb
    refine ⟨fun h => (by cases h), fun ⟨y, hy, h⟩ => ?_⟩
    rcases h with h | ⟨-, r', h⟩
    · cases h
    · cases h; simp at hlt
  · exact ⟨fun _ => ⟨x, hx, Or.inr ⟨hc, r, by rw [hb, h0]⟩⟩, fun _ => rfl⟩
  · subst hb
    refine ⟨fun h => (by cases h), fun ⟨y, hy, h⟩ => ?_⟩
    rcases h with h | ⟨hc, r', h⟩
    · cases h
    · cases h; rw [hz rfl] at hc; cases hc

/-- A concrete case that meets the hypotheses. -/
example (cfg : Cfg) (b : Bytes) := C73_next_panics_iff cfg b tcpOptKind (.inl rfl)

/-- C73, accessors: on a yielded option `number()`, `length()`, `as_ref()` and the IPv4 bits return; the
payload (and header) panics exactly when the length byte is 0, which only a release build yields. -/
theorem C73_accessors_panic_iff (cfg : Cfg) (b o r : Bytes) (k : OptKind) (hk : k = tcpOptKind ∨ k = v4OptKind)
    (h : Opt.next cfg k b = (.ok (some (.ok o)), r)) :
    (Opt.length k o).returns ∧ (Opt.asRef cfg k o).returns ∧ (TcpOpt.number o).returns ∧
    (V4Opt.number o).returns ∧ (V4Opt.class_ o).returns ∧ (V4Opt.isCopied o).returns ∧
    (Opt.payload k o = .panic ↔ Opt.length k o = .ok 0#8) ∧
    (Opt.header k o = .panic ↔ Opt.length k o = .ok 0#8) ∧
    (Opt.length k o = .ok 0#8 → cfg.overflowChecks = false) := by
  have lawful : LawfulKind k := by
    rcases hk with rfl | rfl
    · exact tcp_lawful
    · exact v4_lawful
  have ret : ∀ {α : Type} {x : Outcome α} {a : α}, x = .ok a → x.returns := by
    intro α x a hx; rw [hx]; exact fun h => by cases h
  have cls : ∀ (x : U8) (t : Bytes), (V4Opt.class_ (x :: t)).returns := by
    intro x t
    have : V4Opt.class_ (x :: t) = (let v := (x >>> 5) &&& 0b011#8
        if v = 0#8 then .ok .control else if v = 2#8 then .ok .debugging else .ok (.reserved v)) := rfl
    rw [this]
    dsimp only
    split
    · exact fun h => by cases h
    · split <;> exact fun h => by cases h
  rcases next_cases cfg lawful b with ⟨hb, hn⟩ | ⟨x, t, hb, hx, hn⟩ | ⟨x, t, hb, hx, -, hn, hl, ha⟩ |
      ⟨x, hb, hx, hn⟩ | ⟨x, l, t, hb, hx, hlt, hn⟩ | ⟨x, l, t, hb, hx, h0, hc, hn⟩ |
      ⟨x, l, t, hb, hx, hle, hz, hn, hl, ha⟩ <;> rw [hn] at h <;> cases h
  · have hs : Opt.split k b = .ok ([x], r) := by
      unfold Opt.split; rw [hl, Outcome.ok_bind, if_pos rfl, hb]; rfl
    refine ⟨ret hl, ret ha, ret (a := _) (by rw [hb]; rfl), ret (by rw [hb]; rfl), by rw [hb]; exact cls _ _,
      ret (by rw [hb]; rfl), ?_, ?_, ?_⟩
    · unfold Opt.payload; rw [hs, hl]; simp
    · unfold Opt.header; rw [hs, hl]; simp
    · rw [hl]; intro h; simp at h
  · refine ⟨ret hl, ret ha, ret (a := _) (by rw [hb]; rfl), ret (by rw [hb]; rfl), by rw [hb]; exact cls _ _,
      ret (by rw [hb]; rfl), ?_, ?_, ?_⟩
    all_goals rw [hl]
    · unfold Opt.payload Opt.split
      rw [hl, Outcome.ok_bind]
      by_cases h1 : l = 1#8
      · rw [if_pos h1, splitAt_ok (by rw [hb]; simp), h1]; simp
      · rw [if_neg h1, sliceTo_ok hle, Outcome.ok_bind]
        by_cases h0 : l = 0#8
        · subst h0; simp [splitAt]
        · have : 2 ≤ l.toNat := by
            have e0 : l.toNat ≠ 0 := fun h => h0 (BitVec.eq_of_toNat_eq h)
            have e1 : l.toNat ≠ 1 := fun h => h1 (BitVec.eq_of_toNat_eq h)
            omega
          rw [splitAt_ok (by rw [List.length_take]; omega)]; simp [h0]
    · unfold Opt.header Opt.split
      rw [hl, Outcome.ok_bind]
      by_cases h1 : l = 1#8
      · rw [if_pos h1, splitAt_ok (by rw [hb]; simp), h1]; simp
      · rw [if_neg h1, sliceTo_ok hle, Outcome.ok_bind]
        by_cases h0 : l = 0#8
        · subst h0; simp [splitAt]
        · have : 2 ≤ l.toNat := by
            have e0 : l.toNat ≠ 0 := fun h => h0 (BitVec.eq_of_toNat_eq h)
            have e1 : l.toNat ≠ 1 := fun h => h1 (BitVec.eq_of_toNat_eq h)
            omega
          rw [splitAt_ok (by rw [List.length_take]; omega)]; simp [h0]
    · intro h; cases h; exact hz rfl

/-- A concrete case that meets the hypotheses. -/
example (cfg : Cfg) := C73_accessors_panic_iff cfg [2, 4, 5, 180, 0] _ _ tcpOptKind (.inl rfl)
    (by obtain ⟨_ | _, _ | _, _ | _⟩ := cfg <;> rfl)

/-- C73: on an area in which every option is well formed up to the point where
iteration stops nothing panics; stated for a single step, the rest follows by `C29`/`C30`: a state that is
neither a lone non-single byte nor has length byte 0 does not panic, nor do the accessors of what it yields. -/
theorem C73_no_panic_step (cfg : Cfg) (b : Bytes) (k : OptKind) (hk : k = tcpOptKind ∨ k = v4OptKind)
    (h1 : b.length ≠ 1 ∨ ∃ x, b[0]? = some x ∧ k.isSingle x = true)
    (h2 : b[1]? ≠ some 0#8 ∨ ∃ x, b[0]? = some x ∧ k.isSingle x = true) :
    (Opt.next cfg k b).1.returns ∧
    ∀ o r, Opt.next cfg k b = (.ok (some (.ok o)), r) → (Opt.payload k o).returns ∧ (Opt.header k o).returns := by
  have lawful : LawfulKind k := by
    rcases hk with rfl | rfl
    · exact tcp_lawful
    · exact v4_lawful
  have hnz : ∀ x t, b = x :: 0#8 :: t → k.isSingle x = true := by
    intro x t hb
    rcases h2 with h | ⟨y, hy, hs⟩
    · exact absurd (by rw [hb]; rfl) h
    · rw [hb] at hy; cases hy; exact hs
  constructor
  · intro hp
    obtain ⟨x, hx, hor⟩ := (C73_next_panics_iff cfg b k hk).1 hp
    rcases hor with rfl | ⟨-, t, hb⟩
    · rcases h1 with h | ⟨y, hy, hs⟩
      · exact h rfl
      · cases hy; rw [hx] at hs; cases hs
    · rw [hnz x t hb] at hx; cases hx
  · intro o r ho
    obtain ⟨-, -, -, -, -, -, i1, i2, -⟩ := C73_accessors_panic_iff cfg b o r k hk ho
    have hne : Opt.length k o ≠ .ok 0#8 := by
      rcases next_cases cfg lawful b with ⟨hb, hn⟩ | ⟨x, t, hb, hx, hn⟩ | ⟨x, t, hb, hx, -, hn, hl, ha⟩ |
          ⟨x, hb, hx, hn⟩ | ⟨x, l, t, hb, hx, hlt, hn⟩ | ⟨x, l, t, hb, hx, h0, hc, hn⟩ |
          ⟨x, l, t, hb, hx, hle, hz, hn, hl, ha⟩ <;> rw [hn] at ho <;> cases ho
      · rw [hl]; intro h; simp at h
      · rw [hl]
        intro h; cases h
        rw [hnz x t hb] at hx; cases hx
    exact ⟨fun h => hne (i1.1 h), fun h => hne (i2.1 h)⟩

/-- A concrete case that meets the hypotheses. -/
example (cfg : Cfg) := C73_no_panic_step cfg [2, 4, 5, 180] tcpOptKind (.inl rfl) (.inl (by decide))
    (.inl (by decide))

/-- C32 is false of the code: an accepted IPv4 packet / TCP segment whose options end in a lone kind byte
makes the iterator panic, in every build. -/
theorem C32_options_refuted (cfg : Cfg) :
    ∃ b p, V4.new b = .ok b ∧ V4.options b = .ok p ∧ (Opt.take cfg v4OptKind 4 p).1 = .panic := by
  refine ⟨[0x46, 0, 0, 24, 0, 0, 0, 0, 64, 17, 0, 0, 10, 0, 0, 1, 10, 0, 0, 2, 1, 1, 1, 7], [1, 1, 1, 7],
    by decide, by decide, ?_⟩
  cases cfg with | mk a b c => cases a <;> cases b <;> cases c <;> rfl

theorem C32_tcp_options_refuted (cfg : Cfg) :
    ∃ b p, Tcp.new b = .ok b ∧ Tcp.options b = .ok p ∧ (Opt.take cfg tcpOptKind 4 p).1 = .panic := by
  refine ⟨[0, 80, 4, 0, 0, 0, 0, 1, 0, 0, 0, 0, 0x60, 0x02, 0x10, 0, 0, 0, 0, 0, 1, 1, 1, 3], [1, 1, 1, 3],
    by decide, by decide, ?_⟩
  cases cfg with | mk a b c => cases a <;> cases b <;> cases c <;> rfl

end Verif.Props
