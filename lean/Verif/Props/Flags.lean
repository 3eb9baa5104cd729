import Verif.Model.Flags
import Verif.Spec.Flags
import Verif.Props.BuildersTransport
import Verif.Samples

/-!
# C126: the flag types as sets of named control bits
-/

namespace Verif.Props
open Verif Verif.Spec

/-- The constant of `tcp::flag` with that name. -/
def TcpFlag.const : TcpFlag → TcpFlags
  | .ns => .ns | .cwr => .cwr | .ece => .ece | .urg => .urg | .ack => .ack | .psh => .psh | .rst => .rst | .syn => .syn
  | .fin => .fin

/-- The constant of `ip::v4::flag` with that name. -/
def V4Flag.const : V4Flag → V4Flags
  | .df => .dontFragment
  | .mf => .moreFragments

theorem one_bit (x : U16) (k : Nat) (hk : k < 16) : decide (x &&& BitVec.twoPow 16 k = BitVec.twoPow 16 k) = x.getLsbD k := by
  rw [BitVec.and_twoPow]
  cases h : x.getLsbD k
  · have : ¬ (0#16 = BitVec.twoPow 16 k) := by
      intro e
      have := congrArg (fun y => BitVec.getLsbD y k) e
      simp [hk] at this
    simpa using this
  · simp

/-- The bit of the flag word. -/
def TcpFlag.place : TcpFlag → Nat
  | .ns => 8 | .cwr => 7 | .ece => 6 | .urg => 5 | .ack => 4 | .psh => 3 | .rst => 2 | .syn => 1 | .fin => 0

theorem tcp_has (f : TcpFlags) (x : TcpFlag) : f.contains (TcpFlag.const x) = f.bits.getLsbD (TcpFlag.place x) := by
  rw [← one_bit _ _ (by cases x <;> decide)]
  cases x <;> rfl

/-- The bit of the flag word. -/
def V4Flag.place : V4Flag → Nat
  | .df => 1
  | .mf => 2

theorem v4_has (f : V4Flags) (x : V4Flag) : f.contains (V4Flag.const x) = f.bits.getLsbD (V4Flag.place x) := by
  rw [← one_bit _ _ (by cases x <;> decide)]
  cases x <;> rfl

theorem places (i : Nat) (h : (0b1_1111_1111#16).getLsbD i = true) : ∃ x, TcpFlag.place x = i := by
  have hi := BitVec.lt_of_getLsbD h
  have : ∀ i, i < 16 → (0b1_1111_1111#16).getLsbD i = true → i < 9 := by decide
  have := this i hi h
  match i, this with
  | 0, _ => exact ⟨.fin, rfl⟩
  | 1, _ => exact ⟨.syn, rfl⟩
  | 2, _ => exact ⟨.rst, rfl⟩
  | 3, _ => exact ⟨.psh, rfl⟩
  | 4, _ => exact ⟨.ack, rfl⟩
  | 5, _ => exact ⟨.urg, rfl⟩
  | 6, _ => exact ⟨.ece, rfl⟩
  | 7, _ => exact ⟨.cwr, rfl⟩
  | 8, _ => exact ⟨.ns, rfl⟩

theorem tcp_bits_ext {f g : TcpFlags} (h : ∀ x, f.contains (TcpFlag.const x) = g.contains (TcpFlag.const x)) : f = g := by
  obtain ⟨a, ha⟩ := f
  obtain ⟨b, hb⟩ := g
  have h : ∀ x, a.getLsbD (TcpFlag.place x) = b.getLsbD (TcpFlag.place x) := fun x => by
    have := h x
    rwa [tcp_has, tcp_has] at this
  have : a = b := by
    apply BitVec.eq_of_getLsbD_eq
    intro i hi
    cases h1 : a.getLsbD i <;> cases h2 : b.getLsbD i <;> try rfl
    · obtain ⟨x, hx⟩ := places i (valid_iff.1 hb i h2)
      have := h x
      rw [hx, h1, h2] at this
      exact this
    · obtain ⟨x, hx⟩ := places i (valid_iff.1 ha i h1)
      have := h x
      rw [hx, h1, h2] at this
      exact this
  subst this
  rfl

theorem v4_bits_ext {f g : V4Flags} (h : ∀ x, f.contains (V4Flag.const x) = g.contains (V4Flag.const x)) : f = g := by
  have h1 := h .df
  have h2 := h .mf
  rw [v4_has, v4_has] at h1 h2
  obtain ⟨a, ha⟩ := f
  obtain ⟨b, hb⟩ := g
  simp only [V4Flag.place] at h1 h2
  have hp : ∀ i, (0b110#16).getLsbD i = true → i = 1 ∨ i = 2 := by
    intro i hi
    have hlt := BitVec.lt_of_getLsbD hi
    have : ∀ i, i < 16 → (0b110#16).getLsbD i = true → i = 1 ∨ i = 2 := by decide
    exact this i hlt hi
  have : a = b := by
    apply BitVec.eq_of_getLsbD_eq
    intro i hi
    cases e1 : a.getLsbD i <;> cases e2 : b.getLsbD i <;> try rfl
    · rcases hp i (valid_iff.1 hb i e2) with rfl | rfl
      · rw [e1, e2] at h1; exact h1
      · rw [e1, e2] at h2; exact h2
    · rcases hp i (valid_iff.1 ha i e1) with rfl | rfl
      · rw [e1, e2] at h1; exact h1
      · rw [e1, e2] at h2; exact h2
  subst this
  rfl

/-- C126: a value of `tcp::flag::Flags` is the set of the named flags it contains: two values are equal exactly if they
contain the same ones. -/
theorem C126_tcp_set (f g : TcpFlags) : f = g ↔ ∀ x, f.contains (TcpFlag.const x) = g.contains (TcpFlag.const x) :=
  ⟨fun h _ => by rw [h], tcp_bits_ext⟩

/-- C126: the operators and methods of `tcp::flag::Flags` are those on sets. -/
theorem C126_tcp_operations (f g : TcpFlags) (v : Bool) (x : TcpFlag) (fs : List TcpFlags) (bits : U16) :
    (f.union g).contains (TcpFlag.const x) = (f.contains (TcpFlag.const x) || g.contains (TcpFlag.const x)) ∧
    (f.inter g).contains (TcpFlag.const x) = (f.contains (TcpFlag.const x) && g.contains (TcpFlag.const x)) ∧
    (f.diff g).contains (TcpFlag.const x) = (f.contains (TcpFlag.const x) && !g.contains (TcpFlag.const x)) ∧
    (f.symm g).contains (TcpFlag.const x) = (f.contains (TcpFlag.const x) ^^ g.contains (TcpFlag.const x)) ∧
    f.compl.contains (TcpFlag.const x) = !f.contains (TcpFlag.const x) ∧
    (f.set g v).contains (TcpFlag.const x) =
      (if g.contains (TcpFlag.const x) then v else f.contains (TcpFlag.const x)) ∧
    TcpFlags.empty.contains (TcpFlag.const x) = false ∧ TcpFlags.all.contains (TcpFlag.const x) = true ∧
    (TcpFlags.collect fs).contains (TcpFlag.const x) = fs.any (·.contains (TcpFlag.const x)) ∧
    (TcpFlags.fromBitsTruncate f.bits = f ∧ TcpFlags.fromBits f.bits = some f) ∧
    (TcpFlags.fromBits bits = none ↔ 512 ≤ bits.toNat) := by
  have hk : TcpFlag.place x < 16 := by cases x <;> decide
  have hm : (0b1_1111_1111#16).getLsbD (TcpFlag.place x) = true := by cases x <;> decide
  have hu : ∀ f g : TcpFlags, (f.union g).contains (TcpFlag.const x) =
      (f.contains (TcpFlag.const x) || g.contains (TcpFlag.const x)) := fun f g => by
    rw [tcp_has, tcp_has, tcp_has]; simp [TcpFlags.union]
  have hd : (f.diff g).contains (TcpFlag.const x) = (f.contains (TcpFlag.const x) && !g.contains (TcpFlag.const x)) := by
    rw [tcp_has, tcp_has, tcp_has]; simp [TcpFlags.diff, hk]
  have he : TcpFlags.empty.contains (TcpFlag.const x) = false := by cases x <;> decide
  refine ⟨hu f g, ?_, hd, ?_, ?_, ?_, he, ?_, ?_, ⟨?_, ?_⟩, ?_⟩
  · rw [tcp_has, tcp_has, tcp_has]; simp [TcpFlags.inter]
  · rw [tcp_has, tcp_has, tcp_has]; simp [TcpFlags.symm]
  · rw [tcp_has, tcp_has]
    show (~~~f.bits &&& 0b1_1111_1111#16).getLsbD _ = _
    rw [BitVec.getLsbD_and, hm]
    simp [hk]
  · cases v
    · rw [show f.set g false = f.diff g from rfl, hd]
      cases f.contains (TcpFlag.const x) <;> cases g.contains (TcpFlag.const x) <;> rfl
    · rw [show f.set g true = f.union g from rfl, hu]
      cases f.contains (TcpFlag.const x) <;> cases g.contains (TcpFlag.const x) <;> rfl
  · cases x <;> decide
  · have key : ∀ (fs : List TcpFlags) (a : TcpFlags), (fs.foldl TcpFlags.union a).contains (TcpFlag.const x) =
        (a.contains (TcpFlag.const x) || fs.any (·.contains (TcpFlag.const x))) := by
      intro fs
      induction fs with
      | nil => intro a; simp
      | cons f fs ih => intro a; rw [List.foldl_cons, ih, hu, List.any_cons, Bool.or_assoc]
    unfold TcpFlags.collect
    rw [key, he, Bool.false_or]
  · apply tcp_bits_ext
    intro y
    rw [tcp_has, tcp_has]
    show (f.bits &&& 0b1_1111_1111#16).getLsbD _ = _
    rw [BitVec.getLsbD_and, show (0b1_1111_1111#16).getLsbD (TcpFlag.place y) = true by cases y <;> decide, Bool.and_true]
  · unfold TcpFlags.fromBits
    rw [dif_pos f.valid]
  · have hn : bits &&& ~~~0b1_1111_1111#16 = 0#16 ↔ bits.toNat < 512 := by
      have : bits &&& ~~~0b1_1111_1111#16 = 0#16 ↔ bits >>> 9 = 0#16 := by
        constructor
        · intro h
          apply BitVec.eq_of_getLsbD_eq
          intro i hi
          have h1 := valid_iff.1 h (9 + i)
          cases e : bits.getLsbD (9 + i)
          · simp [e]
          · have h1 := h1 e
            have hlt := BitVec.lt_of_getLsbD h1
            have : ∀ j, j < 7 → (0b1_1111_1111#16).getLsbD (9 + j) = false := by decide
            rw [this i (by omega)] at h1
            cases h1
        · intro h
          refine valid_iff.2 fun i hi => ?_
          have hlt := BitVec.lt_of_getLsbD hi
          by_cases h9 : i < 9
          · have : ∀ i, i < 9 → (0b1_1111_1111#16).getLsbD i = true := by decide
            exact this i h9
          · have := congrArg (fun y => BitVec.getLsbD y (i - 9)) h
            simp at this
            rw [show 9 + (i - 9) = i by omega, hi] at this
            cases this
      rw [this, ← BitVec.toNat_inj, BitVec.toNat_ushiftRight, Nat.shiftRight_eq_div_pow]
      simp
    unfold TcpFlags.fromBits
    split
    · next h =>
      have := hn.1 h
      constructor
      · intro h; cases h
      · intro h; omega
    · next h => exact ⟨fun _ => by have := mt hn.2 h; omega, fun _ => rfl⟩

/-- C126: the tests of `tcp::flag::Flags` are those on sets. -/
theorem C126_tcp_tests (f g : TcpFlags) :
    (f.contains g = true ↔ ∀ x, g.contains (TcpFlag.const x) = true → f.contains (TcpFlag.const x) = true) ∧
    (f.intersects g = true ↔ ∃ x, f.contains (TcpFlag.const x) = true ∧ g.contains (TcpFlag.const x) = true) ∧
    (f.isEmpty = true ↔ ∀ x, f.contains (TcpFlag.const x) = false) ∧
    (f.isAll = true ↔ ∀ x, f.contains (TcpFlag.const x) = true) := by
  have hin : ∀ f g : TcpFlags, ∀ x, (f.inter g).contains (TcpFlag.const x) =
      (f.contains (TcpFlag.const x) && g.contains (TcpFlag.const x)) := fun f g x =>
    (C126_tcp_operations f g true x [] 0#16).2.1
  have hem : ∀ x, TcpFlags.empty.contains (TcpFlag.const x) = false := fun x => by cases x <;> decide
  have hal : ∀ x, TcpFlags.all.contains (TcpFlag.const x) = true := fun x => by cases x <;> decide
  have he : ∀ f : TcpFlags, f.isEmpty = true ↔ f = .empty := by
    intro f
    obtain ⟨a, ha⟩ := f
    simp [TcpFlags.isEmpty, TcpFlags.empty]
  have ha : f.isAll = true ↔ f = .all := by
    obtain ⟨a, ha⟩ := f
    simp [TcpFlags.isAll, TcpFlags.all]
  have hc : f.contains g = true ↔ f.inter g = g := by
    obtain ⟨a, ha⟩ := f
    obtain ⟨b, hb⟩ := g
    simp [TcpFlags.contains, TcpFlags.inter]
  have hie : f.isEmpty = true ↔ ∀ x, f.contains (TcpFlag.const x) = false := by
    rw [he, C126_tcp_set]
    exact forall_congr' fun x => by rw [hem]
  refine ⟨?_, ?_, hie, ?_⟩
  · rw [hc, C126_tcp_set]
    refine forall_congr' fun x => ?_
    rw [hin]
    cases f.contains (TcpFlag.const x) <;> cases g.contains (TcpFlag.const x) <;> decide
  · unfold TcpFlags.intersects
    rw [Bool.not_eq_true', ← Bool.not_eq_true, he, C126_tcp_set]
    constructor
    · intro h
      apply Classical.byContradiction
      intro hn
      refine h fun x => ?_
      rw [hin, hem]
      cases h1 : f.contains (TcpFlag.const x) <;> cases h2 : g.contains (TcpFlag.const x) <;> try rfl
      exact absurd ⟨x, h1, h2⟩ hn
    · rintro ⟨x, h1, h2⟩ h
      have := h x
      rw [hin, h1, h2, hem] at this
      cases this
  · rw [ha, C126_tcp_set]
    exact forall_congr' fun x => by rw [hal]

/-- C126: a value of `ip::v4::flag::Flags` is the set of the named flags it contains: two values are equal exactly if they
contain the same ones. -/
theorem C126_v4_set (f g : V4Flags) : f = g ↔ ∀ x, f.contains (V4Flag.const x) = g.contains (V4Flag.const x) :=
  ⟨fun h _ => by rw [h], v4_bits_ext⟩

/-- C126: the operators and methods of `ip::v4::flag::Flags` are those on sets. -/
theorem C126_v4_operations (f g : V4Flags) (v : Bool) (x : V4Flag) (fs : List V4Flags) (bits : U16) :
    (f.union g).contains (V4Flag.const x) = (f.contains (V4Flag.const x) || g.contains (V4Flag.const x)) ∧
    (f.inter g).contains (V4Flag.const x) = (f.contains (V4Flag.const x) && g.contains (V4Flag.const x)) ∧
    (f.diff g).contains (V4Flag.const x) = (f.contains (V4Flag.const x) && !g.contains (V4Flag.const x)) ∧
    (f.symm g).contains (V4Flag.const x) = (f.contains (V4Flag.const x) ^^ g.contains (V4Flag.const x)) ∧
    f.compl.contains (V4Flag.const x) = !f.contains (V4Flag.const x) ∧
    (f.set g v).contains (V4Flag.const x) =
      (if g.contains (V4Flag.const x) then v else f.contains (V4Flag.const x)) ∧
    V4Flags.empty.contains (V4Flag.const x) = false ∧ V4Flags.all.contains (V4Flag.const x) = true ∧
    (V4Flags.collect fs).contains (V4Flag.const x) = fs.any (·.contains (V4Flag.const x)) ∧
    (V4Flags.fromBitsTruncate f.bits = f ∧ V4Flags.fromBits f.bits = some f) ∧
    (V4Flags.fromBits bits = none ↔ bits ≠ 0#16 ∧ bits ≠ 2#16 ∧ bits ≠ 4#16 ∧ bits ≠ 6#16) := by
  have hk : V4Flag.place x < 16 := by cases x <;> decide
  have hm : (0b110#16).getLsbD (V4Flag.place x) = true := by cases x <;> decide
  have hu : ∀ f g : V4Flags, (f.union g).contains (V4Flag.const x) =
      (f.contains (V4Flag.const x) || g.contains (V4Flag.const x)) := fun f g => by
    rw [v4_has, v4_has, v4_has]; simp [V4Flags.union]
  have hd : (f.diff g).contains (V4Flag.const x) = (f.contains (V4Flag.const x) && !g.contains (V4Flag.const x)) := by
    rw [v4_has, v4_has, v4_has]; simp [V4Flags.diff, hk]
  have he : V4Flags.empty.contains (V4Flag.const x) = false := by cases x <;> decide
  refine ⟨hu f g, ?_, hd, ?_, ?_, ?_, he, ?_, ?_, ⟨?_, ?_⟩, ?_⟩
  · rw [v4_has, v4_has, v4_has]; simp [V4Flags.inter]
  · rw [v4_has, v4_has, v4_has]; simp [V4Flags.symm]
  · rw [v4_has, v4_has]
    show (~~~f.bits &&& 0b110#16).getLsbD _ = _
    rw [BitVec.getLsbD_and, hm]
    simp [hk]
  · cases v
    · rw [show f.set g false = f.diff g from rfl, hd]
      cases f.contains (V4Flag.const x) <;> cases g.contains (V4Flag.const x) <;> rfl
    · rw [show f.set g true = f.union g from rfl, hu]
      cases f.contains (V4Flag.const x) <;> cases g.contains (V4Flag.const x) <;> rfl
  · cases x <;> decide
  · have key : ∀ (fs : List V4Flags) (a : V4Flags), (fs.foldl V4Flags.union a).contains (V4Flag.const x) =
        (a.contains (V4Flag.const x) || fs.any (·.contains (V4Flag.const x))) := by
      intro fs
      induction fs with
      | nil => intro a; simp
      | cons f fs ih => intro a; rw [List.foldl_cons, ih, hu, List.any_cons, Bool.or_assoc]
    unfold V4Flags.collect
    rw [key, he, Bool.false_or]
  · apply v4_bits_ext
    intro y
    rw [v4_has, v4_has]
    show (f.bits &&& 0b110#16).getLsbD _ = _
    rw [BitVec.getLsbD_and, show (0b110#16).getLsbD (V4Flag.place y) = true by cases y <;> decide, Bool.and_true]
  · unfold V4Flags.fromBits
    rw [dif_pos f.valid]
  · have hn : bits &&& ~~~0b110#16 = 0#16 ↔ bits = 0#16 ∨ bits = 2#16 ∨ bits = 4#16 ∨ bits = 6#16 := by
      constructor
      · intro h
        have hle : ∀ c, c = bits.getLsbD 1 → ∀ d, d = bits.getLsbD 2 →
            bits = (if c then 2#16 else 0#16) ||| (if d then 4#16 else 0#16) := by
          intro c hc d hd
          have e1 : (2#16 : U16) = BitVec.twoPow 16 1 := by decide
          have e2 : (4#16 : U16) = BitVec.twoPow 16 2 := by decide
          apply BitVec.eq_of_getLsbD_eq
          intro i hi
          by_cases h1 : i = 1
          · subst h1
            rw [← hc]; clear hc hd; cases c <;> cases d <;> decide
          · by_cases h2 : i = 2
            · subst h2
              rw [← hd]; clear hc hd; cases c <;> cases d <;> decide
            · have : bits.getLsbD i = false := by
                cases e : bits.getLsbD i
                · rfl
                · have hm := valid_iff.1 h i e
                  have : ∀ i, i < 16 → (0b110#16).getLsbD i = true → i = 1 ∨ i = 2 := by decide
                  rcases this i hi hm with h | h
                  · exact absurd h h1
                  · exact absurd h h2
              rw [this]
              have n1 : ¬ (1 = i) := fun h => h1 h.symm
              have n2 : ¬ (2 = i) := fun h => h2 h.symm
              cases c <;> cases d <;> simp [e1, e2, BitVec.getLsbD_twoPow, n1, n2]
        have := hle _ rfl _ rfl
        cases h1 : bits.getLsbD 1 <;> cases h2 : bits.getLsbD 2 <;> rw [h1, h2] at this <;> rw [this] <;> decide
      · rintro (rfl | rfl | rfl | rfl) <;> decide
    unfold V4Flags.fromBits
    split
    · next h =>
      constructor
      · intro h; cases h
      · rintro ⟨h1, h2, h3, h4⟩
        rcases hn.1 h with h | h | h | h
        · exact absurd h h1
        · exact absurd h h2
        · exact absurd h h3
        · exact absurd h h4
    · next h =>
      refine ⟨fun _ => ?_, fun _ => rfl⟩
      have := mt hn.2 h
      simp only [not_or] at this
      exact this

/-- C126: the tests of `ip::v4::flag::Flags` are those on sets. -/
theorem C126_v4_tests (f g : V4Flags) :
    (f.contains g = true ↔ ∀ x, g.contains (V4Flag.const x) = true → f.contains (V4Flag.const x) = true) ∧
    (f.intersects g = true ↔ ∃ x, f.contains (V4Flag.const x) = true ∧ g.contains (V4Flag.const x) = true) ∧
    (f.isEmpty = true ↔ ∀ x, f.contains (V4Flag.const x) = false) ∧
    (f.isAll = true ↔ ∀ x, f.contains (V4Flag.const x) = true) := by
  have hin : ∀ f g : V4Flags, ∀ x, (f.inter g).contains (V4Flag.const x) =
      (f.contains (V4Flag.const x) && g.contains (V4Flag.const x)) := fun f g x =>
    (C126_v4_operations f g true x [] 0#16).2.1
  have hem : ∀ x, V4Flags.empty.contains (V4Flag.const x) = false := fun x => by cases x <;> decide
  have hal : ∀ x, V4Flags.all.contains (V4Flag.const x) = true := fun x => by cases x <;> decide
  have he : ∀ f : V4Flags, f.isEmpty = true ↔ f = .empty := by
    intro f
    obtain ⟨a, ha⟩ := f
    simp [V4Flags.isEmpty, V4Flags.empty]
  have ha : f.isAll = true ↔ f = .all := by
    obtain ⟨a, ha⟩ := f
    simp [V4Flags.isAll, V4Flags.all]
  have hc : f.contains g = true ↔ f.inter g = g := by
    obtain ⟨a, ha⟩ := f
    obtain ⟨b, hb⟩ := g
    simp [V4Flags.contains, V4Flags.inter]
  have hie : f.isEmpty = true ↔ ∀ x, f.contains (V4Flag.const x) = false := by
    rw [he, C126_v4_set]
    exact forall_congr' fun x => by rw [hem]
  refine ⟨?_, ?_, hie, ?_⟩
  · rw [hc, C126_v4_set]
    refine forall_congr' fun x => ?_
    rw [hin]
    cases f.contains (V4Flag.const x) <;> cases g.contains (V4Flag.const x) <;> decide
  · unfold V4Flags.intersects
    rw [Bool.not_eq_true', ← Bool.not_eq_true, he, C126_v4_set]
    constructor
    · intro h
      apply Classical.byContradiction
      intro hn
      refine h fun x => ?_
      rw [hin, hem]
      cases h1 : f.contains (V4Flag.const x) <;> cases h2 : g.contains (V4Flag.const x) <;> try rfl
      exact absurd ⟨x, h1, h2⟩ hn
    · rintro ⟨x, h1, h2⟩ h
      have := h x
      rw [hin, h1, h2, hem] at this
      cases this
  · rw [ha, C126_v4_set]
    exact forall_congr' fun x => by rw [hal]

/-! ## On the wire -/

theorem tcp_wire_bit (b : Bytes) (x : TcpFlag) :
    (BitVec.ofNat 16 (field b 103 9)).getLsbD (TcpFlag.place x) = bitAt b x.bit := by
  have e : field b 103 9 = 256 * (bitAt b 103).toNat + 128 * (bitAt b 104).toNat + 64 * (bitAt b 105).toNat +
      32 * (bitAt b 106).toNat + 16 * (bitAt b 107).toNat + 8 * (bitAt b 108).toNat + 4 * (bitAt b 109).toNat +
      2 * (bitAt b 110).toNat + (bitAt b 111).toNat := by
    simp [field]; omega
  rw [e]
  have key : ∀ a b c d e f g h i : Bool, ∀ x : TcpFlag,
      (BitVec.ofNat 16 (256 * a.toNat + 128 * b.toNat + 64 * c.toNat + 32 * d.toNat + 16 * e.toNat + 8 * f.toNat +
        4 * g.toNat + 2 * h.toNat + i.toNat)).getLsbD (TcpFlag.place x) =
      match x with
      | .ns => a | .cwr => b | .ece => c | .urg => d | .ack => e | .psh => f | .rst => g | .syn => h | .fin => i := by
    intro a b c d e f g h i x
    cases x <;> revert a b c d e f g h i <;> decide +kernel
  rw [key]
  cases x <;> rfl

/-- C126: on every segment of at least 20 bytes `flags()` contains a named flag exactly if the bit of that name is set in
the header. -/
theorem C126_tcp_wire (b : Bytes) (h : 20 ≤ b.length) :
    ∃ f, Tcp.flags b = .ok f ∧ ∀ x : TcpFlag, f.contains (TcpFlag.const x) = bitAt b x.bit := by
  obtain ⟨f, h1, h2⟩ := tcp_flags_eq (b := b) (by omega)
  refine ⟨f, h1, fun x => ?_⟩
  rw [tcp_has, h2, tcp_wire_bit]

/-- A concrete case that meets the hypotheses. -/
example := C126_tcp_wire Sample.tcp (by decide)

/-- C126: `set_flags(f)` sets in the header exactly the bits of the flags `f` contains. -/
theorem C126_tcp_written (b : Bytes) (h : Tcp.new b = .ok b) (h5 : 5 ≤ field b 96 4) (f : TcpFlags) :
    ∃ b', Tcp.setFlags f b = (.ok (), b') ∧ ∀ x : TcpFlag, bitAt b' x.bit = f.contains (TcpFlag.const x) := by
  obtain ⟨b', e1, e2, -, e4, -⟩ := C27_tcp_set_flags_partial b h h5 f
  have hl := (segOk h h5).long
  obtain ⟨g, g1, g2⟩ := C126_tcp_wire b' (by omega)
  rw [e4] at g1
  cases g1
  exact ⟨b', e1, fun x => (g2 x).symm⟩

/-- A concrete case that meets the hypotheses. -/
example := C126_tcp_written Sample.tcp (by decide) (by decide) (TcpFlags.syn.union .ack)

/-- C126: a segment built with `flags(f)` (under the hypotheses of C46) has in its header exactly the bits of the flags
`f` contains, and none without `flags()`. -/
theorem C126_tcp_built (cfg : Cfg) (vops : List V4Op) (tops : List TcpOp)
    (hr : ∀ op ∈ vops, op.InRange) (h0 : vops.filterMap V4Op.payload? = [])
    (h1 : (tops.filterMap TcpOp.payload?).length ≤ 1) (hfl : TcpOp.FlagsLast tops)
    (hsize : 40 + (last TcpOp.payload? [] tops).length ≤ 65535)
    (hodd : (last TcpOp.payload? [] tops).length % 2 = 0 ∨ cfg.eofAdvances = false) :
    ∃ out d, ipv4Program cfg Dynamic.new vops (.tcp tops) = .ok out ∧ V4.payload out = .ok d ∧
      ∀ x : TcpFlag, bitAt d x.bit = (last TcpOp.flags? .empty tops).contains (TcpFlag.const x) := by
  obtain ⟨out, d, e1, e2, e3⟩ := C46_tcp_build cfg vops tops hr h0 h1 hfl hsize hodd
  obtain ⟨g, g1, g2⟩ := C126_tcp_wire d (by rw [e3.size]; omega)
  rw [e3.flags] at g1
  cases g1
  exact ⟨out, d, e1, e2.payload, fun x => (g2 x).symm⟩

/-- A concrete case that meets the hypotheses. -/
example (cfg : Cfg) := C126_tcp_built cfg Sample.vops Sample.tops (by call_by_call) (by call_by_call) (by call_by_call)
    (by call_by_call) (by call_by_call) (.inl (by call_by_call))

end Verif.Props
