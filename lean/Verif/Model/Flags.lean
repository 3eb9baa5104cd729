import Verif.Model.Tcp

/-!
# The flag types of `tcp::flag` and `ip::v4::flag`

Both are declared with `bitflags!` (version 1 of the crate `bitflags`); the operations modelled are those the macro
generates.  The constants `FIN` .. `NS`, `DONT_FRAGMENT`, `MORE_FRAGMENTS` also exist as items of the modules.
-/

namespace Verif

theorem valid_iff {m a : U16} : a &&& ~~~m = 0#16 ↔ ∀ i, a.getLsbD i = true → m.getLsbD i = true := by
  constructor
  · intro h i hi
    have := congrArg (fun x => BitVec.getLsbD x i) h
    have hlt := BitVec.lt_of_getLsbD hi
    simpa [hi, hlt] using this
  · intro h
    apply BitVec.eq_of_getLsbD_eq
    intro i hi
    have := h i
    simp only [BitVec.getLsbD_and, BitVec.getLsbD_not, hi, decide_true, Bool.true_and]
    cases ha : a.getLsbD i
    · simp
    · simp [this ha]

theorem masked {m : U16} (v : U16) : (v &&& m) &&& ~~~m = 0#16 :=
  valid_iff.2 fun i h => by simp at h; exact h.2

theorem or_valid {m a b : U16} (ha : a &&& ~~~m = 0#16) (hb : b &&& ~~~m = 0#16) : (a ||| b) &&& ~~~m = 0#16 :=
  valid_iff.2 fun i h => by
    simp at h
    exact h.elim (valid_iff.1 ha i) (valid_iff.1 hb i)

theorem and_valid {m a b : U16} (ha : a &&& ~~~m = 0#16) : (a &&& b) &&& ~~~m = 0#16 :=
  valid_iff.2 fun i h => by
    simp at h
    exact valid_iff.1 ha i h.1

theorem xor_valid {m a b : U16} (ha : a &&& ~~~m = 0#16) (hb : b &&& ~~~m = 0#16) : (a ^^^ b) &&& ~~~m = 0#16 :=
  valid_iff.2 fun i h => by
    have ha := valid_iff.1 ha i
    have hb := valid_iff.1 hb i
    simp at h
    cases h1 : a.getLsbD i
    · rw [h1] at h
      exact hb (by simpa using h)
    · exact ha h1

namespace TcpFlags

/-- `src/tcp/flag.rs:21`. -/
def fin : TcpFlags := ⟨0b1#16, by decide⟩
/-- `src/tcp/flag.rs:27`. -/
def rst : TcpFlags := ⟨0b100#16, by decide⟩
/-- `src/tcp/flag.rs:30`. -/
def psh : TcpFlags := ⟨0b1000#16, by decide⟩
/-- `src/tcp/flag.rs:36`. -/
def urg : TcpFlags := ⟨0b100000#16, by decide⟩
/-- `src/tcp/flag.rs:39`. -/
def ece : TcpFlags := ⟨0b1000000#16, by decide⟩
/-- `src/tcp/flag.rs:42`. -/
def cwr : TcpFlags := ⟨0b10000000#16, by decide⟩
/-- `src/tcp/flag.rs:45`. -/
def ns : TcpFlags := ⟨0b100000000#16, by decide⟩
/-- `Flags::contains` (`bitflags!` at `src/tcp/flag.rs:17`). -/
def contains (f g : TcpFlags) : Bool := f.bits &&& g.bits = g.bits

end TcpFlags

namespace TcpFlags

/-- `Flags::all()` (`bitflags!` at `src/tcp/flag.rs:17`). -/
def all : TcpFlags := ⟨0b1_1111_1111#16, by decide⟩
/-- `Flags::from_bits_truncate` (`bitflags!` at `src/tcp/flag.rs:17`). -/
def fromBitsTruncate (v : U16) : TcpFlags := ⟨v &&& 0b1_1111_1111#16, masked v⟩
/-- `Flags::is_empty` (`bitflags!` at `src/tcp/flag.rs:17`). -/
def isEmpty (f : TcpFlags) : Bool := f.bits = 0#16
/-- `Flags::is_all` (`bitflags!` at `src/tcp/flag.rs:17`). -/
def isAll (f : TcpFlags) : Bool := f.bits = 0b1_1111_1111#16
/-- `f | g` and, in place, `insert` (`bitflags!` at `src/tcp/flag.rs:17`). -/
def union (f g : TcpFlags) : TcpFlags := ⟨f.bits ||| g.bits, or_valid f.valid g.valid⟩
/-- `f & g` (`bitflags!` at `src/tcp/flag.rs:17`). -/
def inter (f g : TcpFlags) : TcpFlags := ⟨f.bits &&& g.bits, and_valid f.valid⟩
/-- `f - g` and, in place, `remove` (`bitflags!` at `src/tcp/flag.rs:17`). -/
def diff (f g : TcpFlags) : TcpFlags := ⟨f.bits &&& ~~~g.bits, and_valid f.valid⟩
/-- `f ^ g` and, in place, `toggle` (`bitflags!` at `src/tcp/flag.rs:17`). -/
def symm (f g : TcpFlags) : TcpFlags := ⟨f.bits ^^^ g.bits, xor_valid f.valid g.valid⟩
/-- `!f` is `from_bits_truncate(!bits)` (`bitflags!` at `src/tcp/flag.rs:17`). -/
def compl (f : TcpFlags) : TcpFlags := fromBitsTruncate (~~~f.bits)
/-- `set(g, value)` (`bitflags!` at `src/tcp/flag.rs:17`). -/
def set (f g : TcpFlags) (value : Bool) : TcpFlags := if value then f.union g else f.diff g
/-- `Flags::intersects` (`bitflags!` at `src/tcp/flag.rs:17`). -/
def intersects (f g : TcpFlags) : Bool := !(f.inter g).isEmpty
/-- `FromIterator` / `Extend` (`bitflags!` at `src/tcp/flag.rs:17`): one `insert` after the other. -/
def collect (fs : List TcpFlags) : TcpFlags := fs.foldl union empty

end TcpFlags

namespace V4Flags

/-- `Flags::all()` (`bitflags!` at `src/ip/v4/flag.rs:17`). -/
def all : V4Flags := ⟨0b110#16, by decide⟩
/-- `Flags::from_bits_truncate` (`bitflags!` at `src/ip/v4/flag.rs:17`). -/
def fromBitsTruncate (v : U16) : V4Flags := ⟨v &&& 0b110#16, masked v⟩
/-- `Flags::is_empty` (`bitflags!` at `src/ip/v4/flag.rs:17`). -/
def isEmpty (f : V4Flags) : Bool := f.bits = 0#16
/-- `Flags::is_all` (`bitflags!` at `src/ip/v4/flag.rs:17`). -/
def isAll (f : V4Flags) : Bool := f.bits = 0b110#16
/-- `f | g` and, in place, `insert` (`bitflags!` at `src/ip/v4/flag.rs:17`). -/
def union (f g : V4Flags) : V4Flags := ⟨f.bits ||| g.bits, or_valid f.valid g.valid⟩
/-- `f & g` (`bitflags!` at `src/ip/v4/flag.rs:17`). -/
def inter (f g : V4Flags) : V4Flags := ⟨f.bits &&& g.bits, and_valid f.valid⟩
/-- `f - g` and, in place, `remove` (`bitflags!` at `src/ip/v4/flag.rs:17`). -/
def diff (f g : V4Flags) : V4Flags := ⟨f.bits &&& ~~~g.bits, and_valid f.valid⟩
/-- `f ^ g` and, in place, `toggle` (`bitflags!` at `src/ip/v4/flag.rs:17`). -/
def symm (f g : V4Flags) : V4Flags := ⟨f.bits ^^^ g.bits, xor_valid f.valid g.valid⟩
/-- `!f` is `from_bits_truncate(!bits)` (`bitflags!` at `src/ip/v4/flag.rs:17`). -/
def compl (f : V4Flags) : V4Flags := fromBitsTruncate (~~~f.bits)
/-- `set(g, value)` (`bitflags!` at `src/ip/v4/flag.rs:17`). -/
def set (f g : V4Flags) (value : Bool) : V4Flags := if value then f.union g else f.diff g
/-- `Flags::intersects` (`bitflags!` at `src/ip/v4/flag.rs:17`). -/
def intersects (f g : V4Flags) : Bool := !(f.inter g).isEmpty
/-- `FromIterator` / `Extend` (`bitflags!` at `src/ip/v4/flag.rs:17`): one `insert` after the other. -/
def collect (fs : List V4Flags) : V4Flags := fs.foldl union empty

end V4Flags

end Verif
