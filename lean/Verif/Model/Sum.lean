import Verif.Rust

/-!
# The checksum loops

The four `checksum` functions of the crate share two loop shapes.  The loops are written by recursion
on the bytes the cursor has not consumed yet; `Verif/Lemmas/Sum.lean` proves that they satisfy the
unfolding equation of the Rust `while let Ok(value) = buffer.read_u16()` loop.
-/

namespace Verif

/-- The body `result += u32::from(value); if result > 0xffff { result -= 0xffff; }`
(`src/ip/v4/mod.rs:43-47`, `src/icmp/mod.rs:59-63`, `src/udp/mod.rs:61-65,74-78,85-89`). -/
def addFold (cfg : Cfg) (r : U32) (v : U16) : Outcome U32 := do
  let r ← addU32 cfg r (v.zeroExtend 32)
  if r > 0xffff#32 then subU32 cfg r 0xffff#32 else .ok r

/-- `while let Ok(value) = buffer.read_u16::<BigEndian>() { if buffer.position() == skip { continue; } … }`
with `addFold` as the body, started with the unread bytes, the position and the running result.
Returns the result and the cursor after the failed read
(`src/ip/v4/mod.rs:37-48` with skip 12, `src/icmp/mod.rs:53-64` with skip 4,
`src/udp/mod.rs:68-79` with skip 8, `src/udp/mod.rs:60-66` with no skip, i.e. 0). -/
def sumLoop (cfg : Cfg) (skip : Nat) : Bytes → Nat → U32 → Outcome (U32 × Cursor)
  | a :: b :: rest, pos, r =>
    if pos + 2 = skip then sumLoop cfg skip rest (pos + 2) r
    else do
      let r ← addFold cfg r (fromBe16 a b)
      sumLoop cfg skip rest (pos + 2) r
  | rest, pos, r => .ok (r, Cursor.atEof cfg ⟨rest, pos⟩)

/-- The loops of `src/tcp/mod.rs:70-72` (skip 0) and `src/tcp/mod.rs:75-84` (skip 18): plain
accumulation.  `read` is `bytes_read`. -/
def plainLoop (cfg : Cfg) (skip : Nat) :
    Bytes → Nat → Nat → U32 → Outcome (U32 × Nat × Cursor)
  | a :: b :: rest, pos, read, r =>
    if pos + 2 = skip then plainLoop cfg skip rest (pos + 2) (read + 2) r
    else do
      let r ← addU32 cfg r ((fromBe16 a b).zeroExtend 32)
      plainLoop cfg skip rest (pos + 2) (read + 2) r
  | rest, pos, read, r => .ok (r, read, Cursor.atEof cfg ⟨rest, pos⟩)

/-- `src/tcp/mod.rs:95-97`, `while result >> 16 != 0 { result = (result & 0xffff) + (result >> 16); }`.
The sum is below `2^17`, so no overflow check can fire. -/
def carryFold (r : U32) : U32 :=
  if _h : r >>> 16 ≠ 0#32 then carryFold ((r &&& 0xffff#32) + (r >>> 16)) else r
termination_by r.toNat
decreasing_by
  have _ := r.isLt
  have h16 : (r >>> 16).toNat = r.toNat / 65536 := by
    simp [BitVec.toNat_ushiftRight, Nat.shiftRight_eq_div_pow]
  have hand : (r &&& 0xffff#32).toNat = r.toNat % 65536 := by
    have : (r &&& 0xffff#32).toNat = r.toNat &&& (2 ^ 16 - 1) := by simp [BitVec.toNat_and]
    rw [this, Nat.and_two_pow_sub_one_eq_mod]
  have hpos : 0 < r.toNat / 65536 := by
    rcases Nat.eq_zero_or_pos (r.toNat / 65536) with h0 | h0
    · exact absurd (BitVec.eq_of_toNat_eq (by rw [h16, h0]; rfl)) _h
    · exact h0
  rw [BitVec.toNat_add, hand, h16]
  refine Nat.lt_of_le_of_lt (Nat.mod_le _ _) ?_
  omega

/-- `!result as u16` (`src/ip/v4/mod.rs:50`, `src/icmp/mod.rs:66`, `src/udp/mod.rs:92`, `src/tcp/mod.rs:99`). -/
def notU16 (r : U32) : U16 := (~~~r).truncate 16

end Verif
