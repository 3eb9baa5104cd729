import Verif.Props.Stack
import Verif.Props.Reparse
import Verif.Samples

/-!
# C106: `header_mut()` and `as_mut()`
-/

namespace Verif.Props
open Verif Verif.Spec

/-- `header_mut()` is write access to exactly the bytes `header()` returns: they start the buffer; bytes of the
same number can be written there and change nothing else; bytes of another number make `copy_from_slice` panic and
nothing is written.  If the fields that say where header and payload end are as before, `header()` is what was
written and `payload()` is as before. -/
def HeaderWritable (k : Kind) (keeps : Bytes → Prop) (b : Bytes) : Prop :=
  ∃ h, k.header b = .ok h ∧ h = b.take h.length ∧
    ∀ v : Bytes,
      (v.length = h.length → ∃ b', k.writeHeader v b = (.ok (), b') ∧ b'.take h.length = v ∧
        SameOutside b b' 0 h.length ∧ (keeps b' → k.header b' = .ok v ∧ k.payload b' = k.payload b)) ∧
      (v.length ≠ h.length → k.writeHeader v b = (.panic, b))

theorem headerWritable_of {k : Kind} {keeps : Bytes → Prop} {b : Bytes} (hd st n : Nat) (hh : hd ≤ st)
    (hl : hd ≤ b.length) (h0 : keeps b)
    (hs : ∀ b' : Bytes, b'.length = b.length → keeps b' → k.split b' = .ok (b'.take hd, (b'.drop st).take n)) :
    HeaderWritable k keeps b := by
  have e0 := hs b rfl h0
  have hlen : (b.take hd).length = hd := by rw [List.length_take]; omega
  refine ⟨b.take hd, by unfold Kind.header; rw [e0]; rfl, by rw [hlen], fun v => ⟨fun hv => ?_, fun hv => ?_⟩⟩
  · rw [hlen] at hv
    have hso : SameOutside b (v ++ b.drop v.length) 0 hd := by
      have := sameOutside_put (b := b) (off := 0) (bs := v) (by omega)
      rw [Nat.zero_add, hv] at this
      have e : put b 0 v = v ++ b.drop v.length := by unfold put; simp
      rwa [e] at this
    refine ⟨v ++ b.drop v.length, ?_, by rw [hlen, ← hv, List.take_left], by rw [hlen]; exact hso, fun hk => ?_⟩
    · unfold Kind.writeHeader
      rw [e0]
      simp only [hlen]
      rw [if_pos hv.symm]
    · have e1 := hs _ hso.length hk
      refine ⟨?_, ?_⟩
      · unfold Kind.header
        rw [e1, Outcome.ok_bind, ← hv, List.take_left]
      · unfold Kind.payload
        rw [e1, e0, Outcome.ok_bind, Outcome.ok_bind]
        have e : (v ++ b.drop v.length).drop st = b.drop st := by
          rw [List.drop_append, List.drop_drop, List.drop_eq_nil_of_le (by omega), List.nil_append]
          congr 1
          omega
        show Outcome.ok (((v ++ b.drop v.length).drop st).take n) = .ok ((b.drop st).take n)
        rw [e]
  · unfold Kind.writeHeader
    rw [e0]
    simp only [hlen]
    rw [if_neg (fun h => hv (by rw [hlen]; exact h.symm))]

/-- C106 for `header_mut()`, every accepted packet of every type. -/
theorem C106_header_mut (b : Bytes) :
    (Ether.new b = .ok b → HeaderWritable .ether (fun _ => True) b) ∧
    (V4.new b = .ok b →
      HeaderWritable .v4 (fun b' => field b' 4 4 = field b 4 4 ∧ field b' 16 16 = field b 16 16) b) ∧
    (V6.new b = .ok b → HeaderWritable .v6 (fun _ => True) b) ∧
    (Udp.new b = .ok b → HeaderWritable .udp (fun b' => field b' 32 16 = field b 32 16) b) ∧
    (Tcp.new b = .ok b → HeaderWritable .tcp (fun b' => field b' 96 4 = field b 96 4) b) ∧
    (Icmp.new b = .ok b → HeaderWritable .icmp (fun _ => True) b) ∧
    (Echo.new b = .ok b → HeaderWritable .echo (fun _ => True) b) ∧
    (Timestamp.new b = .ok b → HeaderWritable .timestamp (fun _ => True) b) ∧
    (Information.new b = .ok b → HeaderWritable .information (fun _ => True) b) ∧
    (Previous.new b = .ok b → HeaderWritable .previous (fun _ => True) b) ∧
    (Redirect.new b = .ok b → HeaderWritable .redirect (fun _ => True) b) ∧
    (ParamProblem.new b = .ok b → HeaderWritable .parameterProblem (fun _ => True) b) := by
  have all : ∀ (b' : Bytes) (st : Nat), b'.length = b.length →
      (b'.drop st).take (b.length - st) = b'.drop st := by
    intro b' st h
    exact List.take_of_length_le (by rw [List.length_drop]; omega)
  have at8 : ∀ b' : Bytes, b'.length = b.length → 8 ≤ b.length →
      splitAt b' 8 = .ok (b'.take 8, (b'.drop 8).take (b.length - 8)) := by
    intro b' h h8
    rw [all b' 8 h]
    exact splitAt_ok (by omega)
  refine ⟨fun h => ?_, fun h => ?_, fun h => ?_, fun h => ?_, fun h => ?_, fun h => ?_, fun h => ?_, fun h => ?_,
    fun h => ?_, fun h => ?_, fun h => ?_, fun h => ?_⟩
  · have hl : 14 ≤ b.length := by
      rw [C10_ether_accept] at h; split at h
      · assumption
      · cases h
    refine headerWritable_of 14 14 (b.length - 14) (Nat.le_refl _) hl trivial fun b' hb' _ => ?_
    rw [all b' 14 hb']
    exact splitAt_ok (by omega)
  · obtain ⟨-, hok⟩ := V4.new_ok_iff.1 h
    have h20 := hok.long; have hh := hok.header
    refine headerWritable_of (field b 4 4 * 4) (field b 4 4 * 4) (field b 16 16 - field b 4 4 * 4)
      (Nat.le_refl _) hh ⟨rfl, rfl⟩ fun b' hb' hk => ?_
    have := V4.split_eq (b := b') (by omega) (by rw [hk.1, hb']; exact hh)
    rw [hk.1, hk.2] at this
    exact this
  · refine headerWritable_of 0 0 0 (Nat.le_refl _) (Nat.zero_le _) trivial fun b' _ _ => ?_
    rfl
  · obtain ⟨-, h8, -⟩ := Udp.new_ok_iff.1 h
    refine headerWritable_of 8 8 (field b 32 16 - 8) (Nat.le_refl _) h8 rfl fun b' hb' hk => ?_
    have := Udp.split_eq (b := b') (by omega)
    rw [hk] at this
    exact this
  · obtain ⟨-, h20, hlen⟩ := Tcp.new_ok_iff.1 h
    refine headerWritable_of (field b 96 4 * 4) (field b 96 4 * 4) (b.length - field b 96 4 * 4)
      (Nat.le_refl _) hlen rfl fun b' hb' hk => ?_
    rw [all b' _ hb']
    have := Tcp.split_eq (b := b') (by omega) (by rw [hk, hb']; exact hlen)
    rw [hk] at this
    exact this
  · have hl : 4 ≤ b.length := by
      rw [C34_icmp_accept] at h; split at h
      · assumption
      · cases h
    refine headerWritable_of 4 4 (b.length - 4) (Nat.le_refl _) hl trivial fun b' hb' _ => ?_
    rw [all b' 4 hb']
    exact splitAt_ok (by omega)
  · have hl := (echo_ok h).1
    exact headerWritable_of 8 8 (b.length - 8) (Nat.le_refl _) hl trivial fun b' hb' _ => at8 b' hb' hl
  · have hl := (timestamp_ok h).1
    exact headerWritable_of 8 8 (b.length - 8) (Nat.le_refl _) (by omega) trivial fun b' hb' _ => at8 b' hb' (by omega)
  · have hl := (information_ok h).1
    exact headerWritable_of 8 8 (b.length - 8) (Nat.le_refl _) hl trivial fun b' hb' _ => at8 b' hb' hl
  · have hl := quoted_ok (.inl h)
    refine headerWritable_of 4 8 (b.length - 8) (by omega) (by omega) trivial fun b' hb' _ => ?_
    rw [all b' 8 hb']
    exact previous_split (by omega)
  · have hl := quoted_ok (.inr (.inl h))
    exact headerWritable_of 8 8 (b.length - 8) (Nat.le_refl _) hl trivial fun b' hb' _ => at8 b' hb' hl
  · have hl := quoted_ok (.inr (.inr h))
    refine headerWritable_of 5 8 (b.length - 8) (by omega) (by omega) trivial fun b' hb' _ => ?_
    rw [all b' 8 hb']
    exact paramProblem_split (by omega)

/-- `as_mut()` is write access to exactly the bytes `as_ref()` returns, as above. -/
def BytesWritable (k : Kind) (cfg : Cfg) (b : Bytes) : Prop :=
  ∃ r pad, k.asRef cfg b = .ok r ∧ b = r ++ pad ∧
    ∀ v : Bytes, (v.length = r.length → k.writeAll cfg v b = (.ok (), v ++ pad)) ∧
      (v.length ≠ r.length → k.writeAll cfg v b = (.panic, b))

theorem bytesWritable_of {k : Kind} {cfg : Cfg} {b : Bytes} {n : Nat} (hr : k.asRef cfg b = .ok (b.take n)) :
    BytesWritable k cfg b := by
  refine ⟨b.take n, b.drop n, hr, (List.take_append_drop n b).symm, fun v => ⟨fun hv => ?_, fun hv => ?_⟩⟩
  · unfold Kind.writeAll
    rw [hr]
    simp only []
    rw [if_pos hv.symm]
    congr 2
    rw [hv, List.length_take]
    rcases Nat.le_total n b.length with h | h
    · rw [Nat.min_eq_left h]
    · rw [Nat.min_eq_right h, List.drop_length, List.drop_of_length_le h]
  · unfold Kind.writeAll
    rw [hr]
    simp only []
    rw [if_neg (fun h => hv h.symm)]

/-- C106 for `as_mut()`, every accepted packet of every type. -/
theorem C106_as_mut (cfg : Cfg) (b : Bytes) (hb : b.length < cfg.usizeMod) :
    (Ether.new b = .ok b → BytesWritable .ether cfg b) ∧
    (V4.new b = .ok b → BytesWritable .v4 cfg b) ∧
    (V6.new b = .ok b → BytesWritable .v6 cfg b) ∧
    (Udp.new b = .ok b → BytesWritable .udp cfg b) ∧
    (Tcp.new b = .ok b → BytesWritable .tcp cfg b) ∧
    (Icmp.new b = .ok b → BytesWritable .icmp cfg b) ∧
    (Echo.new b = .ok b → BytesWritable .echo cfg b) ∧
    (Timestamp.new b = .ok b → BytesWritable .timestamp cfg b) ∧
    (Information.new b = .ok b → BytesWritable .information cfg b) ∧
    (Previous.new b = .ok b → BytesWritable .previous cfg b) ∧
    (Redirect.new b = .ok b → BytesWritable .redirect cfg b) ∧
    (ParamProblem.new b = .ok b → BytesWritable .parameterProblem cfg b) := by
  have whole : ∀ k : Kind, k.asRef cfg b = .ok b → BytesWritable k cfg b := fun k h =>
    bytesWritable_of (n := b.length) (by rw [List.take_length]; exact h)
  refine ⟨fun h => ?_, fun h => ?_, fun h => ?_, fun h => ?_, fun h => ?_, fun h => ?_, fun h => ?_, fun h => ?_,
    fun h => ?_, fun h => ?_, fun h => ?_, fun h => ?_⟩
  · obtain ⟨-, -, -, -, -, e, -⟩ := C10_ether_views cfg b hb h
    exact whole .ether e
  · obtain ⟨f1, f2, hd, pl, e1, e2, e3, -⟩ := C15_v4_split b h
    rw [f1] at e1; cases e1
    rw [f2] at e2; cases e2
    rw [← List.take_add] at e3
    exact bytesWritable_of (k := .v4) e3
  · exact bytesWritable_of (k := .v6) (n := 0) rfl
  · obtain ⟨-, -, -, -, -, e⟩ := C21_udp_views b h
    rw [← List.take_add] at e
    exact bytesWritable_of (k := .udp) e
  · obtain ⟨-, -, -, -, e⟩ := C24_tcp_views cfg b hb h
    exact whole .tcp e
  · obtain ⟨-, -, -, -, -, -, -, e, -⟩ := C34_icmp_views cfg b hb h
    exact whole .icmp e
  · obtain ⟨-, -, -, -, -, -, -, -, -, e⟩ := C36_echo_fields cfg b hb h
    exact whole .echo e
  · exact bytesWritable_of (k := .timestamp) (show sliceTo b 20 = _ from sliceTo_ok (timestamp_ok h).1)
  · exact bytesWritable_of (k := .information) (show sliceTo b 8 = _ from sliceTo_ok (information_ok h).1)
  · obtain ⟨n, e1, -⟩ := quotedAsRef_eq cfg b hb (quoted_ok (.inl h))
    exact bytesWritable_of (k := .previous) e1
  · obtain ⟨n, e1, -⟩ := quotedAsRef_eq cfg b hb (quoted_ok (.inr (.inl h)))
    exact bytesWritable_of (k := .redirect) e1
  · obtain ⟨n, e1, -⟩ := quotedAsRef_eq cfg b hb (quoted_ok (.inr (.inr h)))
    exact bytesWritable_of (k := .parameterProblem) e1

/-- A concrete case that meets the hypotheses. -/
example (cfg : Cfg) := C106_as_mut cfg Sample.udpPacket (by in_every_build)

/-- Replacing the bytes of a packet by those of another packet of the same type and length: the result is accepted
and is, read through every view, the other packet. -/
def Replaceable (k : Kind) (cfg : Cfg) (b : Bytes) : Prop :=
  ∀ r v : Bytes, k.asRef cfg b = .ok r → v.length = r.length → k.new v = .ok v → k.asRef cfg v = .ok v →
    ∃ b', k.writeAll cfg v b = (.ok (), b') ∧ k.new b' = .ok b' ∧ k.asRef cfg b' = .ok v ∧
      k.header b' = k.header v ∧ k.payload b' = k.payload v ∧ b'.length = b.length

theorem replaceable_whole {k : Kind} {cfg : Cfg} {b : Bytes} (h : k.asRef cfg b = .ok b) : Replaceable k cfg b := by
  intro r v hr hv hn ha
  have : b = r := by rw [h] at hr; exact Outcome.ok.inj hr
  subst this
  refine ⟨v, ?_, hn, ha, rfl, rfl, hv⟩
  unfold Kind.writeAll
  rw [h]
  simp only []
  rw [if_pos hv.symm, List.drop_of_length_le (by omega), List.append_nil]

/-- C106: the bytes of an accepted packet can be replaced by those of another. -/
theorem C106_replace (cfg : Cfg) (b : Bytes) (hb : b.length < cfg.usizeMod) :
    (Ether.new b = .ok b → Replaceable .ether cfg b) ∧
    (V4.new b = .ok b → Replaceable .v4 cfg b) ∧
    (Udp.new b = .ok b → Replaceable .udp cfg b) ∧
    (Tcp.new b = .ok b → Replaceable .tcp cfg b) ∧
    (Icmp.new b = .ok b → Replaceable .icmp cfg b) ∧
    (Echo.new b = .ok b → Replaceable .echo cfg b) := by
  obtain ⟨-, w2, -, w4, -⟩ := C106_as_mut cfg b hb
  refine ⟨fun h => ?_, fun h => ?_, fun h => ?_, fun h => ?_, fun h => ?_, fun h => ?_⟩
  · obtain ⟨-, -, -, -, -, e, -⟩ := C10_ether_views cfg b hb h
    exact replaceable_whole (k := .ether) e
  · intro r v hr hv hn ha
    obtain ⟨r', pad, g1, g2, g3⟩ := w2 h
    have : r' = r := by rw [g1] at hr; exact Outcome.ok.inj hr
    subst this
    obtain ⟨p1, -, -, -, -, -, -, -, -, -, -, -, -, -, p14, p15, -, p17, -⟩ := C88_v4_padding cfg v pad hn
    exact ⟨v ++ pad, (g3 v).1 hv, p1, p17.trans ha, p14, p15, by
      rw [congrArg List.length g2, List.length_append, List.length_append, hv]⟩
  · intro r v hr hv hn ha
    obtain ⟨r', pad, g1, g2, g3⟩ := w4 h
    have : r' = r := by rw [g1] at hr; exact Outcome.ok.inj hr
    subst this
    obtain ⟨p1, -, -, -, -, p6, p7, p8, -⟩ := C88_udp_padding v pad hn
    exact ⟨v ++ pad, (g3 v).1 hv, p1, p8.trans ha, p6, p7, by
      rw [congrArg List.length g2, List.length_append, List.length_append, hv]⟩
  · obtain ⟨-, -, -, -, e⟩ := C24_tcp_views cfg b hb h
    exact replaceable_whole (k := .tcp) e
  · obtain ⟨-, -, -, -, -, -, -, e, -⟩ := C34_icmp_views cfg b hb h
    exact replaceable_whole (k := .icmp) e
  · obtain ⟨-, -, -, -, -, -, -, -, -, e⟩ := C36_echo_fields cfg b hb h
    exact replaceable_whole (k := .echo) e

/-- A datagram with two bytes behind it, overwritten through `header_mut()` and through `as_mut()`. -/
example :
    let b : Bytes := [0, 53, 4, 0, 0, 10, 0, 0, 1, 2, 9, 9]
    Udp.new b = .ok b ∧
    Kind.writeHeader .udp [0, 54, 4, 1, 0, 10, 0, 7] b = (.ok (), [0, 54, 4, 1, 0, 10, 0, 7, 1, 2, 9, 9]) ∧
    Kind.writeAll .udp ⟨true, true, false⟩ [0, 54, 4, 1, 0, 9, 0, 7, 3, 4] b = (.ok (), [0, 54, 4, 1, 0, 9, 0, 7, 3, 4, 9, 9]) ∧
    Kind.writeAll .udp ⟨true, true, false⟩ [0, 54] b = (.panic, b) := by decide

end Verif.Props
