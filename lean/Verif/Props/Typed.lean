import Verif.Props.Sessions
import Verif.Props.Nested
import Verif.Props.Padding
import Verif.Samples

/-!
# C105: editing a generic ICMP packet through its typed views

`icmp::Packet::is_valid()` sums the whole buffer.  The guard of an echo view does so too, but those of the
timestamp and information views sum 20 and 8 bytes.
-/

namespace Verif.Props
open Verif Verif.Spec

/-- The sum of the complete 16-bit words of a byte string; an odd last byte is not counted. -/
def wholeWordSum (m : Bytes) : Nat := (words (m.take (m.length / 2 * 2))).sum

theorem loopWords_whole {skip pos : Nat} (h : skip ≤ pos) (m : Bytes) :
    (loopWords skip m pos).sum = wholeWordSum m := by
  unfold wholeWordSum
  have hl : (m.take (m.length / 2 * 2)).length = m.length / 2 * 2 := by rw [List.length_take]; omega
  have e := loopWords_past h (m.take (m.length / 2 * 2))
  rw [oddWord_even (by omega)] at e
  have a := loopWords_append skip (m.take (m.length / 2 * 2)) (m.drop (m.length / 2 * 2)) pos (by omega)
  rw [List.take_append_drop] at a
  have t : loopWords skip (m.drop (m.length / 2 * 2)) (pos + (m.take (m.length / 2 * 2)).length) = [] := by
    have hd : (m.drop (m.length / 2 * 2)).length < 2 := by rw [List.length_drop]; omega
    generalize m.drop (m.length / 2 * 2) = d at hd
    match d with
    | [] => rfl
    | [_] => rfl
    | _ :: _ :: _ => simp only [List.length_cons] at hd; omega
  rw [a, t, List.append_nil]
  omega

/-- A message of which the first `n` bytes verify, verifies as a whole exactly if the words of the rest add up
to zero in one's complement. -/
theorem icmp_valid_rest (cfg : Cfg) {b : Bytes} {n : Nat} (h4 : 4 ≤ n) (he : n % 2 = 0) (hn : n ≤ b.length)
    (hv : Icmp.isValid cfg (b.take n) = .ok true) :
    Icmp.isValid cfg b = .ok (decide (wholeWordSum (b.drop n) % 65535 = 0)) := by
  have hl : (b.take n).length = n := by rw [List.length_take]; omega
  have a := loopWords_append 4 (b.take n) (b.drop n) 0 (by omega)
  rw [List.take_append_drop] at a
  have s := congrArg List.sum a
  rw [List.sum_append, loopWords_whole (pos := 0 + (b.take n).length) (by omega)] at s
  have r1 : Icmp.checksum b = .ok (BitVec.ofNat 16 (field b 16 16)) := readU16At_field (by omega)
  have r2 : Icmp.checksum (b.take n) = .ok (BitVec.ofNat 16 (field (b.take n) 16 16)) := readU16At_field (by omega)
  have r3 : field (b.take n) 16 16 = field b 16 16 := by
    apply field_congr
    intro i hi1 hi2
    apply bitAt_congr
    rw [List.getElem?_take, if_pos (by omega)]
  unfold Icmp.isValid at hv ⊢
  rw [Icmp.checksumOf_eq, r2, r3] at hv
  rw [Icmp.checksumOf_eq, r1]
  simp only [Outcome.ok_bind] at hv ⊢
  have hv := beq_ok_true.1 hv
  rw [← hv, s]
  congr 1
  rw [Bool.eq_iff_iff, beq_iff_eq, decide_eq_true_iff, ckOf_inj, norm_eq_iff]
  omega

/-- C105: a session through `echo_mut()` leaves the generic packet verifying, with its code and data as before and
kind, identifier and sequence number as last written. -/
theorem C105_echo_mut (cfg : Cfg) (b : Bytes) (hb : b.length < cfg.usizeMod) (h : Echo.new b = .ok b)
    (ops : List Echo.Set) :
    ∃ b', (Icmp.Session.echo ops).run cfg b = (.ok (), b') ∧ Icmp.new b' = .ok b' ∧ Echo.new b' = .ok b' ∧
      Icmp.isValid cfg b' = .ok true ∧ Icmp.code b' = Icmp.code b ∧ b'.length = b.length ∧ b'.drop 8 = b.drop 8 ∧
      ∀ s w, (s, w) ∈ [(0, 8), (32, 16), (48, 16)] → field b' s w = lastWritten echoWritten s (field b s w) ops := by
  have hl := (echo_ok h).1
  obtain ⟨b', e1, e2, e3, e4⟩ := C38_echo_checked cfg b hb h ops
  obtain ⟨c, f1, -, f3, f4, f5⟩ := C38_echo_checked_fields cfg b hb h ops
  have hc : b' = c := congrArg Prod.snd (e1.symm.trans f1)
  subst hc
  refine ⟨b', ?_, ?_, e3, e2, ?_, e4, f3, f5⟩
  · show editing Echo.new _ b = _
    unfold editing; rw [h]; exact e1
  · rw [C34_icmp_accept, if_pos (by omega)]
  · show idx b' 1 = idx b 1
    rw [idx_field (by omega), idx_field (by omega)]
    exact congrArg (fun n => Outcome.ok (BitVec.ofNat 8 n)) f4

/-- A concrete case that meets the hypotheses. -/
example (cfg : Cfg) := C105_echo_mut cfg Sample.echo (by in_every_build) (by decide)

/-- C105: a session through `timestamp_mut()` leaves the generic packet verifying exactly if the words behind the
20 bytes of the message add up to zero in one's complement, in particular if there is nothing behind them. -/
theorem C105_timestamp_mut (cfg : Cfg) (b : Bytes) (h : Timestamp.new b = .ok b) (ops : List Timestamp.Set) :
    ∃ b', (Icmp.Session.timestamp ops).run cfg b = (.ok (), b') ∧ Icmp.new b' = .ok b' ∧
      Icmp.isValid cfg b' = .ok (decide (wholeWordSum (b.drop 20) % 65535 = 0)) ∧
      Icmp.code b' = Icmp.code b ∧ b'.length = b.length ∧ b'.drop 20 = b.drop 20 ∧
      ∀ s w, (s, w) ∈ [(0, 8), (32, 16), (48, 16), (64, 32), (96, 32), (128, 32)] →
        field b' s w = lastWritten timestampWritten s (field b s w) ops := by
  have hl := (timestamp_ok h).1
  obtain ⟨b', e1, e2, e3, e4, e5, e6⟩ := timestamp_checked_all cfg b hl ops
  refine ⟨b', ?_, ?_, ?_, ?_, e3, e4, e6⟩
  · show editing Timestamp.new _ b = _
    unfold editing; rw [h]; exact e1
  · rw [C34_icmp_accept, if_pos (by omega)]
  · rw [icmp_valid_rest cfg (n := 20) (by omega) (by omega) (by omega) e2, e4]
  · show idx b' 1 = idx b 1
    rw [idx_field (by omega), idx_field (by omega)]
    exact congrArg (fun n => Outcome.ok (BitVec.ofNat 8 n)) e5

/-- A concrete case that meets the hypotheses. -/
example (cfg : Cfg) := C105_timestamp_mut cfg Sample.timestamp (by decide)

/-- C105: a session through `information_mut()` leaves the generic packet verifying exactly if the words behind the
8 bytes of the message add up to zero in one's complement. -/
theorem C105_information_mut (cfg : Cfg) (b : Bytes) (h : Information.new b = .ok b) (ops : List Information.Set) :
    ∃ b', (Icmp.Session.information ops).run cfg b = (.ok (), b') ∧ Icmp.new b' = .ok b' ∧
      Icmp.isValid cfg b' = .ok (decide (wholeWordSum (b.drop 8) % 65535 = 0)) ∧
      Icmp.code b' = Icmp.code b ∧ b'.length = b.length ∧ b'.drop 8 = b.drop 8 ∧
      ∀ s w, (s, w) ∈ [(0, 8), (32, 16), (48, 16)] →
        field b' s w = lastWritten informationWritten s (field b s w) ops := by
  have hl := (information_ok h).1
  obtain ⟨b', e1, e2, e3, e4, e5, e6⟩ := information_checked_all cfg b hl ops
  refine ⟨b', ?_, ?_, ?_, ?_, e3, e4, e6⟩
  · show editing Information.new _ b = _
    unfold editing; rw [h]; exact e1
  · rw [C34_icmp_accept, if_pos (by omega)]
  · rw [icmp_valid_rest cfg (n := 8) (by omega) (by omega) (by omega) e2, e4]
  · show idx b' 1 = idx b 1
    rw [idx_field (by omega), idx_field (by omega)]
    exact congrArg (fun n => Outcome.ok (BitVec.ofNat 8 n)) e5

/-- A concrete case that meets the hypotheses. -/
example (cfg : Cfg) := C105_information_mut cfg Sample.information (by decide)

/-- The type octets of the messages a session is for, and how long they are at least. -/
def forTypes : Icmp.Session → List Nat × Nat
  | .echo _ => ([8, 0], 8)
  | .timestamp _ => ([13, 14], 20)
  | .information _ => ([15, 16], 8)

/-- C105: a session on a message of another kind, or on one too short, fails and changes nothing. -/
theorem C105_refused (cfg : Cfg) (b : Bytes) (s : Icmp.Session) :
    (b.length < (forTypes s).2 → s.run cfg b = (.err .smallBuffer, b)) ∧
    ((forTypes s).2 ≤ b.length → field b 0 8 ∉ (forTypes s).1 → s.run cfg b = (.err .invalidPacket, b)) := by
  obtain ⟨e1, e2, e3, -⟩ := C35_icmp_typed_accept b
  cases s with
  | echo ops =>
    refine ⟨fun h => ?_, fun h h' => ?_⟩ <;> show editing Echo.new _ b = _ <;> unfold editing
    · rw [e1, if_pos (show b.length < 8 from h)]
    · rw [e1, if_neg (show ¬ b.length < 8 from Nat.not_lt.2 h), if_neg (show field b 0 8 ∉ [8, 0] from h')]
  | timestamp ops =>
    refine ⟨fun h => ?_, fun h h' => ?_⟩ <;> show editing Timestamp.new _ b = _ <;> unfold editing
    · rw [e2, if_pos (show b.length < 20 from h)]
    · rw [e2, if_neg (show ¬ b.length < 20 from Nat.not_lt.2 h), if_neg (show field b 0 8 ∉ [13, 14] from h')]
  | information ops =>
    refine ⟨fun h => ?_, fun h h' => ?_⟩ <;> show editing Information.new _ b = _ <;> unfold editing
    · rw [e3, if_pos (show b.length < 8 from h)]
    · rw [e3, if_neg (show ¬ b.length < 8 from Nat.not_lt.2 h), if_neg (show field b 0 8 ∉ [15, 16] from h')]

/-- C105, histories: any sequence of sessions through any of the views, whether refused or not, never panics, and
keeps the length, the code and everything behind the 20 bytes of a timestamp message. -/
theorem C105_history (cfg : Cfg) (b : Bytes) (hb : b.length < cfg.usizeMod) (h : Icmp.new b = .ok b)
    (ss : List Icmp.Session) :
    ∃ b', runIgnoringErrors (ss.map (Icmp.Session.run cfg)) b = (.ok (), b') ∧ Icmp.new b' = .ok b' ∧
      b'.length = b.length ∧ Icmp.code b' = Icmp.code b ∧ b'.drop 20 = b.drop 20 := by
  have hl : 4 ≤ b.length := by
    rw [C34_icmp_accept] at h
    split at h
    · assumption
    · cases h
  have key : ∀ f ∈ ss.map (Icmp.Session.run cfg), ∀ c : Bytes,
      (c.length = b.length ∧ Icmp.code c = Icmp.code b ∧ c.drop 20 = b.drop 20) →
      (f c).1 ≠ .panic ∧ ((f c).2.length = b.length ∧ Icmp.code (f c).2 = Icmp.code b ∧
        (f c).2.drop 20 = b.drop 20) := by
    intro f hf c ⟨c1, c2, c3⟩
    obtain ⟨s, -, rfl⟩ := List.mem_map.1 hf
    obtain ⟨r1, r2⟩ := C105_refused cfg c s
    by_cases hs : c.length < (forTypes s).2
    · rw [r1 hs]; exact ⟨fun h => (by cases h), c1, c2, c3⟩
    by_cases ht : field c 0 8 ∉ (forTypes s).1
    · rw [r2 (by omega) ht]; exact ⟨fun h => (by cases h), c1, c2, c3⟩
    have ht := Decidable.not_not.1 ht
    obtain ⟨e1, e2, e3, -⟩ := C35_icmp_typed_accept c
    cases s with
    | echo ops =>
      rw [if_neg (show ¬ c.length < 8 from hs), if_pos (show field c 0 8 ∈ [8, 0] from ht)] at e1
      obtain ⟨d, d1, -, -, -, d2, d3, d4, -⟩ := C105_echo_mut cfg c (by omega) e1 ops
      rw [d1]
      refine ⟨fun h => (by cases h), d3.trans c1, d2.trans c2, ?_⟩
      have := congrArg (List.drop 12) d4
      rw [List.drop_drop, List.drop_drop] at this
      exact this.trans c3
    | timestamp ops =>
      rw [if_neg (show ¬ c.length < 20 from hs), if_pos (show field c 0 8 ∈ [13, 14] from ht)] at e2
      obtain ⟨d, d1, -, -, d2, d3, d4, -⟩ := C105_timestamp_mut cfg c e2 ops
      rw [d1]
      exact ⟨fun h => (by cases h), d3.trans c1, d2.trans c2, d4.trans c3⟩
    | information ops =>
      rw [if_neg (show ¬ c.length < 8 from hs), if_pos (show field c 0 8 ∈ [15, 16] from ht)] at e3
      obtain ⟨d, d1, -, -, d2, d3, d4, -⟩ := C105_information_mut cfg c e3 ops
      rw [d1]
      refine ⟨fun h => (by cases h), d3.trans c1, d2.trans c2, ?_⟩
      have := congrArg (List.drop 12) d4
      rw [List.drop_drop, List.drop_drop] at this
      exact this.trans c3
  obtain ⟨b', h1, h2, h3, h4⟩ := runIgnoringErrors_inv
    (P := fun c : Bytes => c.length = b.length ∧ Icmp.code c = Icmp.code b ∧ c.drop 20 = b.drop 20)
    (ss.map (Icmp.Session.run cfg)) key b ⟨rfl, rfl, rfl⟩
  exact ⟨b', h1, by rw [C34_icmp_accept, if_pos (by omega)], h2, h3, h4⟩

/-- A concrete case that meets the hypotheses. -/
example (cfg : Cfg) := C105_history cfg Sample.echo (by in_every_build) (by decide)

/-- C100, ICMP timestamp: the same; the message in its 20 bytes verifies, and the whole payload of the packet does
exactly if the words behind it add up to zero. -/
theorem C100_timestamp_in_frame (cfg : Cfg) (b p u : Bytes) (h : Carries b p u) (hu : Timestamp.new u = .ok u)
    (eops : List Ether.Set) (vops : List V4.Set) (ops : List Timestamp.Set) :
    ∃ b' p' u', Ether.editStack eops (V4.editStack cfg vops (Timestamp.editIn cfg ops)) b = (.ok (), b') ∧
      Carries b' p' u' ∧ EtherEdited eops b b' ∧ HeaderEdited vops p p' ∧
      V4.isValid cfg p' = .ok true ∧ (field u' 0 8 = field u 0 8 → Timestamp.new u' = .ok u') ∧ Icmp.isValid cfg (u'.take 20) = .ok true ∧
      Icmp.isValid cfg u' = .ok (decide (wholeWordSum (u.drop 20) % 65535 = 0)) ∧
      u'.length = u.length ∧ u'.drop 20 = u.drop 20 ∧ field u' 8 8 = field u 8 8 ∧
      ∀ s w, (s, w) ∈ [(0, 8), (32, 16), (48, 16), (64, 32), (96, 32), (128, 32)] →
        field u' s w = lastWritten timestampWritten s (field u s w) ops := by
  have hl := (timestamp_ok hu).1
  have run : ∀ ip : Bytes, Timestamp.editIn cfg ops (.v4 ip) u = Timestamp.checkedRun cfg ops u := by
    intro ip
    unfold Timestamp.editIn editing
    rw [hu]
  obtain ⟨u'', e1, e2, e3, e4, e5, e6⟩ := timestamp_checked_all cfg u hl ops
  obtain ⟨b', p', u', ip, c1, c2, c3, c4, c5, c6, -⟩ := frame_stack cfg b p u h eops vops (Timestamp.editIn cfg ops)
    (fun ip hip => ⟨u'', (run ip).trans e1, e3⟩)
  have : u'' = u' := by
    rw [run ip, e1] at c6
    exact congrArg Prod.snd c6
  subst this
  refine ⟨b', p', u'', c1, c2, c3, c4, c5, ?_, e2, ?_, e3, e4, e5, e6⟩
  · intro h0
    have k := (C35_icmp_typed_accept u).2.1
    rw [hu] at k
    rw [(C35_icmp_typed_accept u'').2.1, e3, h0]
    split at k
    · cases k
    split at k
    · rename_i g1 g2; rw [if_neg g1, if_pos g2]
    · cases k
  · rw [icmp_valid_rest cfg (n := 20) (by omega) (by omega) (by omega) e2, e4]

/-- A concrete case that meets the hypotheses. -/
example (cfg : Cfg) := C100_timestamp_in_frame cfg Sample.timestampFrame Sample.timestampPacket Sample.timestamp
    ⟨by decide, by decide, by decide, by decide, by decide⟩ (by decide)

/-- C100, ICMP information: the same; the message in its 8 bytes verifies, and the whole payload of the packet does
exactly if the words behind it add up to zero. -/
theorem C100_information_in_frame (cfg : Cfg) (b p u : Bytes) (h : Carries b p u) (hu : Information.new u = .ok u)
    (eops : List Ether.Set) (vops : List V4.Set) (ops : List Information.Set) :
    ∃ b' p' u', Ether.editStack eops (V4.editStack cfg vops (Information.editIn cfg ops)) b = (.ok (), b') ∧
      Carries b' p' u' ∧ EtherEdited eops b b' ∧ HeaderEdited vops p p' ∧
      V4.isValid cfg p' = .ok true ∧ (field u' 0 8 = field u 0 8 → Information.new u' = .ok u') ∧ Icmp.isValid cfg (u'.take 8) = .ok true ∧
      Icmp.isValid cfg u' = .ok (decide (wholeWordSum (u.drop 8) % 65535 = 0)) ∧
      u'.length = u.length ∧ u'.drop 8 = u.drop 8 ∧ field u' 8 8 = field u 8 8 ∧
      ∀ s w, (s, w) ∈ [(0, 8), (32, 16), (48, 16)] →
        field u' s w = lastWritten informationWritten s (field u s w) ops := by
  have hl := (information_ok hu).1
  have run : ∀ ip : Bytes, Information.editIn cfg ops (.v4 ip) u = Information.checkedRun cfg ops u := by
    intro ip
    unfold Information.editIn editing
    rw [hu]
  obtain ⟨u'', e1, e2, e3, e4, e5, e6⟩ := information_checked_all cfg u hl ops
  obtain ⟨b', p', u', ip, c1, c2, c3, c4, c5, c6, -⟩ := frame_stack cfg b p u h eops vops (Information.editIn cfg ops)
    (fun ip hip => ⟨u'', (run ip).trans e1, e3⟩)
  have : u'' = u' := by
    rw [run ip, e1] at c6
    exact congrArg Prod.snd c6
  subst this
  refine ⟨b', p', u'', c1, c2, c3, c4, c5, ?_, e2, ?_, e3, e4, e5, e6⟩
  · intro h0
    have k := (C35_icmp_typed_accept u).2.2.1
    rw [hu] at k
    rw [(C35_icmp_typed_accept u'').2.2.1, e3, h0]
    split at k
    · cases k
    split at k
    · rename_i g1 g2; rw [if_neg g1, if_pos g2]
    · cases k
  · rw [icmp_valid_rest cfg (n := 8) (by omega) (by omega) (by omega) e2, e4]

/-- An echo message of odd length; a timestamp message followed by two words that cancel, and one followed by
words that do not: the second stays invalid after the session. -/
example : Echo.new [8, 0, 0, 0, 0, 1, 0, 2, 7] = .ok [8, 0, 0, 0, 0, 1, 0, 2, 7] ∧
    Timestamp.new ([13, 0, 0, 0, 0, 1, 0, 2] ++ zeros 12 ++ [0x12, 0x34, 0xed, 0xcb]) =
      .ok ([13, 0, 0, 0, 0, 1, 0, 2] ++ zeros 12 ++ [0x12, 0x34, 0xed, 0xcb]) ∧
    wholeWordSum [0x12, 0x34, 0xed, 0xcb] % 65535 = 0 ∧ wholeWordSum [0x12, 0x34, 0xed] % 65535 ≠ 0 := by
  decide +kernel

end Verif.Props
