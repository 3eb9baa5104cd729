import Verif.Props.Short
import Verif.Samples

/-!
# C116: editing accepted TCP segments whose data offset is below 5
-/

namespace Verif.Props
open Verif Verif.Spec

/-- The bytes of the segment a setter writes, first and one behind the last. -/
def tcpSpan : Tcp.Set → Nat × Nat
  | .source _ => (0, 2)
  | .destination _ => (2, 4)
  | .sequence _ => (4, 8)
  | .acknowledgment _ => (8, 12)
  | .flags _ => (12, 14)
  | .window _ => (14, 16)
  | .pointer _ => (18, 20)

/-- The number it writes there; `set_flags` writes the whole word (C27). -/
def tcpValue : Tcp.Set → Nat
  | .source v | .destination v | .window v | .pointer v => v.toNat
  | .sequence v | .acknowledgment v => v.toNat
  | .flags f => f.bits.toNat

theorem tcp_onHeader_same {f : Mut Bytes Unit} {b : Bytes} {o : Outcome Unit} (h : 20 ≤ b.length)
    (hh : field b 96 4 * 4 ≤ b.length) (hf : ∀ c : Bytes, c.length = field b 96 4 * 4 → f c = (o, c)) :
    onHeader Tcp.split f b = (o, b) := by
  have hl : (b.take (field b 96 4 * 4)).length = field b 96 4 * 4 := by rw [List.length_take]; omega
  unfold onHeader
  rw [Tcp.split_eq h hh]
  simp only
  rw [hf _ hl]
  simp only [hl, List.take_append_drop]

theorem cursorWrite_end {off : Nat} {bs c : Bytes} (h : c.length = off) (hbs : bs ≠ []) : cursorWrite off bs c = (.err .io, c) := by
  have : 0 < bs.length := List.length_pos_iff.2 hbs
  unfold cursorWrite
  rw [if_pos (by omega), if_neg (by omega), h, Nat.sub_self, List.take_zero]
  simp [put, ← h]

theorem cursorWrite_panic {off : Nat} {bs c : Bytes} (h : c.length < off) : cursorWrite off bs c = (.panic, c) := by
  unfold cursorWrite
  rw [if_neg (by omega)]

theorem tcp_setFlags_short {b : Bytes} (h : 20 ≤ b.length) (hh : field b 96 4 * 4 ≤ b.length) (h4 : 4 ≤ field b 96 4)
    (f : TcpFlags) : Tcp.setFlags f b = (.ok (), put b 12 (be16 f.bits)) := by
  have hd : Tcp.header b = .ok (b.take (field b 96 4 * 4)) := by
    unfold Tcp.header; rw [Tcp.split_eq h hh]; rfl
  unfold Tcp.setFlags
  refine (Mut.bind_ok (a := (b.take (field b 96 4 * 4)).getD 12 0#8) (s' := b) ?_).trans ?_
  · simp only [Mut.read, hd, Outcome.ok_bind]
    rw [idx_ok (by rw [List.length_take]; omega)]
  · have hz : ∀ x : U8, ((x &&& 0b1111_0000#8).zeroExtend 16 <<< 12 : U16) = 0#16 := by
      intro x
      apply BitVec.eq_of_getLsbD_eq
      intro i hi
      simp only [BitVec.getLsbD_shiftLeft, BitVec.zeroExtend_eq_setWidth, BitVec.getLsbD_setWidth,
        BitVec.getLsbD_and, BitVec.getLsbD_zero]
      by_cases h12 : i < 12
      · simp [h12]
      · have : i - 12 = 0 ∨ i - 12 = 1 ∨ i - 12 = 2 ∨ i - 12 = 3 := by omega
        rcases this with h | h | h | h <;> rw [h] <;> simp
    simp only [hz, BitVec.zero_or]
    exact Tcp.onHeader_split h hh (by simp [be16]; omega) (fun _ h => writeU16_ok h)

theorem tcp_setFlags_panics {b : Bytes} (h : 20 ≤ b.length) (hh : field b 96 4 * 4 ≤ b.length) (h4 : field b 96 4 < 4)
    (f : TcpFlags) : Tcp.setFlags f b = (.panic, b) := by
  have hd : Tcp.header b = .ok (b.take (field b 96 4 * 4)) := by
    unfold Tcp.header; rw [Tcp.split_eq h hh]; rfl
  unfold Tcp.setFlags
  rw [Mut.bind_apply]
  simp only [Mut.read, hd, Outcome.ok_bind]
  have : idx (b.take (field b 96 4 * 4)) 12 = .panic := by
    unfold idx
    rw [List.getElem?_eq_none (by rw [List.length_take]; omega)]
  rw [this]

/-- C116: what each setter does to an accepted segment of any data offset.  If its field is inside the header it writes
the field; if the header ends where the field begins it fails (`set_flags`, which first reads, panics); if the header
ends before that it panics.  In the last two cases nothing changes. -/
theorem C116_tcp_setter (b : Bytes) (h : Tcp.new b = .ok b) (op : Tcp.Set) :
    ((tcpSpan op).2 ≤ field b 96 4 * 4 → ∃ b', op.run b = (.ok (), b') ∧
      SetsField b b' (8 * (tcpSpan op).1) (8 * ((tcpSpan op).2 - (tcpSpan op).1)) (tcpValue op)) ∧
    (field b 96 4 * 4 = (tcpSpan op).1 → notFlags op → op.run b = (.err .io, b)) ∧
    (field b 96 4 * 4 < (tcpSpan op).1 ∨ (field b 96 4 * 4 = (tcpSpan op).1 ∧ ¬ notFlags op) → op.run b = (.panic, b)) := by
  obtain ⟨-, h1, h2⟩ := Tcp.new_ok_iff.1 h
  have b16 : ∀ v : U16, (be16 v).length = 2 := fun _ => rfl
  have b32 : ∀ v : U32, (be32 v).length = 4 := fun _ => rfl
  have w16 : ∀ (off : Nat) (v : U16), off + 2 ≤ 20 → off + 2 ≤ field b 96 4 * 4 →
      ∃ b', onHeader Tcp.split (writeU16 off v) b = (.ok (), b') ∧ SetsField b b' (8 * off) 16 v.toNat := fun off v h20 ho =>
    ⟨_, Tcp.onHeader_split h1 h2 (by rw [b16]; exact ho) (fun _ h => writeU16_ok h),
      setsField_put16 (by omega)⟩
  have w32 : ∀ (off : Nat) (v : U32), off + 4 ≤ 20 → off + 4 ≤ field b 96 4 * 4 →
      ∃ b', onHeader Tcp.split (writeU32 off v) b = (.ok (), b') ∧ SetsField b b' (8 * off) 32 v.toNat := fun off v h20 ho =>
    ⟨_, Tcp.onHeader_split h1 h2 (by rw [b32]; exact ho) (fun _ h => writeU32_ok h),
      setsField_put32 (by omega)⟩
  have e16 : ∀ (off : Nat) (v : U16), field b 96 4 * 4 = off → onHeader Tcp.split (writeU16 off v) b = (.err .io, b) :=
    fun off v ho => tcp_onHeader_same h1 h2 (fun c hc => cursorWrite_end (by omega) (by simp [be16]))
  have e32 : ∀ (off : Nat) (v : U32), field b 96 4 * 4 = off → onHeader Tcp.split (writeU32 off v) b = (.err .io, b) :=
    fun off v ho => tcp_onHeader_same h1 h2 (fun c hc => cursorWrite_end (by omega) (by simp [be32]))
  have p16 : ∀ (off : Nat) (v : U16), field b 96 4 * 4 < off → onHeader Tcp.split (writeU16 off v) b = (.panic, b) :=
    fun off v ho => tcp_onHeader_same h1 h2 (fun c hc => cursorWrite_panic (by omega))
  have p32 : ∀ (off : Nat) (v : U32), field b 96 4 * 4 < off → onHeader Tcp.split (writeU32 off v) b = (.panic, b) :=
    fun off v ho => tcp_onHeader_same h1 h2 (fun c hc => cursorWrite_panic (by omega))
  cases op with
  | source v =>
    exact ⟨w16 0 v (by omega), fun ho _ => e16 0 v ho, fun ho => p16 0 v (ho.resolve_right (fun x => x.2 trivial))⟩
  | destination v =>
    exact ⟨w16 2 v (by omega), fun ho _ => e16 2 v ho, fun ho => p16 2 v (ho.resolve_right (fun x => x.2 trivial))⟩
  | sequence v =>
    exact ⟨w32 4 v (by omega), fun ho _ => e32 4 v ho, fun ho => p32 4 v (ho.resolve_right (fun x => x.2 trivial))⟩
  | acknowledgment v =>
    exact ⟨w32 8 v (by omega), fun ho _ => e32 8 v ho, fun ho => p32 8 v (ho.resolve_right (fun x => x.2 trivial))⟩
  | window v =>
    exact ⟨w16 14 v (by omega), fun ho _ => e16 14 v ho, fun ho => p16 14 v (ho.resolve_right (fun x => x.2 trivial))⟩
  | pointer v =>
    exact ⟨w16 18 v (by omega), fun ho _ => e16 18 v ho, fun ho => p16 18 v (ho.resolve_right (fun x => x.2 trivial))⟩
  | flags f =>
    refine ⟨fun ho => ?_, fun _ hf => absurd hf id, fun ho => ?_⟩
    · simp only [tcpSpan] at ho
      exact ⟨_, tcp_setFlags_short h1 h2 (by omega) f, setsField_put16 (off := 12) (by omega)⟩
    · simp only [tcpSpan] at ho
      exact tcp_setFlags_panics h1 h2 (by omega) f

/-- A concrete case that meets the hypotheses. -/
example := C116_tcp_setter Sample.tcp (by decide)

/-- The calls of a session on an accepted segment with a data offset below 5: the segment stays one. -/
theorem tcp_short_run : ∀ (ops : List Tcp.Set) (b : Bytes), Tcp.new b = .ok b → field b 96 4 < 5 →
    ∃ b', (runIgnoringErrors (ops.map Tcp.Set.run) b = (.panic, b') ∨
        runIgnoringErrors (ops.map Tcp.Set.run) b = (.ok (), b')) ∧ Tcp.new b' = .ok b' ∧ field b' 96 4 < 5 ∧
        b'.length = b.length := by
  intro ops
  induction ops with
  | nil => intro b hb h5; exact ⟨b, .inr rfl, hb, h5, rfl⟩
  | cons op ops ih =>
    intro b hb h5
    obtain ⟨s1, s2, s3⟩ := C116_tcp_setter b hb op
    obtain ⟨-, l1, l2⟩ := Tcp.new_ok_iff.1 hb
    simp only [List.map_cons, runIgnoringErrors]
    by_cases hin : (tcpSpan op).2 ≤ field b 96 4 * 4
    · obtain ⟨b1, e1, e2⟩ := s1 hin
      have hlen := e2.length
      have hoff : field b1 96 4 ≤ field b 96 4 := by
        by_cases hop : notFlags op
        · refine Nat.le_of_eq (e2.other ?_)
          cases op <;> simp only [tcpSpan] <;> first | omega | exact absurd hop id
        · cases op with
          | flags f =>
            have hv := e2.value
            simp only [tcpSpan, tcpValue, Nat.reduceMul, Nat.reduceSub] at hv
            have a1 := field_add b1 96 4 12
            simp only [Nat.reduceAdd] at a1
            have hf : f.bits.toNat < 512 := by
              have hval := f.valid
              have : f.bits &&& 0b1_1111_1111#16 = f.bits := by
                have e : f.bits = f.bits &&& (0b1_1111_1111#16 ||| ~~~0b1_1111_1111#16) := by
                  rw [BitVec.or_not_self, BitVec.and_allOnes]
                rw [BitVec.and_or_distrib_left, hval, BitVec.or_zero] at e
                exact e.symm
              rw [← this, and511_toNat]; omega
            omega
          | _ => exact absurd trivial hop
      rw [e1]
      obtain ⟨b2, k1, k2, k3, k4⟩ := ih b1 (Tcp.new_ok_iff.2 ⟨rfl, by omega, by omega⟩) (by omega)
      exact ⟨b2, k1, k2, k3, k4.trans hlen⟩
    · by_cases hp : field b 96 4 * 4 < (tcpSpan op).1 ∨ (field b 96 4 * 4 = (tcpSpan op).1 ∧ ¬ notFlags op)
      · rw [s3 hp]; exact ⟨b, .inl rfl, hb, h5, rfl⟩
      · have he : field b 96 4 * 4 = (tcpSpan op).1 ∧ notFlags op := by
          have hp1 : ¬ field b 96 4 * 4 < (tcpSpan op).1 := fun h => hp (.inl h)
          have e1 : field b 96 4 * 4 = (tcpSpan op).1 := by
            cases op <;> simp only [tcpSpan] at hin hp1 ⊢ <;> omega
          exact ⟨e1, Classical.byContradiction fun hn => hp (.inr ⟨e1, hn⟩)⟩
        rw [s2 he.1 he.2]
        exact ih b hb h5

/-- C116: a session through `checked(ip)` on an accepted segment with a data offset below 5 panics, whatever is called
and whatever the IP packet is. -/
theorem C116_tcp_checked_short (cfg : Cfg) (ip : IpPacket) (b : Bytes) (h : Tcp.new b = .ok b) (h5 : field b 96 4 < 5)
    (ops : List Tcp.Set) : ∃ b', Tcp.checkedRun cfg ip ops b = (.panic, b') ∧ b'.length = b.length := by
  obtain ⟨b1, k1, k3, k4, k2⟩ := tcp_short_run ops b h h5
  refine ⟨b1, ?_, k2⟩
  unfold Tcp.checkedRun
  rw [Mut.bind_apply]
  rcases k1 with k1 | k1
  · rw [k1]
  · rw [k1]
    obtain ⟨-, l1, l2⟩ := Tcp.new_ok_iff.1 k3
    show ((Tcp.updateChecksum cfg ip).unwrap) b1 = (.panic, b1)
    have hset : ∀ c, Tcp.setChecksum c b1 = (.panic, b1) ∨ Tcp.setChecksum c b1 = (.err .io, b1) := by
      intro c
      by_cases h4 : field b1 96 4 = 4
      · exact .inr (tcp_onHeader_same l1 l2 (fun d hd => cursorWrite_end (by omega) (by simp [be16])))
      · exact .inl (tcp_onHeader_same l1 l2 (fun d hd => cursorWrite_panic (by omega)))
    unfold Mut.unwrap Tcp.updateChecksum
    rw [Mut.bind_apply]
    simp only [Mut.read]
    cases Tcp.checksumOf cfg ip b1 with
    | ok c => rcases hset c with h | h <;> simp only [h] <;> rfl
    | err e => rfl
    | panic => rfl

/-- A concrete case that meets the hypotheses. -/
example (cfg : Cfg) (ip : IpPacket) := C116_tcp_checked_short cfg ip (put Sample.tcp 12 [64]) (by decide) (by decide)

/-- C116: exactly which sessions through `checked(ip)` on an accepted segment panic (sizes and lengths as in C28). -/
theorem C116_tcp_checked_panics_iff (cfg : Cfg) (ip b : Bytes) (hip : 20 ≤ ip.length) (h : Tcp.new b = .ok b)
    (hmax : b.length ≤ 65535) (hodd : b.length % 2 = 0 ∨ cfg.eofAdvances = false) (ops : List Tcp.Set) :
    (Tcp.checkedRun cfg (.v4 ip) ops b).1 = .panic ↔ field b 96 4 < 5 ∨ ∃ f, .flags f ∈ ops := by
  by_cases h5 : field b 96 4 < 5
  · obtain ⟨b', e1, -⟩ := C116_tcp_checked_short cfg (.v4 ip) b h h5 ops
    rw [e1]
    exact ⟨fun _ => .inl h5, fun _ => rfl⟩
  rcases flags_split ops with hops | ⟨before, f, after, rfl, hbefore⟩
  · obtain ⟨b', e1, -⟩ := C28_tcp_checked cfg ip b hip h (by omega) hmax hodd ops hops
    rw [e1]
    refine ⟨(fun hp => by cases hp), ?_⟩
    rintro (hc | ⟨f, hf⟩)
    · exact absurd hc h5
    · exact absurd (hops _ hf) id
  · obtain ⟨b', e1, -⟩ := C27_tcp_checked_flags_refuted cfg ip b h (by omega) before after hbefore f
    rw [e1]
    exact ⟨fun _ => .inr ⟨f, by simp⟩, fun _ => rfl⟩

/-- A concrete case that meets the hypotheses. -/
example (cfg : Cfg) := C116_tcp_checked_panics_iff cfg Sample.tcpPacket Sample.tcp (by decide) (by decide) (by decide)
    (.inl (by decide))

/-- C115 for TCP: exactly which received bytes make the program panic, when accepted IPv4 packets have a legal header
length and the accepted segment has an even length (or `std` leaves the cursor alone at the end, C60). -/
theorem C115_tcp_panics_iff (cfg : Cfg) (b : Bytes) (eops : List Ether.Set) (vops : List V4.Set) (ops : List Tcp.Set)
    (h5 : ∀ p, Ether.payload b = .ok p → V4.new p = .ok p → 5 ≤ field p 4 4)
    (hodd : ∀ p u, Carries b p u → Tcp.new u = .ok u → u.length % 2 = 0 ∨ cfg.eofAdvances = false) :
    (Ether.editStack eops (V4.editStack cfg vops (Tcp.editIn cfg ops)) b).1 = .panic ↔
      ∃ p u, Carries b p u ∧ Tcp.new u = .ok u ∧ (field u 96 4 < 5 ∨ ∃ f, .flags f ∈ ops) := by
  constructor
  · intro hp
    refine Classical.byContradiction fun hno => ?_
    obtain ⟨o, b', c1, c2, -⟩ := C115_any_frame cfg b eops vops (.tcp ops) h5 (by
      intro p u hc hu
      have hn : ¬ (field u 96 4 < 5 ∨ ∃ f, .flags f ∈ ops) := fun hn => hno ⟨p, u, hc, hu, hn⟩
      refine ⟨Nat.le_of_not_lt fun h => hn (.inl h), hodd p u hc hu, ?_⟩
      intro op hop
      cases op with
      | flags f => exact absurd ⟨f, hop⟩ fun h => hn (.inr h)
      | _ => trivial)
    have c1 : Ether.editStack eops (V4.editStack cfg vops (Tcp.editIn cfg ops)) b = (o, b') := c1
    rw [c1] at hp
    exact c2 hp
  · rintro ⟨p, u, hc, hu, hbad⟩
    have hmax := carried_length hc
    have hrun : ∀ ip : Bytes, 20 ≤ ip.length → ∃ u', Tcp.editIn cfg ops (.v4 ip) u = (.panic, u') ∧ u'.length = u.length := by
      intro ip hip
      have run : Tcp.editIn cfg ops (.v4 ip) u = Tcp.checkedRun cfg (.v4 ip) ops u := by
        unfold Tcp.editIn editing
        rw [hu]
      rw [run]
      by_cases h5 : field u 96 4 < 5
      · exact C116_tcp_checked_short cfg (.v4 ip) u hu h5 ops
      rcases flags_split ops with hops | ⟨before, f, after, rfl, hbefore⟩
      · obtain ⟨f, hf⟩ := hbad.resolve_left h5
        exact absurd (hops _ hf) id
      · obtain ⟨u', e1, e2, -⟩ := C27_tcp_checked_flags_refuted cfg ip u hu (by omega) before after hbefore f
        exact ⟨u', e1, e2⟩
    obtain ⟨b', p', u', ip, c1, -⟩ := frame_stack cfg b p u hc eops vops (Tcp.editIn cfg ops) hrun
    rw [c1]

/-- An accepted segment of data offset 4, on which `set_flags` works, `set_pointer` panics, and of data offset 1, on which
`set_sequence` fails. -/
example : ∃ b c : Bytes, Tcp.new b = .ok b ∧ field b 96 4 = 4 ∧ Tcp.new c = .ok c ∧ field c 96 4 = 1 :=
  ⟨[0, 80, 4, 0, 0, 0, 0, 1, 0, 0, 0, 2, 0x40, 2, 1, 0, 0, 0, 0, 0], [0, 80, 4, 0, 0, 0, 0, 1, 0, 0, 0, 2, 0x10, 2, 1, 0, 0, 0, 0, 0],
    by decide +kernel, by decide +kernel, by decide +kernel, by decide +kernel⟩

end Verif.Props
