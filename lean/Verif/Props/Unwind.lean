import Verif.Model.Unwind
import Verif.Props.ShortTcp
import Verif.Props.Sessions
import Verif.Samples

/-!
# C117: a panic while a `checked()` guard is alive
-/

namespace Verif.Props
open Verif Verif.Spec

/-- How a program ends whose guard works: it panics exactly if user code panics. -/
def endsAs (interrupted : Bool) : Ended := if interrupted then .panics else .returns

theorem guarded_of_run {calls : List (Mut Bytes Unit)} {drop : Mut Bytes Unit} {b b' : Bytes} (i : Bool)
    (h : (runIgnoringErrors calls >>= fun _ => drop) b = (.ok (), b')) : guarded calls drop i b = (endsAs i, b') := by
  rw [Mut.bind_apply] at h
  unfold guarded endsAs
  generalize runIgnoringErrors calls b = r at h ⊢
  obtain ⟨o, c⟩ := r
  cases o with
  | panic => exact absurd (congrArg Prod.fst h) (fun h => by cases h)
  | err e => exact absurd (congrArg Prod.fst h) (fun h => by cases h)
  | ok u =>
    simp only at h ⊢
    rw [h]

/-- C117, IPv4: whatever setters were called before the panic (header long enough for them, C114), the guard leaves a
right checksum, and every field as a session of just these calls leaves it (C19). -/
theorem C117_v4 (cfg : Cfg) (b : Bytes) (h : V4.noPayload b = .ok b) (ops : List V4.Set) (hin : InHeader ops b)
    (interrupted : Bool) : ∃ b', V4.guarded cfg ops interrupted b = (endsAs interrupted, b') ∧
      V4.checkedRun cfg ops b = (.ok (), b') ∧ V4.isValid cfg b' = .ok true := by
  obtain ⟨b', k1, k2, -⟩ := C114_v4_checked cfg b h ops hin
  exact ⟨b', guarded_of_run interrupted k1, k1, k2⟩

/-- A concrete case that meets the hypotheses. -/
example (cfg : Cfg) := C117_v4 cfg Sample.fourWords (by decide) [.ttl 9, .source ⟨10, 0, 0, 3⟩]
    ⟨by decide, List.forall_mem_cons.2 ⟨by decide, List.forall_mem_cons.2 ⟨by decide, fun _ h => (by cases h)⟩⟩⟩

/-- C117, UDP. -/
theorem C117_udp (cfg : Cfg) (ip b : Bytes) (hip : 20 ≤ ip.length) (h : Udp.noPayload b = .ok b) (ops : List Udp.Set)
    (interrupted : Bool) : ∃ b', Udp.guarded cfg (.v4 ip) ops interrupted b = (endsAs interrupted, b') ∧
      Udp.checkedRun cfg (.v4 ip) ops b = (.ok (), b') ∧ Udp.isValid cfg (.v4 ip) b' = .ok true := by
  obtain ⟨b', k1, k2, -⟩ := C23_udp_checked cfg ip b hip h ops
  exact ⟨b', guarded_of_run interrupted k1, k1, k2⟩

/-- A concrete case that meets the hypotheses. -/
example (cfg : Cfg) := C117_udp cfg Sample.udpPacket Sample.udp (by decide) (by decide)

/-- C117, ICMP echo, timestamp and information messages (the last two sum only their first 20 or 8 bytes, C72). -/
theorem C117_icmp (cfg : Cfg) (b : Bytes) (hb : b.length < cfg.usizeMod) (interrupted : Bool) :
    (Echo.new b = .ok b → ∀ ops, ∃ b', Echo.guarded cfg ops interrupted b = (endsAs interrupted, b') ∧
      Echo.checkedRun cfg ops b = (.ok (), b') ∧ Icmp.isValid cfg b' = .ok true) ∧
    (Timestamp.new b = .ok b → ∀ ops, ∃ b', Timestamp.guarded cfg ops interrupted b = (endsAs interrupted, b') ∧
      Timestamp.checkedRun cfg ops b = (.ok (), b') ∧ Icmp.isValid cfg (b'.take 20) = .ok true) ∧
    (Information.new b = .ok b → ∀ ops, ∃ b', Information.guarded cfg ops interrupted b = (endsAs interrupted, b') ∧
      Information.checkedRun cfg ops b = (.ok (), b') ∧ Icmp.isValid cfg (b'.take 8) = .ok true) := by
  refine ⟨fun h ops => ?_, fun h ops => ?_, fun h ops => ?_⟩
  · obtain ⟨b', k1, k2, k3, -⟩ := echo_checked_all cfg b (echo_ok h).1 hb ops
    rw [← k3, List.take_length] at k2
    exact ⟨b', guarded_of_run interrupted k1, k1, k2⟩
  · obtain ⟨b', k1, k2, -⟩ := timestamp_checked_all cfg b (timestamp_ok h).1 ops
    exact ⟨b', guarded_of_run interrupted k1, k1, k2⟩
  · obtain ⟨b', k1, k2, -⟩ := information_checked_all cfg b (information_ok h).1 ops
    exact ⟨b', guarded_of_run interrupted k1, k1, k2⟩

/-- A concrete case that meets the hypotheses. -/
example (cfg : Cfg) := C117_icmp cfg Sample.echo (by in_every_build)

/-- C117, TCP without `set_flags` on a segment with a legal data offset. -/
theorem C117_tcp (cfg : Cfg) (ip b : Bytes) (hip : 20 ≤ ip.length) (h : Tcp.new b = .ok b) (h5 : 5 ≤ field b 96 4)
    (hmax : b.length ≤ 65535) (hodd : b.length % 2 = 0 ∨ cfg.eofAdvances = false) (ops : List Tcp.Set)
    (hops : ∀ op ∈ ops, notFlags op) (interrupted : Bool) :
    ∃ b', Tcp.guarded cfg (.v4 ip) ops interrupted b = (endsAs interrupted, b') ∧
      Tcp.checkedRun cfg (.v4 ip) ops b = (.ok (), b') ∧ Tcp.isValid cfg (.v4 ip) b' = .ok true := by
  obtain ⟨b', k1, k2, -⟩ := C28_tcp_checked cfg ip b hip h h5 hmax hodd ops hops
  exact ⟨b', guarded_of_run interrupted k1, k1, k2⟩

/-- A concrete case that meets the hypotheses. -/
example (cfg : Cfg) := C117_tcp cfg Sample.tcpPacket Sample.tcp (by decide) (by decide) (by decide) (by decide)
    (.inl (by decide)) [.window 7, .source 9] (by simp [notFlags])

theorem run_append (fs gs : List (Mut Bytes Unit)) : ∀ b : Bytes, runIgnoringErrors (fs ++ gs) b =
    match runIgnoringErrors fs b with
    | (.panic, c) => (.panic, c)
    | (_, c) => runIgnoringErrors gs c := by
  induction fs with
  | nil => intro b; rfl
  | cons f fs ih =>
    intro b
    simp only [List.cons_append, runIgnoringErrors]
    generalize f b = r
    obtain ⟨o, c⟩ := r
    cases o with
    | panic => rfl
    | ok u => exact ih c
    | err e => exact ih c

/-- A setter of IPv4 panics: the calls before it are in effect. -/
theorem v4_first_panic : ∀ (ops : List V4.Set) (b : Bytes), V4.noPayload b = .ok b →
    (∃ op ∈ ops, field b 4 4 < wordsNeeded op) →
    ∃ before op after, ops = before ++ op :: after ∧ field b 4 4 < wordsNeeded op ∧
      ∀ o ∈ before, wordsNeeded o ≤ field b 4 4 := by
  intro ops
  induction ops with
  | nil => rintro b _ ⟨op, h, -⟩; cases h
  | cons op ops ih =>
    intro b hb hex
    by_cases ho : field b 4 4 < wordsNeeded op
    · exact ⟨[], op, ops, rfl, ho, fun _ h => (by cases h)⟩
    · obtain ⟨before, op', after, k1, k2, k3⟩ := ih b hb (by
        obtain ⟨op', h1, h2⟩ := hex
        rcases List.mem_cons.1 h1 with rfl | h1
        · exact absurd h2 ho
        · exact ⟨op', h1, h2⟩)
      refine ⟨op :: before, op', after, by rw [k1]; rfl, k2, fun o h => ?_⟩
      rcases List.mem_cons.1 h with rfl | h
      · omega
      · exact k3 o h

theorem v4_drop_panics (cfg : Cfg) (b : Bytes) (h : V4.noPayload b = .ok b) (h3 : field b 4 4 < 3) :
    (V4.updateChecksum cfg).unwrap b = (.panic, b) := by
  have hok := (V4.noPayload_ok_iff.1 h).2
  have h1 := hok.long; have h2 := hok.header
  have : V4.updateChecksum cfg b = (.panic, b) := by
    unfold V4.updateChecksum
    obtain ⟨c, hc⟩ : ∃ c, V4.checksumOf cfg (b.take (field b 4 4 * 4)) = .ok c := ⟨_, V4.checksumOf_eq _ _⟩
    refine (Mut.bind_ok (a := c) (s' := b) ?_).trans ?_
    · simp [Mut.read, V4.header_eq (show 4 ≤ b.length by omega) h2, hc]
    · exact onHeader_panic (by omega) h2 (fun c hc => writeU16_panic (by omega))
  simp [Mut.unwrap, this]

/-- C117, IPv4 packets with a header length of 3 or 4 on which a setter panics: `before` are the calls that went through.
The thread panics, and the packet is left as a session of these calls leaves it, with a right checksum. -/
theorem C117_v4_setter_panics (cfg : Cfg) (b : Bytes) (h : V4.noPayload b = .ok b) (h3 : 3 ≤ field b 4 4)
    (before : List V4.Set) (op : V4.Set) (after : List V4.Set) (hbefore : ∀ o ∈ before, wordsNeeded o ≤ field b 4 4)
    (hop : field b 4 4 < wordsNeeded op) (interrupted : Bool) :
    ∃ b', V4.guarded cfg (before ++ op :: after) interrupted b = (.panics, b') ∧
      V4.checkedRun cfg before b = (.ok (), b') ∧ V4.isValid cfg b' = .ok true := by
  obtain ⟨b', k1, k2, -⟩ := C114_v4_checked cfg b h before ⟨h3, hbefore⟩
  obtain ⟨b1, e1, e2, -, -, e5, -⟩ := short_run before b h hbefore
  refine ⟨b', ?_, k1, k2⟩
  unfold V4.checkedRun at k1
  rw [Mut.bind_ok e1] at k1
  unfold V4.guarded guarded
  rw [List.map_append, run_append, e1]
  simp only [List.map_cons, runIgnoringErrors]
  rw [C114_v4_setter_panics op b1 e2 (by rw [ihl_same e5]; exact hop)]
  simp only
  rw [k1]

/-- A concrete case that meets the hypotheses. -/
example (cfg : Cfg) (after : List V4.Set) := C117_v4_setter_panics cfg Sample.fourWords (by decide) (by decide)
    [.ttl 9] (.destination ⟨10, 0, 0, 3⟩) after (by simp [wordsNeeded]; decide) (by decide)

/-- C117, IPv4 packets with a header length below 3: the guard's own `Drop` panics, so the process aborts exactly if a
setter panics or the user's code does; otherwise the thread panics. -/
theorem C117_v4_aborts (cfg : Cfg) (b : Bytes) (h : V4.noPayload b = .ok b) (h3 : field b 4 4 < 3) (ops : List V4.Set)
    (interrupted : Bool) :
    (V4.guarded cfg ops interrupted b).1 =
      (if interrupted || ops.any (fun op => field b 4 4 < wordsNeeded op) then .aborts else .panics) := by
  have hany : ops.any (fun op => field b 4 4 < wordsNeeded op) = true ↔ ∃ op ∈ ops, field b 4 4 < wordsNeeded op := by
    simp only [List.any_eq_true, decide_eq_true_eq]
  by_cases hex : ∃ op ∈ ops, field b 4 4 < wordsNeeded op
  · rw [hany.2 hex, Bool.or_true, if_pos rfl]
    obtain ⟨before, op, after, rfl, k2, k3⟩ := v4_first_panic ops b h hex
    obtain ⟨b1, e1, e2, -, -, e5, -⟩ := short_run before b h k3
    unfold V4.guarded guarded
    rw [List.map_append, run_append, e1]
    simp only [List.map_cons, runIgnoringErrors]
    rw [C114_v4_setter_panics op b1 e2 (by rw [ihl_same e5]; exact k2)]
    simp only
    rw [v4_drop_panics cfg b1 e2 (by rw [ihl_same e5]; exact h3)]
  · have hall : ∀ op ∈ ops, wordsNeeded op ≤ field b 4 4 := fun op ho =>
      Nat.le_of_not_lt fun hlt => hex ⟨op, ho, hlt⟩
    obtain ⟨b1, e1, e2, -, -, e5, -⟩ := short_run ops b h hall
    unfold V4.guarded guarded
    rw [e1]
    simp only
    rw [v4_drop_panics cfg b1 e2 (by rw [ihl_same e5]; exact h3)]
    cases interrupted with
    | true => rfl
    | false => rw [Bool.false_or, if_neg (fun h => hex (hany.1 h))]; rfl

/-! ## TCP -/

theorem tcp_drop_panics (cfg : Cfg) (ip : IpPacket) (b : Bytes) (h : Tcp.new b = .ok b) (h5 : field b 96 4 < 5) :
    (Tcp.updateChecksum cfg ip).unwrap b = (.panic, b) := by
  obtain ⟨-, l1, l2⟩ := Tcp.new_ok_iff.1 h
  have hset : ∀ c, Tcp.setChecksum c b = (.panic, b) ∨ Tcp.setChecksum c b = (.err .io, b) := by
    intro c
    by_cases h4 : field b 96 4 = 4
    · exact .inr (tcp_onHeader_same l1 l2 (fun d hd => cursorWrite_end (by omega) (by simp [be16])))
    · exact .inl (tcp_onHeader_same l1 l2 (fun d hd => cursorWrite_panic (by omega)))
  unfold Mut.unwrap Tcp.updateChecksum
  rw [Mut.bind_apply]
  simp only [Mut.read]
  cases Tcp.checksumOf cfg ip b with
  | ok c => rcases hset c with h | h <;> simp only [h] <;> rfl
  | err e => rfl
  | panic => rfl

/-- The call is `set_source`. -/
def isSource : Tcp.Set → Bool
  | .source _ => true
  | _ => false

/-- What the calls behind a `set_flags` do: the data offset is 0, so `set_source` fails and every other setter panics. -/
theorem tcp_no_offset (b : Bytes) (h : Tcp.new b = .ok b) (h0 : field b 96 4 = 0) : ∀ ops : List Tcp.Set,
    runIgnoringErrors (ops.map Tcp.Set.run) b = (if ops.all isSource then .ok () else .panic, b) := by
  intro ops
  induction ops with
  | nil => rfl
  | cons op ops ih =>
    obtain ⟨-, s2, s3⟩ := C116_tcp_setter b h op
    simp only [List.map_cons, runIgnoringErrors, List.all_cons]
    rw [h0] at s2 s3
    cases op with
    | source v =>
      rw [s2 rfl trivial]
      simp only [isSource, Bool.true_and]
      exact ih
    | _ => rw [s3 (.inl (by simp only [tcpSpan]; omega))]; rfl

/-- C117, TCP with `set_flags` on a segment with a legal data offset (C27): the process aborts exactly if the user's code
panics or anything but `set_source` is called afterwards; otherwise the thread panics.  The checksum field is as it was,
the flags and the data offset, which is 0, are what `set_flags` wrote. -/
theorem C117_tcp_flags (cfg : Cfg) (ip : IpPacket) (b : Bytes) (h : Tcp.new b = .ok b) (h5 : 5 ≤ field b 96 4)
    (before after : List Tcp.Set) (hbefore : ∀ op ∈ before, notFlags op) (f : TcpFlags) (interrupted : Bool) :
    ∃ b', Tcp.guarded cfg ip (before ++ .flags f :: after) interrupted b =
        (if interrupted || !after.all isSource then .aborts else .panics, b') ∧
      b'.length = b.length ∧ field b' 96 16 = f.bits.toNat ∧ field b' 128 16 = field b 128 16 := by
  obtain ⟨b₁, e1, e2, e3, e4, -⟩ := tcp_history before b (segOk h h5) hbefore
  have hl := e2.long
  have hnew : Tcp.new b₁ = .ok b₁ := Tcp.new_ok_iff.2 ⟨rfl, e2.long, e2.header⟩
  obtain ⟨b', k1, k2, k3, -, k5, k6⟩ := C27_tcp_set_flags_partial b₁ hnew e2.offset f
  have h0 : field b' 96 4 = 0 := by
    have := field_add b' 96 4 3
    simp only [Nat.reduceAdd] at this
    omega
  have hw : field b' 96 16 = f.bits.toNat := by
    have := field_add b' 96 7 9
    simp only [Nat.reduceAdd] at this
    omega
  have hck : field b' 128 16 = field b 128 16 :=
    field_congr fun i hi1 hi2 => (k5 i (by omega)).trans (e4 i (by omega))
  have hnew' : Tcp.new b' = .ok b' := Tcp.new_ok_iff.2 ⟨rfl, by omega, by omega⟩
  refine ⟨b', ?_, k2.trans e3, hw, hck⟩
  have hflags : runIgnoringErrors ((Tcp.Set.flags f :: after).map Tcp.Set.run) b₁ =
      runIgnoringErrors (after.map Tcp.Set.run) b' := by
    simp only [List.map_cons, runIgnoringErrors]
    rw [show Tcp.Set.run (.flags f) b₁ = (.ok (), b') from k1]
  unfold Tcp.guarded guarded
  rw [List.map_append, run_append, e1]
  simp only
  rw [hflags, tcp_no_offset b' hnew' h0]
  have hdrop := tcp_drop_panics cfg ip b' hnew' (by omega)
  cases hc : after.all isSource <;> cases interrupted <;> simp [hdrop]

/-- C117, TCP segments with a data offset below 5: no session returns; without a panic of its own the user's program
sees a panic from the guard, and with one the process aborts. -/
theorem C117_tcp_short (cfg : Cfg) (ip : IpPacket) (b : Bytes) (h : Tcp.new b = .ok b) (h5 : field b 96 4 < 5)
    (ops : List Tcp.Set) :
    (Tcp.guarded cfg ip ops false b).1 ≠ .returns ∧ (Tcp.guarded cfg ip ops true b).1 = .aborts := by
  obtain ⟨c, k1, hn, h5', -⟩ := tcp_short_run ops b h h5
  have key : ∀ c, Tcp.new c = .ok c → field c 96 4 < 5 → (Tcp.updateChecksum cfg ip).unwrap c = (.panic, c) :=
    fun c => tcp_drop_panics cfg ip c
  unfold Tcp.guarded guarded
  rcases k1 with k1 | k1 <;> rw [k1] <;> simp [key c hn h5']

/-- `set_flags` and then `set_window` through `checked()` on a legal segment, and `set_ttl` on an accepted IPv4 packet of
header length 2, abort the process. -/
example (cfg : Cfg) (ip : IpPacket) : ∃ b c : Bytes, Tcp.new b = .ok b ∧ 5 ≤ field b 96 4 ∧
    (Tcp.guarded cfg ip [.flags ⟨2, by decide⟩, .window 7] false b).1 = .aborts ∧ V4.new c = .ok c ∧ field c 4 4 = 2 ∧
    (V4.guarded cfg [.ttl 3] false c).1 = .aborts := by
  refine ⟨[0, 80, 4, 0, 0, 0, 0, 1, 0, 0, 0, 2, 0x50, 2, 1, 0, 0, 0, 0, 0],
    [0x42, 0, 0, 20, 0, 0, 0, 0, 64, 17, 0, 0, 10, 0, 0, 1, 10, 0, 0, 2], by decide +kernel, by decide +kernel, ?_,
    by decide +kernel, by decide +kernel, ?_⟩
  · obtain ⟨b', e, -⟩ := C117_tcp_flags cfg ip [0, 80, 4, 0, 0, 0, 0, 1, 0, 0, 0, 2, 0x50, 2, 1, 0, 0, 0, 0, 0]
      (by decide +kernel) (by decide +kernel) [] [.window 7] (fun _ h => (by cases h)) ⟨2, by decide⟩ false
    rw [List.nil_append] at e
    rw [e, if_pos]
    rfl
  · rw [C117_v4_aborts cfg _ (by decide +kernel) (by decide +kernel), if_pos]
    decide +kernel

end Verif.Props
