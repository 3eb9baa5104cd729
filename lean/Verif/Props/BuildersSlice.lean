import Verif.Props.BuildersSize
import Verif.Samples

/-! # C54: builders on a static and on a growable buffer -/

namespace Verif.Props
open Verif Verif.Spec

/-- What a program that gives `onDynamic` on a growable buffer may give on a static buffer of `cap` bytes. -/
def SameOnSlice (cap : Nat) (onDynamic onSlice : Outcome Bytes) : Prop :=
  match onDynamic with
  | .ok out => onSlice = if out.length ≤ cap then .ok out else .err .smallBuffer
  | .err e => onSlice = .err e ∨ onSlice = .err .smallBuffer
  | .panic => onSlice = .panic ∨ onSlice = .err .smallBuffer

/-- The same, behind `n` bytes. -/
def Agrees (n cap : Nat) (p q : Outcome Bytes) : Prop :=
  match p with
  | .ok out => q = if n + out.length ≤ cap then .ok out else .err .smallBuffer
  | .err e => q = .err e ∨ q = .err .smallBuffer
  | .panic => q = .panic ∨ q = .err .smallBuffer

def Sized (k : Nat) (r : Outcome Bytes) : Prop := ∀ out, r = .ok out → out.length = k

theorem agrees_need {n cap k : Nat} {p q : Outcome Bytes} (hk : ∀ out, p = .ok out → k ≤ out.length)
    (h : n + k ≤ cap → Agrees n cap p q) : Agrees n cap p (need cap (n + k) >>= fun _ => q) := by
  unfold need
  by_cases hn : n + k ≤ cap
  · rw [if_pos hn]; exact h hn
  · rw [if_neg hn]
    cases p with
    | ok out =>
      have := hk out rfl
      show Outcome.err Error.smallBuffer = _
      rw [if_neg (by omega)]
    | err e => exact .inr rfl
    | panic => exact .inr rfl

theorem agrees_base {n cap k : Nat} {r : Outcome Bytes} (hk : Sized k r) :
    Agrees n cap r (need cap (n + k) >>= fun _ => r) := by
  unfold need
  by_cases hn : n + k ≤ cap
  · rw [if_pos hn]
    cases r with
    | ok out =>
      have := hk out rfl
      show _ = _
      rw [if_pos (by omega)]
      rfl
    | err e => exact .inl rfl
    | panic => exact .inl rfl
  · rw [if_neg hn]
    cases r with
    | ok out =>
      have := hk out rfl
      show Outcome.err Error.smallBuffer = _
      rw [if_neg (by omega)]
    | err e => exact .inr rfl
    | panic => exact .inr rfl

theorem agrees_bind {n cap : Nat} {A : Type} {x : Outcome A} {f g : A → Outcome Bytes}
    (h : ∀ a, x = .ok a → Agrees n cap (f a) (g a)) : Agrees n cap (x >>= f) (x >>= g) := by
  cases x with
  | ok a => exact h a rfl
  | err e => exact .inl rfl
  | panic => exact .inl rfl

/-- Calls that carry no payload leave the payload of the state alone. -/
theorem runOps_keeps {A Op α β : Type} {abs : Op → A → Outcome A} (sel : Op → Option α) (get : A → β)
    (hstep : ∀ op a b, abs op a = .ok b → sel op = none → get b = get a) :
    ∀ (ops : List Op) (a b : A), ops.filterMap sel = [] → runOps abs ops a = .ok b → get b = get a := by
  intro ops
  induction ops with
  | nil => intro a b _ h; injection h with h; rw [h]
  | cons op ops ih =>
    intro a b hn h
    obtain ⟨a', h1, h2⟩ := bind_ok_inv (show (abs op a >>= fun a => runOps abs ops a) = .ok b from h)
    rw [List.filterMap_eq_nil_iff] at hn
    rw [ih a' b (List.filterMap_eq_nil_iff.2 fun o ho => hn o (List.mem_cons_of_mem _ ho)) h2]
    exact hstep op a a' h1 (hn op (List.mem_cons_self ..))

theorem tcp_keeps (ops : List TcpOp) (t : TcpState) (hn : ops.filterMap TcpOp.payload? = [])
    (h : runOps TcpOp.abs ops .init = .ok t) : t.payload = none := by
  refine runOps_keeps TcpOp.payload? (fun a : TcpState => a.payload) ?_ ops _ t hn h
  intro op a b h hs
  cases op with
  | payload v => cases hs
  | flags v =>
    simp only [TcpOp.abs] at h
    (try split at h) <;> first | (injection h with h; subst h; rfl) | cases h
  | source v | destination v | sequence v | acknowledgment v | window v | pointer v =>
    simp only [TcpOp.abs] at h
    split at h
    · cases h
    · injection h with h; subst h; rfl

theorem seal_sized {cfg : Cfg} {f : Ipv4Fields} (hf : Ipv4Fields.ok f) {k : Nat} {x : Outcome Bytes}
    (hx : Sized k x) : Sized (20 + k) (x >>= sealV4 cfg f) := by
  intro out h
  obtain ⟨d, h1, h2⟩ := bind_ok_inv h
  rw [(seal_length hf h2).1, hx d h1]

theorem udp_sized {cfg : Cfg} {ip : Bytes} {u : UdpState} (h : u.payload = none) : Sized 8 (u.seal cfg ip) := by
  intro out hout
  unfold UdpState.seal at hout
  obtain ⟨ck, -, h2⟩ := bind_ok_inv hout
  injection h2 with h2
  rw [← h2, h]
  rfl

theorem tcp_sized {cfg : Cfg} {ip : Bytes} {t : TcpState} (h : t.payload = none) : Sized 20 (t.seal cfg ip) := by
  intro out hout
  unfold TcpState.seal at hout
  obtain ⟨ck, -, h2⟩ := bind_ok_inv hout
  injection h2 with h2
  rw [← h2, h, List.length_append, tcpHeader_length]
  rfl

theorem icmp_agrees (cfg : Cfg) (inner : IcmpInner) (hn : (Inner.icmp inner).payloads = []) (n cap : Nat) :
    Agrees n cap (inner.abs cfg cfg.isizeMax 0) (inner.abs cfg cap n) := by
  cases inner with
  | none => exact .inl rfl
  | echo ops =>
    simp only [IcmpInner.abs]
    rw [need_dynamic (by omega), Outcome.ok_bind]
    refine agrees_base (k := 8) ?_
    intro out h
    have hn : ops.filterMap EchoOp.payload? = [] := hn
    rw [echo_run ops (by rw [hn]; decide), Outcome.ok_bind] at h
    split at h
    · obtain ⟨ck, -, h⟩ := bind_ok_inv h
      injection h with h
      rw [← h, EchoState.length, hn]
      rfl
    · cases h
  | timestamp ops =>
    simp only [IcmpInner.abs]
    rw [need_dynamic (by omega), Outcome.ok_bind]
    refine agrees_base (k := 20) ?_
    intro out h
    rw [timestamp_run ops, Outcome.ok_bind] at h
    split at h
    · obtain ⟨ck, -, h⟩ := bind_ok_inv h
      injection h with h
      rw [← h, TimestampState.length]
    · cases h
  | information ops =>
    simp only [IcmpInner.abs]
    rw [need_dynamic (by omega), Outcome.ok_bind]
    refine agrees_base (k := 8) ?_
    intro out h
    rw [information_run ops, Outcome.ok_bind] at h
    split at h
    · obtain ⟨ck, -, h⟩ := bind_ok_inv h
      injection h with h
      rw [← h, InformationState.length]
    · cases h

/-- Whatever is built inside it, an IPv4 packet has its header. -/
theorem ipv4_abs_long {cfg : Cfg} {vops : List V4Op} {inner : Inner} {out : Bytes}
    (h : (runOps V4Op.abs vops .init >>= fun a => inner.abs cfg cfg.isizeMax 0 a) = .ok out) : 20 ≤ out.length := by
  rcases v4_never vops .init ⟨⟨.zero, rfl⟩, ⟨.zero, rfl⟩⟩ with ⟨a, ha, hok⟩ | ⟨e, he⟩
  · rw [ha, Outcome.ok_bind] at h
    cases inner with
    | plain => rw [(raw_length hok h).1]; omega
    | udp ops =>
      simp only [Inner.abs] at h
      split at h
      · cases h
      · obtain ⟨-, -, h⟩ := bind_ok_inv h
        obtain ⟨u, -, h⟩ := bind_ok_inv h
        obtain ⟨d, -, h⟩ := bind_ok_inv h
        have hok' : Ipv4Fields.ok { a.fields with protocol := 17#8 } := hok
        rw [(seal_length hok' h).1]; omega
    | tcp ops =>
      simp only [Inner.abs] at h
      split at h
      · cases h
      · obtain ⟨-, -, h⟩ := bind_ok_inv h
        obtain ⟨u, -, h⟩ := bind_ok_inv h
        obtain ⟨d, -, h⟩ := bind_ok_inv h
        have hok' : Ipv4Fields.ok { a.fields with protocol := 6#8 } := hok
        rw [(seal_length hok' h).1]; omega
    | icmp inner =>
      simp only [Inner.abs] at h
      split at h
      · cases h
      · obtain ⟨d, -, h⟩ := bind_ok_inv h
        have hok' : Ipv4Fields.ok { a.fields with protocol := 1#8 } := hok
        rw [(seal_length hok' h).1]; omega
  · rw [he] at h; cases h

theorem ipv4_agrees (cfg : Cfg) (vops : List V4Op) (inner : Inner) (hv : vops.filterMap V4Op.payload? = [])
    (hn : inner.payloads = []) (n cap : Nat) :
    Agrees n cap (ipv4Abs cfg cfg.isizeMax 0 vops inner) (ipv4Abs cfg cap n vops inner) := by
  unfold ipv4Abs
  rw [need_dynamic (by omega), Outcome.ok_bind]
  refine agrees_need (fun out h => ipv4_abs_long h) fun hcap => ?_
  refine agrees_bind fun a ha => ?_
  have hpay : a.payload = none := by
    rcases v4_payload_mem vops .init a ha with h | ⟨v, h, -⟩
    · exact h
    · rw [hv] at h; cases h
  have hok : Ipv4Fields.ok a.fields := by
    rcases v4_never vops .init ⟨⟨.zero, rfl⟩, ⟨.zero, rfl⟩⟩ with ⟨b, hb, hok⟩ | ⟨e, he⟩
    · rw [ha] at hb; injection hb with hb; rw [hb]; exact hok
    · rw [ha] at he; cases he
  cases inner with
  | plain =>
    show Agrees n cap (a.raw cfg) (a.raw cfg)
    cases hr : a.raw cfg with
    | err e => exact .inl rfl
    | panic => exact .inl rfl
    | ok out =>
      have hl := (raw_length hok hr).1
      rw [hpay] at hl
      show _ = if n + out.length ≤ cap then _ else _
      rw [if_pos (by simp at hl; omega)]
  | udp ops =>
    have hok' : Ipv4Fields.ok { a.fields with protocol := 17#8 } := hok
    simp only [Inner.abs, hpay, Option.isSome_none, Bool.false_eq_true, if_false]
    rw [need_dynamic (by omega), Outcome.ok_bind]
    refine agrees_base (k := 28) ?_
    intro out h
    obtain ⟨u, hu, h⟩ := bind_ok_inv h
    have hn : ops.filterMap UdpOp.payload? = [] := hn
    rw [udp_run ops (by rw [hn]; decide)] at hu
    injection hu with hu
    exact seal_sized hok' (udp_sized (by rw [← hu, hn]; rfl)) out h
  | tcp ops =>
    have hok' : Ipv4Fields.ok { a.fields with protocol := 6#8 } := hok
    simp only [Inner.abs, hpay, Option.isSome_none, Bool.false_eq_true, if_false]
    rw [need_dynamic (by omega), Outcome.ok_bind]
    refine agrees_base (k := 40) ?_
    intro out h
    obtain ⟨u, hu, h⟩ := bind_ok_inv h
    exact seal_sized hok' (tcp_sized (tcp_keeps ops u hn hu)) out h
  | icmp inner =>
    have hok' : Ipv4Fields.ok { a.fields with protocol := 1#8 } := hok
    simp only [Inner.abs, hpay, Option.isSome_none, Bool.false_eq_true, if_false]
    have h := icmp_agrees cfg inner hn (n + 20) cap
    rw [icmp_abs_at cfg inner (by omega)]
    generalize inner.abs cfg cfg.isizeMax 0 = p at h
    generalize inner.abs cfg cap (n + 20) = q at h
    cases p with
    | err e => rcases h with h | h <;> rw [h]
               · exact .inl rfl
               · exact .inr rfl
    | panic => rcases h with h | h <;> rw [h]
               · exact .inl rfl
               · exact .inr rfl
    | ok d =>
      have h : q = if n + 20 + d.length ≤ cap then .ok d else .err .smallBuffer := h
      obtain ⟨out, ho⟩ := seal_never cfg { a.fields with protocol := 1#8 } d
      have hl := (seal_length hok' ho).1
      rw [h, Outcome.ok_bind, ho]
      show _ = if n + out.length ≤ cap then _ else _
      by_cases hc : n + 20 + d.length ≤ cap
      · rw [if_pos hc, if_pos (by omega), Outcome.ok_bind, ho]
      · rw [if_neg hc, if_neg (by omega)]; rfl

theorem ethernet_agrees (cfg : Cfg) (eops : List EtherOp) (vops : List V4Op) (inner : Inner)
    (he : eops.filterMap EtherOp.payload? = []) (hv : vops.filterMap V4Op.payload? = [])
    (hn : inner.payloads = []) (n cap : Nat) :
    Agrees n cap (ethernetAbs cfg cfg.isizeMax 0 eops vops inner) (ethernetAbs cfg cap n eops vops inner) := by
  unfold ethernetAbs
  rw [need_dynamic (by omega), Outcome.ok_bind, ether_run eops (by rw [he]; decide), Outcome.ok_bind,
    Outcome.ok_bind, no_payload_last _ _ he]
  simp only [Option.isSome_none, Bool.false_eq_true, if_false]
  rw [ipv4_abs_at cfg vops inner (by omega)]
  generalize (EtherState.mk _ _ _ none) = e
  have hs : ∀ out frame, e.seal out = .ok frame → frame.length = 14 + out.length := by
    intro out frame h
    unfold EtherState.seal at h
    split at h
    · cases h
    · split at h
      · injection h with h; rw [← h]; simp [ethernetFrame, HwAddr.octets, be16]; omega
      · split at h
        · injection h with h; rw [← h]; simp [ethernetFrame, HwAddr.octets, be16]; omega
        · cases h
  have hse : ∀ out err, e.seal out ≠ .err err := by
    intro out err h
    unfold EtherState.seal at h
    split at h
    · cases h
    · split at h
      · cases h
      · split at h <;> cases h
  refine agrees_need (fun frame h => ?_) fun hcap => ?_
  · obtain ⟨out, -, h⟩ := bind_ok_inv h
    rw [hs out frame h]; omega
  · have h := ipv4_agrees cfg vops inner hv hn (n + 14) cap
    generalize ipv4Abs cfg cfg.isizeMax 0 vops inner = p at h
    generalize ipv4Abs cfg cap (n + 14) vops inner = q at h
    cases p with
    | err e => rcases h with h | h <;> rw [h]
               · exact .inl rfl
               · exact .inr rfl
    | panic => rcases h with h | h <;> rw [h]
               · exact .inl rfl
               · exact .inr rfl
    | ok out =>
      have h : q = if n + 14 + out.length ≤ cap then .ok out else .err .smallBuffer := h
      rw [h, Outcome.ok_bind]
      cases hf : e.seal out with
      | ok frame =>
        have hl := hs out frame hf
        show _ = if n + frame.length ≤ cap then _ else _
        by_cases hc : n + 14 + out.length ≤ cap
        · rw [if_pos hc, if_pos (by omega), Outcome.ok_bind, hf]
        · rw [if_neg hc, if_neg (by omega)]; rfl
      | err err => exact (hse out err hf).elim
      | panic =>
        by_cases hc : n + 14 + out.length ≤ cap
        · rw [if_pos hc, Outcome.ok_bind, hf]; exact .inl rfl
        · rw [if_neg hc]; exact .inr rfl

theorem agrees_slice {cap : Nat} {p q : Outcome Bytes} (h : Agrees 0 cap p q) : SameOnSlice cap p q := by
  unfold Agrees at h
  simp only [Nat.zero_add] at h
  exact h

theorem fine_slice (cap n : Nat) : Fine Slice cap n := .inr trivial

theorem v4_room_slice {cap n : Nat} {vops : List V4Op} (h : vops.filterMap V4Op.payload? = []) :
    ∀ op ∈ vops, op.room Slice cap n := by
  intro op hop
  rw [List.filterMap_eq_nil_iff] at h
  cases op with
  | payload v => cases h _ hop
  | _ => trivial

theorem ether_room_slice {cap n : Nat} {ops : List EtherOp} (h : ops.filterMap EtherOp.payload? = []) :
    ∀ op ∈ ops, op.room Slice cap n := by
  intro op hop
  rw [List.filterMap_eq_nil_iff] at h
  cases op with
  | payload v => cases h _ hop
  | _ => trivial

theorem icmp_room_slice {cap n : Nat} {inner : IcmpInner} (h : (Inner.icmp inner).payloads = []) :
    inner.room Slice cap n := by
  cases inner with
  | none => trivial
  | timestamp ops => exact fine_slice _ _
  | information ops => exact fine_slice _ _
  | echo ops =>
    refine ⟨fine_slice _ _, ?_⟩
    intro op hop
    have h : ops.filterMap EchoOp.payload? = [] := h
    rw [List.filterMap_eq_nil_iff] at h
    cases op with
    | payload v => cases h _ hop
    | _ => trivial

theorem inner_room_slice {cap n : Nat} {inner : Inner} (h : inner.payloads = []) :
    inner.room Slice cap n := by
  cases inner with
  | plain => trivial
  | udp ops =>
    refine ⟨fine_slice _ _, ?_⟩
    intro op hop
    have h : ops.filterMap UdpOp.payload? = [] := h
    rw [List.filterMap_eq_nil_iff] at h
    cases op with
    | payload v => cases h _ hop
    | _ => trivial
  | tcp ops =>
    refine ⟨fine_slice _ _, ?_⟩
    intro op hop
    have h : ops.filterMap TcpOp.payload? = [] := h
    rw [List.filterMap_eq_nil_iff] at h
    cases op with
    | payload v => cases h _ hop
    | _ => trivial
  | icmp inner => exact icmp_room_slice h

theorem ok_id (p : Outcome Bytes) : (p >>= fun out => Outcome.ok out) = p := by cases p <;> rfl

theorem inner_sane_of_none {cfg : Cfg} {inner : Inner} (h : inner.payloads = []) : inner.Sane cfg := by
  intro v hv; rw [h] at hv; cases hv

/-- C75, IPv4 programs without payload: the static buffer gives the same bytes when they fit and
`SmallBuffer` when they do not, whatever the storage held before. -/
theorem C75_ipv4 (cfg : Cfg) (storage : Bytes) (vops : List V4Op) (inner : Inner)
    (hs : storage.length ≤ cfg.isizeMax) (hv : vops.filterMap V4Op.payload? = []) (hn : inner.payloads = []) :
    SameOnSlice storage.length (ipv4Program cfg Dynamic.new vops inner)
      (ipv4Program cfg (Slice.new storage) vops inner) := by
  rw [ipv4Program_dynamic cfg vops inner (v4_sane_of_none hv) (inner_sane_of_none hn),
    ipv4Program_eq cfg (Slice.rep_new hs) vops inner (fine_slice _ _) (v4_room_slice hv) (inner_room_slice hn)]
  show SameOnSlice _ _ (ipv4Abs cfg storage.length 0 vops inner >>= fun out => .ok out)
  rw [ok_id]
  exact agrees_slice (ipv4_agrees cfg vops inner hv hn 0 storage.length)

seal ipv4Program ethernetProgram in
/-- A concrete case that meets the hypotheses. -/
example (cfg : Cfg) := C75_ipv4 cfg (zeros 100) Sample.vops (.udp Sample.udpHead) (by call_by_call) (by call_by_call)
    (by call_by_call)

/-- C75, the same for an Ethernet frame around IPv4. -/
theorem C75_ethernet (cfg : Cfg) (storage : Bytes) (eops : List EtherOp) (vops : List V4Op)
    (inner : Inner) (hs : storage.length ≤ cfg.isizeMax) (he : eops.filterMap EtherOp.payload? = [])
    (hv : vops.filterMap V4Op.payload? = []) (hn : inner.payloads = []) :
    SameOnSlice storage.length (ethernetProgram cfg Dynamic.new eops vops inner)
      (ethernetProgram cfg (Slice.new storage) eops vops inner) := by
  have hes : ∀ op ∈ eops, op.Sane cfg := by
    intro op hop v hv
    have : v ∈ eops.filterMap EtherOp.payload? := List.mem_filterMap.2 ⟨_, hop, hv⟩
    rw [he] at this
    cases this
  rw [ethernetProgram_dynamic cfg eops vops inner hes (v4_sane_of_none hv) (inner_sane_of_none hn),
    ethernetProgram_eq cfg (Slice.rep_new hs) eops vops inner (fine_slice _ _) (fine_slice _ _)
      (ether_room_slice he) (v4_room_slice hv) (inner_room_slice hn)]
  show SameOnSlice _ _ (ethernetAbs cfg storage.length 0 eops vops inner >>= fun out => .ok out)
  rw [ok_id]
  exact agrees_slice (ethernet_agrees cfg eops vops inner he hv hn 0 storage.length)

seal ipv4Program ethernetProgram in
/-- A concrete case that meets the hypotheses. -/
example (cfg : Cfg) := C75_ethernet cfg (zeros 100) Sample.eops Sample.vops (.udp Sample.udpHead) (by call_by_call)
    (by call_by_call) (by call_by_call) (by call_by_call)

/-- C75, the same for an ICMP message. -/
theorem C75_icmp (cfg : Cfg) (storage : Bytes) (inner : IcmpInner) (hs : storage.length ≤ cfg.isizeMax)
    (hn : (Inner.icmp inner).payloads = []) :
    SameOnSlice storage.length (icmpProgram cfg Dynamic.new inner)
      (icmpProgram cfg (Slice.new storage) inner) := by
  rw [icmpProgram_dynamic cfg inner (inner_sane_of_none hn),
    icmpProgram_eq cfg (Slice.rep_new hs) inner (icmp_room_slice hn)]
  show SameOnSlice _ _ (inner.abs cfg storage.length 0 >>= fun out => .ok out)
  rw [ok_id]
  exact agrees_slice (icmp_agrees cfg inner hn 0 storage.length)

/-- A concrete case that meets the hypotheses. -/
example (cfg : Cfg) := C75_icmp cfg (zeros 100) (.echo Sample.echoHead) (by call_by_call) (by call_by_call)

/-- C75, the same for a bare Ethernet header. -/
theorem C75_ether (cfg : Cfg) (storage : Bytes) (ops : List EtherOp) (hs : storage.length ≤ cfg.isizeMax)
    (he : ops.filterMap EtherOp.payload? = []) :
    SameOnSlice storage.length (etherProgram cfg Dynamic.new ops) (etherProgram cfg (Slice.new storage) ops) := by
  have hes : ∀ op ∈ ops, op.Sane cfg := by
    intro op hop v hv
    have : v ∈ ops.filterMap EtherOp.payload? := List.mem_filterMap.2 ⟨_, hop, hv⟩
    rw [he] at this
    cases this
  rw [etherProgram_eq cfg Dynamic.rep_new ops (.inl (by in_every_build)) (ether_sane_room (by simp) hes),
    etherProgram_eq cfg (Slice.rep_new hs) ops (fine_slice _ _) (ether_room_slice he)]
  have hd : need cfg.isizeMax (([] : Bytes).length + ([] : Bytes).length + 14) = .ok () := by in_every_build
  rw [hd, ether_run ops (by rw [he]; decide), Outcome.ok_bind, Outcome.ok_bind]
  show SameOnSlice _ (Outcome.ok (_ : Bytes)) ((need storage.length (0 + 14) >>= fun _ => Outcome.ok (_ : Bytes)) >>=
    fun out => .ok out)
  rw [ok_id]
  refine agrees_slice (agrees_base (n := 0) (k := 14) ?_)
  intro out h
  injection h with h
  rw [← h, List.nil_append, List.nil_append, EtherState.length, no_payload_last _ _ he]
  rfl

/-- A concrete case that meets the hypotheses. -/
example (cfg : Cfg) := C75_ether cfg (zeros 100) Sample.eops (by call_by_call) (by call_by_call)

/-! ### Payloads -/

/-- One byte of a payload on a static buffer that does not panic: it is stored `length()` bytes behind the
end of what the buffer holds. -/
theorem slice_one (cfg : Cfg) (b : Slice) (hb : b.inner.length ≤ cfg.isizeMax) (A M R : Bytes) (x v : U8)
    (hi : b.inner = A ++ (M ++ [x]) ++ R) (hu : b.used = A.length) (hl : b.length = M.length) :
    (Buffer.more cfg 1 >>= fun _ => Buffer.modifyData cfg (setLast v) : Mut Slice Unit) b =
      (.ok (), ⟨A ++ (M ++ [v]) ++ R, A.length, M.length + 1, A.length + 1⟩) := by
  have hm := cfg.width
  have hlen : b.inner.length = A.length + (M.length + 1) + R.length := by rw [hi]; simp; omega
  have hsl : ∀ N : Bytes, N.length = M.length + 1 →
      slice (A ++ N ++ R) A.length (A.length + (M.length + 1)) = .ok N := by
    intro N hN
    rw [slice_ok (by omega) (by simp; omega)]
    congr 1
    rw [List.take_left' (by rw [List.length_append, hN]), List.drop_left' rfl]
  have h1 : (Buffer.more cfg 1 : Mut Slice Unit) b =
      (.ok (), ⟨A ++ (M ++ [0#8]) ++ R, A.length, M.length + 1, A.length + 1⟩) := by
    show Slice.more cfg 1 b = _
    unfold Slice.more
    rw [hu, hl, addUsize_ok (a := A.length) (b := 1) (by omega)]
    simp only []
    rw [if_neg (by omega), addUsize_ok (a := M.length) (b := 1) (by omega)]
    simp only []
    have e : subUsize cfg (M.length + 1) 1 = .ok M.length := by
      unfold subUsize; rw [if_pos (by omega)]; rfl
    rw [e]
    simp only []
    unfold Slice.modifyData Slice.data
    simp only []
    rw [addUsize_ok (a := A.length) (b := M.length + 1) (by omega), Outcome.ok_bind, hi,
      hsl _ (by simp)]
    unfold Slice.zeroFrom
    simp only []
    rw [if_pos (by simp)]
    have e2 : (M ++ [x]).length - M.length = 1 := by simp
    rw [e2]
    simp only []
    rw [List.take_left' rfl, put_middle _ _ _ _ (by simp [zeros]), addUsize_ok (a := A.length) (b := 1) (by omega)]
    rfl
  rw [Mut.bind_ok h1]
  show Slice.modifyData cfg (setLast v) _ = _
  unfold Slice.modifyData Slice.data
  simp only []
  rw [addUsize_ok (by omega), Outcome.ok_bind, hsl _ (by simp)]
  unfold setLast
  simp only []
  rw [if_neg (by simp)]
  simp only []
  have e3 : put (M ++ [0#8]) ((M ++ [0#8]).length - 1) [v] = M ++ [v] := by
    have : (M ++ [0#8]).length - 1 = M.length := by simp
    rw [this]
    have := put_middle M [0#8] [] [v] rfl
    simpa using this
  rw [e3, put_middle _ _ _ _ (by simp)]

/-- Appending on a static buffer never touches what it holds, nor the next `length()` bytes. -/
theorem slice_append_keeps (cfg : Cfg) : ∀ (v : Bytes) (b : Slice), b.inner.length ≤ cfg.isizeMax →
    (v ≠ [] → b.used + b.length + 2 * v.length ≤ b.inner.length + 1) →
    ∃ b', appendAll cfg v b = (.ok (), b') ∧ b'.used = b.used + v.length ∧
      b'.inner.length = b.inner.length ∧
      b'.inner.take (b.used + b.length) = b.inner.take (b.used + b.length) := by
  intro v
  induction v with
  | nil => intro b _ _; exact ⟨b, rfl, rfl, rfl, rfl⟩
  | cons y ys ih =>
    intro b hb hroom
    have hroom := hroom (by simp)
    simp only [List.length_cons] at hroom
    obtain ⟨A, M, x, R, hi, hA, hM⟩ : ∃ (A M : Bytes) (x : U8) (R : Bytes), b.inner = A ++ (M ++ [x]) ++ R ∧
        A.length = b.used ∧ M.length = b.length := by
      have h2 : (b.inner.drop (b.used + b.length)) ≠ [] := by
        intro h
        have := congrArg List.length h
        rw [List.length_drop] at this
        simp at this
        omega
      obtain ⟨x, R, hx⟩ := List.exists_cons_of_ne_nil h2
      refine ⟨b.inner.take b.used, (b.inner.drop b.used).take b.length, x, R, ?_, ?_, ?_⟩
      · rw [List.append_assoc, List.append_assoc, List.singleton_append, ← hx, ← List.drop_drop,
          List.take_append_drop, List.take_append_drop]
      · rw [List.length_take]; omega
      · rw [List.length_take, List.length_drop]; omega
    have h1 := slice_one cfg b hb A M R x y hi hA.symm hM.symm
    have hlen : b.inner.length = A.length + (M.length + 1) + R.length := by rw [hi]; simp; omega
    obtain ⟨b', e1, e2, e3, e4⟩ := ih ⟨A ++ (M ++ [y]) ++ R, A.length, M.length + 1, A.length + 1⟩
      (by simp; omega) (by intro hne; simp; omega)
    refine ⟨b', ?_, ?_, ?_, ?_⟩
    · have e : appendAll cfg (y :: ys) b = ((Buffer.more cfg 1 >>= fun _ => Buffer.modifyData cfg (setLast y)) >>=
          fun _ => appendAll cfg ys : Mut Slice Unit) b := by
        show (Buffer.more cfg 1 >>= fun _ => (Buffer.modifyData cfg (setLast y) >>= fun _ =>
          appendAll cfg ys) : Mut Slice Unit) b = _
        rw [Mut.bind_apply, Mut.bind_apply, Mut.bind_apply]
        rcases h : (Buffer.more cfg 1 : Mut Slice Unit) b with ⟨o, b1⟩
        cases o
        · show (Buffer.modifyData cfg (setLast y) >>= fun _ => appendAll cfg ys : Mut Slice Unit) b1 = _
          rw [Mut.bind_apply]
        · rfl
        · rfl
      rw [e, Mut.bind_ok h1, e1]
    · rw [e2, List.length_cons]; simp only []; omega
    · rw [e3]; simp; omega
    · have hle : b.used + b.length ≤ A.length + 1 + (M.length + 1) := by omega
      have h5 := congrArg (List.take (b.used + b.length)) e4
      simp only [List.take_take, Nat.min_eq_left hle] at h5
      rw [h5, hi, List.append_assoc, List.append_assoc, List.append_assoc, List.append_assoc]
      rw [← List.append_assoc A M, ← List.append_assoc A M, List.take_left' (by simp; omega),
        List.take_left' (by simp; omega)]

/-- Appending on a static buffer whose storage does not reach `length()` bytes behind its end panics. -/
theorem slice_append_panics (cfg : Cfg) (b : Slice) (hb : b.inner.length ≤ cfg.isizeMax) (y : U8) (ys : Bytes)
    (h1 : b.used + 1 ≤ b.inner.length) (h2 : b.inner.length < b.used + b.length + 1) (hl : b.length ≤ cfg.isizeMax) :
    onBuffer (appendAll cfg (y :: ys)) b = .panic := by
  have hm := cfg.width
  unfold onBuffer appendAll
  have : (Buffer.more cfg 1 : Mut Slice Unit) b =
      (.panic, ⟨b.inner, b.used, b.length + 1, b.used + 1⟩) := by
    show Slice.more cfg 1 b = _
    unfold Slice.more
    rw [addUsize_ok (by omega)]
    simp only []
    rw [if_neg (by omega), addUsize_ok (by omega)]
    simp only []
    have e : subUsize cfg (b.length + 1) 1 = .ok b.length := by
      unfold subUsize; rw [if_pos (by omega)]; rfl
    rw [e]
    simp only []
    unfold Slice.modifyData Slice.data
    simp only []
    rw [addUsize_ok (a := b.used) (b := b.length + 1) (by omega), Outcome.ok_bind]
    have : slice b.inner b.used (b.used + (b.length + 1)) = .panic := by
      unfold slice; rw [if_neg (by omega)]
    rw [this, addUsize_ok (a := b.used) (b := 1) (by omega)]
  rw [Mut.bind_apply, this]

theorem slice_rep_append_panics (cfg : Cfg) {cap : Nat} {b : Slice} {pre layer : Bytes}
    (h : LawfulBuffer.Rep cfg cap b pre layer) (v : Bytes) (hv : v ≠ []) (h1 : pre.length + layer.length < cap)
    (h2 : cap ≤ pre.length + 2 * layer.length) : onBuffer (appendAll cfg v) b = .panic := by
  obtain ⟨y, ys, rfl⟩ := List.exists_cons_of_ne_nil hv
  obtain ⟨hc, tail, hr⟩ := h
  have h3 := hr.used
  have h4 := hr.length
  have h5 := hr.total
  have h6 := hr.bound
  exact slice_append_panics cfg b h6 y ys (by omega) (by omega) (by omega)

/-- An Ethernet builder on a static buffer after calls without payload. -/
theorem ether_on_slice (cfg : Cfg) (storage : Bytes) (before : List EtherOp) (hs : storage.length ≤ cfg.isizeMax)
    (he : before.filterMap EtherOp.payload? = []) (h14 : 14 ≤ storage.length) :
    ∃ e s, (EtherBuilder.«with» cfg (Slice.new storage) >>= runOps (EtherOp.run cfg) before) = .ok s ∧
      EtherRep cfg storage.length [] [] e s ∧ e.payload = none ∧
      e = ⟨last EtherOp.destination? .zero before, last EtherOp.source? .zero before,
        (last EtherOp.protocol? (.unknown 0) before).toWire, none⟩ := by
  have h0 := ether_with_total cfg (Slice.rep_new hs) (fine_slice _ _)
  have h1 := h0.run _ (fun op a s hr hl => ether_abs cfg op a s hr hl) before (ether_room_slice he)
  have hn : need storage.length (([] : Bytes).length + ([] : Bytes).length + 14) = .ok () := by
    unfold need; rw [if_pos (by simpa using h14)]
  rw [hn, Outcome.ok_bind, Outcome.ok_bind, ether_run before (by rw [he]; decide), no_payload_last _ _ he] at h1
  obtain ⟨s, h2, r⟩ := h1
  exact ⟨_, s, h2, r, rfl, rfl⟩

/-- C54 is false of the code: on a static buffer, a payload call panics whenever the storage has room for the
payload but not for as many bytes again as the layer already has; here for Ethernet, where 15 to 28 bytes of
storage are affected. -/
theorem C54_ether_payload_panics_refuted (cfg : Cfg) (storage : Bytes) (before after : List EtherOp) (v : Bytes)
    (he : before.filterMap EtherOp.payload? = []) (hv : v ≠ []) (h15 : 15 ≤ storage.length)
    (h28 : storage.length ≤ 28) :
    etherProgram cfg (Slice.new storage) (before ++ .payload v :: after) = .panic := by
  have hs : storage.length ≤ cfg.isizeMax := by have := cfg.width; omega
  obtain ⟨e, s, h1, r, hp, -⟩ := ether_on_slice cfg storage before hs he (by omega)
  have hl := EtherState.length e
  rw [hp] at hl
  have hpan : EtherOp.run cfg (.payload v) s = .panic := by
    simp only [EtherOp.run, EtherBuilder.setPayload]
    rw [r.payload, hp]
    simp only [Option.isSome_none, Bool.false_eq_true, if_false]
    rw [slice_rep_append_panics cfg r.rep v hv (by rw [hl]; simp; omega) (by rw [hl]; simp; omega)]
    rfl
  unfold etherProgram
  rw [← bind_assoc]
  have : (EtherBuilder.«with» cfg (Slice.new storage) >>= runOps (EtherOp.run cfg) (before ++ .payload v :: after)) =
      .panic := by
    have e : (fun s : EtherBuilder Slice => runOps (EtherOp.run cfg) (before ++ .payload v :: after) s) =
        fun s : EtherBuilder Slice => runOps (EtherOp.run cfg) before s >>= runOps (EtherOp.run cfg) (.payload v :: after) := by
      funext s; exact runOps_append before _ s
    show (EtherBuilder.«with» cfg (Slice.new storage) >>=
      fun s : EtherBuilder Slice => runOps (EtherOp.run cfg) (before ++ .payload v :: after) s) = _
    rw [e, ← bind_assoc, h1, Outcome.ok_bind]
    show (EtherOp.run cfg (.payload v) s >>= _) = _
    rw [hpan]
    rfl
  rw [this]
  rfl

/-- A concrete case that meets the hypotheses. -/
example (cfg : Cfg) (after : List EtherOp) := C54_ether_payload_panics_refuted cfg (zeros 20) Sample.eops after
    [1, 2, 3, 4] (by call_by_call) (by decide) (by decide) (by decide)

/-- C54 is false of the code: on a static buffer with plenty of room, a payload of up to 14 bytes is not in
the frame that `build()` returns; what follows the header does not depend on it at all. -/
theorem C54_ether_payload_lost_refuted (cfg : Cfg) (storage : Bytes) (before : List EtherOp)
    (he : before.filterMap EtherOp.payload? = []) (hs : storage.length ≤ cfg.isizeMax) (h14 : 14 ≤ storage.length) :
    ∃ header junk : Bytes, ∀ v : Bytes, v ≠ [] → v.length ≤ 14 → 27 + 2 * v.length ≤ storage.length →
      etherProgram cfg Dynamic.new (before ++ [EtherOp.payload v]) = .ok (header ++ v) ∧
      etherProgram cfg (Slice.new storage) (before ++ [EtherOp.payload v]) = .ok (header ++ junk.take v.length) := by
  obtain ⟨e, s, h1, r, hp, he'⟩ := ether_on_slice cfg storage before hs he h14
  have hl := EtherState.length e
  rw [hp] at hl
  have hl : e.bytes.length = 14 := hl
  obtain ⟨hc, tail, hr⟩ := r.rep
  refine ⟨e.bytes, tail, ?_⟩
  intro v hv hv14 hroom
  constructor
  · have hpay : (before ++ [EtherOp.payload v]).filterMap EtherOp.payload? = [v] := by
      rw [List.filterMap_append, he]; rfl
    have hsane : ∀ op ∈ before ++ [EtherOp.payload v], op.Sane cfg := by
      intro op hop w hw
      have : w ∈ (before ++ [EtherOp.payload v]).filterMap EtherOp.payload? := List.mem_filterMap.2 ⟨_, hop, hw⟩
      rw [hpay] at this
      simp at this
      rw [this]
      (have := cfg.width; omega)
    rw [etherProgram_eq cfg Dynamic.rep_new _ (.inl (by in_every_build)) (ether_sane_room (by simp) hsane)]
    have hd : need cfg.isizeMax (([] : Bytes).length + ([] : Bytes).length + 14) = .ok () := by in_every_build
    rw [hd, ether_run _ (by rw [hpay]; exact Nat.le_refl _), hpay]
    have l1 : ∀ {α : Type} (f : EtherOp → Option α) (d : α), f (.payload v) = none →
        last f d (before ++ [EtherOp.payload v]) = last f d before := by
      intro α f d hf
      unfold last
      rw [List.filterMap_append]
      simp [hf]
    rw [l1 _ _ rfl, l1 _ _ rfl, l1 _ _ rfl, he']
    show Outcome.ok _ = Outcome.ok _
    simp [EtherState.bytes, ethernetFrame]
  · have hu := hr.used
    have hlen := hr.length
    have ht := hr.total
    obtain ⟨b', e1, e2, e3, e4⟩ := slice_append_keeps cfg v s.buffer hr.bound (by
      intro _; simp at hu; omega)
    have hrun : EtherOp.run cfg (.payload v) s = .ok { s with buffer := b', payload := true } := by
      simp only [EtherOp.run, EtherBuilder.setPayload]
      rw [r.payload, hp]
      simp only [Option.isSome_none, Bool.false_eq_true, if_false]
      rw [onBuffer_ok e1]
      rfl
    unfold etherProgram
    rw [← bind_assoc]
    have : (EtherBuilder.«with» cfg (Slice.new storage) >>= runOps (EtherOp.run cfg) (before ++ [EtherOp.payload v])) =
        .ok { s with buffer := b', payload := true } := by
      have e : (fun s : EtherBuilder Slice => runOps (EtherOp.run cfg) (before ++ [EtherOp.payload v]) s) =
          fun s : EtherBuilder Slice => runOps (EtherOp.run cfg) before s >>= runOps (EtherOp.run cfg) [.payload v] := by
        funext s; exact runOps_append before _ s
      show (EtherBuilder.«with» cfg (Slice.new storage) >>=
        fun s : EtherBuilder Slice => runOps (EtherOp.run cfg) (before ++ [EtherOp.payload v]) s) = _
      rw [e, ← bind_assoc, h1, Outcome.ok_bind]
      show (EtherOp.run cfg (.payload v) s >>= _) = _
      rw [hrun]
      rfl
    rw [this, Outcome.ok_bind]
    unfold EtherBuilder.build buildTail
    simp only []
    rw [r.fin]
    have hin : Buffer.intoInner b' = .ok (e.bytes ++ tail.take v.length) := by
      show Slice.intoInner b' = _
      unfold Slice.intoInner
      simp only [List.length_nil, Nat.zero_add] at hu
      rw [slice_ok (by omega) (by omega), List.drop_zero, e2]
      congr 1
      have hle : s.buffer.used + v.length ≤ s.buffer.used + s.buffer.length := by omega
      have h5 := congrArg (List.take (s.buffer.used + v.length)) e4
      simp only [List.take_take, Nat.min_eq_left hle] at h5
      rw [h5, hr.inner, List.nil_append, List.take_append, List.take_of_length_le (by omega)]
      congr 2
      omega
    rw [hin]
    rfl

/-- A concrete case that meets the hypotheses. -/
example (cfg : Cfg) := C54_ether_payload_lost_refuted cfg (zeros 100) Sample.eops (by call_by_call) (by call_by_call)
    (by decide)

/-- C54 is false of the code: the same panic for a raw IPv4 payload (21 to 40 bytes of storage). -/
theorem C54_ipv4_payload_panics_refuted (cfg : Cfg) (storage : Bytes) (before after : List V4Op) (inner : Inner)
    (v : Bytes) (hr : ∀ op ∈ before, op.InRange) (h0 : before.filterMap V4Op.payload? = []) (hv : v ≠ [])
    (h21 : 21 ≤ storage.length) (h40 : storage.length ≤ 40) :
    ipv4Program cfg (Slice.new storage) (before ++ .payload v :: after) inner = .panic := by
  have hs : storage.length ≤ cfg.isizeMax := by have := cfg.width; omega
  have g0 := v4_with_total cfg (Slice.rep_new hs) (fine_slice _ _)
  have g1 := g0.run _ (fun op a s hr hl => v4_abs cfg op a s hr hl) before (v4_room_slice h0)
  have hn : need storage.length (([] : Bytes).length + ([] : Bytes).length + 20) = .ok () := by
    unfold need; rw [if_pos (by simp; omega)]
  obtain ⟨f, ha, hrun⟩ := v4_run before hr (by rw [h0]; decide)
  rw [hn, Outcome.ok_bind, Outcome.ok_bind, hrun, no_payload_last _ _ h0] at g1
  obtain ⟨s, h1, r⟩ := g1
  have hl := V4State.length r.ok
  simp only [Option.getD_none, List.length_nil, Nat.add_zero] at hl
  have hpan : V4Op.run cfg (.payload v) s = .panic := by
    simp only [V4Op.run, V4Builder.setPayload]
    rw [r.payload]
    simp only [Option.isSome_none, Bool.false_eq_true, if_false]
    rw [slice_rep_append_panics cfg r.rep v hv (by rw [hl]; simp; omega) (by rw [hl]; simp; omega)]
    rfl
  unfold ipv4Program
  rw [← bind_assoc]
  have : (V4Builder.«with» cfg (Slice.new storage) >>= runOps (V4Op.run cfg) (before ++ .payload v :: after)) =
      .panic := by
    have e : (fun s : V4Builder Slice => runOps (V4Op.run cfg) (before ++ .payload v :: after) s) =
        fun s : V4Builder Slice => runOps (V4Op.run cfg) before s >>= runOps (V4Op.run cfg) (.payload v :: after) := by
      funext s; exact runOps_append before _ s
    show (V4Builder.«with» cfg (Slice.new storage) >>=
      fun s : V4Builder Slice => runOps (V4Op.run cfg) (before ++ .payload v :: after) s) = _
    rw [e, ← bind_assoc, h1, Outcome.ok_bind]
    show (V4Op.run cfg (.payload v) s >>= _) = _
    rw [hpan]
    rfl
  rw [this]
  rfl

/-- The hypotheses are met by ordinary programs, and the failures show on concrete ones. -/
example (cfg : Cfg) :
    etherProgram cfg (Slice.new (List.replicate 20 0xaa)) [.protocol .arp, .payload [1]] = .panic ∧
    etherProgram cfg (Slice.new (List.replicate 64 0xaa)) [.protocol .arp, .payload [1, 2]] =
      .ok (zeros 12 ++ [8, 6, 0xaa, 0xaa]) ∧
    etherProgram cfg Dynamic.new [.protocol .arp, .payload [1, 2]] = .ok (zeros 12 ++ [8, 6, 1, 2]) := by
  obtain ⟨oc, ea, nw⟩ := cfg
  cases oc <;> cases ea <;> cases nw <;> decide +kernel

example (cfg : Cfg) : ipv4Program cfg (Slice.new (List.replicate 28 7)) [.ttl 1] (.udp [.source 5]) =
    ipv4Program cfg Dynamic.new [.ttl 1] (.udp [.source 5]) ∧
    ipv4Program cfg (Slice.new (List.replicate 27 7)) [.ttl 1] (.udp [.source 5]) = .err .smallBuffer := by
  obtain ⟨oc, ea, nw⟩ := cfg
  cases oc <;> cases ea <;> cases nw <;> decide +kernel

end Verif.Props
