import Verif.Lemmas.BuildTotal

/-! # What whole builder programs compute -/

namespace Verif
open Verif Verif.Spec

/-- An IPv4 header with its length and checksum, in front of `rest`. -/
def sealV4 (cfg : Cfg) (f : Ipv4Fields) (rest : Bytes) : Outcome Bytes := do
  let ck ← V4.checksumOf cfg (ipv4Header f (BitVec.ofNat 16 (20 + rest.length)) 0#16)
  .ok (ipv4Header f (BitVec.ofNat 16 (20 + rest.length)) ck ++ rest)

/-- The same for a UDP datagram. -/
def UdpState.seal (cfg : Cfg) (ip : Bytes) (u : UdpState) : Outcome Bytes := do
  let ck ← Udp.checksumOf cfg (.v4 ip) (udpHeader u.sport u.dport
    (BitVec.ofNat 16 (8 + (u.payload.getD []).length)) 0#16 ++ u.payload.getD [])
  .ok (udpHeader u.sport u.dport (BitVec.ofNat 16 (8 + (u.payload.getD []).length)) ck ++ u.payload.getD [])

/-- The same for a TCP segment. -/
def TcpState.seal (cfg : Cfg) (ip : Bytes) (t : TcpState) : Outcome Bytes := do
  let ck ← Tcp.checksumOf cfg (.v4 ip)
    (tcpHeader t.fields (0x5000#16 ||| t.flagBits) 0#16 ++ t.payload.getD [])
  .ok (tcpHeader t.fields (0x5000#16 ||| t.flagBits) ck ++ t.payload.getD [])

/-- What `build()` makes of an IPv4 builder itself: a raw payload counts as header. -/
def V4State.raw (cfg : Cfg) (a : V4State) : Outcome Bytes :=
  let n := 20 + (a.payload.getD []).length
  let d := put (put a.bytes 0 [(4#8 <<< 4) ||| BitVec.ofNat 8 (n / 4)]) 2 (be16 (BitVec.ofNat 16 n))
  do
    let ck ← V4.checksumOf cfg (d.take (n / 4 * 4))
    .ok (put d 10 (be16 ck))

/-- What the Ethernet layer does with the IP packet inside it. -/
def EtherState.seal (e : EtherState) (out : Bytes) : Outcome Bytes :=
  match out with
  | [] => .panic
  | x :: _ =>
    if x >>> 4 = 4#8 then .ok (ethernetFrame e.dst.octets e.src.octets 0x0800#16 out)
    else if x >>> 4 = 6#8 then .ok (ethernetFrame e.dst.octets e.src.octets 0x86dd#16 out)
    else .panic

/-- An ICMP program behind `n` bytes. -/
def IcmpInner.abs (cfg : Cfg) (cap n : Nat) : IcmpInner → Outcome Bytes
  | .none => .err .invalidPacket
  | .echo ops => do
    need cap (n + 8)
    let a ← runOps EchoOp.abs ops .init
    if a.kind.isSome then do
      let ck ← Icmp.checksumOf cfg (a.msg 0#16)
      .ok (a.msg ck)
    else .err .invalidPacket
  | .timestamp ops => do
    need cap (n + 20)
    let a ← runOps TimestampOp.abs ops .init
    if a.kind.isSome then do
      let ck ← Icmp.checksumOf cfg (a.msg 0#16)
      .ok (a.msg ck)
    else .err .invalidPacket
  | .information ops => do
    need cap (n + 8)
    let a ← runOps InformationOp.abs ops .init
    if a.kind.isSome then do
      let ck ← Icmp.checksumOf cfg (a.msg 0#16)
      .ok (a.msg ck)
    else .err .invalidPacket

/-- What follows the IPv4 calls, on an IPv4 builder in state `a` behind `n` bytes. -/
def Inner.abs (cfg : Cfg) (cap n : Nat) (a : V4State) : Inner → Outcome Bytes
  | .plain => a.raw cfg
  | .udp ops =>
    if a.payload.isSome then .err .alreadyDefined else do
      need cap (n + 28)
      let u ← runOps UdpOp.abs ops .init
      let d ← u.seal cfg (ipv4Header { a.fields with protocol := 17#8 } 0#16 0#16)
      sealV4 cfg { a.fields with protocol := 17#8 } d
  | .tcp ops =>
    if a.payload.isSome then .err .alreadyDefined else do
      need cap (n + 40)
      let t ← runOps TcpOp.abs ops .init
      let d ← t.seal cfg (ipv4Header { a.fields with protocol := 6#8 } 0#16 0#16)
      sealV4 cfg { a.fields with protocol := 6#8 } d
  | .icmp inner =>
    if a.payload.isSome then .err .alreadyDefined else do
      let d ← inner.abs cfg cap (n + 20)
      sealV4 cfg { a.fields with protocol := 1#8 } d

/-- `ipv4Program` behind `n` bytes. -/
def ipv4Abs (cfg : Cfg) (cap n : Nat) (vops : List V4Op) (inner : Inner) : Outcome Bytes := do
  need cap (n + 20)
  let a ← runOps V4Op.abs vops .init
  inner.abs cfg cap n a

/-- `ethernetProgram` behind `n` bytes. -/
def ethernetAbs (cfg : Cfg) (cap n : Nat) (eops : List EtherOp) (vops : List V4Op) (inner : Inner) :
    Outcome Bytes := do
  need cap (n + 14)
  let e ← runOps EtherOp.abs eops .init
  if e.payload.isSome then .err .alreadyDefined else do
    let out ← ipv4Abs cfg cap (n + 14) vops inner
    e.seal out

section
variable (B : Type) [Buffer B] [LawfulBuffer B]
open LawfulBuffer

/-- `n` bytes in all fit, or not fitting is refused. -/
def Fine (cap n : Nat) : Prop := n ≤ cap ∨ Refuses B

/-- The payloads of the program can be stored. -/
def IcmpInner.room (cap n : Nat) : IcmpInner → Prop
  | .none => True
  | .echo ops => Fine B cap (n + 8) ∧ ∀ op ∈ ops, op.room B cap n
  | .timestamp _ => Fine B cap (n + 20)
  | .information _ => Fine B cap (n + 8)

def Inner.room (cap n : Nat) : Inner → Prop
  | .plain => True
  | .udp ops => Fine B cap (n + 28) ∧ ∀ op ∈ ops, op.room B cap (n + 20)
  | .tcp ops => Fine B cap (n + 40) ∧ ∀ op ∈ ops, op.room B cap (n + 20)
  | .icmp inner => inner.room B cap (n + 20)
end

section
variable {B : Type} [Buffer B] [LawfulBuffer B]
open LawfulBuffer

theorem next_small (cfg : Cfg) {cap k : Nat} {b : B} {pre layer : Bytes} (h : Rep cfg cap b pre layer)
    (hf : Fine B cap (pre.length + layer.length + k)) (hk : k ≤ 100)
    (hn : ¬ pre.length + layer.length + k ≤ cap) : onBuffer (Buffer.next cfg k) b = .err .smallBuffer := by
  rcases hf with hf | hf
  · exact (hn hf).elim
  · unfold onBuffer
    rw [refuse cfg k hf h (by have := cfg.width; omega) (by omega)]

theorem ether_with_total (cfg : Cfg) {cap : Nat} {b : B} {pre layer : Bytes} (h : Rep cfg cap b pre layer)
    (hf : Fine B cap (pre.length + layer.length + 14)) :
    Sim (EtherRep cfg cap (pre ++ layer) []) (EtherBuilder.«with» cfg b)
      (need cap (pre.length + layer.length + 14) >>= fun _ => .ok .init) := by
  unfold need
  by_cases hn : pre.length + layer.length + 14 ≤ cap
  · rw [if_pos hn]; exact ether_with cfg h hn
  · rw [if_neg hn]
    show EtherBuilder.«with» cfg b = _
    unfold EtherBuilder.«with» Ether.headerMin
    rw [next_small cfg h hf (by omega) hn]
    rfl

theorem v4_with_total (cfg : Cfg) {cap : Nat} {b : B} {pre layer : Bytes} (h : Rep cfg cap b pre layer)
    (hf : Fine B cap (pre.length + layer.length + 20)) :
    Sim (V4Rep cfg cap (pre ++ layer) []) (V4Builder.«with» cfg b)
      (need cap (pre.length + layer.length + 20) >>= fun _ => .ok .init) := by
  unfold need
  by_cases hn : pre.length + layer.length + 20 ≤ cap
  · rw [if_pos hn]; exact v4_with cfg h hn
  · rw [if_neg hn]
    show V4Builder.«with» cfg b = _
    unfold V4Builder.«with»
    have : onBuffer (Buffer.next cfg V4.headerMin) b = .err .smallBuffer :=
      next_small (k := 20) cfg h hf (by omega) hn
    rw [this]
    rfl

theorem udp_with_total (cfg : Cfg) {cap : Nat} {b : B} {pre layer : Bytes} (h : Rep cfg cap b pre layer)
    (hf : Fine B cap (pre.length + layer.length + 8)) :
    Sim (UdpRep cfg cap (pre ++ layer) [] (pre.length, layer.length)) (UdpBuilder.«with» cfg b)
      (need cap (pre.length + layer.length + 8) >>= fun _ => .ok .init) := by
  unfold need
  by_cases hn : pre.length + layer.length + 8 ≤ cap
  · rw [if_pos hn]; exact udp_with cfg h hn
  · rw [if_neg hn]
    show UdpBuilder.«with» cfg b = _
    unfold UdpBuilder.«with» Udp.headerMin
    simp only []
    rw [next_small cfg h hf (by omega) hn]
    rfl

theorem tcp_with_total (cfg : Cfg) {cap : Nat} {b : B} {pre layer : Bytes} (h : Rep cfg cap b pre layer)
    (hf : Fine B cap (pre.length + layer.length + 20)) :
    Sim (TcpRep cfg cap (pre ++ layer) [] (pre.length, layer.length)) (TcpBuilder.«with» cfg b)
      (need cap (pre.length + layer.length + 20) >>= fun _ => .ok .init) := by
  unfold need
  by_cases hn : pre.length + layer.length + 20 ≤ cap
  · rw [if_pos hn]; exact tcp_with cfg h hn
  · rw [if_neg hn]
    show TcpBuilder.«with» cfg b = _
    unfold TcpBuilder.«with»
    have : onBuffer (Buffer.next cfg Tcp.headerMin) b = .err .smallBuffer :=
      next_small (k := 20) cfg h hf (by omega) hn
    simp only []
    rw [this]
    rfl

theorem echo_with_total (cfg : Cfg) {cap : Nat} {b : B} {pre layer : Bytes} (h : Rep cfg cap b pre layer)
    (hf : Fine B cap (pre.length + layer.length + 8)) :
    Sim (EchoRep cfg cap (pre ++ layer) []) (EchoBuilder.«with» cfg b)
      (need cap (pre.length + layer.length + 8) >>= fun _ => .ok .init) := by
  unfold need
  by_cases hn : pre.length + layer.length + 8 ≤ cap
  · rw [if_pos hn]; exact echo_with cfg h hn
  · rw [if_neg hn]
    show EchoBuilder.«with» cfg b = _
    unfold EchoBuilder.«with»
    rw [next_small cfg h hf (by omega) hn]
    rfl

theorem timestamp_with_total (cfg : Cfg) {cap : Nat} {b : B} {pre layer : Bytes} (h : Rep cfg cap b pre layer)
    (hf : Fine B cap (pre.length + layer.length + 20)) :
    Sim (TimestampRep cfg cap (pre ++ layer) []) (TimestampBuilder.«with» cfg b)
      (need cap (pre.length + layer.length + 20) >>= fun _ => .ok .init) := by
  unfold need
  by_cases hn : pre.length + layer.length + 20 ≤ cap
  · rw [if_pos hn]; exact timestamp_with cfg h hn
  · rw [if_neg hn]
    show TimestampBuilder.«with» cfg b = _
    unfold TimestampBuilder.«with»
    rw [next_small cfg h hf (by omega) hn]
    rfl

theorem information_with_total (cfg : Cfg) {cap : Nat} {b : B} {pre layer : Bytes} (h : Rep cfg cap b pre layer)
    (hf : Fine B cap (pre.length + layer.length + 8)) :
    Sim (InformationRep cfg cap (pre ++ layer) []) (InformationBuilder.«with» cfg b)
      (need cap (pre.length + layer.length + 8) >>= fun _ => .ok .init) := by
  unfold need
  by_cases hn : pre.length + layer.length + 8 ≤ cap
  · rw [if_pos hn]; exact information_with cfg h hn
  · rw [if_neg hn]
    show InformationBuilder.«with» cfg b = _
    unfold InformationBuilder.«with»
    rw [next_small cfg h hf (by omega) hn]
    rfl

omit [Buffer B] [LawfulBuffer B] in
/-- Changing the builder after a matching `with`. -/
theorem Sim.map {A σ τ : Type} {R : A → σ → Prop} {Q : A → τ → Prop} {o : Outcome σ} {p : Outcome A}
    (h : Sim R o p) (g : σ → τ) (hg : ∀ a s, R a s → Q a (g s)) :
    Sim Q (o >>= fun s => .ok (g s)) p := by
  cases p with
  | ok a => obtain ⟨s, e, r⟩ := h; exact ⟨g s, by rw [e]; rfl, hg a s r⟩
  | err e => have h : o = .err e := h; rw [h]; rfl
  | panic => have h : o = .panic := h; rw [h]; rfl

omit [Buffer B] [LawfulBuffer B] in
theorem Sim.run {A σ Op : Type} {R : A → σ → Prop} {o : Outcome σ} {p : Outcome A} (h : Sim R o p)
    {run : Op → σ → Outcome σ} {abs : Op → A → Outcome A} (room : Op → Prop)
    (hstep : ∀ op a s, R a s → room op → Sim R (run op s) (abs op a)) (ops : List Op)
    (hr : ∀ op ∈ ops, room op) : Sim R (o >>= runOps run ops) (p >>= runOps abs ops) := by
  cases p with
  | ok a => obtain ⟨s, e, r⟩ := h; rw [e]; exact runOps_abs R room hstep ops a s r hr
  | err e => have h : o = .err e := h; rw [h]; rfl
  | panic => have h : o = .panic := h; rw [h]; rfl

/-! ## ICMP -/

theorem icmp_msg_finish (cfg : Cfg) (fs : Finalization) (pre : Bytes) (msg : U16 → Bytes)
    (hl : 4 ≤ (msg 0#16).length) (hp : ∀ ck, put (msg 0#16) 2 (be16 ck) = msg ck) :
    finish (fs ++ [IcmpBuilder.finalizerOf cfg pre.length (msg 0#16).length]) (pre ++ msg 0#16) =
      ((do
        let ck ← Icmp.checksumOf cfg (msg 0#16)
        Outcome.ok (msg ck)) >>= fun out => finish fs (pre ++ out)) := by
  obtain ⟨ck, hck, hf⟩ := icmp_finalizer cfg pre (msg 0#16) hl
  rw [finish_snoc hf, hck, hp]
  rfl

theorem icmp_program (cfg : Cfg) {cap : Nat} {b : B} {pre layer : Bytes} (h : Rep cfg cap b pre layer)
    (fs : Finalization) (inner : IcmpInner) (hr : inner.room B cap (pre.length + layer.length)) :
    inner.build cfg (⟨b, fs⟩ : IcmpBuilder B) =
      (inner.abs cfg cap (pre.length + layer.length) >>= fun out => finish fs (pre ++ layer ++ out)) := by
  cases inner with
  | none => rfl
  | echo ops =>
    have h1 := (echo_with_total cfg h hr.1).map (Q := EchoRep cfg cap (pre ++ layer) fs)
      (fun s => { s with finalizer := s.finalizer.extend fs })
      (fun a s r => ⟨r.rep, by simp [Finalization.extend, r.fin], r.kind, r.payload⟩)
    have h2 := h1.run _ (fun op a s hr hl => echo_abs cfg op a s hr hl) ops
      (by rw [List.length_append]; exact hr.2)
    have h3 := h2.bind (f := EchoBuilder.build cfg) (g := fun a => (if a.kind.isSome then do
        let ck ← Icmp.checksumOf cfg (a.msg 0#16)
        Outcome.ok (a.msg ck)
      else .err .invalidPacket) >>= fun out => finish fs (pre ++ layer ++ out)) (by
      intro a s r
      unfold EchoBuilder.build
      rw [r.kind]
      cases hk : a.kind with
      | none => rfl
      | some k =>
        rw [if_neg (by simp), if_pos (by simp)]
        unfold IcmpBuilder.prepare Finalization.add
        rw [buildTail_eq r.rep, r.fin, offset r.rep, length r.rep]
        exact icmp_msg_finish cfg fs _ a.msg (by rw [EchoState.length]; omega) (fun _ => rfl))
    simp only [IcmpInner.build, IcmpInner.abs, IcmpBuilder.echo, bind_assoc] at *
    exact h3
  | timestamp ops =>
    have h1 := (timestamp_with_total cfg h hr).map (Q := TimestampRep cfg cap (pre ++ layer) fs)
      (fun s => { s with finalizer := s.finalizer.extend fs })
      (fun a s r => ⟨r.rep, by simp [Finalization.extend, r.fin], r.kind⟩)
    have h2 := h1.run (abs := TimestampOp.abs) (fun _ => True)
      (fun op a s hr _ => timestamp_step cfg op a s hr) ops (fun _ _ => trivial)
    have h3 := h2.bind (f := TimestampBuilder.build cfg) (g := fun a => (if a.kind.isSome then do
        let ck ← Icmp.checksumOf cfg (a.msg 0#16)
        Outcome.ok (a.msg ck)
      else .err .invalidPacket) >>= fun out => finish fs (pre ++ layer ++ out)) (by
      intro a s r
      unfold TimestampBuilder.build
      rw [r.kind]
      cases hk : a.kind with
      | none => rfl
      | some k =>
        rw [if_neg (by simp), if_pos (by simp)]
        unfold IcmpBuilder.prepare Finalization.add
        rw [buildTail_eq r.rep, r.fin, offset r.rep, length r.rep]
        exact icmp_msg_finish cfg fs _ a.msg (by rw [TimestampState.length]; omega) (fun _ => rfl))
    simp only [IcmpInner.build, IcmpInner.abs, IcmpBuilder.timestamp, bind_assoc] at *
    exact h3
  | information ops =>
    have h1 := (information_with_total cfg h hr).map (Q := InformationRep cfg cap (pre ++ layer) fs)
      (fun s => { s with finalizer := s.finalizer.extend fs })
      (fun a s r => ⟨r.rep, by simp [Finalization.extend, r.fin], r.kind⟩)
    have h2 := h1.run (abs := InformationOp.abs) (fun _ => True)
      (fun op a s hr _ => information_step cfg op a s hr) ops (fun _ _ => trivial)
    have h3 := h2.bind (f := InformationBuilder.build cfg) (g := fun a => (if a.kind.isSome then do
        let ck ← Icmp.checksumOf cfg (a.msg 0#16)
        Outcome.ok (a.msg ck)
      else .err .invalidPacket) >>= fun out => finish fs (pre ++ layer ++ out)) (by
      intro a s r
      unfold InformationBuilder.build
      rw [r.kind]
      cases hk : a.kind with
      | none => rfl
      | some k =>
        rw [if_neg (by simp), if_pos (by simp)]
        unfold IcmpBuilder.prepare Finalization.add
        rw [buildTail_eq r.rep, r.fin, offset r.rep, length r.rep]
        exact icmp_msg_finish cfg fs _ a.msg (by rw [InformationState.length]; omega) (fun _ => rfl))
    simp only [IcmpInner.build, IcmpInner.abs, IcmpBuilder.information, bind_assoc] at *
    exact h3

/-! ## IPv4 -/

theorem v4_seal_finish (cfg : Cfg) {f : Ipv4Fields} (hf : Ipv4Fields.ok f) (fs : Finalization)
    (pre rest : Bytes) :
    finish (fs ++ [V4Builder.finalizerOf cfg pre.length 20]) (pre ++ ipv4Header f 0#16 0#16 ++ rest) =
      (sealV4 cfg f rest >>= fun out => finish fs (pre ++ out)) := by
  obtain ⟨ck, hck, hfin⟩ := v4_finalizer cfg hf pre rest
  unfold sealV4
  rw [finish_snoc hfin, hck, List.append_assoc]
  rfl

/-- The finalizer of an IPv4 builder that is built itself. -/
theorem v4_raw_finish (cfg : Cfg) (fs : Finalization) (pre : Bytes) {a : V4State}
    (ha : Ipv4Fields.ok a.fields) :
    finish (fs ++ [V4Builder.finalizerOf cfg pre.length a.bytes.length]) (pre ++ a.bytes) =
      (a.raw cfg >>= fun out => finish fs (pre ++ out)) := by
  have hl := V4State.length ha
  unfold V4State.raw
  simp only []
  rw [← hl]
  have h20 : 20 ≤ a.bytes.length := by omega
  generalize a.bytes = d at h20
  generalize hx : (4#8 <<< 4) ||| BitVec.ofNat 8 (d.length / 4) = x
  generalize hw : BitVec.ofNat 16 d.length = w
  have h1 : (put d 0 [x]).length = d.length := length_put (by simp; omega)
  have h2 : (put (put d 0 [x]) 2 (be16 w)).length = d.length := by
    rw [length_put (by rw [be16_length]; omega), h1]
  obtain ⟨ck, hck⟩ : ∃ ck, V4.checksumOf cfg ((put (put d 0 [x]) 2 (be16 w)).take (d.length / 4 * 4)) = .ok ck :=
    ⟨_, V4.checksumOf_eq _ _⟩
  rw [hck]
  have at' := fun (hd bs hd' : Bytes) off (h1 : hd.length = d.length) h2 h3 =>
    put_at pre hd bs hd' [] off d.length h1 h2 h3
  simp only [List.append_nil] at at'
  have hfin : V4Builder.finalizerOf cfg pre.length d.length (pre ++ d) =
      (.ok (), pre ++ put (put (put d 0 [x]) 2 (be16 w)) 10 (be16 ck)) := by
    unfold V4Builder.finalizerOf
    have s1 : setIdx pre.length ((4#8 <<< 4) ||| BitVec.ofNat 8 (d.length / 4)) (pre ++ d)
        = (.ok (), pre ++ put d 0 [x]) := by
      rw [hx, setIdx_ok (by simp; omega)]
      congr 1
      exact at' d _ _ 0 rfl (by simp; omega) rfl
    rw [Mut.bind_ok s1]
    have s2 : (Mut.read fun out : Bytes => subUsize cfg out.length (pre.length + d.length))
        (pre ++ put d 0 [x]) = (.ok 0, pre ++ put d 0 [x]) := by
      refine Mut.read_of ?_
      rw [subUsize_ok (by simp [h1])]
      simp [h1]
    rw [Mut.bind_ok s2]
    have s3 : writeU16 (pre.length + 2) (BitVec.ofNat 16 (d.length + 0)) (pre ++ put d 0 [x])
        = (.ok (), pre ++ put (put d 0 [x]) 2 (be16 w)) := by
      rw [show BitVec.ofNat 16 (d.length + 0) = w from hw, writeU16_ok (by simp [h1]; omega)]
      congr 1
      exact at' _ _ _ 2 h1 (by rw [be16_length]; omega) rfl
    rw [Mut.bind_ok s3]
    have s4 : (Mut.read fun out : Bytes => do
        let h ← slice out pre.length (pre.length + d.length / 4 * 4)
        V4.checksumOf cfg h) (pre ++ put (put d 0 [x]) 2 (be16 w))
        = (.ok ck, pre ++ put (put d 0 [x]) 2 (be16 w)) := by
      refine Mut.read_of ?_
      rw [slice_ok (by omega) (by simp [h2]; omega), List.take_append, List.take_of_length_le (by omega),
        List.drop_left' rfl, Nat.add_sub_cancel_left]
      exact hck
    rw [Mut.bind_ok s4, writeU16_ok (by simp [h2]; omega)]
    congr 1
    exact at' _ _ _ 10 h2 (by rw [be16_length]; omega) rfl
  rw [finish_snoc hfin]
  rfl

theorem enter_defined (cfg : Cfg) (p : IpProtocol) {cap : Nat} {pre : Bytes} {fs : Finalization}
    {a : V4State} {s : V4Builder B} (h : V4Rep cfg cap pre fs a s) (hp : a.payload.isSome) :
    V4Builder.enter cfg p s = .err .alreadyDefined := by
  unfold V4Builder.enter
  rw [if_pos (by rw [h.payload]; exact hp)]

theorem inner_program (cfg : Cfg) {cap : Nat} {pre : Bytes} {fs : Finalization} {a : V4State}
    {s : V4Builder B} (h : V4Rep cfg cap pre fs a s) (inner : Inner) (hr : inner.room B cap pre.length) :
    inner.build cfg s = (inner.abs cfg cap pre.length a >>= fun out => finish fs (pre ++ out)) := by
  cases inner with
  | plain =>
    show V4Builder.build cfg s = _
    unfold V4Builder.build V4Builder.prepare Finalization.add
    simp only []
    rw [buildTail_eq h.rep, h.fin, offset h.rep, length h.rep]
    exact v4_raw_finish cfg fs pre h.ok
  | udp ops =>
    by_cases hp : a.payload.isSome
    · simp only [Inner.build, Inner.abs, V4Builder.udp, if_pos hp, enter_defined cfg _ h hp]
      rfl
    · simp only [Inner.abs, if_neg hp]
      have hp' : a.payload = none := by simpa using hp
      obtain ⟨s1, e1, r1⟩ := v4_enter cfg .udp a s h hp'
      have hb : (V4Op.step (.protocol .udp) a).bytes =
          ipv4Header { a.fields with protocol := 17#8 } 0#16 0#16 := by
        show _ ++ a.payload.getD [] = _
        rw [hp']; exact List.append_nil _
      have hok : Ipv4Fields.ok { a.fields with protocol := 17#8 } := r1.ok
      have hrep := r1.rep
      rw [hb] at hrep
      have hl := hok.length 0#16 0#16
      have h0 := udp_with_total cfg hrep (by rw [hl]; exact hr.1)
      rw [hl] at h0
      have h1 := h0.map (Q := UdpRep cfg cap (pre ++ ipv4Header { a.fields with protocol := 17#8 } 0#16 0#16)
          (fs ++ [V4Builder.finalizerOf cfg pre.length 20]) (pre.length, 20))
        (fun u => { u with finalizer := u.finalizer.extend s1.finalizer })
        (fun u s r => ⟨r.rep, by simp [Finalization.extend, r.fin, r1.fin], r.ip, r.payload⟩)
      have h2 := h1.run _ (fun op a s hr hl => udp_abs cfg op a s hr hl) ops
        (by rw [List.length_append, hl]; exact hr.2)
      have h3 := h2.bind (f := UdpBuilder.build cfg) (g := fun u => (do
          let d ← u.seal cfg (ipv4Header { a.fields with protocol := 17#8 } 0#16 0#16)
          sealV4 cfg { a.fields with protocol := 17#8 } d) >>= fun out => finish fs (pre ++ out)) (by
        intro u s r
        unfold UdpBuilder.build UdpBuilder.prepare Finalization.add
        simp only []
        rw [buildTail_eq r.rep, r.fin, r.ip, length r.rep, UdpState.length]
        obtain ⟨uck, hu1, hu2⟩ := udp_finalizer cfg hok pre u.sport u.dport (u.payload.getD [])
        unfold UdpState.bytes UdpState.seal
        rw [finish_snoc hu2, hu1]
        exact v4_seal_finish cfg hok fs pre _)
      simp only [Inner.build, V4Builder.udp, e1, Outcome.ok_bind, bind_assoc] at *
      exact h3
  | tcp ops =>
    by_cases hp : a.payload.isSome
    · simp only [Inner.build, Inner.abs, V4Builder.tcp, if_pos hp, enter_defined cfg _ h hp]
      rfl
    · simp only [Inner.abs, if_neg hp]
      have hp' : a.payload = none := by simpa using hp
      obtain ⟨s1, e1, r1⟩ := v4_enter cfg .tcp a s h hp'
      have hb : (V4Op.step (.protocol .tcp) a).bytes =
          ipv4Header { a.fields with protocol := 6#8 } 0#16 0#16 := by
        show _ ++ a.payload.getD [] = _
        rw [hp']; exact List.append_nil _
      have hok : Ipv4Fields.ok { a.fields with protocol := 6#8 } := r1.ok
      have hrep := r1.rep
      rw [hb] at hrep
      have hl := hok.length 0#16 0#16
      have h0 := tcp_with_total cfg hrep (by rw [hl]; exact hr.1)
      rw [hl] at h0
      have h1 := h0.map (Q := TcpRep cfg cap (pre ++ ipv4Header { a.fields with protocol := 6#8 } 0#16 0#16)
          (fs ++ [V4Builder.finalizerOf cfg pre.length 20]) (pre.length, 20))
        (fun u => { u with finalizer := u.finalizer.extend s1.finalizer })
        (fun u s r => ⟨r.rep, by simp [Finalization.extend, r.fin, r1.fin], r.ip, r.payload,
          r.payloadLength⟩)
      have h2 := h1.run _ (fun op a s hr hl => tcp_abs cfg op a s hr hl) ops
        (by rw [List.length_append, hl]; exact hr.2)
      have h3 := h2.bind (f := TcpBuilder.build cfg) (g := fun u => (do
          let d ← u.seal cfg (ipv4Header { a.fields with protocol := 6#8 } 0#16 0#16)
          sealV4 cfg { a.fields with protocol := 6#8 } d) >>= fun out => finish fs (pre ++ out)) (by
        intro u s r
        unfold TcpBuilder.build TcpBuilder.prepare Finalization.add
        simp only []
        rw [buildTail_eq r.rep, r.fin, r.ip, length r.rep, TcpState.length, r.payloadLength]
        have ht := tcp_finalizer cfg hok pre u
        unfold TcpState.seal
        cases hc : Tcp.checksumOf cfg (.v4 (ipv4Header { a.fields with protocol := 6#8 } 0#16 0#16))
          (tcpHeader u.fields (0x5000#16 ||| u.flagBits) 0#16 ++ u.payload.getD []) with
        | ok ck =>
          rw [hc] at ht
          rw [finish_snoc ht]
          exact v4_seal_finish cfg hok fs pre _
        | err e =>
          rw [hc] at ht
          rw [finish_snoc_err ht]
          rfl
        | panic =>
          rw [hc] at ht
          rw [finish_snoc_panic ht]
          rfl)
      simp only [Inner.build, V4Builder.tcp, e1, Outcome.ok_bind, bind_assoc] at *
      exact h3
  | icmp inner =>
    by_cases hp : a.payload.isSome
    · simp only [Inner.build, Inner.abs, V4Builder.icmp, if_pos hp, enter_defined cfg _ h hp]
      rfl
    · simp only [Inner.build, Inner.abs, if_neg hp]
      have hp' : a.payload = none := by simpa using hp
      obtain ⟨hok, b', e1, hrep⟩ := v4_icmp_enter cfg h hp'
      have hl := hok.length 0#16 0#16
      have h1 := icmp_program cfg hrep (fs ++ [V4Builder.finalizerOf cfg pre.length 20]) inner
        (by rw [hl]; exact hr)
      rw [e1, hl] at *
      simp only [Outcome.ok_bind, bind_assoc]
      rw [h1]
      congr 1
      funext d
      exact v4_seal_finish cfg hok fs pre d

end

/-! ## Programs -/

section
variable {B : Type} [Buffer B] [LawfulBuffer B]
open LawfulBuffer

theorem ipv4_program (cfg : Cfg) {cap : Nat} {b : B} {pre layer : Bytes} (h : Rep cfg cap b pre layer)
    (fs : Finalization) (vops : List V4Op) (inner : Inner)
    (hf : Fine B cap (pre.length + layer.length + 20))
    (hv : ∀ op ∈ vops, op.room B cap (pre.length + layer.length))
    (hi : inner.room B cap (pre.length + layer.length)) :
    (do
      let v ← IpBuilder.v4 cfg (⟨b, fs⟩ : IpBuilder B)
      let v ← runOps (V4Op.run cfg) vops v
      inner.build cfg v) =
      (ipv4Abs cfg cap (pre.length + layer.length) vops inner >>= fun out =>
        finish fs (pre ++ layer ++ out)) := by
  have h1 := (v4_with_total cfg h hf).map (Q := V4Rep cfg cap (pre ++ layer) fs)
    (fun v => { v with finalizer := v.finalizer.extend fs })
    (fun a s r => ⟨r.rep, by simp [Finalization.extend, r.fin], r.payload, r.ok⟩)
  have h2 := h1.run _ (fun op a s hr hl => v4_abs cfg op a s hr hl) vops
    (by rw [List.length_append]; exact hv)
  have h3 := h2.bind (f := fun v => inner.build cfg v)
    (g := fun a => inner.abs cfg cap (pre.length + layer.length) a >>= fun out =>
      finish fs (pre ++ layer ++ out)) (by
    intro a s r
    have := inner_program cfg r inner (by rw [List.length_append]; exact hi)
    rw [List.length_append] at this
    exact this)
  simp only [IpBuilder.v4, ipv4Abs, bind_assoc] at *
  exact h3

theorem ether_seal_finish (e : EtherState) (he : e.payload = none) (pre out : Bytes) :
    finish [EtherBuilder.ipFinalizer pre.length 14] (pre ++ e.bytes ++ out) =
      (e.seal out >>= fun out => .ok (pre ++ out)) := by
  have hl := e.length
  rw [he] at hl
  have hl : e.bytes.length = 14 := hl
  have hb : e.bytes = ethernetFrame e.dst.octets e.src.octets e.type [] := by
    unfold EtherState.bytes; rw [he]; rfl
  cases out with
  | nil =>
    have : EtherBuilder.ipFinalizer pre.length 14 (pre ++ e.bytes ++ []) =
        (.panic, pre ++ e.bytes ++ []) := by
      unfold EtherBuilder.ipFinalizer
      have s1 : (Mut.read (idx · (pre.length + 14))) (pre ++ e.bytes ++ []) =
          (.panic, pre ++ e.bytes ++ []) := by
        refine Mut.read_of ?_
        unfold idx
        rw [List.getElem?_eq_none (by simp [hl])]
      rw [Mut.bind_apply, s1]
    exact finish_snoc_panic (fs := []) this
  | cons x rest =>
    have s1 : (Mut.read (idx · (pre.length + 14))) (pre ++ e.bytes ++ x :: rest) =
        (.ok x, pre ++ e.bytes ++ x :: rest) := by
      refine Mut.read_of ?_
      unfold idx
      rw [List.append_assoc, List.getElem?_append_right (by omega), Nat.add_sub_cancel_left,
        List.getElem?_append_right (by omega), hl]
      rfl
    have wr : ∀ v, writeU16 (pre.length + 12) v (pre ++ e.bytes ++ x :: rest) =
        (.ok (), pre ++ ethernetFrame e.dst.octets e.src.octets v (x :: rest)) := by
      intro v
      rw [writeU16_ok (by simp [hl]; omega)]
      congr 1
      have := put_at pre e.bytes (be16 v) (ethernetFrame e.dst.octets e.src.octets v []) (x :: rest) 12 14 hl
        (by rw [be16_length]; omega) (by rw [hb]; rfl)
      rw [this, List.append_assoc]
      rfl
    unfold EtherState.seal
    simp only []
    by_cases h4 : x >>> 4 = 4#8
    · rw [if_pos h4]
      refine finish_snoc (fs := []) (out' := pre ++ ethernetFrame e.dst.octets e.src.octets 0x0800#16 (x :: rest)) ?_
      unfold EtherBuilder.ipFinalizer
      rw [Mut.bind_ok s1, if_pos h4]
      exact wr _
    · rw [if_neg h4]
      by_cases h6 : x >>> 4 = 6#8
      · rw [if_pos h6]
        refine finish_snoc (fs := []) (out' := pre ++ ethernetFrame e.dst.octets e.src.octets 0x86dd#16 (x :: rest)) ?_
        unfold EtherBuilder.ipFinalizer
        rw [Mut.bind_ok s1, if_neg h4, if_pos h6]
        exact wr _
      · rw [if_neg h6]
        refine finish_snoc_panic (fs := []) (out' := pre ++ e.bytes ++ x :: rest) ?_
        unfold EtherBuilder.ipFinalizer
        rw [Mut.bind_ok s1, if_neg h4, if_neg h6]
        rfl

theorem ipv4Program_eq (cfg : Cfg) {cap : Nat} {b : B} {pre layer : Bytes} (h : Rep cfg cap b pre layer)
    (vops : List V4Op) (inner : Inner) (hf : Fine B cap (pre.length + layer.length + 20))
    (hv : ∀ op ∈ vops, op.room B cap (pre.length + layer.length))
    (hi : inner.room B cap (pre.length + layer.length)) :
    ipv4Program cfg b vops inner =
      (ipv4Abs cfg cap (pre.length + layer.length) vops inner >>= fun out => .ok (pre ++ layer ++ out)) := by
  have h1 := ipv4_program cfg h [] vops inner hf hv hi
  have e : IpBuilder.v4 cfg (⟨b, []⟩ : IpBuilder B) = V4Builder.«with» cfg b := by
    unfold IpBuilder.v4 Finalization.extend
    simp only [List.append_nil]
    cases V4Builder.«with» cfg b <;> rfl
  rw [e] at h1
  exact h1

theorem ethernetProgram_eq (cfg : Cfg) {cap : Nat} {b : B} {pre layer : Bytes} (h : Rep cfg cap b pre layer)
    (eops : List EtherOp) (vops : List V4Op) (inner : Inner)
    (hf : Fine B cap (pre.length + layer.length + 14)) (hf2 : Fine B cap (pre.length + layer.length + 34))
    (he : ∀ op ∈ eops, op.room B cap (pre.length + layer.length))
    (hv : ∀ op ∈ vops, op.room B cap (pre.length + layer.length + 14))
    (hi : inner.room B cap (pre.length + layer.length + 14)) :
    ethernetProgram cfg b eops vops inner =
      (ethernetAbs cfg cap (pre.length + layer.length) eops vops inner >>= fun out =>
        .ok (pre ++ layer ++ out)) := by
  have h1 := ether_with_total cfg h hf
  have h2 := h1.run _ (fun op a s hr hl => ether_abs cfg op a s hr hl) eops
    (by rw [List.length_append]; exact he)
  have h3 := h2.bind (f := fun e => (do
      let i ← EtherBuilder.ip e
      let v ← IpBuilder.v4 cfg i
      let v ← runOps (V4Op.run cfg) vops v
      inner.build cfg v : Outcome Bytes))
    (g := fun e => (if e.payload.isSome then .err .alreadyDefined else do
      let out ← ipv4Abs cfg cap (pre.length + layer.length + 14) vops inner
      e.seal out) >>= fun out => .ok (pre ++ layer ++ out)) (by
    intro e s r
    unfold EtherBuilder.ip
    rw [r.payload]
    cases hp : e.payload with
    | some v => rfl
    | none =>
      have hl := e.length
      rw [hp] at hl
      have hl : e.bytes.length = 14 := hl
      simp only [Option.isSome_none, Bool.false_eq_true, if_false, Outcome.ok_bind]
      have := ipv4_program cfg r.rep [EtherBuilder.ipFinalizer (pre ++ layer).length 14] vops inner
        (by rw [hl, List.length_append]; exact hf2) (by rw [hl, List.length_append]; exact hv)
        (by rw [hl, List.length_append]; exact hi)
      rw [hl] at this
      have efin : Finalization.extend [] (Finalization.add s.finalizer
          (EtherBuilder.ipFinalizer (Buffer.offset s.buffer) (Buffer.length s.buffer))) =
          [EtherBuilder.ipFinalizer (pre ++ layer).length 14] := by
        rw [r.fin, offset r.rep, length r.rep, hl]
        rfl
      rw [efin, this, List.length_append]
      simp only [bind_assoc]
      congr 1
      funext out
      rw [← List.length_append]
      exact ether_seal_finish e hp (pre ++ layer) out)
  simp only [ethernetProgram, ethernetAbs, bind_assoc] at *
  exact h3

theorem icmpProgram_eq (cfg : Cfg) {cap : Nat} {b : B} {pre layer : Bytes} (h : Rep cfg cap b pre layer)
    (inner : IcmpInner) (hi : inner.room B cap (pre.length + layer.length)) :
    icmpProgram cfg b inner =
      (inner.abs cfg cap (pre.length + layer.length) >>= fun out => .ok (pre ++ layer ++ out)) := by
  have := icmp_program cfg h [] inner hi
  exact this

theorem etherProgram_eq (cfg : Cfg) {cap : Nat} {b : B} {pre layer : Bytes} (h : Rep cfg cap b pre layer)
    (eops : List EtherOp) (hf : Fine B cap (pre.length + layer.length + 14))
    (he : ∀ op ∈ eops, op.room B cap (pre.length + layer.length)) :
    etherProgram cfg b eops =
      ((do
        need cap (pre.length + layer.length + 14)
        let e ← runOps EtherOp.abs eops .init
        Outcome.ok e.bytes) >>= fun out => .ok (pre ++ layer ++ out)) := by
  have h1 := ether_with_total cfg h hf
  have h2 := h1.run _ (fun op a s hr hl => ether_abs cfg op a s hr hl) eops
    (by rw [List.length_append]; exact he)
  have h3 := h2.bind (f := EtherBuilder.build)
    (g := fun e => Outcome.ok e.bytes >>= fun out => .ok (pre ++ layer ++ out)) (by
    intro e s r
    unfold EtherBuilder.build
    rw [buildTail_eq r.rep, r.fin]
    rfl)
  simp only [etherProgram, bind_assoc] at *
  exact h3

end
end Verif
