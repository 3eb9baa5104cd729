import Verif.Lemmas.History
import Verif.Spec.AnyBuffer

/-!
# Programs behind layers that are already there

The descriptions `…Abs cfg cap n` of what a program builds behind `n` bytes of a buffer of capacity `cap` do not depend
on `n` and `cap` as long as there is room for the headers.
-/

namespace Verif.NestedBuild
open Verif Verif.Spec

theorem need_ok {cap n : Nat} (h : n ≤ cap) : need cap n = .ok () := by
  unfold need
  rw [if_pos h]

theorem icmp_abs_congr (cfg : Cfg) {cap n cap' n' : Nat} (h : n + 20 ≤ cap) (h' : n' + 20 ≤ cap') (inner : IcmpInner) :
    inner.abs cfg cap n = inner.abs cfg cap' n' := by
  cases inner <;> simp only [IcmpInner.abs]
  · rw [need_ok (by omega), need_ok (by omega)]
  · rw [need_ok (by omega), need_ok (by omega)]
  · rw [need_ok (by omega), need_ok (by omega)]

theorem inner_abs_congr (cfg : Cfg) {cap n cap' n' : Nat} (h : n + 40 ≤ cap) (h' : n' + 40 ≤ cap') (a : V4State)
    (inner : Inner) : inner.abs cfg cap n a = inner.abs cfg cap' n' a := by
  cases inner <;> simp only [Inner.abs]
  · rw [need_ok (by omega), need_ok (by omega)]
  · rw [need_ok (by omega), need_ok (by omega)]
  · rw [icmp_abs_congr cfg (cap := cap) (n := n + 20) (cap' := cap') (n' := n' + 20) (by omega) (by omega)]

theorem ipv4_abs_congr (cfg : Cfg) {cap n cap' n' : Nat} (h : n + 40 ≤ cap) (h' : n' + 40 ≤ cap') (vops : List V4Op)
    (inner : Inner) : ipv4Abs cfg cap n vops inner = ipv4Abs cfg cap' n' vops inner := by
  unfold ipv4Abs
  rw [need_ok (by omega), need_ok (by omega)]
  congr 1
  funext _
  congr 1
  funext a
  exact inner_abs_congr cfg h h' a inner

theorem ethernet_abs_congr (cfg : Cfg) {cap n cap' n' : Nat} (h : n + 54 ≤ cap) (h' : n' + 54 ≤ cap')
    (eops : List EtherOp) (vops : List V4Op) (inner : Inner) :
    ethernetAbs cfg cap n eops vops inner = ethernetAbs cfg cap' n' eops vops inner := by
  unfold ethernetAbs
  rw [need_ok (by omega), need_ok (by omega),
    ipv4_abs_congr cfg (cap := cap) (n := n + 14) (cap' := cap') (n' := n' + 14) (by omega) (by omega)]

/-! ## Room on a growable buffer -/

theorem room_of {cfg : Cfg} {n : Nat} (hn : n ≤ cfg.usizeMod / 8 + 1000) {v : Bytes} (h : v.length ≤ cfg.usizeMod / 4) : Room Dynamic cfg.isizeMax n v := by
  refine ⟨.inl trivial, ?_⟩
  have := cfg.width
  omega

theorem fine_of {cfg : Cfg} {n : Nat} (hn : n ≤ cfg.usizeMod / 8 + 1000) : Fine Dynamic cfg.isizeMax n := by
  left
  have := cfg.width
  omega

theorem v4_room {cfg : Cfg} {n : Nat} (hn : n ≤ cfg.usizeMod / 8 + 900) {vops : List V4Op} (h : ∀ op ∈ vops, op.Sane cfg) :
    ∀ op ∈ vops, op.room Dynamic cfg.isizeMax n := by
  intro op hop
  cases op with
  | payload v => exact room_of (by omega) (h _ hop v rfl)
  | _ => trivial

theorem ether_room {cfg : Cfg} {n : Nat} (hn : n ≤ cfg.usizeMod / 8 + 900) {ops : List EtherOp} (h : ∀ op ∈ ops, op.Sane cfg) :
    ∀ op ∈ ops, op.room Dynamic cfg.isizeMax n := by
  intro op hop
  cases op with
  | payload v => exact room_of (by omega) (h _ hop v rfl)
  | _ => trivial

theorem udp_room {cfg : Cfg} {n : Nat} (hn : n ≤ cfg.usizeMod / 8 + 900) {ops : List UdpOp} (h : (Inner.udp ops).Sane cfg) :
    ∀ op ∈ ops, op.room Dynamic cfg.isizeMax n := by
  intro op hop
  cases op with
  | payload v => exact room_of (by omega) (h v (List.mem_filterMap.2 ⟨_, hop, rfl⟩))
  | _ => trivial

theorem tcp_room {cfg : Cfg} {n : Nat} (hn : n ≤ cfg.usizeMod / 8 + 900) {ops : List TcpOp} (h : (Inner.tcp ops).Sane cfg) :
    ∀ op ∈ ops, op.room Dynamic cfg.isizeMax n := by
  intro op hop
  cases op with
  | payload v => exact room_of (by omega) (h v (List.mem_filterMap.2 ⟨_, hop, rfl⟩))
  | _ => trivial

theorem icmp_room {cfg : Cfg} {n : Nat} (hn : n ≤ cfg.usizeMod / 8 + 900) {inner : IcmpInner} (h : (Inner.icmp inner).Sane cfg) :
    inner.room Dynamic cfg.isizeMax n := by
  cases inner with
  | none => trivial
  | timestamp ops => exact fine_of (by omega)
  | information ops => exact fine_of (by omega)
  | echo ops =>
    refine ⟨fine_of (by omega), ?_⟩
    intro op hop
    cases op with
    | payload v => exact room_of (by omega) (h v (List.mem_filterMap.2 ⟨_, hop, rfl⟩))
    | _ => trivial

theorem inner_room {cfg : Cfg} {n : Nat} (hn : n ≤ cfg.usizeMod / 8 + 800) {inner : Inner} (h : inner.Sane cfg) :
    inner.room Dynamic cfg.isizeMax n := by
  cases inner with
  | plain => trivial
  | udp ops => exact ⟨fine_of (by omega), udp_room (by omega) h⟩
  | tcp ops => exact ⟨fine_of (by omega), tcp_room (by omega) h⟩
  | icmp inner => exact icmp_room (by omega) h

/-! ## The transport builders on any header below -/

/-- What `udp::Builder::build` makes of a header `ip` below and the state `u`. -/
def sealUdp (cfg : Cfg) (ip : Bytes) (u : UdpState) : Outcome Bytes := do
  let ck ← UdpBuilder.checksumIn cfg ip (udpHeader u.sport u.dport
    (BitVec.ofNat 16 (8 + (u.payload.getD []).length)) 0#16 ++ u.payload.getD [])
  .ok (udpHeader u.sport u.dport (BitVec.ofNat 16 (8 + (u.payload.getD []).length)) ck ++ u.payload.getD [])

theorem sealUdp_finalizer (cfg : Cfg) (pre hd : Bytes) (u : UdpState) :
    finish ([] ++ [UdpBuilder.finalizerOf cfg (pre.length, hd.length) (8 + (u.payload.getD []).length)])
      (pre ++ hd ++ u.bytes) = (sealUdp cfg hd u >>= fun out => .ok (pre ++ hd ++ out)) := by
  have hal := u.length
  have h := udp_finalizerOf cfg pre hd u.bytes
  rw [hal] at h
  generalize hD : udpHeader u.sport u.dport (BitVec.ofNat 16 (8 + (u.payload.getD []).length)) 0#16 ++
    u.payload.getD [] = D
  have hDl : D.length = 8 + (u.payload.getD []).length := by
    rw [← hD]; simp [udpHeader, be16]; omega
  have hput : ∀ ck, put D 6 (be16 ck) = udpHeader u.sport u.dport
      (BitVec.ofNat 16 (8 + (u.payload.getD []).length)) ck ++ u.payload.getD [] := by
    intro ck
    rw [← hD]
    rfl
  have hi : UdpBuilder.inner cfg hd (8 + (u.payload.getD []).length) u.bytes =
      (match UdpBuilder.checksumIn cfg hd D with
      | .ok ck => (.ok (), put D 6 (be16 ck))
      | .err e => (.err e, D)
      | .panic => (.panic, D)) := by
    unfold UdpBuilder.inner
    have s1 : writeU16 4 (BitVec.ofNat 16 (8 + (u.payload.getD []).length)) u.bytes = (.ok (), D) := by
      rw [writeU16_ok (by omega), ← hD]
      rfl
    rw [Mut.bind_ok s1, Mut.bind_apply]
    simp only [Mut.read]
    cases UdpBuilder.checksumIn cfg hd D with
    | ok ck => exact writeU16_ok (by omega)
    | err e => rfl
    | panic => rfl
  rw [hi] at h
  unfold sealUdp
  rw [hD]
  cases hc : UdpBuilder.checksumIn cfg hd D with
  | ok ck =>
    rw [hc] at h
    rw [finish_snoc h, finish_nil]
    simp only [Outcome.ok_bind]
    rw [hput]
  | err e => rw [hc] at h; rw [finish_snoc_err h]; rfl
  | panic => rw [hc] at h; rw [finish_snoc_panic h]; rfl

/-- What `tcp::Builder::build` makes of a header `ip` below and the state `t`. -/
def sealTcp (cfg : Cfg) (ip : Bytes) (t : TcpState) : Outcome Bytes := do
  let ck ← (do
    let p ← IpPacket.noPayload ip
    Tcp.checksumOf cfg p (tcpHeader t.fields (0x5000#16 ||| t.flagBits) 0#16 ++ t.payload.getD []))
  .ok (tcpHeader t.fields (0x5000#16 ||| t.flagBits) ck ++ t.payload.getD [])

theorem sealTcp_finalizer (cfg : Cfg) (pre hd : Bytes) (a : TcpState) :
    finish ([] ++ [TcpBuilder.finalizerOf cfg (pre.length, hd.length) (20 + (a.payload.getD []).length)
      (a.payload.getD []).length]) (pre ++ hd ++ a.bytes) =
      (sealTcp cfg hd a >>= fun out => .ok (pre ++ hd ++ out)) := by
  have hal := a.length
  have h := tcp_finalizerOf cfg pre hd a.bytes (a.payload.getD []).length
  rw [hal] at h
  have hw := a.finalWord
  generalize hD : tcpHeader a.fields (0x5000#16 ||| a.flagBits) 0#16 ++ a.payload.getD [] = D
  have hDl : D.length = 20 + (a.payload.getD []).length := by
    rw [← hD, List.length_append, tcpHeader_length]
  have hput : ∀ ck, put D 16 (be16 ck) =
      tcpHeader a.fields (0x5000#16 ||| a.flagBits) ck ++ a.payload.getD [] := by
    intro ck
    rw [← hD]
    rfl
  have hi : TcpBuilder.inner cfg hd (20 + (a.payload.getD []).length) (a.payload.getD []).length a.bytes =
      (match (do
        let p ← IpPacket.noPayload hd
        Tcp.checksumOf cfg p D : Outcome U16) with
      | .ok ck => (.ok (), put D 16 (be16 ck))
      | .err e => (.err e, D)
      | .panic => (.panic, D)) := by
    unfold TcpBuilder.inner
    have s1 : Mut.read (idx · 12) a.bytes = (.ok (BitVec.ofNat 8 (a.word.toNat / 256)), a.bytes) := rfl
    rw [Mut.bind_ok s1]
    have s2 : Mut.read (fun _ => subUsize cfg (20 + (a.payload.getD []).length) (a.payload.getD []).length)
        a.bytes = (.ok 20, a.bytes) := by
      refine Mut.read_of ?_
      rw [subUsize_ok (by omega)]
      congr 1
      omega
    rw [Mut.bind_ok s2]
    have s3 : setIdx 12 ((BitVec.ofNat 8 (20 / 4) <<< 4) ||| (BitVec.ofNat 8 (a.word.toNat / 256) &&& 0b1111#8))
        a.bytes = (.ok (), D) := by
      rw [setIdx_ok (by omega), ← hD]
      congr 1
      unfold tcpHeader
      rw [hw]
      rfl
    rw [Mut.bind_ok s3, Mut.bind_apply]
    simp only [Mut.read]
    generalize (do
        let p ← IpPacket.noPayload hd
        Tcp.checksumOf cfg p D : Outcome U16) = r
    cases r with
    | ok ck => exact writeU16_ok (by omega)
    | err e => rfl
    | panic => rfl
  rw [hi] at h
  unfold sealTcp
  rw [hD]
  generalize (do
      let p ← IpPacket.noPayload hd
      Tcp.checksumOf cfg p D : Outcome U16) = r at *
  cases r with
  | ok ck =>
    rw [finish_snoc h, finish_nil]
    simp only [Outcome.ok_bind]
    rw [hput]
  | err e => rw [finish_snoc_err h]; rfl
  | panic => rw [finish_snoc_panic h]; rfl

section
variable {B : Type} [Buffer B] [LawfulBuffer B]
open LawfulBuffer

theorem udpProgram_eq (cfg : Cfg) {cap : Nat} {b : B} {pre layer : Bytes} (h : Rep cfg cap b pre layer)
    (ops : List UdpOp) (hf : Fine B cap (pre.length + layer.length + 8))
    (ho : ∀ op ∈ ops, op.room B cap (pre.length + layer.length)) :
    udpProgram cfg b ops =
      ((do
        need cap (pre.length + layer.length + 8)
        let u ← runOps UdpOp.abs ops .init
        sealUdp cfg layer u) >>= fun out => .ok (pre ++ layer ++ out)) := by
  have h1 := udp_with_total cfg h hf
  have h2 := h1.run _ (fun op a s hr hl => udp_abs cfg op a s hr hl) ops
    (by rw [List.length_append]; exact ho)
  have h3 := h2.bind (f := UdpBuilder.build cfg)
    (g := fun u => sealUdp cfg layer u >>= fun out => .ok (pre ++ layer ++ out)) (by
    intro u s r
    unfold UdpBuilder.build UdpBuilder.prepare Finalization.add
    simp only []
    rw [buildTail_eq r.rep, r.fin, r.ip, length r.rep, UdpState.length]
    exact sealUdp_finalizer cfg pre layer u)
  simp only [udpProgram, bind_assoc] at *
  exact h3

theorem tcpProgram_eq (cfg : Cfg) {cap : Nat} {b : B} {pre layer : Bytes} (h : Rep cfg cap b pre layer)
    (ops : List TcpOp) (hf : Fine B cap (pre.length + layer.length + 20))
    (ho : ∀ op ∈ ops, op.room B cap (pre.length + layer.length)) :
    tcpProgram cfg b ops =
      ((do
        need cap (pre.length + layer.length + 20)
        let t ← runOps TcpOp.abs ops .init
        sealTcp cfg layer t) >>= fun out => .ok (pre ++ layer ++ out)) := by
  have h1 := tcp_with_total cfg h hf
  have h2 := h1.run _ (fun op a s hr hl => tcp_abs cfg op a s hr hl) ops
    (by rw [List.length_append]; exact ho)
  have h3 := h2.bind (f := TcpBuilder.build cfg)
    (g := fun u => sealTcp cfg layer u >>= fun out => .ok (pre ++ layer ++ out)) (by
    intro u s r
    unfold TcpBuilder.build TcpBuilder.prepare Finalization.add
    simp only []
    rw [buildTail_eq r.rep, r.fin, r.ip, length r.rep, TcpState.length, r.payloadLength]
    exact sealTcp_finalizer cfg pre layer u)
  simp only [tcpProgram, bind_assoc] at *
  exact h3

end
end Verif.NestedBuild
