import Verif.Lemmas.AnyBufferStep

/-!
# Every program, on two buffers
-/

namespace Verif.AnyBuffer
open Verif Verif.Spec Verif.Props

section
variable {B1 B2 : Type} [Buffer B1] [Buffer B2] {cfg : Cfg} {cap1 cap2 : Nat} {f1 f2 : Option Error}
  {R1 : B1 → Layers → Prop} {R2 : B2 → Layers → Prop}

/-- From a buffer to a builder. -/
abbrev StartPair (cap2 : Nat) (f1 f2 : Option Error) (R1 : B1 → Layers → Prop) (R2 : B2 → Layers → Prop)
    (cap1 : Nat) {S' T' ρ' : Type} (w1 : View S' B1 ρ') (w2 : View T' B2 ρ')
    (k1 : B1 → Outcome S') (k2 : B2 → Outcome T') : Prop :=
  CallPair (cap1 = cap2) f1 f2 (Joint R1 R2) (Big cap1 R2) (SameView R1 R2 w1 w2) (BigView cap1 R2 w2) k1 k2

/-- `let inner = Inner::with(self.buffer)?; inner.finalizer.extend(self.finalizer)`. -/
theorem bstep_nest {S T ρ S' T' ρ' : Type} {v1 : View S B1 ρ} {v2 : View T B2 ρ} {w1 : View S' B1 ρ'}
    {w2 : View T' B2 ρ'} {k1 : B1 → Outcome S'} {k2 : B2 → Outcome T'} (h : StartPair cap2 f1 f2 R1 R2 cap1 w1 w2 k1 k2)
    {g1 : S → S' → S'} {g2 : T → T' → T'} (b1 : ∀ s u, w1.buf (g1 s u) = w1.buf u) (b2 : ∀ t u, w2.buf (g2 t u) = w2.buf u)
    (e1 : ∀ s u, w1.fin (g1 s u) = w1.fin u ++ v1.fin s) (e2 : ∀ t u, w2.fin (g2 t u) = w2.fin u ++ v2.fin t)
    (r1 : ∀ s u, w1.rest (g1 s u) = w1.rest u) (r2 : ∀ t u, w2.rest (g2 t u) = w2.rest u) :
    BuilderPair cap2 f1 f2 R1 R2 cap1 v1 v2 w1 w2 (fun s => k1 (v1.buf s) >>= fun u => .ok (g1 s u))
      (fun t => k2 (v2.buf t) >>= fun u => .ok (g2 t u)) := by
  have both : ∀ {a b : Finalization}, (∀ f ∈ a, KeepsLen f) → (∀ f ∈ b, KeepsLen f) → ∀ f ∈ a ++ b, KeepsLen f := by
    intro a b ha hb f hf
    rcases List.mem_append.1 hf with hf | hf
    · exact ha f hf
    · exact hb f hf
  refine CallPair.on h (fun _ _ h => h.1) (fun _ h => h.1) (fun s t u v hs hu => ⟨?_, ⟨?_, ?_⟩, ?_⟩)
    (fun s t v hs hu => ⟨?_, ?_⟩) (fun t v hs hu => ⟨?_, ?_⟩)
  · rw [b1, b2]; exact hu.1
  · rw [e1, e2, hu.2.1.1, hs.2.1.1]
  · rw [e1]; exact both hu.2.1.2 hs.2.1.2
  · rw [r1, r2]; exact hu.2.2
  · rw [b2]; exact hu.1
  · rw [e2, hs.2.1.1]; exact both hu.2 hs.2.1.2
  · rw [b2]; exact hu.1
  · rw [e2]; exact both hu.2 hs.2

/-- A fresh builder around the buffer. -/
theorem start_ok {S' T' ρ' : Type} (w1 : View S' B1 ρ') (w2 : View T' B2 ρ') {g1 : B1 → S'} {g2 : B2 → T'}
    (b1 : ∀ b, w1.buf (g1 b) = b) (b2 : ∀ b, w2.buf (g2 b) = b) (e1 : ∀ b, w1.fin (g1 b) = []) (e2 : ∀ b, w2.fin (g2 b) = [])
    (r : ∀ b c, w2.rest (g2 c) = w1.rest (g1 b)) :
    StartPair cap2 f1 f2 R1 R2 cap1 w1 w2 (fun b => .ok (g1 b)) (fun b => .ok (g2 b)) := by
  refine CallPair.ok (fun s t h => ⟨?_, ⟨?_, ?_⟩, r s t⟩) (fun t h => ⟨?_, ?_⟩)
  · rw [b1, b2]; exact h
  · rw [e1, e2]
  · rw [e1]; intro f hf; cases hf
  · rw [b2]; exact h
  · rw [e2]; intro f hf; cases hf

theorem all_add {fs : Finalization} {f : Finalizer} (h : ∀ g ∈ fs, KeepsLen g) (hf : KeepsLen f) :
    ∀ g ∈ fs.add f, KeepsLen g := by
  intro g hg
  rcases List.mem_append.1 hg with hg | hg
  · exact h g hg
  · rw [List.mem_singleton] at hg
    subst hg
    exact hf

variable (h1 : Backs cfg cap1 f1 R1) (h2 : Backs cfg cap2 f2 R2) (hle : cap1 ≤ cap2)
include h1 h2

theorem v4_prepare : BuilderPair cap2 f1 f2 R1 R2 cap1 (v4View B1) (v4View B2) (v4View B1) (v4View B2)
    (fun s => .ok (V4Builder.prepare cfg s)) (fun s => .ok (V4Builder.prepare cfg s)) := by
  refine CallPair.ok (fun s t h => ⟨h.1, ⟨?_, all_add h.2.1.2 (KeepsLen.v4Finalizer _ _ _)⟩, h.2.2⟩)
    (fun t h => ⟨h.1, all_add h.2 (KeepsLen.v4Finalizer _ _ _)⟩)
  have hs := joint_same h1 h2 h.1
  have hf : t.finalizer = s.finalizer := h.2.1.1
  have ho : Buffer.offset t.buffer = Buffer.offset s.buffer := hs.1
  have hl : Buffer.length t.buffer = Buffer.length s.buffer := hs.2
  show Finalization.add t.finalizer _ = Finalization.add s.finalizer _
  rw [hf, ho, hl]

theorem v4_enter_step (p : IpProtocol) : BuilderPair cap2 f1 f2 R1 R2 cap1 (v4View B1) (v4View B2) (v4View B1) (v4View B2)
    (V4Builder.enter cfg p) (V4Builder.enter cfg p) :=
  CallPair.ite (c1 := V4Builder.payload) (c2 := V4Builder.payload) (fun _ _ h => h.2.2) (CallPair.fail .alreadyDefined)
    ((v4_setter h1 h2 (KeepsLen.v4 (KeepsLen.setIdx _ _))).comp (v4_prepare h1 h2))

theorem ether_ip : BuilderPair cap2 f1 f2 R1 R2 cap1 (etherView B1) (etherView B2) (ipView B1) (ipView B2)
    EtherBuilder.ip EtherBuilder.ip := by
  refine CallPair.ite (c1 := EtherBuilder.payload) (c2 := EtherBuilder.payload) (fun _ _ h => h.2.2)
    (CallPair.fail .alreadyDefined)
    (CallPair.ok (g1 := fun s : EtherBuilder B1 => IpBuilder.mk s.buffer (Finalization.extend [] (s.finalizer.add
        (EtherBuilder.ipFinalizer (Buffer.offset s.buffer) (Buffer.length s.buffer)))))
      (g2 := fun s : EtherBuilder B2 => IpBuilder.mk s.buffer (Finalization.extend [] (s.finalizer.add
        (EtherBuilder.ipFinalizer (Buffer.offset s.buffer) (Buffer.length s.buffer)))))
      (fun s t h => ⟨h.1, ⟨?_, all_add h.2.1.2 (KeepsLen.ipFinalizer _ _)⟩, rfl⟩)
      (fun t h => ⟨h.1, all_add h.2 (KeepsLen.ipFinalizer _ _)⟩))
  have hs := joint_same h1 h2 h.1
  have hf : t.finalizer = s.finalizer := h.2.1.1
  have ho : Buffer.offset t.buffer = Buffer.offset s.buffer := hs.1
  have hl : Buffer.length t.buffer = Buffer.length s.buffer := hs.2
  show Finalization.extend [] (Finalization.add t.finalizer _) = Finalization.extend [] (Finalization.add s.finalizer _)
  rw [hf, ho, hl]

theorem icmp_with : StartPair cap2 f1 f2 R1 R2 cap1 (icmpView B1) (icmpView B2) IcmpBuilder.«with» IcmpBuilder.«with» :=
  start_ok (icmpView B1) (icmpView B2) (g1 := fun b => IcmpBuilder.mk b []) (g2 := fun b => IcmpBuilder.mk b [])
      (fun _ => rfl) (fun _ => rfl) (fun _ => rfl) (fun _ => rfl) (fun _ _ => rfl)

theorem v4_icmp : BuilderPair cap2 f1 f2 R1 R2 cap1 (v4View B1) (v4View B2) (icmpView B1) (icmpView B2)
    (V4Builder.icmp cfg) (V4Builder.icmp cfg) :=
  (v4_enter_step h1 h2 .icmp).comp (bstep_nest (v1 := v4View B1) (v2 := v4View B2) (icmp_with h1 h2)
    (g1 := fun s u => { u with finalizer := u.finalizer.extend s.finalizer })
    (g2 := fun s u => { u with finalizer := u.finalizer.extend s.finalizer })
    (fun _ _ => rfl) (fun _ _ => rfl) (fun _ _ => rfl) (fun _ _ => rfl) (fun _ _ => rfl) (fun _ _ => rfl))

theorem v4_build : BuildPair cap2 f1 f2 R1 R2 cap1 (v4View B1) (v4View B2) (V4Builder.build cfg) (V4Builder.build cfg) :=
  (v4_prepare h1 h2).comp (step_tail h1 h2 (Q := SameView R1 R2 (v4View B1) (v4View B2))
    (P := BigView cap1 R2 (v4View B2)) (b1 := (·.buffer)) (b2 := (·.buffer))
    (fs1 := (·.finalizer)) (fs2 := (·.finalizer)) (fun _ _ h => ⟨h.1, h.2.1⟩) (fun _ h => h))

theorem ether_build :
    BuildPair cap2 f1 f2 R1 R2 cap1 (etherView B1) (etherView B2) EtherBuilder.build EtherBuilder.build :=
  step_tail h1 h2 (Q := SameView R1 R2 (etherView B1) (etherView B2)) (P := BigView cap1 R2 (etherView B2))
    (b1 := (·.buffer)) (b2 := (·.buffer))
    (fs1 := (·.finalizer)) (fs2 := (·.finalizer)) (fun _ _ h => ⟨h.1, h.2.1⟩) (fun _ h => h)

theorem udp_build : BuildPair cap2 f1 f2 R1 R2 cap1 (udpView B1) (udpView B2) (UdpBuilder.build cfg) (UdpBuilder.build cfg) := by
  refine step_tail h1 h2 (Q := SameView R1 R2 (udpView B1) (udpView B2)) (P := BigView cap1 R2 (udpView B2))
    (b1 := (·.buffer)) (b2 := (·.buffer))
    (fs1 := fun s => (UdpBuilder.prepare cfg s).finalizer) (fs2 := fun s => (UdpBuilder.prepare cfg s).finalizer)
    (fun s t h => ⟨h.1, ?_, all_add h.2.1.2 (KeepsLen.udpFinalizer _ _ _)⟩)
    (fun _ h => ⟨h.1, all_add h.2 (KeepsLen.udpFinalizer _ _ _)⟩)
  have hs := joint_same h1 h2 h.1
  have hf : t.finalizer = s.finalizer := h.2.1.1
  have hl : Buffer.length t.buffer = Buffer.length s.buffer := hs.2
  have hi : t.ip = s.ip := congrArg (fun x => x.1) h.2.2
  show Finalization.add t.finalizer _ = Finalization.add s.finalizer _
  rw [hf, hi, hl]

theorem tcp_build : BuildPair cap2 f1 f2 R1 R2 cap1 (tcpView B1) (tcpView B2) (TcpBuilder.build cfg) (TcpBuilder.build cfg) := by
  refine step_tail h1 h2 (Q := SameView R1 R2 (tcpView B1) (tcpView B2)) (P := BigView cap1 R2 (tcpView B2))
    (b1 := (·.buffer)) (b2 := (·.buffer))
    (fs1 := fun s => (TcpBuilder.prepare cfg s).finalizer) (fs2 := fun s => (TcpBuilder.prepare cfg s).finalizer)
    (fun s t h => ⟨h.1, ?_, all_add h.2.1.2 (KeepsLen.tcpFinalizer _ _ _ _)⟩)
    (fun _ h => ⟨h.1, all_add h.2 (KeepsLen.tcpFinalizer _ _ _ _)⟩)
  have hs := joint_same h1 h2 h.1
  have hf : t.finalizer = s.finalizer := h.2.1.1
  have hl : Buffer.length t.buffer = Buffer.length s.buffer := hs.2
  have hi : t.ip = s.ip := congrArg (fun x => x.1) h.2.2
  have hp : t.payloadLength = s.payloadLength := congrArg (fun x => x.2.2) h.2.2
  show Finalization.add t.finalizer _ = Finalization.add s.finalizer _
  rw [hf, hi, hl, hp]

/-- `build` of the three ICMP builders, once the kind has been chosen. -/
theorem icmp_tail {S T ρ : Type} {v1 : View S B1 ρ} {v2 : View T B2 ρ} :
    BuildPair cap2 f1 f2 R1 R2 cap1 v1 v2
      (fun s => buildTail (v1.buf s) (IcmpBuilder.prepare cfg (v1.fin s) (v1.buf s)))
      (fun s => buildTail (v2.buf s) (IcmpBuilder.prepare cfg (v2.fin s) (v2.buf s))) := by
  refine step_tail h1 h2 (Q := SameView R1 R2 v1 v2) (P := BigView cap1 R2 v2)
    (fun s t h => ⟨h.1, ?_, all_add h.2.1.2 (KeepsLen.icmpFinalizer _ _ _)⟩)
    (fun _ h => ⟨h.1, all_add h.2 (KeepsLen.icmpFinalizer _ _ _)⟩)
  have hs := joint_same h1 h2 h.1
  unfold IcmpBuilder.prepare
  rw [h.2.1.1, hs.1, hs.2]

theorem echo_build :
    BuildPair cap2 f1 f2 R1 R2 cap1 (echoView B1) (echoView B2) (EchoBuilder.build cfg) (EchoBuilder.build cfg) := by
  have e : ∀ {B : Type} [Buffer B], EchoBuilder.build (B := B) cfg = fun s => if s.kind then
      buildTail ((echoView B).buf s) (IcmpBuilder.prepare cfg ((echoView B).fin s) ((echoView B).buf s))
      else .err .invalidPacket := by
    intro B _
    funext s
    unfold EchoBuilder.build
    cases s.kind <;> rfl
  rw [e, e]
  exact CallPair.ite (c1 := EchoBuilder.kind) (c2 := EchoBuilder.kind) (fun _ _ h => congrArg (fun x => x.1) h.2.2)
    (icmp_tail h1 h2) (CallPair.fail .invalidPacket)

theorem timestamp_build : BuildPair cap2 f1 f2 R1 R2 cap1 (timestampView B1) (timestampView B2)
    (TimestampBuilder.build cfg) (TimestampBuilder.build cfg) := by
  have e : ∀ {B : Type} [Buffer B], TimestampBuilder.build (B := B) cfg = fun s => if s.kind then
      buildTail ((timestampView B).buf s)
        (IcmpBuilder.prepare cfg ((timestampView B).fin s) ((timestampView B).buf s))
      else .err .invalidPacket := by
    intro B _
    funext s
    unfold TimestampBuilder.build
    cases s.kind <;> rfl
  rw [e, e]
  exact CallPair.ite (c1 := TimestampBuilder.kind) (c2 := TimestampBuilder.kind) (fun _ _ h => h.2.2)
    (icmp_tail h1 h2) (CallPair.fail .invalidPacket)

theorem information_build : BuildPair cap2 f1 f2 R1 R2 cap1 (informationView B1) (informationView B2)
    (InformationBuilder.build cfg) (InformationBuilder.build cfg) := by
  have e : ∀ {B : Type} [Buffer B], InformationBuilder.build (B := B) cfg = fun s => if s.kind then
      buildTail ((informationView B).buf s)
        (IcmpBuilder.prepare cfg ((informationView B).fin s) ((informationView B).buf s))
      else .err .invalidPacket := by
    intro B _
    funext s
    unfold InformationBuilder.build
    cases s.kind <;> rfl
  rw [e, e]
  exact CallPair.ite (c1 := InformationBuilder.kind) (c2 := InformationBuilder.kind) (fun _ _ h => h.2.2)
    (icmp_tail h1 h2) (CallPair.fail .invalidPacket)

include hle

theorem ether_with : StartPair cap2 f1 f2 R1 R2 cap1 (etherView B1) (etherView B2) (EtherBuilder.«with» cfg) (EtherBuilder.«with» cfg) :=
  (step_next h1 h2 hle (small_isize (by decide))).comp
    (start_ok (etherView B1) (etherView B2) (g1 := fun b => EtherBuilder.mk b [] false) (g2 := fun b => EtherBuilder.mk b [] false)
      (fun _ => rfl) (fun _ => rfl) (fun _ => rfl) (fun _ => rfl) (fun _ _ => rfl))

theorem v4_with : StartPair cap2 f1 f2 R1 R2 cap1 (v4View B1) (v4View B2) (V4Builder.«with» cfg) (V4Builder.«with» cfg) :=
  (step_next h1 h2 hle (small_isize (by decide))).comp ((step_modify h1 h2 (KeepsLen.setIdx _ _)).comp
    (start_ok (v4View B1) (v4View B2) (g1 := fun b => V4Builder.mk b [] false) (g2 := fun b => V4Builder.mk b [] false)
      (fun _ => rfl) (fun _ => rfl) (fun _ => rfl) (fun _ => rfl) (fun _ _ => rfl)))

theorem echo_with : StartPair cap2 f1 f2 R1 R2 cap1 (echoView B1) (echoView B2) (EchoBuilder.«with» cfg) (EchoBuilder.«with» cfg) :=
  (step_next h1 h2 hle (small_isize (by decide))).comp
    (start_ok (echoView B1) (echoView B2) (g1 := fun b => EchoBuilder.mk b [] false false) (g2 := fun b => EchoBuilder.mk b [] false false)
      (fun _ => rfl) (fun _ => rfl) (fun _ => rfl) (fun _ => rfl) (fun _ _ => rfl))

theorem timestamp_with : StartPair cap2 f1 f2 R1 R2 cap1 (timestampView B1) (timestampView B2)
    (TimestampBuilder.«with» cfg) (TimestampBuilder.«with» cfg) :=
  (step_next h1 h2 hle (small_isize (by decide))).comp
    (start_ok (timestampView B1) (timestampView B2) (g1 := fun b => TimestampBuilder.mk b [] false) (g2 := fun b => TimestampBuilder.mk b [] false)
      (fun _ => rfl) (fun _ => rfl) (fun _ => rfl) (fun _ => rfl) (fun _ _ => rfl))

theorem information_with : StartPair cap2 f1 f2 R1 R2 cap1 (informationView B1) (informationView B2)
    (InformationBuilder.«with» cfg) (InformationBuilder.«with» cfg) :=
  (step_next h1 h2 hle (small_isize (by decide))).comp
    (start_ok (informationView B1) (informationView B2) (g1 := fun b => InformationBuilder.mk b [] false) (g2 := fun b => InformationBuilder.mk b [] false)
      (fun _ => rfl) (fun _ => rfl) (fun _ => rfl) (fun _ => rfl) (fun _ _ => rfl))

theorem udp_with : StartPair cap2 f1 f2 R1 R2 cap1 (udpView B1) (udpView B2) (UdpBuilder.«with» cfg) (UdpBuilder.«with» cfg) :=
  CallPair.on (step_next h1 h2 hle (n := Udp.headerMin) (small_isize (by decide))) (p1 := fun b => b) (p2 := fun b => b)
    (g1 := fun (s b : B1) => UdpBuilder.mk b [] (Buffer.offset s, Buffer.length s) false)
    (g2 := fun (s b : B2) => UdpBuilder.mk b [] (Buffer.offset s, Buffer.length s) false)
    (fun _ _ h => h) (fun _ h => h)
    (fun s t _ _ hs h => ⟨h, ⟨rfl, (fun _ hf => (by cases hf))⟩, by
      show ((_, _), _) = ((_, _), _)
      rw [(joint_same h1 h2 hs).1, (joint_same h1 h2 hs).2]⟩)
    (fun _ _ _ _ h => ⟨h, (fun _ hf => (by cases hf))⟩) (fun _ _ _ h => ⟨h, (fun _ hf => (by cases hf))⟩)

theorem tcp_with : StartPair cap2 f1 f2 R1 R2 cap1 (tcpView B1) (tcpView B2) (TcpBuilder.«with» cfg) (TcpBuilder.«with» cfg) := by
  have e : ∀ {B : Type} [Buffer B], TcpBuilder.«with» (B := B) cfg = fun s =>
      (onBuffer (Buffer.next cfg Tcp.headerMin) s >>=
        onBuffer (Buffer.modifyData cfg (setIdx 12 (BitVec.ofNat 8 (Tcp.headerMin / 4) <<< 4)))) >>= fun b =>
      .ok (TcpBuilder.mk b [] (Buffer.offset s, Buffer.length s) false 0) := by
    intro B _
    funext s
    rw [bind_assoc]
    rfl
  rw [e, e]
  exact CallPair.on ((step_next h1 h2 hle (n := Tcp.headerMin) (small_isize (by decide))).comp (step_modify h1 h2 (KeepsLen.setIdx _ _)))
    (p1 := fun b => b) (p2 := fun b => b)
    (g1 := fun (s b : B1) => TcpBuilder.mk b [] (Buffer.offset s, Buffer.length s) false 0)
    (g2 := fun (s b : B2) => TcpBuilder.mk b [] (Buffer.offset s, Buffer.length s) false 0)
    (fun _ _ h => h) (fun _ h => h)
    (fun s t _ _ hs h => ⟨h, ⟨rfl, (fun _ hf => (by cases hf))⟩, by
      show ((_, _), _, _) = ((_, _), _, _)
      rw [(joint_same h1 h2 hs).1, (joint_same h1 h2 hs).2]⟩)
    (fun _ _ _ _ h => ⟨h, (fun _ hf => (by cases hf))⟩) (fun _ _ _ h => ⟨h, (fun _ hf => (by cases hf))⟩)

theorem v4_udp : BuilderPair cap2 f1 f2 R1 R2 cap1 (v4View B1) (v4View B2) (udpView B1) (udpView B2)
    (V4Builder.udp cfg) (V4Builder.udp cfg) :=
  (v4_enter_step h1 h2 .udp).comp (bstep_nest (v1 := v4View B1) (v2 := v4View B2) (udp_with h1 h2 hle)
    (g1 := fun s u => { u with finalizer := u.finalizer.extend s.finalizer })
    (g2 := fun s u => { u with finalizer := u.finalizer.extend s.finalizer })
    (fun _ _ => rfl) (fun _ _ => rfl) (fun _ _ => rfl) (fun _ _ => rfl) (fun _ _ => rfl) (fun _ _ => rfl))

theorem v4_tcp : BuilderPair cap2 f1 f2 R1 R2 cap1 (v4View B1) (v4View B2) (tcpView B1) (tcpView B2)
    (V4Builder.tcp cfg) (V4Builder.tcp cfg) :=
  (v4_enter_step h1 h2 .tcp).comp (bstep_nest (v1 := v4View B1) (v2 := v4View B2) (tcp_with h1 h2 hle)
    (g1 := fun s u => { u with finalizer := u.finalizer.extend s.finalizer })
    (g2 := fun s u => { u with finalizer := u.finalizer.extend s.finalizer })
    (fun _ _ => rfl) (fun _ _ => rfl) (fun _ _ => rfl) (fun _ _ => rfl) (fun _ _ => rfl) (fun _ _ => rfl))

theorem ip_v4 : BuilderPair cap2 f1 f2 R1 R2 cap1 (ipView B1) (ipView B2) (v4View B1) (v4View B2)
    (IpBuilder.v4 cfg) (IpBuilder.v4 cfg) :=
  bstep_nest (v1 := ipView B1) (v2 := ipView B2) (v4_with h1 h2 hle)
    (g1 := fun s u => { u with finalizer := u.finalizer.extend s.finalizer })
    (g2 := fun s u => { u with finalizer := u.finalizer.extend s.finalizer })
    (fun _ _ => rfl) (fun _ _ => rfl) (fun _ _ => rfl) (fun _ _ => rfl) (fun _ _ => rfl) (fun _ _ => rfl)

theorem icmp_echo : BuilderPair cap2 f1 f2 R1 R2 cap1 (icmpView B1) (icmpView B2) (echoView B1) (echoView B2)
    (IcmpBuilder.echo cfg) (IcmpBuilder.echo cfg) :=
  bstep_nest (v1 := icmpView B1) (v2 := icmpView B2) (echo_with h1 h2 hle)
    (g1 := fun s u => { u with finalizer := u.finalizer.extend s.finalizer })
    (g2 := fun s u => { u with finalizer := u.finalizer.extend s.finalizer })
    (fun _ _ => rfl) (fun _ _ => rfl) (fun _ _ => rfl) (fun _ _ => rfl) (fun _ _ => rfl) (fun _ _ => rfl)

theorem icmp_timestamp : BuilderPair cap2 f1 f2 R1 R2 cap1 (icmpView B1) (icmpView B2) (timestampView B1) (timestampView B2)
    (IcmpBuilder.timestamp cfg) (IcmpBuilder.timestamp cfg) :=
  bstep_nest (v1 := icmpView B1) (v2 := icmpView B2) (timestamp_with h1 h2 hle)
    (g1 := fun s u => { u with finalizer := u.finalizer.extend s.finalizer })
    (g2 := fun s u => { u with finalizer := u.finalizer.extend s.finalizer })
    (fun _ _ => rfl) (fun _ _ => rfl) (fun _ _ => rfl) (fun _ _ => rfl) (fun _ _ => rfl) (fun _ _ => rfl)

theorem icmp_information : BuilderPair cap2 f1 f2 R1 R2 cap1 (icmpView B1) (icmpView B2) (informationView B1)
    (informationView B2) (IcmpBuilder.information cfg) (IcmpBuilder.information cfg) :=
  bstep_nest (v1 := icmpView B1) (v2 := icmpView B2) (information_with h1 h2 hle)
    (g1 := fun s u => { u with finalizer := u.finalizer.extend s.finalizer })
    (g2 := fun s u => { u with finalizer := u.finalizer.extend s.finalizer })
    (fun _ _ => rfl) (fun _ _ => rfl) (fun _ _ => rfl) (fun _ _ => rfl) (fun _ _ => rfl) (fun _ _ => rfl)

theorem icmpInner_step (inner : IcmpInner) : BuildPair cap2 f1 f2 R1 R2 cap1 (icmpView B1) (icmpView B2)
    (fun s => inner.build cfg s) (fun s => inner.build cfg s) := by
  cases inner with
  | none => exact CallPair.fail .invalidPacket
  | echo ops =>
    exact (icmp_echo h1 h2 hle).comp ((CallPair.runOps (fun op => echo_op h1 h2 hle op) ops).comp (echo_build h1 h2))
  | timestamp ops =>
    exact (icmp_timestamp h1 h2 hle).comp
      ((CallPair.runOps (fun op => timestamp_op h1 h2 op) ops).comp (timestamp_build h1 h2))
  | information ops =>
    exact (icmp_information h1 h2 hle).comp
      ((CallPair.runOps (fun op => information_op h1 h2 op) ops).comp (information_build h1 h2))

theorem inner_step (inner : Inner) : BuildPair cap2 f1 f2 R1 R2 cap1 (v4View B1) (v4View B2)
    (fun s => inner.build cfg s) (fun s => inner.build cfg s) := by
  cases inner with
  | plain => exact v4_build h1 h2
  | udp ops =>
    exact (v4_udp h1 h2 hle).comp ((CallPair.runOps (fun op => udp_op h1 h2 hle op) ops).comp (udp_build h1 h2))
  | tcp ops =>
    exact (v4_tcp h1 h2 hle).comp ((CallPair.runOps (fun op => tcp_op h1 h2 hle op) ops).comp (tcp_build h1 h2))
  | icmp i => exact (v4_icmp h1 h2).comp (icmpInner_step h1 h2 hle i)

/-- The last outcome of a program on two buffers. -/
abbrev Final (cap1 : Nat) (same : Prop) (f1 f2 : Option Error) (o1 o2 : Outcome Bytes) : Prop :=
  OutPair same f1 f2 (fun o1 o2 => o2 = o1 ∧ o1.length ≤ cap1) (fun o => cap1 < o.length) o1 o2

variable {b1 : B1} {b2 : B2} (hj : Joint R1 R2 b1 b2)
include hj

theorem ether_final (ops : List EtherOp) :
    Final cap1 (cap1 = cap2) f1 f2 (etherProgram cfg b1 ops) (etherProgram cfg b2 ops) :=
  ((ether_with h1 h2 hle).comp ((CallPair.runOps (fun op => ether_op h1 h2 hle op) ops).comp (ether_build h1 h2))).pair _ _ hj

theorem ipv4_final (vops : List V4Op) (inner : Inner) :
    Final cap1 (cap1 = cap2) f1 f2 (ipv4Program cfg b1 vops inner) (ipv4Program cfg b2 vops inner) :=
  ((v4_with h1 h2 hle).comp ((CallPair.runOps (fun op => v4_op h1 h2 hle op) vops).comp (inner_step h1 h2 hle inner))).pair _ _ hj

theorem ethernet_final (eops : List EtherOp) (vops : List V4Op) (inner : Inner) :
    Final cap1 (cap1 = cap2) f1 f2 (ethernetProgram cfg b1 eops vops inner) (ethernetProgram cfg b2 eops vops inner) :=
  ((ether_with h1 h2 hle).comp ((CallPair.runOps (fun op => ether_op h1 h2 hle op) eops).comp
    ((ether_ip h1 h2).comp ((ip_v4 h1 h2 hle).comp
      ((CallPair.runOps (fun op => v4_op h1 h2 hle op) vops).comp (inner_step h1 h2 hle inner)))))).pair _ _ hj

theorem icmp_final (inner : IcmpInner) :
    Final cap1 (cap1 = cap2) f1 f2 (icmpProgram cfg b1 inner) (icmpProgram cfg b2 inner) :=
  ((icmp_with h1 h2).comp (icmpInner_step h1 h2 hle inner)).pair _ _ hj

theorem udp_final (ops : List UdpOp) :
    Final cap1 (cap1 = cap2) f1 f2 (udpProgram cfg b1 ops) (udpProgram cfg b2 ops) :=
  ((udp_with h1 h2 hle).comp ((CallPair.runOps (fun op => udp_op h1 h2 hle op) ops).comp (udp_build h1 h2))).pair _ _ hj

theorem tcp_final (ops : List TcpOp) :
    Final cap1 (cap1 = cap2) f1 f2 (tcpProgram cfg b1 ops) (tcpProgram cfg b2 ops) :=
  ((tcp_with h1 h2 hle).comp ((CallPair.runOps (fun op => tcp_op h1 h2 hle op) ops).comp (tcp_build h1 h2))).pair _ _ hj

end

end Verif.AnyBuffer
