import Verif.Lemmas.ProfileBuilders

/-! # Debug and release builds: whole programs -/

namespace Verif
open Verif.Spec

/-! ## Programs -/

section
variable {B : Type} [Buffer B] [SameBuffer B] {d r : Cfg} (e : Stricter d r)

local notation "D" => d
local notation "R" => r

/-- Chained calls and edits agree if calls and edits do. -/
theorem Rel.steps {σ Op Edit : Type} {S : σ → σ → Prop} {f g : Op → σ → Outcome σ} {f' g' : Edit → σ → Outcome σ}
    (h : ∀ op s t, S s t → Rel S (f op s) (g op t)) (h' : ∀ op s t, S s t → Rel S (f' op s) (g' op t))
    (steps : List (Step Op Edit)) (s t : σ) (hr : S s t) :
    Rel S (Verif.runOps (Step.run f f') steps s) (Verif.runOps (Step.run g g') steps t) :=
  Rel.runOps (fun st s t hr => by
    cases st with
    | call op => exact h op s t hr
    | edit op => exact h' op s t hr) steps s t hr

/-- Chained calls and finalizers of the user's agree if calls do. -/
theorem Rel.calls {σ Op : Type} {S : σ → σ → Prop} {f g : Op → σ → Outcome σ} {add : Finalizer → σ → σ}
    (h : ∀ op s t, S s t → Rel S (f op s) (g op t)) (h' : ∀ k s t, S s t → S (add k s) (add k t))
    (calls : List (Call Op)) (s t : σ) (hr : S s t) :
    Rel S (Verif.runOps (Call.run f add) calls s) (Verif.runOps (Call.run g add) calls t) :=
  Rel.runOps (fun c s t hr => by
    cases c with
    | op op => exact h op s t hr
    | finalizer k => exact .ok (h' k s t hr)) calls s t hr


theorem icmp_fold : ∀ (fs : List Finalizer) (s t : IcmpBuilder B), IcmpRel s t →
    IcmpRel (fs.foldl (fun i f => i.addFinalizer f) s) (fs.foldl (fun i f => i.addFinalizer f) t)
  | [], _, _, h => h
  | f :: fs, s, t, h => icmp_fold fs _ _ (IcmpBuilder.addFinalizer_agrees (.refl f) s t h)

theorem ip_fold : ∀ (fs : List Finalizer) (s t : IpBuilder B), IpRel s t →
    IpRel (fs.foldl (fun i f => i.addFinalizer f) s) (fs.foldl (fun i f => i.addFinalizer f) t)
  | [], _, _, h => h
  | f :: fs, s, t, h => ip_fold fs _ _ (IpBuilder.addFinalizer_agrees (.refl f) s t h)

include e in
theorem IcmpInner.build_agrees (i : IcmpInner) (s t : IcmpBuilder B) (hr : IcmpRel s t) :
    SameUnlessPanic (i.build D s) (i.build R t) := by
  cases i with
  | none => exact .inr rfl
  | echo ops =>
    exact Rel.out (IcmpBuilder.echo_agrees e s t hr) fun a b hab =>
      Rel.out (Rel.runOps (fun op s t h => EchoOp.agrees e op s t h) ops a b hab) fun x y hxy => EchoBuilder.build_agrees e x y hxy
  | timestamp ops =>
    exact Rel.out (IcmpBuilder.timestamp_agrees e s t hr) fun a b hab =>
      Rel.out (Rel.runOps (fun op s t h => TimestampOp.agrees e op s t h) ops a b hab) fun x y hxy => TimestampBuilder.build_agrees e x y hxy
  | information ops =>
    exact Rel.out (IcmpBuilder.information_agrees e s t hr) fun a b hab =>
      Rel.out (Rel.runOps (fun op s t h => InformationOp.agrees e op s t h) ops a b hab) fun x y hxy => InformationBuilder.build_agrees e x y hxy

include e in
theorem Inner.build_agrees (i : Inner) (s t : V4Builder B) (hr : V4Rel s t) :
    SameUnlessPanic (i.build D s) (i.build R t) := by
  cases i with
  | plain => exact V4Builder.build_agrees e s t hr
  | udp ops =>
    exact Rel.out (V4Builder.udp_agrees e s t hr) fun a b hab =>
      Rel.out (Rel.runOps (fun op s t h => UdpOp.agrees e op s t h) ops a b hab) fun x y hxy => UdpBuilder.build_agrees e x y hxy
  | tcp ops =>
    exact Rel.out (V4Builder.tcp_agrees e s t hr) fun a b hab =>
      Rel.out (Rel.runOps (fun op s t h => TcpOp.agrees e op s t h) ops a b hab) fun x y hxy => TcpBuilder.build_agrees e x y hxy
  | icmp i =>
    exact Rel.out (V4Builder.icmp_agrees e s t hr) fun a b hab => IcmpInner.build_agrees e i a b hab

include e in
theorem etherProgram_agrees (b : B) (ops : List EtherOp) : SameUnlessPanic (etherProgram D b ops) (etherProgram R b ops) :=
  Rel.out (EtherBuilder.with_agrees e b) fun a b hab =>
    Rel.out (Rel.runOps (fun op s t h => EtherOp.agrees e op s t h) ops a b hab) fun x y hxy => EtherBuilder.build_agrees x y hxy

include e in
theorem ipv4Program_agrees (b : B) (vops : List V4Op) (i : Inner) :
    SameUnlessPanic (ipv4Program D b vops i) (ipv4Program R b vops i) :=
  Rel.out (V4Builder.with_agrees e b) fun a b hab =>
    Rel.out (Rel.runOps (fun op s t h => V4Op.agrees e op s t h) vops a b hab) fun x y hxy => Inner.build_agrees e i x y hxy

include e in
theorem ethernetProgram_agrees (b : B) (eops : List EtherOp) (vops : List V4Op) (i : Inner) :
    SameUnlessPanic (ethernetProgram D b eops vops i) (ethernetProgram R b eops vops i) :=
  Rel.out (EtherBuilder.with_agrees e b) fun a b hab =>
    Rel.out (Rel.runOps (fun op s t h => EtherOp.agrees e op s t h) eops a b hab) fun a b hab =>
    Rel.out (EtherBuilder.ip_agrees a b hab) fun x y hxy =>
    Rel.out (IpBuilder.v4_agrees e _ _ (hxy)) fun a b hab =>
    Rel.out (Rel.runOps (fun op s t h => V4Op.agrees e op s t h) vops a b hab) fun x y hxy => Inner.build_agrees e i x y hxy

include e in
theorem IcmpSteps.build_agrees (i : IcmpSteps) (s t : IcmpBuilder B) (hr : IcmpRel s t) :
    SameUnlessPanic (i.build D s) (i.build R t) := by
  cases i with
  | none => exact .inr rfl
  | echo ops =>
    exact Rel.out (IcmpBuilder.echo_agrees e s t hr) fun a b hab =>
      Rel.out (Rel.steps (fun op s t h => EchoOp.agrees e op s t h) (fun op s t h => EchoBuilder.edit_agrees e op s t h) ops a b hab) fun x y hxy => EchoBuilder.build_agrees e x y hxy
  | timestamp ops =>
    exact Rel.out (IcmpBuilder.timestamp_agrees e s t hr) fun a b hab =>
      Rel.out (Rel.steps (fun op s t h => TimestampOp.agrees e op s t h) (fun op s t h => TimestampBuilder.edit_agrees e op s t h) ops a b hab) fun x y hxy => TimestampBuilder.build_agrees e x y hxy
  | information ops =>
    exact Rel.out (IcmpBuilder.information_agrees e s t hr) fun a b hab =>
      Rel.out (Rel.steps (fun op s t h => InformationOp.agrees e op s t h) (fun op s t h => InformationBuilder.edit_agrees e op s t h) ops a b hab) fun x y hxy => InformationBuilder.build_agrees e x y hxy

include e in
theorem InnerSteps.build_agrees (i : InnerSteps) (s t : V4Builder B) (hr : V4Rel s t) :
    SameUnlessPanic (i.build D s) (i.build R t) := by
  cases i with
  | plain => exact V4Builder.build_agrees e s t hr
  | udp ops =>
    exact Rel.out (V4Builder.udp_agrees e s t hr) fun a b hab =>
      Rel.out (Rel.steps (fun op s t h => UdpOp.agrees e op s t h) (fun op s t h => UdpBuilder.edit_agrees e op s t h) ops a b hab) fun x y hxy => UdpBuilder.build_agrees e x y hxy
  | tcp ops =>
    exact Rel.out (V4Builder.tcp_agrees e s t hr) fun a b hab =>
      Rel.out (Rel.steps (fun op s t h => TcpOp.agrees e op s t h) (fun op s t h => TcpBuilder.edit_agrees e op s t h) ops a b hab) fun x y hxy => TcpBuilder.build_agrees e x y hxy
  | icmp i =>
    exact Rel.out (V4Builder.icmp_agrees e s t hr) fun a b hab => IcmpSteps.build_agrees e i a b hab

include e in
theorem etherSteps_agrees (b : B) (ops : List (Step EtherOp Ether.Set)) : SameUnlessPanic (etherSteps D b ops) (etherSteps R b ops) :=
  Rel.out (EtherBuilder.with_agrees e b) fun a b hab =>
    Rel.out (Rel.steps (fun op s t h => EtherOp.agrees e op s t h) (fun op s t h => EtherBuilder.edit_agrees e op s t h) ops a b hab) fun x y hxy => EtherBuilder.build_agrees x y hxy

include e in
theorem ipv4Steps_agrees (b : B) (vops : List (Step V4Op V4.Set)) (i : InnerSteps) :
    SameUnlessPanic (ipv4Steps D b vops i) (ipv4Steps R b vops i) :=
  Rel.out (V4Builder.with_agrees e b) fun a b hab =>
    Rel.out (Rel.steps (fun op s t h => V4Op.agrees e op s t h) (fun op s t h => V4Builder.edit_agrees e op s t h) vops a b hab) fun x y hxy => InnerSteps.build_agrees e i x y hxy

include e in
theorem ethernetSteps_agrees (b : B) (eops : List (Step EtherOp Ether.Set)) (vops : List (Step V4Op V4.Set)) (i : InnerSteps) :
    SameUnlessPanic (ethernetSteps D b eops vops i) (ethernetSteps R b eops vops i) :=
  Rel.out (EtherBuilder.with_agrees e b) fun a b hab =>
    Rel.out (Rel.steps (fun op s t h => EtherOp.agrees e op s t h) (fun op s t h => EtherBuilder.edit_agrees e op s t h) eops a b hab) fun a b hab =>
    Rel.out (EtherBuilder.ip_agrees a b hab) fun x y hxy =>
    Rel.out (IpBuilder.v4_agrees e _ _ (hxy)) fun a b hab =>
    Rel.out (Rel.steps (fun op s t h => V4Op.agrees e op s t h) (fun op s t h => V4Builder.edit_agrees e op s t h) vops a b hab) fun x y hxy => InnerSteps.build_agrees e i x y hxy

include e in
theorem UserIcmp.build_agrees (i : UserIcmp) (s t : IcmpBuilder B) (hr : IcmpRel s t) :
    SameUnlessPanic (i.build D s) (i.build R t) := by
  cases i with
  | none => exact .inr rfl
  | echo ops =>
    exact Rel.out (IcmpBuilder.echo_agrees e s t hr) fun a b hab =>
      Rel.out (Rel.calls (fun op s t h => EchoOp.agrees e op s t h) (fun k s t h => EchoBuilder.addFinalizer_agrees (.refl k) s t h) ops a b hab) fun x y hxy => EchoBuilder.build_agrees e x y hxy
  | timestamp ops =>
    exact Rel.out (IcmpBuilder.timestamp_agrees e s t hr) fun a b hab =>
      Rel.out (Rel.calls (fun op s t h => TimestampOp.agrees e op s t h) (fun k s t h => TimestampBuilder.addFinalizer_agrees (.refl k) s t h) ops a b hab) fun x y hxy => TimestampBuilder.build_agrees e x y hxy
  | information ops =>
    exact Rel.out (IcmpBuilder.information_agrees e s t hr) fun a b hab =>
      Rel.out (Rel.calls (fun op s t h => InformationOp.agrees e op s t h) (fun k s t h => InformationBuilder.addFinalizer_agrees (.refl k) s t h) ops a b hab) fun x y hxy => InformationBuilder.build_agrees e x y hxy

include e in
theorem UserInner.build_agrees (i : UserInner) (s t : V4Builder B) (hr : V4Rel s t) :
    SameUnlessPanic (i.build D s) (i.build R t) := by
  cases i with
  | plain => exact V4Builder.build_agrees e s t hr
  | udp ops =>
    exact Rel.out (V4Builder.udp_agrees e s t hr) fun a b hab =>
      Rel.out (Rel.calls (fun op s t h => UdpOp.agrees e op s t h) (fun k s t h => UdpBuilder.addFinalizer_agrees (.refl k) s t h) ops a b hab) fun x y hxy => UdpBuilder.build_agrees e x y hxy
  | tcp ops =>
    exact Rel.out (V4Builder.tcp_agrees e s t hr) fun a b hab =>
      Rel.out (Rel.calls (fun op s t h => TcpOp.agrees e op s t h) (fun k s t h => TcpBuilder.addFinalizer_agrees (.refl k) s t h) ops a b hab) fun x y hxy => TcpBuilder.build_agrees e x y hxy
  | icmp fs i =>
    exact Rel.out (V4Builder.icmp_agrees e s t hr) fun a b hab => UserIcmp.build_agrees e i _ _ (icmp_fold fs a b hab)

include e in
theorem userEther_agrees (b : B) (ops : List (Call EtherOp)) : SameUnlessPanic (userEther D b ops) (userEther R b ops) :=
  Rel.out (EtherBuilder.with_agrees e b) fun a b hab =>
    Rel.out (Rel.calls (fun op s t h => EtherOp.agrees e op s t h) (fun k s t h => EtherBuilder.addFinalizer_agrees (.refl k) s t h) ops a b hab) fun x y hxy => EtherBuilder.build_agrees x y hxy

include e in
theorem userIpv4_agrees (b : B) (vops : List (Call V4Op)) (i : UserInner) :
    SameUnlessPanic (userIpv4 D b vops i) (userIpv4 R b vops i) :=
  Rel.out (V4Builder.with_agrees e b) fun a b hab =>
    Rel.out (Rel.calls (fun op s t h => V4Op.agrees e op s t h) (fun k s t h => V4Builder.addFinalizer_agrees (.refl k) s t h) vops a b hab) fun x y hxy => UserInner.build_agrees e i x y hxy

include e in
theorem userEthernet_agrees (b : B) (eops : List (Call EtherOp)) (fs : List Finalizer) (vops : List (Call V4Op)) (i : UserInner) :
    SameUnlessPanic (userEthernet D b eops fs vops i) (userEthernet R b eops fs vops i) :=
  Rel.out (EtherBuilder.with_agrees e b) fun a b hab =>
    Rel.out (Rel.calls (fun op s t h => EtherOp.agrees e op s t h) (fun k s t h => EtherBuilder.addFinalizer_agrees (.refl k) s t h) eops a b hab) fun a b hab =>
    Rel.out (EtherBuilder.ip_agrees a b hab) fun x y hxy =>
    Rel.out (IpBuilder.v4_agrees e _ _ (ip_fold fs x y hxy)) fun a b hab =>
    Rel.out (Rel.calls (fun op s t h => V4Op.agrees e op s t h) (fun k s t h => V4Builder.addFinalizer_agrees (.refl k) s t h) vops a b hab) fun x y hxy => UserInner.build_agrees e i x y hxy

include e in
theorem icmpProgram_agrees (b : B) (i : IcmpInner) : SameUnlessPanic (icmpProgram D b i) (icmpProgram R b i) :=
  IcmpInner.build_agrees e i _ _ ⟨[], .nil, rfl⟩

include e in
theorem icmpSteps_agrees (b : B) (i : IcmpSteps) : SameUnlessPanic (icmpSteps D b i) (icmpSteps R b i) :=
  IcmpSteps.build_agrees e i _ _ ⟨[], .nil, rfl⟩

include e in
theorem udpProgram_agrees (b : B) (ops : List UdpOp) : SameUnlessPanic (udpProgram D b ops) (udpProgram R b ops) :=
  Rel.out (UdpBuilder.with_agrees e b) fun a b hab =>
    Rel.out (Rel.runOps (fun op s t h => UdpOp.agrees e op s t h) ops a b hab) fun x y hxy => UdpBuilder.build_agrees e x y hxy

include e in
theorem tcpProgram_agrees (b : B) (ops : List TcpOp) : SameUnlessPanic (tcpProgram D b ops) (tcpProgram R b ops) :=
  Rel.out (TcpBuilder.with_agrees e b) fun a b hab =>
    Rel.out (Rel.runOps (fun op s t h => TcpOp.agrees e op s t h) ops a b hab) fun x y hxy => TcpBuilder.build_agrees e x y hxy

/-! ## Programs, with the buffer they leave -/

theorem out_agrees {x y : Outcome Bytes} {b c : B} (h : SameUnlessPanic x y) (hb : c = b) :
    SameUnlessPanic (do let out ← x; Outcome.ok (out, b)) (do let out ← y; Outcome.ok (out, c)) := by
  subst hb
  exact SameUnlessPanic.bind h fun _ => .inr rfl

include e in
theorem IcmpInner.buildAt_agrees (i : IcmpInner) (s t : IcmpBuilder B) (hr : IcmpRel s t) :
    SameUnlessPanic (i.buildAt D s) (i.buildAt R t) := by
  cases i with
  | none => exact .inr rfl
  | echo ops =>
    exact Rel.out (IcmpBuilder.echo_agrees e s t hr) fun a b hab =>
      Rel.out (Rel.runOps (fun op s t h => EchoOp.agrees e op s t h) ops a b hab) fun x y hxy =>
        out_agrees (EchoBuilder.build_agrees e x y hxy) (by obtain ⟨gs, -, rfl⟩ := hxy; rfl)
  | timestamp ops =>
    exact Rel.out (IcmpBuilder.timestamp_agrees e s t hr) fun a b hab =>
      Rel.out (Rel.runOps (fun op s t h => TimestampOp.agrees e op s t h) ops a b hab) fun x y hxy =>
        out_agrees (TimestampBuilder.build_agrees e x y hxy) (by obtain ⟨gs, -, rfl⟩ := hxy; rfl)
  | information ops =>
    exact Rel.out (IcmpBuilder.information_agrees e s t hr) fun a b hab =>
      Rel.out (Rel.runOps (fun op s t h => InformationOp.agrees e op s t h) ops a b hab) fun x y hxy =>
        out_agrees (InformationBuilder.build_agrees e x y hxy) (by obtain ⟨gs, -, rfl⟩ := hxy; rfl)

include e in
theorem Inner.buildAt_agrees (i : Inner) (s t : V4Builder B) (hr : V4Rel s t) :
    SameUnlessPanic (i.buildAt D s) (i.buildAt R t) := by
  cases i with
  | plain => exact out_agrees (V4Builder.build_agrees e s t hr) (by obtain ⟨gs, -, rfl⟩ := hr; rfl)
  | udp ops =>
    exact Rel.out (V4Builder.udp_agrees e s t hr) fun a b hab =>
      Rel.out (Rel.runOps (fun op s t h => UdpOp.agrees e op s t h) ops a b hab) fun x y hxy =>
        out_agrees (UdpBuilder.build_agrees e x y hxy) (by obtain ⟨gs, -, rfl⟩ := hxy; rfl)
  | tcp ops =>
    exact Rel.out (V4Builder.tcp_agrees e s t hr) fun a b hab =>
      Rel.out (Rel.runOps (fun op s t h => TcpOp.agrees e op s t h) ops a b hab) fun x y hxy =>
        out_agrees (TcpBuilder.build_agrees e x y hxy) (by obtain ⟨gs, -, rfl⟩ := hxy; rfl)
  | icmp i =>
    exact Rel.out (V4Builder.icmp_agrees e s t hr) fun a b hab => IcmpInner.buildAt_agrees e i a b hab

include e in
theorem etherAt_agrees (b : B) (ops : List EtherOp) : SameUnlessPanic (etherAt D b ops) (etherAt R b ops) :=
  Rel.out (EtherBuilder.with_agrees e b) fun a b hab =>
    Rel.out (Rel.runOps (fun op s t h => EtherOp.agrees e op s t h) ops a b hab) fun x y hxy =>
      out_agrees (EtherBuilder.build_agrees x y hxy) (by obtain ⟨gs, -, rfl⟩ := hxy; rfl)

include e in
theorem ipv4At_agrees (b : B) (vops : List V4Op) (i : Inner) :
    SameUnlessPanic (ipv4At D b vops i) (ipv4At R b vops i) :=
  Rel.out (V4Builder.with_agrees e b) fun a b hab =>
    Rel.out (Rel.runOps (fun op s t h => V4Op.agrees e op s t h) vops a b hab) fun x y hxy => Inner.buildAt_agrees e i x y hxy

include e in
theorem ethernetAt_agrees (b : B) (eops : List EtherOp) (vops : List V4Op) (i : Inner) :
    SameUnlessPanic (ethernetAt D b eops vops i) (ethernetAt R b eops vops i) :=
  Rel.out (EtherBuilder.with_agrees e b) fun a b hab =>
    Rel.out (Rel.runOps (fun op s t h => EtherOp.agrees e op s t h) eops a b hab) fun a b hab =>
    Rel.out (EtherBuilder.ip_agrees a b hab) fun x y hxy =>
    Rel.out (IpBuilder.v4_agrees e x y hxy) fun a b hab =>
    Rel.out (Rel.runOps (fun op s t h => V4Op.agrees e op s t h) vops a b hab) fun x y hxy => Inner.buildAt_agrees e i x y hxy

include e in
theorem icmpAt_agrees (b : B) (i : IcmpInner) : SameUnlessPanic (icmpAt D b i) (icmpAt R b i) :=
  IcmpInner.buildAt_agrees e i _ _ ⟨[], .nil, rfl⟩

end

end Verif
