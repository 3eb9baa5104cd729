import Verif.Props.BuildersStack
import Verif.Samples

/-! # C50, C51: one payload at most, and incomplete builders

These hold on every buffer whatsoever, so `B` is any type with the operations of a buffer. -/

namespace Verif.Props
open Verif Verif.Spec

variable {B : Type} [Buffer B]

/-- Along a history a flag that one kind of call sets, and that is in the way of that call, is set at most
once. -/
theorem once {σ Op α : Type} {run : Op → σ → Outcome σ} (flag : σ → Bool) (sel : Op → Option α)
    (hset : ∀ op s s', run op s = .ok s' → flag s' = (flag s || (sel op).isSome))
    (hbad : ∀ op s s', run op s = .ok s' → (sel op).isSome → flag s = false) :
    ∀ (ops : List Op) (s s' : σ), runOps run ops s = .ok s' →
      flag s' = (flag s || !(ops.filterMap sel).isEmpty) ∧
      (ops.filterMap sel).length + (if flag s then 1 else 0) ≤ 1 := by
  intro ops
  induction ops with
  | nil =>
    intro s s' h
    injection h with h
    subst h
    simp
    split <;> omega
  | cons op ops ih =>
    intro s s' h
    obtain ⟨s1, h1, h2⟩ := bind_ok_inv (show (run op s >>= fun s => runOps run ops s) = .ok s' from h)
    obtain ⟨i1, i2⟩ := ih s1 s' h2
    have hs := hset op s s1 h1
    have hb := hbad op s s1 h1
    rw [i1, hs]
    cases hsel : sel op with
    | none =>
      rw [hsel] at hs
      simp only [Option.isSome_none, Bool.or_false] at hs
      rw [hs] at i2
      simp only [List.filterMap_cons, hsel, Option.isSome_none, Bool.or_false]
      exact ⟨trivial, i2⟩
    | some v =>
      rw [hsel] at hs hb
      have hf := hb rfl
      rw [hf] at hs
      simp only [Option.isSome_some, Bool.or_true] at hs
      rw [hs] at i2
      simp only [List.filterMap_cons, hsel, hf, List.length_cons] at *
      simp at i2
      simp
      exact i2

/-- The same for a flag that a call sets without ever being refused. -/
theorem sticky {σ Op α : Type} {run : Op → σ → Outcome σ} (flag : σ → Bool) (sel : Op → Option α)
    (hset : ∀ op s s', run op s = .ok s' → flag s' = (flag s || (sel op).isSome)) :
    ∀ (ops : List Op) (s s' : σ), runOps run ops s = .ok s' →
      flag s' = (flag s || !(ops.filterMap sel).isEmpty) := by
  intro ops
  induction ops with
  | nil => intro s s' h; injection h with h; subst h; simp
  | cons op ops ih =>
    intro s s' h
    obtain ⟨s1, h1, h2⟩ := bind_ok_inv (show (run op s >>= fun s => runOps run ops s) = .ok s' from h)
    rw [ih s1 s' h2, hset op s s1 h1]
    cases hsel : sel op <;> simp [hsel]

/-! ### The flags of each builder -/

theorem ether_flag (cfg : Cfg) (op : EtherOp) (s s' : EtherBuilder B) (h : op.run cfg s = .ok s') :
    s'.payload = (s.payload || op.payload?.isSome) ∧ (op.payload?.isSome → s.payload = false) := by
  cases op with
  | payload v =>
    simp only [EtherOp.run, EtherBuilder.setPayload] at h
    split at h
    · cases h
    · rename_i hp
      obtain ⟨b, -, h⟩ := bind_ok_inv h
      injection h with h
      subst h
      exact ⟨by simp [EtherOp.payload?], fun _ => by simpa using hp⟩
  | destination v | source v | protocol v =>
    obtain ⟨b, -, h⟩ := bind_ok_inv h
    injection h with h
    subst h
    simp [EtherOp.payload?]

theorem v4_flag (cfg : Cfg) (op : V4Op) (s s' : V4Builder B) (h : op.run cfg s = .ok s') :
    s'.payload = (s.payload || op.payload?.isSome) ∧ (op.payload?.isSome → s.payload = false) := by
  cases op with
  | payload v =>
    simp only [V4Op.run, V4Builder.setPayload] at h
    split at h
    · cases h
    · rename_i hp
      obtain ⟨b, -, h⟩ := bind_ok_inv h
      injection h with h
      subst h
      exact ⟨by simp [V4Op.payload?], fun _ => by simpa using hp⟩
  | _ =>
    obtain ⟨b, -, h⟩ := bind_ok_inv h
    injection h with h
    subst h
    simp [V4Op.payload?]

theorem udp_flag (cfg : Cfg) (op : UdpOp) (s s' : UdpBuilder B) (h : op.run cfg s = .ok s') :
    s'.payload = (s.payload || op.payload?.isSome) ∧ (op.payload?.isSome → s.payload = false) := by
  cases op with
  | payload v =>
    simp only [UdpOp.run, UdpBuilder.setPayload] at h
    split at h
    · cases h
    · rename_i hp
      obtain ⟨b, -, h⟩ := bind_ok_inv h
      injection h with h
      subst h
      exact ⟨by simp [UdpOp.payload?], fun _ => by simpa using hp⟩
  | _ =>
    obtain ⟨b, -, h⟩ := bind_ok_inv h
    injection h with h
    subst h
    simp [UdpOp.payload?]

theorem tcp_flag (cfg : Cfg) (op : TcpOp) (s s' : TcpBuilder B) (h : op.run cfg s = .ok s') :
    s'.payload = (s.payload || op.payload?.isSome) ∧ (op.payload?.isSome → s.payload = false) := by
  cases op with
  | payload v =>
    simp only [TcpOp.run, TcpBuilder.setPayload] at h
    split at h
    · cases h
    · rename_i hp
      obtain ⟨b, -, h⟩ := bind_ok_inv h
      injection h with h
      subst h
      exact ⟨by simp [TcpOp.payload?], fun _ => by simpa using hp⟩
  | _ =>
    obtain ⟨b, -, h⟩ := bind_ok_inv h
    injection h with h
    subst h
    simp [TcpOp.payload?]

theorem echo_flag (cfg : Cfg) (op : EchoOp) (s s' : EchoBuilder B) (h : op.run cfg s = .ok s') :
    (s'.payload = (s.payload || op.payload?.isSome) ∧ (op.payload?.isSome → s.payload = false)) ∧
    s'.kind = (s.kind || op.kind?.isSome) := by
  cases op with
  | payload v =>
    simp only [EchoOp.run, EchoBuilder.setPayload] at h
    split at h
    · cases h
    · rename_i hp
      obtain ⟨b, -, h⟩ := bind_ok_inv h
      injection h with h
      subst h
      exact ⟨⟨by simp [EchoOp.payload?], fun _ => by simpa using hp⟩, by simp [EchoOp.kind?]⟩
  | _ =>
    obtain ⟨b, -, h⟩ := bind_ok_inv h
    injection h with h
    subst h
    simp [EchoOp.payload?, EchoOp.kind?]

theorem timestamp_flag (cfg : Cfg) (op : TimestampOp) (s s' : TimestampBuilder B) (h : op.run cfg s = .ok s') :
    s'.kind = (s.kind || op.kind?.isSome) := by
  cases op <;>
  · obtain ⟨b, -, h⟩ := bind_ok_inv h
    injection h with h
    subst h
    simp [TimestampOp.kind?]

theorem information_flag (cfg : Cfg) (op : InformationOp) (s s' : InformationBuilder B)
    (h : op.run cfg s = .ok s') : s'.kind = (s.kind || op.kind?.isSome) := by
  cases op <;>
  · obtain ⟨b, -, h⟩ := bind_ok_inv h
    injection h with h
    subst h
    simp [InformationOp.kind?]

theorem nonempty_of_mem {Op α : Type} {f : Op → Option α} {ops : List Op} (h : ∃ op ∈ ops, (f op).isSome) :
    (ops.filterMap f).isEmpty = false := by
  obtain ⟨op, hop, h⟩ := h
  obtain ⟨k, hk⟩ := Option.isSome_iff_exists.1 h
  have : k ∈ ops.filterMap f := List.mem_filterMap.2 ⟨op, hop, hk⟩
  cases he : ops.filterMap f with
  | nil => rw [he] at this; cases this
  | cons _ _ => rfl

/-! ## C50 -/

/-- C50, Ethernet: on every buffer, in every state that a history containing `payload()` leads to from any
builder, another `payload()` and `ip()` return `AlreadyDefined`. -/
theorem C50_ether_payload_once (cfg : Cfg) (s0 s : EtherBuilder B) (ops : List EtherOp)
    (h : runOps (EtherOp.run cfg) ops s0 = .ok s) (hp : ∃ op ∈ ops, op.payload?.isSome) :
    (∀ v, (EtherOp.payload v).run cfg s = .err .alreadyDefined) ∧ EtherBuilder.ip s = .err .alreadyDefined := by
  have hf := (once (fun s : EtherBuilder B => s.payload) EtherOp.payload? (fun op s s' h => (ether_flag cfg op s s' h).1)
    (fun op s s' h => (ether_flag cfg op s s' h).2) ops s0 s h).1
  rw [nonempty_of_mem hp] at hf
  simp only [Bool.not_false, Bool.or_true] at hf
  refine ⟨fun v => ?_, ?_⟩
  · simp only [EtherOp.run, EtherBuilder.setPayload]; rw [hf]; rfl
  · unfold EtherBuilder.ip; rw [hf]; rfl

/-- Calls with a payload that all succeed. -/
example (cfg : Cfg) : ∃ s0 s : EtherBuilder Dynamic, EtherBuilder.with cfg Dynamic.new = .ok s0 ∧
    runOps (EtherOp.run cfg) [.source ⟨2, 0, 0, 0, 0, 1⟩, .payload [1, 2, 3]] s0 = .ok s :=
  Sample.reached_both (by in_every_build)

/-- C50, IPv4: the same for `payload()`, `udp()`, `tcp()` and `icmp()`. -/
theorem C50_v4_payload_once (cfg : Cfg) (s0 s : V4Builder B) (ops : List V4Op)
    (h : runOps (V4Op.run cfg) ops s0 = .ok s) (hp : ∃ op ∈ ops, op.payload?.isSome) :
    (∀ v, (V4Op.payload v).run cfg s = .err .alreadyDefined) ∧ V4Builder.udp cfg s = .err .alreadyDefined ∧
    V4Builder.tcp cfg s = .err .alreadyDefined ∧ V4Builder.icmp cfg s = .err .alreadyDefined := by
  have hf := (once (fun s : V4Builder B => s.payload) V4Op.payload? (fun op s s' h => (v4_flag cfg op s s' h).1)
    (fun op s s' h => (v4_flag cfg op s s' h).2) ops s0 s h).1
  rw [nonempty_of_mem hp] at hf
  simp only [Bool.not_false, Bool.or_true] at hf
  refine ⟨fun v => ?_, ?_, ?_, ?_⟩
  · simp only [V4Op.run, V4Builder.setPayload]; rw [hf]; rfl
  · unfold V4Builder.udp V4Builder.enter; rw [hf]; rfl
  · unfold V4Builder.tcp V4Builder.enter; rw [hf]; rfl
  · unfold V4Builder.icmp V4Builder.enter; rw [hf]; rfl

/-- Calls with a payload that all succeed. -/
example (cfg : Cfg) : ∃ s0 s : V4Builder Dynamic, V4Builder.with cfg Dynamic.new = .ok s0 ∧
    runOps (V4Op.run cfg) [.ttl 64, .payload [1, 2, 3]] s0 = .ok s :=
  Sample.reached_both (by in_every_build)

/-- C50, UDP. -/
theorem C50_udp_payload_once (cfg : Cfg) (s0 s : UdpBuilder B) (ops : List UdpOp)
    (h : runOps (UdpOp.run cfg) ops s0 = .ok s) (hp : ∃ op ∈ ops, op.payload?.isSome) (v : Bytes) :
    (UdpOp.payload v).run cfg s = .err .alreadyDefined := by
  have hf := (once (fun s : UdpBuilder B => s.payload) UdpOp.payload? (fun op s s' h => (udp_flag cfg op s s' h).1)
    (fun op s s' h => (udp_flag cfg op s s' h).2) ops s0 s h).1
  rw [nonempty_of_mem hp] at hf
  simp only [Bool.not_false, Bool.or_true] at hf
  simp only [UdpOp.run, UdpBuilder.setPayload]; rw [hf]; rfl

/-- Calls with a payload that all succeed. -/
example (cfg : Cfg) : ∃ s0 s : UdpBuilder Dynamic, UdpBuilder.with cfg Dynamic.new = .ok s0 ∧
    runOps (UdpOp.run cfg) Sample.uops s0 = .ok s :=
  Sample.reached_both (by in_every_build)

/-- C50, TCP. -/
theorem C50_tcp_payload_once (cfg : Cfg) (s0 s : TcpBuilder B) (ops : List TcpOp)
    (h : runOps (TcpOp.run cfg) ops s0 = .ok s) (hp : ∃ op ∈ ops, op.payload?.isSome) (v : Bytes) :
    (TcpOp.payload v).run cfg s = .err .alreadyDefined := by
  have hf := (once (fun s : TcpBuilder B => s.payload) TcpOp.payload? (fun op s s' h => (tcp_flag cfg op s s' h).1)
    (fun op s s' h => (tcp_flag cfg op s s' h).2) ops s0 s h).1
  rw [nonempty_of_mem hp] at hf
  simp only [Bool.not_false, Bool.or_true] at hf
  simp only [TcpOp.run, TcpBuilder.setPayload]; rw [hf]; rfl

/-- Calls with a payload that all succeed. -/
example (cfg : Cfg) : ∃ s0 s : TcpBuilder Dynamic, TcpBuilder.with cfg Dynamic.new = .ok s0 ∧
    runOps (TcpOp.run cfg) Sample.tops s0 = .ok s :=
  Sample.reached_both (by in_every_build)

/-- C50, ICMP echo: here the error is `InvalidPacket`. -/
theorem C50_echo_payload_once (cfg : Cfg) (s0 s : EchoBuilder B) (ops : List EchoOp)
    (h : runOps (EchoOp.run cfg) ops s0 = .ok s) (hp : ∃ op ∈ ops, op.payload?.isSome) (v : Bytes) :
    (EchoOp.payload v).run cfg s = .err .invalidPacket := by
  have hf := (once (fun s : EchoBuilder B => s.payload) EchoOp.payload? (fun op s s' h => (echo_flag cfg op s s' h).1.1)
    (fun op s s' h => (echo_flag cfg op s s' h).1.2) ops s0 s h).1
  rw [nonempty_of_mem hp] at hf
  simp only [Bool.not_false, Bool.or_true] at hf
  simp only [EchoOp.run, EchoBuilder.setPayload]; rw [hf]; rfl

/-- Calls with a payload that all succeed. -/
example (cfg : Cfg) : ∃ s0 s : EchoBuilder Dynamic, EchoBuilder.with cfg Dynamic.new = .ok s0 ∧
    runOps (EchoOp.run cfg) Sample.echoOps s0 = .ok s :=
  Sample.reached_both (by in_every_build)

/-- C50 for whole programs: a history with two payloads at one level, or with a payload at one level and a
level inside it, never builds a packet, on any buffer. -/
theorem C50_never_a_packet (cfg : Cfg) (b : B) (eops : List EtherOp) (vops : List V4Op) (inner : Inner)
    (out : Bytes) (h : ethernetProgram cfg b eops vops inner = .ok out) :
    eops.filterMap EtherOp.payload? = [] ∧ (vops.filterMap V4Op.payload?).length ≤ 1 ∧
    (inner ≠ .plain → vops.filterMap V4Op.payload? = []) ∧ inner.payloads.length ≤ 1 := by
  unfold ethernetProgram at h
  obtain ⟨e0, h0, h⟩ := bind_ok_inv h
  obtain ⟨e1, h1, h⟩ := bind_ok_inv h
  obtain ⟨i, h2, h⟩ := bind_ok_inv h
  obtain ⟨v0, h3, h⟩ := bind_ok_inv h
  obtain ⟨v1, h4, h⟩ := bind_ok_inv h
  have r1 : eops.filterMap EtherOp.payload? = [] := by
    apply Classical.byContradiction
    intro hne
    have : ∃ op ∈ eops, op.payload?.isSome := by
      obtain ⟨v, hv⟩ := List.exists_mem_of_ne_nil _ hne
      obtain ⟨op, hop, hv⟩ := List.mem_filterMap.1 hv
      exact ⟨op, hop, by rw [hv]; rfl⟩
    rw [(C50_ether_payload_once cfg e0 e1 eops h1 this).2] at h2
    cases h2
  have hv := (once (fun s : V4Builder B => s.payload) V4Op.payload? (fun op s s' h => (v4_flag cfg op s s' h).1)
    (fun op s s' h => (v4_flag cfg op s s' h).2) vops v0 v1 h4)
  refine ⟨r1, by have := hv.2; omega, ?_, ?_⟩
  · intro hi
    apply Classical.byContradiction
    intro hne
    have : ∃ op ∈ vops, op.payload?.isSome := by
      obtain ⟨v, hv⟩ := List.exists_mem_of_ne_nil _ hne
      obtain ⟨op, hop, hv⟩ := List.mem_filterMap.1 hv
      exact ⟨op, hop, by rw [hv]; rfl⟩
    obtain ⟨-, c1, c2, c3⟩ := C50_v4_payload_once cfg v0 v1 vops h4 this
    cases inner with
    | plain => exact hi rfl
    | udp ops => simp only [Inner.build, c1] at h; cases h
    | tcp ops => simp only [Inner.build, c2] at h; cases h
    | icmp inner => simp only [Inner.build, c3] at h; cases h
  · cases inner with
    | plain => exact Nat.zero_le _
    | udp ops =>
      obtain ⟨u0, -, h⟩ := bind_ok_inv h
      obtain ⟨u1, hu, h⟩ := bind_ok_inv h
      have := (once (fun s : UdpBuilder B => s.payload) UdpOp.payload? (fun op s s' h => (udp_flag cfg op s s' h).1)
        (fun op s s' h => (udp_flag cfg op s s' h).2) ops u0 u1 hu).2
      show (ops.filterMap UdpOp.payload?).length ≤ 1
      omega
    | tcp ops =>
      obtain ⟨u0, -, h⟩ := bind_ok_inv h
      obtain ⟨u1, hu, h⟩ := bind_ok_inv h
      have := (once (fun s : TcpBuilder B => s.payload) TcpOp.payload? (fun op s s' h => (tcp_flag cfg op s s' h).1)
        (fun op s s' h => (tcp_flag cfg op s s' h).2) ops u0 u1 hu).2
      show (ops.filterMap TcpOp.payload?).length ≤ 1
      omega
    | icmp inner =>
      cases inner with
      | none => exact Nat.zero_le _
      | timestamp ops => exact Nat.zero_le _
      | information ops => exact Nat.zero_le _
      | echo ops =>
        obtain ⟨i0, -, h⟩ := bind_ok_inv h
        obtain ⟨u0, -, h⟩ := bind_ok_inv h
        obtain ⟨u1, hu, h⟩ := bind_ok_inv h
        have := (once (fun s : EchoBuilder B => s.payload) EchoOp.payload?
          (fun op s s' h => (echo_flag cfg op s s' h).1.1)
          (fun op s s' h => (echo_flag cfg op s s' h).1.2) ops u0 u1 hu).2
        show (ops.filterMap EchoOp.payload?).length ≤ 1
        omega

/-- The states of C50 exist: a history with a payload that goes through on a growable buffer. -/
example (cfg : Cfg) : ∃ s0 s, EtherBuilder.«with» cfg Dynamic.new = .ok s0 ∧
    runOps (EtherOp.run cfg) [.payload [1, 2], .protocol .arp] s0 = .ok s ∧
    ∃ op ∈ ([.payload [1, 2], .protocol .arp] : List EtherOp), op.payload?.isSome := by
  obtain ⟨out, p, h, -⟩ := C42_ether_build cfg [.payload [1, 2], .protocol .arp] (by decide) (by
    intro op hop v hv
    simp only [List.mem_cons, List.not_mem_nil, or_false] at hop
    rcases hop with rfl | rfl <;> cases hv
    in_every_build)
  obtain ⟨s0, h0, h⟩ := bind_ok_inv h
  obtain ⟨s, h1, -⟩ := bind_ok_inv h
  exact ⟨s0, s, h0, h1, .payload [1, 2], by simp, rfl⟩

/-! ## C51 -/

/-- C51: `ip::Builder`, `ip::v6::Builder` and `icmp::Builder` never build, however they were reached. -/
theorem C51_no_protocol (s : IpBuilder B) (t : V6Builder B) (u : IcmpBuilder B) :
    IpBuilder.build s = .err .invalidPacket ∧ V6Builder.build t = .err .invalidPacket ∧
    IcmpBuilder.build u = .err .invalidPacket := ⟨rfl, rfl, rfl⟩

/-- C51: every way to an IPv6 builder ends in `InvalidPacket`, on every buffer and behind every frame; and entering
IPv4 through `ip::Builder` is the same as starting with `ip::v4::Builder`. -/
theorem C51_v6_program (cfg : Cfg) (b : B) (s : EtherBuilder B) :
    (IpBuilder.«with» b >>= fun i => i.v6 >>= V6Builder.build) = .err .invalidPacket ∧
    (V6Builder.«with» b >>= V6Builder.build) = .err .invalidPacket ∧
    (IpBuilder.«with» b >>= IpBuilder.build) = .err .invalidPacket ∧
    (s.ip >>= fun i => i.v6 >>= V6Builder.build) =
      (if s.payload then .err .alreadyDefined else .err .invalidPacket) ∧
    (IpBuilder.«with» b >>= fun i => i.v4 cfg) = V4Builder.«with» cfg b := by
  refine ⟨rfl, rfl, rfl, ?_, ?_⟩
  · unfold EtherBuilder.ip
    cases s.payload <;> rfl
  · show IpBuilder.v4 cfg ⟨b, []⟩ = _
    unfold IpBuilder.v4
    cases h : V4Builder.«with» cfg b with
    | ok v =>
      simp only [Outcome.ok_bind]
      congr 1
      cases v
      simp [Finalization.extend]
    | err e => rfl
    | panic => rfl

/-- C51: an echo builder on which neither `request()` nor `reply()` was called does not build, and one on
which either was called does not fail for that reason. -/
theorem C51_echo_needs_kind (cfg : Cfg) (b : B) (s0 s : EchoBuilder B) (ops : List EchoOp)
    (h0 : EchoBuilder.«with» cfg b = .ok s0) (h : runOps (EchoOp.run cfg) ops s0 = .ok s)
    (hk : ops.filterMap EchoOp.kind? = []) : EchoBuilder.build cfg s = .err .invalidPacket := by
  have hf := sticky (fun s : EchoBuilder B => s.kind) EchoOp.kind? (fun op s s' h => (echo_flag cfg op s s' h).2)
    ops s0 s h
  obtain ⟨b', -, h0⟩ := bind_ok_inv h0
  injection h0 with h0
  subst h0
  rw [hk] at hf
  have hf : s.kind = false := hf
  unfold EchoBuilder.build
  rw [if_pos (by simp [hf])]

/-- Calls without a kind that all succeed. -/
example (cfg : Cfg) : (∃ s0 s : EchoBuilder Dynamic, EchoBuilder.with cfg Dynamic.new = .ok s0 ∧
    runOps (EchoOp.run cfg) [.identifier 42, .sequence 1] s0 = .ok s) ∧
    List.filterMap EchoOp.kind? [.identifier 42, .sequence 1] = [] :=
  ⟨Sample.reached_both (by in_every_build), rfl⟩

theorem C51_timestamp_needs_kind (cfg : Cfg) (b : B) (s0 s : TimestampBuilder B) (ops : List TimestampOp)
    (h0 : TimestampBuilder.«with» cfg b = .ok s0) (h : runOps (TimestampOp.run cfg) ops s0 = .ok s)
    (hk : ops.filterMap TimestampOp.kind? = []) : TimestampBuilder.build cfg s = .err .invalidPacket := by
  have hf := sticky (fun s : TimestampBuilder B => s.kind) TimestampOp.kind? (timestamp_flag cfg) ops s0 s h
  obtain ⟨b', -, h0⟩ := bind_ok_inv h0
  injection h0 with h0
  subst h0
  rw [hk] at hf
  have hf : s.kind = false := hf
  unfold TimestampBuilder.build
  rw [if_pos (by simp [hf])]

/-- Calls without a kind that all succeed. -/
example (cfg : Cfg) : (∃ s0 s : TimestampBuilder Dynamic, TimestampBuilder.with cfg Dynamic.new = .ok s0 ∧
    runOps (TimestampOp.run cfg) [.identifier 42, .sequence 1] s0 = .ok s) ∧
    List.filterMap TimestampOp.kind? [.identifier 42, .sequence 1] = [] :=
  ⟨Sample.reached_both (by in_every_build), rfl⟩

theorem C51_information_needs_kind (cfg : Cfg) (b : B) (s0 s : InformationBuilder B)
    (ops : List InformationOp) (h0 : InformationBuilder.«with» cfg b = .ok s0)
    (h : runOps (InformationOp.run cfg) ops s0 = .ok s)
    (hk : ops.filterMap InformationOp.kind? = []) : InformationBuilder.build cfg s = .err .invalidPacket := by
  have hf := sticky (fun s : InformationBuilder B => s.kind) InformationOp.kind? (information_flag cfg) ops s0 s h
  obtain ⟨b', -, h0⟩ := bind_ok_inv h0
  injection h0 with h0
  subst h0
  rw [hk] at hf
  have hf : s.kind = false := hf
  unfold InformationBuilder.build
  rw [if_pos (by simp [hf])]

/-- Calls without a kind that all succeed. -/
example (cfg : Cfg) : (∃ s0 s : InformationBuilder Dynamic, InformationBuilder.with cfg Dynamic.new = .ok s0 ∧
    runOps (InformationOp.run cfg) [.identifier 42, .sequence 1] s0 = .ok s) ∧
    List.filterMap InformationOp.kind? [.identifier 42, .sequence 1] = [] :=
  ⟨Sample.reached_both (by in_every_build), rfl⟩

/-- Whether the program chooses a kind of message. -/
def _root_.Verif.IcmpInner.kinds : IcmpInner → List IcmpKind
  | .none => []
  | .echo ops => ops.filterMap EchoOp.kind?
  | .timestamp ops => ops.filterMap TimestampOp.kind?
  | .information ops => ops.filterMap InformationOp.kind?

/-- C51 for whole programs on a growable buffer: alone and inside IPv4 with no payload and values in range,
an ICMP program without a kind returns `InvalidPacket` (a second payload also does). -/
theorem C51_icmp_program (cfg : Cfg) (vops : List V4Op) (inner : IcmpInner) (hs : (Inner.icmp inner).Sane cfg)
    (hr : ∀ op ∈ vops, op.InRange) (h0 : vops.filterMap V4Op.payload? = []) (hk : inner.kinds = []) :
    icmpProgram cfg Dynamic.new inner = .err .invalidPacket ∧
    ipv4Program cfg Dynamic.new vops (.icmp inner) = .err .invalidPacket := by
  have key : inner.abs cfg cfg.isizeMax 0 = .err .invalidPacket := by
    cases inner with
    | none => rfl
    | echo ops =>
      simp only [IcmpInner.abs]
      rw [need_dynamic (by omega), Outcome.ok_bind]
      have hk : ops.filterMap EchoOp.kind? = [] := hk
      by_cases h1 : (ops.filterMap EchoOp.payload?).length ≤ 1
      · rw [echo_run ops h1, Outcome.ok_bind, hk]
        rfl
      · have : ∀ (ops : List EchoOp) (a : EchoState),
            1 < (ops.filterMap EchoOp.payload?).length + (if a.payload.isSome then 1 else 0) →
            runOps EchoOp.abs ops a = .err .invalidPacket := by
          intro ops
          induction ops with
          | nil => intro a h; simp at h; split at h <;> omega
          | cons op ops ih =>
            intro a h
            show (op.abs a >>= fun a => runOps EchoOp.abs ops a) = _
            cases op with
            | payload v =>
              by_cases hp : a.payload.isSome
              · simp only [EchoOp.abs, hp, if_true]; rfl
              · simp only [EchoOp.abs]
                rw [if_neg hp, Outcome.ok_bind]
                apply ih
                simp only [List.filterMap_cons, EchoOp.payload?, List.length_cons] at h
                rw [if_neg hp] at h
                simp only [EchoOp.step, Option.isSome_some, if_true]
                omega
            | _ => exact ih _ h
        rw [this ops .init (by
          have : (EchoState.init.payload.isSome) = false := rfl
          rw [this]; simp; omega)]
        rfl
    | timestamp ops =>
      have hk : ops.filterMap TimestampOp.kind? = [] := hk
      simp only [IcmpInner.abs]
      rw [need_dynamic (by omega), Outcome.ok_bind, timestamp_run, Outcome.ok_bind, hk]
      rfl
    | information ops =>
      have hk : ops.filterMap InformationOp.kind? = [] := hk
      simp only [IcmpInner.abs]
      rw [need_dynamic (by omega), Outcome.ok_bind, information_run, Outcome.ok_bind, hk]
      rfl
  constructor
  · rw [icmpProgram_dynamic cfg inner hs, key]
  · obtain ⟨f, ha, hrun⟩ := v4_run vops hr (by rw [h0]; decide)
    rw [ipv4Program_dynamic cfg vops (.icmp inner) (v4_sane_of_none h0) hs]
    unfold ipv4Abs
    rw [need_dynamic (by omega), Outcome.ok_bind, hrun, Outcome.ok_bind]
    simp only [Inner.abs, no_payload_last _ _ h0, Option.isSome_none, Bool.false_eq_true, if_false]
    rw [icmp_abs_at cfg inner (by omega), key]
    rfl

example : (IcmpInner.echo [.identifier 3, .payload [1]]).kinds = [] ∧
    (IcmpInner.echo [.identifier 3, .reply]).kinds = [.echoReply] := by decide

end Verif.Props
