import Verif.Spec.History
import Verif.Lemmas.BuildProg
import Verif.Lemmas.Views

/-! # Histories without errors, abstractly: the last value given for each field -/

set_option linter.unusedSimpArgs false

namespace Verif
open Verif Verif.Spec

theorem last_map {Op α β : Type} (f : Op → Option α) (g : α → β) : ∀ (ops : List Op) (d : α),
    last (fun op => (f op).map g) (g d) ops = g (last f d ops) := by
  intro ops
  induction ops with
  | nil => intro d; rfl
  | cons op ops ih =>
    intro d
    rw [last_cons, last_cons, ← ih]
    cases f op <;> rfl

/-- A field seen through a conversion. -/
theorem foldl_last_map {A Op α β : Type} (step : Op → A → A) (π : A → β) (f : Op → Option α) (g : α → β)
    (h : ∀ op a, π (step op a) = ((f op).map g).getD (π a)) (ops : List Op) (a : A) (d : α)
    (hd : π a = g d) : π (ops.foldl (fun a op => step op a) a) = g (last f d ops) := by
  rw [foldl_last step π (fun op => (f op).map g) h, hd, last_map]

/-- An optional component: what was given last, if anything. -/
theorem foldl_last_option {A Op α : Type} (step : Op → A → A) (π : A → Option α) (f : Op → Option α)
    (h : ∀ op a, π (step op a) = (f op).or (π a)) : ∀ (ops : List Op) (a : A),
      π (ops.foldl (fun a op => step op a) a) = (ops.filterMap f).getLast?.or (π a) := by
  intro ops
  induction ops with
  | nil => intro a; simp
  | cons op ops ih =>
    intro a
    rw [List.foldl_cons, ih, h]
    cases hf : f op with
    | none => simp [hf]
    | some v => 
      simp only [List.filterMap_cons, hf, Option.some_or]
      cases hl : (ops.filterMap f).getLast? with
      | none =>
        rw [List.getLast?_eq_none_iff] at hl
        simp [hl]
      | some w => simp [List.getLast?_cons, hl]

/-- The payload of a history: the last one given, if any. -/
def lastPayload {Op : Type} (f : Op → Option Bytes) (ops : List Op) : Option Bytes :=
  (ops.filterMap f).getLast?

theorem ether_run (ops : List EtherOp) (h : (ops.filterMap EtherOp.payload?).length ≤ 1) :
    runOps EtherOp.abs ops .init = .ok ⟨last EtherOp.destination? .zero ops, last EtherOp.source? .zero ops,
      (last EtherOp.protocol? (.unknown 0) ops).toWire, (ops.filterMap EtherOp.payload?).getLast?⟩ := by
  have hl := legalRun_once (step := EtherOp.step) (legal := fun op a => op.abs a = .ok (op.step a))
    EtherOp.payload? (fun a => a.payload)
    (by intro op a h; cases op <;> first | rfl | cases h) (fun _ => True)
    (by
      intro op a _ h
      cases op with
      | payload v =>
        rcases h with h | h
        · cases h
        · simp [EtherOp.abs, h]
      | _ => rfl) ops .init (fun _ _ => trivial) (.inr ⟨rfl, h⟩)
  rw [runOps_ok (abs := EtherOp.abs) (step := EtherOp.step) ops .init hl]
  congr 1
  have h1 := foldl_last EtherOp.step (fun a => a.dst) EtherOp.destination?
    (by intro op a; cases op <;> rfl) ops .init
  have h2 := foldl_last EtherOp.step (fun a => a.src) EtherOp.source?
    (by intro op a; cases op <;> rfl) ops .init
  have h3 := foldl_last_map EtherOp.step (fun a => a.type) EtherOp.protocol? EtherProtocol.toWire
    (by intro op a; cases op <;> rfl) ops .init (.unknown 0) rfl
  have h4 := foldl_last_option EtherOp.step (fun a => a.payload) EtherOp.payload?
    (by intro op a; cases op <;> rfl) ops .init
  try simp only [] at h1 h2 h3 h4
  generalize ops.foldl (fun a op => EtherOp.step op a) .init = a at *
  cases a
  simp only [EtherState.mk.injEq]
  exact ⟨h1, h2, h3, h4.trans (by cases (ops.filterMap EtherOp.payload?).getLast? <;> rfl)⟩

/-- The fields an IPv4 history asks for. -/
structure V4Asked (vops : List V4Op) (f : Ipv4Fields) : Prop where
  id : f.id = last V4Op.id? 0 vops
  ttl : f.ttl = last V4Op.ttl? 0 vops
  src : f.src = (last V4Op.source? .zero vops).octets
  dst : f.dst = (last V4Op.destination? .zero vops).octets
  protocol : f.protocol = (last V4Op.protocol? (.ofWire 0) vops).toWire
  tos : (∀ op ∈ vops, op.Tame) → f.tos = last V4Op.dscp? 0 vops <<< 2
  fragment : (∀ op ∈ vops, op.Tame) → f.fragment = 0

theorem tos_dscp (x v : U8) (h : x &&& 0b11#8 = 0) : (x &&& 0b11#8) ||| (v <<< 2) = v <<< 2 := by
  rw [h]; simp

theorem shl2_low (v : U8) : (v <<< 2) &&& 0b11#8 = 0#8 := by revert v; decide +kernel

theorem v4_run (vops : List V4Op) (hr : ∀ op ∈ vops, op.InRange)
    (h : (vops.filterMap V4Op.payload?).length ≤ 1) :
    ∃ f, V4Asked vops f ∧
      runOps V4Op.abs vops .init = .ok ⟨f, (vops.filterMap V4Op.payload?).getLast?⟩ := by
  have hl := legalRun_once (step := V4Op.step) (legal := fun op a => op.abs a = .ok (op.step a))
    V4Op.payload? (fun a => a.payload)
    (by intro op a h; cases op <;> first | rfl | cases h) V4Op.InRange
    (by
      intro op a hp h
      cases op with
      | payload v =>
        rcases h with h | h
        · cases h
        · simp [V4Op.abs, h]
      | dscp v =>
        have hp : v.toNat ≤ 63 := hp
        simp only [V4Op.abs]
        rw [if_neg (by omega)]
      | ecn v =>
        have hp : v.toNat ≤ 3 := hp
        simp only [V4Op.abs]
        rw [if_neg (by omega)]
      | _ => rfl) vops .init hr (.inr ⟨rfl, h⟩)
  rw [runOps_ok (abs := V4Op.abs) (step := V4Op.step) vops .init hl]
  have h1 := foldl_last V4Op.step (fun a => a.fields.id) V4Op.id?
    (by intro op a; cases op <;> rfl) vops .init
  have h2 := foldl_last V4Op.step (fun a => a.fields.ttl) V4Op.ttl?
    (by intro op a; cases op <;> rfl) vops .init
  have h3 := foldl_last_map V4Op.step (fun a => a.fields.src) V4Op.source? Ipv4Addr.octets
    (by intro op a; cases op <;> rfl) vops .init .zero rfl
  have h4 := foldl_last_map V4Op.step (fun a => a.fields.dst) V4Op.destination? Ipv4Addr.octets
    (by intro op a; cases op <;> rfl) vops .init .zero rfl
  have h5 := foldl_last_map V4Op.step (fun a => a.fields.protocol) V4Op.protocol? IpProtocol.toWire
    (by intro op a; cases op <;> rfl) vops .init (.ofWire 0) (by decide)
  have h6 := foldl_last_option V4Op.step (fun a => a.payload) V4Op.payload?
    (by intro op a; cases op <;> rfl) vops .init
  have h7 := foldl_last_on V4Op.step (fun a => a.fields.tos) (fun op => op.dscp?.map (fun v : U8 => v <<< 2)) V4Op.Tame
    (fun a => a.fields.tos &&& 0b11#8 = 0)
    (by
      intro op a hp hi
      cases op with
      | dscp v => 
        show ((a.fields.tos &&& 0b11#8) ||| (v <<< 2)) &&& 0b11#8 = 0
        rw [tos_dscp _ _ hi]; exact shl2_low v
      | ecn v => exact hp.elim
      | _ => exact hi)
    (by
      intro op a hp hi
      cases op with
      | dscp v => exact tos_dscp _ _ hi
      | ecn v => exact hp.elim
      | _ => rfl) vops .init
  have h8 := foldl_last_on V4Op.step (fun a => a.fields.fragment) (fun _ => none) V4Op.Tame
    (fun _ => True) (fun _ _ _ _ => trivial)
    (by
      intro op a hp hi
      cases op with
      | flags v => exact hp.elim
      | offset v => exact hp.elim
      | _ => rfl) vops .init
  try simp only [] at h1 h2 h3 h4 h5 h6 h7 h8
  generalize vops.foldl (fun a op => V4Op.step op a) .init = a at *
  refine ⟨a.fields, ⟨h1, h2, h3, h4, h5, ?_, ?_⟩, ?_⟩
  · intro ht
    rw [h7 ht (by decide)]
    exact last_map V4Op.dscp? (fun v : U8 => v <<< 2) vops 0
  · intro ht
    rw [h8 ht trivial]
    have : vops.filterMap (fun _ : V4Op => (none : Option U16)) = [] := by simp
    unfold last
    rw [this]
    rfl
  · cases a
    simp only [] at *
    rw [h6]
    cases (vops.filterMap V4Op.payload?).getLast? <;> rfl

theorem V4Asked.ok {vops : List V4Op} {f : Ipv4Fields} (h : V4Asked vops f) : Ipv4Fields.ok f :=
  ⟨⟨_, h.src⟩, ⟨_, h.dst⟩⟩

theorem udp_run (ops : List UdpOp) (h : (ops.filterMap UdpOp.payload?).length ≤ 1) :
    runOps UdpOp.abs ops .init = .ok ⟨last UdpOp.source? 0 ops, last UdpOp.destination? 0 ops,
      (ops.filterMap UdpOp.payload?).getLast?⟩ := by
  have hl := legalRun_once (step := UdpOp.step) (legal := fun op a => op.abs a = .ok (op.step a))
    UdpOp.payload? (fun a => a.payload)
    (by intro op a h; cases op <;> first | rfl | cases h) (fun _ => True)
    (by
      intro op a _ h
      cases op with
      | payload v =>
        rcases h with h | h
        · cases h
        · simp [UdpOp.abs, h]
      | _ => rfl) ops .init (fun _ _ => trivial) (.inr ⟨rfl, h⟩)
  rw [runOps_ok (abs := UdpOp.abs) (step := UdpOp.step) ops .init hl]
  congr 1
  have h1 := foldl_last UdpOp.step (fun a => a.sport) UdpOp.source?
    (by intro op a; cases op <;> rfl) ops .init
  have h2 := foldl_last UdpOp.step (fun a => a.dport) UdpOp.destination?
    (by intro op a; cases op <;> rfl) ops .init
  have h4 := foldl_last_option UdpOp.step (fun a => a.payload) UdpOp.payload?
    (by intro op a; cases op <;> rfl) ops .init
  try simp only [] at h1 h2 h4
  generalize ops.foldl (fun a op => UdpOp.step op a) .init = a at *
  cases a
  simp only [UdpState.mk.injEq]
  exact ⟨h1, h2, h4.trans (by cases (ops.filterMap UdpOp.payload?).getLast? <;> rfl)⟩

theorem echo_run (ops : List EchoOp) (h : (ops.filterMap EchoOp.payload?).length ≤ 1) :
    runOps EchoOp.abs ops .init = .ok ⟨((ops.filterMap EchoOp.kind?).getLast?).map IcmpKind.toWire,
      last EchoOp.identifier? 0 ops, last EchoOp.sequence? 0 ops,
      (ops.filterMap EchoOp.payload?).getLast?⟩ := by
  have hl := legalRun_once (step := EchoOp.step) (legal := fun op a => op.abs a = .ok (op.step a))
    EchoOp.payload? (fun a => a.payload)
    (by intro op a h; cases op <;> first | rfl | cases h) (fun _ => True)
    (by
      intro op a _ h
      cases op with
      | payload v =>
        rcases h with h | h
        · cases h
        · simp [EchoOp.abs, h]
      | _ => rfl) ops .init (fun _ _ => trivial) (.inr ⟨rfl, h⟩)
  rw [runOps_ok (abs := EchoOp.abs) (step := EchoOp.step) ops .init hl]
  congr 1
  have h1 := foldl_last EchoOp.step (fun a => a.id) EchoOp.identifier?
    (by intro op a; cases op <;> rfl) ops .init
  have h2 := foldl_last EchoOp.step (fun a => a.seq) EchoOp.sequence?
    (by intro op a; cases op <;> rfl) ops .init
  have h3 := foldl_last_option EchoOp.step (fun a => a.kind) (fun op => op.kind?.map IcmpKind.toWire)
    (by intro op a; cases op <;> rfl) ops .init
  have h4 := foldl_last_option EchoOp.step (fun a => a.payload) EchoOp.payload?
    (by intro op a; cases op <;> rfl) ops .init
  try simp only [] at h1 h2 h3 h4
  generalize ops.foldl (fun a op => EchoOp.step op a) .init = a at *
  have e : ∀ {Op α β : Type} (f : Op → Option α) (g : α → β) (l : List Op),
      l.filterMap (fun op => (f op).map g) = (l.filterMap f).map g := by
    intro Op α β f g l
    induction l with
    | nil => rfl
    | cons a l ih => cases hf : f a <;> simp [hf, ih]
  rw [e] at h3
  cases a
  simp only [EchoState.mk.injEq]
  refine ⟨h3.trans ?_, h1, h2, h4.trans (by cases (ops.filterMap EchoOp.payload?).getLast? <;> rfl)⟩
  rw [List.getLast?_map]
  cases (ops.filterMap EchoOp.kind?).getLast? <;> rfl

theorem filterMap_map' {Op α β : Type} (f : Op → Option α) (g : α → β) (l : List Op) :
    l.filterMap (fun op => (f op).map g) = (l.filterMap f).map g := by
  induction l with
  | nil => rfl
  | cons a l ih => cases hf : f a <;> simp [hf, ih]

theorem timestamp_run (ops : List TimestampOp) :
    runOps TimestampOp.abs ops .init = .ok ⟨((ops.filterMap TimestampOp.kind?).getLast?).map IcmpKind.toWire,
      last TimestampOp.identifier? 0 ops, last TimestampOp.sequence? 0 ops,
      last TimestampOp.originate? 0 ops, last TimestampOp.receive? 0 ops,
      last TimestampOp.transmit? 0 ops⟩ := by
  rw [runOps_ok (step := TimestampOp.step) ops .init (by
    have : ∀ (ops : List TimestampOp) a,
        LegalRun TimestampOp.step (fun op a => op.abs a = .ok (op.step a)) ops a := by
      intro ops
      induction ops with
      | nil => intro a; trivial
      | cons o os ih => intro a; exact ⟨rfl, ih _⟩
    exact this _ _)]
  congr 1
  have h1 := foldl_last TimestampOp.step (fun a => a.id) TimestampOp.identifier?
    (by intro op a; cases op <;> rfl) ops .init
  have h2 := foldl_last TimestampOp.step (fun a => a.seq) TimestampOp.sequence?
    (by intro op a; cases op <;> rfl) ops .init
  have h3 := foldl_last_option TimestampOp.step (fun a => a.kind) (fun op => op.kind?.map IcmpKind.toWire)
    (by intro op a; cases op <;> rfl) ops .init
  have h4 := foldl_last TimestampOp.step (fun a => a.originate) TimestampOp.originate?
    (by intro op a; cases op <;> rfl) ops .init
  have h5 := foldl_last TimestampOp.step (fun a => a.receive) TimestampOp.receive?
    (by intro op a; cases op <;> rfl) ops .init
  have h6 := foldl_last TimestampOp.step (fun a => a.transmit) TimestampOp.transmit?
    (by intro op a; cases op <;> rfl) ops .init
  try simp only [] at h1 h2 h3 h4 h5 h6
  generalize ops.foldl (fun a op => TimestampOp.step op a) .init = a at *
  rw [filterMap_map'] at h3
  cases a
  simp only [TimestampState.mk.injEq]
  refine ⟨h3.trans ?_, h1, h2, h4, h5, h6⟩
  rw [List.getLast?_map]
  cases (ops.filterMap TimestampOp.kind?).getLast? <;> rfl

theorem information_run (ops : List InformationOp) :
    runOps InformationOp.abs ops .init =
      .ok ⟨((ops.filterMap InformationOp.kind?).getLast?).map IcmpKind.toWire,
        last InformationOp.identifier? 0 ops, last InformationOp.sequence? 0 ops⟩ := by
  rw [runOps_ok (step := InformationOp.step) ops .init (by
    have : ∀ (ops : List InformationOp) a,
        LegalRun InformationOp.step (fun op a => op.abs a = .ok (op.step a)) ops a := by
      intro ops
      induction ops with
      | nil => intro a; trivial
      | cons o os ih => intro a; exact ⟨rfl, ih _⟩
    exact this _ _)]
  congr 1
  have h1 := foldl_last InformationOp.step (fun a => a.id) InformationOp.identifier?
    (by intro op a; cases op <;> rfl) ops .init
  have h2 := foldl_last InformationOp.step (fun a => a.seq) InformationOp.sequence?
    (by intro op a; cases op <;> rfl) ops .init
  have h3 := foldl_last_option InformationOp.step (fun a => a.kind) (fun op => op.kind?.map IcmpKind.toWire)
    (by intro op a; cases op <;> rfl) ops .init
  try simp only [] at h1 h2 h3
  generalize ops.foldl (fun a op => InformationOp.step op a) .init = a at *
  rw [filterMap_map'] at h3
  cases a
  simp only [InformationState.mk.injEq]
  refine ⟨h3.trans ?_, h1, h2⟩
  rw [List.getLast?_map]
  cases (ops.filterMap InformationOp.kind?).getLast? <;> rfl

theorem tcp_legal : ∀ (ops : List TcpOp) (a : TcpState),
    (a.flags = none ∧ TcpOp.FlagsLast ops ∨ ∀ op ∈ ops, ∃ v, op = .payload v) →
    ((ops.filterMap TcpOp.payload?).length = 0 ∨
      (a.payload = none ∧ (ops.filterMap TcpOp.payload?).length ≤ 1)) →
    LegalRun TcpOp.step (fun op a => op.abs a = .ok (op.step a)) ops a := by
  intro ops
  induction ops with
  | nil => intro a _ _; trivial
  | cons op ops ih =>
    intro a h1 h2
    cases op with
    | payload v =>
      simp only [List.filterMap_cons, TcpOp.payload?, List.length_cons] at h2
      rcases h2 with h2 | ⟨h2, h3⟩
      · omega
      · refine ⟨by simp [TcpOp.abs, h2], ih _ ?_ (.inl (by omega))⟩
        rcases h1 with h1 | h1
        · exact .inl h1
        · exact .inr (fun o ho => h1 o (by simp [ho]))
    | flags v =>
      simp only [List.filterMap_cons, TcpOp.payload?] at h2
      rcases h1 with ⟨h1, h3⟩ | h1
      · exact ⟨by simp [TcpOp.abs, h1], ih _ (.inr h3) h2⟩
      · obtain ⟨w, hw⟩ := h1 _ (List.mem_cons_self ..)
        cases hw
    | source v | destination v | sequence v | acknowledgment v | window v | pointer v =>
      simp only [List.filterMap_cons, TcpOp.payload?] at h2
      rcases h1 with ⟨h1, h3⟩ | h1
      · exact ⟨by simp [TcpOp.abs, h1], ih _ (.inl ⟨h1, h3⟩) h2⟩
      · obtain ⟨w, hw⟩ := h1 _ (List.mem_cons_self ..)
        cases hw

theorem tcp_run (ops : List TcpOp) (hf : TcpOp.FlagsLast ops)
    (h : (ops.filterMap TcpOp.payload?).length ≤ 1) :
    runOps TcpOp.abs ops .init = .ok ⟨⟨last TcpOp.source? 0 ops, last TcpOp.destination? 0 ops,
        last TcpOp.sequence? 0 ops, last TcpOp.acknowledgment? 0 ops, last TcpOp.window? 0 ops,
        last TcpOp.pointer? 0 ops⟩, (ops.filterMap TcpOp.flags?).getLast?,
      (ops.filterMap TcpOp.payload?).getLast?⟩ := by
  have hl := tcp_legal ops .init (.inl ⟨rfl, hf⟩) (.inr ⟨rfl, h⟩)
  rw [runOps_ok (abs := TcpOp.abs) (step := TcpOp.step) ops .init hl]
  congr 1
  have h1 := foldl_last TcpOp.step (fun a => a.fields.sport) TcpOp.source?
    (by intro op a; cases op <;> rfl) ops .init
  have h2 := foldl_last TcpOp.step (fun a => a.fields.dport) TcpOp.destination?
    (by intro op a; cases op <;> rfl) ops .init
  have h3 := foldl_last TcpOp.step (fun a => a.fields.seq) TcpOp.sequence?
    (by intro op a; cases op <;> rfl) ops .init
  have h4 := foldl_last TcpOp.step (fun a => a.fields.ack) TcpOp.acknowledgment?
    (by intro op a; cases op <;> rfl) ops .init
  have h5 := foldl_last TcpOp.step (fun a => a.fields.window) TcpOp.window?
    (by intro op a; cases op <;> rfl) ops .init
  have h6 := foldl_last TcpOp.step (fun a => a.fields.pointer) TcpOp.pointer?
    (by intro op a; cases op <;> rfl) ops .init
  have h7 := foldl_last_option TcpOp.step (fun a => a.flags) TcpOp.flags?
    (by intro op a; cases op <;> rfl) ops .init
  have h8 := foldl_last_option TcpOp.step (fun a => a.payload) TcpOp.payload?
    (by intro op a; cases op <;> rfl) ops .init
  try simp only [] at h1 h2 h3 h4 h5 h6 h7 h8
  generalize ops.foldl (fun a op => TcpOp.step op a) .init = a at *
  obtain ⟨⟨_, _, _, _, _, _⟩, _, _⟩ := a
  simp only [TcpState.mk.injEq, TcpFields.mk.injEq]
  exact ⟨⟨h1, h2, h3, h4, h5, h6⟩,
    h7.trans (by cases (ops.filterMap TcpOp.flags?).getLast? <;> rfl),
    h8.trans (by cases (ops.filterMap TcpOp.payload?).getLast? <;> rfl)⟩

/-! ## Programs of sane size fit a growable buffer -/

theorem room_dynamic {cfg : Cfg} {n : Nat} (hn : n ≤ 1000) {v : Bytes} (h : v.length ≤ cfg.usizeMod / 4) :
    Room Dynamic cfg.isizeMax n v := by
  refine ⟨.inl trivial, ?_⟩
  have := cfg.width
  omega

theorem fine_dynamic {cfg : Cfg} {n : Nat} (hn : n ≤ 1000) : Fine Dynamic cfg.isizeMax n := by
  left
  have := cfg.width
  omega

theorem v4_sane_room {cfg : Cfg} {n : Nat} (hn : n ≤ 900) {vops : List V4Op} (h : ∀ op ∈ vops, op.Sane cfg) :
    ∀ op ∈ vops, op.room Dynamic cfg.isizeMax n := by
  intro op hop
  cases op with
  | payload v => exact room_dynamic (by omega) (h _ hop v rfl)
  | _ => trivial

theorem ether_sane_room {cfg : Cfg} {n : Nat} (hn : n ≤ 900) {ops : List EtherOp} (h : ∀ op ∈ ops, op.Sane cfg) :
    ∀ op ∈ ops, op.room Dynamic cfg.isizeMax n := by
  intro op hop
  cases op with
  | payload v => exact room_dynamic (by omega) (h _ hop v rfl)
  | _ => trivial

theorem Inner.sane_room {cfg : Cfg} {n : Nat} (hn : n ≤ 900) {inner : Inner} (h : inner.Sane cfg) :
    inner.room Dynamic cfg.isizeMax n := by
  cases inner with
  | plain => trivial
  | udp ops =>
    refine ⟨fine_dynamic (by omega), ?_⟩
    intro op hop
    cases op with
    | payload v => exact room_dynamic (by omega) (h v (List.mem_filterMap.2 ⟨_, hop, rfl⟩))
    | _ => trivial
  | tcp ops =>
    refine ⟨fine_dynamic (by omega), ?_⟩
    intro op hop
    cases op with
    | payload v => exact room_dynamic (by omega) (h v (List.mem_filterMap.2 ⟨_, hop, rfl⟩))
    | _ => trivial
  | icmp inner =>
    cases inner with
    | none => trivial
    | timestamp ops => exact fine_dynamic (by omega)
    | information ops => exact fine_dynamic (by omega)
    | echo ops =>
      refine ⟨fine_dynamic (by omega), ?_⟩
      intro op hop
      cases op with
      | payload v => exact room_dynamic (by omega) (h v (List.mem_filterMap.2 ⟨_, hop, rfl⟩))
      | _ => trivial

theorem need_dynamic {cfg : Cfg} {n : Nat} (hn : n ≤ 1000) : need cfg.isizeMax n = .ok () := by
  unfold need
  rw [if_pos (by have := cfg.width; omega)]

/-- `ipv4Program` on an empty growable buffer. -/
theorem ipv4Program_dynamic (cfg : Cfg) (vops : List V4Op) (inner : Inner) (hv : ∀ op ∈ vops, op.Sane cfg)
    (hi : inner.Sane cfg) : ipv4Program cfg Dynamic.new vops inner = ipv4Abs cfg cfg.isizeMax 0 vops inner := by
  have e := ipv4Program_eq cfg Dynamic.rep_new vops inner (fine_dynamic (by simp))
    (v4_sane_room (by simp) hv) (inner.sane_room (by simp) hi)
  rw [e]
  show (ipv4Abs cfg cfg.isizeMax 0 vops inner >>= fun out => .ok out) = _
  cases ipv4Abs cfg cfg.isizeMax 0 vops inner <;> rfl

/-- `ethernetProgram` on an empty growable buffer. -/
theorem ethernetProgram_dynamic (cfg : Cfg) (eops : List EtherOp) (vops : List V4Op) (inner : Inner)
    (he : ∀ op ∈ eops, op.Sane cfg) (hv : ∀ op ∈ vops, op.Sane cfg) (hi : inner.Sane cfg) :
    ethernetProgram cfg Dynamic.new eops vops inner = ethernetAbs cfg cfg.isizeMax 0 eops vops inner := by
  have e := ethernetProgram_eq cfg Dynamic.rep_new eops vops inner (fine_dynamic (by simp))
    (fine_dynamic (by simp)) (ether_sane_room (by simp) he) (v4_sane_room (by simp) hv)
    (inner.sane_room (by simp) hi)
  rw [e]
  show (ethernetAbs cfg cfg.isizeMax 0 eops vops inner >>= fun out => .ok out) = _
  cases ethernetAbs cfg cfg.isizeMax 0 eops vops inner <;> rfl

theorem v4_sane_of_none {cfg : Cfg} {vops : List V4Op} (h : vops.filterMap V4Op.payload? = []) : ∀ op ∈ vops, op.Sane cfg := by
  intro op hop v hv
  rw [List.filterMap_eq_nil_iff] at h
  rw [h op hop] at hv
  cases hv

theorem runOps_append {A Op : Type} {abs : Op → A → Outcome A} : ∀ (ops more : List Op) (a : A),
    runOps abs (ops ++ more) a = runOps abs ops a >>= runOps abs more := by
  intro ops
  induction ops with
  | nil => intro more a; rfl
  | cons o os ih =>
    intro more a
    show (abs o a >>= fun a => runOps abs (os ++ more) a) =
      (abs o a >>= fun a => runOps abs os a) >>= runOps abs more
    rw [bind_assoc]
    congr 1
    funext a
    exact ih more a

end Verif
