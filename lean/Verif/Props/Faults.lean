import Verif.Spec.Faults
import Verif.Props.BuilderWords
import Verif.Props.BuildersTransport
import Verif.Props.RawPayload
import Verif.Props.Large

/-!
# Exactly when a builder program fails, and with what (C129)
-/

namespace Verif.Props
open Verif Verif.Spec

/-- The result `o` of a program with the fault `f`, or without one. -/
def Meets {α : Type} (o : Outcome α) (f : Option Fault) : Prop :=
  match f with
  | some f => o = f.result
  | none => ∃ a, o = .ok a

/-! ## Histories -/

/-- A history fails where its first faulty call is, if every call does. -/
theorem faults_run {Op σ : Type} (abs : Op → σ → Outcome σ) (bad : List Op → Op → Option Fault)
    (I : List Op → σ → Prop)
    (step : ∀ before op a, I before a →
      match bad before op with
      | some f => abs op a = f.result
      | none => ∃ a', abs op a = .ok a' ∧ I (before ++ [op]) a') :
    ∀ ops before a, I before a →
      match firstFault bad before ops with
      | some f => runOps abs ops a = f.result
      | none => ∃ b, runOps abs ops a = .ok b ∧ I (before ++ ops) b := by
  intro ops
  induction ops with
  | nil => intro before a h; exact ⟨a, rfl, by rw [List.append_nil]; exact h⟩
  | cons op ops ih =>
    intro before a h
    have hs := step before op a h
    unfold firstFault
    cases hb : bad before op with
    | some f =>
      rw [hb] at hs
      simp only [] at hs ⊢
      show (abs op a >>= fun a => runOps abs ops a) = _
      rw [hs]
      cases f <;> rfl
    | none =>
      rw [hb] at hs
      simp only [] at hs ⊢
      obtain ⟨a', e, h'⟩ := hs
      have e' : runOps abs (op :: ops) a = runOps abs ops a' := by
        show (abs op a >>= fun a => runOps abs ops a) = _
        rw [e, Outcome.ok_bind]
      have := ih (before ++ [op]) a' h'
      rw [List.append_assoc] at this
      rw [e']
      exact this

theorem isSome_getLast? {α : Type} (l : List α) : l.getLast?.isSome = !l.isEmpty := by
  cases l <;> simp [List.getLast?_cons]

theorem getLast?_snoc_none {Op α : Type} (f : Op → Option α) (before : List Op) (op : Op) (h : f op = none) :
    ((before ++ [op]).filterMap f).getLast? = (before.filterMap f).getLast? := by
  rw [List.filterMap_append]
  simp [List.filterMap_cons, h]

theorem getLast?_snoc_some {Op α : Type} (f : Op → Option α) (before : List Op) (op : Op) (v : α) (h : f op = some v) :
    ((before ++ [op]).filterMap f).getLast? = some v := by
  rw [List.filterMap_append]
  simp [List.filterMap_cons, h]

theorem isEmpty_snoc_none {Op α : Type} (f : Op → Option α) (before : List Op) (op : Op) (h : f op = none) :
    ((before ++ [op]).filterMap f).isEmpty = (before.filterMap f).isEmpty := by
  rw [List.filterMap_append]
  simp [List.filterMap_cons, h]

theorem isEmpty_snoc_some {Op α : Type} (f : Op → Option α) (before : List Op) (op : Op) (v : α) (h : f op = some v) :
    ((before ++ [op]).filterMap f).isEmpty = false := by
  rw [List.filterMap_append]
  simp [List.filterMap_cons, h]

theorem ether_faults (ops : List EtherOp) :
    match firstFault etherFault [] ops with
    | some f => runOps EtherOp.abs ops .init = f.result
    | none => ∃ b, runOps EtherOp.abs ops .init = .ok b ∧ b.payload = (ops.filterMap EtherOp.payload?).getLast? := by
  refine faults_run EtherOp.abs etherFault (fun before a => a.payload = (before.filterMap EtherOp.payload?).getLast?)
    (fun before op a h => ?_) ops [] .init rfl
  cases op with
  | payload v =>
    have hs : a.payload.isSome = !(before.filterMap EtherOp.payload?).isEmpty := by rw [h, isSome_getLast?]
    unfold etherFault EtherOp.abs
    cases hb : (before.filterMap EtherOp.payload?).isEmpty
    · simp only [hs, hb, Bool.not_false, if_true, Bool.false_eq_true, if_false]; rfl
    · simp only [hs, hb, Bool.not_true, if_true, Bool.false_eq_true, if_false]
      exact ⟨_, rfl, (getLast?_snoc_some EtherOp.payload? before (.payload v) v rfl).symm⟩
  | _ => exact ⟨_, rfl, by rw [getLast?_snoc_none _ _ _ rfl]; exact h⟩

theorem v4_faults (ops : List V4Op) :
    match firstFault v4Fault [] ops with
    | some f => runOps V4Op.abs ops .init = f.result
    | none => ∃ b, runOps V4Op.abs ops .init = .ok b ∧ b.payload = (ops.filterMap V4Op.payload?).getLast? := by
  refine faults_run V4Op.abs v4Fault (fun before a => a.payload = (before.filterMap V4Op.payload?).getLast?)
    (fun before op a h => ?_) ops [] .init rfl
  cases op with
  | payload v =>
    have hs : a.payload.isSome = !(before.filterMap V4Op.payload?).isEmpty := by rw [h, isSome_getLast?]
    unfold v4Fault V4Op.abs
    cases hb : (before.filterMap V4Op.payload?).isEmpty
    · simp only [hs, hb, Bool.not_false, if_true, Bool.false_eq_true, if_false]; rfl
    · simp only [hs, hb, Bool.not_true, if_true, Bool.false_eq_true, if_false]
      exact ⟨_, rfl, (getLast?_snoc_some V4Op.payload? before (.payload v) v rfl).symm⟩
  | dscp v =>
    unfold v4Fault V4Op.abs
    by_cases hv : v.toNat ≤ 63
    · simp only [if_pos hv, if_neg (show ¬ 63 < v.toNat by omega)]
      exact ⟨_, rfl, by rw [getLast?_snoc_none _ _ _ rfl]; exact h⟩
    · simp only [if_neg hv, if_pos (show 63 < v.toNat by omega)]; rfl
  | ecn v =>
    unfold v4Fault V4Op.abs
    by_cases hv : v.toNat ≤ 3
    · simp only [if_pos hv, if_neg (show ¬ 3 < v.toNat by omega)]
      exact ⟨_, rfl, by rw [getLast?_snoc_none _ _ _ rfl]; exact h⟩
    · simp only [if_neg hv, if_pos (show 3 < v.toNat by omega)]; rfl
  | _ => exact ⟨_, rfl, by rw [getLast?_snoc_none _ _ _ rfl]; exact h⟩

theorem udp_faults (ops : List UdpOp) :
    match firstFault udpFault [] ops with
    | some f => runOps UdpOp.abs ops .init = f.result
    | none => ∃ b, runOps UdpOp.abs ops .init = .ok b ∧ b.payload = (ops.filterMap UdpOp.payload?).getLast? := by
  refine faults_run UdpOp.abs udpFault (fun before a => a.payload = (before.filterMap UdpOp.payload?).getLast?)
    (fun before op a h => ?_) ops [] .init rfl
  cases op with
  | payload v =>
    have hs : a.payload.isSome = !(before.filterMap UdpOp.payload?).isEmpty := by rw [h, isSome_getLast?]
    unfold udpFault UdpOp.abs
    cases hb : (before.filterMap UdpOp.payload?).isEmpty
    · simp only [hs, hb, Bool.not_false, if_true, Bool.false_eq_true, if_false]; rfl
    · simp only [hs, hb, Bool.not_true, if_true, Bool.false_eq_true, if_false]
      exact ⟨_, rfl, (getLast?_snoc_some UdpOp.payload? before (.payload v) v rfl).symm⟩
  | _ => exact ⟨_, rfl, by rw [getLast?_snoc_none _ _ _ rfl]; exact h⟩

theorem tcp_faults (ops : List TcpOp) :
    match firstFault tcpFault [] ops with
    | some f => runOps TcpOp.abs ops .init = f.result
    | none => ∃ b, runOps TcpOp.abs ops .init = .ok b ∧
        (b.payload = (ops.filterMap TcpOp.payload?).getLast? ∧ b.flags = (ops.filterMap TcpOp.flags?).getLast?) := by
  refine faults_run TcpOp.abs tcpFault (fun before a => a.payload = (before.filterMap TcpOp.payload?).getLast? ∧
    a.flags = (before.filterMap TcpOp.flags?).getLast?) (fun before op a h => ?_) ops [] .init ⟨rfl, rfl⟩
  obtain ⟨h, hf⟩ := h
  have hs : a.payload.isSome = !(before.filterMap TcpOp.payload?).isEmpty := by rw [h, isSome_getLast?]
  have hg : a.flags.isSome = !(before.filterMap TcpOp.flags?).isEmpty := by rw [hf, isSome_getLast?]
  cases op with
  | payload v =>
    unfold tcpFault TcpOp.abs
    cases hb : (before.filterMap TcpOp.payload?).isEmpty
    · simp only [hs, hb, Bool.not_false, if_true, Bool.false_eq_true, if_false]; rfl
    · simp only [hs, hb, Bool.not_true, if_true, Bool.false_eq_true, if_false]
      exact ⟨_, rfl, (getLast?_snoc_some TcpOp.payload? before (.payload v) v rfl).symm, by rw [getLast?_snoc_none _ _ _ rfl]; exact hf⟩
  | flags v =>
    unfold tcpFault TcpOp.abs
    cases hb : (before.filterMap TcpOp.flags?).isEmpty
    · simp only [hg, hb, Bool.not_false, if_true, Bool.false_eq_true, if_false]; rfl
    · simp only [hg, hb, Bool.not_true, if_true, Bool.false_eq_true, if_false]
      exact ⟨_, rfl, by rw [getLast?_snoc_none _ _ _ rfl]; exact h, (getLast?_snoc_some TcpOp.flags? before (.flags v) v rfl).symm⟩
  | source v | destination v | sequence v | acknowledgment v | window v | pointer v =>
    unfold tcpFault TcpOp.abs
    cases hb : (before.filterMap TcpOp.flags?).isEmpty
    · simp only [hg, hb, Bool.not_false, if_true, Bool.false_eq_true, if_false]; rfl
    · simp only [hg, hb, Bool.not_true, if_true, Bool.false_eq_true, if_false]
      exact ⟨_, rfl, by rw [getLast?_snoc_none _ _ _ rfl]; exact h, by rw [getLast?_snoc_none _ _ _ rfl]; exact hf⟩

theorem echo_faults (ops : List EchoOp) :
    match firstFault echoFault [] ops with
    | some f => runOps EchoOp.abs ops .init = f.result
    | none => ∃ b, runOps EchoOp.abs ops .init = .ok b ∧
        (b.payload = (ops.filterMap EchoOp.payload?).getLast? ∧ b.kind.isSome = !(ops.filterMap EchoOp.kind?).isEmpty) := by
  refine faults_run EchoOp.abs echoFault (fun before a => a.payload = (before.filterMap EchoOp.payload?).getLast? ∧
    a.kind.isSome = !(before.filterMap EchoOp.kind?).isEmpty) (fun before op a h => ?_) ops [] .init ⟨rfl, rfl⟩
  obtain ⟨h, hk⟩ := h
  have hs : a.payload.isSome = !(before.filterMap EchoOp.payload?).isEmpty := by rw [h, isSome_getLast?]
  cases op with
  | payload v =>
    unfold echoFault EchoOp.abs
    cases hb : (before.filterMap EchoOp.payload?).isEmpty
    · simp only [hs, hb, Bool.not_false, if_true, Bool.false_eq_true, if_false]; rfl
    · simp only [hs, hb, Bool.not_true, if_true, Bool.false_eq_true, if_false]
      exact ⟨_, rfl, (getLast?_snoc_some EchoOp.payload? before (.payload v) v rfl).symm, by rw [isEmpty_snoc_none _ _ _ rfl]; exact hk⟩
  | request => exact ⟨_, rfl, by rw [getLast?_snoc_none _ _ _ rfl]; exact h,
      (by rw [isEmpty_snoc_some EchoOp.kind? before .request _ rfl]; rfl)⟩
  | reply => exact ⟨_, rfl, by rw [getLast?_snoc_none _ _ _ rfl]; exact h,
      (by rw [isEmpty_snoc_some EchoOp.kind? before .reply _ rfl]; rfl)⟩
  | _ => exact ⟨_, rfl, by rw [getLast?_snoc_none _ _ _ rfl]; exact h, by rw [isEmpty_snoc_none _ _ _ rfl]; exact hk⟩

/-! ## Programs -/

theorem Meets.bind {α β : Type} {o : Outcome α} {f : Fault} (h : o = f.result) (k : α → Outcome β) :
    Meets (o >>= k) (some f) := by
  rw [h]; cases f <;> rfl

/-- C129, Ethernet alone. -/
theorem C129_ether (cfg : Cfg) (ops : List EtherOp) (hs : ∀ op ∈ ops, op.Sane cfg) :
    Meets (etherProgram cfg Dynamic.new ops) (firstFault etherFault [] ops) := by
  rw [etherProgram_eq cfg Dynamic.rep_new ops (.inl (by in_every_build)) (ether_sane_room (by simp) hs)]
  have hn : need cfg.isizeMax (([] : Bytes).length + ([] : Bytes).length + 14) = .ok () := by in_every_build
  rw [hn]
  simp only [Outcome.ok_bind]
  have h := ether_faults ops
  cases hf : firstFault etherFault [] ops with
  | some f => rw [hf] at h; simp only [] at h; rw [h]; cases f <;> rfl
  | none =>
    rw [hf] at h
    obtain ⟨b, hb, -⟩ := h
    rw [hb]
    exact ⟨_, rfl⟩

theorem icmp_faults (cfg : Cfg) (inner : IcmpInner) :
    Meets (inner.abs cfg cfg.isizeMax 0) (icmpFault inner) := by
  cases inner with
  | none => rfl
  | echo ops =>
    simp only [IcmpInner.abs, icmpFault]
    rw [need_dynamic (by omega), Outcome.ok_bind]
    have h := echo_faults ops
    cases hf : firstFault echoFault [] ops with
    | some f => rw [hf] at h; exact Meets.bind h _
    | none =>
      rw [hf] at h
      obtain ⟨b, hb, -, hk⟩ := h
      rw [hb, Outcome.ok_bind, hk]
      unfold kindFault
      cases (ops.filterMap EchoOp.kind?).isEmpty
      · rw [Icmp.checksumOf_eq]; exact ⟨_, rfl⟩
      · rfl
  | timestamp ops =>
    simp only [IcmpInner.abs, icmpFault]
    rw [need_dynamic (by omega), Outcome.ok_bind, timestamp_run, Outcome.ok_bind]
    simp only [Option.isSome_map, isSome_getLast?]
    unfold kindFault
    cases (ops.filterMap TimestampOp.kind?).isEmpty
    · rw [Icmp.checksumOf_eq]; exact ⟨_, rfl⟩
    · rfl
  | information ops =>
    simp only [IcmpInner.abs, icmpFault]
    rw [need_dynamic (by omega), Outcome.ok_bind, information_run, Outcome.ok_bind]
    simp only [Option.isSome_map, isSome_getLast?]
    unfold kindFault
    cases (ops.filterMap InformationOp.kind?).isEmpty
    · rw [Icmp.checksumOf_eq]; exact ⟨_, rfl⟩
    · rfl

/-- C129, ICMP alone. -/
theorem C129_icmp (cfg : Cfg) (inner : IcmpInner) (hs : (Inner.icmp inner).Sane cfg) :
    Meets (icmpProgram cfg Dynamic.new inner) (icmpFault inner) := by
  rw [icmpProgram_dynamic cfg inner hs]
  exact icmp_faults cfg inner

theorem tcp_abs_step (op : TcpOp) (a b : TcpState) (h : op.abs a = .ok b) : b = op.step a := by
  cases op <;> simp only [TcpOp.abs] at h <;>
    (split at h
     · cases h
     · injection h with h; exact h.symm)

/-- What a history of TCP calls that succeeds leaves in the header. -/
theorem tcp_fields_run (ops : List TcpOp) (t : TcpState) (h : runOps TcpOp.abs ops .init = .ok t) :
    t.fields = ⟨last TcpOp.source? 0 ops, last TcpOp.destination? 0 ops, last TcpOp.sequence? 0 ops,
        last TcpOp.acknowledgment? 0 ops, last TcpOp.window? 0 ops, last TcpOp.pointer? 0 ops⟩ := by
  rw [runOps_steps (abs := TcpOp.abs) (step := TcpOp.step) tcp_abs_step ops _ t h]
  have h1 := foldl_last TcpOp.step (fun a => a.fields.sport) TcpOp.source? (by intro op a; cases op <;> rfl) ops .init
  have h2 := foldl_last TcpOp.step (fun a => a.fields.dport) TcpOp.destination? (by intro op a; cases op <;> rfl) ops .init
  have h3 := foldl_last TcpOp.step (fun a => a.fields.seq) TcpOp.sequence? (by intro op a; cases op <;> rfl) ops .init
  have h4 := foldl_last TcpOp.step (fun a => a.fields.ack) TcpOp.acknowledgment? (by intro op a; cases op <;> rfl) ops .init
  have h5 := foldl_last TcpOp.step (fun a => a.fields.window) TcpOp.window? (by intro op a; cases op <;> rfl) ops .init
  have h6 := foldl_last TcpOp.step (fun a => a.fields.pointer) TcpOp.pointer? (by intro op a; cases op <;> rfl) ops .init
  generalize List.foldl (fun a op => TcpOp.step op a) TcpState.init ops = t at *
  obtain ⟨⟨f1, f2, f3, f4, f5, f6⟩, g, p⟩ := t
  simp only [] at h1 h2 h3 h4 h5 h6 ⊢
  rw [h1, h2, h3, h4, h5, h6]
  rfl

theorem v4_addresses_run (vops : List V4Op) (a : V4State) (h : runOps V4Op.abs vops .init = .ok a) :
    a.fields.src = (last V4Op.source? .zero vops).octets ∧
    a.fields.dst = (last V4Op.destination? .zero vops).octets := by
  rw [runOps_steps (abs := V4Op.abs) (step := V4Op.step) v4_abs_step vops _ a h]
  exact ⟨foldl_last_map V4Op.step (fun a => a.fields.src) V4Op.source? Ipv4Addr.octets
      (by intro op a; cases op <;> rfl) vops .init .zero rfl,
    foldl_last_map V4Op.step (fun a => a.fields.dst) V4Op.destination? Ipv4Addr.octets
      (by intro op a; cases op <;> rfl) vops .init .zero rfl⟩

/-- `build()` of a TCP segment of any size. -/
theorem tcp_seal_faults (cfg : Cfg) (vops : List V4Op) (ops : List TcpOp) (a : V4State) (t : TcpState)
    (ha : runOps V4Op.abs vops .init = .ok a) (hok : Ipv4Fields.ok a.fields)
    (ht : runOps TcpOp.abs ops .init = .ok t) (hp : t.payload = (ops.filterMap TcpOp.payload?).getLast?)
    (hg : t.flags = (ops.filterMap TcpOp.flags?).getLast?) :
    Meets (TcpState.seal cfg (ipv4Header { a.fields with protocol := 6#8 } 0#16 0#16) t) (tcpBuildFault cfg vops ops) := by
  have hf := tcp_fields_run ops t ht
  obtain ⟨hsrc, hdst⟩ := v4_addresses_run vops a ha
  obtain ⟨tf, tg, tp⟩ := t
  simp only [] at hp hg hf
  subst hp hg
  unfold TcpState.seal
  rw [flagBits_last]
  simp only []
  have hlast : (List.filterMap TcpOp.payload? ops).getLast?.getD [] = last TcpOp.payload? [] ops := rfl
  rw [hlast]
  have hok' : Ipv4Fields.ok { a.fields with protocol := 6#8 } := hok
  have hip := hok'.length 0#16 0#16
  have hl : (tcpHeader tf (0x5000#16 ||| (last TcpOp.flags? .empty ops).bits) 0#16 ++ last TcpOp.payload? [] ops).length =
      20 + (last TcpOp.payload? [] ops).length := by
    rw [List.length_append, tcpHeader_length]
  have hsum := tcpMessage_sum (ip := ipv4Header { a.fields with protocol := 6#8 } 0#16 0#16)
    (b := tcpHeader tf (0x5000#16 ||| (last TcpOp.flags? .empty ops).bits) 0#16 ++ last TcpOp.payload? [] ops)
    (by omega) (by omega)
  have hm : (words (tcpMessage (ipv4Header { a.fields with protocol := 6#8 } 0#16 0#16)
      (tcpHeader tf (0x5000#16 ||| (last TcpOp.flags? .empty ops).bits) 0#16 ++ last TcpOp.payload? [] ops))).sum =
      tcpWordSum vops ops := by
    unfold tcpMessage tcpWordSum
    have e1 : ((ipv4Header { a.fields with protocol := 6#8 } 0#16 0#16).drop 12).take 4 = a.fields.src := by
      rw [hsrc]; rw [show ({ a.fields with protocol := 6#8 } : Ipv4Fields) = { a.fields with protocol := 6#8, src := (last V4Op.source? .zero vops).octets, dst := (last V4Op.destination? .zero vops).octets } by rw [← hsrc, ← hdst]]; rfl
    have e2 : ((ipv4Header { a.fields with protocol := 6#8 } 0#16 0#16).drop 16).take 4 = a.fields.dst := by
      rw [hdst]; rw [show ({ a.fields with protocol := 6#8 } : Ipv4Fields) = { a.fields with protocol := 6#8, src := (last V4Op.source? .zero vops).octets, dst := (last V4Op.destination? .zero vops).octets } by rw [← hsrc, ← hdst]]; rfl
    rw [e1, e2, hl, hf, hsrc, hdst]
    rfl
  rw [tcp_checksum_any cfg _ _ (Nat.le_of_eq hip.symm), ← hsum, hm, hl]
  unfold tcpBuildFault
  by_cases hc : (cfg.eofAdvances = true ∧ (last TcpOp.payload? [] ops).length % 2 = 1) ∨
      (cfg.overflowChecks = true ∧ 2 ^ 32 ≤ tcpWordSum vops ops)
  · rw [if_pos hc, if_pos (hc.imp (fun h => ⟨by omega, h.1⟩) id)]
    rfl
  · rw [if_neg hc, if_neg (fun h => hc (h.imp (fun h => ⟨h.2, by omega⟩) id))]
    exact ⟨_, rfl⟩

/-- C129, IPv4: the program fails exactly when there is a fault, as the first fault says. -/
theorem C129_ipv4 (cfg : Cfg) (vops : List V4Op) (inner : Inner)
    (hv : ∀ op ∈ vops, op.Sane cfg) (hi : inner.Sane cfg) :
    Meets (ipv4Program cfg Dynamic.new vops inner) (ipv4Fault cfg vops inner) := by
  rw [ipv4Program_dynamic cfg vops inner hv hi]
  unfold ipv4Abs ipv4Fault
  rw [need_dynamic (by omega), Outcome.ok_bind]
  have h := v4_faults vops
  cases hf : firstFault v4Fault [] vops with
  | some f => rw [hf] at h; exact Meets.bind h _
  | none =>
    rw [hf] at h
    obtain ⟨a, ha, hp⟩ := h
    have hok : Ipv4Fields.ok a.fields := by
      rcases v4_never vops .init ⟨⟨.zero, rfl⟩, ⟨.zero, rfl⟩⟩ with ⟨b, hb, hok⟩ | ⟨e, he⟩
      · rw [ha] at hb; cases hb; exact hok
      · rw [ha] at he; cases he
    have hs : a.payload.isSome = !(vops.filterMap V4Op.payload?).isEmpty := by rw [hp, isSome_getLast?]
    rw [ha, Outcome.ok_bind]
    cases inner with
    | plain =>
      show ∃ out, a.raw cfg = .ok out
      unfold V4State.raw
      simp only []
      rw [V4.checksumOf_eq]
      exact ⟨_, rfl⟩
    | udp ops =>
      simp only [Inner.abs, Option.none_or, hs]
      cases (vops.filterMap V4Op.payload?).isEmpty
      · rfl
      · simp only [Bool.not_true, Bool.false_eq_true, if_false, if_true]
        rw [need_dynamic (by omega), Outcome.ok_bind]
        have h := udp_faults ops
        cases hf : firstFault udpFault [] ops with
        | some f => rw [hf] at h; exact Meets.bind h _
        | none =>
          rw [hf] at h
          obtain ⟨u, hu, -⟩ := h
          rw [hu, Outcome.ok_bind]
          unfold UdpState.seal
          have hok' : Ipv4Fields.ok { a.fields with protocol := 17#8 } := hok
          have hck := udp_checksum_v4 cfg hok' 0#16 0#16 [] (udpHeader u.sport u.dport
            (BitVec.ofNat 16 (8 + (u.payload.getD []).length)) 0#16 ++ u.payload.getD [])
          rw [List.append_nil] at hck
          generalize ckOf _ = ck at hck
          rw [hck, Outcome.ok_bind, Outcome.ok_bind]
          exact seal_never cfg _ _
    | tcp ops =>
      simp only [Inner.abs, Option.none_or, hs]
      cases (vops.filterMap V4Op.payload?).isEmpty
      · rfl
      · simp only [Bool.not_true, Bool.false_eq_true, if_false, if_true]
        rw [need_dynamic (by omega), Outcome.ok_bind]
        have h := tcp_faults ops
        cases hf : firstFault tcpFault [] ops with
        | some f => rw [hf] at h; exact Meets.bind h _
        | none =>
          rw [hf] at h
          obtain ⟨t, hrun, hp, hg⟩ := h
          rw [hrun, Outcome.ok_bind]
          have hm := tcp_seal_faults cfg vops ops a t ha hok hrun hp hg
          rw [Option.none_or]
          cases hb : tcpBuildFault cfg vops ops with
          | some f => rw [hb] at hm; exact Meets.bind hm _
          | none =>
            rw [hb] at hm
            obtain ⟨d, hd⟩ := hm
            rw [hd, Outcome.ok_bind]
            exact seal_never cfg _ _
    | icmp inner =>
      simp only [Inner.abs, Option.none_or, hs]
      cases (vops.filterMap V4Op.payload?).isEmpty
      · rfl
      · simp only [Bool.not_true, Bool.false_eq_true, if_false, if_true]
        rw [icmp_abs_at cfg inner (by omega)]
        have h := icmp_faults cfg inner
        cases hf : icmpFault inner with
        | some f => rw [hf] at h; exact Meets.bind h _
        | none =>
          rw [hf] at h
          obtain ⟨d, hd⟩ := h
          rw [hd, Outcome.ok_bind]
          exact seal_never cfg _ _

/-- The frame around a packet that was built. -/
theorem ether_seal_faults (cfg : Cfg) (e : EtherState) (vops : List V4Op) (inner : Inner) {out : Bytes}
    (hv : ∀ op ∈ vops, op.Sane cfg) (hi : inner.Sane cfg)
    (h : ipv4Program cfg Dynamic.new vops inner = .ok out) : Meets (e.seal out) (rawFault vops inner) := by
  rw [ipv4Program_dynamic cfg vops inner hv hi] at h
  unfold ipv4Abs at h
  rw [need_dynamic (by omega), Outcome.ok_bind] at h
  obtain ⟨a, ha, h⟩ := bind_ok_inv h
  by_cases hpl : inner = .plain
  · subst hpl
    have hf := v4_faults vops
    cases hc : firstFault v4Fault [] vops with
    | some f => rw [hc, ha] at hf; cases f <;> cases hf
    | none =>
      rw [hc] at hf
      obtain ⟨b, hb, hp⟩ := hf
      rw [ha] at hb
      cases hb
      obtain ⟨rest, ho⟩ := raw_first h
      have hl : a.payload.getD [] = last V4Op.payload? [] vops := by rw [hp]; rfl
      rw [hl] at ho
      obtain ⟨k1, k2, -, -⟩ := first_byte ((20 + (last V4Op.payload? [] vops).length) / 4)
      have h4 : ∀ x : U8, x >>> 4 = 4#8 ↔ x.toNat / 16 = 4 := by decide +kernel
      have h6 : ∀ x : U8, x >>> 4 = 6#8 ↔ x.toNat / 16 = 6 := by decide +kernel
      unfold rawFault
      simp only []
      generalize hq : (20 + (last V4Op.payload? [] vops).length) / 4 = q at *
      have hmem : q % 256 / 16 ∈ [0, 2, 4, 6] ↔
          (q % 256 / 16 = 0 ∨ q % 256 / 16 = 4) ∨ (q % 256 / 16 = 2 ∨ q % 256 / 16 = 6) := by
        simp only [List.mem_cons, List.not_mem_nil, or_false]
        omega
      rw [ho]
      unfold EtherState.seal
      simp only []
      by_cases c4 : q % 256 / 16 = 0 ∨ q % 256 / 16 = 4
      · rw [if_pos ((h4 _).2 (k1.2 c4)), if_pos (hmem.2 (.inl c4))]
        exact ⟨_, rfl⟩
      · rw [if_neg (fun hx => c4 (k1.1 ((h4 _).1 hx)))]
        by_cases c6 : q % 256 / 16 = 2 ∨ q % 256 / 16 = 6
        · rw [if_pos ((h6 _).2 (k2.2 c6)), if_pos (hmem.2 (.inr c6))]
          exact ⟨_, rfl⟩
        · rw [if_neg (fun hx => c6 (k2.1 ((h6 _).1 hx))), if_neg (fun hx => (hmem.1 hx).elim c4 c6)]
          rfl
  · obtain ⟨rest, ho⟩ := inner_first hpl h
    have hr : rawFault vops inner = none := by cases inner <;> first | rfl | exact (hpl rfl).elim
    rw [hr]
    exact ⟨_, ether_seal_v4 e _ rest ho (by decide)⟩

/-- C129, Ethernet around IPv4. -/
theorem C129_ethernet (cfg : Cfg) (eops : List EtherOp) (vops : List V4Op) (inner : Inner)
    (he : ∀ op ∈ eops, op.Sane cfg) (hv : ∀ op ∈ vops, op.Sane cfg) (hi : inner.Sane cfg) :
    Meets (ethernetProgram cfg Dynamic.new eops vops inner) (ethernetFault cfg eops vops inner) := by
  have h := ether_faults eops
  unfold ethernetFault
  by_cases hpe : eops.filterMap EtherOp.payload? = []
  · cases hf : firstFault etherFault [] eops with
    | some f =>
      rw [hf, ether_run eops (by rw [hpe]; decide)] at h
      cases f <;> cases h
    | none =>
      rw [hpe]
      simp only [Option.none_or, List.isEmpty_nil, if_true]
      obtain ⟨e, -, -, hc⟩ := ethernet_program cfg eops vops inner hpe hv hi
      have hn := C129_ipv4 cfg vops inner hv hi
      rw [hc]
      cases hif : ipv4Fault cfg vops inner with
      | none =>
        rw [hif] at hn
        obtain ⟨out, ho⟩ := hn
        rw [ho, Outcome.ok_bind, Option.none_or]
        exact ether_seal_faults cfg e vops inner hv hi ho
      | some f =>
        rw [hif] at hn
        exact Meets.bind hn _
  · rw [ethernetProgram_dynamic cfg eops vops inner he hv hi]
    unfold ethernetAbs
    rw [need_dynamic (by omega), Outcome.ok_bind]
    cases hf : firstFault etherFault [] eops with
    | some f => rw [hf] at h; exact Meets.bind h _
    | none =>
      rw [hf] at h
      obtain ⟨b, hb, hpb⟩ := h
      have hs : b.payload.isSome = !(eops.filterMap EtherOp.payload?).isEmpty := by rw [hpb, isSome_getLast?]
      have hne : (eops.filterMap EtherOp.payload?).isEmpty = false := by
        cases h : eops.filterMap EtherOp.payload? with
        | nil => exact (hpe h).elim
        | cons _ _ => rfl
      rw [hb, Outcome.ok_bind, hs, hne]
      rfl

/-! ## Concrete cases -/

/-- The hypotheses are met by programs without a fault... -/
example (cfg : Cfg) := C129_ether cfg Sample.eops (by call_by_call)
example (cfg : Cfg) := C129_icmp cfg (.echo Sample.echoOps) (by call_by_call)
example (cfg : Cfg) := C129_ipv4 cfg Sample.vops (.udp Sample.uops) (by call_by_call) (by call_by_call)
example (cfg : Cfg) := C129_ethernet cfg Sample.eops Sample.vops (.udp Sample.uops) (by call_by_call)
  (by call_by_call) (by call_by_call)
example (cfg : Cfg) : ethernetFault cfg Sample.eops Sample.vops (.udp Sample.uops) = none := rfl

/-- ... and with one: of two faults the one of the earlier call counts. -/
example (cfg : Cfg) : ipv4Fault cfg [.id 7, .dscp 64, .ecn 9] (.udp [.payload [1], .payload [2]]) =
    some (.error .invalidValue) := rfl
example (cfg : Cfg) : ipv4Fault cfg [.id 7, .ecn 3] (.udp [.payload [1], .payload [2]]) =
    some (.error .alreadyDefined) := rfl
example (cfg : Cfg) : ipv4Fault cfg [.payload [1]] (.tcp [.flags .empty, .window 9]) =
    some (.error .alreadyDefined) := rfl
example (cfg : Cfg) : ipv4Fault cfg [.ttl 1] (.tcp [.flags .empty, .payload [1], .window 9, .source 3]) =
    some .panics := rfl
example (cfg : Cfg) : ethernetFault cfg [] [.ttl 1] (.icmp (.echo [.identifier 1])) =
    some (.error .invalidPacket) := rfl
/-- A raw payload of 44 bytes makes the frame panic, one of 43 bytes does not. -/
example (cfg : Cfg) : ethernetFault cfg [] [.payload (zeros 44)] .plain = some .panics ∧
    ethernetFault cfg [] [.payload (zeros 43)] .plain = none := ⟨rfl, rfl⟩
/-- A payload whose words sum to 2 ^ 32 or more makes TCP panic, with overflow checks. -/
example (cfg : Cfg) (vops : List V4Op) (ops : List TcpOp) (h : cfg.overflowChecks = true)
    (hs : 2 ^ 32 ≤ tcpWordSum vops ops) : tcpBuildFault cfg vops ops = some .panics := if_pos (.inr ⟨h, hs⟩)
example : firstFault etherFault [] [.payload [1], .payload []] = some (.error .alreadyDefined) := rfl
example : icmpFault (.timestamp [.identifier 3]) = some (.error .invalidPacket) := rfl

end Verif.Props
