import Verif.Spec.StaticFaults
import Verif.Props.Faults
import Verif.Props.BuildersSlice

/-!
# Exactly when a payload-free builder program fails on fixed storage, and with what (C131)
-/

namespace Verif.Props
open Verif Verif.Spec

theorem meets_need {α : Type} {cap n : Nat} {o : Outcome α} {f : Option Fault} (h : n ≤ cap → Meets o f) :
    Meets (need cap n >>= fun _ => o) ((roomFault cap n).or f) := by
  unfold need roomFault
  by_cases hn : n ≤ cap
  · rw [if_pos hn, if_pos hn]; exact h hn
  · rw [if_neg hn, if_neg hn]; rfl

theorem meets_or {α β : Type} {o : Outcome α} {f g : Option Fault} {k : α → Outcome β}
    (h : match f with | some f => o = f.result | none => ∃ a, o = .ok a ∧ Meets (k a) g) :
    Meets (o >>= k) (f.or g) := by
  cases f with
  | some f => exact Meets.bind h _
  | none => obtain ⟨a, ha, h⟩ := h; rw [ha]; exact h

theorem meets_ok {α β : Type} {o : Outcome α} {f : Option Fault} {k : α → Outcome β} (h : Meets o f)
    (hk : ∀ a, ∃ b, k a = .ok b) : Meets (o >>= k) f := by
  cases f with
  | some f => exact Meets.bind h _
  | none => obtain ⟨a, ha⟩ := h; rw [ha]; exact hk a

theorem icmp_faults_in (cfg : Cfg) (cap n : Nat) (inner : IcmpInner) :
    Meets (inner.abs cfg cap n) (icmpFaultIn cap n inner) := by
  have h := icmp_faults cfg inner
  cases inner with
  | none => rfl
  | echo ops | timestamp ops | information ops =>
    simp only [IcmpInner.abs] at h ⊢
    rw [need_dynamic (by omega), Outcome.ok_bind] at h
    exact meets_need fun _ => h

/-- `build()` of a TCP segment with a payload of even length up to 130000 bytes never panics. -/
theorem tcp_build_small (cfg : Cfg) (vops : List V4Op) (ops : List TcpOp)
    (h : (last TcpOp.payload? [] ops).length ≤ 130000) (h2 : (last TcpOp.payload? [] ops).length % 2 = 0) :
    tcpBuildFault cfg vops ops = none := by
  unfold tcpBuildFault
  rw [if_neg]
  rintro (⟨-, h⟩ | ⟨-, h⟩)
  · omega
  · unfold tcpWordSum at h
    generalize hm : pseudoHeader _ _ _ _ ++ (tcpHeader _ _ _ ++ _) = m at h
    have hl : m.length = 32 + (last TcpOp.payload? [] ops).length := by
      rw [← hm, List.length_append, List.length_append, tcpHeader_length]
      show 12 + _ = _
      omega
    have h1 := words_sum_le m
    have : (m.length + 1) / 2 * 65535 ≤ 65536 * 65535 := Nat.mul_le_mul_right _ (by omega)
    omega

theorem ipv4_faults_in (cfg : Cfg) (cap n : Nat) (vops : List V4Op) (inner : Inner)
    (hv : vops.filterMap V4Op.payload? = []) (hn : inner.payloads = []) :
    Meets (ipv4Abs cfg cap n vops inner) (ipv4FaultIn cap n vops inner) := by
  unfold ipv4Abs ipv4FaultIn
  refine meets_need fun _ => meets_or ?_
  have h := v4_faults vops
  cases hf : firstFault v4Fault [] vops with
  | some f => rw [hf] at h; exact h
  | none =>
    rw [hf] at h
    obtain ⟨a, ha, hp⟩ := h
    refine ⟨a, ha, ?_⟩
    have hp : a.payload.isSome = false := by rw [hp, hv]; rfl
    -- on a growable buffer the rest of the program meets the fault of its calls
    have hd := C129_ipv4 cfg vops inner (v4_sane_of_none hv) (inner_sane_of_none hn)
    rw [ipv4Program_dynamic cfg vops inner (v4_sane_of_none hv) (inner_sane_of_none hn)] at hd
    unfold ipv4Abs ipv4Fault at hd
    rw [need_dynamic (by omega), Outcome.ok_bind, ha, Outcome.ok_bind, hf, hv] at hd
    simp only [Option.none_or] at hd
    cases inner with
    | plain => exact hd
    | udp ops =>
      simp only [Inner.abs, hp, Bool.false_eq_true, if_false, List.isEmpty_nil, if_true] at hd ⊢
      rw [need_dynamic (by omega), Outcome.ok_bind] at hd
      exact meets_need fun _ => hd
    | tcp ops =>
      have ht : ops.filterMap TcpOp.payload? = [] := hn
      have he := tcp_build_small cfg vops ops (by unfold last; rw [ht]; decide) (by unfold last; rw [ht]; rfl)
      simp only [Inner.abs, hp, Bool.false_eq_true, if_false, List.isEmpty_nil, if_true, he, Option.or_none] at hd ⊢
      rw [need_dynamic (by omega), Outcome.ok_bind] at hd
      exact meets_need fun _ => hd
    | icmp i =>
      simp only [Inner.abs, hp, Bool.false_eq_true, if_false]
      exact meets_ok (icmp_faults_in cfg cap (n + 20) i) fun d => seal_never cfg _ _

/-- C131, IPv4: a program without payloads on storage of any size and contents fails exactly when one of its calls
is faulty or begins a header the storage cannot hold, as the first of these says. -/
theorem C131_ipv4 (cfg : Cfg) (storage : Bytes) (vops : List V4Op) (inner : Inner)
    (hs : storage.length ≤ cfg.isizeMax) (hv : vops.filterMap V4Op.payload? = []) (hn : inner.payloads = []) :
    Meets (ipv4Program cfg (Slice.new storage) vops inner) (ipv4FaultIn storage.length 0 vops inner) := by
  rw [ipv4Program_eq cfg (Slice.rep_new hs) vops inner (fine_slice _ _) (v4_room_slice hv) (inner_room_slice hn)]
  exact meets_ok (ipv4_faults_in cfg _ 0 vops inner hv hn) fun _ => ⟨_, rfl⟩

/-- What comes out of it is an IPv4 header. -/
theorem ipv4_first (cfg : Cfg) (cap n : Nat) (vops : List V4Op) (inner : Inner)
    (hv : vops.filterMap V4Op.payload? = []) {out : Bytes} (h : ipv4Abs cfg cap n vops inner = .ok out) :
    ∃ rest, out = 0x45#8 :: rest := by
  unfold ipv4Abs at h
  obtain ⟨-, -, h⟩ := bind_ok_inv h
  obtain ⟨a, ha, h⟩ := bind_ok_inv h
  cases inner with
  | plain =>
    obtain ⟨rest, ho⟩ := raw_first h
    have hf := v4_faults vops
    cases hc : firstFault v4Fault [] vops with
    | some f => rw [hc, ha] at hf; cases f <;> cases hf
    | none =>
      rw [hc] at hf
      obtain ⟨b, hb, hp⟩ := hf
      rw [ha] at hb
      cases hb
      rw [hv] at hp
      rw [hp] at ho
      exact ⟨rest, ho⟩
  | udp ops | tcp ops =>
    simp only [Inner.abs] at h
    split at h
    · cases h
    · obtain ⟨-, -, h⟩ := bind_ok_inv h
      obtain ⟨u, -, h⟩ := bind_ok_inv h
      obtain ⟨d, -, h⟩ := bind_ok_inv h
      exact seal_first h
  | icmp inner =>
    simp only [Inner.abs] at h
    split at h
    · cases h
    · obtain ⟨d, -, h⟩ := bind_ok_inv h
      exact seal_first h

/-- C131, Ethernet around IPv4. -/
theorem C131_ethernet (cfg : Cfg) (storage : Bytes) (eops : List EtherOp) (vops : List V4Op) (inner : Inner)
    (hs : storage.length ≤ cfg.isizeMax) (he : eops.filterMap EtherOp.payload? = [])
    (hv : vops.filterMap V4Op.payload? = []) (hn : inner.payloads = []) :
    Meets (ethernetProgram cfg (Slice.new storage) eops vops inner) (ethernetFaultIn storage.length vops inner) := by
  rw [ethernetProgram_eq cfg (Slice.rep_new hs) eops vops inner (fine_slice _ _) (fine_slice _ _)
      (ether_room_slice he) (v4_room_slice hv) (inner_room_slice hn)]
  refine meets_ok ?_ fun _ => ⟨_, rfl⟩
  unfold ethernetAbs ethernetFaultIn
  refine meets_need fun _ => ?_
  rw [ether_run eops (by rw [he]; decide), Outcome.ok_bind, he]
  simp only [List.getLast?_nil, Option.isSome_none, Bool.false_eq_true, if_false]
  have h := ipv4_faults_in cfg storage.length 14 vops inner hv hn
  cases hf : ipv4FaultIn storage.length 14 vops inner with
  | some f => rw [hf] at h; exact Meets.bind h _
  | none =>
    rw [hf] at h
    obtain ⟨out, ho⟩ := h
    obtain ⟨rest, hr⟩ := ipv4_first cfg _ _ vops inner hv ho
    show ∃ frame, (ipv4Abs cfg storage.length 14 vops inner >>= fun out => EtherState.seal _ out) = .ok frame
    rw [ho]
    exact ⟨_, ether_seal_v4 _ _ rest hr (by decide)⟩

/-- C131, ICMP alone. -/
theorem C131_icmp (cfg : Cfg) (storage : Bytes) (inner : IcmpInner) (hs : storage.length ≤ cfg.isizeMax)
    (hn : (Inner.icmp inner).payloads = []) :
    Meets (icmpProgram cfg (Slice.new storage) inner) (icmpFaultIn storage.length 0 inner) := by
  rw [icmpProgram_eq cfg (Slice.rep_new hs) inner (icmp_room_slice hn)]
  exact meets_ok (icmp_faults_in cfg _ 0 inner) fun _ => ⟨_, rfl⟩

/-- C131, Ethernet alone: no value is refused. -/
theorem C131_ether (cfg : Cfg) (storage : Bytes) (ops : List EtherOp) (hs : storage.length ≤ cfg.isizeMax)
    (he : ops.filterMap EtherOp.payload? = []) :
    Meets (etherProgram cfg (Slice.new storage) ops) (roomFault storage.length 14) := by
  rw [etherProgram_eq cfg (Slice.rep_new hs) ops (fine_slice _ _) (ether_room_slice he),
    ether_run ops (by rw [he]; decide), Outcome.ok_bind]
  refine meets_ok ?_ fun _ => ⟨_, rfl⟩
  rw [← Option.or_none (o := roomFault storage.length 14)]
  exact meets_need fun _ => ⟨_, rfl⟩

/-- C131: more storage never makes a program fail, and with 54 bytes (no program without payloads needs more) it fails
exactly as on a growable buffer. -/
theorem C131_room (cfg : Cfg) (cap cap' : Nat) (h : cap ≤ cap') (eops : List EtherOp) (vops : List V4Op) (inner : Inner)
    (he : eops.filterMap EtherOp.payload? = []) (hv : vops.filterMap V4Op.payload? = []) (hn : inner.payloads = []) :
    (ethernetFaultIn cap vops inner = none → ethernetFaultIn cap' vops inner = none) ∧
    (54 ≤ cap → ethernetFaultIn cap vops inner = ethernetFault cfg eops vops inner) := by
  have hroom : ∀ n, n ≤ cap → roomFault cap n = none := fun n hn => if_pos hn
  have mono : ∀ n, roomFault cap n = none → roomFault cap' n = none := by
    intro n hn
    unfold roomFault at hn ⊢
    split at hn
    · rw [if_pos (by omega)]
    · cases hn
  have hor : ∀ {a b : Option Fault}, a.or b = none ↔ a = none ∧ b = none := by
    intro a b; cases a <;> simp
  constructor
  · unfold ethernetFaultIn ipv4FaultIn
    rw [hor, hor, hor, hor, hor, hor]
    rintro ⟨h1, h2, h3, h4⟩
    refine ⟨mono _ h1, mono _ h2, h3, ?_⟩
    cases inner with
    | plain => rfl
    | udp ops | tcp ops =>
      simp only [hor] at h4 ⊢
      exact ⟨mono _ h4.1, h4.2⟩
    | icmp i =>
      cases i <;> simp only [icmpFaultIn, hor] at h4 ⊢
      · exact h4
      all_goals exact ⟨mono _ h4.1, h4.2⟩
  · intro hc
    unfold ethernetFaultIn ipv4FaultIn ethernetFault ipv4Fault
    have hef : firstFault etherFault [] eops = none := by
      have h := ether_faults eops
      cases hf : firstFault etherFault [] eops with
      | none => rfl
      | some f =>
        rw [hf, ether_run eops (by rw [he]; decide)] at h
        cases f <;> cases h
    have hraw : rawFault vops inner = none := by
      unfold rawFault last
      rw [hv]
      cases inner <;> rfl
    rw [hroom _ (by omega), hroom _ (by omega), hef, he, hv, hraw, Option.or_none]
    simp only [Option.none_or, List.isEmpty_nil, if_true]
    congr 1
    cases inner with
    | plain => rfl
    | udp ops =>
      simp only []
      rw [hroom _ (by omega), Option.none_or]
    | tcp ops =>
      have ht : ops.filterMap TcpOp.payload? = [] := hn
      have hb := tcp_build_small cfg vops ops (by unfold last; rw [ht]; decide) (by unfold last; rw [ht]; rfl)
      simp only []
      rw [hroom _ (by omega), Option.none_or, hb, Option.or_none]
    | icmp i =>
      cases i <;> simp only [icmpFaultIn]
      all_goals rw [hroom _ (by omega), Option.none_or]

/-! ## Concrete cases -/

example (cfg : Cfg) := C131_ether cfg (zeros 13) Sample.eops (by call_by_call) (by call_by_call)
example (cfg : Cfg) := C131_icmp cfg (zeros 13) (.echo Sample.echoHead) (by call_by_call) (by call_by_call)
example (cfg : Cfg) := C131_ipv4 cfg (zeros 27) Sample.vops (.udp Sample.udpHead) (by call_by_call) (by call_by_call)
  (by call_by_call)
example (cfg : Cfg) := C131_ethernet cfg (zeros 41) Sample.eops Sample.vops (.udp Sample.udpHead) (by call_by_call)
  (by call_by_call) (by call_by_call) (by call_by_call)
example (cfg : Cfg) := C131_room cfg 54 60 (by decide) Sample.eops Sample.vops (.udp Sample.udpHead) (by call_by_call)
  (by call_by_call) (by call_by_call)

/-- What is wrong first is reported: the DSCP before the missing room for UDP, the room before a missing kind, the
missing kind where `icmp()` needs no room. -/
example : ethernetFaultIn 41 [.dscp 64] (.udp []) = some (.error .invalidValue) := rfl
example : ethernetFaultIn 41 [.dscp 63] (.udp []) = some (.error .smallBuffer) := rfl
example : ethernetFaultIn 42 [.dscp 63] (.udp []) = none := rfl
example : ethernetFaultIn 33 [.dscp 64] (.udp []) = some (.error .smallBuffer) := rfl
example : ethernetFaultIn 53 [] (.tcp [.flags .empty, .window 3]) = some (.error .smallBuffer) := rfl
example : ethernetFaultIn 54 [] (.tcp [.flags .empty, .window 3]) = some .panics := rfl
example : icmpFaultIn 7 0 (.echo []) = some (.error .smallBuffer) := rfl
example : icmpFaultIn 0 0 .none = some (.error .invalidPacket) := rfl

end Verif.Props
