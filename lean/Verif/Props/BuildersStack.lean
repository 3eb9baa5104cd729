import Verif.Props.BuildersIcmp
import Verif.Samples

/-! # C49–C53: whole stacks, payload rules, incomplete builders, panics and lengths -/

namespace Verif.Props
open Verif Verif.Spec

/-! ## C49: Ethernet around IPv4 -/

/-- `frame`, read through `ether::Packet`, has the addresses the calls `eops` asked for, the protocol
`proto`, and `body` as payload. -/
structure ReadsEther (eops : List EtherOp) (proto : EtherProtocol) (body frame : Bytes) : Prop where
  bytes : frame = ethernetFrame (last EtherOp.destination? .zero eops).octets
    (last EtherOp.source? .zero eops).octets proto.toWire body
  accepted : Ether.new frame = .ok frame
  destination : Ether.destination frame = .ok (last EtherOp.destination? .zero eops)
  source : Ether.source frame = .ok (last EtherOp.source? .zero eops)
  protocol : Ether.protocol frame = .ok proto
  payload : Ether.payload frame = .ok body

theorem readsEther (eops : List EtherOp) (proto : EtherProtocol) (h : EtherProtocol.ofWire proto.toWire = proto)
    (body : Bytes) : ReadsEther eops proto body (ethernetFrame (last EtherOp.destination? .zero eops).octets
      (last EtherOp.source? .zero eops).octets proto.toWire body) := by
  have hv := ether_view (last EtherOp.destination? .zero eops) (last EtherOp.source? .zero eops)
    proto.toWire body
  refine ⟨rfl, hv.1, hv.2.1, hv.2.2.1, ?_, hv.2.2.2.2⟩
  rw [hv.2.2.2.1, h]

theorem inner_abs_at (cfg : Cfg) (a : V4State) (inner : Inner) {n : Nat} (hn : n ≤ 800) :
    inner.abs cfg cfg.isizeMax n a = inner.abs cfg cfg.isizeMax 0 a := by
  cases inner with
  | plain => rfl
  | udp ops | tcp ops =>
    simp only [Inner.abs]
    rw [need_dynamic (by omega), need_dynamic (by omega)]
  | icmp inner =>
    simp only [Inner.abs]
    rw [icmp_abs_at cfg inner (by omega), icmp_abs_at cfg inner (n := 0 + 20) (by omega)]

theorem ipv4_abs_at (cfg : Cfg) (vops : List V4Op) (inner : Inner) {n : Nat} (hn : n ≤ 800) :
    ipv4Abs cfg cfg.isizeMax n vops inner = ipv4Abs cfg cfg.isizeMax 0 vops inner := by
  unfold ipv4Abs
  rw [need_dynamic (by omega), need_dynamic (by omega)]
  simp only [inner_abs_at cfg _ inner hn]

/-- Every payload a builder holds was given to it. -/
theorem v4_payload_mem : ∀ (vops : List V4Op) (a b : V4State), runOps V4Op.abs vops a = .ok b →
    b.payload = a.payload ∨ ∃ v ∈ vops.filterMap V4Op.payload?, b.payload = some v := by
  intro vops
  induction vops with
  | nil => intro a b h; left; injection h with h; rw [h]
  | cons op ops ih =>
    intro a b h
    have h : (op.abs a >>= fun a => runOps V4Op.abs ops a) = .ok b := h
    cases ha : op.abs a with
    | err e => rw [ha] at h; cases h
    | panic => rw [ha] at h; cases h
    | ok a' =>
      rw [ha, Outcome.ok_bind] at h
      rcases ih a' b h with hb | ⟨v, hv, hb⟩
      · cases op with
        | payload v =>
          right
          simp only [V4Op.abs] at ha
          split at ha
          · cases ha
          · injection ha with ha
            refine ⟨v, List.mem_filterMap.2 ⟨.payload v, by simp, rfl⟩, ?_⟩
            rw [hb, ← ha]; rfl
        | dscp v | ecn v =>
          left
          simp only [V4Op.abs] at ha
          split at ha
          · cases ha
          · injection ha with ha
            rw [hb, ← ha]; rfl
        | _ =>
          left
          simp only [V4Op.abs] at ha
          injection ha with ha
          rw [hb, ← ha]; rfl
      · right
        refine ⟨v, ?_, hb⟩
        rw [List.mem_filterMap] at *
        obtain ⟨o, ho, e⟩ := hv
        exact ⟨o, by simp [ho], e⟩

theorem bind_ok_inv {α β : Type} {o : Outcome α} {f : α → Outcome β} {b : β} (h : (o >>= f) = .ok b) :
    ∃ a, o = .ok a ∧ f a = .ok b := by
  cases o with
  | ok a => exact ⟨a, rfl, h⟩
  | err e => cases h
  | panic => cases h

theorem seal_first {cfg : Cfg} {f : Ipv4Fields} {d out : Bytes} (h : sealV4 cfg f d = .ok out) :
    ∃ rest, out = 0x45#8 :: rest := by
  unfold sealV4 at h
  obtain ⟨ck, -, h⟩ := bind_ok_inv h
  injection h with h
  exact ⟨_, h.symm⟩

theorem inner_first {cfg : Cfg} {a : V4State} {inner : Inner} {out : Bytes} (hi : inner ≠ .plain)
    (h : inner.abs cfg cfg.isizeMax 0 a = .ok out) : ∃ rest, out = 0x45#8 :: rest := by
  cases inner with
  | plain => exact (hi rfl).elim
  | udp ops | tcp ops =>
    simp only [Inner.abs] at h
    split at h
    · cases h
    · obtain ⟨-, -, h⟩ := bind_ok_inv h
      obtain ⟨u, -, h⟩ := bind_ok_inv h
      obtain ⟨d, -, h⟩ := bind_ok_inv h
      exact seal_first h
  | icmp inner =>
    simp only [Inner.abs] at h
    split at h
    · cases h
    · obtain ⟨d, -, h⟩ := bind_ok_inv h
      exact seal_first h

theorem raw_first {cfg : Cfg} {a : V4State} {out : Bytes} (h : a.raw cfg = .ok out) :
    ∃ rest, out = ((4#8 <<< 4) ||| BitVec.ofNat 8 ((20 + (a.payload.getD []).length) / 4)) :: rest := by
  unfold V4State.raw at h
  obtain ⟨ck, -, h⟩ := bind_ok_inv h
  injection h with h
  refine ⟨_, h.symm⟩

theorem ether_seal_v4 (e : EtherState) {out : Bytes} (x : U8) (rest : Bytes) (ho : out = x :: rest)
    (hx : x >>> 4 = 4#8) : e.seal out = .ok (ethernetFrame e.dst.octets e.src.octets 0x0800#16 out) := by
  rw [ho]
  unfold EtherState.seal
  simp only []
  rw [if_pos hx]

/-- What an Ethernet program around IPv4 amounts to. -/
theorem ethernet_program (cfg : Cfg) (eops : List EtherOp) (vops : List V4Op) (inner : Inner)
    (he : eops.filterMap EtherOp.payload? = []) (hv : ∀ op ∈ vops, op.Sane cfg) (hi : inner.Sane cfg) :
    ∃ e : EtherState, e.dst = last EtherOp.destination? .zero eops ∧ e.src = last EtherOp.source? .zero eops ∧
      ethernetProgram cfg Dynamic.new eops vops inner =
        (ipv4Program cfg Dynamic.new vops inner >>= fun out => e.seal out) := by
  have hes : ∀ op ∈ eops, op.Sane cfg := by
    intro op hop v hv
    have : v ∈ eops.filterMap EtherOp.payload? := List.mem_filterMap.2 ⟨_, hop, hv⟩
    rw [he] at this
    cases this
  refine ⟨⟨last EtherOp.destination? .zero eops, last EtherOp.source? .zero eops,
    (last EtherOp.protocol? (.unknown 0) eops).toWire, none⟩, rfl, rfl, ?_⟩
  rw [ethernetProgram_dynamic cfg eops vops inner hes hv hi, ipv4Program_dynamic cfg vops inner hv hi]
  unfold ethernetAbs
  rw [need_dynamic (by omega), Outcome.ok_bind, ether_run eops (by rw [he]; decide), Outcome.ok_bind,
    no_payload_last _ _ he, ipv4_abs_at cfg vops inner (by omega)]
  rfl

/-- C49: for every history at each level, with an inner protocol or with raw IPv4 payloads of less than 44
bytes, the Ethernet build succeeds exactly when the same IPv4 build alone does, and then the frame has the
requested addresses, protocol IPv4 whatever protocol was set, and exactly that packet as payload.  If the
IPv4 build alone fails, so does the Ethernet build, in the same way. -/
theorem C49_stack_compose (cfg : Cfg) (eops : List EtherOp) (vops : List V4Op) (inner : Inner)
    (he : eops.filterMap EtherOp.payload? = []) (hv : ∀ op ∈ vops, op.Sane cfg) (hi : inner.Sane cfg)
    (hp : inner = .plain → ∀ v ∈ vops.filterMap V4Op.payload?, v.length < 44) :
    match ipv4Program cfg Dynamic.new vops inner with
    | .ok out => ∃ frame, ethernetProgram cfg Dynamic.new eops vops inner = .ok frame ∧
        ReadsEther eops .ipv4 out frame
    | .err e => ethernetProgram cfg Dynamic.new eops vops inner = .err e
    | .panic => ethernetProgram cfg Dynamic.new eops vops inner = .panic := by
  obtain ⟨e, hd, hs, h⟩ := ethernet_program cfg eops vops inner he hv hi
  rw [h]
  cases hout : ipv4Program cfg Dynamic.new vops inner with
  | err e => rfl
  | panic => rfl
  | ok out =>
    rw [ipv4Program_dynamic cfg vops inner hv hi] at hout
    unfold ipv4Abs at hout
    rw [need_dynamic (by omega), Outcome.ok_bind] at hout
    obtain ⟨a, hrun, hout⟩ := bind_ok_inv hout
    have hfirst : ∃ x rest, out = x :: rest ∧ x >>> 4 = 4#8 := by
      by_cases hpl : inner = .plain
      · subst hpl
        obtain ⟨rest, ho⟩ := raw_first hout
        refine ⟨_, rest, ho, ?_⟩
        have hl : (a.payload.getD []).length < 44 := by
          rcases v4_payload_mem vops _ _ hrun with h | ⟨v, hv, h⟩
          · rw [h]; decide
          · rw [h]; exact hp rfl v hv
        have : ∀ k, k < 16 → (((4#8 <<< 4) ||| BitVec.ofNat 8 k) >>> 4 : U8) = 4#8 := by decide
        exact this _ (by omega)
      · obtain ⟨rest, ho⟩ := inner_first hpl hout
        exact ⟨_, rest, ho, by decide⟩
    obtain ⟨x, rest, ho, hx⟩ := hfirst
    refine ⟨_, ether_seal_v4 e x rest ho hx, ?_⟩
    rw [hd, hs]
    exact readsEther eops .ipv4 rfl out

seal ipv4Program ethernetProgram in
/-- A concrete case that meets the hypotheses. -/
example (cfg : Cfg) := C49_stack_compose cfg Sample.eops Sample.vops (.udp Sample.uops) (by call_by_call)
    (by call_by_call) (by call_by_call) (by call_by_call)

/-- C44 is false of the code for longer raw payloads: with 44 to 107 bytes the Ethernet build panics,
although the IPv4 build alone succeeds. -/
theorem C44_in_ethernet_panic_refuted (cfg : Cfg) (eops : List EtherOp) (vops : List V4Op) (payload : Bytes)
    (he : eops.filterMap EtherOp.payload? = []) (hr : ∀ op ∈ vops, op.InRange)
    (h0 : vops.filterMap V4Op.payload? = [payload]) (h44 : 44 ≤ payload.length) (h107 : payload.length ≤ 107) :
    (∃ out, ipv4Program cfg Dynamic.new vops .plain = .ok out) ∧
    ethernetProgram cfg Dynamic.new eops vops .plain = .panic := by
  have hs := v4_sane_of_single (cfg := cfg) h0 (by (have := cfg.width; omega))
  obtain ⟨f, ha, e⟩ := ipv4_plain cfg vops hr (by rw [h0]; exact Nat.le_refl _) hs
  have hl : (vops.filterMap V4Op.payload?).getLast? = some payload := by rw [h0]; rfl
  obtain ⟨ck, hraw⟩ := raw_shape cfg ha.ok payload
  rw [hl, hraw] at e
  refine ⟨⟨_, e⟩, ?_⟩
  obtain ⟨es, -, -, h⟩ := ethernet_program cfg eops vops .plain he hs (fun v hv => by cases hv)
  rw [h, e, Outcome.ok_bind]
  have hx : ∀ k, k < 32 → 16 ≤ k → (((4#8 <<< 4) ||| BitVec.ofNat 8 k) >>> 4 : U8) ≠ 4#8 ∧
      (((4#8 <<< 4) ||| BitVec.ofNat 8 k) >>> 4 : U8) ≠ 6#8 := by decide
  have hx := hx ((20 + payload.length) / 4) (by omega) (by omega)
  unfold EtherState.seal
  simp only [List.cons_append]
  rw [if_neg hx.1, if_neg hx.2]

/-- A concrete case that meets the hypotheses. -/
example (cfg : Cfg) := C44_in_ethernet_panic_refuted cfg Sample.eops [.ttl 64, .payload (zeros 50)] (zeros 50)
    (by call_by_call) (by call_by_call) rfl (by decide) (by decide)

/-- With 108 to 171 bytes the frame is labelled as IPv6. -/
theorem C44_in_ethernet_v6_refuted (cfg : Cfg) (eops : List EtherOp) (vops : List V4Op) (payload : Bytes)
    (he : eops.filterMap EtherOp.payload? = []) (hr : ∀ op ∈ vops, op.InRange)
    (h0 : vops.filterMap V4Op.payload? = [payload]) (h108 : 108 ≤ payload.length)
    (h171 : payload.length ≤ 171) :
    ∃ out frame, ipv4Program cfg Dynamic.new vops .plain = .ok out ∧
      ethernetProgram cfg Dynamic.new eops vops .plain = .ok frame ∧ ReadsEther eops .ipv6 out frame := by
  have hs := v4_sane_of_single (cfg := cfg) h0 (by (have := cfg.width; omega))
  obtain ⟨f, ha, e⟩ := ipv4_plain cfg vops hr (by rw [h0]; exact Nat.le_refl _) hs
  have hl : (vops.filterMap V4Op.payload?).getLast? = some payload := by rw [h0]; rfl
  obtain ⟨ck, hraw⟩ := raw_shape cfg ha.ok payload
  rw [hl, hraw] at e
  obtain ⟨es, hd, hs, h⟩ := ethernet_program cfg eops vops .plain he hs (fun v hv => by cases hv)
  refine ⟨_, _, e, ?_, readsEther eops .ipv6 rfl _⟩
  rw [h, e, Outcome.ok_bind]
  have hx : ∀ k, k < 48 → 32 ≤ k → (((4#8 <<< 4) ||| BitVec.ofNat 8 k) >>> 4 : U8) = 6#8 := by decide
  have hx := hx ((20 + payload.length) / 4) (by omega) (by omega)
  unfold EtherState.seal
  simp only [List.cons_append]
  rw [if_neg (by rw [hx]; decide), if_pos hx, hd, hs]
  rfl

example : ([.protocol .arp, .source ⟨1, 2, 3, 4, 5, 6⟩] : List EtherOp).filterMap EtherOp.payload? = [] ∧
    ([.ttl 3, .payload (List.replicate 50 7#8)] : List V4Op).filterMap V4Op.payload? =
      [List.replicate 50 7#8] := by decide

end Verif.Props
