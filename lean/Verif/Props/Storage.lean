import Verif.Model.Storage
import Verif.Lemmas.AnyBufferProg
import Verif.Props.StaticPayload
import Verif.Samples

/-! # What a build leaves in the caller's storage (C118) -/

namespace Verif.Props
open Verif Verif.Spec Verif.AnyBuffer

/-! ## One call -/

/-- The buffer works in `storage`, has used `n` bytes, the last `L` of them for the layer on top, and has not
written behind them. -/
structure Kept (cfg : Cfg) (storage : Bytes) (n L : Nat) (b : Slice) : Prop where
  len : b.inner.length = storage.length
  used : b.used = n
  length : b.length = L
  offset : b.offset + L = n
  fits : n ≤ storage.length
  bound : storage.length ≤ cfg.isizeMax
  rest : b.inner.drop n = storage.drop n

theorem Kept.new {cfg : Cfg} {storage : Bytes} (h : storage.length ≤ cfg.isizeMax) : Kept cfg storage 0 0 (Slice.new storage) :=
  ⟨rfl, rfl, rfl, rfl, Nat.zero_le _, h, rfl⟩

theorem Kept.data (cfg : Cfg) {storage : Bytes} {n L : Nat} {b : Slice} (h : Kept cfg storage n L b) :
    ∃ d, Slice.data cfg b = .ok d ∧ d.length = L := by
  have h1 := h.offset
  have h2 := h.fits
  have h3 := h.bound
  have h4 := h.len
  have hm := cfg.width
  refine ⟨(b.inner.drop b.offset).take L, ?_, ?_⟩
  · unfold Slice.data
    rw [h.length, addUsize_ok (by omega)]
    show Verif.slice b.inner b.offset (b.offset + L) = _
    rw [slice_ok (by omega) (by omega), List.drop_take, Nat.add_sub_cancel_left]
  · rw [List.length_take, List.length_drop]; omega

theorem Kept.modify (cfg : Cfg) {storage : Bytes} {n L : Nat} {b : Slice} (h : Kept cfg storage n L b) {f : Mut Bytes Unit}
    (hf : KeepsLen f) {b' : Slice} (e : onBuffer (Buffer.modifyData cfg f) b = .ok b') : Kept cfg storage n L b' := by
  obtain ⟨d, hd, hl⟩ := h.data cfg
  have e2 : Slice.modifyData cfg f b = ((f d).1, { b with inner := put b.inner b.offset (f d).2 }) := by
    unfold Slice.modifyData
    rw [hd]
  have hb : b' = { b with inner := put b.inner b.offset (f d).2 } := by
    unfold onBuffer at e
    rw [show (Buffer.modifyData cfg f : Mut Slice Unit) b = _ from e2] at e
    rcases hx : (f d).1 with u | x | _
    · rw [hx] at e; exact (Outcome.ok.inj e).symm
    · rw [hx] at e; cases e
    · rw [hx] at e; cases e
  have hk := hf d
  have h1 := h.offset
  have h2 := h.fits
  have h4 := h.len
  have hp : (put b.inner b.offset (f d).2).length = b.inner.length := length_put (by omega)
  subst hb
  refine ⟨hp.trans h.len, h.used, h.length, h.offset, h.fits, h.bound, ?_⟩
  rw [← h.rest]
  refine List.ext_getElem? fun j => ?_
  rw [List.getElem?_drop, List.getElem?_drop, getElem?_put (by omega), if_neg (by omega), if_neg (by omega)]

theorem Kept.next (cfg : Cfg) {storage : Bytes} {n L : Nat} {b : Slice} (h : Kept cfg storage n L b) {k : Nat}
    (hk : k ≤ 20) {b' : Slice} (e : onBuffer (Buffer.next cfg k) b = .ok b') : Kept cfg storage (n + k) k b' := by
  have h1 := h.offset
  have h2 := h.fits
  have h3 := h.bound
  have h4 := h.len
  have h5 := h.used
  have hm := cfg.width
  have e2 : (Buffer.next cfg k : Mut Slice Unit) b =
      if b.inner.length < b.used + k then (.err .smallBuffer, b)
      else Slice.modifyData cfg Slice.zeroAll { b with offset := b.used, length := k, used := b.used + k } := by
    show Slice.next cfg k b = _
    unfold Slice.next
    rw [addUsize_ok (by omega)]
  unfold onBuffer at e
  rw [e2] at e
  by_cases hc : b.inner.length < b.used + k
  · rw [if_pos hc] at e; cases e
  · rw [if_neg hc] at e
    have hK : Kept cfg storage (n + k) k { b with offset := b.used, length := k, used := b.used + k } := by
      refine ⟨h.len, by show b.used + k = _; rw [h5], rfl, by show b.used + k = _; rw [h5], by omega, h.bound, ?_⟩
      show b.inner.drop (n + k) = _
      rw [← List.drop_drop, h.rest, List.drop_drop]
    have hz : KeepsLen Slice.zeroAll := fun d => List.length_replicate ..
    exact hK.modify cfg hz e

/-! ## Calls on builders -/

/-- Whatever the call returns, it satisfies `Q`. -/
def Gives {S T : Type} (P : S → Prop) (k : S → Outcome T) (Q : T → Prop) : Prop :=
  ∀ s, P s → ∀ t, k s = .ok t → Q t

theorem Gives.comp {S T U : Type} {P : S → Prop} {Q : T → Prop} {R : U → Prop} {k : S → Outcome T} {l : T → Outcome U}
    (hk : Gives P k Q) (hl : Gives Q l R) : Gives P (fun s => k s >>= l) R := by
  intro s hs u hu
  obtain ⟨t, ht, hu⟩ := bind_ok_inv hu
  exact hl t (hk s hs t ht) u hu

theorem Gives.run {S Op : Type} {P : S → Prop} {run : Op → S → Outcome S} {ops : List Op}
    (h : ∀ op ∈ ops, Gives P (run op) P) : Gives P (runOps run ops) P := by
  induction ops with
  | nil => intro s hs t ht; cases ht; exact hs
  | cons op ops ih =>
    intro s hs t ht
    obtain ⟨s', h1, h2⟩ := bind_ok_inv ht
    exact ih (fun o ho => h o (List.mem_cons_of_mem _ ho)) s' (h op (List.mem_cons_self ..) s hs s' h1) t h2

/-- A builder whose buffer has kept to itself and whose finalizers keep the length. -/
def On (cfg : Cfg) (storage : Bytes) (n L : Nat) {S ρ : Type} (v : View S Slice ρ) (s : S) : Prop :=
  Kept cfg storage n L (v.buf s) ∧ ∀ f ∈ v.fin s, KeepsLen f

section
variable {storage : Bytes} {n L : Nat} (cfg : Cfg)

theorem gives_on {S ρ S' ρ' : Type} {v : View S Slice ρ} {w : View S' Slice ρ'} {n' L' : Nat} {k : Slice → Outcome Slice}
    (hk : Gives (Kept cfg storage n L) k (Kept cfg storage n' L')) {g : S → Slice → S'} (b : ∀ s x, w.buf (g s x) = x)
    (e : ∀ s x, w.fin (g s x) = v.fin s) :
    Gives (On cfg storage n L v) (fun s => k (v.buf s) >>= fun x => .ok (g s x)) (On cfg storage n' L' w) := by
  intro s hs t ht
  obtain ⟨x, hx, ht⟩ := bind_ok_inv ht
  cases ht
  exact ⟨by rw [b]; exact hk _ hs.1 x hx, by rw [e]; exact hs.2⟩

theorem gives_modify {f : Mut Bytes Unit} (hf : KeepsLen f) :
    Gives (Kept cfg storage n L) (onBuffer (Buffer.modifyData cfg f)) (Kept cfg storage n L) :=
  fun _ hs _ ht => hs.modify cfg hf ht

theorem gives_next {k : Nat} (hk : k ≤ 20) :
    Gives (Kept cfg storage n L) (onBuffer (Buffer.next cfg k)) (Kept cfg storage (n + k) k) :=
  fun _ hs _ ht => hs.next cfg hk ht

theorem gives_ether {f : Mut Bytes Unit} (hf : KeepsLen f) :
    Gives (On cfg storage n L (etherView Slice)) (EtherBuilder.setter cfg f) (On cfg storage n L (etherView Slice)) :=
  gives_on cfg (v := etherView Slice) (w := etherView Slice) (gives_modify cfg hf) (g := fun s b => { s with buffer := b })
    (fun _ _ => rfl) (fun _ _ => rfl)
theorem gives_v4 {f : Mut Bytes Unit} (hf : KeepsLen f) :
    Gives (On cfg storage n L (v4View Slice)) (V4Builder.setter cfg f) (On cfg storage n L (v4View Slice)) :=
  gives_on cfg (v := v4View Slice) (w := v4View Slice) (gives_modify cfg hf) (g := fun s b => { s with buffer := b })
    (fun _ _ => rfl) (fun _ _ => rfl)
theorem gives_udp {f : Mut Bytes Unit} (hf : KeepsLen f) :
    Gives (On cfg storage n L (udpView Slice)) (UdpBuilder.setter cfg f) (On cfg storage n L (udpView Slice)) :=
  gives_on cfg (v := udpView Slice) (w := udpView Slice) (gives_modify cfg hf) (g := fun s b => { s with buffer := b })
    (fun _ _ => rfl) (fun _ _ => rfl)
theorem gives_tcp {f : Mut Bytes Unit} (hf : KeepsLen f) :
    Gives (On cfg storage n L (tcpView Slice)) (TcpBuilder.setter cfg f) (On cfg storage n L (tcpView Slice)) :=
  gives_on cfg (v := tcpView Slice) (w := tcpView Slice) (gives_modify cfg hf) (g := fun s b => { s with buffer := b })
    (fun _ _ => rfl) (fun _ _ => rfl)
theorem gives_echo {f : Mut Bytes Unit} (hf : KeepsLen f) (kind : Bool → Bool) :
    Gives (On cfg storage n L (echoView Slice)) (fun s => EchoBuilder.setter cfg f { s with kind := kind s.kind })
      (On cfg storage n L (echoView Slice)) :=
  gives_on cfg (v := echoView Slice) (w := echoView Slice) (gives_modify cfg hf)
    (g := fun s b => { s with kind := kind s.kind, buffer := b }) (fun _ _ => rfl) (fun _ _ => rfl)
theorem gives_timestamp {f : Mut Bytes Unit} (hf : KeepsLen f) (kind : Bool → Bool) :
    Gives (On cfg storage n L (timestampView Slice)) (fun s => TimestampBuilder.setter cfg f { s with kind := kind s.kind })
      (On cfg storage n L (timestampView Slice)) :=
  gives_on cfg (v := timestampView Slice) (w := timestampView Slice) (gives_modify cfg hf)
    (g := fun s b => { s with kind := kind s.kind, buffer := b }) (fun _ _ => rfl) (fun _ _ => rfl)
theorem gives_information {f : Mut Bytes Unit} (hf : KeepsLen f) (kind : Bool → Bool) :
    Gives (On cfg storage n L (informationView Slice)) (fun s => InformationBuilder.setter cfg f { s with kind := kind s.kind })
      (On cfg storage n L (informationView Slice)) :=
  gives_on cfg (v := informationView Slice) (w := informationView Slice) (gives_modify cfg hf)
    (g := fun s b => { s with kind := kind s.kind, buffer := b }) (fun _ _ => rfl) (fun _ _ => rfl)

theorem gives_ether_op (op : EtherOp) (h : op.payload? = none) :
    Gives (On cfg storage n L (etherView Slice)) (op.run cfg) (On cfg storage n L (etherView Slice)) := by
  cases op with
  | destination v => exact gives_ether cfg (KeepsLen.copyRange _ _ _)
  | source v => exact gives_ether cfg (KeepsLen.copyRange _ _ _)
  | protocol v => exact gives_ether cfg (KeepsLen.writeU16 _ _)
  | payload v => cases h

theorem gives_v4_op (op : V4Op) (h : op.payload? = none) :
    Gives (On cfg storage n L (v4View Slice)) (op.run cfg) (On cfg storage n L (v4View Slice)) := by
  cases op with
  | dscp v => exact gives_v4 cfg (KeepsLen.v4Dscp _)
  | ecn v => exact gives_v4 cfg (KeepsLen.v4Ecn _)
  | id v => exact gives_v4 cfg (KeepsLen.writeU16 _ _)
  | flags v => exact gives_v4 cfg (KeepsLen.v4 (KeepsLen.writeU16 _ _))
  | offset v => exact gives_v4 cfg (KeepsLen.v4 (KeepsLen.writeU16 _ _))
  | ttl v => exact gives_v4 cfg (KeepsLen.v4 (KeepsLen.setIdx _ _))
  | source v => exact gives_v4 cfg (KeepsLen.v4 (KeepsLen.copyRange _ _ _))
  | destination v => exact gives_v4 cfg (KeepsLen.v4 (KeepsLen.copyRange _ _ _))
  | protocol v => exact gives_v4 cfg (KeepsLen.v4 (KeepsLen.setIdx _ _))
  | payload v => cases h

theorem gives_udp_op (op : UdpOp) (h : op.payload? = none) :
    Gives (On cfg storage n L (udpView Slice)) (op.run cfg) (On cfg storage n L (udpView Slice)) := by
  cases op with
  | source v => exact gives_udp cfg (KeepsLen.udp (KeepsLen.writeU16 _ _))
  | destination v => exact gives_udp cfg (KeepsLen.udp (KeepsLen.writeU16 _ _))
  | payload v => cases h

theorem gives_tcp_op (op : TcpOp) (h : op.payload? = none) :
    Gives (On cfg storage n L (tcpView Slice)) (op.run cfg) (On cfg storage n L (tcpView Slice)) := by
  cases op with
  | source v => exact gives_tcp cfg (KeepsLen.tcp (KeepsLen.writeU16 _ _))
  | destination v => exact gives_tcp cfg (KeepsLen.tcp (KeepsLen.writeU16 _ _))
  | sequence v => exact gives_tcp cfg (KeepsLen.tcp (KeepsLen.writeU32 _ _))
  | acknowledgment v => exact gives_tcp cfg (KeepsLen.tcp (KeepsLen.writeU32 _ _))
  | flags v => exact gives_tcp cfg (KeepsLen.tcpFlags _)
  | window v => exact gives_tcp cfg (KeepsLen.tcp (KeepsLen.writeU16 _ _))
  | pointer v => exact gives_tcp cfg (KeepsLen.tcp (KeepsLen.writeU16 _ _))
  | payload v => cases h

theorem gives_echo_op (op : EchoOp) (h : op.payload? = none) :
    Gives (On cfg storage n L (echoView Slice)) (op.run cfg) (On cfg storage n L (echoView Slice)) := by
  cases op with
  | request => exact gives_echo cfg (KeepsLen.setIdx _ _) fun _ => true
  | reply => exact gives_echo cfg (KeepsLen.setIdx _ _) fun _ => true
  | identifier v => exact gives_echo cfg (KeepsLen.writeU16 _ _) id
  | sequence v => exact gives_echo cfg (KeepsLen.writeU16 _ _) id
  | payload v => cases h

theorem gives_timestamp_op (op : TimestampOp) :
    Gives (On cfg storage n L (timestampView Slice)) (op.run cfg) (On cfg storage n L (timestampView Slice)) := by
  cases op with
  | request => exact gives_timestamp cfg (KeepsLen.setIdx _ _) fun _ => true
  | reply => exact gives_timestamp cfg (KeepsLen.setIdx _ _) fun _ => true
  | identifier v => exact gives_timestamp cfg (KeepsLen.writeU16 _ _) id
  | sequence v => exact gives_timestamp cfg (KeepsLen.writeU16 _ _) id
  | originate v => exact gives_timestamp cfg (KeepsLen.writeU32 _ _) id
  | receive v => exact gives_timestamp cfg (KeepsLen.writeU32 _ _) id
  | transmit v => exact gives_timestamp cfg (KeepsLen.writeU32 _ _) id

theorem gives_information_op (op : InformationOp) :
    Gives (On cfg storage n L (informationView Slice)) (op.run cfg) (On cfg storage n L (informationView Slice)) := by
  cases op with
  | request => exact gives_information cfg (KeepsLen.setIdx _ _) fun _ => true
  | reply => exact gives_information cfg (KeepsLen.setIdx _ _) fun _ => true
  | identifier v => exact gives_information cfg (KeepsLen.writeU16 _ _) id
  | sequence v => exact gives_information cfg (KeepsLen.writeU16 _ _) id

/-! ## Starting a layer -/

theorem gives_start {S ρ : Type} {w : View S Slice ρ} {k : Nat} (hk : k ≤ 20) {g : Slice → S}
    (b : ∀ x, w.buf (g x) = x) (e : ∀ x, w.fin (g x) = []) :
    Gives (Kept cfg storage n L) (fun x => onBuffer (Buffer.next cfg k) x >>= fun y => .ok (g y)) (On cfg storage (n + k) k w) := by
  intro s hs t ht
  obtain ⟨x, hx, ht⟩ := bind_ok_inv ht
  cases ht
  exact ⟨by rw [b]; exact hs.next cfg hk hx, by rw [e]; intro f hf; cases hf⟩

theorem gives_start_set {S ρ : Type} {w : View S Slice ρ} {k : Nat} (hk : k ≤ 20) {f : Mut Bytes Unit} (hf : KeepsLen f)
    {g : Slice → Slice → S} (b : ∀ y x, w.buf (g y x) = x) (e : ∀ y x, w.fin (g y x) = []) :
    Gives (Kept cfg storage n L) (fun y => onBuffer (Buffer.next cfg k) y >>= fun x =>
      onBuffer (Buffer.modifyData cfg f) x >>= fun x => .ok (g y x)) (On cfg storage (n + k) k w) := by
  intro s hs t ht
  obtain ⟨x, hx, ht⟩ := bind_ok_inv ht
  obtain ⟨y, hy, ht⟩ := bind_ok_inv ht
  cases ht
  exact ⟨by rw [b]; exact (hs.next cfg hk hx).modify cfg hf hy, by rw [e]; intro f hf; cases hf⟩

theorem gives_ether_with : Gives (Kept cfg storage n L) (EtherBuilder.«with» cfg) (On cfg storage (n + 14) 14 (etherView Slice)) :=
  gives_start cfg (w := etherView Slice) (by decide) (g := fun b => ⟨b, [], false⟩) (fun _ => rfl) (fun _ => rfl)

theorem gives_v4_with : Gives (Kept cfg storage n L) (V4Builder.«with» cfg) (On cfg storage (n + 20) 20 (v4View Slice)) :=
  gives_start_set cfg (w := v4View Slice) (by decide) (KeepsLen.setIdx _ _) (g := fun _ b => ⟨b, [], false⟩)
    (fun _ _ => rfl) (fun _ _ => rfl)

theorem gives_udp_with : Gives (Kept cfg storage n L) (UdpBuilder.«with» cfg) (On cfg storage (n + 8) 8 (udpView Slice)) := by
  intro s hs t ht
  obtain ⟨x, hx, ht⟩ := bind_ok_inv ht
  cases ht
  exact ⟨hs.next cfg (by decide) hx, fun f hf => by cases hf⟩

theorem gives_tcp_with : Gives (Kept cfg storage n L) (TcpBuilder.«with» cfg) (On cfg storage (n + 20) 20 (tcpView Slice)) :=
  gives_start_set cfg (w := tcpView Slice) (by decide) (KeepsLen.setIdx _ _)
    (g := fun y b => ⟨b, [], (Buffer.offset y, Buffer.length y), false, 0⟩) (fun _ _ => rfl) (fun _ _ => rfl)

theorem on_extend {a b : Finalization} (ha : ∀ f ∈ a, KeepsLen f) (hb : ∀ f ∈ b, KeepsLen f) :
    ∀ f ∈ Finalization.extend a b, KeepsLen f := by
  intro f hf
  rcases List.mem_append.1 hf with hf | hf
  · exact ha f hf
  · exact hb f hf

theorem gives_enter (p : IpProtocol) :
    Gives (On cfg storage n L (v4View Slice)) (V4Builder.enter cfg p) (On cfg storage n L (v4View Slice)) := by
  intro s hs t ht
  unfold V4Builder.enter at ht
  cases hp : s.payload
  · rw [if_neg (by rw [hp]; decide)] at ht
    obtain ⟨x, hx, ht⟩ := bind_ok_inv ht
    cases ht
    have := gives_v4 cfg (KeepsLen.v4 (KeepsLen.setIdx _ _)) s hs x hx
    exact ⟨this.1, all_add this.2 (KeepsLen.v4Finalizer _ _ _)⟩
  · rw [if_pos hp] at ht; cases ht

theorem gives_v4_udp :
    Gives (On cfg storage n L (v4View Slice)) (V4Builder.udp cfg) (On cfg storage (n + 8) 8 (udpView Slice)) := by
  intro s hs t ht
  obtain ⟨x, hx, ht⟩ := bind_ok_inv ht
  obtain ⟨y, hy, ht⟩ := bind_ok_inv ht
  cases ht
  have h1 := gives_enter cfg .udp s hs x hx
  have h2 := gives_udp_with cfg x.buffer h1.1 y hy
  exact ⟨h2.1, on_extend h2.2 h1.2⟩

theorem gives_v4_tcp :
    Gives (On cfg storage n L (v4View Slice)) (V4Builder.tcp cfg) (On cfg storage (n + 20) 20 (tcpView Slice)) := by
  intro s hs t ht
  obtain ⟨x, hx, ht⟩ := bind_ok_inv ht
  obtain ⟨y, hy, ht⟩ := bind_ok_inv ht
  cases ht
  have h1 := gives_enter cfg .tcp s hs x hx
  have h2 := gives_tcp_with cfg x.buffer h1.1 y hy
  exact ⟨h2.1, on_extend h2.2 h1.2⟩

theorem gives_v4_icmp :
    Gives (On cfg storage n L (v4View Slice)) (V4Builder.icmp cfg) (On cfg storage n L (icmpView Slice)) := by
  intro s hs t ht
  obtain ⟨x, hx, ht⟩ := bind_ok_inv ht
  obtain ⟨y, hy, ht⟩ := bind_ok_inv ht
  cases ht
  cases hy
  have h1 := gives_enter cfg .icmp s hs x hx
  exact ⟨h1.1, on_extend (a := []) (fun f hf => by cases hf) h1.2⟩

theorem gives_ether_ip :
    Gives (On cfg storage n L (etherView Slice)) EtherBuilder.ip (On cfg storage n L (ipView Slice)) := by
  intro s hs t ht
  unfold EtherBuilder.ip at ht
  cases hp : s.payload
  · rw [if_neg (by rw [hp]; decide)] at ht
    cases ht
    exact ⟨hs.1, on_extend (a := []) (fun f hf => by cases hf) (all_add hs.2 (KeepsLen.ipFinalizer _ _))⟩
  · rw [if_pos hp] at ht; cases ht

theorem gives_ip_v4 :
    Gives (On cfg storage n L (ipView Slice)) (IpBuilder.v4 cfg) (On cfg storage (n + 20) 20 (v4View Slice)) := by
  intro s hs t ht
  obtain ⟨y, hy, ht⟩ := bind_ok_inv ht
  cases ht
  have h2 := gives_v4_with cfg s.buffer hs.1 y hy
  exact ⟨h2.1, on_extend h2.2 hs.2⟩

theorem gives_icmp_echo :
    Gives (On cfg storage n L (icmpView Slice)) (IcmpBuilder.echo cfg) (On cfg storage (n + 8) 8 (echoView Slice)) := by
  intro s hs t ht
  obtain ⟨y, hy, ht⟩ := bind_ok_inv ht
  obtain ⟨x, hx, hy⟩ := bind_ok_inv hy
  cases ht
  cases hy
  exact ⟨hs.1.next cfg (by decide) hx, on_extend (a := []) (fun f hf => by cases hf) hs.2⟩

theorem gives_icmp_timestamp :
    Gives (On cfg storage n L (icmpView Slice)) (IcmpBuilder.timestamp cfg) (On cfg storage (n + 20) 20 (timestampView Slice)) := by
  intro s hs t ht
  obtain ⟨y, hy, ht⟩ := bind_ok_inv ht
  obtain ⟨x, hx, hy⟩ := bind_ok_inv hy
  cases ht
  cases hy
  exact ⟨hs.1.next cfg (by decide) hx, on_extend (a := []) (fun f hf => by cases hf) hs.2⟩

theorem gives_icmp_information :
    Gives (On cfg storage n L (icmpView Slice)) (IcmpBuilder.information cfg) (On cfg storage (n + 8) 8 (informationView Slice)) := by
  intro s hs t ht
  obtain ⟨y, hy, ht⟩ := bind_ok_inv ht
  obtain ⟨x, hx, hy⟩ := bind_ok_inv hy
  cases ht
  cases hy
  exact ⟨hs.1.next cfg (by decide) hx, on_extend (a := []) (fun f hf => by cases hf) hs.2⟩

/-! ## Building -/

/-- `build()` hands out as many bytes as are used. -/
theorem tail_length {b : Slice} {fs : Finalization} {used : Nat} (hu : b.used = used) (hl : used ≤ b.inner.length)
    (hf : ∀ f ∈ fs, KeepsLen f) {out : Bytes} (h : buildTail b fs = .ok out) : out.length = used := by
  unfold buildTail at h
  have hi : Buffer.intoInner b = .ok (b.inner.take used) := by
    show Slice.intoInner b = _
    unfold Slice.intoInner
    rw [hu, slice_ok (by omega) hl, List.drop_zero]
  rw [hi] at h
  simp only [Outcome.ok_bind] at h
  have hk := KeepsLen.finalize hf (b.inner.take used)
  rcases e : Finalization.finalize fs (b.inner.take used) with ⟨_ | x | _, o⟩
  · rw [e] at h hk
    cases h
    rw [hk, List.length_take]
    omega
  · rw [e] at h; cases h
  · rw [e] at h; cases h

theorem Kept.after {b : Slice} (h : Kept cfg storage n L b) {fs : Finalization} (hf : ∀ f ∈ fs, KeepsLen f) {out : Bytes}
    (e : buildTail b fs = .ok out) : out.length = n ∧ storageAfter (out, b) = out ++ storage.drop n := by
  have := tail_length h.used (by rw [h.len]; exact h.fits) hf e
  refine ⟨this, ?_⟩
  show out ++ b.inner.drop b.used = _
  rw [h.used, h.rest]

end

/-- The packet has `n` bytes and the rest of the storage is as it was. -/
def Clean (storage : Bytes) (n : Nat) (r : Bytes × Slice) : Prop :=
  r.1.length = n ∧ n ≤ storage.length ∧ storageAfter r = r.1 ++ storage.drop n

/-- How long the part of a packet without a payload behind the IPv4 header, or the ICMP message, is. -/
def IcmpInner.size : IcmpInner → Nat
  | .none => 0
  | .echo _ => 8
  | .timestamp _ => 20
  | .information _ => 8
def Inner.size : Inner → Nat
  | .plain => 0
  | .udp _ => 8
  | .tcp _ => 20
  | .icmp i => IcmpInner.size i

theorem free_of_nil {Op : Type} {p : Op → Option Bytes} {ops : List Op} (h : ops.filterMap p = []) :
    ∀ op ∈ ops, p op = none := by
  intro op ho
  cases e : p op with
  | none => rfl
  | some v =>
    have : v ∈ ops.filterMap p := List.mem_filterMap.2 ⟨op, ho, e⟩
    rw [h] at this
    cases this

section
variable {storage : Bytes} {n L : Nat} (cfg : Cfg)

theorem gives_icmp_build (i : IcmpInner) (hi : (Inner.icmp i).payloads = []) :
    Gives (On cfg storage n L (icmpView Slice)) (fun s => i.buildAt cfg s) (Clean storage (n + IcmpInner.size i)) := by
  cases i with
  | none => intro s _ r hr; cases hr
  | echo ops =>
    intro s hs r hr
    obtain ⟨e, he, hr⟩ := bind_ok_inv hr
    obtain ⟨e', he', hr⟩ := bind_ok_inv hr
    obtain ⟨out, ho, hr⟩ := bind_ok_inv hr
    cases hr
    have h1 := gives_icmp_echo cfg s hs e he
    have h2 := Gives.run (fun op ho => gives_echo_op cfg op (free_of_nil (p := EchoOp.payload?) hi op ho)) e h1 e' he'
    unfold EchoBuilder.build at ho
    split at ho
    · cases ho
    · obtain ⟨a, b⟩ := h2.1.after cfg (all_add h2.2 (KeepsLen.icmpFinalizer _ _ _)) ho
      exact ⟨a, h2.1.fits, b⟩
  | timestamp ops =>
    intro s hs r hr
    obtain ⟨e, he, hr⟩ := bind_ok_inv hr
    obtain ⟨e', he', hr⟩ := bind_ok_inv hr
    obtain ⟨out, ho, hr⟩ := bind_ok_inv hr
    cases hr
    have h1 := gives_icmp_timestamp cfg s hs e he
    have h2 := Gives.run (fun op _ => gives_timestamp_op cfg op) e h1 e' he'
    unfold TimestampBuilder.build at ho
    split at ho
    · cases ho
    · obtain ⟨a, b⟩ := h2.1.after cfg (all_add h2.2 (KeepsLen.icmpFinalizer _ _ _)) ho
      exact ⟨a, h2.1.fits, b⟩
  | information ops =>
    intro s hs r hr
    obtain ⟨e, he, hr⟩ := bind_ok_inv hr
    obtain ⟨e', he', hr⟩ := bind_ok_inv hr
    obtain ⟨out, ho, hr⟩ := bind_ok_inv hr
    cases hr
    have h1 := gives_icmp_information cfg s hs e he
    have h2 := Gives.run (fun op _ => gives_information_op cfg op) e h1 e' he'
    unfold InformationBuilder.build at ho
    split at ho
    · cases ho
    · obtain ⟨a, b⟩ := h2.1.after cfg (all_add h2.2 (KeepsLen.icmpFinalizer _ _ _)) ho
      exact ⟨a, h2.1.fits, b⟩

theorem gives_inner_build (i : Inner) (hi : i.payloads = []) :
    Gives (On cfg storage n L (v4View Slice)) (fun s => i.buildAt cfg s) (Clean storage (n + Inner.size i)) := by
  cases i with
  | plain =>
    intro s hs r hr
    obtain ⟨out, ho, hr⟩ := bind_ok_inv hr
    cases hr
    obtain ⟨a, b⟩ := hs.1.after cfg (all_add hs.2 (KeepsLen.v4Finalizer _ _ _)) ho
    exact ⟨a, hs.1.fits, b⟩
  | udp ops =>
    intro s hs r hr
    obtain ⟨e, he, hr⟩ := bind_ok_inv hr
    obtain ⟨e', he', hr⟩ := bind_ok_inv hr
    obtain ⟨out, ho, hr⟩ := bind_ok_inv hr
    cases hr
    have h1 := gives_v4_udp cfg s hs e he
    have h2 := Gives.run (fun op ho => gives_udp_op cfg op (free_of_nil (p := UdpOp.payload?) hi op ho)) e h1 e' he'
    obtain ⟨a, b⟩ := h2.1.after cfg (all_add h2.2 (KeepsLen.udpFinalizer _ _ _)) ho
    exact ⟨a, h2.1.fits, b⟩
  | tcp ops =>
    intro s hs r hr
    obtain ⟨e, he, hr⟩ := bind_ok_inv hr
    obtain ⟨e', he', hr⟩ := bind_ok_inv hr
    obtain ⟨out, ho, hr⟩ := bind_ok_inv hr
    cases hr
    have h1 := gives_v4_tcp cfg s hs e he
    have h2 := Gives.run (fun op ho => gives_tcp_op cfg op (free_of_nil (p := TcpOp.payload?) hi op ho)) e h1 e' he'
    obtain ⟨a, b⟩ := h2.1.after cfg (all_add h2.2 (KeepsLen.tcpFinalizer _ _ _ _)) ho
    exact ⟨a, h2.1.fits, b⟩
  | icmp i => exact (gives_v4_icmp cfg).comp (gives_icmp_build cfg i hi)

end

/-! ## Payloads -/

theorem spread_get (p : Nat) (v m : Bytes) (h : v ≠ [] → p + 2 * v.length ≤ m.length + 1) (j : Nat) :
    (spread p v m)[j]? =
      if p ≤ j ∧ (j - p) % 2 = 0 ∧ (j - p) / 2 < v.length then v[(j - p) / 2]? else m[j]? := by
  unfold spread
  rw [List.getElem?_map]
  by_cases hj : j < m.length
  · rw [List.getElem?_range hj]
    simp only [Option.map_some]
    by_cases hc : p ≤ j ∧ (j - p) % 2 = 0 ∧ (j - p) / 2 < v.length
    · rw [if_pos hc, if_pos hc, List.getD_eq_getElem?_getD, List.getElem?_eq_getElem hc.2.2]
      rfl
    · rw [if_neg hc, if_neg hc, List.getD_eq_getElem?_getD, List.getElem?_eq_getElem hj]
      rfl
  · rw [List.getElem?_eq_none (by rw [List.length_range]; omega), List.getElem?_eq_none (l := m) (by omega)]
    split
    · rename_i hc
      have := h (by intro e; rw [e] at hc; simp at hc)
      omega
    · rfl

/-- What the loop of `payload` leaves in the storage, when it ends. -/
theorem Kept.append (cfg : Cfg) {storage : Bytes} {n L : Nat} {b : Slice} (h : Kept cfg storage n L b) {v : Bytes} (hv : v ≠ [])
    (hL : 1 ≤ L) {b' : Slice} (e : onBuffer (appendAll cfg v) b = .ok b') :
    n + L + 2 * (v.length - 1) < storage.length ∧ b'.inner.length = storage.length ∧ b'.used = n + v.length ∧
      b'.inner.drop (n + v.length) = (spread (n + L) v storage).drop (n + v.length) := by
  have h1 := h.len
  have h2 := h.used
  have h3 := h.length
  have h4 := h.fits
  have h5 := h.bound
  have h6 := h.offset
  have hn := List.length_pos_iff.2 hv
  by_cases c1 : storage.length ≤ n
  · rw [slice_append_small cfg b (by omega) v hv (by omega)] at e; cases e
  · by_cases c2 : storage.length ≤ n + L + 2 * (v.length - 1)
    · rw [slice_append_panic cfg v b (by omega) (by omega) (by omega) (by omega) (by omega) hv] at e; cases e
    · have hroom : b.used + b.length + 2 * v.length ≤ b.inner.length + 1 := by omega
      rw [onBuffer_ok (slice_append_ok cfg v b (by omega) hv hroom)] at e
      cases e
      refine ⟨by omega, ?_, by show b.used + v.length = _; rw [h2], ?_⟩
      · show (scatter _ _ _).length = _
        rw [scatter_length v b.inner (b.used + b.length) (fun _ => hroom), h1]
      · refine List.ext_getElem? fun j => ?_
        show ((scatter _ _ _).drop _)[j]? = _
        rw [List.getElem?_drop, List.getElem?_drop, scatter_get v b.inner _ (fun _ => hroom),
          spread_get _ v storage (fun _ => by omega), h2, h3]
        split
        · rfl
        · have := congrArg (fun l => l[v.length + j]?) h.rest
          simp only [List.getElem?_drop] at this
          rw [show n + v.length + j = n + (v.length + j) by omega]
          exact this

/-- The packet has `n + v.length` bytes, and byte `i` of `v` has been written at place `n + L + 2 * i` of the
storage, which is as it was everywhere else behind the packet. -/
def Spilt (storage : Bytes) (n L : Nat) (v : Bytes) (r : Bytes × Slice) : Prop :=
  r.1.length = n + v.length ∧ n + L + 2 * (v.length - 1) < storage.length ∧
    storageAfter r = r.1 ++ (spread (n + L) v storage).drop (n + v.length)

theorem Kept.spilt (cfg : Cfg) {storage : Bytes} {n L : Nat} {b : Slice} (h : Kept cfg storage n L b) {v : Bytes} (hv : v ≠ [])
    (hL : 1 ≤ L) {b' : Slice} (e : onBuffer (appendAll cfg v) b = .ok b') {fs : Finalization}
    (hf : ∀ f ∈ fs, KeepsLen f) {out : Bytes} (eo : buildTail b' fs = .ok out) : Spilt storage n L v (out, b') := by
  obtain ⟨h1, h2, h3, h4⟩ := h.append cfg hv hL e
  have hn := List.length_pos_iff.2 hv
  have := tail_length h3 (by omega) hf eo
  refine ⟨this, h1, ?_⟩
  show out ++ b'.inner.drop b'.used = _
  rw [h3, h4]

theorem run_append_inv {σ Op : Type} {run : Op → σ → Outcome σ} {ops : List Op} {op : Op} {s t : σ}
    (h : runOps run (ops ++ [op]) s = .ok t) : ∃ u, runOps run ops s = .ok u ∧ run op u = .ok t := by
  induction ops generalizing s with
  | nil =>
    obtain ⟨u, hu, ht⟩ := bind_ok_inv h
    cases ht
    exact ⟨s, rfl, hu⟩
  | cons o ops ih =>
    obtain ⟨u, hu, ht⟩ := bind_ok_inv h
    obtain ⟨w, h1, h2⟩ := ih ht
    refine ⟨w, ?_, h2⟩
    show (run o s >>= fun s => runOps run ops s) = _
    rw [hu]
    exact h1

theorem ether_spilt (cfg : Cfg) {storage : Bytes} {n L : Nat} (hL : 1 ≤ L) {v : Bytes} (hv : v ≠ [])
    {s : EtherBuilder Slice} (hs : On cfg storage n L (etherView Slice) s) {t : EtherBuilder Slice}
    (e : EtherBuilder.setPayload cfg v s = .ok t) {out : Bytes} (eo : EtherBuilder.build t = .ok out) :
    Spilt storage n L v (out, t.buffer) := by
  unfold EtherBuilder.setPayload at e
  split at e
  · cases e
  · obtain ⟨b, hb, e⟩ := bind_ok_inv e
    cases e
    exact hs.1.spilt cfg hv hL hb hs.2 eo

theorem udp_spilt (cfg : Cfg) {storage : Bytes} {n L : Nat} (hL : 1 ≤ L) {v : Bytes} (hv : v ≠ [])
    {s : UdpBuilder Slice} (hs : On cfg storage n L (udpView Slice) s) {t : UdpBuilder Slice}
    (e : UdpBuilder.setPayload cfg v s = .ok t) {out : Bytes} (eo : UdpBuilder.build cfg t = .ok out) :
    Spilt storage n L v (out, t.buffer) := by
  unfold UdpBuilder.setPayload at e
  split at e
  · cases e
  · obtain ⟨b, hb, e⟩ := bind_ok_inv e
    cases e
    exact hs.1.spilt cfg hv hL hb (all_add hs.2 (KeepsLen.udpFinalizer _ _ _)) eo

theorem tcp_spilt (cfg : Cfg) {storage : Bytes} {n L : Nat} (hL : 1 ≤ L) {v : Bytes} (hv : v ≠ [])
    {s : TcpBuilder Slice} (hs : On cfg storage n L (tcpView Slice) s) {t : TcpBuilder Slice}
    (e : TcpBuilder.setPayload cfg v s = .ok t) {out : Bytes} (eo : TcpBuilder.build cfg t = .ok out) :
    Spilt storage n L v (out, t.buffer) := by
  unfold TcpBuilder.setPayload at e
  split at e
  · cases e
  · obtain ⟨b, hb, e⟩ := bind_ok_inv e
    cases e
    exact hs.1.spilt cfg hv hL hb (all_add hs.2 (KeepsLen.tcpFinalizer _ _ _ _)) eo

theorem udp_in_v4_spilt (cfg : Cfg) {storage : Bytes} {n L : Nat} {ops : List UdpOp} {v : Bytes} (hv : v ≠ [])
    (ho : ops.filterMap UdpOp.payload? = []) : Gives (On cfg storage n L (v4View Slice))
      (fun s => (Inner.udp (ops ++ [.payload v])).buildAt cfg s) (Spilt storage (n + 8) 8 v) := by
  intro s hs r hr
  obtain ⟨u, hu, hr⟩ := bind_ok_inv hr
  obtain ⟨u', hu', hr⟩ := bind_ok_inv hr
  obtain ⟨out, hout, hr⟩ := bind_ok_inv hr
  cases hr
  obtain ⟨w, hw, hp⟩ := run_append_inv hu'
  have h1 := gives_v4_udp cfg s hs u hu
  have h2 := Gives.run (fun op h => gives_udp_op cfg op (free_of_nil ho op h)) u h1 w hw
  exact udp_spilt cfg (by decide) hv h2 hp hout

theorem tcp_in_v4_spilt (cfg : Cfg) {storage : Bytes} {n L : Nat} {ops : List TcpOp} {v : Bytes} (hv : v ≠ [])
    (ho : ops.filterMap TcpOp.payload? = []) : Gives (On cfg storage n L (v4View Slice))
      (fun s => (Inner.tcp (ops ++ [.payload v])).buildAt cfg s) (Spilt storage (n + 20) 20 v) := by
  intro s hs r hr
  obtain ⟨u, hu, hr⟩ := bind_ok_inv hr
  obtain ⟨u', hu', hr⟩ := bind_ok_inv hr
  obtain ⟨out, hout, hr⟩ := bind_ok_inv hr
  cases hr
  obtain ⟨w, hw, hp⟩ := run_append_inv hu'
  have h1 := gives_v4_tcp cfg s hs u hu
  have h2 := Gives.run (fun op h => gives_tcp_op cfg op (free_of_nil ho op h)) u h1 w hw
  exact tcp_spilt cfg (by decide) hv h2 hp hout

/-- The storage, read back behind the packet. -/
theorem Spilt.last {storage : Bytes} {n L : Nat} {v : Bytes} {r : Bytes × Slice} (h : Spilt storage n L v r) (hv : v ≠ [])
    (hL : 1 ≤ L) : r.1.length ≤ n + L + 2 * (v.length - 1) ∧
      (storageAfter r)[n + L + 2 * (v.length - 1)]? = v.getLast? := by
  obtain ⟨h1, h2, h3⟩ := h
  have hn := List.length_pos_iff.2 hv
  refine ⟨by omega, ?_⟩
  rw [h3, List.getElem?_append_right (by omega), List.getElem?_drop, h1,
    show n + v.length + (n + L + 2 * (v.length - 1) - (n + v.length)) = n + L + 2 * (v.length - 1) by omega,
    spread_get _ v storage (fun _ => by omega), if_pos (by omega), List.getLast?_eq_getElem?]
  congr 1
  omega

/-! ## The theorems -/

/-- C118: the programs are those of the other properties. -/
theorem C118_programs {B : Type} [Buffer B] (cfg : Cfg) (b : B) :
    (∀ ops, (etherAt cfg b ops >>= fun r => .ok r.1) = etherProgram cfg b ops) ∧
    (∀ vops inner, (ipv4At cfg b vops inner >>= fun r => .ok r.1) = ipv4Program cfg b vops inner) ∧
    (∀ eops vops inner, (ethernetAt cfg b eops vops inner >>= fun r => .ok r.1) =
      ethernetProgram cfg b eops vops inner) ∧
    (∀ inner, (icmpAt cfg b inner >>= fun r => .ok r.1) = icmpProgram cfg b inner) := by
  have drop1 : ∀ (o : Outcome Bytes) (c : B),
      (o >>= fun out => (Outcome.ok (out, c) >>= fun r => .ok r.1)) = o := by
    intro o c; cases o <;> rfl
  have assoc : ∀ {α β γ : Type} (x : Outcome α) (f : α → Outcome β) (g : β → Outcome γ),
      ((x >>= f) >>= g) = x >>= fun a => f a >>= g := by
    intro α β γ x f g; cases x <;> rfl
  have hic : ∀ (i : IcmpInner) (s : IcmpBuilder B), (i.buildAt cfg s >>= fun r => .ok r.1) = i.build cfg s := by
    intro i s
    cases i <;> simp only [IcmpInner.buildAt, IcmpInner.build, assoc]
    · exact drop1 _ _
    all_goals
      congr 1; funext e; congr 1; funext e'
      exact drop1 _ _
  have hin : ∀ (i : Inner) (s : V4Builder B), (i.buildAt cfg s >>= fun r => .ok r.1) = i.build cfg s := by
    intro i s
    cases i with
    | plain =>
      simp only [Inner.buildAt, Inner.build, assoc]
      exact drop1 _ _
    | udp ops =>
      simp only [Inner.buildAt, Inner.build, assoc]
      congr 1; funext e; congr 1; funext e'
      exact drop1 _ _
    | tcp ops =>
      simp only [Inner.buildAt, Inner.build, assoc]
      congr 1; funext e; congr 1; funext e'
      exact drop1 _ _
    | icmp i =>
      simp only [Inner.buildAt, Inner.build, assoc]
      congr 1; funext e
      exact hic i e
  refine ⟨fun ops => ?_, fun vops inner => ?_, fun eops vops inner => ?_, fun inner => ?_⟩
  · simp only [etherAt, etherProgram, assoc]
    congr 1; funext e; congr 1; funext e'
    exact drop1 _ _
  · simp only [ipv4At, ipv4Program, assoc, hin]
  · simp only [ethernetAt, ethernetProgram, assoc, hin]
  · simp only [icmpAt, icmpProgram, assoc, hic]

/-- C118 for a bare Ethernet frame. -/
theorem C118_ether_partial (cfg : Cfg) (storage : Bytes) (hs : storage.length ≤ cfg.isizeMax) (ops : List EtherOp)
    (ho : ops.filterMap EtherOp.payload? = []) (packet : Bytes) (b : Slice)
    (h : etherAt cfg (Slice.new storage) ops = .ok (packet, b)) :
    storageAfter (packet, b) = packet ++ storage.drop packet.length ∧ packet.length = 14 := by
  obtain ⟨e, he, h⟩ := bind_ok_inv h
  obtain ⟨e', he', h⟩ := bind_ok_inv h
  obtain ⟨out, hout, h⟩ := bind_ok_inv h
  cases h
  have h1 := gives_ether_with cfg _ (Kept.new hs) e he
  have h2 := Gives.run (fun op h => gives_ether_op cfg op (free_of_nil ho op h)) e h1 e' he'
  obtain ⟨a, c⟩ := h2.1.after cfg h2.2 hout
  exact ⟨by rw [a]; exact c, a⟩

/-- The program succeeds. -/
example (cfg : Cfg) : ∃ r, etherAt cfg (Slice.new (zeros 100)) Sample.eops = .ok r :=
  Sample.reached (by in_every_build)

/-- C118 for everything built on IPv4. -/
theorem C118_ipv4_partial (cfg : Cfg) (storage : Bytes) (hs : storage.length ≤ cfg.isizeMax) (vops : List V4Op) (inner : Inner)
    (hvo : vops.filterMap V4Op.payload? = []) (hi : inner.payloads = []) (packet : Bytes) (b : Slice)
    (h : ipv4At cfg (Slice.new storage) vops inner = .ok (packet, b)) :
    storageAfter (packet, b) = packet ++ storage.drop packet.length ∧ packet.length ≤ storage.length := by
  obtain ⟨e, he, h⟩ := bind_ok_inv h
  obtain ⟨e', he', h⟩ := bind_ok_inv h
  have h1 := gives_v4_with cfg _ (Kept.new hs) e he
  have h2 := Gives.run (fun op h => gives_v4_op cfg op (free_of_nil hvo op h)) e h1 e' he'
  obtain ⟨a, c, d⟩ := gives_inner_build cfg inner hi e' h2 _ h
  exact ⟨by rw [show packet.length = _ from a]; exact d, by rw [show packet.length = _ from a]; exact c⟩

/-- The program succeeds. -/
example (cfg : Cfg) : ∃ r, ipv4At cfg (Slice.new (zeros 100)) Sample.vops (.udp Sample.udpHead) = .ok r :=
  Sample.reached (by in_every_build)

/-- C118 for everything built on Ethernet and IPv4. -/
theorem C118_ethernet_partial (cfg : Cfg) (storage : Bytes) (hs : storage.length ≤ cfg.isizeMax) (eops : List EtherOp)
    (vops : List V4Op) (inner : Inner) (heo : eops.filterMap EtherOp.payload? = [])
    (hvo : vops.filterMap V4Op.payload? = []) (hi : inner.payloads = []) (packet : Bytes) (b : Slice)
    (h : ethernetAt cfg (Slice.new storage) eops vops inner = .ok (packet, b)) :
    storageAfter (packet, b) = packet ++ storage.drop packet.length ∧ packet.length ≤ storage.length := by
  obtain ⟨e, he, h⟩ := bind_ok_inv h
  obtain ⟨e', he', h⟩ := bind_ok_inv h
  obtain ⟨i, hip, h⟩ := bind_ok_inv h
  obtain ⟨v, hv, h⟩ := bind_ok_inv h
  obtain ⟨v', hv', h⟩ := bind_ok_inv h
  have h1 := gives_ether_with cfg _ (Kept.new hs) e he
  have h2 := Gives.run (fun op h => gives_ether_op cfg op (free_of_nil heo op h)) e h1 e' he'
  have h3 := gives_ether_ip cfg e' h2 i hip
  have h4 := gives_ip_v4 cfg i h3 v hv
  have h5 := Gives.run (fun op h => gives_v4_op cfg op (free_of_nil hvo op h)) v h4 v' hv'
  obtain ⟨a, c, d⟩ := gives_inner_build cfg inner hi v' h5 _ h
  exact ⟨by rw [show packet.length = _ from a]; exact d, by rw [show packet.length = _ from a]; exact c⟩

/-- The program succeeds. -/
example (cfg : Cfg) : ∃ r, ethernetAt cfg (Slice.new (zeros 100)) Sample.eops Sample.vops (.udp Sample.udpHead) = .ok r :=
  Sample.reached (by in_every_build)

/-- C118 for a bare ICMP message. -/
theorem C118_icmp_partial (cfg : Cfg) (storage : Bytes) (hs : storage.length ≤ cfg.isizeMax) (inner : IcmpInner)
    (hi : (Inner.icmp inner).payloads = []) (packet : Bytes) (b : Slice)
    (h : icmpAt cfg (Slice.new storage) inner = .ok (packet, b)) :
    storageAfter (packet, b) = packet ++ storage.drop packet.length ∧ packet.length ≤ storage.length := by
  obtain ⟨i, hic, h⟩ := bind_ok_inv h
  cases hic
  have h1 : On cfg storage 0 0 (icmpView Slice) ⟨Slice.new storage, []⟩ := ⟨Kept.new hs, fun f hf => by cases hf⟩
  obtain ⟨a, c, d⟩ := gives_icmp_build cfg inner hi _ h1 _ h
  exact ⟨by rw [show packet.length = _ from a]; exact d, by rw [show packet.length = _ from a]; exact c⟩

/-- The program succeeds. -/
example (cfg : Cfg) : ∃ r, icmpAt cfg (Slice.new (zeros 100)) (.echo Sample.echoHead) = .ok r :=
  Sample.reached (by in_every_build)

/-- With a payload: the storage behind an Ethernet frame afterwards, exactly. -/
theorem C118_ether_payload (cfg : Cfg) (storage : Bytes) (hs : storage.length ≤ cfg.isizeMax) (ops : List EtherOp)
    (v : Bytes) (hv : v ≠ []) (ho : ops.filterMap EtherOp.payload? = []) (packet : Bytes) (b : Slice)
    (h : etherAt cfg (Slice.new storage) (ops ++ [.payload v]) = .ok (packet, b)) :
    packet.length = 14 + v.length ∧
    storageAfter (packet, b) = packet ++ (spread (14 + 14) v storage).drop packet.length := by
  obtain ⟨e, he, h⟩ := bind_ok_inv h
  obtain ⟨e', he', h⟩ := bind_ok_inv h
  obtain ⟨out, hout, h⟩ := bind_ok_inv h
  cases h
  obtain ⟨w, hw, hp⟩ := run_append_inv he'
  have h1 := gives_ether_with cfg _ (Kept.new hs) e he
  have h2 := Gives.run (fun op h => gives_ether_op cfg op (free_of_nil ho op h)) e h1 w hw
  obtain ⟨a, _, c⟩ := ether_spilt cfg (by decide) hv h2 hp hout
  have a : packet.length = 14 + v.length := by simpa using a
  refine ⟨a, ?_⟩
  rw [a]
  simpa using c

/-- The program succeeds. -/
example (cfg : Cfg) : ∃ r, etherAt cfg (Slice.new (zeros 100)) (Sample.eops ++ [.payload [1, 2]]) = .ok r :=
  Sample.reached (by in_every_build)

/-- With a payload: the storage behind an IPv4 packet with UDP or TCP in it afterwards, exactly. -/
theorem C118_ipv4_payload (cfg : Cfg) (storage : Bytes) (hs : storage.length ≤ cfg.isizeMax) (vops : List V4Op)
    (v : Bytes) (hv : v ≠ []) (hvo : vops.filterMap V4Op.payload? = []) (packet : Bytes) (b : Slice) :
    (∀ ops : List UdpOp, ops.filterMap UdpOp.payload? = [] →
      ipv4At cfg (Slice.new storage) vops (.udp (ops ++ [.payload v])) = .ok (packet, b) →
      packet.length = 28 + v.length ∧
      storageAfter (packet, b) = packet ++ (spread (28 + 8) v storage).drop packet.length) ∧
    (∀ ops : List TcpOp, ops.filterMap TcpOp.payload? = [] →
      ipv4At cfg (Slice.new storage) vops (.tcp (ops ++ [.payload v])) = .ok (packet, b) →
      packet.length = 40 + v.length ∧
      storageAfter (packet, b) = packet ++ (spread (40 + 20) v storage).drop packet.length) := by
  refine ⟨fun ops ho h => ?_, fun ops ho h => ?_⟩
  all_goals
    obtain ⟨e, he, h⟩ := bind_ok_inv h
    obtain ⟨e', he', h⟩ := bind_ok_inv h
    have h1 := gives_v4_with cfg _ (Kept.new hs) e he
    have h2 := Gives.run (fun op h => gives_v4_op cfg op (free_of_nil hvo op h)) e h1 e' he'
  · obtain ⟨a, _, c⟩ := udp_in_v4_spilt cfg hv ho e' h2 _ h
    have a : packet.length = 28 + v.length := by simpa using a
    refine ⟨a, ?_⟩
    rw [a]
    simpa using c
  · obtain ⟨a, _, c⟩ := tcp_in_v4_spilt cfg hv ho e' h2 _ h
    have a : packet.length = 40 + v.length := by simpa using a
    refine ⟨a, ?_⟩
    rw [a]
    simpa using c

/-- A concrete case that meets the hypotheses. -/
example (cfg : Cfg) := C118_ipv4_payload cfg (zeros 100) (by call_by_call) Sample.vops [1, 2, 3, 4] (by decide)
    (by call_by_call)

/-- With a payload: the storage behind an Ethernet frame with UDP or TCP in it afterwards, exactly. -/
theorem C118_ethernet_payload (cfg : Cfg) (storage : Bytes) (hs : storage.length ≤ cfg.isizeMax) (eops : List EtherOp)
    (vops : List V4Op) (v : Bytes) (hv : v ≠ []) (heo : eops.filterMap EtherOp.payload? = [])
    (hvo : vops.filterMap V4Op.payload? = []) (packet : Bytes) (b : Slice) :
    (∀ ops : List UdpOp, ops.filterMap UdpOp.payload? = [] →
      ethernetAt cfg (Slice.new storage) eops vops (.udp (ops ++ [.payload v])) = .ok (packet, b) →
      packet.length = 42 + v.length ∧
      storageAfter (packet, b) = packet ++ (spread (42 + 8) v storage).drop packet.length) ∧
    (∀ ops : List TcpOp, ops.filterMap TcpOp.payload? = [] →
      ethernetAt cfg (Slice.new storage) eops vops (.tcp (ops ++ [.payload v])) = .ok (packet, b) →
      packet.length = 54 + v.length ∧
      storageAfter (packet, b) = packet ++ (spread (54 + 20) v storage).drop packet.length) := by
  refine ⟨fun ops ho h => ?_, fun ops ho h => ?_⟩
  all_goals
    obtain ⟨e, he, h⟩ := bind_ok_inv h
    obtain ⟨e', he', h⟩ := bind_ok_inv h
    obtain ⟨i, hip, h⟩ := bind_ok_inv h
    obtain ⟨w, hw, h⟩ := bind_ok_inv h
    obtain ⟨w', hw', h⟩ := bind_ok_inv h
    have h1 := gives_ether_with cfg _ (Kept.new hs) e he
    have h2 := Gives.run (fun op h => gives_ether_op cfg op (free_of_nil heo op h)) e h1 e' he'
    have h3 := gives_ether_ip cfg e' h2 i hip
    have h4 := gives_ip_v4 cfg i h3 w hw
    have h5 := Gives.run (fun op h => gives_v4_op cfg op (free_of_nil hvo op h)) w h4 w' hw'
  · obtain ⟨a, _, c⟩ := udp_in_v4_spilt cfg hv ho w' h5 _ h
    have a : packet.length = 42 + v.length := by simpa using a
    refine ⟨a, ?_⟩
    rw [a]
    simpa using c
  · obtain ⟨a, _, c⟩ := tcp_in_v4_spilt cfg hv ho w' h5 _ h
    have a : packet.length = 54 + v.length := by simpa using a
    refine ⟨a, ?_⟩
    rw [a]
    simpa using c

/-- A concrete case that meets the hypotheses. -/
example (cfg : Cfg) := C118_ethernet_payload cfg (zeros 100) (by call_by_call) Sample.eops Sample.vops [1, 2, 3, 4]
    (by decide) (by call_by_call) (by call_by_call)

/-- The storage behind a packet is not always left alone: any datagram with a payload writes its last byte there. -/
theorem C118_rest_untouched_refuted (cfg : Cfg) (storage : Bytes) (hs : storage.length ≤ cfg.isizeMax) (vops : List V4Op)
    (ops : List UdpOp) (v : Bytes) (hv : v ≠ []) (hvo : vops.filterMap V4Op.payload? = [])
    (ho : ops.filterMap UdpOp.payload? = []) (packet : Bytes) (b : Slice)
    (h : ipv4At cfg (Slice.new storage) vops (.udp (ops ++ [.payload v])) = .ok (packet, b)) :
    packet.length ≤ 36 + 2 * (v.length - 1) ∧
    (storageAfter (packet, b))[36 + 2 * (v.length - 1)]? = v.getLast? := by
  obtain ⟨e, he, h⟩ := bind_ok_inv h
  obtain ⟨e', he', h⟩ := bind_ok_inv h
  have h1 := gives_v4_with cfg _ (Kept.new hs) e he
  have h2 := Gives.run (fun op h => gives_v4_op cfg op (free_of_nil hvo op h)) e h1 e' he'
  have := (udp_in_v4_spilt cfg hv ho e' h2 _ h).last hv (by decide)
  simpa using this

/-- Both kinds of program succeed: a datagram without payload in 30 bytes of storage leaves the last two alone; with
one byte of payload in 40 bytes of storage, byte 36 of the storage becomes that byte, though the packet has 29. -/
example (cfg : Cfg) :
    (∃ p b, ipv4At cfg (Slice.new (List.replicate 30 0xaa#8)) [.ttl 64#8] (.udp [.source 53#16]) = .ok (p, b) ∧
      p.length = 28 ∧ storageAfter (p, b) = p ++ [0xaa#8, 0xaa#8]) ∧
    (∃ p b, ipv4At cfg (Slice.new (List.replicate 40 0xaa#8)) [] (.udp [.source 53#16, .payload [0x11#8]]) = .ok (p, b) ∧
      p.length = 29 ∧ (storageAfter (p, b))[36]? = some 0x11#8) := by
  have h : ∀ (x : Outcome (Bytes × Slice)) (P : Bytes → Slice → Bool),
      (match x with | .ok (p, b) => P p b | _ => false) = true → ∃ p b, x = .ok (p, b) ∧ P p b = true := by
    intro x P hx
    rcases x with ⟨p, b⟩ | _ | _
    · exact ⟨p, b, rfl, hx⟩
    · cases hx
    · cases hx
  obtain ⟨oc, ea, nw⟩ := cfg
  obtain ⟨p, b, h1, h2⟩ := h (ipv4At ⟨oc, ea, nw⟩ (Slice.new (List.replicate 30 0xaa#8)) [.ttl 64#8] (.udp [.source 53#16]))
    (fun p b => p.length = 28 && storageAfter (p, b) = p ++ [0xaa#8, 0xaa#8])
    (by cases oc <;> cases ea <;> cases nw <;> decide +kernel)
  obtain ⟨q, c, h3, h4⟩ := h
    (ipv4At ⟨oc, ea, nw⟩ (Slice.new (List.replicate 40 0xaa#8)) [] (.udp [.source 53#16, .payload [0x11#8]]))
    (fun q c => q.length = 29 && (storageAfter (q, c))[36]? = some 0x11#8)
    (by cases oc <;> cases ea <;> cases nw <;> decide +kernel)
  simp only [Bool.and_eq_true, decide_eq_true_eq] at h2 h4
  exact ⟨⟨p, b, h1, h2⟩, q, c, h3, h4⟩

end Verif.Props
