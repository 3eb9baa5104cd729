import Verif.Props.Storage
import Verif.Samples

/-! # Calls after `payload()` on a static buffer (C119) -/

namespace Verif.Props
open Verif Verif.Spec Verif.AnyBuffer

/-! ## Setters only change the buffer -/

/-- What no write through `data_mut()` can change. -/
def Stable (cfg : Cfg) (K : Slice → Prop) : Prop :=
  ∀ f : Mut Bytes Unit, KeepsLen f → Gives K (onBuffer (Buffer.modifyData cfg f)) K

/-- The call changes the buffer, through `data_mut()`, and nothing else. -/
def OnlyBuffer {S : Type} (cfg : Cfg) (buf : S → Slice) (upd : S → Slice → S) (k : S → Outcome S) : Prop :=
  ∀ s t, k s = .ok t → ∃ c, t = upd s c ∧ ∀ K, Stable cfg K → K (buf s) → K c

theorem OnlyBuffer.of_setter {S : Type} {cfg : Cfg} {buf : S → Slice} {upd : S → Slice → S} {f : Mut Bytes Unit}
    (hf : KeepsLen f) :
    OnlyBuffer cfg buf upd (fun s => onBuffer (Buffer.modifyData cfg f) (buf s) >>= fun b => .ok (upd s b)) := by
  intro s t h
  obtain ⟨c, hc, h⟩ := bind_ok_inv h
  cases h
  exact ⟨c, rfl, fun K hK hs => hK f hf _ hs _ hc⟩

theorem OnlyBuffer.run {S Op : Type} {cfg : Cfg} {buf : S → Slice} {upd : S → Slice → S} {run : Op → S → Outcome S}
    {ops : List Op} (h : ∀ op ∈ ops, OnlyBuffer cfg buf upd (run op)) (h0 : ∀ s, upd s (buf s) = s)
    (h1 : ∀ s c, buf (upd s c) = c) (h2 : ∀ s c d, upd (upd s c) d = upd s d) :
    OnlyBuffer cfg buf upd (runOps run ops) := by
  induction ops with
  | nil =>
    intro s t ht
    cases ht
    exact ⟨buf s, (h0 s).symm, fun _ _ hs => hs⟩
  | cons op ops ih =>
    intro s t ht
    obtain ⟨u, hu, ht⟩ := bind_ok_inv ht
    obtain ⟨c, rfl, hc⟩ := h op (List.mem_cons_self ..) s u hu
    obtain ⟨d, rfl, hd⟩ := ih (fun o ho => h o (List.mem_cons_of_mem _ ho)) _ t ht
    refine ⟨d, h2 _ _ _, fun K hK hs => hd K hK ?_⟩
    rw [h1]
    exact hc K hK hs

theorem ether_late (cfg : Cfg) {ops : List EtherOp} (ho : ops.filterMap EtherOp.payload? = []) :
    OnlyBuffer cfg (·.buffer) (fun (s : EtherBuilder Slice) c => { s with buffer := c }) (runOps (EtherOp.run cfg) ops) := by
  refine OnlyBuffer.run (fun op h => ?_) (fun _ => rfl) (fun _ _ => rfl) (fun _ _ _ => rfl)
  have := free_of_nil ho op h
  cases op with
  | destination v => exact OnlyBuffer.of_setter (KeepsLen.copyRange _ _ _)
  | source v => exact OnlyBuffer.of_setter (KeepsLen.copyRange _ _ _)
  | protocol v => exact OnlyBuffer.of_setter (KeepsLen.writeU16 _ _)
  | payload v => cases this

theorem v4_late (cfg : Cfg) {ops : List V4Op} (ho : ops.filterMap V4Op.payload? = []) :
    OnlyBuffer cfg (·.buffer) (fun (s : V4Builder Slice) c => { s with buffer := c }) (runOps (V4Op.run cfg) ops) := by
  refine OnlyBuffer.run (fun op h => ?_) (fun _ => rfl) (fun _ _ => rfl) (fun _ _ _ => rfl)
  have := free_of_nil ho op h
  cases op with
  | dscp v => exact OnlyBuffer.of_setter (KeepsLen.v4Dscp _)
  | ecn v => exact OnlyBuffer.of_setter (KeepsLen.v4Ecn _)
  | id v => exact OnlyBuffer.of_setter (KeepsLen.writeU16 _ _)
  | flags v => exact OnlyBuffer.of_setter (KeepsLen.v4 (KeepsLen.writeU16 _ _))
  | offset v => exact OnlyBuffer.of_setter (KeepsLen.v4 (KeepsLen.writeU16 _ _))
  | ttl v => exact OnlyBuffer.of_setter (KeepsLen.v4 (KeepsLen.setIdx _ _))
  | source v => exact OnlyBuffer.of_setter (KeepsLen.v4 (KeepsLen.copyRange _ _ _))
  | destination v => exact OnlyBuffer.of_setter (KeepsLen.v4 (KeepsLen.copyRange _ _ _))
  | protocol v => exact OnlyBuffer.of_setter (KeepsLen.v4 (KeepsLen.setIdx _ _))
  | payload v => cases this

theorem udp_late (cfg : Cfg) {ops : List UdpOp} (ho : ops.filterMap UdpOp.payload? = []) :
    OnlyBuffer cfg (·.buffer) (fun (s : UdpBuilder Slice) c => { s with buffer := c }) (runOps (UdpOp.run cfg) ops) := by
  refine OnlyBuffer.run (fun op h => ?_) (fun _ => rfl) (fun _ _ => rfl) (fun _ _ _ => rfl)
  have := free_of_nil ho op h
  cases op with
  | source v => exact OnlyBuffer.of_setter (KeepsLen.udp (KeepsLen.writeU16 _ _))
  | destination v => exact OnlyBuffer.of_setter (KeepsLen.udp (KeepsLen.writeU16 _ _))
  | payload v => cases this

theorem tcp_late (cfg : Cfg) {ops : List TcpOp} (ho : ops.filterMap TcpOp.payload? = []) :
    OnlyBuffer cfg (·.buffer) (fun (s : TcpBuilder Slice) c => { s with buffer := c }) (runOps (TcpOp.run cfg) ops) := by
  refine OnlyBuffer.run (fun op h => ?_) (fun _ => rfl) (fun _ _ => rfl) (fun _ _ _ => rfl)
  have := free_of_nil ho op h
  cases op with
  | source v => exact OnlyBuffer.of_setter (KeepsLen.tcp (KeepsLen.writeU16 _ _))
  | destination v => exact OnlyBuffer.of_setter (KeepsLen.tcp (KeepsLen.writeU16 _ _))
  | sequence v => exact OnlyBuffer.of_setter (KeepsLen.tcp (KeepsLen.writeU32 _ _))
  | acknowledgment v => exact OnlyBuffer.of_setter (KeepsLen.tcp (KeepsLen.writeU32 _ _))
  | flags v => exact OnlyBuffer.of_setter (KeepsLen.tcpFlags _)
  | window v => exact OnlyBuffer.of_setter (KeepsLen.tcp (KeepsLen.writeU16 _ _))
  | pointer v => exact OnlyBuffer.of_setter (KeepsLen.tcp (KeepsLen.writeU16 _ _))
  | payload v => cases this

/-! ## After the payload, `data_mut()` starts at the last byte of the packet -/

/-- `n` bytes are used, the layer is said to have `L` and to start at the last of them; the bytes before it are `m`. -/
structure Moved (cfg : Cfg) (m : Bytes) (n L : Nat) (b : Slice) : Prop where
  used : b.used = n
  offset : b.offset + 1 = n
  length : b.length = L
  fits : n ≤ b.inner.length
  bound : b.inner.length ≤ cfg.isizeMax
  inside : b.offset + L ≤ b.inner.length
  start : b.inner.take (n - 1) = m

theorem Moved.stable (cfg : Cfg) (m : Bytes) (n L : Nat) : Stable cfg (Moved cfg m n L) := by
  intro f hf b h b' e
  have h1 := h.offset
  have h2 := h.fits
  have h3 := h.bound
  have h4 := h.inside
  have hm := cfg.width
  have hd : Slice.data cfg b = .ok ((b.inner.drop b.offset).take L) := by
    unfold Slice.data
    rw [h.length, addUsize_ok (by omega)]
    show Verif.slice b.inner b.offset (b.offset + L) = _
    rw [slice_ok (by omega) (by omega), List.drop_take, Nat.add_sub_cancel_left]
  generalize hdd : (b.inner.drop b.offset).take L = d at hd
  have hl : d.length = L := by rw [← hdd, List.length_take, List.length_drop]; omega
  have e2 : Slice.modifyData cfg f b = ((f d).1, { b with inner := put b.inner b.offset (f d).2 }) := by
    unfold Slice.modifyData
    rw [hd]
  have hb : b' = { b with inner := put b.inner b.offset (f d).2 } := by
    unfold onBuffer at e
    rw [show (Buffer.modifyData cfg f : Mut Slice Unit) b = _ from e2] at e
    rcases hx : (f d).1 with u | x | _
    · rw [hx] at e; exact (Outcome.ok.inj e).symm
    · rw [hx] at e; cases e
    · rw [hx] at e; cases e
  have hk := hf d
  have hp : (put b.inner b.offset (f d).2).length = b.inner.length := length_put (by omega)
  subst hb
  refine ⟨h.used, h.offset, h.length, ?_, ?_, ?_, ?_⟩
  · show n ≤ (put _ _ _).length
    rw [hp]; exact h2
  · show (put _ _ _).length ≤ _
    rw [hp]; exact h3
  · show b.offset + L ≤ (put _ _ _).length
    rw [hp]; exact h4
  · rw [← h.start]
    refine List.ext_getElem? fun j => ?_
    show ((put _ _ _).take _)[j]? = _
    rw [List.getElem?_take, List.getElem?_take]
    split
    · rw [getElem?_put (by omega), if_pos (by omega)]
    · rfl

/-- What `build()` gets from such a buffer: one byte is open. -/
theorem Moved.inner {cfg : Cfg} {m : Bytes} {n L : Nat} {b : Slice} (h : Moved cfg m n L b) :
    ∃ x, Buffer.intoInner b = .ok (m ++ [x]) := by
  have h1 := h.offset
  have h2 := h.fits
  refine ⟨b.inner[n - 1]'(by omega), ?_⟩
  show Slice.intoInner b = _
  unfold Slice.intoInner
  rw [h.used, slice_ok (by omega) h2, List.drop_zero, ← h.start]
  have : n = (n - 1) + 1 := by omega
  conv => lhs; rw [this]
  rw [List.take_add_one, List.getElem?_eq_getElem (by omega)]
  rfl

/-- `payload()` on a static buffer, when it succeeds. -/
theorem fresh_moved (cfg : Cfg) {storage : Bytes} {b : Slice} {pre layer : Bytes} (h : Fresh cfg storage b pre layer)
    (v : Bytes) (hv : v ≠ []) (hl : 1 ≤ layer.length) {b' : Slice} (e : onBuffer (appendAll cfg v) b = .ok b') :
    Moved cfg (pre ++ layer ++ (misplaced layer.length (storage.drop (pre.length + layer.length)) v).dropLast)
      (pre.length + layer.length + v.length) (layer.length + v.length) b' ∧ 2 * v.length ≤ storage.length + 1 := by
  obtain ⟨hr, hc⟩ := h
  have h1 := hr.used
  have h2 := hr.length
  have h3 := hr.total
  have h4 := hr.bound
  have hn := List.length_pos_iff.2 hv
  have hP := fresh_payload cfg ⟨hr, hc⟩ v hv hl
  rw [List.length_drop] at h3
  unfold payloadEnd at hP
  by_cases c1 : storage.length ≤ pre.length + layer.length
  · rw [if_pos c1] at hP
    have hP : _ = _ := hP
    rw [hP] at e; cases e
  · rw [if_neg c1] at hP
    by_cases c2 : storage.length ≤ pre.length + layer.length + layer.length + 2 * (v.length - 1)
    · rw [if_pos c2] at hP
      have hP : _ = _ := hP
      rw [hP] at e; cases e
    · rw [if_neg c2] at hP
      have hP : ∃ b', onBuffer (appendAll cfg v) b = .ok b' ∧ _ := hP
      obtain ⟨b'', e', hin, -, -⟩ := hP
      rw [e] at e'
      have e' := Outcome.ok.inj e'
      subst e'
      have hroom : b.used + b.length + 2 * v.length ≤ b.inner.length + 1 := by omega
      rw [onBuffer_ok (slice_append_ok cfg v b h4 hv hroom)] at e
      have e := Outcome.ok.inj e
      have hsl := scatter_length v b.inner (b.used + b.length) (fun _ => hroom)
      have hi : b'.inner.length = b.inner.length := by rw [← e]; exact hsl
      have hu : b'.used = b.used + v.length := by rw [← e]
      have ho : b'.offset = b.used + v.length - 1 := by rw [← e]
      have hL : b'.length = b.length + v.length := by rw [← e]
      refine ⟨⟨by omega, by omega, by omega, by omega, by omega, by omega, ?_⟩, by omega⟩
      have hin : Slice.intoInner b' = _ := hin
      unfold Slice.intoInner at hin
      rw [slice_ok (by omega) (by omega), List.drop_zero] at hin
      have hin := Outcome.ok.inj hin
      have : b'.inner.take (pre.length + layer.length + v.length - 1) = (b'.inner.take b'.used).dropLast := by
        rw [List.dropLast_eq_take, List.take_take, List.length_take]
        congr 1
        omega
      rw [this, hin, List.dropLast_append_of_ne_nil]
      intro h0
      have := congrArg List.length h0
      rw [misplaced_length] at this
      exact hv (List.length_eq_zero_iff.1 this)

/-! ## UDP and TCP -/

/-- A UDP builder over a static buffer builds what one over a growable buffer does. -/
theorem udp_build_dynamic (cfg : Cfg) {d : Dynamic} {pre layer : Bytes} (hd : DynRep cfg d pre layer)
    (hn : pre.length + layer.length ≤ 100) (fs : Finalization) (vops : List V4Op) (ops : List UdpOp) (w : Bytes)
    (hw : w.length ≤ cfg.usizeMod / 4) (hvo : vops.filterMap V4Op.payload? = []) (ho : ops.filterMap UdpOp.payload? = [])
    {a : V4State} (ha : runOps V4Op.abs vops .init = .ok a) (hap : a.payload = none) {u : UdpState}
    (hu : runOps UdpOp.abs ops .init = .ok u) (hup : u.payload = none) (t : UdpBuilder Slice)
    (hfin : t.finalizer = fs ++ [V4Builder.finalizerOf cfg (pre ++ layer).length 20])
    (htip : t.ip = ((pre ++ layer).length, 20)) (hlen : Buffer.length t.buffer = 8 + w.length)
    (hin : Buffer.intoInner t.buffer =
      .ok (pre ++ layer ++ ipv4Header { a.fields with protocol := 17#8 } 0#16 0#16 ++ (u.bytes ++ w))) :
    UdpBuilder.build cfg t = ipPart cfg (⟨d, fs⟩ : IpBuilder Dynamic) vops (.udp (ops ++ [.payload w])) := by
  have hl := UdpState.length u
  rw [hup] at hl
  have hl : u.bytes.length = 8 := hl
  have unfoldP : ipPart cfg (⟨d, fs⟩ : IpBuilder Dynamic) vops (.udp (ops ++ [.payload w])) =
        ((IpBuilder.v4 cfg (⟨d, fs⟩ : IpBuilder Dynamic) >>= runOps (V4Op.run cfg) vops) >>= fun s =>
          (V4Builder.udp cfg s >>= runOps (UdpOp.run cfg) ops) >>= fun t =>
            UdpBuilder.setPayload cfg w t >>= UdpBuilder.build cfg) := by
    unfold ipPart
    rw [bind_assoc]
    congr 1
    funext s
    congr 1
    funext s
    show (V4Builder.udp cfg s >>= fun t => runOps (UdpOp.run cfg) (ops ++ [.payload w]) t >>= UdpBuilder.build cfg) = _
    rw [bind_assoc]
    congr 1
    funext t
    rw [runOps_snoc, bind_assoc]
    rfl
  have hdrep : LawfulBuffer.Rep cfg cfg.isizeMax d pre layer := ⟨rfl, hd⟩
  obtain ⟨D1, hD1⟩ := v4_prefix cfg hdrep fs vops hvo ha (.inl (by have := cfg.width; omega))
  obtain ⟨ds, d1, rd⟩ := D1 (by have := cfg.width; omega)
  have hok := rd.ok
  have hok : Ipv4Fields.ok { a.fields with protocol := 17#8 } := hok
  have hip := hok.length 0#16 0#16
  have hplen : (pre ++ layer).length = pre.length + layer.length := List.length_append
  obtain ⟨dt, d2, rdt⟩ := (udp_prefix cfg rd hap ops ho hu (.inl (by rw [hplen]; have := cfg.width; omega))).1
    (by rw [hplen]; have := cfg.width; omega)
  have hda := udp_abs cfg (.payload w) u dt rdt
    (room_dynamic (by rw [List.length_append, hplen, hip]; omega) hw)
  have habs : UdpOp.abs (.payload w) u = .ok { u with payload := some w } := by
    show (if u.payload.isSome then _ else _) = _
    rw [hup]
    rfl
  rw [habs] at hda
  obtain ⟨d', d3, rd'⟩ := hda
  have d3 : UdpBuilder.setPayload cfg w dt = .ok d' := d3
  have hbytes : UdpState.bytes { u with payload := some w } = u.bytes ++ w := by
    simp [UdpState.bytes, hup]
  have hbl : (u.bytes ++ w).length = 8 + w.length := by rw [List.length_append, hl]
  rw [unfoldP, d1, Outcome.ok_bind, d2, Outcome.ok_bind, d3, Outcome.ok_bind]
  unfold UdpBuilder.build UdpBuilder.prepare
  simp only []
  rw [hfin, rd'.fin, htip, rd'.ip, hlen, LawfulBuffer.length rd'.rep, hbytes, hbl]
  apply buildTail_congr
  rw [hin, LawfulBuffer.inner rd'.rep, hbytes]

theorem udp_late_static (cfg : Cfg) {storage : Bytes} {b : Slice} {d : Dynamic} {pre layer : Bytes}
    (hb : Fresh cfg storage b pre layer) (hd : DynRep cfg d pre layer) (hn : pre.length + layer.length ≤ 100)
    (fs : Finalization) (vops : List V4Op) (ops late : List UdpOp) (v : Bytes) (hv : v ≠ [])
    (hvo : vops.filterMap V4Op.payload? = []) (ho : ops.filterMap UdpOp.payload? = [])
    (hla : late.filterMap UdpOp.payload? = []) {a : V4State}
    (ha : runOps V4Op.abs vops .init = .ok a) (hap : a.payload = none) {u : UdpState}
    (hu : runOps UdpOp.abs ops .init = .ok u) (hup : u.payload = none) {packet : Bytes}
    (h : ipPart cfg (⟨b, fs⟩ : IpBuilder Slice) vops (.udp (ops ++ [.payload v] ++ late)) = .ok packet) :
    ∃ x, ipPart cfg (⟨d, fs⟩ : IpBuilder Dynamic) vops (.udp (ops ++
      [.payload ((misplaced 8 (storage.drop (pre.length + layer.length + 28)) v).dropLast ++ [x])])) = .ok packet := by
  have hl := UdpState.length u
  rw [hup] at hl
  have hl : u.bytes.length = 8 := hl
  have hn1 := List.length_pos_iff.2 hv
  have hplen : (pre ++ layer).length = pre.length + layer.length := List.length_append
  have hrep : (fresh storage).Rep cfg storage.length b pre layer := ⟨rfl, hb⟩
  have hS := @v4_prefix Slice _ (fresh storage) cfg _ _ _ _ hrep fs vops hvo a ha (.inr trivial)
  have unfoldP : ipPart cfg (⟨b, fs⟩ : IpBuilder Slice) vops (.udp (ops ++ [.payload v] ++ late)) =
        ((IpBuilder.v4 cfg (⟨b, fs⟩ : IpBuilder Slice) >>= runOps (V4Op.run cfg) vops) >>= fun s =>
          (V4Builder.udp cfg s >>= runOps (UdpOp.run cfg) ops) >>= fun t =>
            UdpBuilder.setPayload cfg v t >>= fun t => runOps (UdpOp.run cfg) late t >>= UdpBuilder.build cfg) := by
    unfold ipPart
    rw [bind_assoc]
    congr 1
    funext s
    congr 1
    funext s
    show (V4Builder.udp cfg s >>= fun t =>
      runOps (UdpOp.run cfg) (ops ++ [.payload v] ++ late) t >>= UdpBuilder.build cfg) = _
    rw [bind_assoc]
    congr 1
    funext t
    rw [runOps_append, runOps_snoc, bind_assoc, bind_assoc]
    rfl
  rw [unfoldP] at h
  by_cases h20 : storage.length < pre.length + layer.length + 20
  · rw [hS.2 h20] at h; cases h
  obtain ⟨s, e1, r⟩ := hS.1 (by omega)
  have hdrep : LawfulBuffer.Rep cfg cfg.isizeMax d pre layer := ⟨rfl, hd⟩
  obtain ⟨ds, -, rd⟩ := (v4_prefix cfg hdrep fs vops hvo ha (.inl (by have := cfg.width; omega))).1
    (by have := cfg.width; omega)
  have hok := rd.ok
  have hok : Ipv4Fields.ok { a.fields with protocol := 17#8 } := hok
  have hip := hok.length 0#16 0#16
  have hU := @udp_prefix Slice _ (fresh storage) cfg _ _ _ _ _ r hap ops ho u hu (.inr trivial)
  rw [e1, Outcome.ok_bind] at h
  by_cases h28 : storage.length < pre.length + layer.length + 28
  · rw [hU.2 (by rw [hplen]; omega)] at h; cases h
  obtain ⟨t, e2, ⟨rrep, rfin, rip, rpay⟩⟩ := hU.1 (by rw [hplen]; omega)
  rw [e2, Outcome.ok_bind] at h
  obtain ⟨t1, ht1, h⟩ := bind_ok_inv h
  obtain ⟨t2, ht2, h⟩ := bind_ok_inv h
  have hfr : Fresh cfg storage t.buffer _ u.bytes := rrep.2
  have hset : UdpBuilder.setPayload cfg v t = (onBuffer (appendAll cfg v) t.buffer >>= fun b =>
      .ok { t with buffer := b, payload := true }) := by
    unfold UdpBuilder.setPayload
    rw [rpay, hup]
    rfl
  rw [hset] at ht1
  obtain ⟨b1, hb1, ht1⟩ := bind_ok_inv ht1
  cases ht1
  obtain ⟨hm, hvs⟩ := fresh_moved cfg hfr v hv (by omega) hb1
  obtain ⟨c, rfl, hc⟩ := udp_late cfg hla _ _ ht2
  have hm := hc _ (Moved.stable cfg _ _ _) hm
  have hused : (pre ++ layer ++ ipv4Header { a.fields with protocol := 17#8 } 0#16 0#16).length +
      u.bytes.length = pre.length + layer.length + 28 := by
    rw [List.length_append, hplen, hip, hl]
  rw [hused, hl] at hm
  obtain ⟨x, hx⟩ := hm.inner
  refine ⟨x, ?_⟩
  have hwl : ((misplaced 8 (storage.drop (pre.length + layer.length + 28)) v).dropLast ++ [x]).length = v.length := by
    rw [List.length_append, List.length_dropLast, misplaced_length, List.length_singleton]; omega
  rw [← h]
  have hbd := hb.1.bound
  have hbl := hb.2
  refine (udp_build_dynamic cfg hd hn fs vops ops _ ?_ hvo ho ha hap hu hup
    { t with buffer := c, payload := true } rfin rip ?_ ?_).symm
  · rw [hwl]; have := cfg.width; omega
  · rw [hwl]; exact hm.length
  · refine hx.trans ?_
    simp only [List.append_assoc]

/-- A TCP builder over a static buffer builds what one over a growable buffer does. -/
theorem tcp_build_dynamic (cfg : Cfg) {d : Dynamic} {pre layer : Bytes} (hd : DynRep cfg d pre layer)
    (hn : pre.length + layer.length ≤ 100) (fs : Finalization) (vops : List V4Op) (ops : List TcpOp) (w : Bytes)
    (hw : w.length ≤ cfg.usizeMod / 4) (hvo : vops.filterMap V4Op.payload? = []) (ho : ops.filterMap TcpOp.payload? = [])
    {a : V4State} (ha : runOps V4Op.abs vops .init = .ok a) (hap : a.payload = none) {u : TcpState}
    (hu : runOps TcpOp.abs ops .init = .ok u) (hup : u.payload = none) (t : TcpBuilder Slice)
    (hfin : t.finalizer = fs ++ [V4Builder.finalizerOf cfg (pre ++ layer).length 20])
    (htip : t.ip = ((pre ++ layer).length, 20)) (hlen : Buffer.length t.buffer = 20 + w.length)
    (hpl : t.payloadLength = w.length)
    (hin : Buffer.intoInner t.buffer =
      .ok (pre ++ layer ++ ipv4Header { a.fields with protocol := 6#8 } 0#16 0#16 ++ (u.bytes ++ w))) :
    TcpBuilder.build cfg t = ipPart cfg (⟨d, fs⟩ : IpBuilder Dynamic) vops (.tcp (ops ++ [.payload w])) := by
  have hl := TcpState.length u
  rw [hup] at hl
  have hl : u.bytes.length = 20 := hl
  have unfoldP : ipPart cfg (⟨d, fs⟩ : IpBuilder Dynamic) vops (.tcp (ops ++ [.payload w])) =
        ((IpBuilder.v4 cfg (⟨d, fs⟩ : IpBuilder Dynamic) >>= runOps (V4Op.run cfg) vops) >>= fun s =>
          (V4Builder.tcp cfg s >>= runOps (TcpOp.run cfg) ops) >>= fun t =>
            TcpBuilder.setPayload cfg w t >>= TcpBuilder.build cfg) := by
    unfold ipPart
    rw [bind_assoc]
    congr 1
    funext s
    congr 1
    funext s
    show (V4Builder.tcp cfg s >>= fun t => runOps (TcpOp.run cfg) (ops ++ [.payload w]) t >>= TcpBuilder.build cfg) = _
    rw [bind_assoc]
    congr 1
    funext t
    rw [runOps_snoc, bind_assoc]
    rfl
  have hdrep : LawfulBuffer.Rep cfg cfg.isizeMax d pre layer := ⟨rfl, hd⟩
  obtain ⟨D1, hD1⟩ := v4_prefix cfg hdrep fs vops hvo ha (.inl (by have := cfg.width; omega))
  obtain ⟨ds, d1, rd⟩ := D1 (by have := cfg.width; omega)
  have hok := rd.ok
  have hok : Ipv4Fields.ok { a.fields with protocol := 6#8 } := hok
  have hip := hok.length 0#16 0#16
  have hplen : (pre ++ layer).length = pre.length + layer.length := List.length_append
  obtain ⟨dt, d2, rdt⟩ := (tcp_prefix cfg rd hap ops ho hu (.inl (by rw [hplen]; have := cfg.width; omega))).1
    (by rw [hplen]; have := cfg.width; omega)
  have hda := tcp_abs cfg (.payload w) u dt rdt
    (room_dynamic (by rw [List.length_append, hplen, hip]; omega) hw)
  have habs : TcpOp.abs (.payload w) u = .ok { u with payload := some w } := by
    show (if u.payload.isSome then _ else _) = _
    rw [hup]
    rfl
  rw [habs] at hda
  obtain ⟨d', d3, rd'⟩ := hda
  have d3 : TcpBuilder.setPayload cfg w dt = .ok d' := d3
  have hbytes : TcpState.bytes { u with payload := some w } = u.bytes ++ w := by
    simp [TcpState.bytes, TcpState.word, hup]
  have hbl : (u.bytes ++ w).length = 20 + w.length := by rw [List.length_append, hl]
  rw [unfoldP, d1, Outcome.ok_bind, d2, Outcome.ok_bind, d3, Outcome.ok_bind]
  unfold TcpBuilder.build TcpBuilder.prepare
  simp only []
  rw [hfin, rd'.fin, htip, rd'.ip, hlen, LawfulBuffer.length rd'.rep, hbytes, hbl, hpl, rd'.payloadLength, Option.getD_some]
  apply buildTail_congr
  rw [hin, LawfulBuffer.inner rd'.rep, hbytes]

theorem tcp_late_static (cfg : Cfg) {storage : Bytes} {b : Slice} {d : Dynamic} {pre layer : Bytes}
    (hb : Fresh cfg storage b pre layer) (hd : DynRep cfg d pre layer) (hn : pre.length + layer.length ≤ 100)
    (fs : Finalization) (vops : List V4Op) (ops late : List TcpOp) (v : Bytes) (hv : v ≠ [])
    (hvo : vops.filterMap V4Op.payload? = []) (ho : ops.filterMap TcpOp.payload? = [])
    (hla : late.filterMap TcpOp.payload? = []) {a : V4State}
    (ha : runOps V4Op.abs vops .init = .ok a) (hap : a.payload = none) {u : TcpState}
    (hu : runOps TcpOp.abs ops .init = .ok u) (hup : u.payload = none) {packet : Bytes}
    (h : ipPart cfg (⟨b, fs⟩ : IpBuilder Slice) vops (.tcp (ops ++ [.payload v] ++ late)) = .ok packet) :
    ∃ x, ipPart cfg (⟨d, fs⟩ : IpBuilder Dynamic) vops (.tcp (ops ++
      [.payload ((misplaced 20 (storage.drop (pre.length + layer.length + 40)) v).dropLast ++ [x])])) = .ok packet := by
  have hl := TcpState.length u
  rw [hup] at hl
  have hl : u.bytes.length = 20 := hl
  have hn1 := List.length_pos_iff.2 hv
  have hplen : (pre ++ layer).length = pre.length + layer.length := List.length_append
  have hrep : (fresh storage).Rep cfg storage.length b pre layer := ⟨rfl, hb⟩
  have hS := @v4_prefix Slice _ (fresh storage) cfg _ _ _ _ hrep fs vops hvo a ha (.inr trivial)
  have unfoldP : ipPart cfg (⟨b, fs⟩ : IpBuilder Slice) vops (.tcp (ops ++ [.payload v] ++ late)) =
        ((IpBuilder.v4 cfg (⟨b, fs⟩ : IpBuilder Slice) >>= runOps (V4Op.run cfg) vops) >>= fun s =>
          (V4Builder.tcp cfg s >>= runOps (TcpOp.run cfg) ops) >>= fun t =>
            TcpBuilder.setPayload cfg v t >>= fun t => runOps (TcpOp.run cfg) late t >>= TcpBuilder.build cfg) := by
    unfold ipPart
    rw [bind_assoc]
    congr 1
    funext s
    congr 1
    funext s
    show (V4Builder.tcp cfg s >>= fun t =>
      runOps (TcpOp.run cfg) (ops ++ [.payload v] ++ late) t >>= TcpBuilder.build cfg) = _
    rw [bind_assoc]
    congr 1
    funext t
    rw [runOps_append, runOps_snoc, bind_assoc, bind_assoc]
    rfl
  rw [unfoldP] at h
  by_cases h20 : storage.length < pre.length + layer.length + 20
  · rw [hS.2 h20] at h; cases h
  obtain ⟨s, e1, r⟩ := hS.1 (by omega)
  have hdrep : LawfulBuffer.Rep cfg cfg.isizeMax d pre layer := ⟨rfl, hd⟩
  obtain ⟨ds, -, rd⟩ := (v4_prefix cfg hdrep fs vops hvo ha (.inl (by have := cfg.width; omega))).1
    (by have := cfg.width; omega)
  have hok := rd.ok
  have hok : Ipv4Fields.ok { a.fields with protocol := 6#8 } := hok
  have hip := hok.length 0#16 0#16
  have hU := @tcp_prefix Slice _ (fresh storage) cfg _ _ _ _ _ r hap ops ho u hu (.inr trivial)
  rw [e1, Outcome.ok_bind] at h
  by_cases h28 : storage.length < pre.length + layer.length + 40
  · rw [hU.2 (by rw [hplen]; omega)] at h; cases h
  obtain ⟨t, e2, ⟨rrep, rfin, rip, rpay, rpl⟩⟩ := hU.1 (by rw [hplen]; omega)
  rw [e2, Outcome.ok_bind] at h
  obtain ⟨t1, ht1, h⟩ := bind_ok_inv h
  obtain ⟨t2, ht2, h⟩ := bind_ok_inv h
  have hfr : Fresh cfg storage t.buffer _ u.bytes := rrep.2
  have hset : TcpBuilder.setPayload cfg v t = (onBuffer (appendAll cfg v) t.buffer >>= fun b =>
      .ok { t with buffer := b, payload := true, payloadLength := t.payloadLength + v.length }) := by
    unfold TcpBuilder.setPayload
    rw [rpay, hup]
    rfl
  rw [hset] at ht1
  obtain ⟨b1, hb1, ht1⟩ := bind_ok_inv ht1
  cases ht1
  obtain ⟨hm, hvs⟩ := fresh_moved cfg hfr v hv (by omega) hb1
  obtain ⟨c, rfl, hc⟩ := tcp_late cfg hla _ _ ht2
  have hm := hc _ (Moved.stable cfg _ _ _) hm
  have hused : (pre ++ layer ++ ipv4Header { a.fields with protocol := 6#8 } 0#16 0#16).length +
      u.bytes.length = pre.length + layer.length + 40 := by
    rw [List.length_append, hplen, hip, hl]
  rw [hused, hl] at hm
  obtain ⟨x, hx⟩ := hm.inner
  refine ⟨x, ?_⟩
  have hwl : ((misplaced 20 (storage.drop (pre.length + layer.length + 40)) v).dropLast ++ [x]).length = v.length := by
    rw [List.length_append, List.length_dropLast, misplaced_length, List.length_singleton]; omega
  rw [← h]
  have hbd := hb.1.bound
  have hbl := hb.2
  refine (tcp_build_dynamic cfg hd hn fs vops ops _ ?_ hvo ho ha hap hu hup
    { t with buffer := c, payload := true, payloadLength := t.payloadLength + v.length } rfin rip ?_ ?_ ?_).symm
  · rw [hwl]; have := cfg.width; omega
  · rw [hwl]; exact hm.length
  · rw [hwl]
    show t.payloadLength + v.length = _
    rw [rpl, hup]
    exact Nat.zero_add _
  · refine hx.trans ?_
    simp only [List.append_assoc]

/-! ## Raw IPv4 payloads and echo messages -/

theorem raw_late_static (cfg : Cfg) {storage : Bytes} {b : Slice} {pre layer : Bytes}
    (hb : Fresh cfg storage b pre layer) (fs : Finalization) (vops late : List V4Op) (v : Bytes) (hv : v ≠ [])
    (hvo : vops.filterMap V4Op.payload? = []) (hla : late.filterMap V4Op.payload? = []) {a : V4State}
    (ha : runOps V4Op.abs vops .init = .ok a) (hap : a.payload = none) (packet : Bytes) :
    ipPart cfg (⟨b, fs⟩ : IpBuilder Slice) (vops ++ [.payload v] ++ late) .plain ≠ .ok packet := by
  intro h
  have hn := List.length_pos_iff.2 hv
  have hrep : (fresh storage).Rep cfg storage.length b pre layer := ⟨rfl, hb⟩
  have hS := @v4_prefix Slice _ (fresh storage) cfg _ _ _ _ hrep fs vops hvo a ha (.inr trivial)
  have unfoldP : ipPart cfg (⟨b, fs⟩ : IpBuilder Slice) (vops ++ [.payload v] ++ late) .plain =
      ((IpBuilder.v4 cfg (⟨b, fs⟩ : IpBuilder Slice) >>= runOps (V4Op.run cfg) vops) >>= fun s =>
        V4Builder.setPayload cfg v s >>= fun s => runOps (V4Op.run cfg) late s >>= V4Builder.build cfg) := by
    unfold ipPart
    rw [bind_assoc]
    congr 1
    funext s
    rw [runOps_append, runOps_snoc, bind_assoc, bind_assoc]
    rfl
  rw [unfoldP] at h
  by_cases h20 : storage.length < pre.length + layer.length + 20
  · rw [hS.2 h20] at h; cases h
  obtain ⟨s, e1, ⟨rrep, rfin, rpay, rok⟩⟩ := hS.1 (by omega)
  have hl := V4State.length rok
  rw [hap] at hl
  have hl : a.bytes.length = 20 := hl
  rw [e1, Outcome.ok_bind] at h
  obtain ⟨t1, ht1, h⟩ := bind_ok_inv h
  obtain ⟨t2, ht2, h⟩ := bind_ok_inv h
  have hfr : Fresh cfg storage s.buffer _ a.bytes := rrep.2
  have hset : V4Builder.setPayload cfg v s = (onBuffer (appendAll cfg v) s.buffer >>= fun b =>
      .ok { s with buffer := b, payload := true }) := by
    unfold V4Builder.setPayload
    rw [rpay, hap]
    rfl
  rw [hset] at ht1
  obtain ⟨b1, hb1, ht1⟩ := bind_ok_inv ht1
  cases ht1
  obtain ⟨hm, -⟩ := fresh_moved cfg hfr v hv (by omega) hb1
  obtain ⟨c, rfl, hc⟩ := v4_late cfg hla _ _ ht2
  have hm := hc _ (Moved.stable cfg _ _ _) hm
  obtain ⟨x, hx⟩ := hm.inner
  unfold V4Builder.build V4Builder.prepare Finalization.add at h
  simp only [] at h
  rw [buildTail_of hx, show Buffer.length c = _ from hm.length] at h
  have ho := hm.offset
  rw [v4_finalizer_lost cfg _ _ _ _ (by
    show _ = c.offset + 1
    rw [ho]
    simp only [List.length_append, List.length_dropLast, misplaced_length, List.length_singleton]
    omega) (by omega)] at h
  cases h

/-- The calls of an echo builder behind `payload()`: whether a kind is set may change as well. -/
theorem echo_late (cfg : Cfg) : ∀ {ops : List EchoOp}, ops.filterMap EchoOp.payload? = [] →
    ∀ s t : EchoBuilder Slice, runOps (EchoOp.run cfg) ops s = .ok t →
      t.finalizer = s.finalizer ∧ ∀ K, Stable cfg K → K s.buffer → K t.buffer := by
  intro ops
  induction ops with
  | nil =>
    intro _ s t h
    cases h
    exact ⟨rfl, fun _ _ h => h⟩
  | cons op ops ih =>
    intro ho s t h
    obtain ⟨u, hu, h⟩ := bind_ok_inv h
    have hop := free_of_nil ho op (List.mem_cons_self ..)
    have hops : ops.filterMap EchoOp.payload? = [] := by
      rw [List.filterMap_eq_nil_iff] at ho ⊢
      exact fun o h => ho o (List.mem_cons_of_mem _ h)
    obtain ⟨i1, i2⟩ := ih hops u t h
    have key : ∀ {f : Mut Bytes Unit} (k : Bool), KeepsLen f →
        EchoBuilder.setter cfg f { s with kind := k } = .ok u →
        u.finalizer = s.finalizer ∧ ∀ K, Stable cfg K → K s.buffer → K u.buffer := by
      intro f k hf e
      obtain ⟨c, hc, e⟩ := bind_ok_inv e
      cases e
      exact ⟨rfl, fun K hK hs => hK f hf _ hs _ hc⟩
    have : u.finalizer = s.finalizer ∧ ∀ K, Stable cfg K → K s.buffer → K u.buffer := by
      cases op with
      | request => exact key true (KeepsLen.setIdx _ _) hu
      | reply => exact key true (KeepsLen.setIdx _ _) hu
      | identifier v => exact key s.kind (KeepsLen.writeU16 _ _) hu
      | sequence v => exact key s.kind (KeepsLen.writeU16 _ _) hu
      | payload v => cases hop
    exact ⟨i1.trans this.1, fun K hK hs => i2 K hK (this.2 K hK hs)⟩

theorem echo_late_static (cfg : Cfg) {storage : Bytes} {b : Slice} {pre layer : Bytes}
    (hb : Fresh cfg storage b pre layer) (fs : Finalization) (ops late : List EchoOp) (v : Bytes) (hv : v ≠ [])
    (ho : ops.filterMap EchoOp.payload? = []) (hla : late.filterMap EchoOp.payload? = []) (packet : Bytes) :
    IcmpInner.build cfg (⟨b, fs⟩ : IcmpBuilder Slice) (.echo (ops ++ [.payload v] ++ late)) ≠ .ok packet := by
  intro h
  have hn := List.length_pos_iff.2 hv
  have ha := echo_run ops (by rw [ho]; exact Nat.zero_le _)
  generalize hga : (⟨((ops.filterMap EchoOp.kind?).getLast?).map IcmpKind.toWire, last EchoOp.identifier? 0 ops,
    last EchoOp.sequence? 0 ops, (ops.filterMap EchoOp.payload?).getLast?⟩ : EchoState) = a at ha
  have hap : a.payload = none := by rw [← hga, ho]; rfl
  have hrep : (fresh storage).Rep cfg storage.length b pre layer := ⟨rfl, hb⟩
  have hS := @echo_prefix Slice _ (fresh storage) cfg _ _ _ _ hrep fs ops ho a ha (.inr trivial)
  have unfoldP : IcmpInner.build cfg (⟨b, fs⟩ : IcmpBuilder Slice) (.echo (ops ++ [.payload v] ++ late)) =
      ((IcmpBuilder.echo cfg (⟨b, fs⟩ : IcmpBuilder Slice) >>= runOps (EchoOp.run cfg) ops) >>= fun s =>
        EchoBuilder.setPayload cfg v s >>= fun s => runOps (EchoOp.run cfg) late s >>= EchoBuilder.build cfg) := by
    show (IcmpBuilder.echo cfg (⟨b, fs⟩ : IcmpBuilder Slice) >>= fun e =>
      runOps (EchoOp.run cfg) (ops ++ [.payload v] ++ late) e >>= EchoBuilder.build cfg) = _
    rw [bind_assoc]
    congr 1
    funext s
    rw [runOps_append, runOps_snoc, bind_assoc, bind_assoc]
    rfl
  rw [unfoldP] at h
  by_cases h8 : storage.length < pre.length + layer.length + 8
  · rw [hS.2 h8] at h; cases h
  obtain ⟨s, e1, ⟨rrep, rfin, rkind, rpay⟩⟩ := hS.1 (by omega)
  have hl := EchoState.length a 0#16
  rw [hap] at hl
  have hl : (a.msg 0#16).length = 8 := hl
  rw [e1, Outcome.ok_bind] at h
  obtain ⟨t1, ht1, h⟩ := bind_ok_inv h
  obtain ⟨t2, ht2, h3⟩ := bind_ok_inv h
  have hfr : Fresh cfg storage s.buffer _ (a.msg 0#16) := rrep.2
  have hset : EchoBuilder.setPayload cfg v s = (onBuffer (appendAll cfg v) s.buffer >>= fun b =>
      .ok { s with buffer := b, payload := true }) := by
    unfold EchoBuilder.setPayload
    rw [rpay, hap]
    rfl
  rw [hset] at ht1
  obtain ⟨b1, hb1, ht1⟩ := bind_ok_inv ht1
  cases ht1
  obtain ⟨hm, -⟩ := fresh_moved cfg hfr v hv (by omega) hb1
  obtain ⟨-, hc⟩ := echo_late cfg hla _ _ ht2
  have hm := hc _ (Moved.stable cfg _ _ _) hm
  obtain ⟨x, hx⟩ := hm.inner
  unfold EchoBuilder.build IcmpBuilder.prepare Finalization.add at h3
  split at h3
  · cases h3
  rw [buildTail_of hx, show Buffer.length t2.buffer = _ from hm.length] at h3
  have hof := hm.offset
  rw [icmp_finalizer_lost cfg _ _ _ _ (by
    show _ = t2.buffer.offset + 1
    rw [hof]
    simp only [List.length_append, List.length_dropLast, misplaced_length, List.length_singleton]
    omega) (by omega)] at h3
  cases h3

theorem icmp_echo_late_static (cfg : Cfg) {storage : Bytes} {b : Slice} {pre layer : Bytes}
    (hb : Fresh cfg storage b pre layer) (fs : Finalization) (vops : List V4Op) (ops late : List EchoOp) (v : Bytes)
    (hv : v ≠ []) (hvo : vops.filterMap V4Op.payload? = []) (ho : ops.filterMap EchoOp.payload? = [])
    (hla : late.filterMap EchoOp.payload? = []) {a : V4State}
    (ha : runOps V4Op.abs vops .init = .ok a) (hap : a.payload = none) (packet : Bytes) :
    ipPart cfg (⟨b, fs⟩ : IpBuilder Slice) vops (.icmp (.echo (ops ++ [.payload v] ++ late))) ≠ .ok packet := by
  have unfoldP : ipPart cfg (⟨b, fs⟩ : IpBuilder Slice) vops (.icmp (.echo (ops ++ [.payload v] ++ late))) =
      ((IpBuilder.v4 cfg (⟨b, fs⟩ : IpBuilder Slice) >>= runOps (V4Op.run cfg) vops) >>= fun s =>
        V4Builder.icmp cfg s >>= fun i => IcmpInner.build cfg i (.echo (ops ++ [.payload v] ++ late))) := by
    unfold ipPart
    rw [bind_assoc]
    rfl
  have hrep : (fresh storage).Rep cfg storage.length b pre layer := ⟨rfl, hb⟩
  have hS := @v4_prefix Slice _ (fresh storage) cfg _ _ _ _ hrep fs vops hvo a ha (.inr trivial)
  rw [unfoldP]
  by_cases h20 : storage.length < pre.length + layer.length + 20
  · rw [hS.2 h20]
    intro h
    cases h
  · obtain ⟨s, e1, r⟩ := hS.1 (by omega)
    obtain ⟨hok, b', e2, r2⟩ := @v4_icmp_enter Slice _ (fresh storage) cfg _ _ _ _ _ r hap
    rw [e1, Outcome.ok_bind, e2, Outcome.ok_bind]
    have hfr : Fresh cfg storage b' (pre ++ layer) (ipv4Header { a.fields with protocol := 1#8 } 0#16 0#16) := r2.2
    exact echo_late_static cfg hfr _ ops late v hv ho hla packet

/-! ## Whole programs -/

/-- C119, Ethernet: calls made after `payload()` on a static buffer do not reach the frame, its last byte excepted. -/
theorem C119_ether_partial (cfg : Cfg) (storage : Bytes) (ops late : List EtherOp) (v : Bytes) (hv : v ≠ [])
    (he : ops.filterMap EtherOp.payload? = []) (hla : late.filterMap EtherOp.payload? = [])
    (hs : storage.length ≤ cfg.isizeMax) (packet : Bytes)
    (h : etherProgram cfg (Slice.new storage) (ops ++ [.payload v] ++ late) = .ok packet) :
    ∃ x, etherProgram cfg Dynamic.new
      (ops ++ [.payload ((misplaced 14 (storage.drop 14) v).dropLast ++ [x])]) = .ok packet := by
  obtain ⟨e, hrun, hpay⟩ : ∃ e, runOps EtherOp.abs ops .init = .ok e ∧ e.payload = none :=
    ⟨_, ether_run ops (by rw [he]; decide), by show (ops.filterMap EtherOp.payload?).getLast? = _; rw [he]; rfl⟩
  have hl := EtherState.length e
  rw [hpay] at hl
  have hl : e.bytes.length = 14 := hl
  have hn1 := List.length_pos_iff.2 hv
  have unfoldP : etherProgram cfg (Slice.new storage) (ops ++ [.payload v] ++ late) =
      ((EtherBuilder.«with» cfg (Slice.new storage) >>= runOps (EtherOp.run cfg) ops) >>= fun s =>
        EtherBuilder.setPayload cfg v s >>= fun s => runOps (EtherOp.run cfg) late s >>= EtherBuilder.build) := by
    unfold etherProgram
    rw [bind_assoc]
    congr 1
    funext s
    rw [runOps_append, runOps_snoc, bind_assoc, bind_assoc]
    rfl
  have hrep : (fresh storage).Rep cfg storage.length (Slice.new storage) [] [] := ⟨rfl, SliceRep.new hs, rfl⟩
  have hS := @ether_prefix Slice _ (fresh storage) cfg _ _ _ _ hrep ops he e hrun (.inr trivial)
  simp only [List.length_nil, Nat.zero_add, List.append_nil] at hS
  rw [unfoldP] at h
  by_cases h14 : storage.length < 14
  · rw [hS.2 h14] at h; cases h
  obtain ⟨s, e1, ⟨rrep, rfin, rpay⟩⟩ := hS.1 (by omega)
  rw [e1, Outcome.ok_bind] at h
  have hfr : Fresh cfg storage s.buffer [] e.bytes := rrep.2
  have hset : EtherBuilder.setPayload cfg v s =
      (onBuffer (appendAll cfg v) s.buffer >>= fun b => .ok { s with buffer := b, payload := true }) := by
    unfold EtherBuilder.setPayload
    rw [rpay, hpay]
    rfl
  obtain ⟨t1, ht1, h⟩ := bind_ok_inv h
  obtain ⟨t2, ht2, h⟩ := bind_ok_inv h
  rw [hset] at ht1
  obtain ⟨b1, hb1, ht1⟩ := bind_ok_inv ht1
  cases ht1
  obtain ⟨hm, hvs⟩ := fresh_moved cfg hfr v hv (by omega) hb1
  obtain ⟨c, rfl, hc⟩ := ether_late cfg hla _ _ ht2
  have hm := hc _ (Moved.stable cfg _ _ _) hm
  simp only [List.length_nil, Nat.zero_add, hl, List.nil_append] at hm
  obtain ⟨x, hx⟩ := hm.inner
  refine ⟨x, ?_⟩
  generalize hw : (misplaced 14 (storage.drop 14) v).dropLast ++ [x] = w
  have hwl : w.length = v.length := by
    rw [← hw, List.length_append, List.length_dropLast, misplaced_length, List.length_singleton]; omega
  have hx : Buffer.intoInner c = .ok (e.bytes ++ w) := by rw [hx, ← hw, List.append_assoc]
  obtain ⟨d, d1, rd⟩ := (ether_prefix cfg Dynamic.rep_new ops he hrun (.inl (by in_every_build))).1 (by in_every_build)
  have hd := ether_abs cfg (.payload w) e d rd
    (room_dynamic (by simp) (by rw [hwl]; have := cfg.width; omega))
  have ha : EtherOp.abs (.payload w) e = .ok { e with payload := some w } := by
    show (if e.payload.isSome then _ else _) = _
    rw [hpay]
    rfl
  rw [ha] at hd
  obtain ⟨d', d2, rd'⟩ := hd
  have d2 : EtherBuilder.setPayload cfg w d = .ok d' := d2
  have unfoldD : etherProgram cfg Dynamic.new (ops ++ [.payload w]) =
      ((EtherBuilder.«with» cfg Dynamic.new >>= runOps (EtherOp.run cfg) ops) >>= fun s =>
        EtherBuilder.setPayload cfg w s >>= EtherBuilder.build) := by
    unfold etherProgram
    rw [bind_assoc]
    congr 1
    funext s
    rw [runOps_snoc, bind_assoc]
    rfl
  rw [unfoldD, d1, Outcome.ok_bind, d2, Outcome.ok_bind, ← h]
  unfold EtherBuilder.build
  simp only []
  rw [rfin, rd'.fin]
  apply buildTail_congr
  rw [hx, LawfulBuffer.inner rd'.rep]
  congr 1
  simp [EtherState.bytes, ethernetFrame, hpay]

/-- A concrete case that meets the hypotheses. -/
example (cfg : Cfg) := C119_ether_partial cfg (zeros 100) Sample.eops [.protocol .arp] [1, 2] (by decide) rfl rfl
    (by in_every_build) _ (Sample.value_of (by in_every_build))

/-- C119, UDP in IPv4: what is built is the packet of the program without the later calls, last byte excepted. -/
theorem C119_udp_partial (cfg : Cfg) (storage : Bytes) (vops : List V4Op) (ops late : List UdpOp) (v : Bytes) (hv : v ≠ [])
    (hvo : vops.filterMap V4Op.payload? = []) (ho : ops.filterMap UdpOp.payload? = [])
    (hla : late.filterMap UdpOp.payload? = []) (hs : storage.length ≤ cfg.isizeMax)
    (hp : ∃ plain, ipv4Program cfg Dynamic.new vops (.udp ops) = .ok plain) (packet : Bytes)
    (h : ipv4Program cfg (Slice.new storage) vops (.udp (ops ++ [.payload v] ++ late)) = .ok packet) :
    ∃ x, ipv4Program cfg Dynamic.new vops
      (.udp (ops ++ [.payload ((misplaced 8 (storage.drop 28) v).dropLast ++ [x])])) = .ok packet := by
  obtain ⟨plain, hp⟩ := hp
  obtain ⟨a, out, ha, hap, hi⟩ := ipv4_runs hvo (inner := .udp ops) ho hp
  obtain ⟨u, hu, hup⟩ := udp_none (cfg := cfg) (n := 0) ho
  rw [ipv4_part] at h
  obtain ⟨x, hx⟩ := udp_late_static cfg (fresh_new hs) DynRep.new (by simp) [] vops ops late v hv hvo ho hla ha hap hu hup h
  refine ⟨x, ?_⟩
  rw [ipv4_part]
  simpa using hx

/-- A concrete case that meets the hypotheses. -/
example (cfg : Cfg) := C119_udp_partial cfg (zeros 100) Sample.vops Sample.udpHead [.destination 9] [1, 2] (by decide)
    rfl rfl rfl (by in_every_build) (Sample.reached (by in_every_build)) _ (Sample.value_of (by in_every_build))

/-- C119, UDP in IPv4 in Ethernet. -/
theorem C119_frame_udp_partial (cfg : Cfg) (storage : Bytes) (eops : List EtherOp) (vops : List V4Op)
    (ops late : List UdpOp) (v : Bytes) (hv : v ≠ []) (heo : eops.filterMap EtherOp.payload? = [])
    (hvo : vops.filterMap V4Op.payload? = []) (ho : ops.filterMap UdpOp.payload? = [])
    (hla : late.filterMap UdpOp.payload? = []) (hs : storage.length ≤ cfg.isizeMax)
    (hp : ∃ plain, ethernetProgram cfg Dynamic.new eops vops (.udp ops) = .ok plain) (packet : Bytes)
    (h : ethernetProgram cfg (Slice.new storage) eops vops (.udp (ops ++ [.payload v] ++ late)) = .ok packet) :
    ∃ x, ethernetProgram cfg Dynamic.new eops vops
      (.udp (ops ++ [.payload ((misplaced 8 (storage.drop 42) v).dropLast ++ [x])])) = .ok packet := by
  obtain ⟨plain, hp⟩ := hp
  obtain ⟨e, a, out, he, hep, ha, hap, hi⟩ := ethernet_runs heo hvo (inner := .udp ops) ho hp
  obtain ⟨u, hu, hup⟩ := udp_none (cfg := cfg) (n := 0) ho
  obtain ⟨h1, h2⟩ := frame_parts cfg hs eops heo he hep
  by_cases hc : 14 ≤ storage.length
  · obtain ⟨b, d, hdr, hl, hb, hd, hpr⟩ := h1 hc
    rw [(hpr _ _).1] at h
    obtain ⟨x, hx⟩ := udp_late_static cfg hb hd (by simp; omega) [EtherBuilder.ipFinalizer 0 14] vops ops late v hv hvo ho
      hla ha hap hu hup h
    refine ⟨x, ?_⟩
    rw [(hpr _ _).2]
    simpa [hl] using hx
  · rw [h2 (by omega)] at h
    cases h

/-- A concrete case that meets the hypotheses. -/
example (cfg : Cfg) := C119_frame_udp_partial cfg (zeros 100) Sample.eops Sample.vops Sample.udpHead [.destination 9]
    [1, 2] (by decide) rfl rfl rfl rfl (by in_every_build) (Sample.reached (by in_every_build)) _
    (Sample.value_of (by in_every_build))

/-- C119, TCP in IPv4: what is built is the packet of the program without the later calls, last byte excepted. -/
theorem C119_tcp_partial (cfg : Cfg) (storage : Bytes) (vops : List V4Op) (ops late : List TcpOp) (v : Bytes) (hv : v ≠ [])
    (hvo : vops.filterMap V4Op.payload? = []) (ho : ops.filterMap TcpOp.payload? = [])
    (hla : late.filterMap TcpOp.payload? = []) (hs : storage.length ≤ cfg.isizeMax)
    (hp : ∃ plain, ipv4Program cfg Dynamic.new vops (.tcp ops) = .ok plain) (packet : Bytes)
    (h : ipv4Program cfg (Slice.new storage) vops (.tcp (ops ++ [.payload v] ++ late)) = .ok packet) :
    ∃ x, ipv4Program cfg Dynamic.new vops
      (.tcp (ops ++ [.payload ((misplaced 20 (storage.drop 40) v).dropLast ++ [x])])) = .ok packet := by
  obtain ⟨plain, hp⟩ := hp
  obtain ⟨a, out, ha, hap, hi⟩ := ipv4_runs hvo (inner := .tcp ops) ho hp
  obtain ⟨u, hu, hup⟩ := tcp_none hap ho hi
  rw [ipv4_part] at h
  obtain ⟨x, hx⟩ := tcp_late_static cfg (fresh_new hs) DynRep.new (by simp) [] vops ops late v hv hvo ho hla ha hap hu hup h
  refine ⟨x, ?_⟩
  rw [ipv4_part]
  simpa using hx

seal ipv4Program ethernetProgram in
/-- A concrete case that meets the hypotheses. -/
example (cfg : Cfg) := C119_tcp_partial cfg (List.replicate 100 0x55#8) Sample.vops Sample.tcpHead [.window 9] [1, 2]
    (by decide) rfl rfl rfl (by in_every_build) (Sample.reached (by in_every_build)) _ (Sample.value_of (by in_every_build))

/-- C119, TCP in IPv4 in Ethernet. -/
theorem C119_frame_tcp_partial (cfg : Cfg) (storage : Bytes) (eops : List EtherOp) (vops : List V4Op)
    (ops late : List TcpOp) (v : Bytes) (hv : v ≠ []) (heo : eops.filterMap EtherOp.payload? = [])
    (hvo : vops.filterMap V4Op.payload? = []) (ho : ops.filterMap TcpOp.payload? = [])
    (hla : late.filterMap TcpOp.payload? = []) (hs : storage.length ≤ cfg.isizeMax)
    (hp : ∃ plain, ethernetProgram cfg Dynamic.new eops vops (.tcp ops) = .ok plain) (packet : Bytes)
    (h : ethernetProgram cfg (Slice.new storage) eops vops (.tcp (ops ++ [.payload v] ++ late)) = .ok packet) :
    ∃ x, ethernetProgram cfg Dynamic.new eops vops
      (.tcp (ops ++ [.payload ((misplaced 20 (storage.drop 54) v).dropLast ++ [x])])) = .ok packet := by
  obtain ⟨plain, hp⟩ := hp
  obtain ⟨e, a, out, he, hep, ha, hap, hi⟩ := ethernet_runs heo hvo (inner := .tcp ops) ho hp
  obtain ⟨u, hu, hup⟩ := tcp_none hap ho hi
  obtain ⟨h1, h2⟩ := frame_parts cfg hs eops heo he hep
  by_cases hc : 14 ≤ storage.length
  · obtain ⟨b, d, hdr, hl, hb, hd, hpr⟩ := h1 hc
    rw [(hpr _ _).1] at h
    obtain ⟨x, hx⟩ := tcp_late_static cfg hb hd (by simp; omega) [EtherBuilder.ipFinalizer 0 14] vops ops late v hv hvo ho
      hla ha hap hu hup h
    refine ⟨x, ?_⟩
    rw [(hpr _ _).2]
    simpa [hl] using hx
  · rw [h2 (by omega)] at h
    cases h

seal ipv4Program ethernetProgram in
/-- A concrete case that meets the hypotheses. -/
example (cfg : Cfg) := C119_frame_tcp_partial cfg (List.replicate 100 0x55#8) Sample.eops Sample.vops Sample.tcpHead
    [.window 9] [1, 2] (by decide) rfl rfl rfl rfl (by in_every_build) (Sample.reached (by in_every_build)) _
    (Sample.value_of (by in_every_build))

/-- C119, a raw IPv4 payload: never built, whatever is called afterwards. -/
theorem C119_raw (cfg : Cfg) (storage : Bytes) (vops late : List V4Op) (v : Bytes) (hv : v ≠ [])
    (hvo : vops.filterMap V4Op.payload? = []) (hla : late.filterMap V4Op.payload? = [])
    (hs : storage.length ≤ cfg.isizeMax) (hp : ∃ plain, ipv4Program cfg Dynamic.new vops .plain = .ok plain)
    (packet : Bytes) : ipv4Program cfg (Slice.new storage) (vops ++ [.payload v] ++ late) .plain ≠ .ok packet := by
  obtain ⟨plain, hp⟩ := hp
  obtain ⟨a, out, ha, hap, hi⟩ := ipv4_runs hvo rfl hp
  rw [ipv4_part]
  exact raw_late_static cfg (fresh_new hs) [] vops late v hv hvo hla ha hap packet

/-- A concrete case that meets the hypotheses. -/
example (cfg : Cfg) := C119_raw cfg (zeros 100) Sample.vops [.ttl 9] [1, 2] (by decide) rfl rfl (by in_every_build)
    (Sample.reached (by in_every_build))

/-- C119, a raw IPv4 payload in Ethernet. -/
theorem C119_frame_raw (cfg : Cfg) (storage : Bytes) (eops : List EtherOp) (vops late : List V4Op) (v : Bytes)
    (hv : v ≠ []) (heo : eops.filterMap EtherOp.payload? = []) (hvo : vops.filterMap V4Op.payload? = [])
    (hla : late.filterMap V4Op.payload? = []) (hs : storage.length ≤ cfg.isizeMax)
    (hp : ∃ plain, ethernetProgram cfg Dynamic.new eops vops .plain = .ok plain) (packet : Bytes) :
    ethernetProgram cfg (Slice.new storage) eops (vops ++ [.payload v] ++ late) .plain ≠ .ok packet := by
  obtain ⟨plain, hp⟩ := hp
  obtain ⟨e, a, out, he, hep, ha, hap, hi⟩ := ethernet_runs heo hvo rfl hp
  obtain ⟨h1, h2⟩ := frame_parts cfg hs eops heo he hep
  by_cases hc : 14 ≤ storage.length
  · obtain ⟨b, d, hdr, hl, hb, hd, hpr⟩ := h1 hc
    rw [(hpr _ _).1]
    exact raw_late_static cfg hb _ vops late v hv hvo hla ha hap packet
  · rw [h2 (by omega)]
    intro h
    cases h

/-- A concrete case that meets the hypotheses. -/
example (cfg : Cfg) := C119_frame_raw cfg (zeros 100) Sample.eops Sample.vops [.ttl 9] [1, 2] (by decide) rfl rfl rfl
    (by in_every_build) (Sample.reached (by in_every_build))

/-- C119, an echo message with a payload: never built. -/
theorem C119_echo (cfg : Cfg) (storage : Bytes) (ops late : List EchoOp) (v : Bytes) (hv : v ≠ [])
    (ho : ops.filterMap EchoOp.payload? = []) (hla : late.filterMap EchoOp.payload? = [])
    (hs : storage.length ≤ cfg.isizeMax) (packet : Bytes) :
    icmpProgram cfg (Slice.new storage) (.echo (ops ++ [.payload v] ++ late)) ≠ .ok packet :=
  echo_late_static cfg (fresh_new hs) [] ops late v hv ho hla packet

/-- A concrete case that meets the hypotheses. -/
example (cfg : Cfg) := C119_echo cfg (zeros 100) Sample.echoHead [.sequence 9] [1, 2] (by decide) rfl rfl (by in_every_build)

/-- C119, an echo message in IPv4. -/
theorem C119_icmp_echo (cfg : Cfg) (storage : Bytes) (vops : List V4Op) (ops late : List EchoOp) (v : Bytes)
    (hv : v ≠ []) (hvo : vops.filterMap V4Op.payload? = []) (ho : ops.filterMap EchoOp.payload? = [])
    (hla : late.filterMap EchoOp.payload? = []) (hs : storage.length ≤ cfg.isizeMax)
    (hp : ∃ plain, ipv4Program cfg Dynamic.new vops .plain = .ok plain) (packet : Bytes) :
    ipv4Program cfg (Slice.new storage) vops (.icmp (.echo (ops ++ [.payload v] ++ late))) ≠ .ok packet := by
  obtain ⟨plain, hp⟩ := hp
  obtain ⟨a, out, ha, hap, hi⟩ := ipv4_runs hvo rfl hp
  rw [ipv4_part]
  exact icmp_echo_late_static cfg (fresh_new hs) [] vops ops late v hv hvo ho hla ha hap packet

/-- A concrete case that meets the hypotheses. -/
example (cfg : Cfg) := C119_icmp_echo cfg (zeros 100) Sample.vops Sample.echoHead [.sequence 9] [1, 2] (by decide) rfl
    rfl rfl (by in_every_build) (Sample.reached (by in_every_build))

/-- C119, an echo message in IPv4 in Ethernet. -/
theorem C119_frame_echo (cfg : Cfg) (storage : Bytes) (eops : List EtherOp) (vops : List V4Op) (ops late : List EchoOp)
    (v : Bytes) (hv : v ≠ []) (heo : eops.filterMap EtherOp.payload? = [])
    (hvo : vops.filterMap V4Op.payload? = []) (ho : ops.filterMap EchoOp.payload? = [])
    (hla : late.filterMap EchoOp.payload? = []) (hs : storage.length ≤ cfg.isizeMax)
    (hp : ∃ plain, ethernetProgram cfg Dynamic.new eops vops .plain = .ok plain) (packet : Bytes) :
    ethernetProgram cfg (Slice.new storage) eops vops (.icmp (.echo (ops ++ [.payload v] ++ late))) ≠ .ok packet := by
  obtain ⟨plain, hp⟩ := hp
  obtain ⟨e, a, out, he, hep, ha, hap, hi⟩ := ethernet_runs heo hvo rfl hp
  obtain ⟨h1, h2⟩ := frame_parts cfg hs eops heo he hep
  by_cases hc : 14 ≤ storage.length
  · obtain ⟨b, d, hdr, hl, hb, hd, hpr⟩ := h1 hc
    rw [(hpr _ _).1]
    exact icmp_echo_late_static cfg hb _ vops ops late v hv hvo ho hla ha hap packet
  · rw [h2 (by omega)]
    intro h
    cases h

/-- A concrete case that meets the hypotheses. -/
example (cfg : Cfg) := C119_frame_echo cfg (zeros 100) Sample.eops Sample.vops Sample.echoHead [.sequence 9] [1, 2]
    (by decide) rfl rfl rfl rfl (by in_every_build) (Sample.reached (by in_every_build))

/-! ## Concrete cases -/

/-- The destination port set after the payload stays 0 on a static buffer, and is honoured on a growable one. -/
theorem C119_late_calls_refuted (cfg : Cfg) :
    ¬ ∀ (storage : Bytes) (ops late : List UdpOp) (v : Bytes) (p q : Bytes), storage.length ≤ cfg.isizeMax →
      ipv4Program cfg (Slice.new storage) [] (.udp (ops ++ [.payload v] ++ late)) = .ok p →
      ipv4Program cfg Dynamic.new [] (.udp (ops ++ [.payload v] ++ late)) = .ok q →
      (p.drop 20).take 4 = (q.drop 20).take 4 := by
  intro h
  obtain ⟨oc, ea, nw⟩ := cfg
  have := h (List.replicate 64 0#8) [.source 1024#16] [.destination 53#16] [0x11#8, 0x22#8]
    [69, 0, 0, 30, 0, 0, 0, 0, 0, 17, 186, 208, 0, 0, 0, 0, 0, 0, 0, 0, 4, 0, 0, 0, 0, 10, 251, 218, 0, 0]
    [69, 0, 0, 30, 0, 0, 0, 0, 0, 17, 186, 208, 0, 0, 0, 0, 0, 0, 0, 0, 4, 0, 0, 53, 0, 10, 234, 131, 17, 34]
    (by cases oc <;> cases ea <;> cases nw <;> decide +kernel) (by cases oc <;> cases ea <;> cases nw <;> decide +kernel)
    (by cases oc <;> cases ea <;> cases nw <;> decide +kernel)
  revert this
  decide +kernel

/-- A frame: protocol and source set after the payload are lost, and a later setter reaches the frame's last byte. -/
example (cfg : Cfg) :
    etherProgram cfg (Slice.new (List.replicate 40 0x55#8))
      ([.destination ⟨1, 2, 3, 4, 5, 6⟩] ++ [.payload [7]] ++ [.protocol .arp]) =
      .ok [1, 2, 3, 4, 5, 6, 0, 0, 0, 0, 0, 0, 0, 0, 0x55] ∧
    etherProgram cfg (Slice.new (List.replicate 40 0x55#8))
      ([] ++ [.payload [7]] ++ [.destination ⟨1, 2, 3, 4, 5, 6⟩]) =
      .ok [0, 0, 0, 0, 0, 0, 0, 0, 0, 0, 0, 0, 0, 0, 1] := by
  obtain ⟨oc, ea, nw⟩ := cfg
  cases oc <;> cases ea <;> cases nw <;> decide +kernel

/-- The programs the other theorems speak of do build. -/
example (cfg : Cfg) :
    (match ipv4Program cfg (Slice.new (List.replicate 90 0x55#8)) [.ttl 64#8]
        (.tcp ([.source 1024#16] ++ [.payload [1, 2]] ++ [.window 9#16])) with | .ok _ => true | _ => false) = true ∧
    (match ethernetProgram cfg (Slice.new (List.replicate 90 0x55#8)) [] [.ttl 64#8]
        (.tcp ([.source 1024#16] ++ [.payload [1, 2]] ++ [.window 9#16])) with | .ok _ => true | _ => false) = true ∧
    (match ethernetProgram cfg (Slice.new (List.replicate 90 0x55#8)) [] [.ttl 64#8]
        (.udp ([.source 1024#16] ++ [.payload [1, 2]] ++ [.destination 9#16])) with | .ok _ => true | _ => false) = true ∧
    (match ethernetProgram cfg Dynamic.new [] [.ttl 64#8] (.udp [.source 1024#16]) with
      | .ok _ => true | _ => false) = true ∧
    (match ethernetProgram cfg Dynamic.new [] [.ttl 64#8] (.tcp [.source 1024#16]) with
      | .ok _ => true | _ => false) = true := by
  obtain ⟨oc, ea, nw⟩ := cfg
  cases oc <;> cases ea <;> cases nw <;> decide +kernel

end Verif.Props
