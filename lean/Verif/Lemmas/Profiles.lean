import Verif.Spec.Profiles
import Verif.Model.Nested
import Verif.Model.Debug
import Verif.Model.Storage
import Verif.Model.UserFinalizers

/-! # Debug and release builds, function by function -/

namespace Verif
open Verif.Spec

theorem Spec.Stricter.mk' (e w : Bool) : Stricter (debugBuild e w) (releaseBuild e w) := ⟨rfl, rfl, id⟩

theorem Spec.Stricter.usize {d r : Cfg} (p : Stricter d r) : d.usizeMod ≤ r.usizeMod := by
  have h := p.wide
  unfold Cfg.usizeMod
  cases hd : d.narrow <;> cases hr : r.narrow <;> simp_all

theorem Spec.Stricter.isize {d r : Cfg} (p : Stricter d r) : d.isizeMax ≤ r.isizeMax := by
  have h := p.wide
  unfold Cfg.isizeMax
  cases hd : d.narrow <;> cases hr : r.narrow <;> simp_all

namespace Spec.SameUnlessPanic

theorem refl {α : Type} (x : Outcome α) : SameUnlessPanic x x := .inr rfl

theorem panic {α : Type} (x : Outcome α) : SameUnlessPanic .panic x := .inl rfl

theorem bind {α β : Type} {x y : Outcome α} {f g : α → Outcome β} (h : SameUnlessPanic x y)
    (hf : ∀ a, SameUnlessPanic (f a) (g a)) : SameUnlessPanic (x >>= f) (y >>= g) := by
  rcases h with rfl | rfl
  · exact .inl rfl
  · cases y with
    | ok a => exact hf a
    | err e => exact .inr rfl
    | panic => exact .inl rfl

theorem unwrap {α : Type} {x y : Outcome α} (h : SameUnlessPanic x y) : SameUnlessPanic x.unwrap y.unwrap := by
  rcases h with rfl | rfl
  · exact .inl rfl
  · exact .inr rfl

end Spec.SameUnlessPanic

namespace Spec.SameUnlessPanicMut
variable {σ α β : Type}

theorem refl (x : Mut σ α) : SameUnlessPanicMut x x := fun _ => .inr rfl

theorem bind {x y : Mut σ α} {f g : α → Mut σ β} (h : SameUnlessPanicMut x y)
    (hf : ∀ a, SameUnlessPanicMut (f a) (g a)) : SameUnlessPanicMut (x >>= f) (y >>= g) := by
  intro s
  rw [Mut.bind_apply, Mut.bind_apply]
  rcases h s with h | h
  · left
    match hx : x s, h with
    | (.panic, s'), _ => rfl
  · rw [h]
    match hx : x s with
    | (.ok a, s') => exact hf a s'
    | (.err e, s') => exact .inr rfl
    | (.panic, s') => exact .inl rfl

theorem read {f g : σ → Outcome α} (h : ∀ s, SameUnlessPanic (f s) (g s)) :
    SameUnlessPanicMut (Mut.read f) (Mut.read g) := by
  intro s
  rcases h s with h | h
  · exact .inl h
  · exact .inr (by unfold Mut.read; rw [h])

theorem unwrap {x y : Mut σ α} (h : SameUnlessPanicMut x y) : SameUnlessPanicMut x.unwrap y.unwrap := by
  intro s
  rcases h s with h | h
  · left; unfold Mut.unwrap; rw [h]; rfl
  · right; unfold Mut.unwrap; rw [h]

theorem editing {new : Bytes → Outcome Bytes} {f g : Mut Bytes Unit} (h : SameUnlessPanicMut f g) :
    SameUnlessPanicMut (editing new f) (editing new g) := by
  intro b
  unfold Verif.editing
  cases new b with
  | ok p => exact h p
  | err e => exact .inr rfl
  | panic => exact .inr rfl

theorem inPayload (k : Kind) {f g : Mut Bytes α} (h : SameUnlessPanicMut f g) :
    SameUnlessPanicMut (k.inPayload f) (k.inPayload g) := by
  intro b
  unfold Kind.inPayload
  split
  · rename_i s _ _ _
    rcases h s.2 with h | h
    · exact .inl h
    · exact .inr (by rw [h])
  · exact .inr rfl

theorem onBuffer {B : Type} {f g : Mut B α} (h : SameUnlessPanicMut f g) (b : B) :
    SameUnlessPanic (onBuffer f b) (onBuffer g b) := by
  unfold Verif.onBuffer
  rcases h b with h | h
  · left
    match hx : f b, h with
    | (.panic, _), _ => rfl
  · exact .inr (by rw [h])

end Spec.SameUnlessPanicMut

open SameUnlessPanic

variable {d r : Cfg}

/-! ## Arithmetic -/

theorem Spec.Stricter.addUsize (p : Stricter d r) (a b : Nat) : SameUnlessPanic (addUsize d a b) (addUsize r a b) := by
  have hw := p.usize
  unfold Verif.addUsize
  split
  · rw [if_pos (by omega)]; exact .inr rfl
  · rw [p.checks]; exact .inl rfl

theorem Spec.Stricter.vecResize (p : Stricter d r) (v : Bytes) (n : Nat) :
    SameUnlessPanic (vecResize d v n) (vecResize r v n) := by
  have hw := p.isize
  unfold Verif.vecResize
  split
  · rw [if_pos (by omega)]; exact .inr rfl
  · exact .inl rfl

theorem Spec.Stricter.subUsize (p : Stricter d r) (a b : Nat) : SameUnlessPanic (subUsize d a b) (subUsize r a b) := by
  unfold Verif.subUsize
  split
  · exact .inr rfl
  · rw [p.checks]; exact .inl rfl

theorem Spec.Stricter.addU32 (p : Stricter d r) (a b : U32) : SameUnlessPanic (addU32 d a b) (addU32 r a b) := by
  unfold Verif.addU32
  split
  · exact .inr rfl
  · rw [p.checks]; exact .inl rfl

theorem Spec.Stricter.subU32 (p : Stricter d r) (a b : U32) : SameUnlessPanic (subU32 d a b) (subU32 r a b) := by
  unfold Verif.subU32
  split
  · exact .inr rfl
  · rw [p.checks]; exact .inl rfl

theorem Spec.Stricter.atEof (p : Stricter d r) (c : Cursor) : c.atEof r = c.atEof d := by
  unfold Cursor.atEof; rw [p.eof]

theorem Spec.Stricter.readU8 (p : Stricter d r) (c : Cursor) : c.readU8 r = c.readU8 d := by
  unfold Cursor.readU8; split
  · rfl
  · rw [p.atEof]

/-! ## Checksums -/

theorem Spec.Stricter.addFold (p : Stricter d r) (a : U32) (v : U16) : SameUnlessPanic (addFold d a v) (addFold r a v) := by
  unfold Verif.addFold
  refine SameUnlessPanic.bind (p.addU32 _ _) fun x => ?_
  split
  · exact p.subU32 _ _
  · exact .inr rfl

theorem Spec.Stricter.sumLoop (p : Stricter d r) (skip : Nat) (b : Bytes) (pos : Nat) (a : U32) :
    SameUnlessPanic (sumLoop d skip b pos a) (sumLoop r skip b pos a) := by
  induction b, pos, a using sumLoop.induct skip with
  | case1 a b rest pos x h ih => rw [Verif.sumLoop, Verif.sumLoop, if_pos h, if_pos h]; exact ih
  | case2 a b rest pos x h ih =>
    rw [Verif.sumLoop, Verif.sumLoop, if_neg h, if_neg h]
    exact SameUnlessPanic.bind (p.addFold _ _) fun y => ih y
  | case3 t pos x h =>
    match t with
    | [] => right; simp [Verif.sumLoop, p.atEof]
    | [a] => right; simp [Verif.sumLoop, p.atEof]
    | a :: b :: r => exact absurd rfl (h a b r)

theorem Spec.Stricter.plainLoop (p : Stricter d r) (skip : Nat) (b : Bytes) (pos n : Nat) (a : U32) :
    SameUnlessPanic (plainLoop d skip b pos n a) (plainLoop r skip b pos n a) := by
  induction b, pos, n, a using plainLoop.induct skip with
  | case1 a b rest pos n x h ih => rw [Verif.plainLoop, Verif.plainLoop, if_pos h, if_pos h]; exact ih
  | case2 a b rest pos n x h ih =>
    rw [Verif.plainLoop, Verif.plainLoop, if_neg h, if_neg h]
    exact SameUnlessPanic.bind (p.addU32 _ _) fun y => ih y
  | case3 t pos n x h =>
    match t with
    | [] => right; simp [Verif.plainLoop, p.atEof]
    | [a] => right; simp [Verif.plainLoop, p.atEof]
    | a :: b :: r => exact absurd rfl (h a b r)

theorem Spec.Stricter.v4Sum (p : Stricter d r) (b : Bytes) : SameUnlessPanic (V4.checksumOf d b) (V4.checksumOf r b) :=
  SameUnlessPanic.bind (p.sumLoop _ _ _ _) fun _ => .inr rfl

theorem Spec.Stricter.icmpSum (p : Stricter d r) (b : Bytes) : SameUnlessPanic (Icmp.checksumOf d b) (Icmp.checksumOf r b) := by
  exact SameUnlessPanic.bind (p.sumLoop _ _ _ _) fun _ => .inr rfl

theorem Spec.Stricter.udpSum (p : Stricter d r) (ip : IpPacket) (b : Bytes) :
    SameUnlessPanic (Udp.checksumOf d ip b) (Udp.checksumOf r ip b) := by
  unfold Udp.checksumOf
  split
  · exact .inl rfl
  · refine SameUnlessPanic.bind (.inr rfl) fun src => SameUnlessPanic.bind (.inr rfl) fun dst =>
      SameUnlessPanic.bind (p.sumLoop _ _ _ _) fun x => SameUnlessPanic.bind (p.sumLoop _ _ _ _) fun y => ?_
    rw [p.readU8]
    split
    · exact SameUnlessPanic.bind (p.addFold _ _) fun _ => .inr rfl
    · exact .inr rfl

theorem Spec.Stricter.tcpSum (p : Stricter d r) (ip : IpPacket) (b : Bytes) :
    SameUnlessPanic (Tcp.checksumOf d ip b) (Tcp.checksumOf r ip b) := by
  unfold Tcp.checksumOf
  split
  · exact .inl rfl
  · refine SameUnlessPanic.bind (.inr rfl) fun src => SameUnlessPanic.bind (.inr rfl) fun dst =>
      SameUnlessPanic.bind (p.plainLoop _ _ _ _ _) fun x => SameUnlessPanic.bind (p.plainLoop _ _ _ _ _) fun y => ?_
    split
    · rw [p.readU8]
      exact SameUnlessPanic.bind (.inr rfl) fun _ => SameUnlessPanic.bind (p.addU32 _ _) fun _ => .inr rfl
    · exact .inr rfl

/-! ## Packets -/

theorem Spec.Stricter.v4Valid (p : Stricter d r) (b : Bytes) : SameUnlessPanic (V4.isValid d b) (V4.isValid r b) :=
  SameUnlessPanic.bind (.inr rfl) fun _ => SameUnlessPanic.bind (p.v4Sum _) fun _ => .inr rfl

theorem Spec.Stricter.icmpValid (p : Stricter d r) (b : Bytes) : SameUnlessPanic (Icmp.isValid d b) (Icmp.isValid r b) :=
  SameUnlessPanic.bind (p.icmpSum _) fun _ => .inr rfl

theorem Spec.Stricter.udpValid (p : Stricter d r) (ip : IpPacket) (b : Bytes) :
    SameUnlessPanic (Udp.isValid d ip b) (Udp.isValid r ip b) :=
  SameUnlessPanic.bind (p.udpSum _ _) fun _ => .inr rfl

theorem Spec.Stricter.tcpValid (p : Stricter d r) (ip : IpPacket) (b : Bytes) :
    SameUnlessPanic (Tcp.isValid d ip b) (Tcp.isValid r ip b) :=
  SameUnlessPanic.bind (p.tcpSum _ _) fun _ => .inr rfl

theorem Spec.Stricter.v4Update (p : Stricter d r) : SameUnlessPanicMut (V4.updateChecksum d) (V4.updateChecksum r) :=
  SameUnlessPanicMut.bind (SameUnlessPanicMut.read fun _ => SameUnlessPanic.bind (.inr rfl) fun _ => p.v4Sum _)
    fun _ => .refl _

theorem Spec.Stricter.udpUpdate (p : Stricter d r) (ip : IpPacket) :
    SameUnlessPanicMut (Udp.updateChecksum d ip) (Udp.updateChecksum r ip) :=
  SameUnlessPanicMut.bind (SameUnlessPanicMut.read fun _ => p.udpSum _ _) fun _ => .refl _

theorem Spec.Stricter.tcpUpdate (p : Stricter d r) (ip : IpPacket) :
    SameUnlessPanicMut (Tcp.updateChecksum d ip) (Tcp.updateChecksum r ip) :=
  SameUnlessPanicMut.bind (SameUnlessPanicMut.read fun _ => p.tcpSum _ _) fun _ => .refl _

theorem Spec.Stricter.icmpDrop (p : Stricter d r) {view view' : Bytes → Outcome Nat} (h : ∀ b, SameUnlessPanic (view b) (view' b)) :
    SameUnlessPanicMut (Icmp.dropChecked d view) (Icmp.dropChecked r view') := by
  intro b
  unfold Icmp.dropChecked
  have hs : SameUnlessPanic (do let n ← view b; sliceTo b n) (do let n ← view' b; sliceTo b n) :=
    SameUnlessPanic.bind (h b) fun _ => .inr rfl
  rcases hs with hs | hs
  · left; rw [hs]
  · rw [hs]
    cases (do let n ← view b; sliceTo b n) with
    | ok v =>
      simp only []
      rcases p.icmpSum v with hc | hc
      · left; rw [hc]
      · right; rw [hc]
    | err e => exact .inr rfl
    | panic => exact .inr rfl

theorem Spec.Stricter.echoSize (p : Stricter d r) (b : Bytes) : SameUnlessPanic (Echo.size d b) (Echo.size r b) :=
  SameUnlessPanic.bind (.inr rfl) fun _ => SameUnlessPanic.bind (p.subUsize _ _) fun _ => p.addUsize _ _

theorem Spec.Stricter.v4Checked (p : Stricter d r) (ops : List V4.Set) :
    SameUnlessPanicMut (V4.checkedRun d ops) (V4.checkedRun r ops) :=
  SameUnlessPanicMut.bind (.refl _) fun _ => SameUnlessPanicMut.unwrap p.v4Update

theorem Spec.Stricter.udpChecked (p : Stricter d r) (ip : IpPacket) (ops : List Udp.Set) :
    SameUnlessPanicMut (Udp.checkedRun d ip ops) (Udp.checkedRun r ip ops) :=
  SameUnlessPanicMut.bind (.refl _) fun _ => SameUnlessPanicMut.unwrap (p.udpUpdate ip)

theorem Spec.Stricter.tcpChecked (p : Stricter d r) (ip : IpPacket) (ops : List Tcp.Set) :
    SameUnlessPanicMut (Tcp.checkedRun d ip ops) (Tcp.checkedRun r ip ops) :=
  SameUnlessPanicMut.bind (.refl _) fun _ => SameUnlessPanicMut.unwrap (p.tcpUpdate ip)

theorem Spec.Stricter.echoChecked (p : Stricter d r) (ops : List Echo.Set) :
    SameUnlessPanicMut (Echo.checkedRun d ops) (Echo.checkedRun r ops) :=
  SameUnlessPanicMut.bind (.refl _) fun _ => p.icmpDrop p.echoSize

theorem Spec.Stricter.timestampChecked (p : Stricter d r) (ops : List Timestamp.Set) :
    SameUnlessPanicMut (Timestamp.checkedRun d ops) (Timestamp.checkedRun r ops) :=
  SameUnlessPanicMut.bind (.refl _) fun _ => p.icmpDrop fun _ => .inr rfl

theorem Spec.Stricter.informationChecked (p : Stricter d r) (ops : List Information.Set) :
    SameUnlessPanicMut (Information.checkedRun d ops) (Information.checkedRun r ops) :=
  SameUnlessPanicMut.bind (.refl _) fun _ => p.icmpDrop fun _ => .inr rfl

/-- Sizes and views of a packet type agree. -/
structure Kind.Agrees (k : Kind) (d r : Cfg) : Prop where
  asRef : ∀ b, SameUnlessPanic (k.asRef d b) (k.asRef r b)
  payloadSize : ∀ b, SameUnlessPanic (k.payloadSize d b) (k.payloadSize r b)

theorem Kind.Agrees.size {k : Kind} (h : k.Agrees d r) (p : Stricter d r) (b : Bytes) :
    SameUnlessPanic (k.size d b) (k.size r b) :=
  SameUnlessPanic.bind (.inr rfl) fun _ => SameUnlessPanic.bind (h.payloadSize b) fun _ => p.addUsize _ _

theorem Kind.Agrees.writeAll {k : Kind} (h : k.Agrees d r) (v : Bytes) :
    SameUnlessPanicMut (k.writeAll d v) (k.writeAll r v) := by
  intro b
  unfold Kind.writeAll
  rcases h.asRef b with hs | hs
  · left; rw [hs]
  · right; rw [hs]

theorem Kind.Agrees.inAll {α : Type} {k : Kind} (h : k.Agrees d r) {f g : Mut Bytes α} (hf : SameUnlessPanicMut f g) :
    SameUnlessPanicMut (k.inAll d f) (k.inAll r g) := by
  intro b
  unfold Kind.inAll
  rcases h.asRef b with hs | hs
  · left; rw [hs]
  · rw [hs]
    cases k.asRef d b with
    | ok v =>
      rcases hf v with hc | hc
      · exact .inl hc
      · right; simp only [hc]
    | err e => exact .inr rfl
    | panic => exact .inr rfl

theorem Spec.Stricter.quotedPayloadSize (p : Stricter d r) (b : Bytes) :
    SameUnlessPanic (quotedPayloadSize d b) (quotedPayloadSize r b) := by
  unfold Verif.quotedPayloadSize
  split
  · exact .inr rfl
  · exact p.subUsize _ _
  · exact .inr rfl

theorem Spec.Stricter.quotedAsRef (p : Stricter d r) (b : Bytes) : SameUnlessPanic (quotedAsRef d b) (quotedAsRef r b) :=
  SameUnlessPanic.bind (p.quotedPayloadSize b) fun _ => SameUnlessPanic.bind (p.addUsize _ _) fun _ => .inr rfl

theorem Spec.Stricter.optPayloadSize (p : Stricter d r) (k : OptKind) (b : Bytes) :
    SameUnlessPanic (Opt.payloadSize d k b) (Opt.payloadSize r k b) := by
  unfold Opt.payloadSize
  refine SameUnlessPanic.bind (.inr rfl) fun n => ?_
  split
  · exact .inr rfl
  · exact p.subUsize _ _

theorem Spec.Stricter.optSize (p : Stricter d r) (k : OptKind) (b : Bytes) : SameUnlessPanic (Opt.size d k b) (Opt.size r k b) :=
  SameUnlessPanic.bind (.inr rfl) fun _ => SameUnlessPanic.bind (p.optPayloadSize k b) fun _ => p.addUsize _ _

theorem Spec.Stricter.tcpPayloadSize (p : Stricter d r) (b : Bytes) : SameUnlessPanic (Tcp.payloadSize d b) (Tcp.payloadSize r b) :=
  SameUnlessPanic.bind (.inr rfl) fun _ => p.subUsize _ _

theorem Spec.Stricter.kinds (p : Stricter d r) :
    Kind.ether.Agrees d r ∧ Kind.v4.Agrees d r ∧ Kind.v6.Agrees d r ∧ Kind.udp.Agrees d r ∧ Kind.tcp.Agrees d r ∧
    Kind.icmp.Agrees d r ∧ Kind.echo.Agrees d r ∧ Kind.timestamp.Agrees d r ∧ Kind.information.Agrees d r ∧
    Kind.previous.Agrees d r ∧ Kind.redirect.Agrees d r ∧ Kind.parameterProblem.Agrees d r ∧
    ∀ k, (Kind.option k).Agrees d r := by
  refine ⟨⟨fun _ => ?_, fun _ => p.subUsize _ _⟩, ⟨fun _ => .inr rfl, fun _ => .inr rfl⟩,
    ⟨fun _ => .inr rfl, fun _ => .inr rfl⟩, ⟨fun _ => .inr rfl, fun _ => .inr rfl⟩, ⟨fun _ => ?_, fun _ => p.tcpPayloadSize _⟩,
    ⟨fun _ => ?_, fun _ => p.subUsize _ _⟩, ⟨fun _ => ?_, fun _ => p.subUsize _ _⟩,
    ⟨fun _ => .inr rfl, fun _ => .inr rfl⟩, ⟨fun _ => .inr rfl, fun _ => .inr rfl⟩,
    ⟨fun _ => p.quotedAsRef _, fun _ => p.quotedPayloadSize _⟩, ⟨fun _ => p.quotedAsRef _, fun _ => p.quotedPayloadSize _⟩,
    ⟨fun _ => p.quotedAsRef _, fun _ => p.quotedPayloadSize _⟩,
    fun k => ⟨fun _ => SameUnlessPanic.bind (p.optSize k _) fun _ => .inr rfl, fun _ => p.optPayloadSize k _⟩⟩
  · exact SameUnlessPanic.bind (SameUnlessPanic.bind (.inr rfl) fun _ => SameUnlessPanic.bind (p.subUsize _ _) fun _ =>
      p.addUsize _ _) fun _ => .inr rfl
  · exact SameUnlessPanic.bind (SameUnlessPanic.bind (.inr rfl) fun _ => SameUnlessPanic.bind (p.tcpPayloadSize _) fun _ =>
      p.addUsize _ _) fun _ => .inr rfl
  · exact SameUnlessPanic.bind (SameUnlessPanic.bind (.inr rfl) fun _ => SameUnlessPanic.bind (p.subUsize _ _) fun _ =>
      p.addUsize _ _) fun _ => .inr rfl
  · exact SameUnlessPanic.bind (p.echoSize _) fun _ => .inr rfl

theorem Spec.Stricter.optNext (p : Stricter d r) (k : OptKind) : SameUnlessPanicMut (Opt.next d k) (Opt.next r k) := by
  intro b
  unfold Opt.next
  by_cases hb : b.isEmpty
  · rw [if_pos hb, if_pos hb]; exact .inr rfl
  · rw [if_neg hb, if_neg hb]
    cases Opt.new k b with
    | ok o =>
      simp only []
      cases idx o 0 with
      | ok x =>
        simp only []
        by_cases hx : k.isEnd x
        · rw [if_pos hx, if_pos hx]; exact .inr rfl
        · rw [if_neg hx, if_neg hx]
          rcases p.optSize k o with hs | hs
          · left; rw [hs]
          · right; rw [hs]
      | err e => exact .inr rfl
      | panic => exact .inr rfl
    | err e => exact .inr rfl
    | panic => exact .inr rfl

theorem Spec.Stricter.optTake (p : Stricter d r) (k : OptKind) : ∀ n, SameUnlessPanicMut (Opt.take d k n) (Opt.take r k n)
  | 0 => fun _ => .inr rfl
  | n + 1 => by
    intro b
    unfold Opt.take
    rcases p.optNext k b with h | h
    · left
      rcases hx : Opt.next d k b with ⟨x, b'⟩
      rw [hx] at h
      cases h
      rfl
    · rw [h]
      match hx : Opt.next d k b with
      | (.ok none, b') => exact .inr rfl
      | (.ok (some item), b') =>
        simp only []
        rcases p.optTake k n b' with ht | ht
        · left
          match hy : Opt.take d k n b', ht with
          | (.panic, s'), _ => rfl
        · right; rw [ht]
      | (.err e, b') => exact .inr rfl
      | (.panic, b') => exact .inr rfl

/-! ## `Debug` -/

theorem Spec.Stricter.v4Debug (p : Stricter d r) (b : Bytes) : SameUnlessPanic (V4.debug d b) (V4.debug r b) :=
  SameUnlessPanic.bind (p.v4Valid _) fun _ => .inr rfl

theorem Spec.Stricter.icmpDebug (p : Stricter d r) (b : Bytes) : SameUnlessPanic (Icmp.debug d b) (Icmp.debug r b) :=
  SameUnlessPanic.bind (p.icmpValid _) fun _ => .inr rfl

theorem Spec.Stricter.debugPacket (p : Stricter d r) (x : Outcome Bytes) :
    SameUnlessPanic (debugPacket d x) (debugPacket r x) := by
  unfold Verif.debugPacket
  cases x with
  | ok b => exact SameUnlessPanic.bind (p.v4Debug _) fun _ => .inr rfl
  | err e => exact .inr rfl
  | panic => exact .inr rfl

theorem Spec.Stricter.previousDebug (p : Stricter d r) (b : Bytes) : SameUnlessPanic (Previous.debug d b) (Previous.debug r b) :=
  SameUnlessPanic.bind (p.debugPacket _) fun _ => .inr rfl

theorem Spec.Stricter.redirectDebug (p : Stricter d r) (b : Bytes) : SameUnlessPanic (Redirect.debug d b) (Redirect.debug r b) := by
  unfold Redirect.debug
  exact SameUnlessPanic.bind (.inr rfl) fun _ => SameUnlessPanic.bind (p.debugPacket _) fun _ => .inr rfl

theorem Spec.Stricter.problemDebug (p : Stricter d r) (b : Bytes) :
    SameUnlessPanic (ParamProblem.debug d b) (ParamProblem.debug r b) := by
  unfold ParamProblem.debug
  exact SameUnlessPanic.bind (.inr rfl) fun _ => SameUnlessPanic.bind (p.debugPacket _) fun _ => .inr rfl

/-! ## Sessions -/

theorem Spec.Stricter.v4Stack (p : Stricter d r) (ops : List V4.Set) {f g : IpPacket → Mut Bytes Unit}
    (h : ∀ ip, SameUnlessPanicMut (f ip) (g ip)) :
    SameUnlessPanicMut (V4.editStack d ops f) (V4.editStack r ops g) :=
  SameUnlessPanicMut.editing (SameUnlessPanicMut.bind (p.v4Checked ops) fun _ =>
    SameUnlessPanicMut.bind (.refl _) fun _ => SameUnlessPanicMut.inPayload _ (h _))

theorem Spec.Stricter.etherStack (ops : List Ether.Set) {f g : Mut Bytes Unit} (h : SameUnlessPanicMut f g) :
    SameUnlessPanicMut (Ether.editStack ops f) (Ether.editStack ops g) :=
  SameUnlessPanicMut.editing (SameUnlessPanicMut.bind (.refl _) fun _ => SameUnlessPanicMut.inPayload _ h)

theorem Spec.Stricter.session (p : Stricter d r) (s : Icmp.Session) : SameUnlessPanicMut (s.run d) (s.run r) := by
  cases s with
  | echo ops => exact SameUnlessPanicMut.editing (p.echoChecked ops)
  | timestamp ops => exact SameUnlessPanicMut.editing (p.timestampChecked ops)
  | information ops => exact SameUnlessPanicMut.editing (p.informationChecked ops)

end Verif
