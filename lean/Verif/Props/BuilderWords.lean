import Verif.Props.BuildersPanics
import Verif.Props.Builders
import Verif.Lemmas.History
import Verif.Samples

/-! # C97, C98: what dscp(), ecn(), flags() and offset() on an IPv4 builder put on the wire -/

namespace Verif

/-! ## What is expected and what happens -/

/-- What a call asks of the 16-bit word at byte 6.  The ideal would be three flag bits and a 13-bit offset; the
code writes its argument over the whole word. -/
def V4Op.word? : V4Op → Option U16
  | .flags v => some v.bits
  | .offset v => some v
  | _ => none

/-- DSCP and ECN after a call: `dscp()` replaces the DSCP; `ecn()` clears the two upper bits of the DSCP and adds the
bits of its argument to the ECN bits already there. -/
def V4Op.track : V4Op → Nat × Nat → Nat × Nat
  | .dscp v, (_, e) => (v.toNat, e)
  | .ecn v, (d, e) => (d % 16, e ||| v.toNat)
  | _, x => x

end Verif

namespace Verif.Props
open Verif Verif.Spec

/-! ## The abstract run -/

/-- A successful run is a fold of the steps. -/
theorem runOps_steps {A Op : Type} {abs : Op → A → Outcome A} {step : Op → A → A}
    (h : ∀ op a b, abs op a = .ok b → b = step op a) : ∀ (ops : List Op) (a b : A),
    runOps abs ops a = .ok b → b = ops.foldl (fun a op => step op a) a := by
  intro ops
  induction ops with
  | nil => intro a b hb; injection hb with hb; exact hb.symm
  | cons op ops ih =>
    intro a b hb
    obtain ⟨c, hc, hb⟩ := bind_ok_inv hb
    rw [List.foldl_cons, ← h op a c hc]
    exact ih c b hb

theorem v4_abs_step (op : V4Op) (a b : V4State) (h : op.abs a = .ok b) : b = op.step a := by
  cases op <;> simp only [V4Op.abs] at h <;> first
    | (injection h with h; exact h.symm)
    | (split at h
       · cases h
       · injection h with h; exact h.symm)

theorem tos_step (op : V4Op) (a b : V4State) (h : op.abs a = .ok b) :
    (b.fields.tos.toNat / 4, b.fields.tos.toNat % 4) = op.track (a.fields.tos.toNat / 4, a.fields.tos.toNat % 4) := by
  have hd : ∀ x : Nat, x < 256 → ∀ y : Nat, y < 64 →
      (((BitVec.ofNat 8 x &&& 0b11#8) ||| (BitVec.ofNat 8 y <<< 2)).toNat / 4,
        ((BitVec.ofNat 8 x &&& 0b11#8) ||| (BitVec.ofNat 8 y <<< 2)).toNat % 4) = (y, x % 4) := by decide +kernel
  have he : ∀ x : Nat, x < 256 → ∀ y : Nat, y < 4 →
      (((BitVec.ofNat 8 x &&& 0b111111#8) ||| BitVec.ofNat 8 y).toNat / 4,
        ((BitVec.ofNat 8 x &&& 0b111111#8) ||| BitVec.ofNat 8 y).toNat % 4) = (x / 4 % 16, x % 4 ||| y) := by
    decide +kernel
  have hb := v4_abs_step op a b h
  subst hb
  cases op with
  | dscp v =>
    have hv : v.toNat ≤ 63 := by
      simp only [V4Op.abs] at h
      split at h
      · cases h
      · omega
    have := hd a.fields.tos.toNat a.fields.tos.isLt v.toNat (by omega)
    rw [BitVec.ofNat_toNat, BitVec.setWidth_eq, BitVec.ofNat_toNat, BitVec.setWidth_eq] at this
    exact this
  | ecn v =>
    have hv : v.toNat ≤ 3 := by
      simp only [V4Op.abs] at h
      split at h
      · cases h
      · omega
    have := he a.fields.tos.toNat a.fields.tos.isLt v.toNat (by omega)
    rw [BitVec.ofNat_toNat, BitVec.setWidth_eq, BitVec.ofNat_toNat, BitVec.setWidth_eq] at this
    exact this
  | _ => rfl

theorem tos_run : ∀ (ops : List V4Op) (a b : V4State), runOps V4Op.abs ops a = .ok b →
    (b.fields.tos.toNat / 4, b.fields.tos.toNat % 4) =
      ops.foldl (fun x op => op.track x) (a.fields.tos.toNat / 4, a.fields.tos.toNat % 4) := by
  intro ops
  induction ops with
  | nil => intro a b hb; injection hb with hb; rw [hb]; rfl
  | cons op ops ih =>
    intro a b hb
    obtain ⟨c, hc, hb⟩ := bind_ok_inv hb
    rw [List.foldl_cons, ← tos_step op a c hc]
    exact ih c b hb

theorem word_run (ops : List V4Op) (a : V4State) (h : runOps V4Op.abs ops .init = .ok a) :
    a.fields.fragment = last V4Op.word? 0 ops := by
  rw [runOps_steps (abs := V4Op.abs) (step := V4Op.step) v4_abs_step ops _ a h]
  exact foldl_last V4Op.step (fun a => a.fields.fragment) V4Op.word? (by intro op a; cases op <;> rfl) ops .init

theorem fields_ok_run (ops : List V4Op) (a b : V4State) (h : runOps V4Op.abs ops a = .ok b)
    (ha : Ipv4Fields.ok a.fields) : Ipv4Fields.ok b.fields := by
  induction ops generalizing a with
  | nil => injection h with h; rw [← h]; exact ha
  | cons op ops ih =>
    obtain ⟨c, hc, h⟩ := bind_ok_inv h
    refine ih c h ?_
    rw [v4_abs_step op a c hc]
    obtain ⟨⟨s, hs⟩, ⟨d, hd⟩⟩ := ha
    cases op with
    | source v => exact ⟨⟨v, rfl⟩, ⟨d, hd⟩⟩
    | destination v => exact ⟨⟨s, hs⟩, ⟨v, rfl⟩⟩
    | _ => exact ⟨⟨s, hs⟩, ⟨d, hd⟩⟩

/-! ## The bytes -/

/-- Bytes 1, 6 and 7 of whatever the program returns are those of the builder's header. -/
theorem built_bytes (cfg : Cfg) (vops : List V4Op) (inner : Inner) (hv : ∀ op ∈ vops, op.Sane cfg) (hi : inner.Sane cfg)
    {out : Bytes} (h : ipv4Program cfg Dynamic.new vops inner = .ok out) :
    ∃ a, runOps V4Op.abs vops .init = .ok a ∧ 20 ≤ out.length ∧ out.getD 1 0#8 = a.fields.tos ∧
      [out.getD 6 0#8, out.getD 7 0#8] = be16 a.fields.fragment := by
  rw [ipv4Program_dynamic cfg _ _ hv hi] at h
  unfold ipv4Abs at h
  rw [need_dynamic (by omega), Outcome.ok_bind] at h
  obtain ⟨a, hrun, h⟩ := bind_ok_inv h
  refine ⟨a, hrun, ?_⟩
  have hok := fields_ok_run vops _ _ hrun ⟨⟨.zero, rfl⟩, ⟨.zero, rfl⟩⟩
  have hseal : ∀ (w : U8) (d : Bytes), sealV4 cfg { a.fields with protocol := w } d = .ok out →
      20 ≤ out.length ∧ out.getD 1 0#8 = a.fields.tos ∧
      [out.getD 6 0#8, out.getD 7 0#8] = be16 a.fields.fragment := by
    intro w d hs
    unfold sealV4 at hs
    obtain ⟨ck, -, hs⟩ := bind_ok_inv hs
    injection hs with hs
    subst hs
    have hok' : Ipv4Fields.ok { a.fields with protocol := w } := hok
    refine ⟨?_, rfl, rfl⟩
    rw [List.length_append, hok'.length]
    omega
  cases inner with
  | plain =>
    have h : a.raw cfg = .ok out := h
    unfold V4State.raw at h
    obtain ⟨ck, -, h⟩ := bind_ok_inv h
    injection h with h
    have hl : a.bytes.length = 20 + (a.payload.getD []).length := by
      unfold V4State.bytes
      rw [List.length_append, hok.length]
    generalize hn : 20 + (a.payload.getD []).length = n at *
    have h1 : (put a.bytes 0 [(4#8 <<< 4) ||| BitVec.ofNat 8 (n / 4)]).length = n := by
      rw [length_put (by simp; omega), hl]
    have h2 : (put (put a.bytes 0 [(4#8 <<< 4) ||| BitVec.ofNat 8 (n / 4)]) 2 (be16 (BitVec.ofNat 16 n))).length = n := by
      rw [length_put (by rw [be16_length, h1]; omega), h1]
    have hg : ∀ i, i = 1 ∨ i = 6 ∨ i = 7 → out.getD i 0#8 = a.bytes.getD i 0#8 := by
      intro i hi
      rw [← h, getD_put (by rw [be16_length, h2]; omega), if_pos (by omega),
        getD_put (by rw [be16_length, h1]; omega), be16_length]
      rw [show (if i < 2 then (put a.bytes 0 [(4#8 <<< 4) ||| BitVec.ofNat 8 (n / 4)]).getD i 0#8 else
          if i < 2 + 2 then (be16 (BitVec.ofNat 16 n)).getD (i - 2) 0#8 else
          (put a.bytes 0 [(4#8 <<< 4) ||| BitVec.ofNat 8 (n / 4)]).getD i 0#8)
          = (put a.bytes 0 [(4#8 <<< 4) ||| BitVec.ofNat 8 (n / 4)]).getD i 0#8 from by
        split
        · rfl
        · rw [if_neg (by omega)],
        getD_put (by simp; omega), if_neg (by omega), if_neg (by simp; omega)]
    refine ⟨?_, ?_, ?_⟩
    · rw [← h, length_put (by rw [be16_length, h2]; omega), h2]
      omega
    · rw [hg 1 (by omega)]; rfl
    · rw [hg 6 (by omega), hg 7 (by omega)]; rfl
  | udp ops =>
    have h : (if a.payload.isSome then .err .alreadyDefined else _) = Outcome.ok out := h
    split at h
    · cases h
    · rw [need_dynamic (by omega), Outcome.ok_bind] at h
      obtain ⟨u, -, h⟩ := bind_ok_inv h
      obtain ⟨d, -, h⟩ := bind_ok_inv h
      exact hseal _ _ h
  | tcp ops =>
    have h : (if a.payload.isSome then .err .alreadyDefined else _) = Outcome.ok out := h
    split at h
    · cases h
    · rw [need_dynamic (by omega), Outcome.ok_bind] at h
      obtain ⟨u, -, h⟩ := bind_ok_inv h
      obtain ⟨d, -, h⟩ := bind_ok_inv h
      exact hseal _ _ h
  | icmp inner =>
    have h : (if a.payload.isSome then .err .alreadyDefined else _) = Outcome.ok out := h
    split at h
    · cases h
    · obtain ⟨d, -, h⟩ := bind_ok_inv h
      exact hseal _ _ h

/-- C98: for every history of builder calls, with anything inside the packet, if the build succeeds then the word at
byte 6 is the argument of the last `flags()` or `offset()` call, and DSCP and ECN are what `V4Op.track` says. -/
theorem C98_builder_words (cfg : Cfg) (vops : List V4Op) (inner : Inner) (hv : ∀ op ∈ vops, op.Sane cfg)
    (hi : inner.Sane cfg) {out : Bytes} (h : ipv4Program cfg Dynamic.new vops inner = .ok out) :
    field out 48 16 = (last V4Op.word? 0 vops).toNat ∧
    (field out 8 6, field out 14 2) = vops.foldl (fun x op => op.track x) (0, 0) := by
  obtain ⟨a, hrun, hl, ht, hw⟩ := built_bytes cfg vops inner hv hi h
  constructor
  · have e1 := readU16At_field (b := out) (k := 6) (by omega)
    have e2 : readU16At out 6 = .ok a.fields.fragment := readU16At_be16 (by omega) hw
    rw [e2] at e1
    injection e1 with e1
    rw [← word_run vops a hrun, e1, ofNat_field_toNat]
  · have e := tos_run vops _ _ hrun
    rw [← ht] at e
    have h1 := field_byte out 1
    have h2 := field_add out 8 6 2
    have h3 := field_lt out 14 2
    rw [show 8 * 1 = 8 from rfl] at h1
    rw [show 6 + 2 = 8 from rfl, show 8 + 6 = 14 from rfl, h1] at h2
    have h4 : field out 8 6 = (out.getD 1 0#8).toNat / 4 := by omega
    have h5 : field out 14 2 = (out.getD 1 0#8).toNat % 4 := by omega
    rw [h4, h5, e]
    rfl

/-- A concrete case that meets the hypotheses. -/
example (cfg : Cfg) := C98_builder_words cfg Sample.vops (.udp Sample.uops) (by call_by_call) (by call_by_call)
    (out := _) (Sample.value_of (by in_every_build))

/-! ## Consequences -/

theorem word_split {out : Bytes} {v : Nat} (h : field out 48 16 = v) (hv : v < 8192) :
    field out 48 3 = 0 ∧ field out 51 13 = v := by
  have e2 := field_add out 48 3 13
  have hlt := field_lt out 51 13
  rw [show 3 + 13 = 16 from rfl, show 48 + 3 = 51 from rfl, h] at e2
  omega

/-- C97, the part that holds for `offset()` and `dscp()`: a history whose last `flags()`/`offset()` call is an
`offset()` of 13 bits gives a packet with that fragment offset, and one whose last `dscp()`/`ecn()` call is a `dscp()`
gives a packet with that DSCP. -/
theorem C97_offset_dscp_partial (cfg : Cfg) (vops more : List V4Op) (inner : Inner) (hi : inner.Sane cfg) {out : Bytes} :
    (∀ v : U16, v.toNat < 8192 → (∀ op ∈ vops ++ .offset v :: more, op.Sane cfg) → (∀ op ∈ more, op.word? = none) →
      ipv4Program cfg Dynamic.new (vops ++ .offset v :: more) inner = .ok out →
      field out 51 13 = v.toNat ∧ field out 48 3 = 0) ∧
    (∀ v : U8, (∀ op ∈ vops ++ .dscp v :: more, op.Sane cfg) → (∀ op ∈ more, ∀ x, op.track x = x) →
      ipv4Program cfg Dynamic.new (vops ++ .dscp v :: more) inner = .ok out → field out 8 6 = v.toNat) := by
  refine ⟨fun v hv hs hm h => ?_, fun v hs hm h => ?_⟩
  · have := (C98_builder_words cfg _ inner hs hi h).1
    have hl : last V4Op.word? 0 (vops ++ .offset v :: more) = v := by
      unfold last
      rw [List.filterMap_append, List.filterMap_cons, List.filterMap_eq_nil_iff.2 hm]
      simp [V4Op.word?]
    rw [hl] at this
    have := word_split this hv
    exact ⟨this.2, this.1⟩
  · have := (C98_builder_words cfg _ inner hs hi h).2
    rw [List.foldl_append, List.foldl_cons] at this
    have hfold : ∀ (l : List V4Op), (∀ op ∈ l, ∀ x, op.track x = x) → ∀ x, l.foldl (fun x op => op.track x) x = x := by
      intro l
      induction l with
      | nil => intro _ x; rfl
      | cons op l ih =>
        intro hl x
        rw [List.foldl_cons, hl op (List.mem_cons_self ..)]
        exact ih (fun o ho => hl o (List.mem_cons_of_mem _ ho)) x
    rw [hfold more hm] at this
    injection this

/-- Calls that meet the conditions of both halves. -/
example (cfg : Cfg) : (∀ op ∈ Sample.vops ++ .offset 5 :: [.ttl 9], op.Sane cfg) ∧
    (∃ out, ipv4Program cfg Dynamic.new (Sample.vops ++ .offset 5 :: [.ttl 9]) (.udp Sample.uops) = .ok out) ∧
    (∀ op ∈ Sample.vops ++ .dscp 46 :: [.ttl 9], op.Sane cfg) ∧
    ∃ out, ipv4Program cfg Dynamic.new (Sample.vops ++ .dscp 46 :: [.ttl 9]) (.udp Sample.uops) = .ok out :=
  ⟨by call_by_call, Sample.reached (by in_every_build), by call_by_call, Sample.reached (by in_every_build)⟩

/-- C97 is false of the code for `flags()`: whatever flags are asked for, and whatever else is called, a history
whose last `flags()`/`offset()` call is `flags()` gives a packet with no flag bit set and with the bits of the flags as
fragment offset. -/
theorem C97_flags_refuted (cfg : Cfg) (vops more : List V4Op) (v : V4Flags) (inner : Inner)
    (hs : ∀ op ∈ vops ++ .flags v :: more, op.Sane cfg) (hi : inner.Sane cfg) (hm : ∀ op ∈ more, op.word? = none) {out : Bytes}
    (h : ipv4Program cfg Dynamic.new (vops ++ .flags v :: more) inner = .ok out) :
    field out 48 3 = 0 ∧ field out 51 13 = v.bits.toNat := by
  have := (C98_builder_words cfg _ inner hs hi h).1
  have hl : last V4Op.word? 0 (vops ++ .flags v :: more) = v.bits := by
    unfold last
    rw [List.filterMap_append, List.filterMap_cons, List.filterMap_eq_nil_iff.2 hm]
    simp [V4Op.word?]
  rw [hl] at this
  refine word_split this ?_
  have hv := v.valid
  have e : v.bits &&& 0b110#16 = v.bits := by
    apply BitVec.eq_of_getLsbD_eq
    intro i hi
    have := congrArg (fun x => x.getLsbD i) hv
    simp only [BitVec.getLsbD_and, BitVec.getLsbD_not, BitVec.getLsbD_zero] at this ⊢
    cases h1 : v.bits.getLsbD i <;> simp [h1, hi] at this ⊢
    exact this
  have : (v.bits &&& 0b110#16).toNat ≤ 6 := by
    rw [BitVec.toNat_and]
    exact Nat.and_le_right
  rw [e] at this
  omega

/-- A concrete case that meets the hypotheses. -/
example (cfg : Cfg) := C97_flags_refuted cfg Sample.vops [.ttl 9] V4Flags.dontFragment (.udp Sample.uops)
    (by call_by_call) (by call_by_call) (by simp [V4Op.word?]) (out := _) (Sample.value_of (by in_every_build))

/-- In particular no program that keeps its offsets within 13 bits builds a packet with DF or MF set. -/
theorem C97_no_flag_refuted (cfg : Cfg) (vops : List V4Op) (inner : Inner) (hs : ∀ op ∈ vops, op.Sane cfg)
    (hi : inner.Sane cfg) (ho : ∀ v, V4Op.offset v ∈ vops → v.toNat < 8192) {out : Bytes}
    (h : ipv4Program cfg Dynamic.new vops inner = .ok out) : field out 48 3 = 0 := by
  have h := (C98_builder_words cfg _ inner hs hi h).1
  refine (word_split h ?_).1
  have hmem : last V4Op.word? 0 vops = 0 ∨ last V4Op.word? 0 vops ∈ vops.filterMap V4Op.word? := by
    unfold last
    cases hg : (vops.filterMap V4Op.word?).getLast? with
    | none => exact .inl rfl
    | some w => exact .inr (List.mem_of_getLast? hg)
  rcases hmem with h0 | h1
  · rw [h0]; decide
  · obtain ⟨op, hop, hw⟩ := List.mem_filterMap.1 h1
    cases op with
    | offset v =>
      injection hw with hw
      rw [← hw]
      exact ho v hop
    | flags v =>
      injection hw with hw
      rw [← hw]
      have hv := v.valid
      have hle : ∀ w : U16, w &&& ~~~0b110#16 = 0#16 → w.toNat < 8192 := by
        intro w hw
        have e : w &&& 0b110#16 = w := by
          apply BitVec.eq_of_getLsbD_eq
          intro i hi
          have := congrArg (fun x => x.getLsbD i) hw
          simp only [BitVec.getLsbD_and, BitVec.getLsbD_not, BitVec.getLsbD_zero] at this ⊢
          cases h1 : w.getLsbD i <;> simp [h1, hi] at this ⊢
          exact this
        have : (w &&& 0b110#16).toNat ≤ 6 := by
          rw [BitVec.toNat_and]
          exact Nat.and_le_right
        rw [e] at this
        omega
      exact hle _ hv
    | _ => cases hw

/-- A concrete case that meets the hypotheses. -/
example (cfg : Cfg) := C97_no_flag_refuted cfg Sample.vops (.udp Sample.uops) (by call_by_call) (by call_by_call)
    (by call_by_call) (out := _) (Sample.value_of (by in_every_build))

/-- C97 is false of the code for `ecn()`: after `dscp(d)`, `ecn(e)` the packet has the DSCP `d` modulo 16, whatever came
before; and two calls `ecn(1)`, `ecn(2)` leave 3. -/
theorem C97_ecn_refuted (cfg : Cfg) (vops : List V4Op) (d e : U8) (inner : Inner)
    (hs : ∀ op ∈ vops ++ [.dscp d, .ecn e], op.Sane cfg) (hi : inner.Sane cfg) {out : Bytes}
    (h : ipv4Program cfg Dynamic.new (vops ++ [.dscp d, .ecn e]) inner = .ok out) :
    field out 8 6 = d.toNat % 16 := by
  have := (C98_builder_words cfg _ inner hs hi h).2
  rw [List.foldl_append] at this
  injection this

/-- The hypotheses above are met, and the findings are real: DF is asked for and read back as offset 2; DSCP 46 becomes
14; ECN 1 then 2 becomes 3. -/
example (cfg : Cfg) : (do
      let out ← ipv4Program cfg Dynamic.new [.ttl 64, .flags .dontFragment, .dscp 46, .ecn 1, .ecn 2]
        (.udp [.source 1, .destination 2, .payload [7]])
      let f ← V4.flags out
      let o ← V4.offset out
      let d ← V4.dscp out
      let e ← V4.ecn out
      .ok (f, o, d, e)) = .ok (V4Flags.empty, 2#16, 14#8, 3#8) := by
  obtain ⟨oc, ea, nw⟩ := cfg
  cases oc <;> cases ea <;> cases nw <;> decide +kernel

end Verif.Props
