import Verif.Props.Forward
import Verif.Props.Encode
import Verif.Props.Nested

/-!
# A byte stream in TCP segments (C136)

A sender cuts a stream into segments; they arrive in any order, any number of times, with others that are damaged.
-/

namespace Verif.Props
open Verif Verif.Spec

/-- The receiver puts the data of a valid segment into its buffer, at the distance of the sequence number from the
initial one, if it fits, and ignores everything else.

```text
if let Ok(ip) = ip::v4::Packet::new(bytes) {
    if ip.is_valid() {
        if let Ok(tcp) = tcp::Packet::new(ip.payload()) {
            if tcp.is_valid(&ip::Packet::from(&ip)) {
                let at = tcp.sequence().wrapping_sub(initial) as usize;
                let data = tcp.payload();
                if at + data.len() <= buffer.len() {
                    buffer[at .. at + data.len()].copy_from_slice(data);
                }
            }
        }
    }
}
```
-/
def reassemble (cfg : Cfg) (initial : U32) (buf b : Bytes) : Outcome Bytes :=
  match V4.new b with
  | .err _ => .ok buf
  | .panic => .panic
  | .ok p => do
    let good ← V4.isValid cfg p
    if good = true then do
      let u ← V4.payload p
      match Tcp.new u with
      | .err _ => .ok buf
      | .panic => .panic
      | .ok t => do
        let sound ← Tcp.isValid cfg (.v4 p) t
        if sound = true then do
          let n ← Tcp.sequence t
          let d ← Tcp.payload t
          if (n - initial).toNat + d.length ≤ buf.length then .ok (put buf (n - initial).toNat d) else .ok buf
        else .ok buf
    else .ok buf

/-- What arrives, one after another. -/
def reassembleAll (cfg : Cfg) (initial : U32) : List Bytes → Bytes → Outcome Bytes
  | [], buf => .ok buf
  | b :: bs, buf => do
    let buf' ← reassemble cfg initial buf b
    reassembleAll cfg initial bs buf'

/-- `b` is a packet with a segment, accepted and valid at both layers, with sequence number `n` and data `d`. -/
structure Holds (cfg : Cfg) (b : Bytes) (n : U32) (d : Bytes) : Prop where
  v4 : V4.new b = .ok b
  header : 5 ≤ field b 4 4
  valid : V4.isValid cfg b = .ok true
  inner : ∃ t, V4.payload b = .ok t ∧ Tcp.new t = .ok t ∧ Tcp.isValid cfg (.v4 b) t = .ok true ∧
    Tcp.sequence t = .ok n ∧ Tcp.payload t = .ok d

/-- `b` is not accepted, or not valid, at one of the layers. -/
inductive Junk (cfg : Cfg) (b : Bytes) : Prop where
  | refused (e : Error) (h : V4.new b = .err e)
  | damaged (h : V4.new b = .ok b) (hv : V4.isValid cfg b = .ok false)
  | inner (t : Bytes) (e : Error) (h : V4.new b = .ok b) (hv : ∃ good, V4.isValid cfg b = .ok good)
      (ht : V4.payload b = .ok t) (hn : Tcp.new t = .err e)
  | unsound (t : Bytes) (h : V4.new b = .ok b) (hv : ∃ good, V4.isValid cfg b = .ok good)
      (ht : V4.payload b = .ok t) (hn : Tcp.new t = .ok t) (hs : Tcp.isValid cfg (.v4 b) t = .ok false)

/-- Where chunk `k` of the stream begins. -/
def startOf (cs : List Bytes) (k : Nat) : Nat := (cs.take k).flatten.length

/-- `b` is a segment with chunk `k` of the stream. -/
def CarriesChunk (cfg : Cfg) (initial : U32) (cs : List Bytes) (k : Nat) (b : Bytes) : Prop :=
  ∃ c, cs[k]? = some c ∧ Holds cfg b (initial + BitVec.ofNat 32 (startOf cs k)) c

/-! ## One arrival -/

theorem reassemble_junk (cfg : Cfg) (initial : U32) (buf : Bytes) {b : Bytes} (h : Junk cfg b) :
    reassemble cfg initial buf b = .ok buf := by
  cases h with
  | refused e h => unfold reassemble; rw [h]
  | damaged h hv =>
    unfold reassemble
    rw [h]
    simp only []
    rw [hv, Outcome.ok_bind, if_neg (by decide)]
  | inner t e h hv ht hn =>
    obtain ⟨good, hv⟩ := hv
    unfold reassemble
    rw [h]
    simp only []
    rw [hv, Outcome.ok_bind]
    cases good with
    | false => rfl
    | true =>
      rw [if_pos rfl, ht, Outcome.ok_bind, hn]
  | unsound t h hv ht hn hs =>
    obtain ⟨good, hv⟩ := hv
    unfold reassemble
    rw [h]
    simp only []
    rw [hv, Outcome.ok_bind]
    cases good with
    | false => rfl
    | true =>
      rw [if_pos rfl, ht, Outcome.ok_bind, hn]
      simp only []
      rw [hs, Outcome.ok_bind, if_neg (by decide)]

theorem reassemble_holds (cfg : Cfg) (initial : U32) (buf : Bytes) {b : Bytes} {n : U32} {d : Bytes}
    (h : Holds cfg b n d) (hfit : (n - initial).toNat + d.length ≤ buf.length) :
    reassemble cfg initial buf b = .ok (put buf (n - initial).toNat d) := by
  obtain ⟨t, ht, hn, hs, hq, hd⟩ := h.inner
  unfold reassemble
  rw [h.v4]
  simp only []
  rw [h.valid, Outcome.ok_bind, if_pos rfl, ht, Outcome.ok_bind, hn]
  simp only []
  rw [hs, Outcome.ok_bind, if_pos rfl, hq, Outcome.ok_bind, hd, Outcome.ok_bind, if_pos hfit]

theorem chunk_at {cs : List Bytes} {k : Nat} {c : Bytes} (h : cs[k]? = some c) :
    startOf cs k + c.length ≤ cs.flatten.length ∧
    ∀ i, startOf cs k ≤ i → i < startOf cs k + c.length → cs.flatten[i]? = c[i - startOf cs k]? := by
  have hk : k < cs.length := by
    rcases Nat.lt_or_ge k cs.length with h' | h'
    · exact h'
    · rw [List.getElem?_eq_none h'] at h; cases h
  have hc : cs[k] = c := by
    rw [List.getElem?_eq_getElem hk] at h; exact Option.some.inj h
  have e : cs = cs.take k ++ c :: cs.drop (k + 1) := by
    rw [← hc, ← List.drop_eq_getElem_cons hk, List.take_append_drop]
  have ef : cs.flatten = (cs.take k).flatten ++ (c ++ (cs.drop (k + 1)).flatten) := by
    rw [← List.flatten_cons, ← List.flatten_append, ← e]
  unfold startOf
  refine ⟨by rw [ef]; simp only [List.length_append]; omega, fun i h1 h2 => ?_⟩
  rw [ef, List.getElem?_append_right h1, List.getElem?_append_left (by omega)]

/-! ## C136 -/

/-- C136: arrivals in any order, any number of times, among others that are not accepted or not valid.  Nothing fails
or panics; the receiver's buffer has the bytes of the stream wherever a segment that arrived has them, and is as it was
everywhere else. -/
theorem C136_arrivals (cfg : Cfg) (initial : U32) (cs : List Bytes) (hsize : cs.flatten.length < 2 ^ 32)
    (arrivals : List Bytes) : ∀ (buf : Bytes), buf.length = cs.flatten.length →
    (∀ b ∈ arrivals, Junk cfg b ∨ ∃ k, CarriesChunk cfg initial cs k b) →
    ∃ out, reassembleAll cfg initial arrivals buf = .ok out ∧ out.length = buf.length ∧
      (∀ k b c i, b ∈ arrivals → CarriesChunk cfg initial cs k b → cs[k]? = some c → startOf cs k ≤ i →
        i < startOf cs k + c.length → out[i]? = cs.flatten[i]?) ∧
      ∀ i, (∀ k b c, b ∈ arrivals → CarriesChunk cfg initial cs k b → cs[k]? = some c →
        ¬ (startOf cs k ≤ i ∧ i < startOf cs k + c.length)) → out[i]? = buf[i]? := by
  induction arrivals with
  | nil =>
    intro buf _ _
    exact ⟨buf, rfl, rfl, (fun _ _ _ _ h => (by cases h)), fun _ _ => rfl⟩
  | cons b bs ih =>
    intro buf hbuf hall
    have step : ∃ buf', reassemble cfg initial buf b = .ok buf' ∧ buf'.length = buf.length ∧
        (∀ k c i, CarriesChunk cfg initial cs k b → cs[k]? = some c → startOf cs k ≤ i →
          i < startOf cs k + c.length → buf'[i]? = cs.flatten[i]?) ∧
        ∀ i, (∀ k c, CarriesChunk cfg initial cs k b → cs[k]? = some c →
          ¬ (startOf cs k ≤ i ∧ i < startOf cs k + c.length)) → buf'[i]? = buf[i]? := by
      rcases hall b List.mem_cons_self with hj | ⟨k, c, hc, hh⟩
      · refine ⟨buf, reassemble_junk cfg initial buf hj, rfl, fun k c i hk _ _ _ => ?_, fun _ _ => rfl⟩
        exfalso
        obtain ⟨c', -, hh⟩ := hk
        obtain ⟨t, ht, hn, hs, -⟩ := hh.inner
        cases hj with
        | refused e h => rw [hh.v4] at h; cases h
        | damaged h hv => rw [hh.valid] at hv; cases hv
        | inner t' e h hv ht' hn' =>
          rw [ht] at ht'
          cases ht'
          rw [hn] at hn'
          cases hn'
        | unsound t' h hv ht' hn' hs' =>
          rw [ht] at ht'
          cases ht'
          rw [hs] at hs'
          cases hs'
      · obtain ⟨hfit, hat⟩ := chunk_at hc
        have hoff : ((initial + BitVec.ofNat 32 (startOf cs k)) - initial).toNat = startOf cs k := by
          rw [BitVec.add_comm, BitVec.add_sub_cancel, BitVec.toNat_ofNat, Nat.mod_eq_of_lt (by omega)]
        have e := reassemble_holds cfg initial buf hh (by rw [hoff]; omega)
        rw [hoff] at e
        have hp : startOf cs k + c.length ≤ buf.length := by omega
        refine ⟨_, e, length_put hp, fun k' c' i hk' hc' h1 h2 => ?_, fun i hi => ?_⟩
        · obtain ⟨-, hat'⟩ := chunk_at hc'
          obtain ⟨hfit', -⟩ := chunk_at hc'
          have hsame : startOf cs k' = startOf cs k ∧ c' = c := by
            obtain ⟨c'', hc'', hh''⟩ := hk'
            rw [hc'] at hc''
            cases hc''
            obtain ⟨t, ht, -, -, hq, hd⟩ := hh.inner
            obtain ⟨t', ht', -, -, hq', hd'⟩ := hh''.inner
            rw [ht] at ht'
            cases ht'
            rw [hq] at hq'
            rw [hd] at hd'
            refine ⟨?_, (Outcome.ok.inj hd').symm⟩
            have := congrArg (fun x => (x - initial).toNat) (Outcome.ok.inj hq')
            rw [hoff, BitVec.add_comm, BitVec.add_sub_cancel, BitVec.toNat_ofNat, Nat.mod_eq_of_lt (by omega)] at this
            exact this.symm
          rw [hsame.1] at h1 h2
          rw [hsame.2] at h2
          rw [getElem?_put hp, if_neg (by omega), if_pos h2, hat i h1 h2]
        · have := hi k c ⟨c, hc, hh⟩ hc
          rw [getElem?_put hp]
          by_cases h1 : i < startOf cs k
          · rw [if_pos h1]
          · rw [if_neg h1, if_neg (by omega)]
    obtain ⟨buf', e1, e2, e3, e4⟩ := step
    obtain ⟨out, o1, o2, o3, o4⟩ := ih buf' (by omega) fun x hx => hall x (List.mem_cons_of_mem _ hx)
    refine ⟨out, by rw [reassembleAll, e1, Outcome.ok_bind, o1], by omega, fun k x c i hx hk hc h1 h2 => ?_,
      fun i hi => ?_⟩
    · rcases List.mem_cons.1 hx with rfl | hx
      · by_cases hcov : ∃ k' y c', y ∈ bs ∧ CarriesChunk cfg initial cs k' y ∧ cs[k']? = some c' ∧
          startOf cs k' ≤ i ∧ i < startOf cs k' + c'.length
        · obtain ⟨k', y, c', y1, y2, y3, y4, y5⟩ := hcov
          exact o3 k' y c' i y1 y2 y3 y4 y5
        · rw [o4 i fun k' y c' y1 y2 y3 y4 => hcov ⟨k', y, c', y1, y2, y3, y4.1, y4.2⟩]
          exact e3 k c i hk hc h1 h2
      · exact o3 k x c i hx hk hc h1 h2
    · rw [o4 i fun k y c y1 y2 y3 => hi k y c (List.mem_cons_of_mem _ y1) y2 y3]
      exact e4 i fun k c h1 h2 => hi k b c List.mem_cons_self h1 h2

theorem index_chunk (cs : List Bytes) : ∀ i, i < cs.flatten.length →
    ∃ k c, cs[k]? = some c ∧ startOf cs k ≤ i ∧ i < startOf cs k + c.length := by
  induction cs with
  | nil => intro i hi; exact absurd hi (by simp)
  | cons c cs ih =>
    intro i hi
    by_cases h : i < c.length
    · exact ⟨0, c, rfl, by simp [startOf], by simpa [startOf] using h⟩
    · rw [List.flatten_cons, List.length_append] at hi
      obtain ⟨k, c', h1, h2, h3⟩ := ih (i - c.length) (by omega)
      have e : startOf (c :: cs) (k + 1) = c.length + startOf cs k := by
        simp [startOf, List.take_succ_cons]
      exact ⟨k + 1, c', h1, by omega, by omega⟩

/-- C136: once every segment has arrived the receiver has the stream, whatever was in its buffer before. -/
theorem C136_complete (cfg : Cfg) (initial : U32) (cs : List Bytes) (hsize : cs.flatten.length < 2 ^ 32)
    (arrivals : List Bytes) (buf : Bytes) (hbuf : buf.length = cs.flatten.length)
    (hall : ∀ b ∈ arrivals, Junk cfg b ∨ ∃ k, CarriesChunk cfg initial cs k b)
    (hevery : ∀ k, k < cs.length → ∃ b ∈ arrivals, CarriesChunk cfg initial cs k b) :
    reassembleAll cfg initial arrivals buf = .ok cs.flatten := by
  obtain ⟨out, e, hl, h1, -⟩ := C136_arrivals cfg initial cs hsize arrivals buf hbuf hall
  rw [e]
  congr 1
  apply List.ext_getElem?
  intro i
  by_cases hi : i < cs.flatten.length
  · obtain ⟨k, c, k1, k2, k3⟩ := index_chunk cs i hi
    have hk : k < cs.length := by
      rcases Nat.lt_or_ge k cs.length with h' | h'
      · exact h'
      · rw [List.getElem?_eq_none h'] at k1; cases k1
    obtain ⟨b, hb, hc⟩ := hevery k hk
    exact h1 k b c i hb hc k1 k2 k3
  · rw [List.getElem?_eq_none (by omega), List.getElem?_eq_none (by omega)]

/-- C136 with C46: a segment built with this crate for chunk `k`. -/
theorem C136_built (cfg : Cfg) (initial : U32) (cs : List Bytes) (k : Nat) (c : Bytes) (hc : cs[k]? = some c)
    (vops : List V4Op) (tops : List TcpOp) (hr : ∀ op ∈ vops, op.InRange) (h0 : vops.filterMap V4Op.payload? = [])
    (h1 : (tops.filterMap TcpOp.payload?).length ≤ 1) (hfl : TcpOp.FlagsLast tops)
    (hq : last TcpOp.sequence? 0 tops = initial + BitVec.ofNat 32 (startOf cs k))
    (hd : last TcpOp.payload? [] tops = c) (hsize : 40 + c.length ≤ 65535)
    (hodd : c.length % 2 = 0 ∨ cfg.eofAdvances = false) :
    ∃ b, ipv4Program cfg Dynamic.new vops (.tcp tops) = .ok b ∧ CarriesChunk cfg initial cs k b := by
  obtain ⟨b, t, e, hv, ht⟩ := C46_tcp_build cfg vops tops hr h0 h1 hfl (by rw [hd]; exact hsize) (by rw [hd]; exact hodd)
  obtain ⟨h5, -⟩ := reads_behind hv
  refine ⟨b, e, c, hc, hv.accepted, by omega, hv.valid, t, hv.payload, ht.accepted, ht.valid, ?_, ?_⟩
  · rw [ht.sequence, hq]
  · rw [ht.payload, hd]

/-- C136 with C128: behind routers it is still the same segment. -/
theorem C136_hops (cfg : Cfg) (initial : U32) (cs : List Bytes) (k : Nat) (b : Bytes)
    (h : CarriesChunk cfg initial cs k b) (t : U8) (ht : V4.ttl b = .ok t) (n : Nat) (hn : n < t.toNat) :
    ∃ q, hops cfg n b = .ok (some q) ∧ CarriesChunk cfg initial cs k q := by
  obtain ⟨c, hc, hh⟩ := h
  obtain ⟨q, e1, e2, e3, e4, -, e6, e7⟩ := (C128_hops cfg b hh.v4 hh.header hh.valid t ht n).1 hn
  obtain ⟨d, hd, hi⟩ := hh.inner
  exact ⟨q, e1, c, hc, e3, by rw [e2.header.2.1]; exact hh.header, e4, d, e6.trans hd, hi.1, (e7 d).2.trans hi.2.1,
    hi.2.2⟩

theorem v4_valid_total (cfg : Cfg) {b : Bytes} (h : V4.new b = .ok b) : ∃ good, V4.isValid cfg b = .ok good := by
  obtain ⟨-, hok⟩ := V4.new_ok_iff.1 h
  have hl := hok.long; have hh := hok.header
  unfold V4.isValid
  rw [V4.header_eq (by omega) hh, Outcome.ok_bind, V4.checksumOf_eq, Outcome.ok_bind,
    show V4.checksum b = readU16At b 10 from rfl, readU16At_ok (by omega), Outcome.ok_bind]
  exact ⟨_, rfl⟩

/-- C136 with C09: a segment in which one byte was changed on the way, other than the header length, is junk, and so it
does no harm. -/
theorem C136_damaged (cfg : Cfg) {b : Bytes} {n : U32} {d : Bytes} (h : Holds cfg b n d)
    (hodd : (field b 16 16 - 4 * field b 4 4) % 2 = 0 ∨ cfg.eofAdvances = false) (i : Nat) (hi : i < field b 16 16)
    (x : U8) (hx : x ≠ b.getD i 0#8) (hihl : field (put b i [x]) 4 4 = field b 4 4) : Junk cfg (put b i [x]) := by
  obtain ⟨-, ⟨h20, h4, hh⟩, ht⟩ := V4.new_ok_iff.1 h.v4
  obtain ⟨t, hp, hn, hs, -⟩ := h.inner
  have h5 := h.header
  have hib : i + [x].length ≤ b.length := by simp only [List.length_cons, List.length_nil]; omega
  have hlen : (put b i [x]).length = b.length := length_put hib
  by_cases hhead : i < 4 * field b 4 4
  · have hbad := C09_v4_corruption_detected cfg b (V4.noPayload_ok_iff.2 ⟨rfl, h20, h4, hh⟩) (by omega) h.valid i hhead x
      hx hihl
    have hnew := V4.new_eq (put b i [x])
    repeat' split at hnew
    · exact .refused _ hnew
    · exact .refused _ hnew
    · exact .refused _ hnew
    · exact .damaged hnew hbad
  · have hget : ∀ j, j < 4 * field b 4 4 → (put b i [x])[j]? = b[j]? := by
      intro j hj
      rw [getElem?_put hib, if_pos (by omega)]
    have hf : ∀ s w, s + w ≤ 160 → field (put b i [x]) s w = field b s w := fun s w hsw =>
      field_congr fun j _ hj => bitAt_congr (hget _ (by omega))
    have hnew : V4.new (put b i [x]) = .ok (put b i [x]) :=
      V4.new_ok_iff.2 ⟨rfl, ⟨by omega, by rw [hf 0 4 (by omega)]; exact h4, by rw [hf 4 4 (by omega)]; omega⟩,
        by rw [hf 16 16 (by omega)]; omega⟩
    have hpl : V4.payload b = _ := V4.payload_eq (by omega) hh
    have hpl' : V4.payload (put b i [x]) = _ := V4.payload_eq (by omega) (by rw [hf 4 4 (by omega)]; omega)
    rw [hp] at hpl
    have et := Outcome.ok.inj hpl
    rw [hf 4 4 (by omega), hf 16 16 (by omega)] at hpl'
    have hlt : t.length = field b 16 16 - field b 4 4 * 4 := by rw [et, List.length_take, List.length_drop]; omega
    have hit : (i - field b 4 4 * 4) + [x].length ≤ t.length := by
      simp only [List.length_cons, List.length_nil]; omega
    have et' : ((put b i [x]).drop (field b 4 4 * 4)).take (field b 16 16 - field b 4 4 * 4) =
        put t (i - field b 4 4 * 4) [x] := by
      apply List.ext_getElem?
      intro j
      rw [getElem?_put hit, List.getElem?_take, List.getElem?_drop, getElem?_put hib]
      have ej : j < t.length → t[j]? = b[field b 4 4 * 4 + j]? := by
        intro hj
        rw [et, List.getElem?_take_of_lt (by omega), List.getElem?_drop]
      have en : t.length ≤ j → t[j]? = none := fun hj => List.getElem?_eq_none hj
      simp only [List.length_cons, List.length_nil] at hit ⊢
      by_cases hj : j < t.length
      · rw [if_pos (by omega)]
        by_cases h1 : j < i - field b 4 4 * 4
        · rw [if_pos h1, if_pos (by omega), ej hj]
        · rw [if_neg h1, if_neg (by omega)]
          by_cases h2 : j < i - field b 4 4 * 4 + (0 + 1)
          · rw [if_pos h2, if_pos (by omega)]
            congr 1
            omega
          · rw [if_neg h2, if_neg (by omega), ej hj]
      · rw [if_neg (by omega), if_neg (by omega), if_neg (by omega), en (by omega)]
    rw [et'] at hpl'
    have hxt : x ≠ t.getD (i - field b 4 4 * 4) 0#8 := by
      have e : t[i - field b 4 4 * 4]? = b[i]? := by
        rw [et, List.getElem?_take_of_lt (by omega), List.getElem?_drop]
        congr 1
        omega
      rw [List.getD_eq_getElem?_getD, e, ← List.getD_eq_getElem?_getD]
      exact hx
    have hit' : i - field b 4 4 * 4 < t.length := by
      simp only [List.length_cons, List.length_nil] at hit; omega
    have hbad := C09_tcp_corruption_detected cfg b t h20 hn (by have : field b 16 16 < 2 ^ 16 := field_lt b 16 16; omega)
      (by rw [hlt, Nat.mul_comm]; exact hodd) hs (i - field b 4 4 * 4) hit' x hxt
    have hidx : ∀ j, j < 20 → idx (put b i [x]) j = idx b j := fun j hj => idx_alike (hget j (by omega))
    have hsrc : V4.source (put b i [x]) = V4.source b := by
      simp only [V4.source, hidx 12 (by omega), hidx 13 (by omega), hidx 14 (by omega), hidx 15 (by omega)]
    have hdst : V4.destination (put b i [x]) = V4.destination b := by
      simp only [V4.destination, hidx 16 (by omega), hidx 17 (by omega), hidx 18 (by omega), hidx 19 (by omega)]
    have hbad' : Tcp.isValid cfg (.v4 (put b i [x])) (put t (i - field b 4 4 * 4) [x]) = .ok false :=
      (tcp_valid_same cfg hsrc hdst).trans hbad
    have hgood := v4_valid_total cfg hnew
    cases hnt : Tcp.new (put t (i - field b 4 4 * 4) [x]) with
    | err e => exact .inner _ e hnew hgood hpl' hnt
    | panic =>
      rw [Tcp.new_eq] at hnt
      repeat' split at hnt
      all_goals cases hnt
    | ok u =>
      obtain ⟨rfl, -⟩ := Tcp.new_ok_iff.1 hnt
      exact .unsound _ hnew hgood hpl' hnt hbad'

/-! ## Concrete cases -/

/-- The stream 1 … 6 in chunks of 4 and 2, the sequence numbers wrapping in between. -/
def sampleChunks : List Bytes := [[1, 2, 3, 4], [5, 6]]

def sampleSegment (k : Nat) : List TcpOp :=
  [.source 80, .destination 4000, .sequence (0xfffffffe + BitVec.ofNat 32 (startOf sampleChunks k)),
    .payload (sampleChunks.getD k []), .flags .empty]

theorem sample_segments (cfg : Cfg) : ∃ b0 b1, CarriesChunk cfg 0xfffffffe sampleChunks 0 b0 ∧
    CarriesChunk cfg 0xfffffffe sampleChunks 1 b1 ∧ V4.ttl b0 = .ok 64 := by
  obtain ⟨b0, e0, h0⟩ := C136_built cfg 0xfffffffe sampleChunks 0 _ rfl Sample.vops (sampleSegment 0) (by call_by_call)
    (by call_by_call) (by decide) (fun _ h => (by cases h)) rfl rfl (by decide) (.inl (by decide))
  obtain ⟨b1, -, h1⟩ := C136_built cfg 0xfffffffe sampleChunks 1 _ rfl Sample.vops (sampleSegment 1) (by call_by_call)
    (by call_by_call) (by decide) (fun _ h => (by cases h)) rfl rfl (by decide) (.inl (by decide))
  obtain ⟨o, d, e2, hv, -⟩ := C46_tcp_build cfg Sample.vops (sampleSegment 0) (by call_by_call) (by call_by_call)
    (by decide) (fun _ h => (by cases h)) (by decide) (.inl (by decide))
  obtain rfl := Outcome.ok.inj (e0.symm.trans e2)
  exact ⟨b0, b1, h0, h1, hv.ttl⟩

/-- The second segment first, then noise, then the first one, twice. -/
example (cfg : Cfg) : ∃ b0 b1 : Bytes,
    reassembleAll cfg 0xfffffffe [b1, [1, 2, 3], b0, b0] [0, 0, 0, 0, 0, 0] = .ok [1, 2, 3, 4, 5, 6] := by
  obtain ⟨b0, b1, h0, h1, -⟩ := sample_segments cfg
  refine ⟨b0, b1, C136_complete cfg _ sampleChunks (by decide) _ _ rfl (fun b hb => ?_) fun k hk => ?_⟩
  · simp only [List.mem_cons, List.not_mem_nil, or_false] at hb
    rcases hb with rfl | rfl | rfl | rfl
    · exact .inr ⟨1, h1⟩
    · exact .inl (.refused .smallBuffer rfl)
    · exact .inr ⟨0, h0⟩
    · exact .inr ⟨0, h0⟩
  · rcases (show k = 0 ∨ k = 1 by simp [sampleChunks] at hk; omega) with rfl | rfl
    · exact ⟨b0, by simp, h0⟩
    · exact ⟨b1, by simp, h1⟩

example (cfg : Cfg) : ∃ b q, CarriesChunk cfg 0xfffffffe sampleChunks 0 b ∧ hops cfg 5 b = .ok (some q) := by
  obtain ⟨b0, b1, h0, -, ht⟩ := sample_segments cfg
  obtain ⟨q, e, -⟩ := C136_hops cfg _ _ 0 b0 h0 64 ht 5 (by decide)
  exact ⟨b0, q, h0, e⟩

/-- The first segment, byte by byte. -/
def sampleFirst : Bytes :=
  [69, 0, 0, 44, 0, 7, 0, 0, 64, 6, 102, 195, 10, 0, 0, 1, 10, 0, 0, 2, 0, 80, 15, 160, 255, 255, 255, 254, 0, 0, 0, 0,
    80, 0, 0, 0, 135, 233, 0, 0, 1, 2, 3, 4]

/-- Byte 40, the first of the data, is damaged on the way: the receiver does not take the segment. -/
example (cfg : Cfg) : CarriesChunk cfg 0xfffffffe sampleChunks 0 sampleFirst ∧ Junk cfg (put sampleFirst 40 [77]) ∧
    reassemble cfg 0xfffffffe [0, 0, 0, 0, 0, 0] (put sampleFirst 40 [77]) = .ok [0, 0, 0, 0, 0, 0] := by
  have hc : Holds cfg sampleFirst 0xfffffffe [1, 2, 3, 4] :=
    ⟨by decide, by decide, by in_every_build, [0, 80, 15, 160, 255, 255, 255, 254, 0, 0, 0, 0, 80, 0, 0, 0, 135, 233, 0, 0,
      1, 2, 3, 4], by decide, by decide, by in_every_build, by decide, by decide⟩
  have hj : Junk cfg (put sampleFirst 40 [77]) :=
    C136_damaged cfg hc (.inl (by decide)) 40 (by decide) 77 (by decide) (by decide)
  exact ⟨⟨_, rfl, hc⟩, hj, reassemble_junk cfg _ _ hj⟩

end Verif.Props
