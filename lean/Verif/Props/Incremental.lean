import Verif.Props.Missed
import Verif.Props.Readdress
import Verif.Spec.Incremental
import Verif.Samples

/-! # Checksums agree with incremental updates (C120) -/

namespace Verif.Props
open Verif Verif.Spec

theorem rfc1624_step {hc m m' : Nat} (h : hc < 65535) (hm : m ≤ 65535) (hm' : m' ≤ 65535) :
    rfc1624 hc m m' < 65535 ∧ (rfc1624 hc m m' + m') % 65535 = (hc + m) % 65535 := by
  unfold rfc1624 ocAdd
  split <;> split <;> constructor <;> omega

theorem patched_step : ∀ (cs : List (Nat × Nat)) {hc : Nat}, hc < 65535 → (∀ p ∈ cs, p.1 ≤ 65535 ∧ p.2 ≤ 65535) →
    patched hc cs < 65535 ∧
    (patched hc cs + (cs.map Prod.snd).sum) % 65535 = (hc + (cs.map Prod.fst).sum) % 65535 := by
  intro cs
  induction cs with
  | nil => intro hc h _; exact ⟨h, rfl⟩
  | cons p cs ih =>
    intro hc h hp
    obtain ⟨h1, h2⟩ := rfc1624_step h (hp p (List.mem_cons_self ..)).1 (hp p (List.mem_cons_self ..)).2
    obtain ⟨h3, h4⟩ := ih h1 (fun q hq => hp q (List.mem_cons_of_mem _ hq))
    refine ⟨h3, ?_⟩
    have e : patched hc (p :: cs) = patched (rfc1624 hc p.1 p.2) cs := rfl
    rw [e, List.map_cons, List.map_cons, List.sum_cons, List.sum_cons]
    omega

theorem changed_sums : ∀ (ws ws' : List Nat), ws.length = ws'.length →
    ((changed ws ws').map Prod.snd).sum + ws.sum = ((changed ws ws').map Prod.fst).sum + ws'.sum := by
  intro ws
  induction ws with
  | nil => intro ws' h; cases ws' with | nil => rfl | cons _ _ => cases h
  | cons w ws ih =>
    intro ws' h
    cases ws' with
    | nil => cases h
    | cons w' ws' =>
      have ih := ih ws' (by simpa using h)
      unfold changed at ih ⊢
      rw [List.zip_cons_cons, List.filter_cons]
      split
      · simp only [List.map_cons, List.sum_cons]
        omega
      · rename_i hw
        have : w = w' := by simpa using hw
        simp only [List.sum_cons]
        omega

theorem changed_le {ws ws' : List Nat} (h : ∀ w ∈ ws, w ≤ 65535) (h' : ∀ w ∈ ws', w ≤ 65535) :
    ∀ p ∈ changed ws ws', p.1 ≤ 65535 ∧ p.2 ≤ 65535 := by
  intro p hp
  have := (List.mem_filter.1 hp).1
  obtain ⟨a, b⟩ := p
  exact ⟨h _ (List.of_mem_zip this).1, h' _ (List.of_mem_zip this).2⟩

/-- Two sums that a checksum completes. -/
theorem patched_eq {cs : List (Nat × Nat)} {a a' hc hc' : Nat} (hp : ∀ p ∈ cs, p.1 ≤ 65535 ∧ p.2 ≤ 65535)
    (hs : (cs.map Prod.snd).sum + a = (cs.map Prod.fst).sum + a') (h : (a + hc) % 65535 = 0 ∧ hc ≠ 65535)
    (h' : (a' + hc') % 65535 = 0 ∧ hc' ≠ 65535) (hl : hc ≤ 65535) (hl' : hc' ≤ 65535) :
    hc' = patched hc cs := by
  obtain ⟨h1, h2⟩ := patched_step cs (hc := hc) (by omega) hp
  omega

theorem words_length (m : Bytes) : (words m).length = (m.length + 1) / 2 := by
  induction m using words.induct with
  | case1 a b rest ih => simp only [words, List.length_cons, ih]; omega
  | case2 a => simp [words]
  | case3 => simp [words]

theorem zeroed_length {m : Bytes} {k : Nat} (h : k + 2 ≤ m.length) : (zeroed m k).length = m.length := by
  rw [zeroed_eq_put, length_put (by simpa using h)]

/-- Two messages that verify, with the checksum in word `k`. -/
theorem patched_words {m m' : Bytes} {k : Nat} (hk : 2 * k + 2 ≤ m.length) (hl : m'.length = m.length)
    (h : wordSum m = 0 ∧ field m (8 * (2 * k)) 16 ≠ 65535) (h' : wordSum m' = 0 ∧ field m' (8 * (2 * k)) 16 ≠ 65535) :
    field m' (8 * (2 * k)) 16 =
      patched (field m (8 * (2 * k)) 16) (changed (words (zeroed m (2 * k))) (words (zeroed m' (2 * k)))) := by
  have hlt := field_lt m (8 * (2 * k)) 16
  have hlt' := field_lt m' (8 * (2 * k)) 16
  unfold wordSum at h h'
  rw [words_zeroed hk] at h
  rw [words_zeroed (m := m') (k := k) (by omega)] at h'
  refine patched_eq (changed_le (words_le _) (words_le _)) (changed_sums _ _ ?_) h h' (by omega) (by omega)
  rw [words_length, words_length, zeroed_length hk, zeroed_length (by omega), hl]

/-! ## Any two packets that verify -/

/-- C120, IPv4: of two headers of the same length that verify, the checksum of one is the checksum of the other
updated for the words that differ. -/
theorem C120_v4 (cfg : Cfg) (b b' : Bytes) (h : V4.noPayload b = .ok b) (h' : V4.noPayload b' = .ok b')
    (h3 : 3 ≤ field b 4 4) (hihl : field b' 4 4 = field b 4 4)
    (hv : V4.isValid cfg b = .ok true) (hv' : V4.isValid cfg b' = .ok true) :
    field b' 80 16 = patched (field b 80 16)
      (changed (words (zeroed (b.take (4 * field b 4 4)) 10)) (words (zeroed (b'.take (4 * field b 4 4)) 10))) := by
  have hh := (V4.noPayload_ok_iff.1 h).2.header
  have hh' := (V4.noPayload_ok_iff.1 h').2.header
  rw [C110_v4_exact cfg b h h3] at hv
  rw [C110_v4_exact cfg b' h' (by omega), hihl] at hv'
  have hv := of_decide_eq_true (Outcome.ok.inj hv)
  have hv' := of_decide_eq_true (Outcome.ok.inj hv')
  have e : field (b.take (4 * field b 4 4)) 80 16 = field b 80 16 := field_take' (by omega)
  have e' : field (b'.take (4 * field b 4 4)) 80 16 = field b' 80 16 := field_take' (by omega)
  rw [← e] at hv ⊢
  rw [← e'] at hv' ⊢
  exact patched_words (k := 5) (by rw [List.length_take]; omega) (by rw [List.length_take, List.length_take]; omega) hv hv'

/-- A concrete case that meets the hypotheses. -/
example (cfg : Cfg) := C120_v4 cfg Sample.udpPacket Sample.udpBack (by decide) (by decide) (by decide) (by decide)
    (by in_every_build) (by in_every_build)

/-- C120, ICMP (an odd last byte is not covered, C65). -/
theorem C120_icmp (cfg : Cfg) (b b' : Bytes) (hb : 4 ≤ b.length) (hl : b'.length = b.length)
    (hv : Icmp.isValid cfg b = .ok true) (hv' : Icmp.isValid cfg b' = .ok true) :
    field b' 16 16 = patched (field b 16 16)
      (changed (words (zeroed (evenPart b) 2)) (words (zeroed (evenPart b') 2))) := by
  rw [C110_icmp_exact cfg b hb] at hv
  rw [C110_icmp_exact cfg b' (by omega)] at hv'
  have hv := of_decide_eq_true (Outcome.ok.inj hv)
  have hv' := of_decide_eq_true (Outcome.ok.inj hv')
  have e : field (evenPart b) 16 16 = field b 16 16 := field_take' (by omega)
  have e' : field (evenPart b') 16 16 = field b' 16 16 := field_take' (by omega)
  rw [← e] at hv ⊢
  rw [← e'] at hv' ⊢
  exact patched_words (k := 1) (by rw [evenPart_length]; omega) (by rw [evenPart_length, evenPart_length, hl]) hv hv'

/-- A concrete case that meets the hypotheses. -/
example (cfg : Cfg) := C120_icmp cfg Sample.echo Sample.echoSwapped (by decide) (by decide) (by in_every_build)
    (by in_every_build)

theorem udpCovered_length (cfg : Cfg) (b : Bytes) :
    (udpCovered cfg b).length = if cfg.eofAdvances then b.length - b.length % 2 else b.length := by
  unfold udpCovered
  split
  · exact evenPart_length b
  · rfl

theorem field_append_right {pre m : Bytes} (s w : Nat) : field (pre ++ m) (8 * pre.length + s) w = field m s w := by
  have := field_drop (pre ++ m) pre.length s w
  rw [List.drop_left] at this
  exact this.symm

/-- Two messages behind pseudo headers. -/
theorem patched_behind {pre pre' m m' : Bytes} {k : Nat} (hp : pre.length = 12) (hp' : pre'.length = 12)
    (hk : 2 * k + 2 ≤ m.length) (hl : m'.length = m.length)
    (h : wordSum (pre ++ m) = 0 ∧ field m (8 * (2 * k)) 16 ≠ 65535)
    (h' : wordSum (pre' ++ m') = 0 ∧ field m' (8 * (2 * k)) 16 ≠ 65535) :
    field m' (8 * (2 * k)) 16 = patched (field m (8 * (2 * k)) 16)
      (changed (words (pre ++ zeroed m (2 * k))) (words (pre' ++ zeroed m' (2 * k)))) := by
  have hlt := field_lt m (8 * (2 * k)) 16
  have hlt' := field_lt m' (8 * (2 * k)) 16
  unfold wordSum at h h'
  rw [words_append (by omega), List.sum_append, words_zeroed hk] at h
  rw [words_append (by omega), List.sum_append, words_zeroed (m := m') (k := k) (by omega)] at h'
  refine patched_eq (a := (words (pre ++ zeroed m (2 * k))).sum) (a' := (words (pre' ++ zeroed m' (2 * k))).sum)
    (changed_le (words_le _) (words_le _)) (changed_sums _ _ ?_) ?_ ?_ (by omega) (by omega)
  · rw [words_length, words_length, List.length_append, List.length_append, zeroed_length hk, zeroed_length (by omega), hl,
      hp, hp']
  · rw [words_append (by omega), List.sum_append]
    exact ⟨by omega, h.2⟩
  · rw [words_append (by omega), List.sum_append]
    exact ⟨by omega, h'.2⟩

/-- C120, UDP: two datagrams of the same length that verify, each against its own IPv4 header.  The words are those of
the pseudo header and of the datagram, checksum excepted. -/
theorem C120_udp (cfg : Cfg) (ip ip' b b' : Bytes) (hip : 20 ≤ ip.length) (hip' : 20 ≤ ip'.length) (hb : 8 ≤ b.length)
    (hl : b'.length = b.length) (hv : Udp.isValid cfg (.v4 ip) b = .ok true)
    (hv' : Udp.isValid cfg (.v4 ip') b' = .ok true) :
    field b' 48 16 = patched (field b 48 16) (changed
      (words (pseudoHeader ((ip.drop 12).take 4) ((ip.drop 16).take 4) 17#8 b.length ++ zeroed (udpCovered cfg b) 6))
      (words (pseudoHeader ((ip'.drop 12).take 4) ((ip'.drop 16).take 4) 17#8 b.length ++ zeroed (udpCovered cfg b') 6))) := by
  rw [C110_udp_exact cfg ip b hip hb] at hv
  rw [C110_udp_exact cfg ip' b' hip' (by omega), hl] at hv'
  have hv := of_decide_eq_true (Outcome.ok.inj hv)
  have hv' := of_decide_eq_true (Outcome.ok.inj hv')
  have hf : ∀ c : Bytes, 8 ≤ c.length → field (udpCovered cfg c) 48 16 = field c 48 16 := by
    intro c hc
    unfold udpCovered
    split
    · exact field_take' (by omega)
    · rfl
  have e := hf b hb
  have e' := hf b' (by omega)
  rw [← e] at hv ⊢
  rw [← e'] at hv' ⊢
  have l := udpCovered_length cfg b
  have l' := udpCovered_length cfg b'
  rw [hl] at l'
  exact patched_behind (k := 3) (pseudoHeader_length hip 17#8 b.length) (pseudoHeader_length hip' 17#8 b.length)
    (by rw [l]; split <;> omega) (l'.trans l.symm) hv hv'

/-- A concrete case that meets the hypotheses. -/
example (cfg : Cfg) := C120_udp cfg Sample.udpPacket Sample.udpBack Sample.udp Sample.udpSwapped (by decide)
    (by decide) (by decide) (by decide) (by in_every_build) (by in_every_build)

/-- C120, TCP. -/
theorem C120_tcp (cfg : Cfg) (ip ip' b b' : Bytes) (hip : 20 ≤ ip.length) (hip' : 20 ≤ ip'.length) (hb : 20 ≤ b.length)
    (hbl : b.length ≤ 65535) (hodd : b.length % 2 = 0 ∨ cfg.eofAdvances = false) (hl : b'.length = b.length)
    (hv : Tcp.isValid cfg (.v4 ip) b = .ok true) (hv' : Tcp.isValid cfg (.v4 ip') b' = .ok true) :
    field b' 128 16 = patched (field b 128 16) (changed
      (words (pseudoHeader ((ip.drop 12).take 4) ((ip.drop 16).take 4) 6#8 b.length ++ zeroed b 16))
      (words (pseudoHeader ((ip'.drop 12).take 4) ((ip'.drop 16).take 4) 6#8 b.length ++ zeroed b' 16))) := by
  rw [C110_tcp_exact cfg ip b hip hb hbl hodd] at hv
  rw [C110_tcp_exact cfg ip' b' hip' (by omega) (by omega) (by rw [hl]; exact hodd), hl] at hv'
  have hv := of_decide_eq_true (Outcome.ok.inj hv)
  have hv' := of_decide_eq_true (Outcome.ok.inj hv')
  exact patched_behind (k := 8) (pseudoHeader_length hip 6#8 b.length) (pseudoHeader_length hip' 6#8 b.length)
    (by omega) hl hv hv'

/-- A concrete case that meets the hypotheses. -/
example (cfg : Cfg) := C120_tcp cfg Sample.tcpPacket (put Sample.tcpPacket 12 [10, 0, 0, 2, 10, 0, 0, 1]) Sample.tcp
    Sample.tcpSwapped (by decide) (by decide) (by decide) (by decide) (.inl (by decide)) (by decide)
    (by in_every_build) (by in_every_build)

/-! ## Forwarding and address translation -/

theorem words_two {m : Bytes} (h : 2 ≤ m.length) : (words m).sum = field m 0 16 + (words (m.drop 2)).sum := by
  have hf := field_u16 m 0
  match m, h with
  | a :: b :: rest, _ =>
    rw [show (8 * 0 : Nat) = 0 from rfl] at hf
    rw [hf]
    simp [words]

theorem words_step {m : Bytes} {n : Nat} (hn : n + 2 ≤ m.length) :
    (words (m.drop n)).sum = field m (8 * n) 16 + (words (m.drop (n + 2))).sum := by
  rw [words_two (by rw [List.length_drop]; omega), List.drop_drop]
  have := field_drop m n 0 16
  rw [Nat.add_zero] at this
  rw [this]

/-- The words of a header of 20 bytes or more. -/
theorem words_twenty {m : Bytes} (h : 20 ≤ m.length) : (words m).sum = field m 0 16 + (field m 16 16 + (field m 32 16 +
    (field m 48 16 + (field m 64 16 + (field m 80 16 + (field m 96 16 + (field m 112 16 + (field m 128 16 +
    (field m 144 16 + (words (m.drop 20)).sum))))))))) := by
  have step := fun n (hn : n + 2 ≤ 20) => words_step (m := m) (n := n) (by omega)
  have s0 := step 0 (by omega); have s1 := step 2 (by omega); have s2 := step 4 (by omega)
  have s3 := step 6 (by omega); have s4 := step 8 (by omega); have s5 := step 10 (by omega)
  have s6 := step 12 (by omega); have s7 := step 14 (by omega); have s8 := step 16 (by omega)
  have s9 := step 18 (by omega)
  simp only [Nat.reduceMul, Nat.reduceAdd, List.drop_zero] at s0 s1 s2 s3 s4 s5 s6 s7 s8 s9
  omega

theorem patched_one (hc m m' : Nat) : patched hc [(m, m')] = rfc1624 hc m m' := rfl

/-- The words of the fixed header, checksum excepted. -/
def fixedWords (b : Bytes) : Nat :=
  field b 0 16 + field b 16 16 + field b 32 16 + field b 48 16 + field b 64 16 + field b 96 16 + field b 112 16 +
    field b 128 16 + field b 144 16

/-- Two headers with the same options. -/
theorem v4_patched {cfg : Cfg} {b b' : Bytes} (h : Legal b) (h' : Legal b') (hv : V4.isValid cfg b = .ok true)
    (hv' : V4.isValid cfg b' = .ok true) (hl : b'.length = b.length) (hd : b'.drop 20 = b.drop 20)
    (hi : field b' 4 4 = field b 4 4) {cs : List (Nat × Nat)} (hc : ∀ p ∈ cs, p.1 ≤ 65535 ∧ p.2 ≤ 65535)
    (hs : (cs.map Prod.snd).sum + fixedWords b = (cs.map Prod.fst).sum + fixedWords b') :
    field b' 80 16 = patched (field b 80 16) cs := by
  have hok := (V4.noPayload_ok_iff.1 h.1).2
  have hlong := hok.long; have hh := hok.header; have h5 := h.2
  rw [C110_v4_exact cfg b h.1 (by omega)] at hv
  rw [C110_v4_exact cfg b' h'.1 (by omega), hi] at hv'
  have hv := of_decide_eq_true (Outcome.ok.inj hv)
  have hv' := of_decide_eq_true (Outcome.ok.inj hv')
  unfold wordSum at hv hv'
  have tl : ∀ c : Bytes, c.length = b.length → (c.take (4 * field b 4 4)).length = 4 * field b 4 4 := by
    intro c hc
    rw [List.length_take]; omega
  have hr : (b'.take (4 * field b 4 4)).drop 20 = (b.take (4 * field b 4 4)).drop 20 := by
    rw [List.drop_take, List.drop_take, hd]
  have hb := words_twenty (m := b.take (4 * field b 4 4)) (by rw [tl b rfl]; omega)
  have hb' := words_twenty (m := b'.take (4 * field b 4 4)) (by rw [tl b' hl]; omega)
  rw [hr] at hb'
  have ff : ∀ (c : Bytes) s, s ≤ 144 → field (c.take (4 * field b 4 4)) s 16 = field c s 16 :=
    fun c s hs => field_take' (by omega)
  rw [ff _ 0 (by omega), ff _ 16 (by omega), ff _ 32 (by omega), ff _ 48 (by omega), ff _ 64 (by omega),
    ff _ 80 (by omega), ff _ 96 (by omega), ff _ 112 (by omega), ff _ 128 (by omega), ff _ 144 (by omega)] at hb hb'
  have l1 := field_lt b 80 16; have l2 := field_lt b' 80 16
  have e16 : (2 : Nat) ^ 16 = 65536 := rfl
  unfold fixedWords at hs
  refine patched_eq (a := (words (b.take (4 * field b 4 4))).sum - field b 80 16)
    (a' := (words (b'.take (4 * field b 4 4))).sum - field b' 80 16) hc (by omega) ⟨by omega, hv.2⟩ ⟨by omega, hv'.2⟩
    (by omega) (by omega)

theorem word_zero {b b' : Bytes} (h : field b' 0 8 = field b 0 8)
    (h' : (field b' 8 6, field b' 14 2) = (field b 8 6, field b 14 2)) : field b' 0 16 = field b 0 16 := by
  have ts := congrArg Prod.fst h'; have te := congrArg Prod.snd h'
  simp only [] at ts te
  have a1 := field_add b 0 8 8; have a2 := field_add b' 0 8 8
  have a3 := field_add b 8 6 2; have a4 := field_add b' 8 6 2
  simp only [Nat.reduceAdd] at a1 a2 a3 a4
  rw [a1, a2, a3, a4, h, ts, te]

/-- C120, a router: `checked().set_ttl(v)` on a packet that verifies leaves the checksum that RFC 1624 computes from the
old checksum and the one word that changed (time to live and protocol). -/
theorem C120_forward (cfg : Cfg) (b : Bytes) (h : Legal b) (hv : V4.isValid cfg b = .ok true) (v : U8) :
    ∃ b', V4.checkedRun cfg [.ttl v] b = (.ok (), b') ∧ V4.isValid cfg b' = .ok true ∧ V4.ttl b' = .ok v ∧
      field b' 80 16 = rfc1624 (field b 80 16) (field b 64 16) (v.toNat * 256 + field b 72 8) := by
  obtain ⟨b', c1, c2, c3, -⟩ := C19_v4_checked cfg b h [.ttl v]
  obtain ⟨b'', d1, d2, d3, d4, d5, d6, d7, -⟩ := C19_v4_checked_fields cfg b h [.ttl v]
  have : b'' = b' := by rw [c1] at d1; exact (congrArg Prod.snd d1).symm
  subst this
  have hok := (V4.noPayload_ok_iff.1 h.1).2
  have hlong := hok.long
  have ft : field b'' 64 8 = v.toNat := d6 64 8 (by decide)
  have fp : field b'' 72 8 = field b 72 8 := d6 72 8 (by decide)
  have fi : field b'' 32 16 = field b 32 16 := d6 32 16 (by decide)
  have fo : field b'' 48 16 = field b 48 16 := d6 48 16 (by decide)
  have fs : field b'' 96 32 = field b 96 32 := d6 96 32 (by decide)
  have fd : field b'' 128 32 = field b 128 32 := d6 128 32 (by decide)
  have w0 := word_zero d4 d7
  refine ⟨b'', c1, c2, ?_, ?_⟩
  · rw [(C14_v4_fields b'' (by omega)).2.2.2.2.2.2.2.1, ft, BitVec.ofNat_toNat, BitVec.setWidth_eq]
  · have w4 : field b'' 64 16 = v.toNat * 256 + field b 72 8 := by
      have a := field_add b'' 64 8 8
      simp only [Nat.reduceAdd] at a
      rw [a, ft, fp]
    have w6 := addressWords_field b'' 96; have w6' := addressWords_field b 96
    have w8 := addressWords_field b'' 128; have w8' := addressWords_field b 128
    rw [fs, w6'] at w6
    rw [fd, w8'] at w8
    simp only [Nat.reduceAdd] at w6 w8
    have l3 := field_lt b 64 16; have l4 := field_lt b'' 64 16
    have e16 : (2 : Nat) ^ 16 = 65536 := rfl
    rw [← patched_one, ← w4]
    refine v4_patched h c3 hv c2 d2 d3 (ihl_of_first d4).1 ?_ ?_
    · intro p hp
      cases List.mem_singleton.1 hp
      simp only []
      omega
    · simp only [List.map_cons, List.map_nil, List.sum_cons, List.sum_nil]
      unfold fixedWords
      omega

/-! An address translator rewrites the source address of the packet and the source port of the datagram. -/

/-- The two halves of the address that `set_source` stores. -/
theorem source_words {p p' : Bytes} {a : Ipv4Addr} (h : HeaderEdited [.source a] p p') :
    field p' 96 16 = a.a.toNat * 256 + a.b.toNat ∧ field p' 112 16 = a.c.toNat * 256 + a.d.toNat ∧
      field p' 128 32 = field p 128 32 := by
  have f1 : field p' 96 32 = beNat a.octets := h.fields 96 32 (by decide)
  have f2 : field p' 128 32 = field p 128 32 := h.fields 128 32 (by decide)
  have w := field_add p' 96 16 16
  have l1 := field_lt p' 96 16; have l2 := field_lt p' 112 16
  have h1 := a.a.isLt; have h2 := a.b.isLt; have h3 := a.c.isLt; have h4 := a.d.isLt
  have e : beNat a.octets = ((a.a.toNat * 256 + a.b.toNat) * 256 + a.c.toNat) * 256 + a.d.toNat := by
    simp [Ipv4Addr.octets, beNat]
  have e16 : (2 : Nat) ^ 16 = 65536 := rfl
  have e8 : (2 : Nat) ^ 8 = 256 := rfl
  simp only [Nat.reduceAdd] at w
  rw [f1, e] at w
  exact ⟨by omega, by omega, f2⟩

theorem udpCovered_drop {cfg : Cfg} {u u' : Bytes} (hl : u'.length = u.length) (hd : u'.drop 8 = u.drop 8) :
    (udpCovered cfg u').drop 8 = (udpCovered cfg u).drop 8 := by
  unfold udpCovered
  split
  · unfold evenPart
    rw [List.drop_take, List.drop_take, hl, hd]
  · exact hd

theorem source_set {p p' : Bytes} {a : Ipv4Addr} (h : HeaderEdited [.source a] p p') (hl : 20 ≤ p'.length) :
    V4.source p' = .ok a := by
  obtain ⟨w1, w2, -⟩ := source_words h
  have f1 := field_u16 p' 12; have f2 := field_u16 p' 14
  simp only [Nat.reduceMul, Nat.reduceAdd] at f1 f2
  have b1 := (p'.getD 12 0#8).isLt; have b2 := (p'.getD 13 0#8).isLt
  have b3 := (p'.getD 14 0#8).isLt; have b4 := (p'.getD 15 0#8).isLt
  have h1 := a.a.isLt; have h2 := a.b.isLt; have h3 := a.c.isLt; have h4 := a.d.isLt
  have e8 : (2 : Nat) ^ 8 = 256 := rfl
  rw [V4.source_eq hl]
  have x1 : p'.getD 12 0#8 = a.a := BitVec.eq_of_toNat_eq (by omega)
  have x2 : p'.getD 13 0#8 = a.b := BitVec.eq_of_toNat_eq (by omega)
  have x3 : p'.getD 14 0#8 = a.c := BitVec.eq_of_toNat_eq (by omega)
  have x4 : p'.getD 15 0#8 = a.d := BitVec.eq_of_toNat_eq (by omega)
  rw [x1, x2, x3, x4]

theorem source_patch {p p' : Bytes} {a : Ipv4Addr} (h : HeaderEdited [.source a] p p') (hl : 20 ≤ p.length)
    (hl' : 20 ≤ p'.length) (proto : U8) (n : Nat) :
    a.a.toNat * 256 + a.b.toNat + (a.c.toNat * 256 + a.d.toNat) + pseudoSum p proto n =
      field p 96 16 + field p 112 16 + pseudoSum p' proto n := by
  obtain ⟨w1, w2, w3⟩ := source_words h
  rw [pseudoSum_addresses hl, pseudoSum_addresses hl']
  unfold addressSum
  rw [w3, addressWords_field p 96, addressWords_field p' 96]
  simp only [Nat.reduceAdd]
  omega

/-- C120, address translation, the IPv4 header. -/
theorem C120_nat_v4 (cfg : Cfg) (p : Bytes) (hp : V4.new p = .ok p) (h5 : 5 ≤ field p 4 4)
    (hv : V4.isValid cfg p = .ok true) (a : Ipv4Addr) :
    ∃ p', V4.checkedRun cfg [.source a] p = (.ok (), p') ∧ V4.source p' = .ok a ∧ V4.isValid cfg p' = .ok true ∧
      field p' 80 16 = patched (field p 80 16)
        [(field p 96 16, a.a.toNat * 256 + a.b.toNat), (field p 112 16, a.c.toNat * 256 + a.d.toNat)] := by
  obtain ⟨p', c1, c2, c3, -, c5⟩ := v4_edited cfg p hp h5 [.source a]
  have hok := (V4.new_ok_iff.1 hp).2
  have hok' := (V4.new_ok_iff.1 c2).2
  obtain ⟨i1, -⟩ := ihl_of_first c5.first
  have hl := hok.long
  have hl' : 20 ≤ p'.length := by rw [c5.length]; exact hl
  have leg : Legal p := ⟨V4.noPayload_ok_iff.2 ⟨rfl, hok.toHeaderOk⟩, h5⟩
  have leg' : Legal p' := ⟨V4.noPayload_ok_iff.2 ⟨rfl, hok'.toHeaderOk⟩, by omega⟩
  obtain ⟨w1, w2, w3⟩ := source_words c5
  have fi : field p' 32 16 = field p 32 16 := c5.fields 32 16 (by decide)
  have fo : field p' 48 16 = field p 48 16 := c5.fields 48 16 (by decide)
  have ft : field p' 64 8 = field p 64 8 := c5.fields 64 8 (by decide)
  have fp : field p' 72 8 = field p 72 8 := c5.fields 72 8 (by decide)
  have f0 := word_zero c5.first c5.tos
  have f4 : field p' 64 16 = field p 64 16 := by
    have a1 := field_add p' 64 8 8; have a2 := field_add p 64 8 8
    simp only [Nat.reduceAdd] at a1 a2
    rw [a1, a2, ft, fp]
  have w8 := addressWords_field p' 128; have w8' := addressWords_field p 128
  rw [w3, w8'] at w8
  simp only [Nat.reduceAdd] at w8
  have ft := c5.total
  have h1 := a.a.isLt; have h2 := a.b.isLt; have h3 := a.c.isLt; have h4 := a.d.isLt
  have l4 := field_lt p 96 16; have l5 := field_lt p 112 16
  have e16 : (2 : Nat) ^ 16 = 65536 := rfl
  have e8 : (2 : Nat) ^ 8 = 256 := rfl
  obtain ⟨d, hd1, -, hd3, -⟩ := C19_v4_checked_fields cfg p leg [.source a]
  have : d = p' := by rw [c1] at hd1; exact (congrArg Prod.snd hd1).symm
  subst this
  refine ⟨d, c1, source_set c5 hl', c3, v4_patched leg leg' hv c3 c5.length (by assumption) i1 ?_ ?_⟩
  · intro x hx
    simp only [List.mem_cons, List.not_mem_nil, or_false] at hx
    rcases hx with rfl | rfl <;> simp only [] <;> omega
  · simp only [List.map_cons, List.map_nil, List.sum_cons, List.sum_nil]
    unfold fixedWords
    omega

/-- A concrete case that meets the hypotheses. -/
example (cfg : Cfg) := C120_nat_v4 cfg Sample.udpPacket (by decide) (by decide) (by in_every_build)

theorem words_eight {m : Bytes} (h : 8 ≤ m.length) : (words m).sum =
    field m 0 16 + field m 16 16 + field m 32 16 + field m 48 16 + (words (m.drop 8)).sum := by
  have s0 := words_step (m := m) (n := 0) (by omega); have s1 := words_step (m := m) (n := 2) (by omega)
  have s2 := words_step (m := m) (n := 4) (by omega); have s3 := words_step (m := m) (n := 6) (by omega)
  simp only [Nat.reduceMul, Nat.reduceAdd, List.drop_zero] at s0 s1 s2 s3
  omega

theorem nat_sums {a b s t x y port u0 u1 u2 c c' r : Nat} (q : a + b + x = s + t + y) :
    a + (b + (port + 0)) + (x + (u0 + u1 + u2 + c + r - c)) = s + (t + (u0 + 0)) + (y + (port + u1 + u2 + c' + r - c')) := by
  omega

theorem nat_sums_tcp {a b s t x y port u0 u1 u2 u3 u4 u5 v2 v3 v4 v5 u6 u7 u9 c c' r : Nat} (q : a + b + x = s + t + y)
    (h : u2 + u3 = v2 + v3) (h' : u4 + u5 = v4 + v5) :
    a + (b + (port + 0)) + (x + (u0 + (u1 + (u2 + (u3 + (u4 + (u5 + (u6 + (u7 + (c + (u9 + r))))))))) - c)) =
      s + (t + (u0 + 0)) + (y + (port + (u1 + (v2 + (v3 + (v4 + (v5 + (u6 + (u7 + (c' + (u9 + r))))))))) - c')) := by
  omega

/-- C120, address translation, UDP: a packet and its datagram verify; `set_source(a)` on the packet and
`set_source(port)` on the datagram, both through `checked()`, leave the checksum that RFC 1624 computes from the old
one, the two halves of the address and the port. -/
theorem C120_nat_udp (cfg : Cfg) (p u : Bytes) (hp : V4.new p = .ok p) (h5 : 5 ≤ field p 4 4)
    (hu : Udp.noPayload u = .ok u) (hv : Udp.isValid cfg (.v4 p) u = .ok true) (a : Ipv4Addr) (port : U16) :
    ∃ p' u', V4.checkedRun cfg [.source a] p = (.ok (), p') ∧ V4.source p' = .ok a ∧
      Udp.checkedRun cfg (.v4 p') [.source port] u = (.ok (), u') ∧ Udp.source u' = .ok port ∧
      Udp.isValid cfg (.v4 p') u' = .ok true ∧
      field u' 48 16 = patched (field u 48 16)
        [(field p 96 16, a.a.toNat * 256 + a.b.toNat), (field p 112 16, a.c.toNat * 256 + a.d.toNat),
         (field u 0 16, port.toNat)] := by
  obtain ⟨p', c1, c2, -, -, c5⟩ := v4_edited cfg p hp h5 [.source a]
  have hl := (V4.new_ok_iff.1 hp).2.long
  have hl' : 20 ≤ p'.length := by rw [c5.length]; exact hl
  have hu8 : 8 ≤ u.length := by
    rw [Udp.noPayload_eq] at hu; split at hu
    · cases hu
    · omega
  obtain ⟨u', k1, k2, -, k4, k5, k6, k7, k8⟩ := C23_udp_checked cfg p' u hl' hu [.source port]
  have k7 : field u' 0 16 = port.toNat := k7
  have k8 : field u' 16 16 = field u 16 16 := k8
  refine ⟨p', u', c1, source_set c5 hl', k1, ?_, k2, ?_⟩
  · rw [(C21_udp_fields u' (by omega)).1, k7, BitVec.ofNat_toNat, BitVec.setWidth_eq]
  · rw [C110_udp_exact cfg p u hl hu8] at hv
    rw [C110_udp_exact cfg p' u' hl' (by omega), k4] at k2
    have hv := of_decide_eq_true (Outcome.ok.inj hv)
    have k2 := of_decide_eq_true (Outcome.ok.inj k2)
    have q := source_patch c5 hl hl' 17#8 u.length
    unfold wordSum at hv k2
    rw [words_append (by rw [pseudoHeader_length hl]), List.sum_append] at hv
    rw [words_append (by rw [pseudoHeader_length hl']), List.sum_append] at k2
    have cl := udpCovered_length cfg u
    have cl' := udpCovered_length cfg u'
    rw [k4] at cl'
    have c8 : 8 ≤ (udpCovered cfg u).length := by rw [cl]; split <;> omega
    have ff : ∀ (c : Bytes) s, 8 ≤ c.length → s ≤ 48 → field (udpCovered cfg c) s 16 = field c s 16 := by
      intro c s hc hs
      unfold udpCovered
      split
      · exact field_take' (by omega)
      · rfl
    have w := words_eight c8
    have w' := words_eight (m := udpCovered cfg u') (by omega)
    rw [ff _ 0 hu8 (by omega), ff _ 16 hu8 (by omega), ff _ 32 hu8 (by omega), ff _ 48 hu8 (by omega)] at w
    rw [ff _ 0 (by omega) (by omega), ff _ 16 (by omega) (by omega), ff _ 32 (by omega) (by omega),
      ff _ 48 (by omega) (by omega), udpCovered_drop k4 k5, k6, k7, k8] at w'
    have l1 := field_lt u 48 16; have l2 := field_lt u' 48 16; have l3 := field_lt u 0 16
    have l4 := field_lt p 96 16; have l5 := field_lt p 112 16; have l6 := port.isLt
    have h1 := a.a.isLt; have h2 := a.b.isLt; have h3 := a.c.isLt; have h4 := a.d.isLt
    have e16 : (2 : Nat) ^ 16 = 65536 := rfl
    have e8 : (2 : Nat) ^ 8 = 256 := rfl
    unfold pseudoSum at q
    refine patched_eq
      (a := (words (pseudoHeader ((p.drop 12).take 4) ((p.drop 16).take 4) 17#8 u.length)).sum +
        ((words (udpCovered cfg u)).sum - field u 48 16))
      (a' := (words (pseudoHeader ((p'.drop 12).take 4) ((p'.drop 16).take 4) 17#8 u.length)).sum +
        ((words (udpCovered cfg u')).sum - field u' 48 16)) ?_ ?_ ⟨by omega, hv.2⟩ ⟨by omega, k2.2⟩ (by omega) (by omega)
    · intro x hx
      simp only [List.mem_cons, List.not_mem_nil, or_false] at hx
      rcases hx with rfl | rfl | rfl <;> simp only [] <;> omega
    · simp only [List.map_cons, List.map_nil, List.sum_cons, List.sum_nil]
      rw [w, w']
      exact nat_sums q

/-- A concrete case that meets the hypotheses. -/
example (cfg : Cfg) := C120_nat_udp cfg Sample.udpPacket Sample.udp (by decide) (by decide) (by decide)
    (by in_every_build)

/-- C120, address translation, TCP. -/
theorem C120_nat_tcp (cfg : Cfg) (p u : Bytes) (hp : V4.new p = .ok p) (h5 : 5 ≤ field p 4 4)
    (hu : Tcp.new u = .ok u) (hu5 : 5 ≤ field u 96 4) (hul : u.length ≤ 65535)
    (hodd : u.length % 2 = 0 ∨ cfg.eofAdvances = false)
    (hv : Tcp.isValid cfg (.v4 p) u = .ok true) (a : Ipv4Addr) (port : U16) :
    ∃ p' u', V4.checkedRun cfg [.source a] p = (.ok (), p') ∧ V4.source p' = .ok a ∧
      Tcp.checkedRun cfg (.v4 p') [.source port] u = (.ok (), u') ∧ Tcp.source u' = .ok port ∧
      Tcp.isValid cfg (.v4 p') u' = .ok true ∧
      field u' 128 16 = patched (field u 128 16)
        [(field p 96 16, a.a.toNat * 256 + a.b.toNat), (field p 112 16, a.c.toNat * 256 + a.d.toNat),
         (field u 0 16, port.toNat)] := by
  obtain ⟨p', c1, c2, -, -, c5⟩ := v4_edited cfg p hp h5 [.source a]
  have hl := (V4.new_ok_iff.1 hp).2.long
  have hl' : 20 ≤ p'.length := by rw [c5.length]; exact hl
  have hu20 : 20 ≤ u.length := (Tcp.new_ok_iff.1 hu).2.1
  obtain ⟨u', k1, k2, -, k4, k5, k6, k7, k8, k9, k10, k11, k12⟩ :=
    C28_tcp_checked cfg p' u hl' hu hu5 hul hodd [.source port] (fun op hop => by
      cases List.mem_singleton.1 hop; trivial)
  have k6 : field u' 0 16 = port.toNat := k6
  have k7 : field u' 16 16 = field u 16 16 := k7
  have k8 : field u' 32 32 = field u 32 32 := k8
  have k9 : field u' 64 32 = field u 64 32 := k9
  have k10 : field u' 112 16 = field u 112 16 := k10
  have k11 : field u' 144 16 = field u 144 16 := k11
  refine ⟨p', u', c1, source_set c5 hl', k1, ?_, k2, ?_⟩
  · rw [(C24_tcp_fields u' (by omega)).1, k6, BitVec.ofNat_toNat, BitVec.setWidth_eq]
  · rw [C110_tcp_exact cfg p u hl hu20 hul hodd] at hv
    rw [C110_tcp_exact cfg p' u' hl' (by omega) (by omega) (by rw [k4]; exact hodd), k4] at k2
    have hv := of_decide_eq_true (Outcome.ok.inj hv)
    have k2 := of_decide_eq_true (Outcome.ok.inj k2)
    have q := source_patch c5 hl hl' 6#8 u.length
    unfold wordSum at hv k2
    rw [words_append (by rw [pseudoHeader_length hl]), List.sum_append] at hv
    rw [words_append (by rw [pseudoHeader_length hl']), List.sum_append] at k2
    have w := words_twenty hu20
    have w' := words_twenty (m := u') (by omega)
    have w3 := addressWords_field u' 32; have w3' := addressWords_field u 32
    have w4 := addressWords_field u' 64; have w4' := addressWords_field u 64
    rw [k8, w3'] at w3
    rw [k9, w4'] at w4
    simp only [Nat.reduceAdd] at w3 w4
    rw [k5, k6, k7, k10, k11, k12] at w'
    have l1 := field_lt u 128 16; have l2 := field_lt u' 128 16; have l3 := field_lt u 0 16
    have l4 := field_lt p 96 16; have l5 := field_lt p 112 16; have l6 := port.isLt
    have h1 := a.a.isLt; have h2 := a.b.isLt; have h3 := a.c.isLt; have h4 := a.d.isLt
    have e16 : (2 : Nat) ^ 16 = 65536 := rfl
    have e8 : (2 : Nat) ^ 8 = 256 := rfl
    unfold pseudoSum at q
    refine patched_eq
      (a := (words (pseudoHeader ((p.drop 12).take 4) ((p.drop 16).take 4) 6#8 u.length)).sum +
        ((words u).sum - field u 128 16))
      (a' := (words (pseudoHeader ((p'.drop 12).take 4) ((p'.drop 16).take 4) 6#8 u.length)).sum +
        ((words u').sum - field u' 128 16)) ?_ ?_ ⟨by omega, hv.2⟩ ⟨by omega, k2.2⟩ (by omega) (by omega)
    · intro x hx
      simp only [List.mem_cons, List.not_mem_nil, or_false] at hx
      rcases hx with rfl | rfl | rfl <;> simp only [] <;> omega
    · simp only [List.map_cons, List.map_nil, List.sum_cons, List.sum_nil]
      rw [w, w']
      exact nat_sums_tcp q w3 w4

/-! ## The hypotheses are met -/

/-- A packet of `missedHeader` forwarded: 0x66d7 becomes 0x67d7, as RFC 1624 says. -/
example (cfg : Cfg) : Legal missedHeader ∧ V4.isValid cfg missedHeader = .ok true ∧
    rfc1624 (field missedHeader 80 16) (field missedHeader 64 16) (63 * 256 + field missedHeader 72 8) = 0x67d7 ∧
    ∃ b', V4.checkedRun cfg [.ttl 63#8] missedHeader = (.ok (), b') ∧ field b' 80 16 = 0x67d7 := by
  have hl : Legal missedHeader := by unfold Legal; decide
  have hv : V4.isValid cfg missedHeader = .ok true := by
    rw [C110_v4_exact cfg _ hl.1 (by decide)]
    decide +kernel
  refine ⟨hl, hv, by decide +kernel, ?_⟩
  obtain ⟨b', h1, -, -, h4⟩ := C120_forward cfg missedHeader hl hv 63#8
  exact ⟨b', h1, h4.trans (by decide +kernel)⟩

/-- The UDP datagram and the TCP segment behind it, translated to 192.168.1.2, port 4000. -/
example (cfg : Cfg) : V4.new missedHeader = .ok missedHeader ∧ 5 ≤ field missedHeader 4 4 ∧
    Udp.noPayload missedUdp = .ok missedUdp ∧ Udp.isValid cfg (.v4 missedHeader) missedUdp = .ok true ∧
    Tcp.new missedTcp = .ok missedTcp ∧ 5 ≤ field missedTcp 96 4 ∧
    Tcp.isValid cfg (.v4 missedHeader) missedTcp = .ok true ∧
    patched (field missedUdp 48 16) [(field missedHeader 96 16, 0xc0a8), (field missedHeader 112 16, 0x0102),
      (field missedUdp 0 16, 4000)] = 0x2356 := by
  refine ⟨by decide, by decide, by decide, ?_, by decide, by decide, ?_, by decide +kernel⟩
  · rw [C110_udp_exact cfg _ _ (by decide) (by decide)]
    obtain ⟨oc, ea, nw⟩ := cfg
    cases oc <;> cases ea <;> cases nw <;> decide +kernel
  · rw [C110_tcp_exact cfg _ _ (by decide) (by decide) (by decide) (.inl (by decide))]
    decide +kernel

end Verif.Props
