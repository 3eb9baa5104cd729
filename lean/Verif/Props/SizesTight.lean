import Verif.Props.Sizes
import Verif.Props.Padding
import Verif.Samples

/-! # C92: the bounds of the size traits are attained -/

namespace Verif.Props
open Verif Verif.Spec

/-- Some accepted packet is as small as `size::Min` says, in the header, in the payload and as a whole. -/
def MinAttained (k : Kind) (cfg : Cfg) : Prop :=
  ∃ b, k.new b = .ok b ∧ k.headerSize b = .ok k.headerMin ∧ k.payloadSize cfg b = .ok k.payloadMin ∧
    k.size cfg b = .ok k.min

/-- Some accepted packet is as large as `size::Max` says, in the header, in the payload and as a whole. -/
def MaxAttained (k : Kind) (cfg : Cfg) : Prop :=
  ∃ b m n, k.new b = .ok b ∧ k.payloadMax = some m ∧ k.max = some n ∧ k.headerSize b = .ok k.headerMax ∧
    k.payloadSize cfg b = .ok m ∧ k.size cfg b = .ok n

theorem size_of {k : Kind} {cfg : Cfg} {b : Bytes} {h p : Nat} (h1 : k.headerSize b = .ok h)
    (h2 : k.payloadSize cfg b = .ok p) (hs : h + p < cfg.usizeMod) : k.size cfg b = .ok (h + p) := by
  unfold Kind.size
  rw [h1, h2]
  exact addUsize_ok (.inr hs)

theorem minAttained_of {k : Kind} {cfg : Cfg} (b : Bytes) (h0 : k.new b = .ok b)
    (h1 : k.headerSize b = .ok k.headerMin) (h2 : k.payloadSize cfg b = .ok k.payloadMin)
    (hs : k.headerMin + k.payloadMin < cfg.usizeMod) : MinAttained k cfg :=
  ⟨b, h0, h1, h2, size_of h1 h2 hs⟩

theorem maxAttained_of {k : Kind} {cfg : Cfg} (b : Bytes) (m : Nat) (hm : k.payloadMax = some m)
    (h0 : k.new b = .ok b) (h1 : k.headerSize b = .ok k.headerMax) (h2 : k.payloadSize cfg b = .ok m)
    (hs : k.headerMax + m < cfg.usizeMod) : MaxAttained k cfg :=
  ⟨b, m, k.headerMax + m, h0, hm, by unfold Kind.max; rw [hm]; rfl, h1, h2, size_of h1 h2 hs⟩

/-- An ICMP error message of the given type quoting a bare IPv4 header of `n` words. -/
def quoting (t : BitVec 8) (n : Nat) : Bytes :=
  (t :: zeros 7) ++ [BitVec.ofNat 8 (64 + n), 0, 0, BitVec.ofNat 8 (4 * n)] ++ zeros (4 * n - 4)

/-- C92, minima: every one of the twelve packet types has an accepted packet of the smallest size. -/
theorem C92_min_attained (cfg : Cfg) :
    MinAttained .ether cfg ∧ MinAttained .v4 cfg ∧ MinAttained .v6 cfg ∧ MinAttained .udp cfg ∧
    MinAttained .tcp cfg ∧ MinAttained .icmp cfg ∧ MinAttained .echo cfg ∧ MinAttained .timestamp cfg ∧
    MinAttained .information cfg ∧ MinAttained .previous cfg ∧ MinAttained .redirect cfg ∧
    MinAttained .parameterProblem cfg := by
  obtain ⟨oc, ea, nw⟩ := cfg
  refine ⟨minAttained_of (zeros 14) ?_ ?_ ?_ ?_, minAttained_of ([0x45, 0, 0, 20] ++ zeros 16) ?_ ?_ ?_ ?_,
    minAttained_of [0x60] ?_ ?_ ?_ ?_, minAttained_of ([0, 0, 0, 0, 0, 8] ++ zeros 2) ?_ ?_ ?_ ?_,
    minAttained_of (zeros 12 ++ [0x50] ++ zeros 7) ?_ ?_ ?_ ?_, minAttained_of (zeros 4) ?_ ?_ ?_ ?_,
    minAttained_of (zeros 8) ?_ ?_ ?_ ?_, minAttained_of (13 :: zeros 19) ?_ ?_ ?_ ?_,
    minAttained_of (15 :: zeros 7) ?_ ?_ ?_ ?_, minAttained_of (quoting 3 5) ?_ ?_ ?_ ?_,
    minAttained_of (quoting 5 5) ?_ ?_ ?_ ?_, minAttained_of (quoting 12 5) ?_ ?_ ?_ ?_⟩ <;>
  cases oc <;> cases ea <;> cases nw <;> decide +kernel

theorem ether_max (cfg : Cfg) (b : Bytes) (hl : b.length = 1500) : MaxAttained .ether cfg := by
  have h0 : Ether.new b = .ok b := by rw [C10_ether_accept, hl]; rfl
  obtain ⟨-, -, -, -, -, -, h1, h2⟩ := C10_ether_views cfg b (by rw [hl]; in_every_build) h0
  rw [hl] at h2
  exact maxAttained_of b 1486 rfl h0 h1 h2 (by in_every_build)

theorem v4_max (cfg : Cfg) (b : Bytes) (hl : b.length = 65535) (hv : field b 0 4 = 4) (hi : field b 4 4 = 15)
    (ht : field b 16 16 = 65535) : MaxAttained .v4 cfg := by
  have h0 : V4.new b = .ok b := by
    rw [C12_v4_new_accept, hl, hv, hi, ht]; rfl
  have h4 : 4 ≤ b.length := by rw [hl]; decide
  have h1 := V4.headerSize_eq h4
  have h2 := V4.payloadSize_eq h4
  rw [hi] at h1 h2
  rw [ht] at h2
  exact maxAttained_of b 65475 rfl h0 h1 h2 (by in_every_build)

theorem udp_max (cfg : Cfg) (b : Bytes) (hl : b.length = 65535) (ht : field b 32 16 = 65535) :
    MaxAttained .udp cfg := by
  have h0 : Udp.new b = .ok b := by rw [Udp.new_eq, hl, ht]; rfl
  have h2 := Udp.payloadSize_eq (b := b) (by rw [hl]; decide)
  rw [ht] at h2
  exact maxAttained_of b 65527 rfl h0 rfl h2 (by in_every_build)

theorem tcp_max (cfg : Cfg) (b : Bytes) (hl : b.length = 65535) (ht : field b 96 4 = 15) :
    MaxAttained .tcp cfg := by
  have h0 : Tcp.new b = .ok b := by rw [Tcp.new_eq, hl, ht]; rfl
  obtain ⟨-, -, h1, h2, -⟩ := C24_tcp_views cfg b (by rw [hl]; in_every_build) h0
  rw [ht] at h1 h2
  rw [hl] at h2
  exact maxAttained_of b 65475 rfl h0 h1 h2 (by in_every_build)

theorem zeros_behind (b : Bytes) (n m : Nat) (h : b.length + n = m) : (b ++ zeros n).length = m := by
  rw [List.length_append, show (zeros n).length = n from List.length_replicate .., h]

/-- C92, maxima: every packet type that declares a maximum has an accepted packet of that size. -/
theorem C92_max_attained (cfg : Cfg) :
    MaxAttained .ether cfg ∧ MaxAttained .v4 cfg ∧ MaxAttained .v6 cfg ∧ MaxAttained .udp cfg ∧
    MaxAttained .tcp cfg ∧ MaxAttained .timestamp cfg ∧ MaxAttained .information cfg ∧
    MaxAttained .previous cfg ∧ MaxAttained .redirect cfg ∧ MaxAttained .parameterProblem cfg := by
  refine ⟨ether_max cfg (zeros 1500) (List.length_replicate ..),
    v4_max cfg ([0x4f, 0, 0xff, 0xff] ++ zeros 65531) (zeros_behind _ _ _ (by decide)) ?_ ?_ ?_,
    maxAttained_of [0x60] 0 rfl ?_ ?_ ?_ ?_,
    udp_max cfg ([0, 0, 0, 0, 0xff, 0xff] ++ zeros 65529) (zeros_behind _ _ _ (by decide)) ?_,
    tcp_max cfg ((zeros 12 ++ [0xf0]) ++ zeros 65522) (zeros_behind _ _ _ (by decide)) ?_,
    maxAttained_of (13 :: zeros 19) 0 rfl ?_ ?_ ?_ ?_, maxAttained_of (15 :: zeros 7) 0 rfl ?_ ?_ ?_ ?_,
    maxAttained_of (quoting 3 15) 60 rfl ?_ ?_ ?_ ?_, maxAttained_of (quoting 5 15) 60 rfl ?_ ?_ ?_ ?_,
    maxAttained_of (quoting 12 15) 60 rfl ?_ ?_ ?_ ?_⟩
  all_goals first
    | (rw [field_pad _ (by decide)]; decide)
    | (obtain ⟨oc, ea, nw⟩ := cfg; cases oc <;> cases ea <;> cases nw <;> decide +kernel)


/-- C92, header maxima: `size::header::Max` is attained by every one of the twelve packet types, also by those
whose payload has no maximum. -/
theorem C92_header_max_attained (k : Kind)
    (hk : k ∈ [Kind.ether, .v4, .v6, .udp, .tcp, .icmp, .echo, .timestamp, .information, .previous, .redirect,
      .parameterProblem]) :
    ∃ b, k.new b = .ok b ∧ k.headerSize b = .ok k.headerMax := by
  simp only [List.mem_cons, List.not_mem_nil, or_false] at hk
  rcases hk with rfl | rfl | rfl | rfl | rfl | rfl | rfl | rfl | rfl | rfl | rfl | rfl
  · exact ⟨zeros 14, by decide, by decide⟩
  · exact ⟨[0x4f, 0, 0, 60] ++ zeros 56, by decide, by decide⟩
  · exact ⟨[0x60], by decide, by decide⟩
  · exact ⟨zeros 8, by decide, by decide⟩
  · exact ⟨zeros 12 ++ [0xf0] ++ zeros 47, by decide, by decide⟩
  · exact ⟨zeros 4, by decide, by decide⟩
  · exact ⟨zeros 8, by decide, by decide⟩
  · exact ⟨13 :: zeros 19, by decide, by decide⟩
  · exact ⟨15 :: zeros 7, by decide, by decide⟩
  · exact ⟨3 :: zeros 7, by decide, by decide⟩
  · exact ⟨5 :: zeros 7, by decide, by decide⟩
  · exact ⟨12 :: zeros 7, by decide, by decide⟩

/-- A concrete case that meets the hypotheses. -/
example := C92_header_max_attained .tcp (by simp)

end Verif.Props
