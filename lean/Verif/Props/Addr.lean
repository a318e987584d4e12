import Verif.AddrLemmas
/-
C03–C07: AFI and LCAF addresses.
`encAddr` models `get_bitstream_for_afi_address`, `readAfi plen` models
`read_afi_address_from_bitstream(stream, plen)`: it returns the address and the unread bits.
-/
namespace PyLisp.Props
open PyLisp

/-- C03: an address (or no address) can always be written, and is read back unchanged, whatever
follows it in the stream. -/
theorem afi_ip_round_trip (a : IP) (t : Bits) :
    ∃ b, encAddr (.ip a) = .ok b ∧ readAfi .none (b ++ t) = .ok (.ip a, t) :=
  ⟨encIP a, rfl, by rw [readAfi_ip]; rfl⟩

/-- C03: "no address" (AFI 0) round trip. -/
theorem afi_none_round_trip (t : Bits) :
    ∃ b, encAddr .none = .ok b ∧ readAfi .none (b ++ t) = .ok (.none, t) :=
  ⟨zeros 16, rfl, readAfi_enc (a := .none) rfl t⟩

/-- C03: a network is read back unchanged with its prefix length. -/
theorem afi_net_round_trip (n : Net) (t : Bits) :
    ∃ b, encAddr (.net n) = .ok b ∧ readAfi (.some n.plen) (b ++ t) = .ok (.net n, t) :=
  ⟨encIP n.first, rfl, readAfi_net n t⟩

/-- AFI numbers (IANA): 1 for IPv4, 2 for IPv6 -/
def afiNumber : Ver → Nat
  | .v4 => 1
  | .v6 => 2

/-- C03/C35: the exact bits written: 16-bit AFI (1 or 2) and then the address. -/
theorem afi_ip_layout (a : IP) : encAddr (.ip a) =
    .ok (natToBits 16 (afiNumber a.ver) ++ natToBits a.ver.width a.val) := by
  cases a with
  | mk v x h => cases v <;> rfl

/-- C04: every address that can be written, at any nesting, is read back the same
up to `Addr.strip` (contained networks become their first address), and what follows is left unread. -/
theorem lcaf_round_trip (a : Addr) (b : Bits) (h : encAddr a = .ok b) (t : Bits) :
    readAfi .none (b ++ t) = .ok (a.strip, t) := readAfi_enc h t

/-- C04: an instance-id address around a network (the EIDs of Map-Referrals) is read back
unchanged with the network's prefix length. -/
theorem lcaf_instance_net_round_trip (iid mask : Int) (n : Net) (b : Bits)
    (h : encAddr (.inst iid (.net n) mask) = .ok b) (t : Bits) :
    readAfi (.some n.plen) (b ++ t) = .ok (.inst iid (.net n) mask, t) := readAfi_inst_net h t

mutual
/-- no contained network anywhere -/
def noNet : Addr → Bool
  | .none | .ip _ | .null => true
  | .net _ => false
  | .afiList l => noNets l
  | .inst _ a _ | .asn _ a => noNet a
  | .geo _ _ _ _ _ _ _ _ _ a => noNet a
  | .natT _ _ g m p l => noNet g && noNet m && noNet p && noNets l
def noNets : List Addr → Bool
  | [] => true
  | a :: l => noNet a && noNets l
end

mutual
theorem strip_of_noNet : ∀ a, noNet a = true → a.strip = a
  | .none, _ | .ip _, _ | .null, _ => rfl
  | .net _, h => by simp [noNet] at h
  | .afiList l, h => by simp only [noNet] at h; simp [Addr.strip, stripList_of_noNets l h]
  | .inst _ a _, h => by simp only [noNet] at h; simp [Addr.strip, strip_of_noNet a h]
  | .asn _ a, h => by simp only [noNet] at h; simp [Addr.strip, strip_of_noNet a h]
  | .geo _ _ _ _ _ _ _ _ _ a, h => by simp only [noNet] at h; simp [Addr.strip, strip_of_noNet a h]
  | .natT _ _ g m p l, h => by
    simp only [noNet, Bool.and_eq_true] at h
    simp [Addr.strip, strip_of_noNet g h.1.1.1, strip_of_noNet m h.1.1.2, strip_of_noNet p h.1.2,
      stripList_of_noNets l h.2]
theorem stripList_of_noNets : ∀ l, noNets l = true → stripList l = l
  | [], _ => rfl
  | a :: l, h => by
    simp only [noNets, Bool.and_eq_true] at h
    simp [stripList, strip_of_noNet a h.1, stripList_of_noNets l h.2]
end

/-- C04: an address containing no network is read back exactly. -/
theorem lcaf_round_trip_exact (a : Addr) (b : Bits) (h : encAddr a = .ok b) (hn : noNet a = true)
    (t : Bits) : readAfi .none (b ++ t) = .ok (a, t) := by
  rw [readAfi_enc h, strip_of_noNet a hn]

/-- C05: with a prefix length, an IPv4 or IPv6 address is accepted exactly when the prefix length
fits and all bits after the prefix are zero; the result is that network. -/
theorem afi_prefix_exact (a : IP) (p : Nat) (t : Bits) (x : Addr) (rest : Bits) (b : Bits)
    (hb : encAddr (.ip a) = .ok b) :
    readAfi (.some p) (b ++ t) = .ok (x, rest) ↔
      (p ≤ a.ver.width ∧ (∀ i, i < a.ver.width - p → a.val.testBit i = false)) ∧
      (∃ n : Net, x = .net n ∧ n.ver = a.ver ∧ n.base = a.val ∧ n.plen = p) ∧ rest = t := by
  cases hb
  rw [readAfi_ip]
  constructor
  · intro h
    cases hx : applyPrefix (.some p) (.ip a) with
    | error e => rw [hx] at h; cases h
    | ok y =>
      rw [hx] at h; cases h
      obtain ⟨n, hy, h1, h2, h3⟩ := (applyPrefix_ip p a _).mp hx
      refine ⟨⟨?_, ?_⟩, ⟨n, hy, h1, h2, h3⟩, rfl⟩
      · rw [← h3, ← h1]; exact n.plen_le
      · rw [← mod_two_pow_eq_zero_iff, ← h1, ← h2, ← h3]; exact n.aligned
  · rintro ⟨_, hx, rfl⟩
    rw [(applyPrefix_ip p a x).mpr hx]; rfl

/-- C05: whenever the condition holds the read succeeds (the network exists). -/
theorem afi_prefix_accepts (a : IP) (p : Nat) (t : Bits) (b : Bits) (hb : encAddr (.ip a) = .ok b)
    (hp : p ≤ a.ver.width) (hz : ∀ i, i < a.ver.width - p → a.val.testBit i = false) :
    ∃ n : Net, readAfi (.some p) (b ++ t) = .ok (.net n, t) ∧
      n.ver = a.ver ∧ n.base = a.val ∧ n.plen = p := by
  let n : Net := ⟨a.ver, a.val, p, hp, a.lt, (mod_two_pow_eq_zero_iff _ _).mpr hz⟩
  exact ⟨n, (afi_prefix_exact a p t _ _ b hb).mpr ⟨⟨hp, hz⟩, ⟨n, rfl, rfl, rfl, rfl⟩, rfl⟩,
    rfl, rfl, rfl⟩

/-- C05: "no address" with a prefix length is accepted only for prefix length 0. -/
theorem afi_none_prefix (p : Nat) (t : Bits) (x : Addr) (rest : Bits) :
    readAfi (.some p) (zeros 16 ++ t) = .ok (x, rest) ↔ p = 0 ∧ x = .none ∧ rest = t := by
  unfold readAfi
  rw [readAddr_succ]
  unfold readAddrStep
  rw [Rd.bind_apply, ← natToBits_zero, readUint_app (by decide)]
  by_cases hp : p = 0
  · simp [hp]
    constructor <;> (rintro ⟨h1, h2⟩; exact ⟨h1.symm, h2.symm⟩)
  · simp [hp]

/-- C06: a successful read consumed a definite prefix of the stream (at least the 16-bit AFI); for
every continuation of that prefix the result is the same and the continuation is left unread. -/
theorem afi_consumes_exactly (plen : Option Nat) (s rest : Bits) (a : Addr)
    (h : readAfi plen s = .ok (a, rest)) :
    ∃ pre, s = pre ++ rest ∧ 16 ≤ pre.length ∧ ∀ t, readAfi plen (pre ++ t) = .ok (a, t) := by
  obtain ⟨pre, rfl, hp⟩ := Loc.readAfi plen s a rest h
  have := readAfi_consumes h
  refine ⟨pre, rfl, by simp at this; omega, hp⟩

/-- C06: no strict prefix of the consumed bits is readable as an address. -/
theorem afi_no_truncation (plen : Option Nat) (a : Addr) (pre cut : Bits) (hc : cut ≠ [])
    (h : readAfi plen (pre ++ cut) = .ok (a, [])) (b : Addr) (rest : Bits) :
    readAfi plen pre ≠ .ok (b, rest) :=
  (Loc.readAfi plen).no_short h rfl hc b rest

/-- C07 (addresses): reading never runs out of nesting depth, on any input. -/
theorem afi_total (plen : Option Nat) (s : Bits) : readAfi plen s ≠ .error .fuel := NF.readAfi plen s

/-! Non-vacuity -/

/-- 192.0.2.0/24 -/
def exNet : Net := ⟨.v4, 0xc0000200, 24, by decide, by decide, by decide⟩
/-- 2001:db8::1 -/
def exIP6 : IP := .v6 0x20010db8000000000000000000000001
/-- a nested address: NAT traversal with an AFI list and a geo/instance address -/
def exNested : Addr :=
  .natT 4342 61616 (.ip exIP6) (.afiList [.ip (.v4 0xc0000201), .null, .none])
    (.inst 5 (.geo true 52 22 23 false 4 53 32 (-2) (.ip exIP6)) 32) [.asn 65000 (.ip exIP6)]

example : ∃ b, encAddr exNested = .ok b ∧ noNet exNested = true ∧
    readAfi .none (b ++ [true, false]) = .ok (exNested, [true, false]) := by
  have h : ∃ b, encAddr exNested = .ok b := isOk_iff.mp (by decide +kernel)
  obtain ⟨b, hb⟩ := h
  exact ⟨b, hb, rfl, lcaf_round_trip_exact _ b hb rfl _⟩

example : ∃ b, encAddr (.inst 17 (.net exNet) 32) = .ok b ∧
    readAfi (.some exNet.plen) b = .ok (.inst 17 (.net exNet) 32, []) := by
  have h : ∃ b, encAddr (.inst 17 (.net exNet) 32) = .ok b := isOk_iff.mp (by decide +kernel)
  obtain ⟨b, hb⟩ := h
  refine ⟨b, hb, ?_⟩
  simpa using lcaf_instance_net_round_trip 17 32 exNet b hb []

/- Test vectors of unittests/test_utils_afi.py (tests, not proofs of the properties). -/
example : runOn (readAfi .none) (bytesToBits [0x00, 0x01, 0xc0, 0x00, 0x02, 0xab]) =
    .ok (.ip (.v4 0xc00002ab)) := by decide +kernel
example : runOn (readAfi (.some 24)) (bytesToBits [0x00, 0x01, 0xc0, 0x00, 0x02, 0x00]) =
    .ok (.net exNet) := by decide +kernel
example : runOn (readAfi (.some 24)) (bytesToBits [0x00, 0x01, 0xc0, 0x00, 0x02, 0xab]) =
    .error .value := by decide +kernel
example : runOn (readAfi .none) (bytesToBits [0xff, 0xff, 0xab, 0xcd]) = .error .value := by decide +kernel

end PyLisp.Props
