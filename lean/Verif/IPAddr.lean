import Verif.Bits
/-
The part of the `ipaddress` library used by pylisp (library behaviour, see DESIGN.md).
An address is a version and a number below 2^width; a network always has its host bits zero and a
prefix length within the width (the library's constructors enforce that).
-/
namespace PyLisp

/-- `IPv4Address` or `IPv6Address`, also `IPv4Network` or `IPv6Network` -/
inductive Ver | v4 | v6
  deriving DecidableEq, Repr

/-- address width in bits (`max_prefixlen`) -/
def Ver.width : Ver → Nat
  | .v4 => 32
  | .v6 => 128

/-- `IPv4Address` / `IPv6Address` -/
structure IP where
  ver : Ver
  val : Nat
  lt : val < 2 ^ ver.width
  deriving DecidableEq

instance : Repr IP := ⟨fun a _ => repr (a.ver, a.val)⟩

/-- `IPv4Network` / `IPv6Network` -/
structure Net where
  ver : Ver
  base : Nat
  plen : Nat
  plen_le : plen ≤ ver.width
  base_lt : base < 2 ^ ver.width
  aligned : base % 2 ^ (ver.width - plen) = 0
  deriving DecidableEq

instance : Repr Net := ⟨fun a _ => repr (a.ver, a.base, a.plen)⟩

/-- `IPv4Address(int)`, for literals -/
def IP.v4 (v : Nat) (h : v < 2 ^ 32 := by decide) : IP := ⟨.v4, v, h⟩
/-- `IPv6Address(int)`, for literals -/
def IP.v6 (v : Nat) (h : v < 2 ^ 128 := by decide) : IP := ⟨.v6, v, h⟩

/-- number of addresses in the network -/
def Net.size (n : Net) : Nat := 2 ^ (n.ver.width - n.plen)

/-- `net[0]` -/
def Net.first (n : Net) : IP := ⟨n.ver, n.base, n.base_lt⟩

/-- `address in net`: different versions are never contained -/
def Net.containsIP (n : Net) (a : IP) : Bool :=
  n.ver = a.ver && n.base ≤ a.val && a.val < n.base + n.size

/-- `ip_network(address)`: the /32 or /128 network -/
def IP.toNet (a : IP) : Net where
  ver := a.ver
  base := a.val
  plen := a.ver.width
  plen_le := Nat.le_refl _
  base_lt := a.lt
  aligned := by simp [Nat.mod_one]

/-- `net.supernet(new_prefix=p)`: ValueError when `p` is longer than the current prefix;
(the library returns the network itself when its prefix length is 0) -/
def Net.supernet (n : Net) (p : Nat) : Except Err Net :=
  if _h0 : n.plen = 0 then .ok n
  else if h : p ≤ n.plen then
    .ok {
      ver := n.ver
      base := n.base / 2 ^ (n.ver.width - p) * 2 ^ (n.ver.width - p)
      plen := p
      plen_le := Nat.le_trans h n.plen_le
      base_lt := Nat.lt_of_le_of_lt (Nat.div_mul_le_self _ _) n.base_lt
      aligned := by simp
    }
  else .error .value

/-! ### Lemmas -/

theorem Ver.width_pos (v : Ver) : 0 < v.width := by cases v <;> decide

theorem Net.size_pos (n : Net) : 0 < n.size := Nat.two_pow_pos _

theorem Net.ext' {a b : Net} (hv : a.ver = b.ver) (hb : a.base = b.base) (hp : a.plen = b.plen) :
    a = b := by
  cases a; cases b; simp_all

theorem IP.ext' {a b : IP} (hv : a.ver = b.ver) (hb : a.val = b.val) : a = b := by
  cases a; cases b; simp_all

/-- `ip_network(a).supernet(new_prefix=p)[0] == a` holds for a network `n` exactly when
`n` is the network with base `a` and prefix length `p` -/
theorem IP.supernet_first_iff (a : IP) (p : Nat) (n : Net) :
    (a.toNet.supernet p = .ok n ∧ n.first = a) ↔
      (n.ver = a.ver ∧ n.base = a.val ∧ n.plen = p) := by
  have hw := a.ver.width_pos
  unfold Net.supernet
  rw [dif_neg (by simp [IP.toNet]; omega)]
  constructor
  · rintro ⟨h, hf⟩
    split at h
    · cases h
      refine ⟨rfl, ?_, rfl⟩
      have := congrArg IP.val hf
      simpa [Net.first] using this
    · cases h
  · rintro ⟨hv, hb, rfl⟩
    have hp : n.plen ≤ a.toNet.plen := by
      simp only [IP.toNet]; rw [← hv]; exact n.plen_le
    rw [dif_pos hp]
    have hal := n.aligned
    rw [hv, hb] at hal
    refine ⟨?_, IP.ext' hv hb⟩
    congr 1
    apply Net.ext'
    · exact hv.symm
    · simp only [IP.toNet]; rw [hb, Nat.div_mul_cancel (Nat.dvd_of_mod_eq_zero hal)]
    · rfl

theorem IP.supernet_ne_fuel (a : Net) (p : Nat) : a.supernet p ≠ .error .fuel := by
  unfold Net.supernet; split
  · simp
  · split <;> simp

end PyLisp
