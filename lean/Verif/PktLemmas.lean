import Verif.Pkt
/-
What the packet readers accept (inversion), that they accept what the writers produce, and that
nested parsing terminates.
-/
namespace PyLisp

attribute [local irreducible] natToBits readUint readBits readBool readBytes readInt zeros readIP

theorem nat_range {x n : Nat} (h : x < 2 ^ n) : (0 : Int) ≤ (x : Int) ∧ (x : Int) < 2 ^ n :=
  ⟨Int.natCast_nonneg _, by exact_mod_cast h⟩

theorem take_pre {a b : List α} {n k : Nat} (ha : a.length = k) (h : k ≤ n) :
    a ++ b.take (n - k) = (a ++ b).take n := by
  rw [List.take_append, List.take_of_length_le (l := a) (by omega), ha]

theorem take_all {a b : List α} {n : Nat} (h : a.length = n) : a = (a ++ b).take n := by
  subst h; simp

theorem rejectIf_ok {c : Bool} {s : Bits} {u : Unit} {rest : Bits} :
    rejectIf c s = .ok (u, rest) ↔ c = false ∧ s = rest := by
  unfold rejectIf; cases c <;> simp [Rd.pure_ok_iff]

theorem rejectIf_false (s : Bits) : rejectIf false s = .ok ((), s) := by simp [rejectIf]

theorem peekBits_ok {n : Nat} {s v rest : Bits} :
    peekBits n s = .ok (v, rest) ↔ n ≤ s.length ∧ v = s.take n ∧ rest = s := by
  unfold peekBits
  split
  · rename_i h
    constructor
    · intro e; cases e; exact ⟨h, rfl, rfl⟩
    · rintro ⟨_, rfl, rfl⟩; rfl
  · rename_i h
    constructor
    · intro e; cases e
    · rintro ⟨h', _⟩; exact absurd h' h

theorem readRest_ok {s : Bits} {b : Bytes} {rest : Bits} :
    readRest s = .ok (b, rest) ↔ s = bytesToBits b ∧ rest = [] := by
  unfold readRest
  constructor
  · split
    · rename_i h; intro e; cases e; exact ⟨(bytesToBits_of_bitsToBytes h).symm, rfl⟩
    · intro e; cases e
  · rintro ⟨rfl, rfl⟩; simp

/-- the bits of an IPv4 header with the given checksum and total length -/
def v4Bits (h : V4Hdr) (ihl total cksum : Nat) : Bits :=
  natToBits 4 4 ++ natToBits 4 ihl ++ natToBits 8 h.tos.toNat ++ natToBits 16 total ++
    natToBits 16 h.ident.toNat ++ [false, h.df, h.mf] ++ natToBits 13 h.fragOff.toNat ++
    natToBits 8 h.ttl.toNat ++ natToBits 8 h.nextHeader.toNat ++ natToBits 16 cksum ++
    natToBits 32 (addrInt h.src).toNat ++ natToBits 32 (addrInt h.dst).toNat ++
    bytesToBits h.options

/-- the fields of an IPv4 header are in range (specification, no code) -/
structure V4Ranges (h : V4Hdr) : Prop where
  tos : 0 ≤ h.tos ∧ h.tos < 2 ^ 8
  ident : 0 ≤ h.ident ∧ h.ident < 2 ^ 16
  fragOff : 0 ≤ h.fragOff ∧ h.fragOff < 2 ^ 13
  ttl : 0 ≤ h.ttl ∧ h.ttl < 2 ^ 8
  nextHeader : 0 ≤ h.nextHeader ∧ h.nextHeader < 2 ^ 8
  src : isVer .v4 h.src = true
  dst : isVer .v4 h.dst = true

theorem isVer_iff {v : Ver} {o : Option IP} : isVer v o = true ↔ ∃ a, o = some a ∧ a.ver = v := by
  cases o <;> simp [isVer]

theorem zeroCksum_v4Bits (h : V4Hdr) (ihl total c : Nat) :
    zeroCksum (v4Bits h ihl total c) = v4Bits h ihl total 0 := by
  have : ∀ c, v4Bits h ihl total c = (natToBits 4 4 ++ natToBits 4 ihl ++ natToBits 8 h.tos.toNat ++
      natToBits 16 total ++
      natToBits 16 h.ident.toNat ++ [false, h.df, h.mf] ++ natToBits 13 h.fragOff.toNat ++
      natToBits 8 h.ttl.toNat ++ natToBits 8 h.nextHeader.toNat) ++ (natToBits 16 c ++
      (natToBits 32 (addrInt h.src).toNat ++ natToBits 32 (addrInt h.dst).toNat ++
      bytesToBits h.options)) := by intro c; simp [v4Bits]
  rw [this, this 0]
  unfold zeroCksum
  rw [List.take_append_of_le_length (by simp), List.take_of_length_le (by simp),
    List.drop_append, List.drop_of_length_le (by simp), List.drop_append,
    List.drop_of_length_le (by simp)]
  simp [natToBits_zero]

theorem v4Bits_length (h : V4Hdr) (ihl total c : Nat) :
    (v4Bits h ihl total c).length = 160 + 8 * h.options.length := by
  simp [v4Bits]; omega

theorem readV4_inv {s rest : Bits} {h : V4Hdr} {pl : Bytes} (hr : readV4 s = .ok ((h, pl), rest)) :
    V4Ranges h ∧ ∃ ihl total c, 5 ≤ ihl ∧ ihl < 2 ^ 4 ∧ total < 2 ^ 16 ∧ c < 2 ^ 16 ∧
      ihl * 4 ≤ total ∧ h.options.length = (ihl - 5) * 4 ∧ pl.length = total - ihl * 4 ∧
      headerCksum (v4Bits h ihl total 0) = .ok c ∧
      s = v4Bits h ihl total c ++ bytesToBits pl ++ rest := by
  simp only [readV4, Rd.bind_ok, rejectIf_ok, peekBits_ok, Rd.lift_ok_iff, Rd.pure_ok_iff] at hr
  obtain ⟨v, s1, h1, _, _, ⟨hv, rfl⟩, ihl, s2, h2, _, _, ⟨hi, rfl⟩, pk, _, ⟨hl, rfl, rfl⟩, tos, s3,
    h3, tl, s4, h4, _, _, ⟨ht, rfl⟩, idt, s5, h5, rs, s6, h6, df, s7, h7, mf, s8, h8, _, _,
    ⟨hrs, rfl⟩, off, s9, h9, ttl, s10, h10, pr, s11, h11, ck, s12, h12, my, _, ⟨hm, rfl⟩, _, _,
    ⟨hmc, rfl⟩, src, s13, h13, dst, s14, h14, op, s15, h15, pl', s16, h16, he, rfl⟩ := hr
  obtain ⟨e1, rfl⟩ := readUint_ok h1
  obtain ⟨e2, rfl⟩ := readUint_ok h2
  obtain ⟨e3, rfl⟩ := readUint_ok h3
  obtain ⟨e4, rfl⟩ := readUint_ok h4
  obtain ⟨e5, rfl⟩ := readUint_ok h5
  have e6 := readBool_ok h6
  have e7 := readBool_ok h7
  have e8 := readBool_ok h8
  obtain ⟨e9, e9'⟩ := readUint_ok h9
  obtain ⟨e10, e10'⟩ := readUint_ok h10
  obtain ⟨e11, e11'⟩ := readUint_ok h11
  obtain ⟨e12, e12'⟩ := readUint_ok h12
  obtain ⟨e13, e13'⟩ := readIP_ok h13
  obtain ⟨e14, e14'⟩ := readIP_ok h14
  obtain ⟨e15, e15'⟩ := readBytes_ok h15
  obtain ⟨e16, e16'⟩ := readBytes_ok h16
  simp only [Prod.mk.injEq] at he
  obtain ⟨rfl, rfl⟩ := he
  simp only [bne_eq_false_iff_eq, decide_eq_false_iff_not, Nat.not_lt] at hv hi ht hmc
  subst hv hrs hmc
  subst e6 e7 e8 e9' e10' e11' e12' e13' e14' e15' e16'
  have key : natToBits 4 4 ++ (natToBits 4 ihl ++ (natToBits 8 tos ++ (natToBits 16 tl ++
      (natToBits 16 idt ++ false :: df :: mf :: (natToBits 13 off ++ (natToBits 8 ttl ++
      (natToBits 8 pr ++ (natToBits 16 my ++ (natToBits Ver.v4.width src.val ++
      (natToBits Ver.v4.width dst.val ++ (bytesToBits op ++
      (bytesToBits pl' ++ s16)))))))))))) =
      v4Bits (V4Hdr.mk tos idt df mf off ttl pr (some src) (some dst) op) ihl tl my ++
      (bytesToBits pl' ++ s16) := by
    simp [v4Bits, addrInt, Ver.width]
  refine ⟨⟨nat_range e3, nat_range e5, nat_range e9, nat_range e10, nat_range e11, isVer_iff.mpr ⟨_, rfl, e13⟩,
    isVer_iff.mpr ⟨_, rfl, e14⟩⟩,
    ihl, tl, my, hi, e2, e4, e12, ht, e15, e16, ?_, by rw [key]; simp⟩
  rw [← hm]
  have hlen := v4Bits_length (V4Hdr.mk tos idt df mf off ttl pr (some src) (some dst) op) ihl tl my
  simp only [e15] at hlen
  have : natToBits 4 4 ++ natToBits 4 ihl ++ List.take (ihl * 32 - 8) (natToBits 8 tos ++
      (natToBits 16 tl ++
      (natToBits 16 idt ++ false :: df :: mf :: (natToBits 13 off ++ (natToBits 8 ttl ++
      (natToBits 8 pr ++ (natToBits 16 my ++ (natToBits Ver.v4.width src.val ++
      (natToBits Ver.v4.width dst.val ++ (bytesToBits op ++
      (bytesToBits pl' ++ s16))))))))))) = List.take (ihl * 32) (natToBits 4 4 ++ (natToBits 4 ihl ++
      (natToBits 8 tos ++ (natToBits 16 tl ++
      (natToBits 16 idt ++ false :: df :: mf :: (natToBits 13 off ++ (natToBits 8 ttl ++
      (natToBits 8 pr ++ (natToBits 16 my ++ (natToBits Ver.v4.width src.val ++
      (natToBits Ver.v4.width dst.val ++ (bytesToBits op ++
      (bytesToBits pl' ++ s16))))))))))))) := by
    rw [← List.append_assoc (natToBits 4 4), take_pre (k := 8) (by simp) (by omega)]
  rw [this, key, List.take_append_of_le_length (by rw [hlen]; omega),
    List.take_of_length_le (by rw [hlen]; omega)]
  unfold headerCksum
  rw [zeroCksum_v4Bits, zeroCksum_v4Bits]

theorem readV4_app {h : V4Hdr} {ihl total c : Nat} {pl : Bytes} {t : Bits} (hr : V4Ranges h)
    (h1 : 5 ≤ ihl) (h2 : ihl < 2 ^ 4) (h3 : total < 2 ^ 16) (h4 : c < 2 ^ 16) (h5 : ihl * 4 ≤ total)
    (h6 : h.options.length = (ihl - 5) * 4) (h7 : pl.length = total - ihl * 4)
    (h8 : headerCksum (v4Bits h ihl total 0) = .ok c) :
    readV4 (v4Bits h ihl total c ++ bytesToBits pl ++ t) = .ok ((h, pl), t) := by
  obtain ⟨tos, ident, df, mf, off, ttl, nh, src, dst, op⟩ := h
  obtain ⟨⟨a1, b1⟩, ⟨a2, b2⟩, ⟨a3, b3⟩, ⟨a4, b4⟩, ⟨a5, b5⟩, hs, hd⟩ := hr
  simp only at *
  obtain ⟨src, rfl, es⟩ := isVer_iff.mp hs
  obtain ⟨dst, rfl, ed⟩ := isVer_iff.mp hd
  have hck : headerCksum (natToBits 4 4 ++ natToBits 4 ihl ++ List.take (ihl * 32 - 8)
      (natToBits 8 tos.toNat ++ (natToBits 16 total ++ (natToBits 16 ident.toNat ++
      (false :: df :: mf :: (natToBits 13 off.toNat ++ (natToBits 8 ttl.toNat ++
      (natToBits 8 nh.toNat ++ (natToBits 16 c ++ (natToBits 32 src.val ++ (natToBits 32 dst.val ++
      (bytesToBits op ++ (bytesToBits pl ++ t))))))))))))) = .ok c := by
    have hlen := v4Bits_length (V4Hdr.mk tos ident df mf off ttl nh (some src) (some dst) op) ihl total c
    simp only [h6] at hlen
    rw [← h8]
    unfold headerCksum
    rw [zeroCksum_v4Bits, ← zeroCksum_v4Bits (c := c)]
    congr 3
    have : v4Bits (V4Hdr.mk tos ident df mf off ttl nh (some src) (some dst) op) ihl total c =
        List.take (ihl * 32) ((natToBits 4 4 ++ natToBits 4 ihl) ++
        (natToBits 8 tos.toNat ++ (natToBits 16 total ++ (natToBits 16 ident.toNat ++
        (false :: df :: mf :: (natToBits 13 off.toNat ++ (natToBits 8 ttl.toNat ++
        (natToBits 8 nh.toNat ++ (natToBits 16 c ++ (natToBits 32 src.val ++ (natToBits 32 dst.val ++
        (bytesToBits op ++ (bytesToBits pl ++ t))))))))))))) := by
      refine (take_all (n := ihl * 32) (b := bytesToBits pl ++ t) (by rw [hlen]; omega)).trans ?_
      simp [v4Bits, addrInt]
    rw [this]
    exact take_pre (k := 8) (by simp) (by omega)
  rw [List.append_assoc] at hck
  have hIP := fun t => readIP_app src t
  have hIP' := fun t => readIP_app dst t
  rw [es] at hIP
  rw [ed] at hIP'
  simp only [Ver.width] at hIP hIP'
  have hpk : peekBits (ihl * 32 - 8) (natToBits 8 tos.toNat ++ (natToBits 16 total ++
      (natToBits 16 ident.toNat ++
      (false :: df :: mf :: (natToBits 13 off.toNat ++ (natToBits 8 ttl.toNat ++
      (natToBits 8 nh.toNat ++ (natToBits 16 c ++ (natToBits 32 src.val ++ (natToBits 32 dst.val ++
      (bytesToBits op ++ (bytesToBits pl ++ t)))))))))))) = .ok (_, _) :=
    peekBits_ok.mpr ⟨by simp [h6]; omega, rfl, rfl⟩
  simp only [v4Bits, addrInt, List.append_assoc, List.cons_append, List.nil_append,
    Int.toNat_natCast, readV4, Rd.bind_apply, readUint_app (show 4 < 2 ^ 4 by decide),
    readUint_app h2, bne_self_eq_false, rejectIf_false, decide_eq_false (Nat.not_lt.mpr h1), hpk,
    readUint_app_int a1 b1, readUint_app h3, decide_eq_false (Nat.not_lt.mpr h5),
    readUint_app_int a2 b2, readBool_cons, readUint_app_int a3 b3, readUint_app_int a4 b4,
    readUint_app_int a5 b5, readUint_app h4, hck, Rd.lift_ok, hIP, hIP', readBytes_app' h6,
    readBytes_app' h7, Rd.pure_apply, Int.toNat_of_nonneg a1, Int.toNat_of_nonneg a2,
    Int.toNat_of_nonneg a3, Int.toNat_of_nonneg a4, Int.toNat_of_nonneg a5]

/-! ### IPv6 -/

/-- the bits of an IPv6 header (specification, no code) -/
def v6Bits (h : V6Hdr) (plen : Nat) : Bits :=
  natToBits 4 6 ++ natToBits 8 h.trafficClass.toNat ++ natToBits 20 h.flowLabel.toNat ++
    natToBits 16 plen ++ natToBits 8 h.nextHeader.toNat ++ natToBits 8 h.hopLimit.toNat ++
    natToBits 128 (addrInt h.src).toNat ++ natToBits 128 (addrInt h.dst).toNat

/-- the fields of an IPv6 header are in range (specification, no code) -/
structure V6Ranges (h : V6Hdr) : Prop where
  trafficClass : 0 ≤ h.trafficClass ∧ h.trafficClass < 2 ^ 8
  flowLabel : 0 ≤ h.flowLabel ∧ h.flowLabel < 2 ^ 20
  nextHeader : 0 ≤ h.nextHeader ∧ h.nextHeader < 2 ^ 8
  hopLimit : 0 ≤ h.hopLimit ∧ h.hopLimit < 2 ^ 8
  src : isVer .v6 h.src = true
  dst : isVer .v6 h.dst = true

theorem v6Bits_length (h : V6Hdr) (plen : Nat) : (v6Bits h plen).length = 320 := by simp [v6Bits]

theorem readV6_inv {s rest : Bits} {h : V6Hdr} {pl : Bytes} (hr : readV6 s = .ok ((h, pl), rest)) :
    V6Ranges h ∧ pl.length < 2 ^ 16 ∧ s = v6Bits h pl.length ++ bytesToBits pl ++ rest := by
  simp only [readV6, Rd.bind_ok, rejectIf_ok, Rd.pure_ok_iff] at hr
  obtain ⟨v, s1, h1, _, _, ⟨hv, rfl⟩, tc, s2, h2, fl, s3, h3, pn, s4, h4, nh, s5, h5, hl, s6, h6,
    src, s7, h7, dst, s8, h8, pl', s9, h9, he, rfl⟩ := hr
  obtain ⟨_, rfl⟩ := readUint_ok h1
  obtain ⟨e2, rfl⟩ := readUint_ok h2
  obtain ⟨e3, rfl⟩ := readUint_ok h3
  obtain ⟨e4, rfl⟩ := readUint_ok h4
  obtain ⟨e5, rfl⟩ := readUint_ok h5
  obtain ⟨e6, rfl⟩ := readUint_ok h6
  obtain ⟨e7, rfl⟩ := readIP_ok h7
  obtain ⟨e8, rfl⟩ := readIP_ok h8
  obtain ⟨e9, rfl⟩ := readBytes_ok h9
  simp only [Prod.mk.injEq] at he
  obtain ⟨rfl, rfl⟩ := he
  simp only [bne_eq_false_iff_eq] at hv
  subst hv e9
  exact ⟨⟨nat_range e2, nat_range e3, nat_range e5, nat_range e6, isVer_iff.mpr ⟨_, rfl, e7⟩,
    isVer_iff.mpr ⟨_, rfl, e8⟩⟩, e4, by simp [v6Bits, addrInt, Ver.width]⟩

theorem readV6_app {h : V6Hdr} {pl : Bytes} {t : Bits} (hr : V6Ranges h)
    (hp : pl.length < 2 ^ 16) :
    readV6 (v6Bits h pl.length ++ bytesToBits pl ++ t) = .ok ((h, pl), t) := by
  obtain ⟨tc, fl, nh, hl, src, dst⟩ := h
  obtain ⟨⟨a1, b1⟩, ⟨a2, b2⟩, ⟨a3, b3⟩, ⟨a4, b4⟩, hs, hd⟩ := hr
  simp only at *
  obtain ⟨src, rfl, es⟩ := isVer_iff.mp hs
  obtain ⟨dst, rfl, ed⟩ := isVer_iff.mp hd
  have hIP := fun t => readIP_app src t
  have hIP' := fun t => readIP_app dst t
  rw [es] at hIP
  rw [ed] at hIP'
  simp only [Ver.width] at hIP hIP'
  simp only [v6Bits, addrInt, List.append_assoc, Int.toNat_natCast, readV6, Rd.bind_apply,
    readUint_app (show 6 < 2 ^ 4 by decide), bne_self_eq_false, rejectIf_false,
    readUint_app_int a1 b1, readUint_app_int a2 b2, readUint_app hp, readUint_app_int a3 b3,
    readUint_app_int a4 b4, hIP, hIP', readBytes_app', Rd.pure_apply, Int.toNat_of_nonneg a1,
    Int.toNat_of_nonneg a2, Int.toNat_of_nonneg a3, Int.toNat_of_nonneg a4]

/-! ### Extension headers -/

theorem readOpts_inv {s rest : Bits} {nh : Nat} {o pl : Bytes}
    (hr : readOpts s = .ok ((nh, o, pl), rest)) :
    nh < 2 ^ 8 ∧ rest = [] ∧ ∃ len, len < 2 ^ 8 ∧ o.length = (len + 1) * 8 - 2 ∧
      s = natToBits 8 nh ++ natToBits 8 len ++ bytesToBits o ++ bytesToBits pl := by
  simp only [readOpts, Rd.bind_ok, Rd.pure_ok_iff, readRest_ok] at hr
  obtain ⟨n, s1, h1, len, s2, h2, op, s3, h3, p, s4, ⟨h4, rfl⟩, he, rfl⟩ := hr
  obtain ⟨e1, rfl⟩ := readUint_ok h1
  obtain ⟨e2, rfl⟩ := readUint_ok h2
  obtain ⟨e3, rfl⟩ := readBytes_ok h3
  subst h4
  simp only [Prod.mk.injEq] at he
  obtain ⟨rfl, rfl, rfl⟩ := he
  exact ⟨e1, rfl, len, e2, e3, by simp⟩

theorem readOpts_app {nh len : Nat} {o pl : Bytes} (h1 : nh < 2 ^ 8) (h2 : len < 2 ^ 8)
    (h3 : o.length = (len + 1) * 8 - 2) :
    readOpts (natToBits 8 nh ++ natToBits 8 len ++ bytesToBits o ++ bytesToBits pl) =
      .ok ((nh, o, pl), []) := by
  simp only [readOpts, Rd.bind_apply, List.append_assoc, readUint_app h1, readUint_app h2,
    readBytes_app' h3, readRest_ok.mpr ⟨rfl, rfl⟩, Rd.pure_apply]

theorem readRouting_inv {s rest : Bits} {nh rt sl : Nat} {d pl : Bytes}
    (hr : readRouting s = .ok ((nh, rt, sl, d, pl), rest)) :
    nh < 2 ^ 8 ∧ rt < 2 ^ 8 ∧ sl < 2 ^ 8 ∧ rest = [] ∧
    ∃ len, len < 2 ^ 8 ∧ d.length = (len + 1) * 8 - 4 ∧
      s = natToBits 8 nh ++ natToBits 8 len ++ natToBits 8 rt ++ natToBits 8 sl ++ bytesToBits d ++
        bytesToBits pl := by
  simp only [readRouting, Rd.bind_ok, Rd.pure_ok_iff, readRest_ok] at hr
  obtain ⟨n, s1, h1, len, s2, h2, r, s3, h3, sg, s4, h4, op, s5, h5, p, s6, ⟨h6, rfl⟩, he, rfl⟩ := hr
  obtain ⟨e1, rfl⟩ := readUint_ok h1
  obtain ⟨e2, rfl⟩ := readUint_ok h2
  obtain ⟨e3, rfl⟩ := readUint_ok h3
  obtain ⟨e4, rfl⟩ := readUint_ok h4
  obtain ⟨e5, rfl⟩ := readBytes_ok h5
  subst h6
  simp only [Prod.mk.injEq] at he
  obtain ⟨rfl, rfl, rfl, rfl, rfl⟩ := he
  exact ⟨e1, e3, e4, rfl, len, e2, e5, by simp⟩

theorem readRouting_app {nh len rt sl : Nat} {d pl : Bytes} (h1 : nh < 2 ^ 8) (h2 : len < 2 ^ 8)
    (h3 : rt < 2 ^ 8) (h4 : sl < 2 ^ 8) (h5 : d.length = (len + 1) * 8 - 4) :
    readRouting (natToBits 8 nh ++ natToBits 8 len ++ natToBits 8 rt ++ natToBits 8 sl ++
      bytesToBits d ++ bytesToBits pl) = .ok ((nh, rt, sl, d, pl), []) := by
  simp only [readRouting, Rd.bind_apply, List.append_assoc, readUint_app h1, readUint_app h2,
    readUint_app h3, readUint_app h4, readBytes_app' h5, readRest_ok.mpr ⟨rfl, rfl⟩, Rd.pure_apply]

theorem readFragment_app {nh off : Nat} {mf : Bool} {ident : Nat} {pl : Bytes} (h1 : nh < 2 ^ 8)
    (h2 : off < 2 ^ 13) (h3 : ident < 2 ^ 32) :
    readFragment (natToBits 8 nh ++ zeros 8 ++ natToBits 13 off ++ zeros 2 ++ [mf] ++
      natToBits 32 ident ++ bytesToBits pl) = .ok (.fragment nh off mf ident (.raw pl), []) := by
  simp only [readFragment, Rd.bind_apply, List.append_assoc, readUint_app h1, readUint_app h2,
    readUint_app h3, readBits_app (zeros_length _), readRest_ok.mpr ⟨rfl, rfl⟩, Rd.pure_apply,
    List.cons_append, List.nil_append, readBool_cons]

/-! ### UDP -/

theorem readUdp_inv {s rest : Bits} {h : UdpHdr} {pl : Bytes}
    (hr : readUdp s = .ok ((h, pl), rest)) :
    (0 ≤ h.sport ∧ h.sport < 2 ^ 16) ∧ (0 ≤ h.dport ∧ h.dport < 2 ^ 16) ∧
    (0 ≤ h.cksum ∧ h.cksum < 2 ^ 16) ∧ pl.length + 8 < 2 ^ 16 ∧
    s = natToBits 16 h.sport.toNat ++ natToBits 16 h.dport.toNat ++ natToBits 16 (pl.length + 8) ++
      natToBits 16 h.cksum.toNat ++ bytesToBits pl ++ rest := by
  simp only [readUdp, Rd.bind_ok, Rd.pure_ok_iff, rejectIf_ok] at hr
  obtain ⟨sp, s1, h1, dp, s2, h2, len, s3, h3, _, _, ⟨hl, rfl⟩, ck, s4, h4, p, s5, h5, he, rfl⟩ := hr
  obtain ⟨e1, rfl⟩ := readUint_ok h1
  obtain ⟨e2, rfl⟩ := readUint_ok h2
  obtain ⟨e3, rfl⟩ := readUint_ok h3
  obtain ⟨e4, rfl⟩ := readUint_ok h4
  obtain ⟨e5, rfl⟩ := readBytes_ok h5
  simp only [Prod.mk.injEq] at he
  obtain ⟨rfl, rfl⟩ := he
  simp only [decide_eq_false_iff_not, Nat.not_lt] at hl
  have : len = p.length + 8 := by omega
  subst this
  exact ⟨nat_range e1, nat_range e2, nat_range e4, e3, by simp⟩

theorem readUdp_app {h : UdpHdr} {pl : Bytes} {t : Bits} (h1 : 0 ≤ h.sport ∧ h.sport < 2 ^ 16)
    (h2 : 0 ≤ h.dport ∧ h.dport < 2 ^ 16) (h3 : 0 ≤ h.cksum ∧ h.cksum < 2 ^ 16)
    (h4 : pl.length + 8 < 2 ^ 16) :
    readUdp (natToBits 16 h.sport.toNat ++ natToBits 16 h.dport.toNat ++
      natToBits 16 (pl.length + 8) ++ natToBits 16 h.cksum.toNat ++ bytesToBits pl ++ t) =
      .ok ((h, pl), t) := by
  obtain ⟨sp, dp, ck⟩ := h
  simp only [readUdp, Rd.bind_apply, List.append_assoc, readUint_app_int h1.1 h1.2,
    readUint_app_int h2.1 h2.2, readUint_app_int h3.1 h3.2, readUint_app h4,
    show decide (pl.length + 8 < 8) = false by simp, rejectIf_false,
    readBytes_app' (show pl.length = pl.length + 8 - 8 by omega), Rd.pure_apply,
    Int.toNat_of_nonneg h1.1, Int.toNat_of_nonneg h2.1, Int.toNat_of_nonneg h3.1]

/-! ### LISP data header -/

theorem readNonceOrVersions_len {n v : Bool} {s rest : Bits} {x}
    (h : readNonceOrVersions n v s = .ok (x, rest)) : s.length = rest.length + 24 := by
  unfold readNonceOrVersions at h
  split at h
  · simp only [Rd.bind_ok, Rd.pure_ok_iff] at h
    obtain ⟨_, _, h, _, rfl⟩ := h
    obtain ⟨e, rfl⟩ := readBytes_ok h
    simp [e]; omega
  · split at h
    · simp only [Rd.bind_ok, Rd.pure_ok_iff] at h
      obtain ⟨_, _, h, _, _, h', _, rfl⟩ := h
      obtain ⟨_, rfl⟩ := readUint_ok h
      obtain ⟨_, rfl⟩ := readUint_ok h'
      simp; omega
    · simp only [Rd.bind_ok, Rd.pure_ok_iff] at h
      obtain ⟨_, _, h, _, rfl⟩ := h
      obtain ⟨e, rfl⟩ := readBits_ok h
      simp [e]; omega

theorem readDataHdr_len {s rest : Bits} {h : DataHdr} (hr : readDataHdr s = .ok (h, rest)) :
    s.length = rest.length + 64 := by
  simp only [readDataHdr, Rd.bind_ok, Rd.pure_ok_iff] at hr
  obtain ⟨n, s1, h1, l, s2, h2, e, s3, h3, v, s4, h4, i, s5, h5, _, s6, h6, nv, s7, h7, iid, s8, h8,
    lsb, s9, h9, he, rfl⟩ := hr
  have := readBool_ok h1; subst this
  have := readBool_ok h2; subst this
  have := readBool_ok h3; subst this
  have := readBool_ok h4; subst this
  have := readBool_ok h5; subst this
  obtain ⟨e6, rfl⟩ := readBits_ok h6
  have e7 := readNonceOrVersions_len h7
  unfold readIid at h8
  unfold readLsb at h9
  simp only [Rd.bind_ok, Rd.pure_ok_iff] at h9
  obtain ⟨_, _, h9, _, rfl⟩ := h9
  obtain ⟨e9, rfl⟩ := readBits_ok h9
  split at h8
  · simp only [Rd.bind_ok, Rd.pure_ok_iff] at h8
    obtain ⟨_, _, h8, rfl, rfl⟩ := h8
    obtain ⟨_, rfl⟩ := readUint_ok h8
    simp [lsbBits] at e9 e7
    simp; omega
  · simp only [Rd.pure_ok_iff] at h8
    obtain ⟨rfl, rfl⟩ := h8
    simp [lsbBits] at e9 e7
    simp; omega

theorem readEcmHdr_ok {s rest : Bits} {h : EcmHdr} : readEcmHdr s = .ok (h, rest) ↔
    h.security = false ∧ h.forRtr = false ∧ h.relayedByRtr = false ∧ s = encEcmRaw h ++ rest := by
  obtain ⟨sec, ddt, fr, rr, r1⟩ := h
  simp only [readEcmHdr, Rd.bind_ok]
  constructor
  · rintro ⟨_, s1, h1, b, s2, h2, d, s3, h3, n, s4, h4, h5⟩
    obtain rfl := expectType_ok h1
    have := readBool_ok h2; subst this
    have := readBool_ok h3; subst this
    obtain ⟨e4, rfl⟩ := readUint_ok h4
    split at h5
    · simp at h5
    · rename_i hb
      simp only [Rd.pure_ok_iff] at h5
      obtain ⟨h5, rfl⟩ := h5
      cases h5
      simp only [Bool.not_eq_true] at hb
      exact ⟨hb, rfl, rfl, by simp [encEcmRaw, Nat.mod_eq_of_lt e4]⟩
  · rintro ⟨hs, hf, hr, rfl⟩
    subst hs hf hr
    refine ⟨(), false :: ddt :: (natToBits 26 r1.toNat ++ rest), ?_, false, _, readBool_cons _ _,
      ddt, _, readBool_cons _ _, r1.toNat, rest, readUint_app r1.isLt _, ?_⟩
    · simp only [encEcmRaw, List.append_assoc, List.cons_append, List.nil_append]
      exact expectType_app (by decide) _
    · simp

/-! ### Termination of nested parsing -/

theorem decPayload_congr {r r' : Kind → Bits → Except Err Pkt} {d : Bool} {nh : Nat} {pl : Bytes}
    (h : ∀ k, r k (bytesToBits pl) = r' k (bytesToBits pl)) :
    decPayload r d nh pl = decPayload r' d nh pl := by
  unfold decPayload
  split
  · split
    · exact h _
    · rfl
  · rfl

theorem decByVersion_congr {r r' : Kind → Bits → Except Err Pkt} {d : Bool} {s : Bits}
    (h : ∀ k, r k s = r' k s) : decByVersion r d s = decByVersion r' d s := by
  unfold decByVersion
  simp only [h]

theorem exBind_congr {x : Except Err α} {f g : α → Except Err β} (h : ∀ a, x = .ok a → f a = g a) :
    (x >>= f) = (x >>= g) := by
  cases x with
  | ok a => exact h a rfl
  | error e => rfl

theorem decStep_congr {r r' : Kind → Bits → Except Err Pkt} {k : Kind} {s : Bits}
    (h : ∀ k' (s' : Bits), s'.length < s.length → r k' s' = r' k' s') :
    decStep r k s = decStep r' k s := by
  cases k with
  | ipv4 d =>
    refine exBind_congr fun ⟨⟨hd, pl⟩, rest⟩ e => ?_
    obtain ⟨_, ihl, tl, c, _, _, _, _, _, _, _, _, rfl⟩ := readV4_inv e
    rw [decPayload_congr fun k' => h k' _ (by simp [v4Bits_length]; omega)]
  | ipv6 d =>
    refine exBind_congr fun ⟨⟨hd, pl⟩, rest⟩ e => ?_
    obtain ⟨_, _, rfl⟩ := readV6_inv e
    rw [decPayload_congr fun k' => h k' _ (by simp [v6Bits_length]; omega)]
  | hbh =>
    refine exBind_congr fun ⟨⟨nh, o, pl⟩, rest⟩ e => ?_
    obtain ⟨_, _, len, _, _, rfl⟩ := readOpts_inv e
    rw [decPayload_congr fun k' => h k' _ (by simp; omega)]
  | dest =>
    refine exBind_congr fun ⟨⟨nh, o, pl⟩, rest⟩ e => ?_
    obtain ⟨_, _, len, _, _, rfl⟩ := readOpts_inv e
    rw [decPayload_congr fun k' => h k' _ (by simp; omega)]
  | routing =>
    refine exBind_congr fun ⟨⟨nh, rt, sl, o, pl⟩, rest⟩ e => ?_
    obtain ⟨_, _, _, _, len, _, _, rfl⟩ := readRouting_inv e
    rw [decPayload_congr fun k' => h k' _ (by simp; omega)]
  | fragment => rfl
  | nonext => rfl
  | udp =>
    refine exBind_congr fun ⟨⟨hd, pl⟩, rest⟩ e => ?_
    obtain ⟨_, _, _, _, rfl⟩ := readUdp_inv e
    unfold decUdpPayload
    simp only [h (.data true) (bytesToBits pl) (by simp; omega),
      h .control (bytesToBits pl) (by simp; omega)]
  | data d =>
    refine exBind_congr fun ⟨hd, rest⟩ e => ?_
    have := readDataHdr_len e
    rw [decByVersion_congr fun k' => h k' _ (by simp only; omega)]
  | control =>
    refine exBind_congr fun t e => ?_
    have he : decEcm r s = decEcm r' s := by
      refine exBind_congr fun ⟨hd, rest⟩ e => ?_
      obtain ⟨_, _, _, rfl⟩ := readEcmHdr_ok.mp e
      rw [decByVersion_congr fun k' => h k' _ (by simp [encEcmRaw]; omega)]
    rw [he]

theorem decFuel_eq (n : Nat) : ∀ (k : Kind) (s : Bits) (f g : Nat), s.length ≤ n → s.length < f →
    s.length < g → decFuel f k s = decFuel g k s := by
  induction n with
  | zero =>
    intro k s f g hn hf hg
    obtain ⟨f, rfl⟩ := Nat.exists_eq_succ_of_ne_zero (n := f) (by omega)
    obtain ⟨g, rfl⟩ := Nat.exists_eq_succ_of_ne_zero (n := g) (by omega)
    exact decStep_congr fun k' s' h' => by omega
  | succ n ih =>
    intro k s f g hn hf hg
    obtain ⟨f, rfl⟩ := Nat.exists_eq_succ_of_ne_zero (n := f) (by omega)
    obtain ⟨g, rfl⟩ := Nat.exists_eq_succ_of_ne_zero (n := g) (by omega)
    exact decStep_congr fun k' s' h' => ih k' s' f g (by omega) (by omega) (by omega)

/-- nested parsing is the fixed point of one parsing step -/
theorem dec_eq (k : Kind) (s : Bits) : dec k s = decStep dec k s :=
  decStep_congr fun k' s' h' => decFuel_eq s'.length k' s' _ _ (Nat.le_refl _) h' (by omega)

/-! ### The depth bound is never reached -/

theorem NF.rejectIf (c : Bool) (s : Bits) : NF (rejectIf c s) := by
  unfold PyLisp.rejectIf; split
  · exact .fail (by simp) _
  · exact .pure _ _

theorem NF.peekBits (n : Nat) (s : Bits) : NF (peekBits n s) := by
  unfold PyLisp.peekBits NF; split <;> simp

theorem NF.readRest (s : Bits) : NF (readRest s) := by
  unfold PyLisp.readRest
  have := NF.bitsToBytes s
  split
  · simp [NF]
  · rename_i e he; rw [he] at this
    intro h'; apply this; rw [Except.error.injEq] at h' ⊢; exact h'

macro "nf_pkt" : tactic => `(tactic|
  repeat (first
    | exact NF.rejectIf _ _ | exact NF.peekBits _ _ | exact NF.readRest _
    | exact NF.pure _ _ | exact NF.fail (by simp) _ | exact NF.readUint _ _
    | exact NF.readBits _ _ | exact NF.readBool _ | exact NF.readBytes _ _
    | exact NF.readIP _ _ | exact NF.expectType _ _ | assumption
    | (with_reducible refine NF.bind ?_ fun _ _ _ => ?_)))

theorem NF.readV4 (s : Bits) : NF (readV4 s) := by
  have : ∀ h t, NF (Rd.lift (headerCksum h) t) := fun h t =>
    .lift (.exBind (.bitsToBytes _) fun _ _ => .ok _) _
  unfold PyLisp.readV4; nf_pkt; exact this _ _; nf_pkt
theorem NF.readV6 (s : Bits) : NF (readV6 s) := by unfold PyLisp.readV6; nf_pkt
theorem NF.readOpts (s : Bits) : NF (readOpts s) := by unfold PyLisp.readOpts; nf_pkt
theorem NF.readRouting (s : Bits) : NF (readRouting s) := by unfold PyLisp.readRouting; nf_pkt
theorem NF.readFragment (s : Bits) : NF (readFragment s) := by unfold PyLisp.readFragment; nf_pkt
theorem NF.readUdp (s : Bits) : NF (readUdp s) := by unfold PyLisp.readUdp; nf_pkt
theorem NF.readDataHdr (s : Bits) : NF (readDataHdr s) := by
  have h1 : ∀ a b t, NF (readNonceOrVersions a b t) := by
    intro a b t; unfold readNonceOrVersions; split
    · nf_pkt
    · split <;> nf_pkt
  have h2 : ∀ a t, NF (readIid a t) := by
    intro a t; unfold readIid; split <;> nf_pkt
  have h3 : ∀ a n t, NF (readLsb a n t) := by
    intro a n t; unfold readLsb; nf_pkt
  unfold PyLisp.readDataHdr
  iterate 6 (refine .bind (by nf_pkt) fun _ _ _ => ?_)
  refine .bind (h1 _ _ _) fun _ _ _ => .bind (h2 _ _) fun _ _ _ => .bind (h3 _ _ _) fun _ _ _ =>
    .pure _ _
theorem NF.readEcmHdr (s : Bits) : NF (readEcmHdr s) := by
  unfold PyLisp.readEcmHdr
  iterate 4 (refine .bind (by nf_pkt) fun _ _ _ => ?_)
  split <;> nf_pkt

theorem NF.v4Sanitize (h : V4Hdr) (p : Pkt) : NF (h.sanitize p) := by
  unfold V4Hdr.sanitize
  iterate 7 (refine .exIte (.err (by simp)) ?_)
  exact .ok _
theorem NF.v6Sanitize (h : V6Hdr) (p : Pkt) : NF (h.sanitize p) := by
  unfold V6Hdr.sanitize
  iterate 5 (refine .exIte (.err (by simp)) ?_)
  exact .ok _
theorem NF.udpSanitize (h : UdpHdr) : NF h.sanitize := by
  unfold UdpHdr.sanitize
  iterate 2 (refine .exIte (.err (by simp)) ?_)
  exact .ok _
theorem NF.dataSanitize (h : DataHdr) : NF h.sanitize := by
  unfold DataHdr.sanitize
  iterate 6 (refine .exIte (.err (by simp)) ?_)
  exact .ok _
theorem NF.ecmSanitize (h : EcmHdr) : NF h.sanitize := by
  unfold EcmHdr.sanitize
  exact .exIte (.err (by simp)) (.ok _)

theorem NF.decPayload {r : Kind → Bits → Except Err Pkt} {d : Bool} {nh : Nat} {pl : Bytes}
    (h : ∀ k, NF (r k (bytesToBits pl))) : NF (decPayload r d nh pl) := by
  unfold PyLisp.decPayload
  split
  · split
    · exact h _
    · exact .ok _
  · exact .ok _

theorem NF.decByVersion {r : Kind → Bits → Except Err Pkt} {d : Bool} {s : Bits}
    (h : ∀ k, NF (r k s)) : NF (decByVersion r d s) := by
  unfold PyLisp.decByVersion
  refine .exIte (.ok _) (.exBind (.runOn (.readUint _ _)) fun _ _ => .exIte (h _) (.exIte (h _) ?_))
  exact .exBind (.bitsToBytes _) fun _ _ => .ok _

theorem NF.noneLeft (s : Bits) : NF (noneLeft s) := by
  unfold PyLisp.noneLeft; exact .exIte (.ok _) (.err (by simp))

theorem NF.decStep {r : Kind → Bits → Except Err Pkt} {k : Kind} {s : Bits}
    (h : ∀ k' (s' : Bits), s'.length < s.length → NF (r k' s')) : NF (decStep r k s) := by
  cases k with
  | ipv4 d =>
    refine .exBind (.readV4 s) fun ⟨⟨hd, pl⟩, rest⟩ e => ?_
    obtain ⟨_, ihl, tl, c, _, _, _, _, _, _, _, _, rfl⟩ := readV4_inv e
    refine .exBind (.decPayload fun k' => h k' _ (by simp [v4Bits_length]; omega)) fun _ _ => ?_
    exact .exBind (.noneLeft _) fun _ _ => .exBind (.v4Sanitize _ _) fun _ _ => .ok _
  | ipv6 d =>
    refine .exBind (.readV6 s) fun ⟨⟨hd, pl⟩, rest⟩ e => ?_
    obtain ⟨_, _, rfl⟩ := readV6_inv e
    refine .exBind (.decPayload fun k' => h k' _ (by simp [v6Bits_length]; omega)) fun _ _ => ?_
    exact .exBind (.noneLeft _) fun _ _ => .exBind (.v6Sanitize _ _) fun _ _ => .ok _
  | hbh =>
    refine .exBind (.readOpts s) fun ⟨⟨nh, o, pl⟩, rest⟩ e => ?_
    obtain ⟨_, _, len, _, _, rfl⟩ := readOpts_inv e
    exact .exBind (.decPayload fun k' => h k' _ (by simp; omega)) fun _ _ => .ok _
  | dest =>
    refine .exBind (.readOpts s) fun ⟨⟨nh, o, pl⟩, rest⟩ e => ?_
    obtain ⟨_, _, len, _, _, rfl⟩ := readOpts_inv e
    exact .exBind (.decPayload fun k' => h k' _ (by simp; omega)) fun _ _ => .ok _
  | routing =>
    refine .exBind (.readRouting s) fun ⟨⟨nh, rt, sl, o, pl⟩, rest⟩ e => ?_
    obtain ⟨_, _, _, _, len, _, _, rfl⟩ := readRouting_inv e
    exact .exBind (.decPayload fun k' => h k' _ (by simp; omega)) fun _ _ => .ok _
  | fragment => exact .runOn (.readFragment s)
  | nonext => exact .exBind (.bitsToBytes _) fun _ _ => .ok _
  | udp =>
    refine .exBind (.readUdp s) fun ⟨⟨hd, pl⟩, rest⟩ e => ?_
    obtain ⟨_, _, _, _, rfl⟩ := readUdp_inv e
    refine .exBind ?_ fun _ _ => .exBind (.noneLeft _) fun _ _ => .exBind (.udpSanitize _)
      fun _ _ => .ok _
    exact .exIte (h _ _ (by simp; omega)) (.exIte (h _ _ (by simp; omega)) (.ok _))
  | data d =>
    refine .exBind (.readDataHdr s) fun ⟨hd, rest⟩ e => ?_
    have := readDataHdr_len e
    exact .exBind (.decByVersion fun k' => h k' _ (by simp only; omega)) fun _ _ =>
      .exBind (.dataSanitize _) fun _ _ => .ok _
  | control =>
    refine .exBind (.runOn (.readUint _ _)) fun t e => ?_
    refine .exIte (.exBind (.runOn (.readMapRequest _)) fun _ _ => .ok _) ?_
    refine .exIte (.exBind (.runOn (.readMapReply _)) fun _ _ => .ok _) ?_
    refine .exIte (.exBind (.runOn (.readMapRegister _)) fun _ _ => .ok _) ?_
    refine .exIte (.exBind (.runOn (.readMapNotify _)) fun _ _ => .ok _) ?_
    refine .exIte (.exBind (.runOn (.readMapReferral _)) fun _ _ => .ok _) ?_
    refine .exIte (.exBind (.runOn (.readInfo _)) fun _ _ => .ok _) ?_
    refine .exIte ?_ (.err (by simp))
    refine .exBind (.readEcmHdr s) fun ⟨hd, rest⟩ e => ?_
    obtain ⟨_, _, _, rfl⟩ := readEcmHdr_ok.mp e
    exact .exBind (.decByVersion fun k' => h k' _ (by simp [encEcmRaw]; omega)) fun _ _ =>
      .exBind (.ecmSanitize _) fun _ _ => .ok _

theorem dec_nf (n : Nat) : ∀ (k : Kind) (s : Bits), s.length ≤ n → NF (dec k s) := by
  induction n with
  | zero =>
    intro k s hn
    rw [dec_eq]
    exact .decStep fun k' s' h' => by omega
  | succ n ih =>
    intro k s hn
    rw [dec_eq]
    exact .decStep fun k' s' h' => ih k' s' (by omega)

theorem dec_ne_fuel (k : Kind) (s : Bits) : dec k s ≠ .error .fuel := dec_nf s.length k s (Nat.le_refl _)

end PyLisp
