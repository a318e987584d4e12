import Verif.PktRound
/-
Byte-level layouts of IPv4, IPv6 and UDP headers as the RFCs draw them (a specification: nothing
here is taken from the code), and their bits.
-/
namespace PyLisp

theorem natToBits3 (df mf : Bool) :
    natToBits 3 ((if df then 2 else 0) + (if mf then 1 else 0)) = [false, df, mf] := by
  cases df <;> cases mf <;> decide

attribute [local irreducible] natToBits readUint readBits readBool readBytes readInt zeros readIP

/-- one byte (specification, no code) -/
def byteOf (v : Nat) : Byte := BitVec.ofNat 8 v

/-- 32 bits, big endian -/
def be32 (v : Nat) : Bytes := be16 (v / 2 ^ 16) ++ be16 v

/-- 128 bits, big endian -/
def be128 (v : Nat) : Bytes := be32 (v / 2 ^ 96) ++ be32 (v / 2 ^ 64) ++ be32 (v / 2 ^ 32) ++ be32 v

/-- the number of an address -/
def addrNat : Option IP → Nat
  | some a => a.val
  | none => 0

/-- RFC 791: the flags and fragment offset word -/
def flagsWord (df mf : Bool) (off : Nat) : Nat :=
  (if df then 0x4000 else 0) + (if mf then 0x2000 else 0) + off

/-- RFC 791 section 3.1: an IPv4 header (options a multiple of 4 bytes) for the given length of the
payload, with the given checksum -/
def rfc791 (h : V4Hdr) (plen cksum : Nat) : Bytes :=
  [byteOf (0x40 + (5 + h.options.length / 4)), byteOf h.tos.toNat] ++
  be16 (20 + h.options.length + plen) ++
  be16 h.ident.toNat ++ be16 (flagsWord h.df h.mf h.fragOff.toNat) ++
  [byteOf h.ttl.toNat, byteOf h.nextHeader.toNat] ++ be16 cksum ++
  be32 (addrNat h.src) ++ be32 (addrNat h.dst) ++ h.options

/-- RFC 8200 section 3: an IPv6 header followed by the payload -/
def rfc8200 (h : V6Hdr) (payload : Bytes) : Bytes :=
  be32 (6 * 2 ^ 28 + h.trafficClass.toNat * 2 ^ 20 + h.flowLabel.toNat) ++ be16 payload.length ++
  [byteOf h.nextHeader.toNat, byteOf h.hopLimit.toNat] ++ be128 (addrNat h.src) ++
  be128 (addrNat h.dst) ++ payload

/-- RFC 768: a UDP header followed by the payload -/
def rfc768 (h : UdpHdr) (payload : Bytes) : Bytes :=
  be16 h.sport.toNat ++ be16 h.dport.toNat ++ be16 (8 + payload.length) ++ be16 h.cksum.toNat ++
  payload

/-! ### Their bits -/

theorem bytesToBits_cons (v : Nat) (t : Bytes) :
    bytesToBits (byteOf v :: t) = natToBits 8 v ++ bytesToBits t := by
  rw [bytesToBits]
  congr 1
  exact natToBits_congr (by simp [byteOf])

theorem bytesToBits_be16 (v : Nat) : bytesToBits (be16 v) = natToBits 16 v := by
  have := natToBits_append 8 8 v
  rw [show (16 : Nat) = 8 + 8 from rfl, this]
  show bytesToBits (byteOf (v / 256) :: byteOf v :: []) = _
  rw [bytesToBits_cons, bytesToBits_cons]
  simp [bytesToBits]

theorem bytesToBits_be32 (v : Nat) : bytesToBits (be32 v) = natToBits 32 v := by
  rw [be32, bytesToBits_append, bytesToBits_be16, bytesToBits_be16, ← natToBits_append]

theorem bytesToBits_be128 (v : Nat) : bytesToBits (be128 v) = natToBits 128 v := by
  simp only [be128, bytesToBits_append, bytesToBits_be32]
  have e1 : v / 2 ^ 96 = v / 2 ^ 32 / 2 ^ 32 / 2 ^ 32 := by
    rw [Nat.div_div_eq_div_mul, Nat.div_div_eq_div_mul]
  have e2 : v / 2 ^ 64 = v / 2 ^ 32 / 2 ^ 32 := by rw [Nat.div_div_eq_div_mul]
  rw [e1, e2, ← natToBits_append, ← natToBits_append, ← natToBits_append]

@[simp] theorem be16_length (v : Nat) : (be16 v).length = 2 := rfl
@[simp] theorem be32_length (v : Nat) : (be32 v).length = 4 := rfl
@[simp] theorem be128_length (v : Nat) : (be128 v).length = 16 := rfl

theorem flagsWord_bits (df mf : Bool) {off : Nat} (h : off < 2 ^ 13) :
    natToBits 16 (flagsWord df mf off) = [false, df, mf] ++ natToBits 13 off := by
  rw [show (16 : Nat) = 3 + 13 from rfl, natToBits_append 3 13]
  have h1 : natToBits 13 (flagsWord df mf off) = natToBits 13 off := by
    apply natToBits_congr; unfold flagsWord; cases df <;> cases mf <;> simp <;> omega
  rw [h1]
  congr 1
  have h2 : flagsWord df mf off / 2 ^ 13 = (if df then 2 else 0) + (if mf then 1 else 0) := by
    unfold flagsWord; cases df <;> cases mf <;> simp <;> omega
  rw [h2, natToBits3]

theorem addrInt_toNat (a : Option IP) : (addrInt a).toNat = addrNat a := by
  cases a <;> simp [addrInt, addrNat]

@[simp] theorem rfc791_length (h : V4Hdr) (plen c : Nat) :
    (rfc791 h plen c).length = 20 + h.options.length := by
  simp [rfc791]; omega

theorem rfc791_bits {h : V4Hdr} {ihl plen c : Nat} (hr : V4Ranges h) (h5 : 5 ≤ ihl)
    (hi : ihl < 2 ^ 4) (ho : h.options.length = (ihl - 5) * 4) :
    bytesToBits (rfc791 h plen c) = v4Bits h ihl (20 + h.options.length + plen) c := by
  have e1 : 0x40 + (5 + h.options.length / 4) = 4 * 2 ^ 4 + ihl := by omega
  have e2 : natToBits 8 (4 * 2 ^ 4 + ihl) = natToBits 4 4 ++ natToBits 4 ihl := by
    rw [show (8 : Nat) = 4 + 4 from rfl, natToBits_append 4 4]
    congr 1
    · congr 1; omega
    · exact natToBits_congr (by omega)
  have e3 := flagsWord_bits h.df h.mf (off := h.fragOff.toNat) (toNat_lt hr.fragOff.1 hr.fragOff.2)
  simp only [rfc791, v4Bits, bytesToBits_append, bytesToBits_be16, bytesToBits_be32, e1, e3,
    bytesToBits_cons, List.append_assoc, e2, addrInt_toNat]
  simp [bytesToBits]

theorem rfc791_cksum {h : V4Hdr} {ihl plen : Nat} (hr : V4Ranges h) (h5 : 5 ≤ ihl)
    (hi : ihl < 2 ^ 4) (ho : h.options.length = (ihl - 5) * 4) :
    headerCksum (v4Bits h ihl (20 + h.options.length + plen) 0) =
      .ok (onesComplement (rfc791 h plen 0)) := by
  unfold headerCksum
  rw [zeroCksum_v4Bits, ← rfc791_bits hr h5 hi ho]
  simp

theorem rfc8200_bits {h : V6Hdr} {pl : Bytes} (hr : V6Ranges h) :
    bytesToBits (rfc8200 h pl) = v6Bits h pl.length ++ bytesToBits pl := by
  have ht := toNat_lt hr.trafficClass.1 hr.trafficClass.2
  have hf := toNat_lt hr.flowLabel.1 hr.flowLabel.2
  have e : natToBits 32 (6 * 2 ^ 28 + h.trafficClass.toNat * 2 ^ 20 + h.flowLabel.toNat) =
      natToBits 4 6 ++ natToBits 8 h.trafficClass.toNat ++ natToBits 20 h.flowLabel.toNat := by
    rw [show (32 : Nat) = 4 + 8 + 20 from rfl, natToBits_append (4 + 8) 20, natToBits_append 4 8]
    congr 1
    · congr 1
      · congr 1; omega
      · exact natToBits_congr (by omega)
    · exact natToBits_congr (by omega)
  simp only [rfc8200, v6Bits, bytesToBits_append, bytesToBits_be16, bytesToBits_be32, e,
    bytesToBits_be128, bytesToBits_cons, List.append_assoc, addrInt_toNat]
  simp [bytesToBits]

theorem rfc768_bits {h : UdpHdr} {pl : Bytes} :
    bytesToBits (rfc768 h pl) = natToBits 16 h.sport.toNat ++ natToBits 16 h.dport.toNat ++
      natToBits 16 (pl.length + 8) ++ natToBits 16 h.cksum.toNat ++ bytesToBits pl := by
  simp only [rfc768, bytesToBits_append, bytesToBits_be16, Nat.add_comm 8]

end PyLisp
