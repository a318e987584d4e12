import Verif.Rfc
import Verif.ControlLemmas
/-
Byte-level pictures of AFI-encoded addresses, LCAF addresses, locator records, records and LISP
control messages, drawn after RFC 6830, RFC 8060, draft-ietf-lisp-ddt and draft-ermagan-lisp-nat-
traversal (a specification: nothing here is taken from the code; `Addr`, `Locator`, `Record`, … are
only used as tuples of field values).  Props/Layout.lean proves that the code writes these bytes.
-/
namespace PyLisp

/-- a word whose bit fields, most significant first, are the given (width, value) pairs -/
def pack (l : List (Nat × Nat)) : Nat := l.foldl (fun acc p => acc * 2 ^ p.1 + p.2 % 2 ^ p.1) 0

/-- a one-bit flag -/
def flag (b : Bool) : Nat × Nat := (1, if b then 1 else 0)

/-- 64 bits, big endian -/
def be64 (v : Nat) : Bytes := be32 (v / 2 ^ 32) ++ be32 v

/-- an AFI-encoded IP address: AFI 1 and 4 bytes, or AFI 2 and 16 bytes -/
def wIP (a : IP) : Bytes :=
  match a.ver with
  | .v4 => be16 1 ++ be32 a.val
  | .v6 => be16 2 ++ be128 a.val

/-- RFC 8060 section 3: AFI 16387, reserved byte, flags byte, type, reserved byte, length, data -/
def wLcaf (type rsvd2 : Nat) (data : Bytes) : Bytes :=
  be16 16387 ++ [byteOf 0, byteOf 0, byteOf type, byteOf rsvd2] ++ be16 data.length ++ data

mutual
/-- the bytes of an address: nothing is AFI 0, a network is sent as its first address -/
def wAddr : Addr → Bytes
  | .none => be16 0
  | .ip a => wIP a
  | .net n => wIP n.first
  -- the null body type
  | .null => wLcaf 0 0 []
  -- AFI list: the addresses one after the other
  | .afiList l => wLcaf 1 0 (wAddrs l)
  -- instance ID: mask length, 32-bit instance ID, address
  | .inst iid a m => wLcaf 2 m.toNat (be32 iid.toNat ++ wAddr a)
  -- AS number: 32-bit AS number, address
  | .asn n a => wLcaf 3 0 (be32 n.toNat ++ wAddr a)
  -- geo coordinates: N bit and latitude degrees, minutes, seconds; E bit and longitude degrees,
  -- minutes, seconds; altitude in two's complement; address
  | .geo n ld lm ls e od om os alt a =>
    wLcaf 5 0 (be16 (pack [flag n, (15, ld.toNat)]) ++ [byteOf lm.toNat, byteOf ls.toNat] ++
      be16 (pack [flag e, (15, od.toNat)]) ++ [byteOf om.toNat, byteOf os.toNat] ++
      be32 (alt % 2 ^ 32).toNat ++ wAddr a)
  -- NAT traversal: Map-Server port, ETR port, global ETR RLOC, Map-Server RLOC, private ETR RLOC,
  -- RTR RLOCs
  | .natT mp ep g m p rtrs =>
    wLcaf 7 0 (be16 mp.toNat ++ be16 ep.toNat ++ wAddr g ++ wAddr m ++ wAddr p ++ wAddrs rtrs)
/-- addresses one after the other (specification, no code) -/
def wAddrs : List Addr → Bytes
  | [] => []
  | a :: l => wAddr a ++ wAddrs l
end

/-- RFC 6830 section 6.1.4: priority, weight, multicast priority and weight, 13 unused bits and the
L, p and R flags, the locator -/
def wLocator (l : Locator) : Bytes :=
  [byteOf l.priority.toNat, byteOf l.weight.toNat, byteOf l.mPriority.toNat, byteOf l.mWeight.toNat] ++
  be16 (pack [(13, l.reserved1.toNat), flag l.isLocal, flag l.probed, flag l.reachable]) ++
  wAddr l.address

/-- the prefix length announced for an EID: of the (innermost) network, 0 for the null LCAF -/
def wPlen : Addr → Nat
  | .net n => n.plen
  | .inst _ a _ | .asn _ a => wPlen a
  | .geo _ _ _ _ _ _ _ _ _ a => wPlen a
  | _ => 0

/-- RFC 6830 section 6.1.4: TTL, locator count, EID mask length, ACT, A, reserved, map version
(four reserved bits of the RFC are the low bits of the 16 reserved here), EID, locators -/
def wRecord (r : Record) : Bytes :=
  be32 r.ttl.toNat ++ [byteOf r.locators.length, byteOf (wPlen r.eid)] ++
  be32 (pack [(3, r.action.toNat), flag r.authoritative, (16, r.reserved1.toNat),
    (12, r.mapVersion.toNat)]) ++
  wAddr r.eid ++ r.locators.flatMap wLocator

/-- draft-ietf-lisp-ddt section 6.4: as above with the I flag and a 4-bit signature count (no
signatures) -/
def wRefRecord (r : RefRecord) : Bytes :=
  be32 r.ttl.toNat ++ [byteOf r.locators.length, byteOf (wPlen r.eid)] ++
  be32 (pack [(3, r.action.toNat), flag r.authoritative, flag r.incomplete,
    (11, r.reserved1.toNat), (4, 0), (12, r.mapVersion.toNat)]) ++
  wAddr r.eid ++ r.locators.flatMap wLocator

/-- one EID of a Map-Request: reserved byte, mask length, prefix -/
def wEid (n : Net) : Bytes := [byteOf 0, byteOf n.plen] ++ wIP n.first

/-- the Map-Reply record of a Map-Request, when there is one -/
def wOptRecord : Option Record → Bytes
  | some r => wRecord r
  | none => []

/-- RFC 6830 section 6.1.2, type 1: A, M, P, S, p, s flags, reserved, IRC, record count; nonce,
source EID, ITR-RLOCs, records, Map-Reply record.  The EIDs are given as networks. -/
def wMapRequest (m : MapRequest) (eids : List Net) : Bytes :=
  be32 (pack [(4, 1), flag m.authoritative, flag m.mapReply.isSome, flag m.probe, flag m.smr,
    flag m.pitr, flag m.smrInvoked, (9, m.reserved1.toNat), (5, m.itrRlocs.length - 1),
    (8, eids.length)]) ++
  m.nonce ++ wAddr m.sourceEid ++ m.itrRlocs.flatMap wAddr ++ eids.flatMap wEid ++
  wOptRecord m.mapReply

/-- RFC 6830 section 6.1.4, type 2: P, E, S flags, reserved, record count; 8-byte nonce, records -/
def wMapReply (m : MapReply) : Bytes :=
  be32 (pack [(4, 2), flag m.probe, flag m.enlraEnabled, flag false, (17, m.reserved1.toNat),
    (8, m.records.length)]) ++
  List.replicate (8 - m.nonce.length) (byteOf 0) ++ m.nonce ++ m.records.flatMap wRecord

/-- key id, length of the authentication data, authentication data -/
def wAuth (keyId : Int) (auth : Bytes) : Bytes := be16 keyId.toNat ++ be16 auth.length ++ auth

/-- RFC 6830 section 6.1.6 with the xTR-ID extension, type 3: P, reserved, I, R, reserved, M, record
count; nonce, authentication, records, and with the I flag the xTR-ID and site-ID -/
def wMapRegister (m : MapRegister) : Bytes :=
  let ids := m.xtrId ≠ 0 ∨ m.siteId ≠ 0 ∨ m.forRtr = true
  be32 (pack [(4, 3), flag m.proxyMapReply, (1, m.reserved1.toNat), flag (decide ids),
    flag m.forRtr, (15, m.reserved2.toNat), flag m.wantMapNotify, (8, m.records.length)]) ++
  m.nonce ++ wAuth m.keyId m.authData ++ m.records.flatMap wRecord ++
  (if ids then be128 m.xtrId.toNat ++ be64 m.siteId.toNat else [])

/-- RFC 6830 section 6.1.7 with the xTR-ID extension, type 4 -/
def wMapNotify (m : MapNotify) : Bytes :=
  let ids := m.xtrId ≠ 0 ∨ m.siteId ≠ 0
  be32 (pack [(4, 4), flag (decide ids), (19, m.reserved1.toNat), (8, m.records.length)]) ++
  m.nonce ++ wAuth m.keyId m.authData ++ m.records.flatMap wRecord ++
  (if ids then be128 m.xtrId.toNat ++ be64 m.siteId.toNat else [])

/-- draft-ietf-lisp-ddt section 6.4, type 6 -/
def wMapReferral (m : MapReferral) : Bytes :=
  be32 (pack [(4, 6), (20, m.reserved1.toNat), (8, m.records.length)]) ++ m.nonce ++
  m.records.flatMap wRefRecord

/-- draft-ermagan-lisp-nat-traversal, type 7: R flag; nonce, authentication, TTL, reserved byte, EID
mask length, EID prefix, and the NAT-traversal LCAF (AFI 0 in a request) -/
def wInfo (m : Info) (eid : Net) : Bytes :=
  be32 (pack [(4, 7), flag m.isReply, (27, m.reserved1.toNat)]) ++ m.nonce ++
  wAuth m.keyId m.authData ++ be32 m.ttl.toNat ++ [byteOf m.reserved2.toNat, byteOf eid.plen] ++
  wIP eid.first ++ wAddr m.reply

/-! ### Their bits -/

attribute [local irreducible] natToBits zeros

theorem pack_bits_aux (n acc : Nat) : ∀ l : List (Nat × Nat),
    natToBits (n + (l.map Prod.fst).sum)
      (l.foldl (fun acc p => acc * 2 ^ p.1 + p.2 % 2 ^ p.1) acc) =
    natToBits n acc ++ l.flatMap fun p => natToBits p.1 p.2
  | [] => by simp
  | (w, v) :: l => by
    rw [List.map_cons, List.sum_cons, ← Nat.add_assoc, List.foldl_cons,
      pack_bits_aux (n + w) _ l, natToBits_append, List.flatMap_cons, List.append_assoc]
    congr 1
    · congr 1
      dsimp only
      rw [Nat.mul_comm, Nat.mul_add_div (Nat.two_pow_pos w), Nat.div_eq_of_lt, Nat.add_zero]
      exact Nat.mod_lt _ (Nat.two_pow_pos w)
    · congr 1
      refine natToBits_congr ?_
      dsimp only
      rw [Nat.mul_comm, Nat.mul_add_mod, Nat.mod_mod]

theorem pack_bits (k : Nat) (l : List (Nat × Nat)) (h : (l.map Prod.fst).sum = k) :
    natToBits k (pack l) = l.flatMap fun p => natToBits p.1 p.2 := by
  have := pack_bits_aux 0 0 l
  rw [Nat.zero_add, h] at this
  rw [pack, this]
  have h0 : natToBits 0 0 = [] := List.length_eq_zero_iff.mp (natToBits_length 0 0)
  rw [h0, List.nil_append]

theorem natToBits_flag (b : Bool) : natToBits (flag b).1 (flag b).2 = [b] := by
  cases b <;> decide +kernel

theorem bytesToBits_be64 (v : Nat) : bytesToBits (be64 v) = natToBits 64 v := by
  rw [be64, bytesToBits_append, bytesToBits_be32, bytesToBits_be32, ← natToBits_append]

theorem bytesToBits_nil : bytesToBits [] = [] := rfl

theorem wIP_bits (a : IP) : bytesToBits (wIP a) = encIP a := by
  unfold wIP encIP
  cases a.ver
  · simp only [bytesToBits_append, bytesToBits_be16, bytesToBits_be32]
  · simp only [bytesToBits_append, bytesToBits_be16, bytesToBits_be128]

theorem wLcaf_bits {t r : Nat} {x : Bytes} {d b : Bits} (h : encLcaf t (natToBits 8 r) d = .ok b)
    (hx : bytesToBits x = d) : bytesToBits (wLcaf t r x) = natToBits 16 16387 ++ b := by
  obtain ⟨_, rfl⟩ := encLcaf_ok h
  have hl : d.length / 8 = x.length := by rw [← hx, bytesToBits_length]; omega
  rw [wLcaf, hl, ← hx]
  simp only [bytesToBits_append, bytesToBits_be16, bytesToBits_cons, bytesToBits_nil,
    List.append_nil, List.append_assoc, ← natToBits_zero]

mutual
theorem wAddr_bits : ∀ (a : Addr) (b : Bits), encAddr a = .ok b → bytesToBits (wAddr a) = b
  | .none, b, h => by
    simp only [encAddr, Except.ok.injEq] at h; subst h
    rw [wAddr, bytesToBits_be16, natToBits_zero]
  | .ip a, b, h => by
    simp only [encAddr, Except.ok.injEq] at h; subst h
    rw [wAddr, wIP_bits]
  | .net n, b, h => by
    simp only [encAddr, Except.ok.injEq] at h; subst h
    rw [wAddr, wIP_bits]
  | .null, b, h => by
    simp only [encAddr, exBind_ok] at h
    obtain ⟨c, hc, h⟩ := h
    simp only [exPure, Except.ok.injEq] at h; subst h
    rw [← natToBits_zero] at hc
    rw [wAddr]; exact wLcaf_bits hc rfl
  | .afiList l, b, h => by
    simp only [encAddr, exBind_ok] at h
    obtain ⟨d, hd, c, hc, h⟩ := h
    simp only [exPure, Except.ok.injEq] at h; subst h
    rw [← natToBits_zero] at hc
    rw [wAddr]; exact wLcaf_bits hc (wAddrs_bits l d hd)
  | .inst iid a m, b, h => by
    simp only [encAddr, exBind_ok, encUint_iff] at h
    obtain ⟨mb, ⟨hm0, hm1, rfl⟩, ib, ⟨hi0, hi1, rfl⟩, d, hd, c, hc, h⟩ := h
    simp only [exPure, Except.ok.injEq] at h; subst h
    rw [wAddr]
    refine wLcaf_bits hc ?_
    rw [bytesToBits_append, bytesToBits_be32, wAddr_bits a d hd]
  | .asn n a, b, h => by
    simp only [encAddr, exBind_ok, encUint_iff] at h
    obtain ⟨ib, ⟨hi0, hi1, rfl⟩, d, hd, c, hc, h⟩ := h
    simp only [exPure, Except.ok.injEq] at h; subst h
    rw [← natToBits_zero] at hc
    rw [wAddr]
    refine wLcaf_bits hc ?_
    rw [bytesToBits_append, bytesToBits_be32, wAddr_bits a d hd]
  | .geo n ld lm ls e od om os alt a, b, h => by
    simp only [encAddr, exBind_ok, encUint_iff, encInt_iff] at h
    obtain ⟨_, ⟨h10, h11, rfl⟩, _, ⟨h20, h21, rfl⟩, _, ⟨h30, h31, rfl⟩, _, ⟨h40, h41, rfl⟩,
      _, ⟨h50, h51, rfl⟩, _, ⟨h60, h61, rfl⟩, _, ⟨h70, h71, rfl⟩, d, hd, c, hc, h⟩ := h
    simp only [exPure, Except.ok.injEq] at h; subst h
    rw [← natToBits_zero] at hc
    rw [wAddr]
    refine wLcaf_bits hc ?_
    simp only [bytesToBits_append, bytesToBits_be16, bytesToBits_be32, bytesToBits_cons,
      bytesToBits_nil, List.append_nil, wAddr_bits a d hd, List.append_assoc]
    rw [pack_bits 16 _ rfl, pack_bits 16 _ rfl]
    simp only [List.flatMap_cons, List.flatMap_nil, natToBits_flag, List.append_nil,
      List.append_assoc]
  | .natT mp ep g m p l, b, h => by
    simp only [encAddr, exBind_ok, encUint_iff] at h
    obtain ⟨_, ⟨h10, h11, rfl⟩, _, ⟨h20, h21, rfl⟩, dg, hg, dm, hdm, dp, hp, dr, hr, c, hc, h⟩ := h
    simp only [exPure, Except.ok.injEq] at h; subst h
    rw [← natToBits_zero] at hc
    rw [wAddr]
    refine wLcaf_bits hc ?_
    simp only [bytesToBits_append, bytesToBits_be16, wAddr_bits g dg hg, wAddr_bits m dm hdm,
      wAddr_bits p dp hp, wAddrs_bits l dr hr]
theorem wAddrs_bits : ∀ (l : List Addr) (b : Bits), encAddrs l = .ok b → bytesToBits (wAddrs l) = b
  | [], b, h => by
    simp only [encAddrs, Except.ok.injEq] at h; subst h; rfl
  | a :: l, b, h => by
    simp only [encAddrs, exBind_ok, exPure, Except.ok.injEq] at h
    obtain ⟨c, hc, r, hr, rfl⟩ := h
    rw [wAddrs, bytesToBits_append, wAddr_bits a c hc, wAddrs_bits l r hr]
end

theorem flatMap_bits {e : α → Except Err Bits} {w : α → Bytes} {l : List α} {b : Bits}
    (h : encAll e l = .ok b) (hw : ∀ a ∈ l, ∀ c, e a = .ok c → bytesToBits (w a) = c) :
    bytesToBits (l.flatMap w) = b := by
  induction l generalizing b with
  | nil => cases h; rfl
  | cons a l ih =>
    simp only [encAll, exBind_ok, exPure, Except.ok.injEq] at h
    obtain ⟨c, hc, r, hr, rfl⟩ := h
    rw [List.flatMap_cons, bytesToBits_append, hw a (by simp) c hc,
      ih hr fun a ha => hw a (by simp [ha])]

theorem wLocator_bits {l : Locator} {b : Bits} (h : encLocator l = .ok b) :
    bytesToBits (wLocator l) = b := by
  simp only [encLocator, exBind_ok] at h
  obtain ⟨_, _, h⟩ := h
  obtain ⟨x, hx, _, _, _, _, rfl⟩ := encLocatorRaw_ok h
  simp only [wLocator, bytesToBits_append, bytesToBits_be16, bytesToBits_cons, bytesToBits_nil,
    List.append_nil, wAddr_bits _ _ hx, List.append_assoc]
  rw [pack_bits 16 _ rfl]
  simp only [List.flatMap_cons, List.flatMap_nil, natToBits_flag, List.append_nil,
    List.append_assoc, List.cons_append, List.nil_append]

theorem wPlen_eq : ∀ {a : Addr} {p : Nat}, a.prefixlen = .ok p → wPlen a = p
  | .net n, p, h => by simpa [Addr.prefixlen, wPlen] using h
  | .null, p, h => by simpa [Addr.prefixlen, wPlen] using h
  | .inst _ a _, p, h => by rw [Addr.prefixlen] at h; rw [wPlen]; exact wPlen_eq h
  | .asn _ a, p, h => by rw [Addr.prefixlen] at h; rw [wPlen]; exact wPlen_eq h
  | .geo _ _ _ _ _ _ _ _ _ a, p, h => by rw [Addr.prefixlen] at h; rw [wPlen]; exact wPlen_eq h
  | .none, _, h | .ip _, _, h | .afiList _, _, h | .natT .., _, h => by cases h

theorem wRecord_bits {r : Record} {b : Bits} {n : Net} (hn : r.eid = .net n)
    (h : encRecordRaw r = .ok b) : bytesToBits (wRecord r) = b := by
  obtain ⟨_, _, _, _, ls, hls, rfl⟩ := encRecordRaw_ok hn h
  have hl := flatMap_bits hls fun l _ c hc => wLocator_bits hc
  simp only [wRecord, bytesToBits_append, bytesToBits_be32, bytesToBits_cons, bytesToBits_nil, hl,
    hn, wPlen, wAddr, wIP_bits, List.append_nil, List.append_assoc]
  rw [pack_bits 32 _ rfl]
  simp only [List.flatMap_cons, List.flatMap_nil, natToBits_flag, List.append_nil,
    List.append_assoc, List.cons_append, List.nil_append]

/-- a record as it is written is the picture of the sanitised record -/
theorem wRecord_enc {r r' : Record} {b : Bits} (h : encRecord r = .ok b) (hs : r.sanitize = .ok r') :
    bytesToBits (wRecord r') = b := by
  obtain ⟨r'', h1, h2⟩ := encRecord_ok h
  rw [hs] at h1; cases h1
  obtain ⟨_, _, _, ⟨n, hn⟩, _, _⟩ := Record.sanitize_ok.mp (Record.sanitize_idem hs)
  exact wRecord_bits hn h2

theorem wRefRecord_enc {r r' : RefRecord} {b : Bits} (h : encRefRecord r = .ok b)
    (hs : r.sanitize = .ok r') : bytesToBits (wRefRecord r') = b := by
  obtain ⟨r'', h1, h2⟩ := encRefRecord_ok h
  rw [hs] at h1; cases h1
  obtain ⟨_, _, _, _, _, p, e, ls, hp, _, he, hls, rfl⟩ := encRefRecordRaw_ok h2
  have hl := flatMap_bits hls fun l _ c hc => wLocator_bits hc
  simp only [wRefRecord, bytesToBits_append, bytesToBits_be32, bytesToBits_cons, bytesToBits_nil, hl,
    wPlen_eq hp, wAddr_bits _ _ he, List.append_nil, List.append_assoc]
  rw [pack_bits 32 _ rfl]
  simp only [List.flatMap_cons, List.flatMap_nil, natToBits_flag, List.append_nil,
    List.append_assoc, List.cons_append, List.nil_append]

end PyLisp
