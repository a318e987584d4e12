import Verif.LangLemmas
import Verif.Props.Layout
import Verif.Props.LispData
/-
C69: the exact input language of the LISP parsers.  The right-hand sides are the languages of
LispLang.lean (addresses) and the ones defined here (locators, records, messages), which are written
with the pictures of LispWire.lean.
-/
namespace PyLisp.Props
open PyLisp

attribute [local irreducible] natToBits readUint readBits readBool readBytes readInt zeros readIP
  readAfi be16 be32 be128 be64 wIP pack

/-! ### Specification -/

/-- `ls'` is `ls` in ascending order of the address number, locators with equal numbers in the order
in which they came -/
def StableSort (ls ls' : List Locator) : Prop :=
  ls'.Perm ls ∧ ls'.Pairwise (fun x y => addrValue x ≤ addrValue y) ∧
  ∀ k, ls'.filter (fun l => addrValue l = k) = ls.filter (fun l => addrValue l = k)

/-- the bytes of a locator record: any flags and reserved bits, and an address that is a usable IP
address or an LCAF that carries no address at all -/
def IsLocator (l : Locator) (d : Bytes) : Prop :=
  FitsByte l.priority ∧ FitsByte l.weight ∧ FitsByte l.mPriority ∧ FitsByte l.mWeight ∧
  ((∃ a, l.address = .ip a ∧ UsableLocator a) ∨ Carries l.address []) ∧
  ∃ x, IsAddr l.address x ∧
    d = [byteOf l.priority.toNat, byteOf l.weight.toNat, byteOf l.mPriority.toNat,
        byteOf l.mWeight.toNat] ++
      be16 (pack [(13, l.reserved1.toNat), flag l.isLocal, flag l.probed, flag l.reachable]) ++ x

/-- the locators of a record have IP addresses -/
def IsIPLocator (l : Locator) (d : Bytes) : Prop := IsLocator l d ∧ ∃ a, l.address = .ip a

/-- the bytes of a Map-Reply / Map-Register record: the EID is a network whose host bits are zero;
at most 255 locators in any order, received in ascending order; the action is free (and becomes 0)
when there are locators and one of the four defined ones otherwise -/
inductive IsRecord : Record → Bytes → Prop
  | mk {ttl act ver : Nat} {auth : Bool} {rsvd : BitVec 16} {n : Net} {ls ls' : List Locator}
      {d : Bytes} :
    ttl < 2 ^ 32 → act < 2 ^ 3 → ver < 2 ^ 12 → ls.length < 2 ^ 8 → (ls = [] → act ≤ 3) →
    Sequence IsIPLocator ls d → StableSort ls ls' →
    IsRecord
      { ttl := ttl, action := if ls = [] then act else 0, authoritative := auth, mapVersion := ver,
        eid := .net n, locators := ls', reserved1 := rsvd }
      (be32 ttl ++ [byteOf ls.length, byteOf n.plen] ++
        be32 (pack [(3, act), flag auth, (16, rsvd.toNat), (12, ver)]) ++ wIP n.first ++ d)

/-- the EID a receiver makes of the EID of a Map-Referral record: a network gets instance ID 0 -/
inductive ReferredEid : Addr → Addr → Prop
  | net (n : Net) : ReferredEid (.net n) (.inst 0 (.net n) 32)
  | inst (i : Int) (a : Addr) (m : Int) : ReferredEid (.inst i a m) (.inst i a m)

/-- the bytes of a Map-Referral record: no signatures, a row of the DDT table, an EID that is a network
or a network in an instance-ID LCAF, IP locators without the probe flag in any order -/
inductive IsRefRecord : RefRecord → Bytes → Prop
  | mk {ttl act ver p : Nat} {auth inc : Bool} {rsvd : BitVec 11} {e e' : Addr}
      {ls ls' : List Locator} {x d : Bytes} :
    ttl < 2 ^ 32 → act < 2 ^ 3 → ver < 2 ^ 12 → p < 2 ^ 8 → ls.length < 2 ^ 8 →
    DdtRow act inc (!ls.isEmpty) ttl → IsPrefix p e x → ReferredEid e e' →
    Sequence IsIPLocator ls d → (∀ l ∈ ls, l.probed = false) → StableSort ls ls' →
    IsRefRecord
      { ttl := ttl, action := act, authoritative := auth, incomplete := inc, mapVersion := ver,
        eid := e', locators := ls', reserved1 := rsvd }
      (be32 ttl ++ [byteOf ls.length, byteOf p] ++
        be32 (pack [(3, act), flag auth, flag inc, (11, rsvd.toNat), (4, 0), (12, ver)]) ++ x ++ d)

/-- one EID of a Map-Request: the first byte is free; every address carried is an IP address or a
network -/
def IsEid (e : Addr) (d : Bytes) : Prop :=
  ∃ (r : Byte) (p : Nat) (x : Bytes) (l : List Addr), p < 2 ^ 8 ∧ IsPrefix p e x ∧ Carries e l ∧
    (∀ a ∈ l, (∃ i, a = .ip i) ∨ ∃ n, a = .net n) ∧ d = [r, byteOf p] ++ x

/-- an optional record -/
inductive IsOptRecord : Option Record → Bytes → Prop
  | none : IsOptRecord none []
  | some {r : Record} {d : Bytes} : IsRecord r d → IsOptRecord (some r) d

/-- a Map-Request: type 1, an 8-byte nonce, a source EID that is absent or carries exactly one
address, 1 to 32 IP addresses as ITR-RLOCs, 1 to 32 EIDs, the Map-Reply record if the M flag is set -/
inductive IsMapRequest : MapRequest → Bytes → Prop
  | mk {m : MapRequest} {itrs : List IP} {src eids rec : Bytes} :
    m.nonce.length = 8 → IsAddr m.sourceEid src →
    (m.sourceEid = .none ∨ ∃ a, Carries m.sourceEid [.ip a]) →
    m.itrRlocs = itrs.map .ip → 1 ≤ itrs.length → itrs.length ≤ 32 →
    1 ≤ m.eidPrefixes.length → m.eidPrefixes.length ≤ 32 → Sequence IsEid m.eidPrefixes eids →
    IsOptRecord m.mapReply rec →
    IsMapRequest m
      (be32 (pack [(4, 1), flag m.authoritative, flag m.mapReply.isSome, flag m.probe, flag m.smr,
        flag m.pitr, flag m.smrInvoked, (9, m.reserved1.toNat), (5, itrs.length - 1),
        (8, m.eidPrefixes.length)]) ++
      m.nonce ++ src ++ itrs.flatMap wIP ++ eids ++ rec)

/-- a Map-Reply: type 2, S flag clear, an 8-byte nonce, up to 255 records -/
inductive IsMapReply : MapReply → Bytes → Prop
  | mk {m : MapReply} {recs : Bytes} :
    m.security = false → m.nonce.length = 8 → m.records.length < 2 ^ 8 →
    Sequence IsRecord m.records recs →
    IsMapReply m
      (be32 (pack [(4, 2), flag m.probe, flag m.enlraEnabled, flag false, (17, m.reserved1.toNat),
        (8, m.records.length)]) ++ m.nonce ++ recs)

/-- one of the three known key ids -/
def KnownKey (k : Int) : Prop := k = 0 ∨ k = 1 ∨ k = 2

/-- xTR-ID and site-ID, present with the I flag and 0 without -/
inductive IsIds : Bool → Int → Int → Bytes → Prop
  | absent : IsIds false 0 0 []
  | present {x s : Nat} : x < 2 ^ 128 → s < 2 ^ 64 → IsIds true x s (be128 x ++ be64 s)

/-- a Map-Register: type 3, an 8-byte nonce, a known key id, any authentication data, up to 255
records, the ids -/
inductive IsMapRegister : MapRegister → Bytes → Prop
  | mk {m : MapRegister} {i : Bool} {recs ids : Bytes} :
    m.nonce.length = 8 → KnownKey m.keyId → m.authData.length < 2 ^ 16 →
    m.records.length < 2 ^ 8 → Sequence IsRecord m.records recs → IsIds i m.xtrId m.siteId ids →
    IsMapRegister m
      (be32 (pack [(4, 3), flag m.proxyMapReply, (1, m.reserved1.toNat), flag i, flag m.forRtr,
        (15, m.reserved2.toNat), flag m.wantMapNotify, (8, m.records.length)]) ++
      m.nonce ++ wAuth m.keyId m.authData ++ recs ++ ids)

/-- a Map-Notify, type 4 -/
inductive IsMapNotify : MapNotify → Bytes → Prop
  | mk {m : MapNotify} {i : Bool} {recs ids : Bytes} :
    m.nonce.length = 8 → KnownKey m.keyId → m.authData.length < 2 ^ 16 →
    m.records.length < 2 ^ 8 → Sequence IsRecord m.records recs → IsIds i m.xtrId m.siteId ids →
    IsMapNotify m
      (be32 (pack [(4, 4), flag i, (19, m.reserved1.toNat), (8, m.records.length)]) ++
      m.nonce ++ wAuth m.keyId m.authData ++ recs ++ ids)

/-- a Map-Referral, type 6 -/
inductive IsMapReferral : MapReferral → Bytes → Prop
  | mk {m : MapReferral} {recs : Bytes} :
    m.nonce.length = 8 → m.records.length < 2 ^ 8 → Sequence IsRefRecord m.records recs →
    IsMapReferral m
      (be32 (pack [(4, 6), (20, m.reserved1.toNat), (8, m.records.length)]) ++ m.nonce ++ recs)

/-- an Info message, type 7: a reply carries a NAT-traversal LCAF, a request AFI 0; the EID is a
network whose host bits are zero -/
inductive IsInfo : Info → Bytes → Prop
  | mk {m : Info} {ttl : Nat} {n : Net} {rep : Bytes} :
    m.nonce.length = 8 → KnownKey m.keyId → m.authData.length < 2 ^ 16 → m.ttl = ttl → ttl < 2 ^ 32 →
    m.eidPrefix = .net n → IsAddr m.reply rep →
    (m.isReply = true ∧ (∃ mp ep g s p rtrs, m.reply = .natT mp ep g s p rtrs) ∨
      m.isReply = false ∧ m.reply = .none) →
    IsInfo m
      (be32 (pack [(4, 7), flag m.isReply, (27, m.reserved1.toNat)]) ++ m.nonce ++
        wAuth m.keyId m.authData ++ be32 ttl ++ [byteOf m.reserved2.toNat, byteOf n.plen] ++
        wIP n.first ++ rep)

/-! ### Lemmas -/

theorem ascending_filter_unique (key : α → Nat) {l l' : List α} (h : Ascending key l)
    (h' : Ascending key l')
    (hf : ∀ k, l.filter (fun x => decide (key x = k)) = l'.filter (fun x => decide (key x = k))) :
    l = l' := by
  induction l generalizing l' with
  | nil =>
    cases l' with
    | nil => rfl
    | cons b l' =>
      have := hf (key b)
      rw [List.filter_cons_of_pos (p := fun x => decide (key x = key b)) (by simp)] at this
      simp at this
  | cons a l ih =>
    cases l' with
    | nil =>
      have := hf (key a)
      rw [List.filter_cons_of_pos (p := fun x => decide (key x = key a)) (by simp)] at this
      simp at this
    | cons b l' =>
      unfold Ascending at h h'
      rw [List.pairwise_cons] at h h'
      have hk : key a = key b := by
        have h1 : a ∈ (b :: l').filter (fun x => decide (key x = key a)) := by
          rw [← hf (key a)]; simp
        have h2 : b ∈ (a :: l).filter (fun x => decide (key x = key b)) := by
          rw [hf (key b)]; simp
        have h1 := (List.mem_filter.mp h1).1
        have h2 := (List.mem_filter.mp h2).1
        rcases List.mem_cons.mp h1 with rfl | h1
        · rfl
        · rcases List.mem_cons.mp h2 with rfl | h2
          · rfl
          · exact Nat.le_antisymm (h.1 b h2) (h'.1 a h1)
      have hab : a = b ∧ l.filter (fun x => decide (key x = key a)) =
          l'.filter (fun x => decide (key x = key a)) := by
        have := hf (key a)
        rw [List.filter_cons_of_pos (p := fun x => decide (key x = key a)) (by simp),
          List.filter_cons_of_pos (p := fun x => decide (key x = key a)) (by simp [hk])] at this
        simpa using this
      obtain ⟨rfl, _⟩ := hab
      congr 1
      refine ih h.2 h'.2 fun k => ?_
      have := hf k
      by_cases hak : key a = k
      · rw [List.filter_cons_of_pos (p := fun x => decide (key x = k)) (by simp [hak]),
          List.filter_cons_of_pos (p := fun x => decide (key x = k)) (by simp [hak])] at this
        simpa using this
      · rwa [List.filter_cons_of_neg (p := fun x => decide (key x = k)) (by simp [hak]),
          List.filter_cons_of_neg (p := fun x => decide (key x = k)) (by simp [hak])] at this

theorem stableSort_iff {ls ls' : List Locator} :
    StableSort ls ls' ↔ ls' = sortBy Locator.key ls := by
  have hk : Locator.key = addrValue := rfl
  rw [hk]
  constructor
  · rintro ⟨_, h2, h3⟩
    refine ascending_filter_unique addrValue h2 (sortBy_ascending _ _) fun k => ?_
    rw [sortBy_stable]; exact h3 k
  · rintro rfl
    exact ⟨sortBy_perm _ _, sortBy_ascending _ _, fun k => sortBy_stable _ _ _⟩

theorem readN_iff {r : Rd α} {P : α → Bytes → Prop}
    (hr : ∀ s rest a, r s = .ok (a, rest) ↔ ∃ d, P a d ∧ s = bytesToBits d ++ rest)
    {n : Nat} {s rest : Bits} {l : List α} :
    readN r n s = .ok (l, rest) ↔
      l.length = n ∧ ∃ d, Sequence P l d ∧ s = bytesToBits d ++ rest := by
  induction n generalizing s l rest with
  | zero =>
    simp only [readN, Rd.pure_ok_iff]
    constructor
    · rintro ⟨rfl, rfl⟩; exact ⟨rfl, [], .nil, rfl⟩
    · rintro ⟨h, d, hd, rfl⟩
      obtain rfl := List.length_eq_zero_iff.mp h
      cases hd; exact ⟨rfl, rfl⟩
  | succ n ih =>
    simp only [readN, Rd.bind_ok, Rd.pure_ok_iff, hr, ih]
    constructor
    · rintro ⟨a, _, ⟨d, hd, rfl⟩, l', _, ⟨hl, e, he, rfl⟩, rfl, rfl⟩
      refine ⟨by simp [hl], d ++ e, .cons hd he, ?_⟩
      rw [bytesToBits_append, List.append_assoc]
    · rintro ⟨hl, d, hd, rfl⟩
      cases hd with
      | nil => simp at hl
      | @cons a l d e ha hs =>
        refine ⟨a, _, ⟨d, ha, ?_⟩, l, _, ⟨by simpa using hl, e, hs, rfl⟩, rfl, rfl⟩
        rw [bytesToBits_append, List.append_assoc]

/-- a whole message: what is read, and anything behind it -/
theorem runOn_bytes {r : Rd α} {d : Bytes} {a : α} {P : α → Bytes → Prop}
    (hr : ∀ s rest a, r s = .ok (a, rest) ↔ ∃ d, P a d ∧ s = bytesToBits d ++ rest) :
    runOn r (bytesToBits d) = .ok a ↔ ∃ x junk, P a x ∧ d = x ++ junk := by
  rw [runOn_iff']
  simp only [hr]
  constructor
  · rintro ⟨rest, x, hx, e⟩
    obtain ⟨junk, rfl, _⟩ := bytes_split e
    exact ⟨x, junk, hx, rfl⟩
  · rintro ⟨x, junk, hx, rfl⟩
    exact ⟨_, x, hx, by rw [bytesToBits_append]⟩

/-! ### C69 -/

/-- C69: the address parser accepts exactly the byte strings that denote an address, returns that
address and consumes exactly those bytes. -/
theorem address_language (s rest : Bits) (a : Addr) :
    readAfi none s = .ok (a, rest) ↔ ∃ d, IsAddr a d ∧ s = bytesToBits d ++ rest :=
  readAfi_isAddr

/-- C69: the same for an address with a prefix length. -/
theorem prefix_language (p : Nat) (s rest : Bits) (a : Addr) :
    readAfi (some p) s = .ok (a, rest) ↔ ∃ d, IsPrefix p a d ∧ s = bytesToBits d ++ rest :=
  readAfi_isPrefix

theorem locator_bits (p w mp mw : Nat) (r : BitVec 13) (f g h : Bool) (x : Bytes) :
    bytesToBits ([byteOf p, byteOf w, byteOf mp, byteOf mw] ++
      be16 (pack [(13, r.toNat), flag f, flag g, flag h]) ++ x) =
    natToBits 8 p ++ (natToBits 8 w ++ (natToBits 8 mp ++ (natToBits 8 mw ++
      (natToBits 13 r.toNat ++ (f :: g :: h :: bytesToBits x))))) := by
  simp only [bytesToBits_append, bytesToBits_be16, bytesToBits_cons, bytesToBits_nil,
    List.append_nil, List.append_assoc]
  rw [pack_bits 16 _ rfl]
  simp only [List.flatMap_cons, List.flatMap_nil, natToBits_flag, List.append_nil,
    List.append_assoc, List.cons_append, List.nil_append]

/-- C69/C20: the locator record parser. -/
theorem locator_language (s rest : Bits) (l : Locator) :
    readLocator s = .ok (l, rest) ↔ ∃ d, IsLocator l d ∧ s = bytesToBits d ++ rest := by
  simp only [readLocator, readLocatorRaw, Rd.bind_ok, Rd.lift_ok_iff, Rd.pure_ok_iff, readUint_iff,
    readBool_iff, readAfi_isAddr]
  constructor
  · rintro ⟨l', _, ⟨p, _, ⟨h1, rfl⟩, w, _, ⟨h2, rfl⟩, mp, _, ⟨h3, rfl⟩, mw, _, ⟨h4, rfl⟩, rs, _,
      ⟨h5, rfl⟩, f, _, rfl, g, _, rfl, h, _, rfl, a, _, ⟨x, hx, rfl⟩, rfl, rfl⟩, _, _, ⟨hs, rfl⟩, rfl,
      rfl⟩
    have hs := (locator_accepted_exact _).mp hs
    obtain ⟨g1, g2, g3, g4, g5⟩ := hs
    refine ⟨_, ⟨g1, g2, g3, g4, g5, x, hx, rfl⟩, ?_⟩
    rw [locator_bits]
    simp only [Int.toNat_natCast, BitVec.toNat_ofNat, Nat.mod_eq_of_lt h5, List.append_assoc,
      List.cons_append]
  · rintro ⟨d, ⟨g1, g2, g3, g4, g5, x, hx, rfl⟩, rfl⟩
    rw [locator_bits]
    simp only [List.append_assoc, List.cons_append]
    refine ⟨l, _, ⟨_, _, ⟨?_, rfl⟩, _, _, ⟨?_, rfl⟩, _, _, ⟨?_, rfl⟩, _, _, ⟨?_, rfl⟩, _, _,
      ⟨l.reserved1.isLt, rfl⟩, _, _, rfl, _, _, rfl, _, _, rfl, _, _, ⟨x, hx, rfl⟩, ?_, rfl⟩, (), _,
      ⟨(locator_accepted_exact _).mpr ⟨g1, g2, g3, g4, g5⟩, rfl⟩, rfl, rfl⟩
    · have := g1.1; have := g1.2; omega
    · have := g2.1; have := g2.2; omega
    · have := g3.1; have := g3.2; omega
    · have := g4.1; have := g4.2; omega
    · rw [Int.toNat_of_nonneg g1.1, Int.toNat_of_nonneg g2.1, Int.toNat_of_nonneg g3.1,
        Int.toNat_of_nonneg g4.1, BitVec.ofNat_toNat, BitVec.setWidth_eq]

theorem ipLocator_language {ls : List Locator} {d : Bytes} :
    Sequence IsIPLocator ls d ↔ Sequence IsLocator ls d ∧ ∀ l ∈ ls, ∃ a, l.address = .ip a := by
  constructor
  · intro h
    induction h with
    | nil => exact ⟨.nil, by simp⟩
    | cons ha _ ih =>
      refine ⟨.cons ha.1 ih.1, ?_⟩
      intro l hl
      rcases List.mem_cons.mp hl with rfl | hl
      · exact ha.2
      · exact ih.2 l hl
  · rintro ⟨h, hi⟩
    induction h with
    | nil => exact .nil
    | cons ha _ ih => exact .cons ⟨ha, hi _ (by simp)⟩ (ih fun l hl => hi l (by simp [hl]))

theorem isLocator_sanitize {l : Locator} {d : Bytes} (h : IsLocator l d) : l.sanitize = .ok () := by
  obtain ⟨g1, g2, g3, g4, g5, _⟩ := h
  exact (locator_accepted_exact _).mpr ⟨g1, g2, g3, g4, g5⟩

theorem sequence_mem {P : α → Bytes → Prop} {l : List α} {d : Bytes} (h : Sequence P l d) :
    ∀ a ∈ l, ∃ x, P a x := by
  induction h with
  | nil => simp
  | cons ha _ ih =>
    intro a hm
    rcases List.mem_cons.mp hm with rfl | hm
    · exact ⟨_, ha⟩
    · exact ih a hm

theorem isPrefix_net {p : Nat} {n : Net} {d : Bytes} :
    IsPrefix p (.net n) d ↔ p = n.plen ∧ d = wIP n.first := by
  constructor
  · intro h; cases h; exact ⟨rfl, rfl⟩
  · rintro ⟨rfl, rfl⟩; exact .net n

theorem net_plen_lt (n : Net) : n.plen < 2 ^ 8 := by
  have := n.plen_le
  cases h : n.ver <;> simp [h, Ver.width] at this <;> omega

theorem record_bits (ttl cnt p act : Nat) (a : Bool) (r : BitVec 16) (ver : Nat) (x d : Bytes) :
    bytesToBits (be32 ttl ++ [byteOf cnt, byteOf p] ++
      be32 (pack [(3, act), flag a, (16, r.toNat), (12, ver)]) ++ x ++ d) =
    natToBits 32 ttl ++ (natToBits 8 cnt ++ (natToBits 8 p ++ (natToBits 3 act ++ (a ::
      (natToBits 16 r.toNat ++ (natToBits 12 ver ++ (bytesToBits x ++ bytesToBits d))))))) := by
  simp only [bytesToBits_append, bytesToBits_be32, bytesToBits_cons, bytesToBits_nil,
    List.append_nil, List.append_assoc]
  rw [pack_bits 32 _ rfl]
  simp only [List.flatMap_cons, List.flatMap_nil, natToBits_flag, List.append_nil,
    List.append_assoc, List.cons_append, List.nil_append]

/-- C69: the record parser. -/
theorem record_language (s rest : Bits) (r : Record) :
    readRecord s = .ok (r, rest) ↔ ∃ d, IsRecord r d ∧ s = bytesToBits d ++ rest := by
  simp only [readRecord, readRecordRaw, Rd.bind_ok, Rd.lift_ok_iff, Rd.pure_ok_iff, readUint_iff,
    readBool_iff, readAfi_isPrefix, readN_iff locator_language]
  constructor
  · rintro ⟨_, _, ⟨ttl, _, ⟨h1, rfl⟩, cnt, _, ⟨h2, rfl⟩, p, _, ⟨h3, rfl⟩, act, _, ⟨h4, rfl⟩, au, _,
      rfl, rs, _, ⟨h5, rfl⟩, ver, _, ⟨h6, rfl⟩, e, _, ⟨x, hx, rfl⟩, ls, _, ⟨hl, y, hy, rfl⟩, rfl,
      rfl⟩, hs, rfl⟩
    obtain ⟨g1, g2, g3, ⟨n, g4⟩, g5, rfl⟩ := Record.sanitize_ok.mp hs
    simp only at g1 g2 g3 g4 g5
    subst g4
    obtain ⟨rfl, rfl⟩ := isPrefix_net.mp hx
    subst hl
    have hr : (BitVec.ofNat 16 rs).toNat = rs := by
      rw [BitVec.toNat_ofNat, Nat.mod_eq_of_lt h5]
    have key := IsRecord.mk (auth := au) (rsvd := BitVec.ofNat 16 rs) (n := n) h1 h4 h6 h2
      (fun h => by have := (g2 h).2; omega)
      (ipLocator_language.mpr ⟨hy, fun l h => (g5 l h).2⟩) (stableSort_iff.mpr rfl)
    have e : (if ls ≠ [] then (0 : Int) else act) = if ls = [] then (act : Int) else 0 := by
      by_cases hl : ls = [] <;> simp [hl]
    refine ⟨_, by simp only [e]; exact key, ?_⟩
    rw [record_bits, hr]
    simp only [List.append_assoc, List.cons_append]
  · rintro ⟨d, h, rfl⟩
    cases h with
    | @mk ttl act ver au rs n ls ls' d h1 h2 h3 h4 h5 h6 h7 =>
      rw [record_bits]
      simp only [List.append_assoc, List.cons_append]
      obtain ⟨g1, g2⟩ := ipLocator_language.mp h6
      refine ⟨_, _, ⟨_, _, ⟨h1, rfl⟩, _, _, ⟨h4, rfl⟩, _, _, ⟨net_plen_lt n, rfl⟩, _, _, ⟨h2, rfl⟩,
        _, _, rfl, _, _, ⟨rs.isLt, rfl⟩, _, _, ⟨h3, rfl⟩, _, _, ⟨_, .net n, rfl⟩, ls, _,
        ⟨rfl, d, g1, rfl⟩, rfl, rfl⟩, Record.sanitize_ok.mpr ⟨?_, ?_, ?_, ⟨n, rfl⟩, ?_, ?_⟩, rfl⟩
      · dsimp only; omega
      · intro h; have := h5 h; dsimp only; omega
      · dsimp only; omega
      · intro l hl
        obtain ⟨x, hx⟩ := sequence_mem g1 l hl
        exact ⟨isLocator_sanitize hx, g2 l hl⟩
      · rw [stableSort_iff.mp h7, BitVec.ofNat_toNat, BitVec.setWidth_eq]
        by_cases hl : ls = [] <;> simp [hl]

theorem rd_ite_fail {c : Prop} [Decidable c] {x : Rd α} {e : Err} {s : Bits} {p : α × Bits} :
    (if c then Rd.fail e else x) s = .ok p ↔ ¬ c ∧ x s = .ok p := by
  by_cases h : c
  · simp [h, Rd.fail]
  · simp [h]

theorem refRecord_bits (ttl cnt p act : Nat) (a i : Bool) (r : BitVec 11) (ver : Nat) (x d : Bytes) :
    bytesToBits (be32 ttl ++ [byteOf cnt, byteOf p] ++
      be32 (pack [(3, act), flag a, flag i, (11, r.toNat), (4, 0), (12, ver)]) ++ x ++ d) =
    natToBits 32 ttl ++ (natToBits 8 cnt ++ (natToBits 8 p ++ (natToBits 3 act ++ (a :: i ::
      (natToBits 11 r.toNat ++ (natToBits 4 0 ++ (natToBits 12 ver ++
        (bytesToBits x ++ bytesToBits d)))))))) := by
  simp only [bytesToBits_append, bytesToBits_be32, bytesToBits_cons, bytesToBits_nil,
    List.append_nil, List.append_assoc]
  rw [pack_bits 32 _ rfl]
  simp only [List.flatMap_cons, List.flatMap_nil, natToBits_flag, List.append_nil,
    List.append_assoc, List.cons_append, List.nil_append]

theorem referredEid_iff {e e' : Addr} : ReferredEid e e' ↔ wrapEid e = .ok e' := by
  constructor
  · rintro (n | ⟨i, a, m⟩) <;> rfl
  · intro h
    cases e <;> simp only [wrapEid] at h <;> cases h
    · exact .net _
    · exact .inst _ _ _

/-- C69/C23/C24: the Map-Referral record parser; in particular records that announce signatures are
refused. -/
theorem referral_record_language (s rest : Bits) (r : RefRecord) :
    readRefRecord s = .ok (r, rest) ↔ ∃ d, IsRefRecord r d ∧ s = bytesToBits d ++ rest := by
  simp only [readRefRecord, readRefRecordRaw, Rd.bind_ok, Rd.lift_ok_iff, Rd.pure_ok_iff,
    readUint_iff, readBool_iff, readAfi_isPrefix, readN_iff locator_language, rd_ite_fail]
  constructor
  · rintro ⟨_, _, ⟨ttl, _, ⟨h1, rfl⟩, cnt, _, ⟨h2, rfl⟩, p, _, ⟨h3, rfl⟩, act, _, ⟨h4, rfl⟩, au, _,
      rfl, ic, _, rfl, rs, _, ⟨h5, rfl⟩, sc, _, ⟨h6, rfl⟩, ver, _, ⟨h7, rfl⟩, e, _, ⟨x, hx, rfl⟩, ls,
      _, ⟨hl, y, hy, rfl⟩, hsc, rfl, rfl⟩, hs, rfl⟩
    obtain ⟨g1, g2, g3, g4, g5, e', g6, rfl⟩ := RefRecord.sanitize_ok.mp hs
    simp only at g1 g2 g3 g4 g5 g6
    subst hl
    obtain rfl : sc = 0 := by omega
    have hr : (BitVec.ofNat 11 rs).toNat = rs := by
      rw [BitVec.toNat_ofNat, Nat.mod_eq_of_lt h5]
    have key := IsRefRecord.mk (auth := au) (inc := ic) (rsvd := BitVec.ofNat 11 rs) h1 h4 h7 h3 h2
      (ddtRow_iff.mpr ⟨g2, g3⟩) hx (referredEid_iff.mpr g6)
      (ipLocator_language.mpr ⟨hy, fun l h => (g5 l h).2.2⟩) (fun l h => (g5 l h).1)
      (stableSort_iff.mpr rfl)
    refine ⟨_, key, ?_⟩
    rw [refRecord_bits, hr]
    simp only [List.append_assoc, List.cons_append]
  · rintro ⟨d, h, rfl⟩
    cases h with
    | @mk ttl act ver p au ic rs e e' ls ls' x d h1 h2 h3 h4 h5 h6 h7 h8 h9 h10 h11 =>
      rw [refRecord_bits]
      simp only [List.append_assoc, List.cons_append]
      obtain ⟨g1, g2⟩ := ipLocator_language.mp h9
      obtain ⟨t1, t2⟩ := ddtRow_iff.mp h6
      refine ⟨_, _, ⟨_, _, ⟨h1, rfl⟩, _, _, ⟨h5, rfl⟩, _, _, ⟨h4, rfl⟩, _, _, ⟨h2, rfl⟩,
        _, _, rfl, _, _, rfl, _, _, ⟨rs.isLt, rfl⟩, 0, _, ⟨by decide, rfl⟩, _, _, ⟨h3, rfl⟩, _, _,
        ⟨_, h7, rfl⟩, ls, _, ⟨rfl, d, g1, rfl⟩, by simp, rfl, rfl⟩,
        RefRecord.sanitize_ok.mpr ⟨?_, t1, t2, ?_, ?_, e', referredEid_iff.mp h8, ?_⟩, rfl⟩
      · dsimp only; omega
      · dsimp only; omega
      · intro l hl
        obtain ⟨x, hx⟩ := sequence_mem g1 l hl
        exact ⟨h10 l hl, isLocator_sanitize hx, g2 l hl⟩
      · rw [stableSort_iff.mp h11, BitVec.ofNat_toNat, BitVec.setWidth_eq]

/-! ### Messages -/

theorem optRecord_language {b : Bool} {s rest : Bits} {r : Option Record} :
    readOptRecord b s = .ok (r, rest) ↔
      b = r.isSome ∧ ∃ d, IsOptRecord r d ∧ s = bytesToBits d ++ rest := by
  cases b
  · simp only [readOptRecord, Bool.false_eq_true, if_false, Rd.pure_ok_iff]
    constructor
    · rintro ⟨rfl, rfl⟩; exact ⟨rfl, [], .none, rfl⟩
    · rintro ⟨h, d, hd, rfl⟩
      cases hd
      · exact ⟨rfl, rfl⟩
      · cases h
  · simp only [readOptRecord, if_true, Rd.bind_ok, Rd.pure_ok_iff, record_language]
    constructor
    · rintro ⟨r, _, ⟨d, hd, rfl⟩, rfl, rfl⟩; exact ⟨rfl, d, .some hd, rfl⟩
    · rintro ⟨h, d, hd, rfl⟩
      cases hd with
      | none => cases h
      | some hd => exact ⟨_, _, ⟨d, hd, rfl⟩, rfl, rfl⟩

/-- one EID before the check of `sanitize` -/
def IsRawEid (e : Addr) (d : Bytes) : Prop :=
  ∃ (r : Byte) (p : Nat) (x : Bytes), p < 2 ^ 8 ∧ IsPrefix p e x ∧ d = [r, byteOf p] ++ x

theorem eid_bits (r : Byte) (p : Nat) (x : Bytes) : bytesToBits ([r, byteOf p] ++ x) =
    bytesToBits [r] ++ (natToBits 8 p ++ bytesToBits x) := by
  have e : [r, byteOf p] = [r] ++ [byteOf p] := rfl
  rw [e]
  simp only [bytesToBits_append, bytesToBits_cons, bytesToBits_nil, List.append_assoc,
    List.append_nil]

theorem rawEid_language (s rest : Bits) (e : Addr) :
    readEidPrefix s = .ok (e, rest) ↔ ∃ d, IsRawEid e d ∧ s = bytesToBits d ++ rest := by
  simp only [readEidPrefix, Rd.bind_ok, readUint_iff, readBits_iff, readAfi_isPrefix]
  constructor
  · rintro ⟨r, _, ⟨hr, rfl⟩, p, _, ⟨hp, rfl⟩, x, hx, rfl⟩
    obtain ⟨r, rfl⟩ := byte_bits hr
    refine ⟨_, ⟨r, p, x, hp, hx, rfl⟩, ?_⟩
    rw [eid_bits]; simp only [List.append_assoc]
  · rintro ⟨d, ⟨r, p, x, hp, hx, rfl⟩, rfl⟩
    rw [eid_bits]
    simp only [List.append_assoc]
    exact ⟨_, _, ⟨by simp [bytesToBits_length], rfl⟩, p, _, ⟨hp, rfl⟩, x, hx, rfl⟩

theorem isEid_iff {e : Addr} {d : Bytes} :
    IsEid e d ↔ IsRawEid e d ∧ e.getAddresses.all Addr.isIPorNet = true := by
  have hx : ∀ a : Addr, a.isIPorNet = true ↔ ((∃ i, a = .ip i) ∨ ∃ n, a = .net n) := by
    intro a; cases a <;> simp [Addr.isIPorNet]
  rw [List.all_eq_true]
  constructor
  · rintro ⟨r, p, x, l, hp, hx', hc, hl, rfl⟩
    rw [(get_addresses_iff _ _).mpr hc]
    exact ⟨⟨r, p, x, hp, hx', rfl⟩, fun a ha => (hx a).mpr (hl a ha)⟩
  · rintro ⟨⟨r, p, x, hp, hx', rfl⟩, h⟩
    exact ⟨r, p, x, _, hp, hx', (get_addresses_iff _ _).mp rfl, fun a ha => (hx a).mp (h a ha), rfl⟩

theorem sequence_and {P : α → Bytes → Prop} {Q : α → Prop} {R : α → Bytes → Prop}
    (h : ∀ a d, R a d ↔ P a d ∧ Q a) {l : List α} {d : Bytes} :
    Sequence R l d ↔ Sequence P l d ∧ ∀ a ∈ l, Q a := by
  constructor
  · intro hs
    induction hs with
    | nil => exact ⟨.nil, by simp⟩
    | cons ha _ ih =>
      obtain ⟨h1, h2⟩ := (h _ _).mp ha
      refine ⟨.cons h1 ih.1, ?_⟩
      intro a hm
      rcases List.mem_cons.mp hm with rfl | hm
      · exact h2
      · exact ih.2 a hm
  · rintro ⟨hs, hq⟩
    induction hs with
    | nil => exact .nil
    | cons ha _ ih =>
      exact .cons ((h _ _).mpr ⟨ha, hq _ (by simp)⟩) (ih fun a hm => hq a (by simp [hm]))

theorem sequence_ip {l : List Addr} {d : Bytes} :
    (Sequence IsAddr l d ∧ l.all Addr.isIP = true) ↔
    ∃ is : List IP, l = is.map .ip ∧ d = is.flatMap wIP := by
  constructor
  · rintro ⟨h, ha⟩
    induction h with
    | nil => exact ⟨[], rfl, rfl⟩
    | @cons a l d e h1 _ ih =>
      simp only [List.all_cons, Bool.and_eq_true] at ha
      obtain ⟨is, rfl, rfl⟩ := ih ha.2
      cases h1 with
      | ip i => exact ⟨i :: is, rfl, rfl⟩
      | _ => simp [Addr.isIP] at ha
  · rintro ⟨is, rfl, rfl⟩
    induction is with
    | nil => exact ⟨.nil, rfl⟩
    | cons i is ih => exact ⟨.cons (.ip i) ih.1, by simpa [Addr.isIP] using ih.2⟩

theorem sequence_eid {l : List Addr} {d : Bytes} :
    Sequence IsEid l d ↔ Sequence IsRawEid l d ∧
      ∀ e ∈ l, e.getAddresses.all Addr.isIPorNet = true :=
  sequence_and (P := IsRawEid) (Q := fun e => e.getAddresses.all Addr.isIPorNet = true)
    (R := IsEid) (fun _ _ => isEid_iff)

theorem sourceEid_iff {a : Addr} :
    sourceEidOk a = true ↔ (a = .none ∨ ∃ i, Carries a [.ip i]) := by
  simp only [← get_addresses_iff]
  constructor
  · intro h
    unfold sourceEidOk at h
    split at h
    · exact .inl rfl
    · split at h
      · rename_i x hx
        cases x <;> simp [Addr.isIP] at h
        exact .inr ⟨_, hx⟩
      · cases h
  · rintro (rfl | ⟨i, hi⟩)
    · rfl
    · unfold sourceEidOk
      split
      · rfl
      · rw [hi]; rfl

theorem optRecord_fix {r : Option Record} {d : Bytes} (h : IsOptRecord r d) :
    sanitizeOpt r = .ok r := by
  cases h with
  | none => rfl
  | @some r d h =>
    have := readRecord_fix ((record_language (bytesToBits d ++ []) [] r).mpr ⟨d, h, rfl⟩)
    simp only [sanitizeOpt, this, exBind_okl]; rfl

theorem records_fix {l : List Record} {d : Bytes} (h : Sequence IsRecord l d) :
    sanitizeAll Record.sanitize l = .ok l := by
  refine sanitizeAll_fix fun r hr => ?_
  obtain ⟨x, hx⟩ := sequence_mem h r hr
  exact readRecord_fix ((record_language (bytesToBits x ++ []) [] r).mpr ⟨x, hx, rfl⟩)

theorem refRecords_fix {l : List RefRecord} {d : Bytes} (h : Sequence IsRefRecord l d) :
    sanitizeAll RefRecord.sanitize l = .ok l := by
  refine sanitizeAll_fix fun r hr => ?_
  obtain ⟨x, hx⟩ := sequence_mem h r hr
  exact readRefRecord_fix ((referral_record_language (bytesToBits x ++ []) [] r).mpr ⟨x, hx, rfl⟩)

theorem mapRequest_bits (f1 f2 f3 f4 f5 f6 : Bool) (r : BitVec 9) (irc cnt : Nat)
    (a b c d e : Bytes) :
    bytesToBits (be32 (pack [(4, 1), flag f1, flag f2, flag f3, flag f4, flag f5, flag f6,
      (9, r.toNat), (5, irc), (8, cnt)]) ++ a ++ b ++ c ++ d ++ e) =
    natToBits 4 1 ++ (f1 :: f2 :: f3 :: f4 :: f5 :: f6 :: (natToBits 9 r.toNat ++ (natToBits 5 irc ++
      (natToBits 8 cnt ++ (bytesToBits a ++ (bytesToBits b ++ (bytesToBits c ++ (bytesToBits d ++
        bytesToBits e)))))))) := by
  simp only [bytesToBits_append, bytesToBits_be32, List.append_assoc]
  rw [pack_bits 32 _ rfl]
  simp only [List.flatMap_cons, List.flatMap_nil, natToBits_flag, List.append_nil,
    List.append_assoc, List.cons_append, List.nil_append]

theorem mapRequest_language (s rest : Bits) (m : MapRequest) :
    readMapRequest s = .ok (m, rest) ↔ ∃ d, IsMapRequest m d ∧ s = bytesToBits d ++ rest := by
  simp only [readMapRequest, readMapRequestRaw, Rd.bind_ok, Rd.lift_ok_iff, Rd.pure_ok_iff,
    readUint_iff, readBool_iff, readBytes_iff, expectType_iff (show 1 < 16 by decide),
    readAfi_isAddr, readN_iff address_language, readN_iff rawEid_language, optRecord_language]
  constructor
  · rintro ⟨_, _, ⟨_, _, rfl, f1, _, rfl, f2, _, rfl, f3, _, rfl, f4, _, rfl, f5, _, rfl, f6, _, rfl,
      rs, _, ⟨h1, rfl⟩, irc, _, ⟨h2, rfl⟩, cnt, _, ⟨h3, rfl⟩, nonce, _, ⟨h4, rfl⟩, src, _,
      ⟨x, hx, rfl⟩, itrs, _, ⟨hi, y, hy, rfl⟩, eids, _, ⟨he, z, hz, rfl⟩, r, _, ⟨rfl, w, hw, rfl⟩, rfl,
      rfl⟩, hs, rfl⟩
    obtain ⟨g1, g2, g3, g4, g5, g6, r', g7, rfl⟩ := MapRequest.sanitize_ok.mp hs
    simp only at g1 g2 g3 g4 g5 g6 g7
    rw [optRecord_fix hw] at g7
    cases g7
    obtain ⟨is, rfl, rfl⟩ := sequence_ip.mp ⟨hy, g5⟩
    simp only [List.length_map] at hi g1
    have hz' := sequence_eid.mpr ⟨hz, List.all_eq_true.mp g6⟩
    have hr : (BitVec.ofNat 9 rs).toNat = rs := by
      rw [BitVec.toNat_ofNat, Nat.mod_eq_of_lt h1]
    subst he
    refine ⟨_, .mk g3 hx (sourceEid_iff.mp g4) rfl g1.1 g1.2 g2.1 g2.2 hz' hw, ?_⟩
    rw [mapRequest_bits]
    dsimp only
    rw [hr, show is.length - 1 = irc by omega]
    simp only [List.append_assoc, List.cons_append]
  · rintro ⟨d, h, rfl⟩
    cases h with
    | @mk itrs src eids rec h1 h2 h3 h4 h5 h6 h7 h8 h9 h10 =>
      rw [mapRequest_bits]
      simp only [List.append_assoc, List.cons_append]
      obtain ⟨k1, k2⟩ := sequence_eid.mp h9
      obtain ⟨k3, k4⟩ := sequence_ip.mpr ⟨itrs, h4, rfl⟩
      have hl : m.itrRlocs.length = itrs.length := by rw [h4, List.length_map]
      refine ⟨m, _, ⟨(), _, rfl, _, _, rfl, _, _, rfl, _, _, rfl, _, _, rfl, _, _, rfl, _, _, rfl,
        _, _, ⟨m.reserved1.isLt, rfl⟩, _, _, ⟨?_, rfl⟩, _, _, ⟨?_, rfl⟩, _, _, ⟨h1, rfl⟩, _, _,
        ⟨_, h2, rfl⟩, _, _, ⟨?_, _, k3, rfl⟩, _, _, ⟨rfl, _, k1, rfl⟩, _, _, ⟨rfl, _, h10, rfl⟩, ?_,
        rfl⟩, MapRequest.sanitize_ok.mpr ⟨?_, ⟨h7, h8⟩, h1, sourceEid_iff.mpr h3, k4,
          List.all_eq_true.mpr k2, _, optRecord_fix h10, rfl⟩, rfl⟩
      · omega
      · omega
      · omega
      · rw [BitVec.ofNat_toNat, BitVec.setWidth_eq]
      · omega

theorem mapReply_bits (f1 f2 f3 : Bool) (r : BitVec 17) (cnt : Nat) (a b : Bytes) :
    bytesToBits (be32 (pack [(4, 2), flag f1, flag f2, flag f3, (17, r.toNat), (8, cnt)]) ++ a ++ b) =
    natToBits 4 2 ++ (f1 :: f2 :: f3 :: (natToBits 17 r.toNat ++ (natToBits 8 cnt ++
      (bytesToBits a ++ bytesToBits b)))) := by
  simp only [bytesToBits_append, bytesToBits_be32, List.append_assoc]
  rw [pack_bits 32 _ rfl]
  simp only [List.flatMap_cons, List.flatMap_nil, natToBits_flag, List.append_nil,
    List.append_assoc, List.cons_append, List.nil_append]

theorem mapReply_language (s rest : Bits) (m : MapReply) :
    readMapReply s = .ok (m, rest) ↔ ∃ d, IsMapReply m d ∧ s = bytesToBits d ++ rest := by
  simp only [readMapReply, readMapReplyRaw, Rd.bind_ok, Rd.lift_ok_iff, Rd.pure_ok_iff,
    readUint_iff, readBool_iff, readBytes_iff, expectType_iff (show 2 < 16 by decide),
    readN_iff record_language, rd_ite_fail]
  constructor
  · rintro ⟨_, _, ⟨_, _, rfl, f1, _, rfl, f2, _, rfl, f3, _, rfl, rs, _, ⟨h1, rfl⟩, cnt, _, ⟨h3, rfl⟩,
      nonce, _, ⟨h4, rfl⟩, rec, _, ⟨he, z, hz, rfl⟩, hf, rfl, rfl⟩, hs, rfl⟩
    obtain ⟨g1, g2, r', g7, rfl⟩ := MapReply.sanitize_ok.mp hs
    simp only at g1 g2 g7
    rw [records_fix hz] at g7
    cases g7
    have hr : (BitVec.ofNat 17 rs).toNat = rs := by
      rw [BitVec.toNat_ofNat, Nat.mod_eq_of_lt h1]
    subst he
    refine ⟨_, .mk g1 h4 h3 hz, ?_⟩
    rw [mapReply_bits]
    dsimp only
    rw [hr, g1]
    simp only [List.append_assoc, List.cons_append]
  · rintro ⟨d, h, rfl⟩
    cases h with
    | @mk recs h1 h2 h3 h4 =>
      rw [mapReply_bits]
      simp only [List.append_assoc, List.cons_append]
      refine ⟨m, _, ⟨(), _, rfl, _, _, rfl, _, _, rfl, _, _, rfl,
        _, _, ⟨m.reserved1.isLt, rfl⟩, _, _, ⟨h3, rfl⟩, _, _, ⟨h2, rfl⟩, _, _, ⟨rfl, _, h4, rfl⟩,
        by simp, ?_, rfl⟩, MapReply.sanitize_ok.mpr ⟨h1, .inr h2, _, records_fix h4, rfl⟩, rfl⟩
      rw [BitVec.ofNat_toNat, BitVec.setWidth_eq, ← h1]

theorem ids_language {b : Bool} {s rest : Bits} {v : Nat × Nat} :
    readIds b s = .ok (v, rest) ↔
      ∃ d, IsIds b v.1 v.2 d ∧ s = bytesToBits d ++ rest := by
  cases b
  · simp only [readIds, Bool.false_eq_true, if_false, Rd.pure_ok_iff]
    constructor
    · rintro ⟨rfl, rfl⟩; exact ⟨[], .absent, rfl⟩
    · rintro ⟨d, hd, rfl⟩
      obtain ⟨x, y⟩ := v
      generalize hx : ((x, y).1 : Int) = a at hd
      generalize hy : ((x, y).2 : Int) = b at hd
      cases hd
      simp only at hx hy
      obtain rfl : x = 0 := by omega
      obtain rfl : y = 0 := by omega
      exact ⟨rfl, rfl⟩
  · simp only [readIds, if_true, Rd.bind_ok, Rd.pure_ok_iff, readUint_iff]
    constructor
    · rintro ⟨x, _, ⟨hx, rfl⟩, y, _, ⟨hy, rfl⟩, rfl, rfl⟩
      refine ⟨_, .present hx hy, ?_⟩
      rw [bytesToBits_append, bytesToBits_be128, bytesToBits_be64, List.append_assoc]
    · rintro ⟨d, hd, rfl⟩
      obtain ⟨x, y⟩ := v
      generalize hx : ((x, y).1 : Int) = a at hd
      generalize hy : ((x, y).2 : Int) = b at hd
      cases hd with
      | @present x' y' h1 h2 =>
        simp only at hx hy
        obtain rfl : x = x' := by omega
        obtain rfl : y = y' := by omega
        rw [bytesToBits_append, bytesToBits_be128, bytesToBits_be64, List.append_assoc]
        exact ⟨x, _, ⟨h1, rfl⟩, y, _, ⟨h2, rfl⟩, rfl, rfl⟩

theorem isIds_range {b : Bool} {x s : Int} {d : Bytes} (h : IsIds b x s d) :
    (0 ≤ x ∧ x < 2 ^ 128) ∧ (0 ≤ s ∧ s < 2 ^ 64) := by
  cases h with
  | absent => decide
  | present h1 h2 => omega

theorem isIds_toNat {b : Bool} {x s : Int} {d : Bytes} (h : IsIds b x s d) :
    IsIds b (x.toNat : Int) (s.toNat : Int) d := by
  obtain ⟨⟨h1, _⟩, h2, _⟩ := isIds_range h
  rw [Int.toNat_of_nonneg h1, Int.toNat_of_nonneg h2]; exact h

theorem auth_bits (k : Int) (a : Bytes) : bytesToBits (wAuth k a) =
    natToBits 16 k.toNat ++ (natToBits 16 a.length ++ bytesToBits a) := by
  simp only [wAuth, bytesToBits_append, bytesToBits_be16, List.append_assoc]

theorem mapRegister_bits (f1 f2 f3 f4 : Bool) (r1 : BitVec 1) (r2 : BitVec 15) (cnt : Nat) (k : Int)
    (a b c d : Bytes) :
    bytesToBits (be32 (pack [(4, 3), flag f1, (1, r1.toNat), flag f2, flag f3, (15, r2.toNat),
      flag f4, (8, cnt)]) ++ a ++ wAuth k b ++ c ++ d) =
    natToBits 4 3 ++ (f1 :: (natToBits 1 r1.toNat ++ (f2 :: f3 :: (natToBits 15 r2.toNat ++ (f4 ::
      (natToBits 8 cnt ++ (bytesToBits a ++ (natToBits 16 k.toNat ++ (natToBits 16 b.length ++
        (bytesToBits b ++ (bytesToBits c ++ bytesToBits d))))))))))) := by
  simp only [bytesToBits_append, bytesToBits_be32, auth_bits, List.append_assoc]
  rw [pack_bits 32 _ rfl]
  simp only [List.flatMap_cons, List.flatMap_nil, natToBits_flag, List.append_nil,
    List.append_assoc, List.cons_append, List.nil_append]

theorem mapRegister_language (s rest : Bits) (m : MapRegister) :
    readMapRegister s = .ok (m, rest) ↔ ∃ d, IsMapRegister m d ∧ s = bytesToBits d ++ rest := by
  simp only [readMapRegister, readMapRegisterRaw, Rd.bind_ok, Rd.lift_ok_iff, Rd.pure_ok_iff,
    readUint_iff, readBool_iff, readBytes_iff, expectType_iff (show 3 < 16 by decide),
    readN_iff record_language, ids_language]
  constructor
  · rintro ⟨_, _, ⟨_, _, rfl, f1, _, rfl, r1, _, ⟨h1, rfl⟩, f2, _, rfl, f3, _, rfl, r2, _, ⟨h2, rfl⟩,
      f4, _, rfl, cnt, _, ⟨h3, rfl⟩, nonce, _, ⟨h4, rfl⟩, k, _, ⟨h5, rfl⟩, len, _, ⟨h6, rfl⟩, au, _,
      ⟨h7, rfl⟩, rec, _, ⟨he, z, hz, rfl⟩, ids, _, ⟨w, hw, rfl⟩, rfl, rfl⟩, hs, rfl⟩
    obtain ⟨g1, g2, g3, r', g7, rfl⟩ := MapRegister.sanitize_ok.mp hs
    simp only at g1 g2 g3 g7
    rw [records_fix hz] at g7
    cases g7
    have hr1 : (BitVec.ofNat 1 r1).toNat = r1 := by
      rw [BitVec.toNat_ofNat, Nat.mod_eq_of_lt h1]
    have hr2 : (BitVec.ofNat 15 r2).toNat = r2 := by
      rw [BitVec.toNat_ofNat, Nat.mod_eq_of_lt h2]
    subst he
    subst h7
    refine ⟨_, .mk h4 g3 h6 h3 hz hw, ?_⟩
    rw [mapRegister_bits]
    dsimp only
    rw [hr1, hr2]
    simp only [List.append_assoc, List.cons_append, Int.toNat_natCast]
  · rintro ⟨d, h, rfl⟩
    cases h with
    | @mk i recs ids h1 h2 h3 h4 h5 h6 =>
      rw [mapRegister_bits]
      simp only [List.append_assoc, List.cons_append]
      have hk : 0 ≤ m.keyId ∧ m.keyId ≤ 2 := by rcases h2 with h | h | h <;> omega
      obtain ⟨i1, i2⟩ := isIds_range h6
      refine ⟨m, _, ⟨(), _, rfl, _, _, rfl, _, _, ⟨m.reserved1.isLt, rfl⟩, _, _, rfl, _, _, rfl,
        _, _, ⟨m.reserved2.isLt, rfl⟩, _, _, rfl, _, _, ⟨h4, rfl⟩, _, _, ⟨h1, rfl⟩, m.keyId.toNat, _,
        ⟨by omega, rfl⟩, _, _, ⟨h3, rfl⟩, _, _, ⟨rfl, rfl⟩, _, _, ⟨rfl, _, h5, rfl⟩,
        (m.xtrId.toNat, m.siteId.toNat), _, ⟨_, isIds_toNat h6, rfl⟩, ?_, rfl⟩,
        MapRegister.sanitize_ok.mpr ⟨i1, i2, h2, _, records_fix h5, rfl⟩, rfl⟩
      rw [BitVec.ofNat_toNat, BitVec.setWidth_eq, BitVec.ofNat_toNat, BitVec.setWidth_eq,
        Int.toNat_of_nonneg hk.1, Int.toNat_of_nonneg i1.1, Int.toNat_of_nonneg i2.1]

theorem mapNotify_bits (f1 : Bool) (r1 : BitVec 19) (cnt : Nat) (k : Int)
    (a b c d : Bytes) :
    bytesToBits (be32 (pack [(4, 4), flag f1, (19, r1.toNat), (8, cnt)]) ++ a ++ wAuth k b ++ c ++ d) =
    natToBits 4 4 ++ (f1 :: (natToBits 19 r1.toNat ++
      (natToBits 8 cnt ++ (bytesToBits a ++ (natToBits 16 k.toNat ++ (natToBits 16 b.length ++
        (bytesToBits b ++ (bytesToBits c ++ bytesToBits d)))))))) := by
  simp only [bytesToBits_append, bytesToBits_be32, auth_bits, List.append_assoc]
  rw [pack_bits 32 _ rfl]
  simp only [List.flatMap_cons, List.flatMap_nil, natToBits_flag, List.append_nil,
    List.append_assoc, List.cons_append, List.nil_append]

theorem mapNotify_language (s rest : Bits) (m : MapNotify) :
    readMapNotify s = .ok (m, rest) ↔ ∃ d, IsMapNotify m d ∧ s = bytesToBits d ++ rest := by
  simp only [readMapNotify, readMapNotifyRaw, Rd.bind_ok, Rd.lift_ok_iff, Rd.pure_ok_iff,
    readUint_iff, readBool_iff, readBytes_iff, expectType_iff (show 4 < 16 by decide),
    readN_iff record_language, ids_language]
  constructor
  · rintro ⟨_, _, ⟨_, _, rfl, f1, _, rfl, r1, _, ⟨h1, rfl⟩,
      cnt, _, ⟨h3, rfl⟩, nonce, _, ⟨h4, rfl⟩, k, _, ⟨h5, rfl⟩, len, _, ⟨h6, rfl⟩, au, _,
      ⟨h7, rfl⟩, rec, _, ⟨he, z, hz, rfl⟩, ids, _, ⟨w, hw, rfl⟩, rfl, rfl⟩, hs, rfl⟩
    obtain ⟨g1, g2, _, g3, r', g7, rfl⟩ := MapNotify.sanitize_ok.mp hs
    simp only at g1 g2 g3 g7
    rw [records_fix hz] at g7
    cases g7
    have hr1 : (BitVec.ofNat 19 r1).toNat = r1 := by
      rw [BitVec.toNat_ofNat, Nat.mod_eq_of_lt h1]
    subst he
    subst h7
    refine ⟨_, .mk h4 g3 h6 h3 hz hw, ?_⟩
    rw [mapNotify_bits]
    dsimp only
    rw [hr1]
    simp only [List.append_assoc, List.cons_append, Int.toNat_natCast]
  · rintro ⟨d, h, rfl⟩
    cases h with
    | @mk i recs ids h1 h2 h3 h4 h5 h6 =>
      rw [mapNotify_bits]
      simp only [List.append_assoc, List.cons_append]
      have hk : 0 ≤ m.keyId ∧ m.keyId ≤ 2 := by rcases h2 with h | h | h <;> omega
      obtain ⟨i1, i2⟩ := isIds_range h6
      refine ⟨m, _, ⟨(), _, rfl, _, _, rfl, _, _, ⟨m.reserved1.isLt, rfl⟩,
        _, _, ⟨h4, rfl⟩, _, _, ⟨h1, rfl⟩, m.keyId.toNat, _,
        ⟨by omega, rfl⟩, _, _, ⟨h3, rfl⟩, _, _, ⟨rfl, rfl⟩, _, _, ⟨rfl, _, h5, rfl⟩,
        (m.xtrId.toNat, m.siteId.toNat), _, ⟨_, isIds_toNat h6, rfl⟩, ?_, rfl⟩,
        MapNotify.sanitize_ok.mpr ⟨i1, i2, h1, h2, _, records_fix h5, rfl⟩, rfl⟩
      rw [BitVec.ofNat_toNat, BitVec.setWidth_eq,
        Int.toNat_of_nonneg hk.1, Int.toNat_of_nonneg i1.1, Int.toNat_of_nonneg i2.1]

theorem mapReferral_bits (r1 : BitVec 20) (cnt : Nat) (a b : Bytes) :
    bytesToBits (be32 (pack [(4, 6), (20, r1.toNat), (8, cnt)]) ++ a ++ b) =
    natToBits 4 6 ++ (natToBits 20 r1.toNat ++
      (natToBits 8 cnt ++ (bytesToBits a ++ bytesToBits b))) := by
  simp only [bytesToBits_append, bytesToBits_be32, List.append_assoc]
  rw [pack_bits 32 _ rfl]
  simp only [List.flatMap_cons, List.flatMap_nil, List.append_nil,
    List.append_assoc]

theorem mapReferral_language (s rest : Bits) (m : MapReferral) :
    readMapReferral s = .ok (m, rest) ↔ ∃ d, IsMapReferral m d ∧ s = bytesToBits d ++ rest := by
  simp only [readMapReferral, readMapReferralRaw, Rd.bind_ok, Rd.lift_ok_iff, Rd.pure_ok_iff,
    readUint_iff, readBytes_iff, expectType_iff (show 6 < 16 by decide),
    readN_iff referral_record_language]
  constructor
  · rintro ⟨_, _, ⟨_, _, rfl, r1, _, ⟨h1, rfl⟩,
      cnt, _, ⟨h3, rfl⟩, nonce, _, ⟨h4, rfl⟩, rec, _, ⟨he, z, hz, rfl⟩, rfl, rfl⟩, hs, rfl⟩
    obtain ⟨g1, r', g7, rfl⟩ := MapReferral.sanitize_ok.mp hs
    simp only at g1 g7
    rw [refRecords_fix hz] at g7
    cases g7
    have hr1 : (BitVec.ofNat 20 r1).toNat = r1 := by
      rw [BitVec.toNat_ofNat, Nat.mod_eq_of_lt h1]
    subst he
    refine ⟨_, .mk h4 h3 hz, ?_⟩
    rw [mapReferral_bits]
    dsimp only
    rw [hr1]
    simp only [List.append_assoc]
  · rintro ⟨d, h, rfl⟩
    cases h with
    | @mk recs h1 h2 h3 =>
      rw [mapReferral_bits]
      simp only [List.append_assoc]
      refine ⟨m, _, ⟨(), _, rfl, _, _, ⟨m.reserved1.isLt, rfl⟩,
        _, _, ⟨h2, rfl⟩, _, _, ⟨h1, rfl⟩, _, _, ⟨rfl, _, h3, rfl⟩, ?_, rfl⟩,
        MapReferral.sanitize_ok.mpr ⟨h1, _, refRecords_fix h3, rfl⟩, rfl⟩
      rw [BitVec.ofNat_toNat, BitVec.setWidth_eq]

theorem info_bits (f1 : Bool) (r1 : BitVec 27) (r2 : BitVec 8) (k : Int) (ttl p : Nat)
    (a b c d : Bytes) :
    bytesToBits (be32 (pack [(4, 7), flag f1, (27, r1.toNat)]) ++ a ++ wAuth k b ++ be32 ttl ++
      [byteOf r2.toNat, byteOf p] ++ c ++ d) =
    natToBits 4 7 ++ (f1 :: (natToBits 27 r1.toNat ++ (bytesToBits a ++ (natToBits 16 k.toNat ++
      (natToBits 16 b.length ++ (bytesToBits b ++ (natToBits 32 ttl ++ (natToBits 8 r2.toNat ++
        (natToBits 8 p ++ (bytesToBits c ++ bytesToBits d)))))))))) := by
  simp only [bytesToBits_append, bytesToBits_be32, auth_bits, bytesToBits_cons, bytesToBits_nil,
    List.append_nil, List.append_assoc]
  rw [pack_bits 32 _ rfl]
  simp only [List.flatMap_cons, List.flatMap_nil, natToBits_flag, List.append_nil,
    List.append_assoc, List.cons_append, List.nil_append]

theorem replyOk_iff {b : Bool} {a : Addr} : replyOk b a = true ↔
    (b = true ∧ (∃ mp ep g s p rtrs, a = .natT mp ep g s p rtrs) ∨ b = false ∧ a = .none) := by
  cases b <;> cases a <;> simp [replyOk]

theorem infoMsg_language (s rest : Bits) (m : Info) :
    readInfo s = .ok (m, rest) ↔ ∃ d, IsInfo m d ∧ s = bytesToBits d ++ rest := by
  simp only [readInfo, readInfoRaw, Rd.bind_ok, Rd.lift_ok_iff, Rd.pure_ok_iff,
    readUint_iff, readBool_iff, readBytes_iff, expectType_iff (show 7 < 16 by decide),
    readAfi_isAddr, readAfi_isPrefix]
  constructor
  · rintro ⟨_, _, ⟨_, _, rfl, f1, _, rfl, r1, _, ⟨h1, rfl⟩,
      nonce, _, ⟨h4, rfl⟩, k, _, ⟨h5, rfl⟩, len, _, ⟨h6, rfl⟩, au, _,
      ⟨h7, rfl⟩, ttl, _, ⟨h8, rfl⟩, r2, _, ⟨h9, rfl⟩, p, _, ⟨h10, rfl⟩, e, _, ⟨x, hx, rfl⟩, rep, _,
      ⟨y, hy, rfl⟩, rfl, rfl⟩, hs, rfl⟩
    obtain ⟨g1, g2, g3, g4, g5, rfl⟩ := Info.sanitize_ok.mp hs
    simp only at g1 g2 g3 g4 g5
    have hr1 : (BitVec.ofNat 27 r1).toNat = r1 := by
      rw [BitVec.toNat_ofNat, Nat.mod_eq_of_lt h1]
    have hr2 : (BitVec.ofNat 8 r2).toNat = r2 := by
      rw [BitVec.toNat_ofNat, Nat.mod_eq_of_lt h9]
    obtain ⟨n, rfl⟩ : ∃ n, e = .net n := by cases e <;> simp [Addr.isNet] at g4; exact ⟨_, rfl⟩
    obtain ⟨rfl, rfl⟩ := isPrefix_net.mp hx
    subst h7
    refine ⟨_, .mk g1 g2 h6 rfl h8 rfl hy (replyOk_iff.mp g5), ?_⟩
    rw [info_bits]
    dsimp only
    rw [hr1, hr2]
    simp only [List.append_assoc, List.cons_append, Int.toNat_natCast]
  · rintro ⟨d, h, rfl⟩
    cases h with
    | @mk ttl n rep h1 h2 h3 h4 h5 h6 h7 h8 =>
      rw [info_bits]
      simp only [List.append_assoc, List.cons_append]
      have hk : 0 ≤ m.keyId ∧ m.keyId ≤ 2 := by rcases h2 with h | h | h <;> omega
      refine ⟨m, _, ⟨(), _, rfl, _, _, rfl, _, _, ⟨m.reserved1.isLt, rfl⟩,
        _, _, ⟨h1, rfl⟩, m.keyId.toNat, _, ⟨by omega, rfl⟩, _, _, ⟨h3, rfl⟩, _, _, ⟨rfl, rfl⟩, _, _,
        ⟨h5, rfl⟩, _, _, ⟨m.reserved2.isLt, rfl⟩, _, _, ⟨net_plen_lt n, rfl⟩, _, _,
        ⟨_, .net n, rfl⟩, _, _, ⟨_, h7, rfl⟩, ?_, rfl⟩,
        Info.sanitize_ok.mpr ⟨h1, h2, ⟨by omega, by omega⟩, by rw [h6]; rfl, replyOk_iff.mpr h8, rfl⟩,
        rfl⟩
      rw [BitVec.ofNat_toNat, BitVec.setWidth_eq, BitVec.ofNat_toNat, BitVec.setWidth_eq,
        Int.toNat_of_nonneg hk.1, ← h4, ← h6]

/-- C69: `MapRequest.from_bytes` returns a message exactly for the byte strings that start with one
of the denotations of that message; what follows is ignored. -/
theorem map_request_language (d : Bytes) (m : MapRequest) :
    MapRequest.fromBytes d = .ok m ↔ ∃ x junk, IsMapRequest m x ∧ d = x ++ junk :=
  runOn_bytes mapRequest_language

/-- C69: `MapReply.from_bytes`. -/
theorem map_reply_language (d : Bytes) (m : MapReply) :
    MapReply.fromBytes d = .ok m ↔ ∃ x junk, IsMapReply m x ∧ d = x ++ junk :=
  runOn_bytes mapReply_language

/-- C69: `MapRegister.from_bytes`. -/
theorem map_register_language (d : Bytes) (m : MapRegister) :
    MapRegister.fromBytes d = .ok m ↔ ∃ x junk, IsMapRegister m x ∧ d = x ++ junk :=
  runOn_bytes mapRegister_language

/-- C69: `MapNotify.from_bytes`. -/
theorem map_notify_language (d : Bytes) (m : MapNotify) :
    MapNotify.fromBytes d = .ok m ↔ ∃ x junk, IsMapNotify m x ∧ d = x ++ junk :=
  runOn_bytes mapNotify_language

/-- C69: `MapReferral.from_bytes`. -/
theorem map_referral_language (d : Bytes) (m : MapReferral) :
    MapReferral.fromBytes d = .ok m ↔ ∃ x junk, IsMapReferral m x ∧ d = x ++ junk :=
  runOn_bytes mapReferral_language

/-- C69: `InfoMessage.from_bytes`. -/
theorem info_language (d : Bytes) (m : Info) :
    Info.fromBytes d = .ok m ↔ ∃ x junk, IsInfo m x ∧ d = x ++ junk :=
  runOn_bytes infoMsg_language

/-- a (non-encapsulated) control message -/
inductive IsControl : Ctrl → Bytes → Prop
  | request {m : MapRequest} {d : Bytes} : IsMapRequest m d → IsControl (.request m) d
  | reply {m : MapReply} {d : Bytes} : IsMapReply m d → IsControl (.reply m) d
  | register {m : MapRegister} {d : Bytes} : IsMapRegister m d → IsControl (.register m) d
  | notify {m : MapNotify} {d : Bytes} : IsMapNotify m d → IsControl (.notify m) d
  | referral {m : MapReferral} {d : Bytes} : IsMapReferral m d → IsControl (.referral m) d
  | info {m : Info} {d : Bytes} : IsInfo m d → IsControl (.info m) d

/-- C69/C32: `ControlMessage.from_bytes` returns a (non-encapsulated) message exactly for the byte
strings that start with a denotation of it. -/
theorem control_language (d : Bytes) (m : Ctrl) :
    Pkt.fromBytes .control d = .ok (.ctrl m) ↔ ∃ x junk, IsControl m x ∧ d = x ++ junk := by
  have h1 : Pkt.fromBytes .control d = .ok (.ctrl m) ↔ ctrlParsedAs d m :=
    control_dispatch_iff.trans
      ⟨fun h => h.2, fun h => ⟨firstNibble_read.mp (ctrl_first_nibble h), h⟩⟩
  rw [h1]
  cases m with
  | request m =>
    refine (map_request_language d m).trans
      ⟨fun ⟨x, j, h, e⟩ => ⟨x, j, .request h, e⟩, fun ⟨x, j, h, e⟩ => ⟨x, j, ?_, e⟩⟩
    cases h; assumption
  | reply m =>
    refine (map_reply_language d m).trans
      ⟨fun ⟨x, j, h, e⟩ => ⟨x, j, .reply h, e⟩, fun ⟨x, j, h, e⟩ => ⟨x, j, ?_, e⟩⟩
    cases h; assumption
  | register m =>
    refine (map_register_language d m).trans
      ⟨fun ⟨x, j, h, e⟩ => ⟨x, j, .register h, e⟩, fun ⟨x, j, h, e⟩ => ⟨x, j, ?_, e⟩⟩
    cases h; assumption
  | notify m =>
    refine (map_notify_language d m).trans
      ⟨fun ⟨x, j, h, e⟩ => ⟨x, j, .notify h, e⟩, fun ⟨x, j, h, e⟩ => ⟨x, j, ?_, e⟩⟩
    cases h; assumption
  | referral m =>
    refine (map_referral_language d m).trans
      ⟨fun ⟨x, j, h, e⟩ => ⟨x, j, .referral h, e⟩, fun ⟨x, j, h, e⟩ => ⟨x, j, ?_, e⟩⟩
    cases h; assumption
  | info m =>
    refine (info_language d m).trans
      ⟨fun ⟨x, j, h, e⟩ => ⟨x, j, .info h, e⟩, fun ⟨x, j, h, e⟩ => ⟨x, j, ?_, e⟩⟩
    cases h; assumption

/-- C69: the input language is unambiguous: no byte string starts with denotations of two different
messages, or with two different denotations of messages. -/
theorem control_unambiguous {m m' : Ctrl} {x x' j j' : Bytes} (h : IsControl m x)
    (h' : IsControl m' x') (e : x ++ j = x' ++ j') : m = m' ∧ x = x' ∧ j = j' := by
  have hm : m = m' := by
    have a := (control_language (x ++ j) m).mpr ⟨x, j, h, rfl⟩
    have b := (control_language (x' ++ j') m').mpr ⟨x', j', h', rfl⟩
    rw [e, b] at a
    cases a; rfl
  subst hm
  have key : ∀ {α : Type} {r : Rd α} {P : α → Bytes → Prop} {a : α},
      (∀ s rest a, r s = .ok (a, rest) ↔ ∃ d, P a d ∧ s = bytesToBits d ++ rest) → P a x → P a x' →
      j = j' := by
    intro α r P a hr h1 h2
    have e1 := (hr (bytesToBits (x ++ j)) (bytesToBits j) a).mpr ⟨x, h1, bytesToBits_append _ _⟩
    have e2 := (hr (bytesToBits (x' ++ j')) (bytesToBits j') a).mpr ⟨x', h2, bytesToBits_append _ _⟩
    rw [e, e2] at e1
    have := (Prod.mk.inj (Except.ok.inj e1)).2
    exact (bytesToBits_inj this).symm
  have hj : j = j' := by
    cases h <;> rename_i h1 <;> cases h' <;> rename_i h2
    · exact key mapRequest_language h1 h2
    · exact key mapReply_language h1 h2
    · exact key mapRegister_language h1 h2
    · exact key mapNotify_language h1 h2
    · exact key mapReferral_language h1 h2
    · exact key infoMsg_language h1 h2
  subst hj
  exact ⟨rfl, List.append_cancel_right e, rfl⟩

/-! Non-vacuity: things a receiver accepts although no sender writes them -/

-- an instance-ID LCAF with free flags and junk behind its address
example : IsAddr (.inst 7 (.ip (.v4 0xc0000201)) 24)
    (be16 16387 ++ [0xaa, 0xbb, byteOf 2, byteOf 24] ++
      be16 (be32 7 ++ wIP (.v4 0xc0000201) ++ [1, 2, 3]).length ++
      (be32 7 ++ wIP (.v4 0xc0000201) ++ [1, 2, 3])) :=
  .inst (by decide) (.ip _) (.mk 0xaa 0xbb (by decide +kernel) (by decide))

-- a record for 10.1.0.0/16 with two locators in descending order, the undefined action 6 and one byte
-- behind it: received in ascending order with action 0
def exOddRecord : Bytes :=
  [0, 0, 5, 160, 2, 16, 0xc0, 0, 0, 0, 0, 1, 10, 1, 0, 0,
    2, 50, 255, 0, 0, 0, 0, 1, 192, 0, 2, 2,
    1, 100, 255, 0, 0, 1, 0, 1, 192, 0, 2, 1, 99]
def exOddRecord' : Record :=
  { ttl := 1440, action := 0, eid := .net ⟨.v4, 0x0a010000, 16, by decide, by decide, by decide⟩,
    locators := [exLoc1, exLoc2] }

example : ∃ x junk, IsRecord exOddRecord' x ∧ exOddRecord = x ++ junk :=
  (runOn_bytes record_language).mp (by decide +kernel)

-- a referral record with one signature is refused
example (r : RefRecord) (x junk : Bytes) : IsRefRecord r x →
    [0, 0, 5, 160, 0, 16, 0x60, 0, 0x10, 0, 0, 1, 10, 1, 0, 0] ≠ x ++ junk := fun h e => by
  have := (runOn_bytes referral_record_language).mpr ⟨x, junk, h, e⟩
  have hn : isOk (runOn readRefRecord (bytesToBits
    [0, 0, 5, 160, 0, 16, 0x60, 0, 0x10, 0, 0, 1, 10, 1, 0, 0])) = false := by decide +kernel
  rw [this] at hn
  cases hn

end PyLisp.Props
