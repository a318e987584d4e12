import Verif.LispWire
import Verif.Props.Control
import Verif.Props.LispData
/-
C35: the bytes on the wire.  The right-hand sides are the pictures of LispWire.lean.
-/
namespace PyLisp.Props
open PyLisp

attribute [local irreducible] natToBits zeros

/-- the referral records of a message as they are sent: same records in the same order, each
sanitised (C23) -/
def SanitisedRef (l l' : List RefRecord) : Prop :=
  l'.length = l.length ∧ ∀ i (h : i < l.length) (h' : i < l'.length), l[i].sanitize = .ok l'[i]

theorem sanitisedRef_of {l l' : List RefRecord} (h : sanitizeAll RefRecord.sanitize l = .ok l') :
    SanitisedRef l l' := by
  induction l generalizing l' with
  | nil => cases h; exact ⟨rfl, fun i h => absurd h (by simp)⟩
  | cons a l ih =>
    simp only [sanitizeAll, exBind_ok, exPure, Except.ok.injEq] at h
    obtain ⟨a', ha, l'', hl, rfl⟩ := h
    obtain ⟨h1, h2⟩ := ih hl
    refine ⟨by simp [h1], fun i hi hi' => ?_⟩
    match i with
    | 0 => simpa using ha
    | i + 1 => simpa using h2 i (by simpa using hi) (by simpa using hi')

theorem records_bytes {l : List Record} {b : Bits} (h : encAll encRecord l = .ok b)
    (hf : ∀ r ∈ l, r.sanitize = .ok r) : bytesToBits (l.flatMap wRecord) = b :=
  flatMap_bits h fun r hr _ hc => wRecord_enc hc (hf r hr)

/-- C35: an address (plain or LCAF, nested to any depth) is written as its picture. -/
theorem address_bytes (a : Addr) (d : Bytes) (h : toBytes (encAddr a) = .ok d) : d = wAddr a :=
  bytesToBits_inj (wAddr_bits a _ (toBytes_ok.mp h)).symm

/-- C35: so is a locator record, -/
theorem locator_bytes (l : Locator) (d : Bytes) (h : toBytes (encLocator l) = .ok d) :
    d = wLocator l :=
  bytesToBits_inj (wLocator_bits (toBytes_ok.mp h)).symm

/-- C35: a record (after sanitising, C21), -/
theorem record_bytes (r : Record) (d : Bytes) (h : toBytes (encRecord r) = .ok d) :
    ∃ r', r.sanitize = .ok r' ∧ d = wRecord r' := by
  have h := toBytes_ok.mp h
  obtain ⟨r', h1, _⟩ := encRecord_ok h
  exact ⟨r', h1, bytesToBits_inj (wRecord_enc h h1).symm⟩

/-- C35: a Map-Referral record (after sanitising, C23), -/
theorem referral_record_bytes (r : RefRecord) (d : Bytes) (h : toBytes (encRefRecord r) = .ok d) :
    ∃ r', r.sanitize = .ok r' ∧ d = wRefRecord r' := by
  have h := toBytes_ok.mp h
  obtain ⟨r', h1, _⟩ := encRefRecord_ok h
  exact ⟨r', h1, bytesToBits_inj (wRefRecord_enc h h1).symm⟩

theorem eids_bytes {l : List Addr} {b : Bits} (h : encAll encEidPrefix l = .ok b) :
    ∃ ns : List Net, ns.length = l.length ∧ bytesToBits (ns.flatMap wEid) = b ∧
      ∀ i (h : i < l.length) (h' : i < ns.length), Denotes l[i] ns[i] := by
  induction l generalizing b with
  | nil => cases h; exact ⟨[], rfl, rfl, fun i h => absurd h (by simp)⟩
  | cons a l ih =>
    simp only [encAll, exBind_ok, exPure, Except.ok.injEq] at h
    obtain ⟨c, hc, r, hr, rfl⟩ := h
    obtain ⟨ns, g1, g2, g3⟩ := ih hr
    obtain ⟨n, hn, rfl⟩ := encEidPrefix_ok hc
    refine ⟨n :: ns, by simp [g1], ?_, ?_⟩
    · rw [List.flatMap_cons, bytesToBits_append, g2, wEid]
      simp only [bytesToBits_append, bytesToBits_cons, bytesToBits_nil, List.append_nil, wIP_bits,
        List.append_assoc]
    · intro i hi hi'
      match i with
      | 0 => exact (denotes_iff _ _).mpr hn
      | i + 1 => simpa using g3 i (by simpa using hi) (by simpa using hi')

/-- C35: a Map-Request, -/
theorem map_request_bytes (m : MapRequest) (d : Bytes) (h : m.toBytes = .ok d) :
    ∃ (r : Option Record) (ns : List Net), sanitizeOpt m.mapReply = .ok r ∧
      (ns.length = m.eidPrefixes.length ∧
        ∀ i (h : i < m.eidPrefixes.length) (h' : i < ns.length), Denotes m.eidPrefixes[i] ns[i]) ∧
      d = wMapRequest { m with mapReply := r } ns := by
  have h := toBytes_ok.mp h
  obtain ⟨m', h1, h2⟩ := encMapRequest_ok h
  obtain ⟨_, _, _, _, _, _, r, hr, rfl⟩ := MapRequest.sanitize_ok.mp h1
  obtain ⟨_, _, b3, b4, b5, b6, h3, h4, h5, h6, e⟩ := encMapRequestRaw_ok h2
  obtain ⟨ns, g1, g2, g3⟩ := eids_bytes h5
  refine ⟨r, ns, hr, ⟨g1, g3⟩, bytesToBits_inj ?_⟩
  have e4 : bytesToBits (m.itrRlocs.flatMap wAddr) = b4 :=
    flatMap_bits (w := wAddr) h4 fun a _ c hc => wAddr_bits a c hc
  have e6 : bytesToBits (wOptRecord r) = b6 := by
    cases r with
    | none => cases h6; rfl
    | some r =>
      have := sanitizeOpt_idem hr
      simp only [sanitizeOpt, exBind_ok, exPure, Except.ok.injEq, Option.some.injEq] at this
      obtain ⟨r', e1, rfl⟩ := this
      exact wRecord_enc h6 e1
  rw [e]
  simp only [wMapRequest, bytesToBits_append, bytesToBits_be32, wAddr_bits _ _ h3, e4, g2, e6, g1,
    List.append_assoc]
  rw [pack_bits 32 _ rfl]
  simp only [List.flatMap_cons, List.flatMap_nil, natToBits_flag, List.append_nil,
    List.append_assoc, List.cons_append, List.nil_append]

/-- C35: a Map-Reply, -/
theorem map_reply_bytes (m : MapReply) (d : Bytes) (h : m.toBytes = .ok d) :
    ∃ rs, Sanitised m.records rs ∧ d = wMapReply { m with records := rs } := by
  have h := toBytes_ok.mp h
  obtain ⟨m', h1, h2⟩ := encMapReply_ok h
  obtain ⟨_, _, rs, hr, rfl⟩ := MapReply.sanitize_ok.mp h1
  obtain ⟨_, _, b2, h3, e⟩ := encMapReplyRaw_ok h2
  refine ⟨rs, (sanitised_iff _ _).mpr hr, bytesToBits_inj ?_⟩
  have e2 := records_bytes h3 (recs_fix hr)
  rw [e]
  simp only [wMapReply, padNonce, bytesToBits_append, bytesToBits_be32, e2, List.append_assoc]
  rw [pack_bits 32 _ rfl]
  simp only [List.flatMap_cons, List.flatMap_nil, natToBits_flag, List.append_nil,
    List.append_assoc, List.cons_append, List.nil_append]
  rfl

theorem ids_bytes {p : Bool} {x s : Int} {b : Bits} {c : Prop} [Decidable c] (hc : decide c = p)
    (h : encIds p x s = .ok b) :
    bytesToBits (if c then be128 x.toNat ++ be64 s.toNat else []) = b := by
  subst hc
  rcases encIds_ok h with ⟨hp, _, _, rfl⟩ | ⟨hp, rfl⟩
  · rw [if_pos (of_decide_eq_true hp), bytesToBits_append, bytesToBits_be128, bytesToBits_be64]
  · rw [if_neg (of_decide_eq_false hp)]; rfl

/-- C35: a Map-Register, -/
theorem map_register_bytes (m : MapRegister) (d : Bytes) (h : m.toBytes = .ok d) :
    ∃ rs, Sanitised m.records rs ∧ d = wMapRegister { m with records := rs } := by
  have h := toBytes_ok.mp h
  obtain ⟨m', h1, h2⟩ := encMapRegister_ok h
  obtain ⟨_, _, _, rs, hr, rfl⟩ := MapRegister.sanitize_ok.mp h1
  obtain ⟨_, _, _, b4, b5, h4, h5, e⟩ := encMapRegisterRaw_ok h2
  refine ⟨rs, (sanitised_iff _ _).mpr hr, bytesToBits_inj ?_⟩
  have e4 := records_bytes h4 (recs_fix hr)
  have hi : decide (m.xtrId ≠ 0 ∨ m.siteId ≠ 0 ∨ m.forRtr = true) = m.hasIds := by
    simp only [MapRegister.hasIds]
    by_cases h1 : m.xtrId = 0 <;> by_cases h2 : m.siteId = 0 <;> simp [h1, h2]
  have e5' : bytesToBits (if m.xtrId ≠ 0 ∨ m.siteId ≠ 0 ∨ m.forRtr = true then
      be128 m.xtrId.toNat ++ be64 m.siteId.toNat else []) = b5 :=
    ids_bytes hi h5
  rw [e]
  simp only [wMapRegister, wAuth, bytesToBits_append, bytesToBits_be32, bytesToBits_be16, e4, e5',
    List.append_assoc]
  rw [pack_bits 32 _ rfl, hi]
  simp only [List.flatMap_cons, List.flatMap_nil, natToBits_flag, List.append_nil,
    List.append_assoc, List.cons_append, List.nil_append]
  rfl

/-- C35: a Map-Notify, -/
theorem map_notify_bytes (m : MapNotify) (d : Bytes) (h : m.toBytes = .ok d) :
    ∃ rs, Sanitised m.records rs ∧ d = wMapNotify { m with records := rs } := by
  have h := toBytes_ok.mp h
  obtain ⟨m', h1, h2⟩ := encMapNotify_ok h
  obtain ⟨_, _, _, _, rs, hr, rfl⟩ := MapNotify.sanitize_ok.mp h1
  obtain ⟨_, _, _, b4, b5, h4, h5, e⟩ := encMapNotifyRaw_ok h2
  refine ⟨rs, (sanitised_iff _ _).mpr hr, bytesToBits_inj ?_⟩
  have e4 := records_bytes h4 (recs_fix hr)
  have hi : decide (m.xtrId ≠ 0 ∨ m.siteId ≠ 0) = m.hasIds := by
    simp only [MapNotify.hasIds]
    by_cases h1 : m.xtrId = 0 <;> by_cases h2 : m.siteId = 0 <;> simp [h1, h2]
  have e5' : bytesToBits (if m.xtrId ≠ 0 ∨ m.siteId ≠ 0 then
      be128 m.xtrId.toNat ++ be64 m.siteId.toNat else []) = b5 :=
    ids_bytes hi h5
  rw [e]
  simp only [wMapNotify, wAuth, bytesToBits_append, bytesToBits_be32, bytesToBits_be16, e4, e5',
    List.append_assoc]
  rw [pack_bits 32 _ rfl, hi]
  simp only [List.flatMap_cons, List.flatMap_nil, natToBits_flag, List.append_nil,
    List.append_assoc, List.cons_append, List.nil_append]
  rfl

/-- C35: a Map-Referral, -/
theorem map_referral_bytes (m : MapReferral) (d : Bytes) (h : m.toBytes = .ok d) :
    ∃ rs, SanitisedRef m.records rs ∧ d = wMapReferral { m with records := rs } := by
  have h := toBytes_ok.mp h
  obtain ⟨m', h1, h2⟩ := encMapReferral_ok h
  obtain ⟨_, rs, hr, rfl⟩ := MapReferral.sanitize_ok.mp h1
  obtain ⟨_, b2, h3, e⟩ := encMapReferralRaw_ok h2
  refine ⟨rs, sanitisedRef_of hr, bytesToBits_inj ?_⟩
  have e2 : bytesToBits (rs.flatMap wRefRecord) = b2 :=
    flatMap_bits h3 fun r hm _ hc => wRefRecord_enc hc (refs_fix hr r hm)
  rw [e]
  simp only [wMapReferral, bytesToBits_append, bytesToBits_be32, e2, List.append_assoc]
  rw [pack_bits 32 _ rfl]
  simp only [List.flatMap_cons, List.flatMap_nil, List.append_nil, List.append_assoc]

/-- C35: an Info-Request or Info-Reply, -/
theorem info_bytes (m : Info) (d : Bytes) (h : m.toBytes = .ok d) :
    ∃ n, m.eidPrefix = .net n ∧ d = wInfo m n := by
  obtain ⟨h1, h2⟩ := encInfo_ok (toBytes_ok.mp h)
  obtain ⟨_, _, _, h4, _, _⟩ := Info.sanitize_ok.mp h1
  obtain ⟨n, hn⟩ : ∃ n, m.eidPrefix = .net n := by
    cases hm : m.eidPrefix <;> simp_all [Addr.isNet]
  obtain ⟨_, _, _, b6, h6, e⟩ := encInfoRaw_ok h2 hn
  refine ⟨n, hn, bytesToBits_inj ?_⟩
  rw [e]
  simp only [wInfo, wAuth, bytesToBits_append, bytesToBits_be32, bytesToBits_be16,
    bytesToBits_cons, bytesToBits_nil, wIP_bits, wAddr_bits _ _ h6, List.append_nil,
    List.append_assoc]
  rw [pack_bits 32 _ rfl]
  simp only [List.flatMap_cons, List.flatMap_nil, natToBits_flag, List.append_nil,
    List.append_assoc, List.cons_append, List.nil_append]

/-- C35/C31: and an encapsulated control message: type 8, S (always 0) and D flags, 26 reserved bits,
the encapsulated packet. -/
theorem ecm_bytes (h : EcmHdr) (p : Pkt) (d : Bytes) (hd : (Pkt.ecm h p).toBytes = .ok d) :
    ∃ payload, p.toBytes = .ok payload ∧
      d = be32 (pack [(4, 8), flag false, flag h.ddtOriginated, (26, h.reserved1.toNat)]) ++
        payload := by
  obtain ⟨_, payload, hp, e⟩ := ecm_written_iff.mp hd
  refine ⟨payload, hp, bytesToBits_inj ?_⟩
  rw [e]
  simp only [bytesToBits_append, bytesToBits_be32]
  rw [pack_bits 32 _ rfl]
  simp only [List.flatMap_cons, List.flatMap_nil, natToBits_flag, List.append_nil,
    List.append_assoc, List.cons_append, List.nil_append]

/-! Concrete cases: every kind of address, record and message occurs (the messages of Props/Control
and this address all serialise), and the pictures are what one expects. -/

/-- an AFI list with all kinds of LCAF inside -/
def exAllKinds : Addr :=
  .afiList [.none, .null, .inst 17 (.net exNet) 32, .asn 65000 (.ip exIP6),
    .geo true 52 13 30 false 5 20 59 (-3) (.ip (.v4 0xc0000201)),
    .natT 4342 4341 (.ip (.v4 1)) (.ip (.v4 2)) .none [.ip (.v4 3), .ip exIP6]]

example : ∃ d, toBytes (encAddr exAllKinds) = .ok d := isOk_iff.mp (by decide +kernel)

example : wAddr (.geo true 52 13 30 false 5 20 59 (-3) (.ip (.v4 0xc0000201))) =
    [0x40, 0x03, 0, 0, 5, 0, 0, 18, 0x80, 52, 13, 30, 0x00, 5, 20, 59, 0xff, 0xff, 0xff, 0xfd,
     0, 1, 192, 0, 2, 1] := by decide +kernel

example : wAddr (.inst 17 (.net exNet) 32) =
    [0x40, 0x03, 0, 0, 2, 32, 0, 10, 0, 0, 0, 17, 0, 1, 192, 0, 2, 0] := by decide +kernel

example : ∃ d, exRegister.toBytes = .ok d := isOk_iff.mp (by decide +kernel)
example : ∃ d, exRefMsg.toBytes = .ok d := isOk_iff.mp (by decide +kernel)
example : ∃ d, exInfo.toBytes = .ok d := isOk_iff.mp (by decide +kernel)

def exNegative : Record := { ttl := 1440, action := 2, authoritative := true, eid := .net exNet }
def exNegNotify : MapNotify :=
  { nonce := [1, 2, 3, 4, 5, 6, 7, 8], keyId := 1, authData := [0xaa, 0xbb],
    records := [exNegative], xtrId := 5, siteId := 7 }

/-- a Map-Notify with one negative record, byte for byte -/
example : wMapNotify exNegNotify =
    [0x48, 0, 0, 1, 1, 2, 3, 4, 5, 6, 7, 8, 0, 1, 0, 2, 0xaa, 0xbb,
     0, 0, 5, 0xa0, 0, 24, 0x50, 0, 0, 0, 0, 1, 192, 0, 2, 0,
     0, 0, 0, 0, 0, 0, 0, 0, 0, 0, 0, 0, 0, 0, 0, 5, 0, 0, 0, 0, 0, 0, 0, 7] := by decide +kernel

end PyLisp.Props
