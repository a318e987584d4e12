import Verif.Wire
import Verif.Props.Records
/-
C25–C30, C33–C35 and the control-message part of C07.
`X.toBytes m` models `m.to_bytes()`, `X.fromBytes d` models `X.from_bytes(d)` on a byte string.
-/
namespace PyLisp.Props
open PyLisp

/-! ### Specification vocabulary -/

/-- the address denotes the network: it is that network, the address whose host network it is, or
one of those wrapped in instance id 0 -/
inductive Denotes : Addr → Net → Prop
  | net (n : Net) : Denotes (.net n) n
  | ip (a : IP) (n : Net) (hv : n.ver = a.ver) (hb : n.base = a.val) (hp : n.plen = a.ver.width) :
      Denotes (.ip a) n
  | inst (a : Addr) (m : Int) (n : Net) (h : Denotes a n) : Denotes (.inst 0 a m) n

theorem denotes_iff : ∀ (a : Addr) (n : Net), Denotes a n ↔ a.toNetwork = .ok n
  | .ip a, n => by
    simp only [Addr.toNetwork, Except.ok.injEq]
    constructor
    · intro h; cases h with
      | ip _ _ hv hb hp => exact Net.ext' hv.symm hb.symm hp.symm
    · rintro rfl; exact .ip _ _ rfl rfl rfl
  | .net n', n => by
    simp only [Addr.toNetwork, Except.ok.injEq]
    constructor
    · intro h; cases h; rfl
    · rintro rfl; exact .net _
  | .inst i a m, n => by
    simp only [Addr.toNetwork]
    constructor
    · intro h; cases h with
      | inst _ _ _ h => simpa using (denotes_iff a n).mp h
    · intro h
      split at h
      · rename_i hi; subst hi; exact .inst _ _ _ ((denotes_iff a n).mpr h)
      · cases h
  | .none, n | .null, n | .afiList _, n | .asn _ _, n | .geo .., n | .natT .., n => by
    constructor
    · intro h; cases h
    · intro h; cases h

/-- the records of a message as the receiver sees them: same records in the same order, each
sanitised (see C21) -/
def Sanitised (l l' : List Record) : Prop :=
  l'.length = l.length ∧ ∀ i (h : i < l.length) (h' : i < l'.length), l[i].sanitize = .ok l'[i]

theorem sanitised_iff (l l' : List Record) :
    Sanitised l l' ↔ sanitizeAll Record.sanitize l = .ok l' := by
  induction l generalizing l' with
  | nil =>
    constructor
    · rintro ⟨h, _⟩; simp [sanitizeAll, List.length_eq_zero_iff.mp h]
    · intro h; simp [sanitizeAll] at h; subst h; exact ⟨rfl, fun i h => absurd h (by simp)⟩
  | cons a l ih =>
    simp only [sanitizeAll, exBind_ok, exPure, Except.ok.injEq]
    constructor
    · rintro ⟨h1, h2⟩
      match l' with
      | [] => simp at h1
      | a' :: l' =>
        refine ⟨a', h2 0 (by simp) (by simp), l', (ih l').mp ⟨by simpa using h1, ?_⟩, rfl⟩
        intro i h h'
        have := h2 (i + 1) (by simp; omega) (by simp; omega)
        simpa using this
    · rintro ⟨a', ha, l'', hl, rfl⟩
      obtain ⟨h1, h2⟩ := (ih l'').mpr hl
      refine ⟨by simp [h1], ?_⟩
      intro i h h'
      match i with
      | 0 => simpa using ha
      | i + 1 => simpa using h2 i (by simpa using h) (by simpa using h')

theorem sanitised_self (l : List Record) (h : ∀ r ∈ l, r.sanitize = .ok r) : Sanitised l l :=
  (sanitised_iff _ _).mpr (sanitizeAll_fix h)

/-! ### C25 Map-Request -/

/-- C25: a Map-Request that serialises is read back with the same flags, nonce, ITR-RLOCs and
record; the EID prefixes come back as the networks they denote. -/
theorem map_request_round_trip (m : MapRequest) (d : Bytes) (h : m.toBytes = .ok d) :
    ∃ (r : Option Record) (ns : List Net), sanitizeOpt m.mapReply = .ok r ∧
      (ns.length = m.eidPrefixes.length ∧
        ∀ i (h : i < m.eidPrefixes.length) (h' : i < ns.length), Denotes m.eidPrefixes[i] ns[i]) ∧
      MapRequest.fromBytes d = .ok { m with
        sourceEid := m.sourceEid.strip, eidPrefixes := ns.map .net, mapReply := r } := by
  have h := toBytes_ok.mp h
  obtain ⟨m', h1, h2⟩ := encMapRequest_ok h
  obtain ⟨_, _, _, _, _, _, r, hr, rfl⟩ := MapRequest.sanitize_ok.mp h1
  obtain ⟨_, _, _, _, b5, _, _, _, h5, _, _⟩ := encMapRequestRaw_ok h2
  have hd : ∀ a ∈ m.eidPrefixes, ∃ n, a.toNetwork = .ok n := fun a ha => by
    obtain ⟨b, hb⟩ := encAll_ok_mem h5 a ha
    obtain ⟨n, hn, _⟩ := encEidPrefix_ok hb
    exact ⟨n, hn⟩
  have key : ∀ l : List Addr, (∀ a ∈ l, ∃ n, a.toNetwork = .ok n) →
      ∃ ns : List Net, ns.length = l.length ∧ l.map eidOnWire = ns.map .net ∧
        ∀ i (h : i < l.length) (h' : i < ns.length), Denotes l[i] ns[i] := by
    intro l
    induction l with
    | nil => intro _; exact ⟨[], rfl, rfl, fun i h => absurd h (by simp)⟩
    | cons a l ih =>
      intro hl
      obtain ⟨ns, g1, g2, g3⟩ := ih fun a ha => hl a (by simp [ha])
      obtain ⟨n, hn⟩ := hl a (by simp)
      refine ⟨n :: ns, by simp [g1], by simp [g2, toNetwork_isNet hn], ?_⟩
      intro i hi hi'
      match i with
      | 0 => exact (denotes_iff _ _).mpr hn
      | i + 1 => simpa using g3 i (by simpa using hi) (by simpa using hi')
  obtain ⟨ns, g1, g2, g3⟩ := key m.eidPrefixes hd
  refine ⟨r, ns, hr, ⟨g1, g3⟩, ?_⟩
  rw [← g2]
  exact runOn_enc fun t => readMapRequest_enc h h1 t

/-- C25: when the EID prefixes are networks, the source EID contains no network and the record (if
any) is sanitised, the very same message comes back. -/
theorem map_request_round_trip_exact (m : MapRequest) (d : Bytes) (h : m.toBytes = .ok d)
    (hs : noNet m.sourceEid = true) (he : ∀ a ∈ m.eidPrefixes, ∃ n, a = .net n)
    (hr : ∀ r, m.mapReply = some r → r.sanitize = .ok r) : MapRequest.fromBytes d = .ok m := by
  have h := toBytes_ok.mp h
  obtain ⟨m', h1, h2⟩ := encMapRequest_ok h
  have hfix : m' = m := by
    obtain ⟨_, _, _, _, _, _, r, hr', rfl⟩ := MapRequest.sanitize_ok.mp h1
    have : r = m.mapReply := by
      cases hm : m.mapReply with
      | none => rw [hm] at hr'; cases hr'; rfl
      | some x => rw [hm] at hr'; simp [sanitizeOpt, hr x hm] at hr'; exact hr'.symm
    rw [this]
  have := runOn_enc fun t => readMapRequest_enc h h1 t
  rw [hfix] at this
  rw [MapRequest.fromBytes, this]
  have e1 : m.eidPrefixes.map eidOnWire = m.eidPrefixes := by
    conv => rhs; rw [← List.map_id m.eidPrefixes]
    apply List.map_congr_left
    intro a ha
    obtain ⟨n, rfl⟩ := he a ha
    rfl
  rw [MapRequest.onWire, strip_of_noNet _ hs, e1]

theorem source_eid_iff (a : Addr) : sourceEidOk a = true ↔ a = .none ∨ ∃ i, Carries a [.ip i] := by
  rw [sourceEidOk_iff]; simp only [get_addresses_iff]

/-- C25: a Map-Request serialises exactly when it has 1–32 ITR-RLOCs, all of them addresses, 1–32
EID prefixes each denoting a network, an 8-byte nonce, a source EID that is absent or carries one
address and can be written, and a record (if any) that can be written. -/
theorem map_request_writable_iff (m : MapRequest) : (∃ d, m.toBytes = .ok d) ↔
    (1 ≤ m.itrRlocs.length ∧ m.itrRlocs.length ≤ 32 ∧ ∀ a ∈ m.itrRlocs, ∃ i, a = .ip i) ∧
    (1 ≤ m.eidPrefixes.length ∧ m.eidPrefixes.length ≤ 32 ∧ ∀ a ∈ m.eidPrefixes, ∃ n, Denotes a n) ∧
    m.nonce.length = 8 ∧
    ((m.sourceEid = .none ∨ ∃ i, Carries m.sourceEid [.ip i]) ∧
      ∃ b, encAddr m.sourceEid = .ok b) ∧
    (∀ r, m.mapReply = some r → ∃ b, encRecord r = .ok b) := by
  constructor
  · rintro ⟨d, h⟩
    have h := toBytes_ok.mp h
    obtain ⟨m', h1, h2⟩ := encMapRequest_ok h
    obtain ⟨a1, a2, a3, a4, a5, _, r, hr, rfl⟩ := MapRequest.sanitize_ok.mp h1
    obtain ⟨_, _, b3, _, b5, b6, h3, _, h5, h6, _⟩ := encMapRequestRaw_ok h2
    refine ⟨⟨a1.1, a1.2, ?_⟩, ⟨a2.1, a2.2, ?_⟩, a3, ⟨(source_eid_iff _).mp a4, b3, h3⟩, ?_⟩
    · intro a ha
      have := List.all_eq_true.mp a5 a ha
      cases a <;> simp [Addr.isIP] at this ⊢
    · intro a ha
      obtain ⟨b, hb⟩ := encAll_ok_mem h5 a ha
      obtain ⟨n, hn, _⟩ := encEidPrefix_ok hb
      exact ⟨n, (denotes_iff _ _).mpr hn⟩
    · intro x hx
      simp only [hx, sanitizeOpt, exBind_ok, exPure, Except.ok.injEq] at hr
      obtain ⟨x', h7, rfl⟩ := hr
      refine ⟨b6, ?_⟩
      have h6 : encRecord x' = .ok b6 := h6
      rw [encRecord, Record.sanitize_idem h7] at h6
      rw [encRecord, h7]; exact h6
  · rintro ⟨⟨a1, a2, a3⟩, ⟨b1, b2, b3⟩, c, ⟨d1, eb, d2⟩, e⟩
    have hr : ∃ r b, sanitizeOpt m.mapReply = .ok r ∧ encOptRecord r = .ok b := by
      cases hm : m.mapReply with
      | none => exact ⟨_, _, rfl, rfl⟩
      | some x =>
        obtain ⟨b, hb⟩ := e x hm
        simp only [encRecord, exBind_ok] at hb
        obtain ⟨x', h1, h2⟩ := hb
        refine ⟨some x', b, by simp [sanitizeOpt, h1], ?_⟩
        simp only [encOptRecord, encRecord, Record.sanitize_idem h1]; exact h2
    obtain ⟨r, br, hr1, hr2⟩ := hr
    have hsan : m.sanitize = .ok { m with mapReply := r } := by
      refine MapRequest.sanitize_ok.mpr ⟨⟨a1, a2⟩, ⟨b1, b2⟩, c, (source_eid_iff _).mpr d1, ?_, ?_, r, hr1, rfl⟩
      · rw [List.all_eq_true]; intro a ha; obtain ⟨i, rfl⟩ := a3 a ha; rfl
      · rw [List.all_eq_true]; intro a ha
        obtain ⟨n, hn⟩ := b3 a ha
        rw [List.all_eq_true]
        have key : ∀ a n, Denotes a n → ∀ x ∈ a.getAddresses, x.isIPorNet = true := by
          intro a n h
          induction h with
          | net n => intro x hx; simp [Addr.getAddresses] at hx; subst hx; rfl
          | ip a n _ _ _ => intro x hx; simp [Addr.getAddresses] at hx; subst hx; rfl
          | inst a m n h ih => intro x hx; exact ih x (by simpa [Addr.getAddresses] using hx)
        exact key a n hn
    obtain ⟨x4, h4⟩ := (encAll_ok_iff (e := encAddr) m.itrRlocs).mpr fun a ha => by
      obtain ⟨i, rfl⟩ := a3 a ha; exact ⟨_, rfl⟩
    obtain ⟨x5, h5⟩ := (encAll_ok_iff (e := encEidPrefix) m.eidPrefixes).mpr fun a ha => by
      obtain ⟨n, hn⟩ := b3 a ha
      have hp := n.plen_lt_256
      simp only [encEidPrefix, (denotes_iff _ _).mp hn, exBind_okl]
      rw [encUint_eq_ok (by omega) (by omega)]
      exact ⟨_, rfl⟩
    have henc : ∃ b, encMapRequest m = .ok b := by
      simp only [encMapRequest, hsan, exBind_okl, encMapRequestRaw, d2, h4, h5, hr2]
      rw [encUint_eq_ok (by omega) (by omega), encUint_eq_ok (by omega) (by omega)]
      exact ⟨_, rfl⟩
    obtain ⟨b, hb⟩ := henc
    exact toBytes_of_len8 hb (encMapRequest_len8 hb)

/-- C33: no truncated Map-Request is accepted. -/
theorem map_request_no_truncation (m m' : MapRequest) (d pre cut : Bytes) (h : m.toBytes = .ok d)
    (hd : d = pre ++ cut) (hc : cut ≠ []) : MapRequest.fromBytes pre ≠ .ok m' := by
  have h := toBytes_ok.mp h
  obtain ⟨_, h1, _⟩ := encMapRequest_ok h
  exact Loc.readMapRequest.no_short_bytes (fun t => readMapRequest_enc h h1 t) hd hc m'

/-- C34: re-serialising an accepted Map-Request and parsing that gives the same message, up to EID
prefixes that were received as LCAF with instance id 0 and come back as plain networks. -/
theorem map_request_stable (d d' : Bytes) (m : MapRequest) (h : MapRequest.fromBytes d = .ok m)
    (h' : m.toBytes = .ok d') : ∃ ns : List Net, (ns.length = m.eidPrefixes.length ∧
        ∀ i (h : i < m.eidPrefixes.length) (h' : i < ns.length), Denotes m.eidPrefixes[i] ns[i]) ∧
      MapRequest.fromBytes d' = .ok { m with eidPrefixes := ns.map .net } := by
  obtain ⟨rest, hr⟩ := runOn_iff.mp h
  obtain ⟨r, ns, h1, h2, h3⟩ := map_request_round_trip m d' h'
  obtain ⟨_, _, _, _, _, _, r', h4, h5⟩ := MapRequest.sanitize_ok.mp (readMapRequest_fix hr)
  rw [h1] at h4; cases h4
  have e : r = m.mapReply := by
    have := congrArg MapRequest.mapReply h5; exact this.symm
  rw [readMapRequest_strip hr, e] at h3
  exact ⟨ns, h2, h3⟩

/-- C34: in particular, when the EID prefixes received were plain networks, nothing changes. -/
theorem map_request_stable_exact (d d' : Bytes) (m : MapRequest)
    (h : MapRequest.fromBytes d = .ok m) (he : ∀ a ∈ m.eidPrefixes, ∃ n, a = .net n)
    (h' : m.toBytes = .ok d') : MapRequest.fromBytes d' = .ok m := by
  obtain ⟨ns, ⟨h1, h2⟩, h3⟩ := map_request_stable d d' m h h'
  rw [h3]
  have : ns.map .net = m.eidPrefixes := by
    apply List.ext_getElem (by simp [h1])
    intro i hi hi'
    have hd := h2 i hi' (by simpa using hi)
    obtain ⟨n, hn⟩ := he _ (List.getElem_mem hi')
    rw [hn] at hd ⊢
    cases hd
    simp
  rw [this]

/-! ### C26 Map-Reply -/

/-- C26: a Map-Reply that serialises is read back with the same flags, its records sanitised and
its nonce left-padded with zero bytes to 8 bytes. -/
theorem map_reply_round_trip (m : MapReply) (d : Bytes) (h : m.toBytes = .ok d) :
    ∃ rs, Sanitised m.records rs ∧ MapReply.fromBytes d = .ok { m with
      records := rs, nonce := List.replicate (8 - m.nonce.length) 0 ++ m.nonce } := by
  have h := toBytes_ok.mp h
  obtain ⟨m', h1, h2⟩ := encMapReply_ok h
  have := runOn_enc fun t => readMapReply_enc h h1 t
  obtain ⟨_, _, rs, hr, rfl⟩ := MapReply.sanitize_ok.mp h1
  exact ⟨rs, (sanitised_iff _ _).mpr hr, this⟩

/-- C26: with an 8-byte nonce and sanitised records the very same message comes back. -/
theorem map_reply_round_trip_exact (m : MapReply) (d : Bytes) (h : m.toBytes = .ok d)
    (hn : m.nonce.length = 8) (hr : ∀ r ∈ m.records, r.sanitize = .ok r) :
    MapReply.fromBytes d = .ok m := by
  obtain ⟨rs, h1, h2⟩ := map_reply_round_trip m d h
  rw [sanitised_iff, sanitizeAll_fix hr] at h1
  cases h1
  rw [h2, hn]; simp

/-- C26: a Map-Reply serialises exactly when security is off, the nonce has 3 or 8 bytes and there
are at most 255 records, each of which can be written. -/
theorem map_reply_writable_iff (m : MapReply) : (∃ d, m.toBytes = .ok d) ↔
    m.security = false ∧ (m.nonce.length = 3 ∨ m.nonce.length = 8) ∧ m.records.length ≤ 255 ∧
    ∀ r ∈ m.records, ∃ b, encRecord r = .ok b := by
  rw [← records_enc_iff]
  constructor
  · rintro ⟨d, h⟩
    have h := toBytes_ok.mp h
    obtain ⟨m', h1, h2⟩ := encMapReply_ok h
    obtain ⟨a1, a2, rs, hr, rfl⟩ := MapReply.sanitize_ok.mp h1
    obtain ⟨c1, _, b2, h3, _⟩ := encMapReplyRaw_ok h2
    have hl : rs.length = m.records.length := sanitizeAll_length hr
    have c1 : rs.length < 256 := c1
    exact ⟨a1, a2, by omega, rs, b2, hr, h3⟩
  · rintro ⟨a1, a2, a3, rs, b, hr, hb⟩
    have hsan := MapReply.sanitize_ok.mpr ⟨a1, a2, rs, hr, rfl⟩
    have hl : rs.length = m.records.length := sanitizeAll_length hr
    have henc : ∃ b, encMapReply m = .ok b := by
      simp only [encMapReply, hsan, exBind_okl, encMapReplyRaw, hb, a1]
      rw [encUint_eq_ok (by omega) (by omega)]
      exact ⟨_, rfl⟩
    obtain ⟨b, hb⟩ := henc
    exact toBytes_of_len8 hb (encMapReply_len8 hb)

/-- C33: no truncated Map-Reply is accepted. -/
theorem map_reply_no_truncation (m m' : MapReply) (d pre cut : Bytes) (h : m.toBytes = .ok d)
    (hd : d = pre ++ cut) (hc : cut ≠ []) : MapReply.fromBytes pre ≠ .ok m' := by
  have h := toBytes_ok.mp h
  obtain ⟨_, h1, _⟩ := encMapReply_ok h
  exact Loc.readMapReply.no_short_bytes (fun t => readMapReply_enc h h1 t) hd hc m'

/-- C34: an accepted Map-Reply that can be serialised again is stable. -/
theorem map_reply_stable (d d' : Bytes) (m : MapReply) (h : MapReply.fromBytes d = .ok m)
    (h' : m.toBytes = .ok d') : MapReply.fromBytes d' = .ok m := by
  obtain ⟨rest, hr⟩ := runOn_iff.mp h
  exact map_reply_round_trip_exact m d' h' (readMapReply_nonce hr)
    (MapReply.fix_records (readMapReply_fix hr))

/-! ### C27 Map-Register -/

/-- C27: a Map-Register with an 8-byte nonce that serialises is read back unchanged apart from its
records being sanitised. -/
theorem map_register_round_trip (m : MapRegister) (d : Bytes) (h : m.toBytes = .ok d)
    (hn : m.nonce.length = 8) :
    ∃ rs, Sanitised m.records rs ∧ MapRegister.fromBytes d = .ok { m with records := rs } := by
  have h := toBytes_ok.mp h
  obtain ⟨m', h1, h2⟩ := encMapRegister_ok h
  have := runOn_enc fun t => readMapRegister_enc h hn h1 t
  obtain ⟨_, _, _, rs, hr, rfl⟩ := MapRegister.sanitize_ok.mp h1
  exact ⟨rs, (sanitised_iff _ _).mpr hr, this⟩

/-- C27: with sanitised records the very same message comes back. -/
theorem map_register_round_trip_exact (m : MapRegister) (d : Bytes) (h : m.toBytes = .ok d)
    (hn : m.nonce.length = 8) (hr : ∀ r ∈ m.records, r.sanitize = .ok r) :
    MapRegister.fromBytes d = .ok m := by
  obtain ⟨rs, h1, h2⟩ := map_register_round_trip m d h hn
  rw [sanitised_iff, sanitizeAll_fix hr] at h1
  cases h1
  exact h2

/-- C27: a Map-Register serialises exactly when its ids and key id are in range, there is
authentication data, shorter than 65536 bytes, and there are at most 255 records, each of which can be written.
(The length of the nonce is not checked by the code.) -/
theorem map_register_writable_iff (m : MapRegister) : (∃ d, m.toBytes = .ok d) ↔
    (0 ≤ m.xtrId ∧ m.xtrId < 2 ^ 128) ∧ (0 ≤ m.siteId ∧ m.siteId < 2 ^ 64) ∧
    (m.keyId = 0 ∨ m.keyId = 1 ∨ m.keyId = 2) ∧
    (m.authData ≠ [] ∧ m.authData.length < 2 ^ 16) ∧ m.records.length ≤ 255 ∧ ∀ r ∈ m.records, ∃ b, encRecord r = .ok b := by
  rw [← records_enc_iff]
  constructor
  · rintro ⟨d, h⟩
    have h := toBytes_ok.mp h
    obtain ⟨m', h1, h2⟩ := encMapRegister_ok h
    obtain ⟨a1, a2, a3, rs, hr, rfl⟩ := MapRegister.sanitize_ok.mp h1
    obtain ⟨c1, _, c2, b2, b5, h3, _⟩ := encMapRegisterRaw_ok h2
    have hl : rs.length = m.records.length := sanitizeAll_length hr
    have c1 : rs.length < 256 := c1
    exact ⟨a1, a2, a3, c2, by omega, rs, b2, hr, h3⟩
  · rintro ⟨a1, a2, a3, a4, a5, rs, b, hr, hb⟩
    have hsan := MapRegister.sanitize_ok.mpr ⟨a1, a2, a3, rs, hr, rfl⟩
    have hl : rs.length = m.records.length := sanitizeAll_length hr
    have hids : ∀ p, ∃ b, encIds p m.xtrId m.siteId = .ok b := by
      intro p
      cases p with
      | false => exact ⟨_, rfl⟩
      | true =>
        simp only [encIds, if_true]
        rw [encUint_eq_ok a1.1 a1.2, encUint_eq_ok a2.1 a2.2]
        exact ⟨_, rfl⟩
    have henc : ∃ b, encMapRegister m = .ok b := by
      obtain ⟨bi, hi⟩ := hids ({ m with records := rs } : MapRegister).hasIds
      simp only [encMapRegister, hsan, exBind_okl, encMapRegisterRaw, hb, hi, encHex, if_neg a4.1]
      have a4 := a4.2
      rw [encUint_eq_ok (by omega) (by omega), encUint_eq_ok (by omega) (by omega),
        encUint_eq_ok (by omega) (by omega)]
      exact ⟨_, rfl⟩
    obtain ⟨b, hb⟩ := henc
    exact toBytes_of_len8 hb (encMapRegister_len8 hb)

/-- C33: no truncated Map-Register is accepted. -/
theorem map_register_no_truncation (m m' : MapRegister) (d pre cut : Bytes) (h : m.toBytes = .ok d)
    (hn : m.nonce.length = 8)
    (hd : d = pre ++ cut) (hc : cut ≠ []) : MapRegister.fromBytes pre ≠ .ok m' := by
  have h := toBytes_ok.mp h
  obtain ⟨_, h1, _⟩ := encMapRegister_ok h
  exact Loc.readMapRegister.no_short_bytes (fun t => readMapRegister_enc h hn h1 t) hd hc m'

/-- C34: an accepted Map-Register that can be serialised again is stable. -/
theorem map_register_stable (d d' : Bytes) (m : MapRegister) (h : MapRegister.fromBytes d = .ok m)
    (h' : m.toBytes = .ok d') : MapRegister.fromBytes d' = .ok m := by
  obtain ⟨rest, hr⟩ := runOn_iff.mp h
  exact map_register_round_trip_exact m d' h' (readMapRegister_nonce hr)
    (MapRegister.fix_records (readMapRegister_fix hr))

/-! ### C28 Map-Notify -/

/-- C28: a Map-Notify that serialises is read back unchanged apart from its records being
sanitised. -/
theorem map_notify_round_trip (m : MapNotify) (d : Bytes) (h : m.toBytes = .ok d) :
    ∃ rs, Sanitised m.records rs ∧ MapNotify.fromBytes d = .ok { m with records := rs } := by
  have h := toBytes_ok.mp h
  obtain ⟨m', h1, h2⟩ := encMapNotify_ok h
  have := runOn_enc fun t => readMapNotify_enc h h1 t
  obtain ⟨_, _, _, _, rs, hr, rfl⟩ := MapNotify.sanitize_ok.mp h1
  exact ⟨rs, (sanitised_iff _ _).mpr hr, this⟩

/-- C28: with sanitised records the very same message comes back. -/
theorem map_notify_round_trip_exact (m : MapNotify) (d : Bytes) (h : m.toBytes = .ok d)
    (hr : ∀ r ∈ m.records, r.sanitize = .ok r) : MapNotify.fromBytes d = .ok m := by
  obtain ⟨rs, h1, h2⟩ := map_notify_round_trip m d h
  rw [sanitised_iff, sanitizeAll_fix hr] at h1
  cases h1
  exact h2

/-- C28: a Map-Notify serialises exactly when its ids and key id are in range, its nonce has 8
bytes, there is authentication data, shorter than 65536 bytes, and there are at most 255 records, each
of which can be written. -/
theorem map_notify_writable_iff (m : MapNotify) : (∃ d, m.toBytes = .ok d) ↔
    (0 ≤ m.xtrId ∧ m.xtrId < 2 ^ 128) ∧ (0 ≤ m.siteId ∧ m.siteId < 2 ^ 64) ∧ m.nonce.length = 8 ∧
    (m.keyId = 0 ∨ m.keyId = 1 ∨ m.keyId = 2) ∧
    (m.authData ≠ [] ∧ m.authData.length < 2 ^ 16) ∧ m.records.length ≤ 255 ∧ ∀ r ∈ m.records, ∃ b, encRecord r = .ok b := by
  rw [← records_enc_iff]
  constructor
  · rintro ⟨d, h⟩
    have h := toBytes_ok.mp h
    obtain ⟨m', h1, h2⟩ := encMapNotify_ok h
    obtain ⟨a1, a2, a0, a3, rs, hr, rfl⟩ := MapNotify.sanitize_ok.mp h1
    obtain ⟨c1, _, c2, b2, b5, h3, _⟩ := encMapNotifyRaw_ok h2
    have hl : rs.length = m.records.length := sanitizeAll_length hr
    have c1 : rs.length < 256 := c1
    exact ⟨a1, a2, a0, a3, c2, by omega, rs, b2, hr, h3⟩
  · rintro ⟨a1, a2, a0, a3, a4, a5, rs, b, hr, hb⟩
    have hsan := MapNotify.sanitize_ok.mpr ⟨a1, a2, a0, a3, rs, hr, rfl⟩
    have hl : rs.length = m.records.length := sanitizeAll_length hr
    have hids : ∀ p, ∃ b, encIds p m.xtrId m.siteId = .ok b := by
      intro p
      cases p with
      | false => exact ⟨_, rfl⟩
      | true =>
        simp only [encIds, if_true]
        rw [encUint_eq_ok a1.1 a1.2, encUint_eq_ok a2.1 a2.2]
        exact ⟨_, rfl⟩
    have henc : ∃ b, encMapNotify m = .ok b := by
      obtain ⟨bi, hi⟩ := hids ({ m with records := rs } : MapNotify).hasIds
      simp only [encMapNotify, hsan, exBind_okl, encMapNotifyRaw, hb, hi, encHex, if_neg a4.1]
      have a4 := a4.2
      rw [encUint_eq_ok (by omega) (by omega), encUint_eq_ok (by omega) (by omega),
        encUint_eq_ok (by omega) (by omega)]
      exact ⟨_, rfl⟩
    obtain ⟨b, hb⟩ := henc
    exact toBytes_of_len8 hb (encMapNotify_len8 hb)

/-- C33: no truncated Map-Notify is accepted. -/
theorem map_notify_no_truncation (m m' : MapNotify) (d pre cut : Bytes) (h : m.toBytes = .ok d)
    (hd : d = pre ++ cut) (hc : cut ≠ []) : MapNotify.fromBytes pre ≠ .ok m' := by
  have h := toBytes_ok.mp h
  obtain ⟨_, h1, _⟩ := encMapNotify_ok h
  exact Loc.readMapNotify.no_short_bytes (fun t => readMapNotify_enc h h1 t) hd hc m'

/-- C34: an accepted Map-Notify that can be serialised again is stable. -/
theorem map_notify_stable (d d' : Bytes) (m : MapNotify) (h : MapNotify.fromBytes d = .ok m)
    (h' : m.toBytes = .ok d') : MapNotify.fromBytes d' = .ok m := by
  obtain ⟨rest, hr⟩ := runOn_iff.mp h
  exact map_notify_round_trip_exact m d' h' (MapNotify.fix_records (readMapNotify_fix hr))

/-! ### C29 Map-Referral -/

/-- sanitising keeps a transportable EID transportable -/
theorem refs_eid {l l' : List RefRecord} (h : sanitizeAll RefRecord.sanitize l = .ok l')
    (he : ∀ r ∈ l, ReferralEid r.eid) : ∀ r ∈ l', ∃ i n k, r.eid = .inst i (.net n) k := by
  intro r' hr'
  obtain ⟨r, hr, hs⟩ := sanitizeAll_mem h r' hr'
  obtain ⟨_, _, _, _, _, e, hw, heq⟩ := RefRecord.sanitize_ok.mp hs
  have := he r hr
  generalize r.eid = x at this hw
  rw [heq]
  cases this <;> cases hw <;> exact ⟨_, _, _, rfl⟩

/-- C29: a Map-Referral whose records carry networks (with or without instance id) is read back
with its records sanitised (see C24), in order. -/
theorem map_referral_round_trip (m : MapReferral) (d : Bytes) (h : m.toBytes = .ok d)
    (he : ∀ r ∈ m.records, ReferralEid r.eid) :
    ∃ rs, sanitizeAll RefRecord.sanitize m.records = .ok rs ∧
      MapReferral.fromBytes d = .ok { m with records := rs } := by
  have h := toBytes_ok.mp h
  obtain ⟨m', h1, h2⟩ := encMapReferral_ok h
  have h1' := h1
  obtain ⟨_, rs, hr, rfl⟩ := MapReferral.sanitize_ok.mp h1
  have := runOn_enc fun t => readMapReferral_enc h h1' (refs_eid hr he) t
  exact ⟨rs, hr, this⟩

/-- C29: with sanitised records the very same message comes back. -/
theorem map_referral_round_trip_exact (m : MapReferral) (d : Bytes) (h : m.toBytes = .ok d)
    (he : ∀ r ∈ m.records, ReferralEid r.eid) (hr : ∀ r ∈ m.records, r.sanitize = .ok r) :
    MapReferral.fromBytes d = .ok m := by
  obtain ⟨rs, h1, h2⟩ := map_referral_round_trip m d h he
  rw [sanitizeAll_fix hr] at h1
  cases h1
  exact h2

/-- C29: a Map-Referral serialises exactly when its nonce has 8 bytes and it has at most 255 records,
each of which can be written. -/
theorem map_referral_writable_iff (m : MapReferral) : (∃ d, m.toBytes = .ok d) ↔
    m.nonce.length = 8 ∧ m.records.length ≤ 255 ∧
    ∀ r ∈ m.records, ∃ b, encRefRecord r = .ok b := by
  rw [← refs_enc_iff]
  constructor
  · rintro ⟨d, h⟩
    have h := toBytes_ok.mp h
    obtain ⟨m', h1, h2⟩ := encMapReferral_ok h
    obtain ⟨a1, rs, hr, rfl⟩ := MapReferral.sanitize_ok.mp h1
    obtain ⟨c1, b2, h3, _⟩ := encMapReferralRaw_ok h2
    have hl : rs.length = m.records.length := sanitizeAll_length hr
    have c1 : rs.length < 256 := c1
    exact ⟨a1, by omega, rs, b2, hr, h3⟩
  · rintro ⟨a1, a3, rs, b, hr, hb⟩
    have hsan := MapReferral.sanitize_ok.mpr ⟨a1, rs, hr, rfl⟩
    have hl : rs.length = m.records.length := sanitizeAll_length hr
    have henc : ∃ b, encMapReferral m = .ok b := by
      simp only [encMapReferral, hsan, exBind_okl, encMapReferralRaw, hb]
      rw [encUint_eq_ok (by omega) (by omega)]
      exact ⟨_, rfl⟩
    obtain ⟨b, hb⟩ := henc
    exact toBytes_of_len8 hb (encMapReferral_len8 hb)

/-- C33: no truncated Map-Referral is accepted. -/
theorem map_referral_no_truncation (m m' : MapReferral) (d pre cut : Bytes) (h : m.toBytes = .ok d)
    (he : ∀ r ∈ m.records, ReferralEid r.eid)
    (hd : d = pre ++ cut) (hc : cut ≠ []) : MapReferral.fromBytes pre ≠ .ok m' := by
  have h := toBytes_ok.mp h
  obtain ⟨_, h1, _⟩ := encMapReferral_ok h
  have h1' := h1
  obtain ⟨_, rs, hr, rfl⟩ := MapReferral.sanitize_ok.mp h1
  exact Loc.readMapReferral.no_short_bytes
    (fun t => readMapReferral_enc h h1' (refs_eid hr he) t) hd hc m'

/-- C34: an accepted Map-Referral that can be serialised again is stable. -/
theorem map_referral_stable (d d' : Bytes) (m : MapReferral) (h : MapReferral.fromBytes d = .ok m)
    (h' : m.toBytes = .ok d') : MapReferral.fromBytes d' = .ok m := by
  obtain ⟨rest, hr⟩ := runOn_iff.mp h
  have he : ∀ r ∈ m.records, ReferralEid r.eid := fun r hm => by
    obtain ⟨i, n, k, e⟩ := readMapReferral_eid hr r hm
    rw [e]; exact .inst i n k
  exact map_referral_round_trip_exact m d' h' he (MapReferral.fix_records (readMapReferral_fix hr))

/-! ### C30 Info -/

/-- C30: an Info-Request or Info-Reply that serialises is read back unchanged, up to networks
inside the NAT-traversal address. -/
theorem info_round_trip (m : Info) (d : Bytes) (h : m.toBytes = .ok d) :
    Info.fromBytes d = .ok { m with reply := m.reply.strip } :=
  runOn_enc fun t => readInfo_enc (toBytes_ok.mp h) t

/-- C30: without networks in the reply address the very same message comes back. -/
theorem info_round_trip_exact (m : Info) (d : Bytes) (h : m.toBytes = .ok d)
    (hn : noNet m.reply = true) : Info.fromBytes d = .ok m := by
  rw [info_round_trip m d h, strip_of_noNet _ hn]

/-- C30: what an accepted Info message guarantees: the reply flag is set exactly when a NAT-traversal
address is present, otherwise there is no address at all; the EID is a network. -/
theorem info_accepted (d : Bytes) (m : Info) (h : Info.fromBytes d = .ok m) :
    (m.isReply = true ↔ ∃ mp ep g s p r, m.reply = .natT mp ep g s p r) ∧
    (m.isReply = false ↔ m.reply = .none) ∧ (∃ n, m.eidPrefix = .net n) ∧ m.nonce.length = 8 ∧
    (m.keyId = 0 ∨ m.keyId = 1 ∨ m.keyId = 2) := by
  obtain ⟨rest, hr⟩ := runOn_iff.mp h
  obtain ⟨h1, h2, _, h4, h5, _⟩ := Info.sanitize_ok.mp (readInfo_fix hr)
  refine ⟨?_, ?_, ?_, h1, h2⟩
  · generalize m.isReply = i at h5 ⊢
    generalize m.reply = a at h5 ⊢
    cases i <;> cases a <;> simp_all [replyOk]
  · generalize m.isReply = i at h5 ⊢
    generalize m.reply = a at h5 ⊢
    cases i <;> cases a <;> simp_all [replyOk]
  · generalize m.eidPrefix = a at h4 ⊢
    cases a <;> simp_all [Addr.isNet]

/-- C30: an Info message serialises exactly when all fields are valid, there is authentication data,
shorter than 65536 bytes, and the NAT-traversal address
of a reply can be written. -/
theorem info_writable_iff (m : Info) : (∃ d, m.toBytes = .ok d) ↔
    m.nonce.length = 8 ∧ (m.keyId = 0 ∨ m.keyId = 1 ∨ m.keyId = 2) ∧
    (m.authData ≠ [] ∧ m.authData.length < 2 ^ 16) ∧ (0 ≤ m.ttl ∧ m.ttl < 2 ^ 32) ∧ (∃ n, m.eidPrefix = .net n) ∧
    ((m.isReply = false ∧ m.reply = .none) ∨
     (m.isReply = true ∧ (∃ mp ep g s p r, m.reply = .natT mp ep g s p r) ∧
        ∃ b, encAddr m.reply = .ok b)) := by
  have hnet : m.eidPrefix.isNet = true ↔ ∃ n, m.eidPrefix = .net n := by
    cases m.eidPrefix <;> simp [Addr.isNet]
  constructor
  · rintro ⟨d, h⟩
    obtain ⟨h1, h2⟩ := encInfo_ok (toBytes_ok.mp h)
    obtain ⟨a1, a2, a3, a4, a5, _⟩ := Info.sanitize_ok.mp h1
    obtain ⟨n, hn⟩ := hnet.mp a4
    obtain ⟨_, c1, _, b6, h6, _⟩ := encInfoRaw_ok h2 hn
    refine ⟨a1, a2, c1, ⟨a3.1, by omega⟩, ⟨n, hn⟩, ?_⟩
    generalize m.isReply = i at a5 ⊢
    generalize m.reply = a at a5 h6 ⊢
    cases i <;> cases a <;> simp_all [replyOk]
  · rintro ⟨a1, a2, a3, a4, ⟨n, hn⟩, a5⟩
    have hr : replyOk m.isReply m.reply = true ∧ ∃ b, encAddr m.reply = .ok b := by
      rcases a5 with ⟨h1, h2⟩ | ⟨h1, ⟨mp, ep, g, s, p, r, h2⟩, b, hb⟩
      · rw [h1, h2]; exact ⟨rfl, _, rfl⟩
      · rw [h1]; refine ⟨?_, b, hb⟩; rw [h2]; rfl
    obtain ⟨hr, b6, h6⟩ := hr
    have hsan : m.sanitize = .ok m :=
      Info.sanitize_ok.mpr ⟨a1, a2, ⟨a4.1, by omega⟩, hnet.mpr ⟨n, hn⟩, hr, rfl⟩
    have hp := n.plen_lt_256
    have hk : 0 ≤ m.keyId ∧ m.keyId < 2 ^ 16 := by omega
    have henc : ∃ b, encInfo m = .ok b := by
      simp only [encInfo, hsan, exBind_okl, encInfoRaw, h6, hn, Addr.prefixlen, encAddr, encHex,
        if_neg a3.1]
      have a3 := a3.2
      rw [encUint_eq_ok hk.1 hk.2, encUint_eq_ok (by omega) (by omega),
        encUint_eq_ok a4.1 a4.2, exBind_okl, exBind_okl, exBind_okl,
        encUint_eq_ok (by omega) (by omega)]
      exact ⟨_, rfl⟩
    obtain ⟨b, hb⟩ := henc
    exact toBytes_of_len8 hb (encInfo_len8 hb)

/-- C33: no truncated Info message is accepted. -/
theorem info_no_truncation (m m' : Info) (d pre cut : Bytes) (h : m.toBytes = .ok d)
    (hd : d = pre ++ cut) (hc : cut ≠ []) : Info.fromBytes pre ≠ .ok m' :=
  Loc.readInfo.no_short_bytes (fun t => readInfo_enc (toBytes_ok.mp h) t) hd hc m'

/-- C34: an accepted Info message that can be serialised again is stable. -/
theorem info_stable (d d' : Bytes) (m : Info) (h : Info.fromBytes d = .ok m)
    (h' : m.toBytes = .ok d') : Info.fromBytes d' = .ok m := by
  obtain ⟨rest, hr⟩ := runOn_iff.mp h
  rw [info_round_trip m d' h', readInfo_strip hr]

/-! ### C07 for control messages -/

/-- C07: parsing a control message of a fixed-layout type never runs out of nesting depth, on any
byte string: it always ends with a message or one of the errors of the code. -/
theorem control_total (d : Bytes) :
    MapRequest.fromBytes d ≠ .error .fuel ∧ MapReply.fromBytes d ≠ .error .fuel ∧
    MapRegister.fromBytes d ≠ .error .fuel ∧ MapNotify.fromBytes d ≠ .error .fuel ∧
    MapReferral.fromBytes d ≠ .error .fuel ∧ Info.fromBytes d ≠ .error .fuel :=
  ⟨NF.runOn (NF.readMapRequest _), NF.runOn (NF.readMapReply _), NF.runOn (NF.readMapRegister _),
   NF.runOn (NF.readMapNotify _), NF.runOn (NF.readMapReferral _), NF.runOn (NF.readInfo _)⟩

/-! ### Non-vacuity -/

def exRec : Record := { exRecord with locators := [exLoc1, exLoc2, exLoc6] }
def exRequest : MapRequest :=
  { probe := true, nonce := [1,2,3,4,5,6,7,8], sourceEid := .inst 5 (.ip exIP6) 32,
    itrRlocs := [.ip (.v4 0xc0000201), .ip exIP6], eidPrefixes := [.net exNet],
    mapReply := some exRec }
def exReply : MapReply := { nonce := [1,2,3,4,5,6,7,8], records := [exRec, exRec] }
def exRegister : MapRegister :=
  { nonce := [1,2,3,4,5,6,7,8], keyId := 1, authData := List.replicate 20 7, records := [exRec],
    xtrId := 0x1234, siteId := 9, wantMapNotify := true }
def exNotify : MapNotify :=
  { nonce := [1,2,3,4,5,6,7,8], keyId := 2, authData := List.replicate 32 7, records := [exRec] }
def exRefMsg : MapReferral := { nonce := [1,2,3,4,5,6,7,8], records := [exReferral] }
def exInfo : Info :=
  { isReply := true, nonce := [1,2,3,4,5,6,7,8], keyId := 1, authData := List.replicate 20 7,
    ttl := 60, eidPrefix := .net exNet,
    reply := .natT 4342 61616 (.ip exIP6) .none (.ip (.v4 0xc0000201)) [.ip (.v4 0xc0000202)] }

example : ∃ d, exRequest.toBytes = .ok d ∧ noNet exRequest.sourceEid = true ∧
    MapRequest.fromBytes d = .ok exRequest := by
  obtain ⟨d, hd⟩ := show ∃ d, exRequest.toBytes = .ok d from isOk_iff.mp (by decide +kernel)
  refine ⟨d, hd, rfl, map_request_round_trip_exact _ d hd rfl ?_ ?_⟩
  · intro a ha; simp [exRequest] at ha; exact ⟨_, ha⟩
  · intro r hr; simp [exRequest] at hr; subst hr; decide +kernel
example : ∃ d, exReply.toBytes = .ok d ∧ MapReply.fromBytes d = .ok exReply := by
  obtain ⟨d, hd⟩ := show ∃ d, exReply.toBytes = .ok d from isOk_iff.mp (by decide +kernel)
  exact ⟨d, hd, map_reply_round_trip_exact _ d hd rfl (by decide +kernel)⟩
example : ∃ d, exRegister.toBytes = .ok d ∧ MapRegister.fromBytes d = .ok exRegister := by
  obtain ⟨d, hd⟩ := show ∃ d, exRegister.toBytes = .ok d from isOk_iff.mp (by decide +kernel)
  exact ⟨d, hd, map_register_round_trip_exact _ d hd rfl (by decide +kernel)⟩
example : ∃ d, exNotify.toBytes = .ok d ∧ MapNotify.fromBytes d = .ok exNotify := by
  obtain ⟨d, hd⟩ := show ∃ d, exNotify.toBytes = .ok d from isOk_iff.mp (by decide +kernel)
  exact ⟨d, hd, map_notify_round_trip_exact _ d hd (by decide +kernel)⟩
example : ∃ d, exRefMsg.toBytes = .ok d ∧ ∃ rs, MapReferral.fromBytes d = .ok { exRefMsg with records := rs } := by
  obtain ⟨d, hd⟩ := show ∃ d, exRefMsg.toBytes = .ok d from isOk_iff.mp (by decide +kernel)
  obtain ⟨rs, _, h⟩ := map_referral_round_trip _ d hd (by
    intro r hr; simp [exRefMsg] at hr; subst hr; exact .net _)
  exact ⟨d, hd, rs, h⟩
example : ∃ d, exInfo.toBytes = .ok d ∧ Info.fromBytes d = .ok exInfo := by
  obtain ⟨d, hd⟩ := show ∃ d, exInfo.toBytes = .ok d from isOk_iff.mp (by decide +kernel)
  exact ⟨d, hd, info_round_trip_exact _ d hd rfl⟩
/-- the I flag asymmetry: a Map-Register with a 5-byte nonce serialises (the code does not check),
but is not read back -/
example : ∃ d, ({ exRegister with nonce := [1,2,3,4,5] } : MapRegister).toBytes = .ok d :=
  isOk_iff.mp (by decide +kernel)

end PyLisp.Props
