import Verif.Auth
import Verif.Rfc
import Verif.Props.Control
/-
C36–C39 (and the authentication part of C30): Map-Register, Map-Notify and Info authentication.
`H : Mac` is any pair of MAC functions with 20- and 32-byte results.
-/
namespace PyLisp.Props
open PyLisp

attribute [local irreducible] natToBits readUint readBits readBool readBytes readInt zeros readIP

/-! ### Specification: what it means for the bytes of a message to be authentic

Map-Register, Map-Notify and Info messages all carry 4 bytes of flags, an 8-byte nonce, the key id
(2 bytes), the length of the authentication data (2 bytes), the authentication data and the rest. -/

/-- the big-endian 16-bit number at a byte offset -/
def wordAt (d : Bytes) (i : Nat) : Nat :=
  match d.drop i with
  | x :: y :: _ => x.toNat * 256 + y.toNat
  | _ => 0

/-- the authentication data field of a message -/
def authField (d : Bytes) : Bytes := (d.drop 16).take (wordAt d 14)

/-- the message with its authentication data preset to 0 -/
def zeroedAuth (d : Bytes) : Bytes :=
  d.take 16 ++ List.replicate (wordAt d 14) 0 ++ d.drop (16 + wordAt d 14)

/-- the authentication data is the MAC, selected by the key id, of the message with the
authentication data preset to 0; key id 0 stands for no authentication data at all -/
def Authentic (H : Mac) (key d : Bytes) : Prop :=
  (wordAt d 12 = 0 ∧ authField d = []) ∨
  (wordAt d 12 = 1 ∧ authField d = H.sha1 key (zeroedAuth d)) ∨
  (wordAt d 12 = 2 ∧ authField d = H.sha256 key (zeroedAuth d))

/-! ### Shape lemmas -/

theorem wordAt_be16 {p r : Bytes} {v : Nat} (h : v < 65536) : wordAt (p ++ be16 v ++ r) p.length = v := by
  unfold wordAt
  rw [List.append_assoc, List.drop_left]
  simp [be16]
  omega

/-- the parts of a message with given authentication data -/
def shape (p : Bytes) (k : Nat) (r a : Bytes) : Bytes := p ++ be16 k ++ be16 a.length ++ a ++ r

theorem shape_fields {p r a : Bytes} {k : Nat} (hp : p.length = 12) (hk : k < 65536)
    (ha : a.length < 65536) :
    wordAt (shape p k r a) 12 = k ∧ wordAt (shape p k r a) 14 = a.length ∧
    authField (shape p k r a) = a ∧
    zeroedAuth (shape p k r a) = shape p k r (List.replicate a.length 0) := by
  have h1 : wordAt (shape p k r a) 12 = k := by
    have := wordAt_be16 (p := p) (r := be16 a.length ++ a ++ r) hk
    rw [hp] at this
    simpa [shape] using this
  have h2 : wordAt (shape p k r a) 14 = a.length := by
    have := wordAt_be16 (p := p ++ be16 k) (r := a ++ r) ha
    rw [show (p ++ be16 k).length = 14 by simp [hp]] at this
    simpa [shape] using this
  have hd : (shape p k r a).drop 16 = a ++ r := by
    rw [shape, List.append_assoc _ a r, List.drop_left' (by simp [hp])]
  refine ⟨h1, h2, ?_, ?_⟩
  · rw [authField, h2, hd, List.take_left]
  · rw [zeroedAuth, h2, Nat.add_comm 16, ← List.drop_drop]
    have e1 : (shape p k r a).take 16 = p ++ be16 k ++ be16 a.length := by
      rw [shape, List.append_assoc _ a r, List.take_left' (by simp [hp])]
    have e2 : ((shape p k r a).drop a.length).drop 16 = r := by
      rw [List.drop_drop, Nat.add_comm, ← List.drop_drop, hd, List.drop_left]
    rw [e1, e2]
    simp [shape]

theorem calcAuth_authentic {H : Mac} {key : Bytes} {k : Int} {ser : Bytes → Except Err Bytes}
    {p r a : Bytes} (hp : p.length = 12) (hk : 0 ≤ k ∧ k < 65536) (ha : a.length < 65536)
    (hs : ∀ z : Bytes, z ≠ [] → z.length < 65536 → ser z = .ok (shape p k.toNat r z)) :
    calcAuth H k key ser = .ok a ↔ Authentic H key (shape p k.toNat r a) := by
  obtain ⟨f1, _, f3, f4⟩ := shape_fields (k := k.toNat) (r := r) hp (by omega) ha
  rw [calcAuth_ok, Authentic, f1, f3, f4]
  constructor
  · rintro (⟨h, e⟩ | ⟨h, msg, hm, e⟩ | ⟨h, msg, hm, e⟩)
    · exact .inl ⟨by omega, e⟩
    · rw [hs _ (by simp [List.replicate]) (by simp)] at hm
      cases hm
      have hl := congrArg List.length e
      rw [H.sha1_length] at hl
      exact .inr (.inl ⟨by omega, by rw [hl]; exact e⟩)
    · rw [hs _ (by simp [List.replicate]) (by simp)] at hm
      cases hm
      have hl := congrArg List.length e
      rw [H.sha256_length] at hl
      exact .inr (.inr ⟨by omega, by rw [hl]; exact e⟩)
  · rintro (⟨h, e⟩ | ⟨h, e⟩ | ⟨h, e⟩)
    · exact .inl ⟨by omega, e⟩
    · have hl := congrArg List.length e
      rw [H.sha1_length] at hl
      rw [hl] at e
      exact .inr (.inl ⟨by omega, _, hs _ (by simp [List.replicate]) (by simp), e⟩)
    · have hl := congrArg List.length e
      rw [H.sha256_length] at hl
      rw [hl] at e
      exact .inr (.inr ⟨by omega, _, hs _ (by simp [List.replicate]) (by simp), e⟩)

/-- bytes whose bits have the common layout -/
theorem shape_of_bits {d a : Bytes} {hb rb : Bits} {k : Nat} (hh : hb.length = 96)
    (hd : bytesToBits d = hb ++ natToBits 16 k ++ natToBits 16 a.length ++ bytesToBits a ++ rb) :
    d = shape (d.take 12) k (d.drop (16 + a.length)) a ∧ (d.take 12).length = 12 ∧
    bytesToBits (d.take 12) = hb ∧ bytesToBits (d.drop (16 + a.length)) = rb := by
  have e1 : bytesToBits (d.take 12) = hb := by
    rw [bytesToBits_take, hd]
    simp only [List.append_assoc]
    rw [List.take_left' (by omega)]
  have e2 : bytesToBits (d.drop (16 + a.length)) = rb := by
    rw [bytesToBits_drop, hd, List.drop_left' (by simp [hh]; omega)]
  have hl : (d.take 12).length = 12 := by
    have := congrArg List.length e1
    simp only [bytesToBits_length, hh] at this
    omega
  refine ⟨?_, hl, e1, e2⟩
  apply bytesToBits_inj
  rw [shape, bytesToBits_append, bytesToBits_append, bytesToBits_append, bytesToBits_append,
    bytesToBits_be16, bytesToBits_be16, e1, e2]
  exact hd

/-- the authentication data is the only part of a Map-Register that depends on it -/
theorem register_shape {m : MapRegister} {d : Bytes} (h : m.toBytes = .ok d)
    (hn : m.nonce.length = 8) :
    m.authData.length < 65536 ∧ (0 ≤ m.keyId ∧ m.keyId < 65536) ∧
    ∃ p r : Bytes, p.length = 12 ∧ d = shape p m.keyId.toNat r m.authData ∧
      ∀ z : Bytes, z ≠ [] → z.length < 65536 →
        ({ m with authData := z } : MapRegister).toBytes = .ok (shape p m.keyId.toNat r z) := by
  have h := toBytes_ok.mp h
  obtain ⟨m', h1, h2⟩ := encMapRegister_ok h
  obtain ⟨s1, s2, s3, rs, s4, rfl⟩ := MapRegister.sanitize_ok.mp h1
  obtain ⟨c1, c2, c3, b4, b5, h4, h5, e⟩ := encMapRegisterRaw_ok h2
  have c1 : rs.length < 2 ^ 8 := c1
  have c2 : 0 ≤ m.keyId ∧ m.keyId < 2 ^ 16 := c2
  have h4 : encAll encRecord rs = .ok b4 := h4
  have h5 : encIds m.hasIds m.xtrId m.siteId = .ok b5 := h5
  have e' : bytesToBits d = (natToBits 4 3 ++ [m.proxyMapReply] ++ natToBits 1 m.reserved1.toNat ++
      [m.hasIds, m.forRtr] ++ natToBits 15 m.reserved2.toNat ++ [m.wantMapNotify] ++
      natToBits 8 rs.length ++ bytesToBits m.nonce) ++ natToBits 16 m.keyId.toNat ++
      natToBits 16 m.authData.length ++ bytesToBits m.authData ++ (b4 ++ b5) := by
    rw [← List.append_assoc]; exact e
  obtain ⟨f1, f2, f3, f4⟩ := shape_of_bits (by simp [hn]) e'
  refine ⟨c3.2, c2, _, _, f2, f1, ?_⟩
  intro z hz0 hz
  refine toBytes_ok.mpr ?_
  have hs : ({ m with authData := z } : MapRegister).sanitize =
      .ok { m with authData := z, records := rs } :=
    MapRegister.sanitize_ok.mpr ⟨s1, s2, s3, rs, s4, rfl⟩
  have hi : ({ m with authData := z, records := rs } : MapRegister).hasIds = m.hasIds := rfl
  rw [encMapRegister, hs, exBind_okl, encMapRegisterRaw, hi]
  simp only
  rw [encUint_eq_ok (by omega) (by omega), exBind_okl, encUint_eq_ok c2.1 c2.2, exBind_okl,
    encUint_eq_ok (by omega) (by omega), exBind_okl, encHex, if_neg hz0, exBind_okl, h4, exBind_okl, h5,
    exBind_okl]
  rw [shape, bytesToBits_append, bytesToBits_append, bytesToBits_append, bytesToBits_append,
    bytesToBits_be16, bytesToBits_be16, f3, f4]
  simp [exPure]

theorem notify_shape {m : MapNotify} {d : Bytes} (h : m.toBytes = .ok d) :
    m.authData.length < 65536 ∧ (0 ≤ m.keyId ∧ m.keyId < 65536) ∧
    ∃ p r : Bytes, p.length = 12 ∧ d = shape p m.keyId.toNat r m.authData ∧
      ∀ z : Bytes, z ≠ [] → z.length < 65536 →
        ({ m with authData := z } : MapNotify).toBytes = .ok (shape p m.keyId.toNat r z) := by
  have h := toBytes_ok.mp h
  obtain ⟨m', h1, h2⟩ := encMapNotify_ok h
  obtain ⟨s1, s2, s5, s3, rs, s4, rfl⟩ := MapNotify.sanitize_ok.mp h1
  obtain ⟨c1, c2, c3, b4, b5, h4, h5, e⟩ := encMapNotifyRaw_ok h2
  have c1 : rs.length < 2 ^ 8 := c1
  have c2 : 0 ≤ m.keyId ∧ m.keyId < 2 ^ 16 := c2
  have h4 : encAll encRecord rs = .ok b4 := h4
  have h5 : encIds m.hasIds m.xtrId m.siteId = .ok b5 := h5
  have e' : bytesToBits d = (natToBits 4 4 ++ [m.hasIds] ++ natToBits 19 m.reserved1.toNat ++
      natToBits 8 rs.length ++ bytesToBits m.nonce) ++ natToBits 16 m.keyId.toNat ++
      natToBits 16 m.authData.length ++ bytesToBits m.authData ++ (b4 ++ b5) := by
    rw [← List.append_assoc]; exact e
  obtain ⟨f1, f2, f3, f4⟩ := shape_of_bits (by simp [s5]) e'
  refine ⟨c3.2, c2, _, _, f2, f1, ?_⟩
  intro z hz0 hz
  refine toBytes_ok.mpr ?_
  have hs : ({ m with authData := z } : MapNotify).sanitize =
      .ok { m with authData := z, records := rs } :=
    MapNotify.sanitize_ok.mpr ⟨s1, s2, s5, s3, rs, s4, rfl⟩
  have hi : ({ m with authData := z, records := rs } : MapNotify).hasIds = m.hasIds := rfl
  rw [encMapNotify, hs, exBind_okl, encMapNotifyRaw, hi]
  simp only
  rw [encUint_eq_ok (by omega) (by omega), exBind_okl, encUint_eq_ok c2.1 c2.2, exBind_okl,
    encUint_eq_ok (by omega) (by omega), exBind_okl, encHex, if_neg hz0, exBind_okl, h4, exBind_okl, h5,
    exBind_okl]
  rw [shape, bytesToBits_append, bytesToBits_append, bytesToBits_append, bytesToBits_append,
    bytesToBits_be16, bytesToBits_be16, f3, f4]
  simp [exPure]

theorem info_shape {m : Info} {d : Bytes} (h : m.toBytes = .ok d) :
    m.authData.length < 65536 ∧ (0 ≤ m.keyId ∧ m.keyId < 65536) ∧
    ∃ p r : Bytes, p.length = 12 ∧ d = shape p m.keyId.toNat r m.authData ∧
      ∀ z : Bytes, z ≠ [] → z.length < 65536 →
        ({ m with authData := z } : Info).toBytes = .ok (shape p m.keyId.toNat r z) := by
  have h := toBytes_ok.mp h
  obtain ⟨h1, h2⟩ := encInfo_ok h
  obtain ⟨a1, a2, a3, a4, a5, _⟩ := Info.sanitize_ok.mp h1
  have hn : ∃ n, m.eidPrefix = .net n := by
    cases hm : m.eidPrefix <;> simp_all [Addr.isNet]
  obtain ⟨n, hn⟩ := hn
  obtain ⟨c1, c2, c3, b6, h6, e⟩ := encInfoRaw_ok h2 hn
  have e' : bytesToBits d = (natToBits 4 7 ++ [m.isReply] ++ natToBits 27 m.reserved1.toNat ++
      bytesToBits m.nonce) ++ natToBits 16 m.keyId.toNat ++
      natToBits 16 m.authData.length ++ bytesToBits m.authData ++
      (natToBits 32 m.ttl.toNat ++ natToBits 8 m.reserved2.toNat ++ natToBits 8 n.plen ++
      encIP n.first ++ b6) := by
    rw [e]; simp only [List.append_assoc]
  obtain ⟨f1, f2, f3, f4⟩ := shape_of_bits (by simp [a1]) e'
  refine ⟨c2.2, c1, _, _, f2, f1, ?_⟩
  intro z hz0 hz
  refine toBytes_ok.mpr ?_
  have hs : ({ m with authData := z } : Info).sanitize = .ok { m with authData := z } :=
    Info.sanitize_ok.mpr ⟨a1, a2, a3, a4, a5, rfl⟩
  rw [encInfo, hs, exBind_okl, encInfoRaw]
  simp only [hn, Addr.prefixlen, encAddr]
  rw [encUint_eq_ok c1.1 c1.2, exBind_okl, encUint_eq_ok (by omega) (by omega), exBind_okl,
    encHex, if_neg hz0, exBind_okl, encUint_eq_ok c3.1 c3.2, exBind_okl, exBind_okl,
    encUint_eq_ok (by omega) (by have := n.plen_lt_256; omega), exBind_okl, exBind_okl, h6, exBind_okl]
  rw [shape, bytesToBits_append, bytesToBits_append, bytesToBits_append, bytesToBits_append,
    bytesToBits_be16, bytesToBits_be16, f3, f4]
  simp [exPure]

/-- two authentic messages with the same authentication data are equal or their MACs collide -/
theorem authentic_collision {H : Mac} {key p1 p2 r1 r2 a : Bytes} {k1 k2 : Nat}
    (hp1 : p1.length = 12) (hp2 : p2.length = 12) (hk1 : k1 < 65536) (hk2 : k2 < 65536)
    (hk0 : k1 ≠ 0) (ha : a.length < 65536)
    (h1 : Authentic H key (shape p1 k1 r1 a)) (h2 : Authentic H key (shape p2 k2 r2 a)) :
    shape p1 k1 r1 a = shape p2 k2 r2 a ∨
    ∃ x y, x ≠ y ∧ (H.sha1 key x = H.sha1 key y ∨ H.sha256 key x = H.sha256 key y) := by
  obtain ⟨f1, f2, f3, f4⟩ := shape_fields (k := k1) (r := r1) hp1 hk1 ha
  obtain ⟨g1, g2, g3, g4⟩ := shape_fields (k := k2) (r := r2) hp2 hk2 ha
  rw [Authentic, f1, f3, f4] at h1
  rw [Authentic, g1, g3, g4] at h2
  by_cases hx : shape p1 k1 r1 (List.replicate a.length 0) = shape p2 k2 r2 (List.replicate a.length 0)
  · left
    simp only [shape, List.length_replicate] at hx ⊢
    obtain ⟨e1, e2⟩ := List.append_inj' hx (by
      have := congrArg List.length hx
      simp [hp1, hp2] at this; omega)
    subst e2
    obtain ⟨e1, _⟩ := List.append_inj' e1 (by simp)
    rw [e1]
  · right
    refine ⟨_, _, hx, ?_⟩
    rcases h1 with ⟨h, _⟩ | ⟨h, e1⟩ | ⟨h, e1⟩
    · exact absurd h hk0
    · rcases h2 with ⟨_, e2⟩ | ⟨_, e2⟩ | ⟨_, e2⟩
      · have := congrArg List.length e1
        rw [e2, H.sha1_length] at this; simp at this
      · exact .inl (e1.symm.trans e2)
      · have l1 := congrArg List.length e1
        have l2 := congrArg List.length e2
        rw [H.sha1_length] at l1; rw [H.sha256_length] at l2; omega
    · rcases h2 with ⟨_, e2⟩ | ⟨_, e2⟩ | ⟨_, e2⟩
      · have := congrArg List.length e1
        rw [e2, H.sha256_length] at this; simp at this
      · have l1 := congrArg List.length e1
        have l2 := congrArg List.length e2
        rw [H.sha256_length] at l1; rw [H.sha1_length] at l2; omega
      · exact .inr (e1.symm.trans e2)

/-! ### Map-Register -/

/-- C36: after `insert_authentication_data(key)` the Map-Register verifies with that key. -/
theorem register_insert_verifies (H : Mac) (m m' : MapRegister) (key : Bytes) (h : m.insert H key = .ok m') :
    m'.verify H key = .ok true := by
  rw [MapRegister.verify_iff]
  simp only [MapRegister.insert, MapRegister.touched, exBind_ok, exPure, Except.ok.injEq] at h
  obtain ⟨a, ha, m2, hm, rfl⟩ := h
  split at hm
  · rename_i hk
    cases hm
    show calcAuth _ _ _ _ = _
    have ha : calcAuth H m.keyId key _ = .ok a := ha
    rw [hk] at ha
    show calcAuth H m.keyId key _ = .ok a
    rw [hk]
    exact ha
  · rw [MapRegister.calculate_sanitized hm]; exact ha

/-- C36: insertion keeps everything but the authentication data and the order of locators: the
result serialises like the original with other authentication data. -/
theorem register_insert_content (H : Mac) (m m' : MapRegister) (key : Bytes) (h : m.insert H key = .ok m')
    (z : Bytes) : ({ m' with authData := z } : MapRegister).toBytes = ({ m with authData := z } : MapRegister).toBytes := by
  simp only [MapRegister.insert, MapRegister.touched, exBind_ok, exPure, Except.ok.injEq] at h
  obtain ⟨a, ha, m2, hm, rfl⟩ := h
  split at hm
  · cases hm; rfl
  · exact MapRegister.toBytes_sanitized hm z

/-- the part of a Map-Register before the authentication data is written whether there is any or not -/
theorem register_no_auth {m : MapRegister} {z d : Bytes} (h : ({ m with authData := z } : MapRegister).toBytes = .ok d) :
    ({ m with authData := [] } : MapRegister).toBytes = .error .value := by
  obtain ⟨m', h1, h2⟩ := encMapRegister_ok (toBytes_ok.mp h)
  obtain ⟨s1, s2, s3, rs, s4, rfl⟩ := MapRegister.sanitize_ok.mp h1
  obtain ⟨c1, c2, c3, b4, b5, h4, h5, _⟩ := encMapRegisterRaw_ok h2
  have c1 : rs.length < 2 ^ 8 := c1
  have c2 : 0 ≤ m.keyId ∧ m.keyId < 2 ^ 16 := c2
  have hs : ({ m with authData := [] } : MapRegister).sanitize = .ok { m with authData := [], records := rs } :=
    MapRegister.sanitize_ok.mpr ⟨s1, s2, s3, rs, s4, rfl⟩
  show toBytes (encMapRegister _) = _
  rw [encMapRegister, hs, exBind_okl, encMapRegisterRaw]
  simp only
  rw [encUint_eq_ok (by omega) (by omega), exBind_okl, encUint_eq_ok c2.1 c2.2, exBind_okl,
    encUint_eq_ok (by decide) (by decide), exBind_okl]
  rfl

/-- C36/C86: insertion works for every Map-Register that can be serialised with some authentication data
(it need not have any yet).  With key id 1 or 2 the result can be sent; with key id 0 it has no
authentication data, and to serialise it raises ValueError. -/
theorem register_insert_defined (H : Mac) (m : MapRegister) (key z d : Bytes)
    (h : ({ m with authData := z } : MapRegister).toBytes = .ok d) (hn : m.nonce.length = 8) :
    ∃ m', m.insert H key = .ok m' ∧ (m.keyId ≠ 0 → ∃ d', m'.toBytes = .ok d') ∧
      (m.keyId = 0 → m'.authData = [] ∧ m'.toBytes = .error .value) := by
  obtain ⟨h1, h2, p, r, hp, hd, hs⟩ := register_shape h hn
  have hs : ∀ z : Bytes, z ≠ [] → z.length < 65536 →
    ({ m with authData := z } : MapRegister).toBytes = .ok (shape p m.keyId.toNat r z) := hs
  obtain ⟨mz, hmz, _⟩ := MapRegister.toBytes_sanitize h
  obtain ⟨s1, s2, s3, rs, s4, _⟩ := MapRegister.sanitize_ok.mp hmz
  have hm2 : m.sanitize = .ok { m with records := rs } :=
    MapRegister.sanitize_ok.mpr ⟨s1, s2, s3, rs, s4, rfl⟩
  have hk : keyIdOk m.keyId := s3
  by_cases h0 : m.keyId = 0
  · refine ⟨{ m with authData := [] }, ?_, fun hne => absurd h0 hne, fun _ => ⟨rfl, register_no_auth h⟩⟩
    have ha : m.calculate H key = .ok [] := calcAuth_ok.mpr (.inl ⟨h0, rfl⟩)
    simp only [MapRegister.insert, ha, exBind_okl, MapRegister.touched, if_pos h0]; rfl
  · have hc : ∃ a, m.calculate H key = .ok a ∧ a ≠ [] ∧ a.length < 65536 := by
      have hne : ∀ {a : Bytes} {n : Nat}, a.length = n + 1 → a ≠ [] := by
        intro a n ha he; rw [he] at ha; cases ha
      rcases hk with hk | hk | hk
      · exact absurd hk h0
      · exact ⟨_, calcAuth_ok.mpr (.inr (.inl ⟨hk, _, hs _ (by simp [List.replicate]) (by simp), rfl⟩)),
          hne (H.sha1_length _ _), by rw [H.sha1_length]; decide⟩
      · exact ⟨_, calcAuth_ok.mpr (.inr (.inr ⟨hk, _, hs _ (by simp [List.replicate]) (by simp), rfl⟩)),
          hne (H.sha256_length _ _), by rw [H.sha256_length]; decide⟩
    obtain ⟨a, ha, hne, hal⟩ := hc
    refine ⟨{ m with authData := a, records := rs }, ?_, fun _ => ⟨shape p m.keyId.toNat r a, ?_⟩,
      fun he => absurd he h0⟩
    · simp only [MapRegister.insert, ha, exBind_okl, MapRegister.touched, if_neg h0, hm2]; rfl
    · exact (MapRegister.toBytes_sanitized hm2 a).trans (hs a hne hal)

/-- C36/C86: an authenticated Map-Register that could be serialised is not one with key id 0 -/
theorem register_sent_key {H : Mac} {m m' : MapRegister} {key d : Bytes} (h : m.insert H key = .ok m')
    (hd : m'.toBytes = .ok d) : m'.keyId ≠ 0 := by
  intro h0
  have hne := ((map_register_writable_iff m').mp ⟨d, hd⟩).2.2.2.1.1
  simp only [MapRegister.insert, MapRegister.touched, exBind_ok, exPure, Except.ok.injEq] at h
  obtain ⟨a, ha, m2, hm, rfl⟩ := h
  have hk : m.keyId = 0 := by
    split at hm
    · assumption
    · obtain ⟨_, _, _, rs, _, rfl⟩ := MapRegister.sanitize_ok.mp hm
      exact h0
  have ha' : m.calculate H key = .ok [] := calcAuth_ok.mpr (.inl ⟨hk, rfl⟩)
  rw [ha] at ha'
  cases ha'
  exact hne rfl

/-- C37: a Map-Register verifies with a key exactly when its serialisation is authentic under that
key. -/
theorem register_verify_iff (H : Mac) (m : MapRegister) (key d : Bytes) (h : m.toBytes = .ok d)
    (hn : m.nonce.length = 8) :
    m.verify H key = .ok true ↔ Authentic H key d := by
  obtain ⟨h1, h2, p, r, hp, rfl, hs⟩ := register_shape h hn
  rw [MapRegister.verify_iff]
  exact calcAuth_authentic hp h2 h1 hs

/-- C37: verification never fails with an exception for a Map-Register that can be serialised with
some authentication data: it answers yes or no. -/
theorem register_verify_total (H : Mac) (m : MapRegister) (key z d : Bytes)
    (h : ({ m with authData := z } : MapRegister).toBytes = .ok d) (hn : m.nonce.length = 8) :
    ∃ b, m.verify H key = .ok b := by
  obtain ⟨m', h1, _⟩ := register_insert_defined H m key z d h hn
  simp only [MapRegister.insert, exBind_ok] at h1
  obtain ⟨a, ha, _⟩ := h1
  exact ⟨m.authData == a, by simp only [MapRegister.verify, ha, exBind_okl]; rfl⟩

/-- C36: an authenticated Map-Register, sent as bytes (with anything after it), is parsed by the
receiver and verifies there. -/
theorem register_sent_verifies (H : Mac) (m m' : MapRegister) (key d t : Bytes) (h : m.insert H key = .ok m')
    (hd : m'.toBytes = .ok d) (hn : m.nonce.length = 8) :
    ∃ r, MapRegister.fromBytes (d ++ t) = .ok r ∧ r.verify H key = .ok true := by
  have hv := register_insert_verifies H m m' key h
  have hn' : m'.nonce.length = 8 := by
    simp only [MapRegister.insert, MapRegister.touched, exBind_ok, exPure, Except.ok.injEq] at h
    obtain ⟨a, ha, m2, hm, rfl⟩ := h
    split at hm
    · cases hm; exact hn
    · obtain ⟨_, _, _, rs, _, rfl⟩ := MapRegister.sanitize_ok.mp hm; exact hn
  obtain ⟨r, hr, hrb, ha, hnn, _⟩ := MapRegister.toBytes_sanitize hd
  have hparse : MapRegister.fromBytes (d ++ t) = .ok r :=
    runOn_iff.mpr ⟨bytesToBits t, by
      rw [bytesToBits_append]; exact readMapRegister_enc (toBytes_ok.mp hd)  hn' hr _⟩
  refine ⟨r, hparse, ?_⟩
  rw [register_verify_iff H r key d hrb (by rw [hnn]; assumption)]
  exact (register_verify_iff H m' key d hd hn').mp hv

/-- C37: two different Map-Registers that verify with the same key and carry the same authentication
data exhibit a collision of the MAC function (unless the key id is 0, "none"). -/
theorem register_forgery_is_collision (H : Mac) (m1 m2 : MapRegister) (key d1 d2 : Bytes)
    (h1 : m1.toBytes = .ok d1) (h2 : m2.toBytes = .ok d2)
    (n1 : m1.nonce.length = 8) (n2 : m2.nonce.length = 8)
    (hk : m1.keyId ≠ 0) (ha : m1.authData = m2.authData)
    (hv1 : m1.verify H key = .ok true) (hv2 : m2.verify H key = .ok true) (hne : d1 ≠ d2) :
    ∃ x y, x ≠ y ∧ (H.sha1 key x = H.sha1 key y ∨ H.sha256 key x = H.sha256 key y) := by
  rw [register_verify_iff H _ _ _ h1 n1] at hv1
  rw [register_verify_iff H _ _ _ h2 n2] at hv2
  obtain ⟨l1, b1, p1, r1, hp1, rfl, _⟩ := register_shape h1 n1
  obtain ⟨l2, b2, p2, r2, hp2, rfl, _⟩ := register_shape h2 n2
  rw [← ha] at hv2 hne
  rcases authentic_collision hp1 hp2 (by omega) (by omega) (by omega) l1 hv1 hv2 with h | h
  · exact absurd h hne
  · exact h

/-- C38: verification of a received message that some sender of this code produced judges exactly
the received bytes; bytes after the message are not covered. -/
theorem register_verify_received (H : Mac) (m r : MapRegister) (key d t : Bytes) (h : m.toBytes = .ok d)
    (hn : m.nonce.length = 8)
    (hr : MapRegister.fromBytes (d ++ t) = .ok r) :
    r.verify H key = .ok true ↔ Authentic H key d := by
  obtain ⟨m', hm, hmb, ha, hnn, _⟩ := MapRegister.toBytes_sanitize h
  have hparse : MapRegister.fromBytes (d ++ t) = .ok m' :=
    runOn_iff.mpr ⟨bytesToBits t, by
      rw [bytesToBits_append]; exact readMapRegister_enc (toBytes_ok.mp h)  hn hm _⟩
  rw [hparse] at hr; cases hr
  exact register_verify_iff H r key d hmb (by rw [hnn]; assumption)

/-- C39: exactly what verification accepts: with key id 0 any key will do provided there is no
authentication data; with key ids 1 and 2 the authentication data must be the MAC of the message
with zeroed authentication data. -/
theorem register_verify_cases (H : Mac) (m : MapRegister) (key : Bytes) : m.verify H key = .ok true ↔
    (m.keyId = 0 ∧ m.authData = []) ∨
    (m.keyId = 1 ∧ ∃ msg, ({ m with authData := List.replicate 20 0 } : MapRegister).toBytes = .ok msg ∧
      m.authData = H.sha1 key msg) ∨
    (m.keyId = 2 ∧ ∃ msg, ({ m with authData := List.replicate 32 0 } : MapRegister).toBytes = .ok msg ∧
      m.authData = H.sha256 key msg) := by
  rw [MapRegister.verify_iff]; exact calcAuth_ok

/-- C39: a Map-Register without authentication (key id 0, no authentication data) verifies with every
key, whatever else it says. -/
theorem register_unauthenticated_verifies (H : Mac) (m : MapRegister) (hk : m.keyId = 0) (ha : m.authData = []) :
    ∀ key, m.verify H key = .ok true :=
  fun key => (register_verify_cases H m key).mpr (.inl ⟨hk, ha⟩)

/-! ### Map-Notify -/

/-- C36: after `insert_authentication_data(key)` the Map-Notify verifies with that key. -/
theorem notify_insert_verifies (H : Mac) (m m' : MapNotify) (key : Bytes) (h : m.insert H key = .ok m') :
    m'.verify H key = .ok true := by
  rw [MapNotify.verify_iff]
  simp only [MapNotify.insert, MapNotify.touched, exBind_ok, exPure, Except.ok.injEq] at h
  obtain ⟨a, ha, m2, hm, rfl⟩ := h
  split at hm
  · rename_i hk
    cases hm
    show calcAuth _ _ _ _ = _
    have ha : calcAuth H m.keyId key _ = .ok a := ha
    rw [hk] at ha
    show calcAuth H m.keyId key _ = .ok a
    rw [hk]
    exact ha
  · rw [MapNotify.calculate_sanitized hm]; exact ha

/-- C36: insertion keeps everything but the authentication data and the order of locators: the
result serialises like the original with other authentication data. -/
theorem notify_insert_content (H : Mac) (m m' : MapNotify) (key : Bytes) (h : m.insert H key = .ok m')
    (z : Bytes) : ({ m' with authData := z } : MapNotify).toBytes = ({ m with authData := z } : MapNotify).toBytes := by
  simp only [MapNotify.insert, MapNotify.touched, exBind_ok, exPure, Except.ok.injEq] at h
  obtain ⟨a, ha, m2, hm, rfl⟩ := h
  split at hm
  · cases hm; rfl
  · exact MapNotify.toBytes_sanitized hm z

/-- the part of a Map-Notify before the authentication data is written whether there is any or not -/
theorem notify_no_auth {m : MapNotify} {z d : Bytes} (h : ({ m with authData := z } : MapNotify).toBytes = .ok d) :
    ({ m with authData := [] } : MapNotify).toBytes = .error .value := by
  obtain ⟨m', h1, h2⟩ := encMapNotify_ok (toBytes_ok.mp h)
  obtain ⟨s1, s2, s5, s3, rs, s4, rfl⟩ := MapNotify.sanitize_ok.mp h1
  obtain ⟨c1, c2, c3, b4, b5, h4, h5, _⟩ := encMapNotifyRaw_ok h2
  have c1 : rs.length < 2 ^ 8 := c1
  have c2 : 0 ≤ m.keyId ∧ m.keyId < 2 ^ 16 := c2
  have hs : ({ m with authData := [] } : MapNotify).sanitize = .ok { m with authData := [], records := rs } :=
    MapNotify.sanitize_ok.mpr ⟨s1, s2, s5, s3, rs, s4, rfl⟩
  show toBytes (encMapNotify _) = _
  rw [encMapNotify, hs, exBind_okl, encMapNotifyRaw]
  simp only
  rw [encUint_eq_ok (by omega) (by omega), exBind_okl, encUint_eq_ok c2.1 c2.2, exBind_okl,
    encUint_eq_ok (by decide) (by decide), exBind_okl]
  rfl

/-- C36/C86: insertion works for every Map-Notify that can be serialised with some authentication data
(it need not have any yet).  With key id 1 or 2 the result can be sent; with key id 0 it has no
authentication data, and to serialise it raises ValueError. -/
theorem notify_insert_defined (H : Mac) (m : MapNotify) (key z d : Bytes)
    (h : ({ m with authData := z } : MapNotify).toBytes = .ok d) :
    ∃ m', m.insert H key = .ok m' ∧ (m.keyId ≠ 0 → ∃ d', m'.toBytes = .ok d') ∧
      (m.keyId = 0 → m'.authData = [] ∧ m'.toBytes = .error .value) := by
  obtain ⟨h1, h2, p, r, hp, hd, hs⟩ := notify_shape h
  have hs : ∀ z : Bytes, z ≠ [] → z.length < 65536 →
    ({ m with authData := z } : MapNotify).toBytes = .ok (shape p m.keyId.toNat r z) := hs
  obtain ⟨mz, hmz, _⟩ := MapNotify.toBytes_sanitize h
  obtain ⟨s1, s2, s5, s3, rs, s4, _⟩ := MapNotify.sanitize_ok.mp hmz
  have hm2 : m.sanitize = .ok { m with records := rs } :=
    MapNotify.sanitize_ok.mpr ⟨s1, s2, s5, s3, rs, s4, rfl⟩
  have hk : keyIdOk m.keyId := s3
  by_cases h0 : m.keyId = 0
  · refine ⟨{ m with authData := [] }, ?_, fun hne => absurd h0 hne, fun _ => ⟨rfl, notify_no_auth h⟩⟩
    have ha : m.calculate H key = .ok [] := calcAuth_ok.mpr (.inl ⟨h0, rfl⟩)
    simp only [MapNotify.insert, ha, exBind_okl, MapNotify.touched, if_pos h0]; rfl
  · have hc : ∃ a, m.calculate H key = .ok a ∧ a ≠ [] ∧ a.length < 65536 := by
      have hne : ∀ {a : Bytes} {n : Nat}, a.length = n + 1 → a ≠ [] := by
        intro a n ha he; rw [he] at ha; cases ha
      rcases hk with hk | hk | hk
      · exact absurd hk h0
      · exact ⟨_, calcAuth_ok.mpr (.inr (.inl ⟨hk, _, hs _ (by simp [List.replicate]) (by simp), rfl⟩)),
          hne (H.sha1_length _ _), by rw [H.sha1_length]; decide⟩
      · exact ⟨_, calcAuth_ok.mpr (.inr (.inr ⟨hk, _, hs _ (by simp [List.replicate]) (by simp), rfl⟩)),
          hne (H.sha256_length _ _), by rw [H.sha256_length]; decide⟩
    obtain ⟨a, ha, hne, hal⟩ := hc
    refine ⟨{ m with authData := a, records := rs }, ?_, fun _ => ⟨shape p m.keyId.toNat r a, ?_⟩,
      fun he => absurd he h0⟩
    · simp only [MapNotify.insert, ha, exBind_okl, MapNotify.touched, if_neg h0, hm2]; rfl
    · exact (MapNotify.toBytes_sanitized hm2 a).trans (hs a hne hal)

/-- C37: a Map-Notify verifies with a key exactly when its serialisation is authentic under that
key. -/
theorem notify_verify_iff (H : Mac) (m : MapNotify) (key d : Bytes) (h : m.toBytes = .ok d) :
    m.verify H key = .ok true ↔ Authentic H key d := by
  obtain ⟨h1, h2, p, r, hp, rfl, hs⟩ := notify_shape h
  rw [MapNotify.verify_iff]
  exact calcAuth_authentic hp h2 h1 hs

/-- C37: verification never fails with an exception for a Map-Notify that can be serialised with
some authentication data: it answers yes or no. -/
theorem notify_verify_total (H : Mac) (m : MapNotify) (key z d : Bytes)
    (h : ({ m with authData := z } : MapNotify).toBytes = .ok d) :
    ∃ b, m.verify H key = .ok b := by
  obtain ⟨m', h1, _⟩ := notify_insert_defined H m key z d h
  simp only [MapNotify.insert, exBind_ok] at h1
  obtain ⟨a, ha, _⟩ := h1
  exact ⟨m.authData == a, by simp only [MapNotify.verify, ha, exBind_okl]; rfl⟩

/-- C36: an authenticated Map-Notify, sent as bytes (with anything after it), is parsed by the
receiver and verifies there. -/
theorem notify_sent_verifies (H : Mac) (m m' : MapNotify) (key d t : Bytes) (h : m.insert H key = .ok m')
    (hd : m'.toBytes = .ok d) :
    ∃ r, MapNotify.fromBytes (d ++ t) = .ok r ∧ r.verify H key = .ok true := by
  have hv := notify_insert_verifies H m m' key h
  obtain ⟨r, hr, hrb, ha, hnn, _⟩ := MapNotify.toBytes_sanitize hd
  have hparse : MapNotify.fromBytes (d ++ t) = .ok r :=
    runOn_iff.mpr ⟨bytesToBits t, by
      rw [bytesToBits_append]; exact readMapNotify_enc (toBytes_ok.mp hd) hr _⟩
  refine ⟨r, hparse, ?_⟩
  rw [notify_verify_iff H r key d hrb]
  exact (notify_verify_iff H m' key d hd).mp hv

/-- C37: two different Map-Notifys that verify with the same key and carry the same authentication
data exhibit a collision of the MAC function (unless the key id is 0, "none"). -/
theorem notify_forgery_is_collision (H : Mac) (m1 m2 : MapNotify) (key d1 d2 : Bytes)
    (h1 : m1.toBytes = .ok d1) (h2 : m2.toBytes = .ok d2)
    (hk : m1.keyId ≠ 0) (ha : m1.authData = m2.authData)
    (hv1 : m1.verify H key = .ok true) (hv2 : m2.verify H key = .ok true) (hne : d1 ≠ d2) :
    ∃ x y, x ≠ y ∧ (H.sha1 key x = H.sha1 key y ∨ H.sha256 key x = H.sha256 key y) := by
  rw [notify_verify_iff H _ _ _ h1] at hv1
  rw [notify_verify_iff H _ _ _ h2] at hv2
  obtain ⟨l1, b1, p1, r1, hp1, rfl, _⟩ := notify_shape h1
  obtain ⟨l2, b2, p2, r2, hp2, rfl, _⟩ := notify_shape h2
  rw [← ha] at hv2 hne
  rcases authentic_collision hp1 hp2 (by omega) (by omega) (by omega) l1 hv1 hv2 with h | h
  · exact absurd h hne
  · exact h

/-- C38: verification of a received message that some sender of this code produced judges exactly
the received bytes; bytes after the message are not covered. -/
theorem notify_verify_received (H : Mac) (m r : MapNotify) (key d t : Bytes) (h : m.toBytes = .ok d)
    (hr : MapNotify.fromBytes (d ++ t) = .ok r) :
    r.verify H key = .ok true ↔ Authentic H key d := by
  obtain ⟨m', hm, hmb, ha, hnn, _⟩ := MapNotify.toBytes_sanitize h
  have hparse : MapNotify.fromBytes (d ++ t) = .ok m' :=
    runOn_iff.mpr ⟨bytesToBits t, by
      rw [bytesToBits_append]; exact readMapNotify_enc (toBytes_ok.mp h) hm _⟩
  rw [hparse] at hr; cases hr
  exact notify_verify_iff H r key d hmb

/-- C39: exactly what verification accepts: with key id 0 any key will do provided there is no
authentication data; with key ids 1 and 2 the authentication data must be the MAC of the message
with zeroed authentication data. -/
theorem notify_verify_cases (H : Mac) (m : MapNotify) (key : Bytes) : m.verify H key = .ok true ↔
    (m.keyId = 0 ∧ m.authData = []) ∨
    (m.keyId = 1 ∧ ∃ msg, ({ m with authData := List.replicate 20 0 } : MapNotify).toBytes = .ok msg ∧
      m.authData = H.sha1 key msg) ∨
    (m.keyId = 2 ∧ ∃ msg, ({ m with authData := List.replicate 32 0 } : MapNotify).toBytes = .ok msg ∧
      m.authData = H.sha256 key msg) := by
  rw [MapNotify.verify_iff]; exact calcAuth_ok

/-- C39: a Map-Notify without authentication (key id 0, no authentication data) verifies with every
key, whatever else it says. -/
theorem notify_unauthenticated_verifies (H : Mac) (m : MapNotify) (hk : m.keyId = 0) (ha : m.authData = []) :
    ∀ key, m.verify H key = .ok true :=
  fun key => (notify_verify_cases H m key).mpr (.inl ⟨hk, ha⟩)

/-! ### Info -/

/-- C36/C30: after `insert_authentication_data(key)` the Info message verifies with that key. -/
theorem info_insert_verifies (H : Mac) (m m' : Info) (key : Bytes) (h : m.insert H key = .ok m') :
    m'.verify H key = .ok true := by
  rw [Info.verify_iff]
  simp only [Info.insert, exBind_ok, exPure, Except.ok.injEq] at h
  obtain ⟨a, ha, rfl⟩ := h
  exact ha

/-- C37/C30: an Info message verifies exactly when its serialisation is authentic. -/
theorem info_verify_iff (H : Mac) (m : Info) (key d : Bytes) (h : m.toBytes = .ok d) :
    m.verify H key = .ok true ↔ Authentic H key d := by
  obtain ⟨h1, h2, p, r, hp, rfl, hs⟩ := info_shape h
  rw [Info.verify_iff]
  exact calcAuth_authentic hp h2 h1 hs

/-- C38/C30: verification of a received Info message that some sender of this code produced judges
exactly the received bytes. -/
theorem info_verify_received (H : Mac) (m r : Info) (key d t : Bytes) (h : m.toBytes = .ok d)
    (hr : Info.fromBytes (d ++ t) = .ok r) :
    r.verify H key = .ok true ↔ Authentic H key d := by
  have hparse : Info.fromBytes (d ++ t) = .ok { m with reply := m.reply.strip } :=
    runOn_iff.mpr ⟨bytesToBits t, by
      rw [bytesToBits_append]; exact readInfo_enc (toBytes_ok.mp h) _⟩
  rw [hparse] at hr; cases hr
  refine info_verify_iff H _ key d ?_
  exact (Info.toBytes_strip m m.authData).trans h

/-- C36/C30: an authenticated Info message verifies at the receiver. -/
theorem info_sent_verifies (H : Mac) (m m' : Info) (key d t : Bytes) (h : m.insert H key = .ok m')
    (hd : m'.toBytes = .ok d) :
    ∃ r, Info.fromBytes (d ++ t) = .ok r ∧ r.verify H key = .ok true := by
  have hparse : Info.fromBytes (d ++ t) = .ok { m' with reply := m'.reply.strip } :=
    runOn_iff.mpr ⟨bytesToBits t, by
      rw [bytesToBits_append]; exact readInfo_enc (toBytes_ok.mp hd) _⟩
  refine ⟨_, hparse, ?_⟩
  rw [info_verify_received H m' _ key d t hd hparse, ← info_verify_iff H m' key d hd]
  exact info_insert_verifies H m m' key h

/-- C36/C30: insertion keeps everything but the authentication data. -/
theorem info_insert_content (H : Mac) (m m' : Info) (key : Bytes) (h : m.insert H key = .ok m') :
    ∃ a, m' = { m with authData := a } := by
  simp only [Info.insert, exBind_ok, exPure, Except.ok.injEq] at h
  obtain ⟨a, _, rfl⟩ := h
  exact ⟨a, rfl⟩

theorem info_no_auth {m : Info} {z d : Bytes} (h : ({ m with authData := z } : Info).toBytes = .ok d) :
    ({ m with authData := [] } : Info).toBytes = .error .value := by
  obtain ⟨h1, h2⟩ := encInfo_ok (toBytes_ok.mp h)
  obtain ⟨a1, a2, a3, a4, a5, _⟩ := Info.sanitize_ok.mp h1
  have hn : ∃ n, m.eidPrefix = .net n := by
    cases hm : m.eidPrefix <;> simp_all [Addr.isNet]
  obtain ⟨n, hn⟩ := hn
  obtain ⟨c1, _⟩ := encInfoRaw_ok h2 hn
  have c1 : 0 ≤ m.keyId ∧ m.keyId < 2 ^ 16 := c1
  have hs : ({ m with authData := [] } : Info).sanitize = .ok { m with authData := [] } :=
    Info.sanitize_ok.mpr ⟨a1, a2, a3, a4, a5, rfl⟩
  show toBytes (encInfo _) = _
  rw [encInfo, hs, exBind_okl, encInfoRaw]
  simp only
  rw [encUint_eq_ok c1.1 c1.2, exBind_okl, encUint_eq_ok (by decide) (by decide), exBind_okl]
  rfl

/-- C36/C30/C86: insertion works for every Info message that can be serialised with some authentication
data.  With key id 1 or 2 the result can be sent; with key id 0 it has no authentication data, and to
serialise it raises ValueError. -/
theorem info_insert_defined (H : Mac) (m : Info) (key z d : Bytes)
    (h : ({ m with authData := z } : Info).toBytes = .ok d) :
    ∃ m', m.insert H key = .ok m' ∧ (m.keyId ≠ 0 → ∃ d', m'.toBytes = .ok d') ∧
      (m.keyId = 0 → m'.authData = [] ∧ m'.toBytes = .error .value) := by
  have hk : keyIdOk m.keyId := ((info_writable_iff _).mp ⟨d, h⟩).2.1
  obtain ⟨h1, h2, p, r, hp, hd, hs⟩ := info_shape h
  have hs : ∀ z : Bytes, z ≠ [] → z.length < 65536 →
    ({ m with authData := z } : Info).toBytes = .ok (shape p m.keyId.toNat r z) := hs
  have hne : ∀ {a : Bytes} {n : Nat}, a.length = n + 1 → a ≠ [] := by
    intro a n ha he; rw [he] at ha; cases ha
  by_cases h0 : m.keyId = 0
  · refine ⟨{ m with authData := [] }, ?_, fun hne => absurd h0 hne, fun _ => ⟨rfl, info_no_auth h⟩⟩
    have ha : m.calculate H key = .ok [] := calcAuth_ok.mpr (.inl ⟨h0, rfl⟩)
    simp only [Info.insert, ha, exBind_okl]; rfl
  · have hc : ∃ a, m.calculate H key = .ok a ∧ a ≠ [] ∧ a.length < 65536 := by
      rcases hk with hk | hk | hk
      · exact absurd hk h0
      · exact ⟨_, calcAuth_ok.mpr (.inr (.inl ⟨hk, _, hs _ (by simp [List.replicate]) (by simp), rfl⟩)),
          hne (H.sha1_length _ _), by rw [H.sha1_length]; decide⟩
      · exact ⟨_, calcAuth_ok.mpr (.inr (.inr ⟨hk, _, hs _ (by simp [List.replicate]) (by simp), rfl⟩)),
          hne (H.sha256_length _ _), by rw [H.sha256_length]; decide⟩
    obtain ⟨a, ha, hne, hal⟩ := hc
    exact ⟨{ m with authData := a }, by simp only [Info.insert, ha, exBind_okl]; rfl,
      fun _ => ⟨_, hs a hne hal⟩, fun he => absurd he h0⟩

/-- C37/C30: verification of an Info message that can be serialised with some authentication data
answers yes or no. -/
theorem info_verify_total (H : Mac) (m : Info) (key z d : Bytes)
    (h : ({ m with authData := z } : Info).toBytes = .ok d) :
    ∃ b, m.verify H key = .ok b := by
  obtain ⟨m', h1, _⟩ := info_insert_defined H m key z d h
  simp only [Info.insert, exBind_ok] at h1
  obtain ⟨a, ha, _⟩ := h1
  exact ⟨m.authData == a, by simp only [Info.verify, ha, exBind_okl]; rfl⟩

/-- C37/C30: two different Info messages that verify with the same key and carry the same
authentication data exhibit a collision of the MAC function (unless the key id is 0, "none"). -/
theorem info_forgery_is_collision (H : Mac) (m1 m2 : Info) (key d1 d2 : Bytes)
    (h1 : m1.toBytes = .ok d1) (h2 : m2.toBytes = .ok d2)
    (hk : m1.keyId ≠ 0) (ha : m1.authData = m2.authData)
    (hv1 : m1.verify H key = .ok true) (hv2 : m2.verify H key = .ok true) (hne : d1 ≠ d2) :
    ∃ x y, x ≠ y ∧ (H.sha1 key x = H.sha1 key y ∨ H.sha256 key x = H.sha256 key y) := by
  rw [info_verify_iff H _ _ _ h1] at hv1
  rw [info_verify_iff H _ _ _ h2] at hv2
  obtain ⟨l1, b1, p1, r1, hp1, rfl, _⟩ := info_shape h1
  obtain ⟨l2, b2, p2, r2, hp2, rfl, _⟩ := info_shape h2
  rw [← ha] at hv2 hne
  rcases authentic_collision hp1 hp2 (by omega) (by omega) (by omega) l1 hv1 hv2 with h | h
  · exact absurd h hne
  · exact h

/-- C39/C30: exactly what verification of an Info message accepts. -/
theorem info_verify_cases (H : Mac) (m : Info) (key : Bytes) : m.verify H key = .ok true ↔
    (m.keyId = 0 ∧ m.authData = []) ∨
    (m.keyId = 1 ∧ ∃ msg, ({ m with authData := List.replicate 20 0 } : Info).toBytes = .ok msg ∧
      m.authData = H.sha1 key msg) ∨
    (m.keyId = 2 ∧ ∃ msg, ({ m with authData := List.replicate 32 0 } : Info).toBytes = .ok msg ∧
      m.authData = H.sha256 key msg) := by
  rw [Info.verify_iff]; exact calcAuth_ok

/-- C39/C30: an Info message without authentication verifies with every key. -/
theorem info_unauthenticated_verifies (H : Mac) (m : Info) (hk : m.keyId = 0) (ha : m.authData = []) :
    ∀ key, m.verify H key = .ok true :=
  fun _ => Info.verify_iff.mpr (calcAuth_ok.mpr (.inl ⟨hk, ha⟩))

/-! ### Messages from other senders: verification judges the re-serialisation -/

theorem readRecord_writable {s rest : Bits} {r : Record} (h : readRecord s = .ok (r, rest)) :
    ∃ b, encRecord r = .ok b := by
  obtain ⟨raw, h1, h2⟩ := readRecord_ok h
  refine record_writable r r (Record.sanitize_idem h2) ?_
  have hl : raw.locators.length < 2 ^ 8 := by
    simp only [readRecordRaw, Rd.bind_ok, Rd.pure_ok_iff] at h1
    obtain ⟨v1, s1, _, v2, s2, hc, v3, s3, _, v4, s4, _, v5, s5, _, v6, s6, _, v7, s7, _,
      v8, s8, _, v9, s9, h9, rfl, _⟩ := h1
    obtain ⟨l2, _⟩ := readUint_ok hc
    rw [readN_length h9]; exact l2
  obtain ⟨_, _, _, _, _, e⟩ := Record.sanitize_ok.mp h2
  rw [e]
  simp only [sortBy_length]; omega

theorem readN_mem {r : Rd α} {n : Nat} {s rest : Bits} {l : List α}
    (h : readN r n s = .ok (l, rest)) : ∀ a ∈ l, ∃ s' rest', r s' = .ok (a, rest') := by
  induction n generalizing s l rest with
  | zero => simp [readN] at h; obtain ⟨rfl, _⟩ := h; simp
  | succ n ih =>
    simp only [readN, Rd.bind_ok, Rd.pure_ok_iff] at h
    obtain ⟨a, s1, h1, l', s2, h2, rfl, _⟩ := h
    intro x hx
    rcases List.mem_cons.mp hx with rfl | hx
    · exact ⟨_, _, h1⟩
    · exact ih h2 x hx

theorem readRecords_writable {n : Nat} {s rest : Bits} {l l' : List Record}
    (h : readN readRecord n s = .ok (l, rest)) (h' : sanitizeAll Record.sanitize l = .ok l') :
    l'.length = n ∧ ∀ r ∈ l', ∃ b, encRecord r = .ok b := by
  have hf : ∀ r ∈ l, r.sanitize = .ok r := by
    intro r hr
    obtain ⟨_, _, h1⟩ := readN_mem h r hr
    exact readRecord_fix h1
  rw [sanitizeAll_fix hf] at h'
  cases h'
  refine ⟨readN_length h, fun r hr => ?_⟩
  obtain ⟨_, _, h1⟩ := readN_mem h r hr
  exact readRecord_writable h1

/-- an accepted Map-Register can be serialised with other authentication data -/
theorem map_register_writable_with (d : Bytes) (m : MapRegister) (h : MapRegister.fromBytes d = .ok m) (z : Bytes)
    (hz : z ≠ []) (hzl : z.length < 65536) :
    ∃ d', ({ m with authData := z } : MapRegister).toBytes = .ok d' := by
  obtain ⟨rest, hr⟩ := runOn_iff.mp h
  obtain ⟨raw, h1, h2⟩ := readMapRegister_ok hr
  obtain ⟨a1, a2, a3, rs, a4, rfl⟩ := MapRegister.sanitize_ok.mp h2
  simp only [readMapRegisterRaw, Rd.bind_ok, Rd.pure_ok_iff] at h1
  obtain ⟨_, _, _, _, _, _, _, _, _, _, _, _, _, _, _, _, _, _, _, _, _, cnt, _, hc, _, _, _, _, _, _,
    len, _, hl, au, _, hau, _, _, hrec, _, _, _, rfl, _⟩ := h1
  obtain ⟨c1, _⟩ := readUint_ok hc
  obtain ⟨l1, _⟩ := readUint_ok hl
  have hlen := readBytes_length hau
  obtain ⟨e1, e2⟩ := readRecords_writable hrec a4
  refine (map_register_writable_iff _).mpr ⟨a1, a2, a3, ?_, ?_, e2⟩
  · exact ⟨hz, hzl⟩
  · show rs.length ≤ 255; omega

/-- C34/C86: an accepted Map-Register can be serialised again exactly when it has authentication data. -/
theorem map_register_reserialises_iff (d : Bytes) (m : MapRegister) (h : MapRegister.fromBytes d = .ok m) :
    (∃ d', m.toBytes = .ok d') ↔ m.authData ≠ [] := by
  constructor
  · rintro ⟨d', h'⟩
    exact ((map_register_writable_iff m).mp ⟨d', h'⟩).2.2.2.1.1
  · intro ha
    obtain ⟨rest, hr⟩ := runOn_iff.mp h
    obtain ⟨raw, h1, h2⟩ := readMapRegister_ok hr
    have hlen : m.authData.length < 65536 := by
      obtain ⟨_, _, _, rs, _, rfl⟩ := MapRegister.sanitize_ok.mp h2
      simp only [readMapRegisterRaw, Rd.bind_ok, Rd.pure_ok_iff] at h1
      obtain ⟨_, _, _, _, _, _, _, _, _, _, _, _, _, _, _, _, _, _, _, _, _, cnt, _, hc, _, _, _, _, _, _,
        len, _, hl, au, _, hau, _, _, hrec, _, _, _, rfl, _⟩ := h1
      obtain ⟨l1, _⟩ := readUint_ok hl
      have hlen := readBytes_length hau
      show au.length < 65536
      omega
    exact map_register_writable_with d m h m.authData ha hlen

/-- an accepted Map-Notify can be serialised with other authentication data -/
theorem map_notify_writable_with (d : Bytes) (m : MapNotify) (h : MapNotify.fromBytes d = .ok m) (z : Bytes)
    (hz : z ≠ []) (hzl : z.length < 65536) :
    ∃ d', ({ m with authData := z } : MapNotify).toBytes = .ok d' := by
  obtain ⟨rest, hr⟩ := runOn_iff.mp h
  obtain ⟨raw, h1, h2⟩ := readMapNotify_ok hr
  obtain ⟨a1, a2, a5, a3, rs, a4, rfl⟩ := MapNotify.sanitize_ok.mp h2
  simp only [readMapNotifyRaw, Rd.bind_ok, Rd.pure_ok_iff] at h1
  obtain ⟨_, _, _, _, _, _, _, _, _, cnt, _, hc, _, _, _, _, _, _,
    len, _, hl, au, _, hau, _, _, hrec, _, _, _, rfl, _⟩ := h1
  obtain ⟨c1, _⟩ := readUint_ok hc
  obtain ⟨l1, _⟩ := readUint_ok hl
  have hlen := readBytes_length hau
  obtain ⟨e1, e2⟩ := readRecords_writable hrec a4
  refine (map_notify_writable_iff _).mpr ⟨a1, a2, a5, a3, ?_, ?_, e2⟩
  · exact ⟨hz, hzl⟩
  · show rs.length ≤ 255; omega

/-- C34/C86: an accepted Map-Notify can be serialised again exactly when it has authentication data. -/
theorem map_notify_reserialises_iff (d : Bytes) (m : MapNotify) (h : MapNotify.fromBytes d = .ok m) :
    (∃ d', m.toBytes = .ok d') ↔ m.authData ≠ [] := by
  constructor
  · rintro ⟨d', h'⟩
    exact ((map_notify_writable_iff m).mp ⟨d', h'⟩).2.2.2.2.1.1
  · intro ha
    obtain ⟨rest, hr⟩ := runOn_iff.mp h
    obtain ⟨raw, h1, h2⟩ := readMapNotify_ok hr
    have hlen : m.authData.length < 65536 := by
      obtain ⟨_, _, _, _, rs, _, rfl⟩ := MapNotify.sanitize_ok.mp h2
      simp only [readMapNotifyRaw, Rd.bind_ok, Rd.pure_ok_iff] at h1
      obtain ⟨_, _, _, _, _, _, _, _, _, cnt, _, hc, _, _, _, _, _, _,
        len, _, hl, au, _, hau, _, _, hrec, _, _, _, rfl, _⟩ := h1
      obtain ⟨l1, _⟩ := readUint_ok hl
      have hlen := readBytes_length hau
      show au.length < 65536
      omega
    exact map_notify_writable_with d m h m.authData ha hlen

/-- C38: whatever bytes were received and accepted as a Map-Register, verification answers yes exactly
when the canonical re-serialisation of the parsed message is authentic; and if there is no
authentication data (so that there is no re-serialisation), when the key id is 0. -/
theorem register_verify_any (H : Mac) (r : MapRegister) (key d : Bytes) (h : MapRegister.fromBytes d = .ok r) :
    (r.authData ≠ [] → ∃ d', r.toBytes = .ok d' ∧ authField d' = r.authData ∧
      (r.verify H key = .ok true ↔ Authentic H key d')) ∧
    (r.authData = [] → r.verify H key = .ok (decide (r.keyId = 0))) := by
  obtain ⟨rest, hr⟩ := runOn_iff.mp h
  have hn := readMapRegister_nonce hr
  refine ⟨fun ha => ?_, fun ha => ?_⟩
  · obtain ⟨d', hd'⟩ := (map_register_reserialises_iff d r h).mpr ha
    refine ⟨d', hd', ?_, register_verify_iff H r key d' hd' hn⟩
    obtain ⟨h1, h2, p, q, hp, rfl, _⟩ := register_shape hd' hn
    exact (shape_fields hp (by omega) h1).2.2.1
  · obtain ⟨d', hd'⟩ := map_register_writable_with d r h [0] (by simp) (by simp)
    obtain ⟨b, hb⟩ := register_verify_total H r key _ d' hd' hn
    rw [hb]
    congr 1
    rw [Bool.eq_iff_iff, decide_eq_true_eq]
    constructor
    · rintro rfl
      rcases (register_verify_cases H r key).mp hb with ⟨h0, _⟩ | ⟨_, msg, _, he⟩ | ⟨_, msg, _, he⟩
      · exact h0
      · rw [ha] at he
        have := congrArg List.length he
        rw [H.sha1_length] at this; cases this
      · rw [ha] at he
        have := congrArg List.length he
        rw [H.sha256_length] at this; cases this
    · intro h0
      rw [(register_verify_cases H r key).mpr (.inl ⟨h0, ha⟩)] at hb
      cases hb; rfl

/-- C38: whatever bytes were received and accepted as a Map-Notify, verification answers yes exactly
when the canonical re-serialisation of the parsed message is authentic; and if there is no
authentication data (so that there is no re-serialisation), when the key id is 0. -/
theorem notify_verify_any (H : Mac) (r : MapNotify) (key d : Bytes) (h : MapNotify.fromBytes d = .ok r) :
    (r.authData ≠ [] → ∃ d', r.toBytes = .ok d' ∧ authField d' = r.authData ∧
      (r.verify H key = .ok true ↔ Authentic H key d')) ∧
    (r.authData = [] → r.verify H key = .ok (decide (r.keyId = 0))) := by
  refine ⟨fun ha => ?_, fun ha => ?_⟩
  · obtain ⟨d', hd'⟩ := (map_notify_reserialises_iff d r h).mpr ha
    refine ⟨d', hd', ?_, notify_verify_iff H r key d' hd'⟩
    obtain ⟨h1, h2, p, q, hp, rfl, _⟩ := notify_shape hd'
    exact (shape_fields hp (by omega) h1).2.2.1
  · obtain ⟨d', hd'⟩ := map_notify_writable_with d r h [0] (by simp) (by simp)
    obtain ⟨b, hb⟩ := notify_verify_total H r key _ d' hd'
    rw [hb]
    congr 1
    rw [Bool.eq_iff_iff, decide_eq_true_eq]
    constructor
    · rintro rfl
      rcases (notify_verify_cases H r key).mp hb with ⟨h0, _⟩ | ⟨_, msg, _, he⟩ | ⟨_, msg, _, he⟩
      · exact h0
      · rw [ha] at he
        have := congrArg List.length he
        rw [H.sha1_length] at this; cases this
      · rw [ha] at he
        have := congrArg List.length he
        rw [H.sha256_length] at this; cases this
    · intro h0
      rw [(notify_verify_cases H r key).mpr (.inl ⟨h0, ha⟩)] at hb
      cases hb; rfl

theorem or2_bits : ∀ n : Nat, n < 256 → natToBits 8 (n ||| 2) = (natToBits 8 n).set 6 true := by
  decide +kernel

/-- C38: a message from a sender that sets the I flag although it has neither an xTR-ID nor a
site-ID (so 24 zero bytes follow the records) is parsed like the message without them: its MAC,
made over the longer message, is compared with the MAC of the shorter one. -/
theorem register_zero_ids_not_covered (m : MapRegister) (d : Bytes) (b : Byte) (tl : Bytes)
    (h : m.toBytes = .ok d) (hn : m.nonce.length = 8)
    (hx : m.xtrId = 0) (hs : m.siteId = 0) (hr : m.forRtr = false) (hd : d = b :: tl) :
    MapRegister.fromBytes ((b ||| 2) :: tl ++ List.replicate 24 0) = MapRegister.fromBytes d := by
  have h' := toBytes_ok.mp h
  obtain ⟨m', h1, h2⟩ := encMapRegister_ok h'
  have hp : MapRegister.fromBytes d = .ok m' := runOn_enc fun t => readMapRegister_enc h' hn h1 t
  rw [hp]
  have hi := MapRegister.sanitize_idem h1
  obtain ⟨_, _, _, rs, hrs, rfl⟩ := MapRegister.sanitize_ok.mp h1
  obtain ⟨c1, c2, c3, b4, b5, h4, h5, e⟩ := encMapRegisterRaw_ok h2
  have c1 : rs.length < 2 ^ 8 := c1
  have c2 : 0 ≤ m.keyId ∧ m.keyId < 2 ^ 16 := c2
  have c3 : m.authData.length < 2 ^ 16 := c3.2
  have h4 : encAll encRecord rs = .ok b4 := h4
  have hids : m.hasIds = false := by simp [MapRegister.hasIds, hx, hs, hr]
  have h5 : encIds m.hasIds m.xtrId m.siteId = .ok b5 := h5
  rw [hids] at h5
  cases h5
  have e : bytesToBits d = natToBits 4 3 ++ [m.proxyMapReply] ++ natToBits 1 m.reserved1.toNat ++
      [m.hasIds, m.forRtr] ++ natToBits 15 m.reserved2.toNat ++ [m.wantMapNotify] ++
      natToBits 8 rs.length ++ bytesToBits m.nonce ++ natToBits 16 m.keyId.toNat ++
      natToBits 16 m.authData.length ++ bytesToBits m.authData ++ b4 ++ [] := e
  rw [hd] at e
  obtain ⟨x, hx1⟩ : ∃ x, natToBits 1 m.reserved1.toNat = [x] :=
    List.length_eq_one_iff.mp (natToBits_length _ _)
  have e3 : natToBits 4 3 = [false, false, true, true] := by decide +kernel
  have e0 : (natToBits 8 b.toNat) = [false, false, true, true, m.proxyMapReply, x, false, false] ∧
      bytesToBits tl = natToBits 15 m.reserved2.toNat ++ [m.wantMapNotify] ++
      natToBits 8 rs.length ++ bytesToBits m.nonce ++ natToBits 16 m.keyId.toNat ++
      natToBits 16 m.authData.length ++ bytesToBits m.authData ++ b4 := by
    rw [bytesToBits, hids, hr, hx1, e3] at e
    refine List.append_inj ?_ (by simp)
    rw [e]; simp
  have ebits : bytesToBits ((b ||| 2) :: tl ++ List.replicate 24 0) =
      natToBits 4 3 ++ [m.proxyMapReply] ++ natToBits 1 m.reserved1.toNat ++
      [true, m.forRtr] ++ natToBits 15 m.reserved2.toNat ++ [m.wantMapNotify] ++
      natToBits 8 rs.length ++ bytesToBits m.nonce ++ natToBits 16 m.keyId.toNat ++
      natToBits 16 m.authData.length ++ bytesToBits m.authData ++ b4 ++
      (natToBits 128 0 ++ natToBits 64 0) := by
    have eb : natToBits 8 (b ||| 2).toNat =
        [false, false, true, true, m.proxyMapReply, x, true, false] := by
      have : (b ||| 2).toNat = b.toNat ||| 2 := by simp
      rw [this, or2_bits _ b.isLt, e0.1]; rfl
    have ez : bytesToBits (List.replicate 24 0) = natToBits 128 0 ++ natToBits 64 0 := by
      decide +kernel
    rw [List.cons_append, bytesToBits, bytesToBits_append, eb, e0.2, ez, hx1, e3, hr]
    simp
  have hf : ∀ r ∈ rs, r.sanitize = .ok r := MapRegister.fix_records hi
  have r4 := readRecords_enc h4 hf (natToBits 128 0 ++ natToBits 64 0)
  refine runOn_iff.mpr ⟨[], ?_⟩
  rw [ebits]
  have r6 := readUint_app (n := 64) (v := 0) (by decide) []
  rw [List.append_nil] at r6
  have hraw : readMapRegisterRaw (natToBits 4 3 ++ [m.proxyMapReply] ++
      natToBits 1 m.reserved1.toNat ++
      [true, m.forRtr] ++ natToBits 15 m.reserved2.toNat ++ [m.wantMapNotify] ++
      natToBits 8 rs.length ++ bytesToBits m.nonce ++ natToBits 16 m.keyId.toNat ++
      natToBits 16 m.authData.length ++ bytesToBits m.authData ++ b4 ++
      (natToBits 128 0 ++ natToBits 64 0)) = .ok ({ m with records := rs }, []) := by
    simp only [readMapRegisterRaw, Rd.bind_apply, List.append_assoc, List.cons_append,
      List.nil_append, expectType_app (show 3 < 2 ^ 4 by decide), readBool_cons,
      readUint_app m.reserved1.isLt, readUint_app m.reserved2.isLt, readUint_app c1,
      readBytes_app' hn, readUint_app_int c2.1 c2.2, readUint_app c3, readBytes_app' rfl, r4,
      readIds, if_true, readUint_app (n := 128) (v := 0) (by decide), r6,
      Rd.pure_apply, BitVec_ofNat_toNat', Int.toNat_of_nonneg c2.1]
    simp [hx, hs]
  rw [readMapRegister, Rd.bind_apply, hraw]
  simp only
  rw [hi]
  rfl

/-! ### Non-vacuity -/

/-- a toy MAC (a keyed sum) to run the theorems on; nothing depends on it -/
def toyMac : Mac where
  sha1 k m := List.replicate 20 (BitVec.ofNat 8 ((k ++ m).foldl (fun s b => 3 * s + b.toNat) 7))
  sha256 k m := List.replicate 32 (BitVec.ofNat 8 ((k ++ m).foldl (fun s b => 5 * s + b.toNat) 1))
  sha1_length := by simp
  sha256_length := by simp

def exKey : Bytes := [0x73, 0x65, 0x63]

example : ∃ d, exRegister.toBytes = .ok d ∧ exRegister.nonce.length = 8 :=
  ⟨_, (isOk_iff.mp (by decide +kernel) : ∃ d, exRegister.toBytes = .ok d).choose_spec, rfl⟩
example : ∃ m', exRegister.insert toyMac exKey = .ok m' ∧ ∃ d, m'.toBytes = .ok d := by
  obtain ⟨d, hd⟩ := show ∃ d, exRegister.toBytes = .ok d from isOk_iff.mp (by decide +kernel)
  obtain ⟨m', h1, h2, _⟩ := register_insert_defined toyMac exRegister exKey _ d hd rfl
  exact ⟨m', h1, h2 (by decide)⟩
example : ∃ m', exNotify.insert toyMac exKey = .ok m' ∧ ∃ d, m'.toBytes = .ok d := by
  obtain ⟨d, hd⟩ := show ∃ d, exNotify.toBytes = .ok d from isOk_iff.mp (by decide +kernel)
  obtain ⟨m', h1, h2, _⟩ := notify_insert_defined toyMac exNotify exKey _ d hd
  exact ⟨m', h1, h2 (by decide)⟩
/-- the message need not have authentication data before -/
example : ∃ m', ({ exRegister with authData := [] } : MapRegister).insert toyMac exKey = .ok m' ∧
    ∃ d, m'.toBytes = .ok d := by
  obtain ⟨d, hd⟩ := show ∃ d, exRegister.toBytes = .ok d from isOk_iff.mp (by decide +kernel)
  obtain ⟨m', h1, h2, _⟩ := register_insert_defined toyMac { exRegister with authData := [] } exKey
    exRegister.authData d hd rfl
  exact ⟨m', h1, h2 (by decide)⟩
/-- and with key id 0 it cannot be sent -/
example : ∃ m', ({ exRegister with keyId := 0 } : MapRegister).insert toyMac exKey = .ok m' ∧
    m'.toBytes = .error .value := by
  obtain ⟨d, hd⟩ := show ∃ d, ({ exRegister with keyId := 0 } : MapRegister).toBytes = .ok d from
    isOk_iff.mp (by decide +kernel)
  obtain ⟨m', h1, _, h2⟩ := register_insert_defined toyMac { exRegister with keyId := 0 } exKey _ d hd rfl
  exact ⟨m', h1, (h2 rfl).2⟩
/-- a message with the wrong authentication data does not verify -/
example : exRegister.verify toyMac exKey = .ok false := by decide +kernel
example : exInfo.verify toyMac exKey = .ok false := by decide +kernel
/-- an unauthenticated one does, with any key -/
example : ({ exRegister with keyId := 0, authData := [] } : MapRegister).verify toyMac exKey = .ok true := by
  decide +kernel
/-- hypotheses of the I-flag theorem -/
example : ∃ b tl, ({ exRegister with xtrId := 0, siteId := 0 } : MapRegister).toBytes = .ok (b :: tl) := by
  obtain ⟨d, hd⟩ := show ∃ d, ({ exRegister with xtrId := 0, siteId := 0 } : MapRegister).toBytes = .ok d
    from isOk_iff.mp (by decide +kernel)
  match d, hd with
  | b :: tl, hd => exact ⟨b, tl, hd⟩
  | [], hd =>
    exfalso
    have h : ({ exRegister with xtrId := 0, siteId := 0 } : MapRegister).toBytes ≠ .ok [] := by
      decide +kernel
    exact h hd

end PyLisp.Props
