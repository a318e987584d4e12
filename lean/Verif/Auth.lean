import Verif.Wire
/-
Model of the authentication methods of the control messages:
`calculate_authentication_data`, `verify_authentication_data` and `insert_authentication_data`
(map_register.py:159-207, map_notify.py:97-145, info_message.py:112-160).

`hmac.new(key, msg, digestmod).digest()` is library code; it is an arbitrary pair of functions
with the right output lengths (`Mac`), so every theorem holds for the real HMAC-SHA-1 and
HMAC-SHA-256 in particular.
-/
namespace PyLisp

/-- `hmac.new(key, msg, hashlib.sha1).digest()` and `hmac.new(key, msg, hashlib.sha256).digest()`:
unknown functions of key and message with 20- and 32-byte results -/
structure Mac where
  sha1 : Bytes → Bytes → Bytes
  sha256 : Bytes → Bytes → Bytes
  sha1_length : ∀ k m, (sha1 k m).length = 20
  sha256_length : ∀ k m, (sha256 k m).length = 32

/-- map_register.py:159-191 (and, literally the same code, map_notify.py:97-129,
info_message.py:112-144) `calculate_authentication_data`; `ser z` is `self.to_bytes()` while
`self.authentication_data` is `z` -/
def calcAuth (H : Mac) (keyId : Int) (key : Bytes) (ser : Bytes → Except Err Bytes) :
    Except Err Bytes :=
  if keyId = 0 then .ok []
  else if keyId = 1 then do
    let msg ← ser (List.replicate 20 0)
    pure (H.sha1 key msg)
  else if keyId = 2 then do
    let msg ← ser (List.replicate 32 0)
    pure (H.sha256 key msg)
  else .error .value

/-! ### Map-Register -/

/-- map_register.py:159-191 -/
def MapRegister.calculate (H : Mac) (m : MapRegister) (key : Bytes) : Except Err Bytes :=
  calcAuth H m.keyId key fun z => { m with authData := z }.toBytes

/-- map_register.py:193-199.  (`to_bytes` also sanitises the records of the object in place; that
does not change what it serialises to and is only modelled in `insert`.) -/
def MapRegister.verify (H : Mac) (m : MapRegister) (key : Bytes) : Except Err Bool := do
  let a ← m.calculate H key
  pure (m.authData == a)

/-- map_register.py:159-207: what calculating does to the object itself: `to_bytes` sanitises the records in
place, unless the key id is 0 (no `to_bytes` call then) -/
def MapRegister.touched (m : MapRegister) : Except Err MapRegister := if m.keyId = 0 then .ok m else m.sanitize

/-- map_register.py:201-207, returning the changed object: the MAC is stored, and unless the key id
is 0 (no `to_bytes` call then) the records have been sanitised in place.  (The state of the object
after an exception: Objects.lean, C78.) -/
def MapRegister.insert (H : Mac) (m : MapRegister) (key : Bytes) : Except Err MapRegister := do
  let a ← m.calculate H key
  let m' ← m.touched
  pure { m' with authData := a }

/-! ### Map-Notify -/

/-- map_notify.py:97-129 -/
def MapNotify.calculate (H : Mac) (m : MapNotify) (key : Bytes) : Except Err Bytes :=
  calcAuth H m.keyId key fun z => { m with authData := z }.toBytes

/-- map_notify.py:131-137 -/
def MapNotify.verify (H : Mac) (m : MapNotify) (key : Bytes) : Except Err Bool := do
  let a ← m.calculate H key
  pure (m.authData == a)

/-- map_notify.py:97-145: what calculating does to the object itself: `to_bytes` sanitises the records in
place, unless the key id is 0 (no `to_bytes` call then) -/
def MapNotify.touched (m : MapNotify) : Except Err MapNotify := if m.keyId = 0 then .ok m else m.sanitize

/-- map_notify.py:139-145 (see `MapRegister.insert`) -/
def MapNotify.insert (H : Mac) (m : MapNotify) (key : Bytes) : Except Err MapNotify := do
  let a ← m.calculate H key
  let m' ← m.touched
  pure { m' with authData := a }

/-! ### Info -/

/-- info_message.py:112-144 -/
def Info.calculate (H : Mac) (m : Info) (key : Bytes) : Except Err Bytes :=
  calcAuth H m.keyId key fun z => { m with authData := z }.toBytes

/-- info_message.py:146-152 -/
def Info.verify (H : Mac) (m : Info) (key : Bytes) : Except Err Bool := do
  let a ← m.calculate H key
  pure (m.authData == a)

/-- info_message.py:154-160 -/
def Info.insert (H : Mac) (m : Info) (key : Bytes) : Except Err Info := do
  let a ← m.calculate H key
  pure { m with authData := a }

/-! ### Lemmas -/

/-! ### A key of None -/

/-- calling one of these methods with a key that may be None (an ETR registration need not have a key,
etr_registration.py:16-28): `hmac.new(None, …)` raises TypeError.  It is called last in
`calculate_authentication_data` (map_register.py:191, map_notify.py:129, info_message.py:144), when the key id is not
0 and the message has been serialised; up to there the key does not matter. -/
def withKey (key : Option Bytes) (keyId : Int) (f : Bytes → Except Err α) : Except Err α :=
  match key with
  | some k => f k
  | none =>
    match f [] with
    | .error e => .error e
    | .ok a => if keyId = 0 then .ok a else .error .type

/-- map_register.py:201-207 -/
def MapRegister.insertWith (H : Mac) (m : MapRegister) (key : Option Bytes) : Except Err MapRegister :=
  withKey key m.keyId (m.insert H)

/-- map_notify.py:131-137 -/
def MapNotify.verifyWith (H : Mac) (n : MapNotify) (key : Option Bytes) : Except Err Bool :=
  withKey key n.keyId (n.verify H)

/-- info_message.py:154-160 -/
def Info.insertWith (H : Mac) (m : Info) (key : Option Bytes) : Except Err Info :=
  withKey key m.keyId (m.insert H)

theorem withKey_ok {key : Option Bytes} {kid : Int} {f : Bytes → Except Err α} {a : α} :
    withKey key kid f = .ok a ↔
      (∃ k, key = some k ∧ f k = .ok a) ∨ (key = none ∧ kid = 0 ∧ f [] = .ok a) := by
  cases key with
  | some k => simp [withKey]
  | none =>
    simp only [withKey]
    cases f [] with
    | error e => simp
    | ok b =>
      dsimp only
      split <;> simp_all

theorem calcAuth_ok {H : Mac} {k : Int} {key : Bytes} {ser : Bytes → Except Err Bytes} {a : Bytes} :
    calcAuth H k key ser = .ok a ↔
      (k = 0 ∧ a = []) ∨
      (k = 1 ∧ ∃ msg, ser (List.replicate 20 0) = .ok msg ∧ a = H.sha1 key msg) ∨
      (k = 2 ∧ ∃ msg, ser (List.replicate 32 0) = .ok msg ∧ a = H.sha256 key msg) := by
  unfold calcAuth
  split
  · rename_i h; subst h
    simp only [Except.ok.injEq]
    constructor
    · intro h; exact .inl ⟨trivial, h.symm⟩
    · rintro (⟨_, rfl⟩ | ⟨h, _⟩ | ⟨h, _⟩)
      · rfl
      · omega
      · omega
  split
  · rename_i h0 h; subst h
    simp only [exBind_ok, exPure, Except.ok.injEq]
    constructor
    · rintro ⟨msg, h, rfl⟩; exact .inr (.inl ⟨trivial, msg, h, rfl⟩)
    · rintro (⟨h, _⟩ | ⟨_, msg, h, rfl⟩ | ⟨h, _⟩)
      · omega
      · exact ⟨msg, h, rfl⟩
      · omega
  split
  · rename_i h0 h1 h; subst h
    simp only [exBind_ok, exPure, Except.ok.injEq]
    constructor
    · rintro ⟨msg, h, rfl⟩; exact .inr (.inr ⟨trivial, msg, h, rfl⟩)
    · rintro (⟨h, _⟩ | ⟨h, _⟩ | ⟨_, msg, h, rfl⟩)
      · omega
      · omega
      · exact ⟨msg, h, rfl⟩
  · rename_i h0 h1 h2
    constructor
    · intro h; cases h
    · rintro (⟨h, _⟩ | ⟨h, _⟩ | ⟨h, _⟩)
      · exact absurd h h0
      · exact absurd h h1
      · exact absurd h h2

theorem verify_true {e : Except Err Bytes} {a : Bytes} :
    (e >>= fun x => (pure (a == x) : Except Err Bool)) = .ok true ↔ e = .ok a := by
  simp only [exBind_ok, exPure, Except.ok.injEq, beq_iff_eq]
  constructor
  · rintro ⟨x, h, rfl⟩; exact h
  · intro h; exact ⟨_, h, rfl⟩

theorem MapRegister.verify_iff {H : Mac} {m : MapRegister} {key : Bytes} :
    m.verify H key = .ok true ↔ m.calculate H key = .ok m.authData := verify_true
theorem MapNotify.verify_iff {H : Mac} {m : MapNotify} {key : Bytes} :
    m.verify H key = .ok true ↔ m.calculate H key = .ok m.authData := verify_true
theorem Info.verify_iff {H : Mac} {m : Info} {key : Bytes} :
    m.verify H key = .ok true ↔ m.calculate H key = .ok m.authData := verify_true

/-- sanitising does not change what a message serialises to -/
theorem MapRegister.toBytes_sanitized {m m' : MapRegister} (h : m.sanitize = .ok m') (z : Bytes) :
    ({ m' with authData := z } : MapRegister).toBytes =
      ({ m with authData := z } : MapRegister).toBytes := by
  obtain ⟨h1, h2, h3, rs, h4, rfl⟩ := MapRegister.sanitize_ok.mp h
  have e1 : ({ m with authData := z } : MapRegister).sanitize =
      .ok { m with authData := z, records := rs } :=
    MapRegister.sanitize_ok.mpr ⟨h1, h2, h3, rs, h4, rfl⟩
  have e2 : ({ m with authData := z, records := rs } : MapRegister).sanitize =
      .ok { m with authData := z, records := rs } := MapRegister.sanitize_idem e1
  show PyLisp.toBytes (encMapRegister _) = PyLisp.toBytes (encMapRegister _)
  congr 1
  show (({ m with authData := z, records := rs } : MapRegister).sanitize >>= encMapRegisterRaw) =
    (({ m with authData := z } : MapRegister).sanitize >>= encMapRegisterRaw)
  rw [e1, e2]

theorem MapNotify.toBytes_sanitized {m m' : MapNotify} (h : m.sanitize = .ok m') (z : Bytes) :
    ({ m' with authData := z } : MapNotify).toBytes =
      ({ m with authData := z } : MapNotify).toBytes := by
  obtain ⟨h1, h2, h3, h5, rs, h4, rfl⟩ := MapNotify.sanitize_ok.mp h
  have e1 : ({ m with authData := z } : MapNotify).sanitize =
      .ok { m with authData := z, records := rs } :=
    MapNotify.sanitize_ok.mpr ⟨h1, h2, h3, h5, rs, h4, rfl⟩
  have e2 : ({ m with authData := z, records := rs } : MapNotify).sanitize =
      .ok { m with authData := z, records := rs } := MapNotify.sanitize_idem e1
  show PyLisp.toBytes (encMapNotify _) = PyLisp.toBytes (encMapNotify _)
  congr 1
  show (({ m with authData := z, records := rs } : MapNotify).sanitize >>= encMapNotifyRaw) =
    (({ m with authData := z } : MapNotify).sanitize >>= encMapNotifyRaw)
  rw [e1, e2]

theorem MapRegister.calculate_sanitized {H : Mac} {m m' : MapRegister} (h : m.sanitize = .ok m')
    (a key : Bytes) : ({ m' with authData := a } : MapRegister).calculate H key =
      m.calculate H key := by
  have hk : m'.keyId = m.keyId := by
    obtain ⟨_, _, _, rs, _, rfl⟩ := MapRegister.sanitize_ok.mp h; rfl
  have e : (fun z => ({ m' with authData := z } : MapRegister).toBytes) =
      fun z => ({ m with authData := z } : MapRegister).toBytes :=
    funext fun z => MapRegister.toBytes_sanitized h z
  show calcAuth H m'.keyId key (fun z => ({ m' with authData := z } : MapRegister).toBytes) =
    calcAuth H m.keyId key (fun z => ({ m with authData := z } : MapRegister).toBytes)
  rw [e, hk]

theorem MapNotify.calculate_sanitized {H : Mac} {m m' : MapNotify} (h : m.sanitize = .ok m')
    (a key : Bytes) : ({ m' with authData := a } : MapNotify).calculate H key =
      m.calculate H key := by
  have hk : m'.keyId = m.keyId := by
    obtain ⟨_, _, _, _, rs, _, rfl⟩ := MapNotify.sanitize_ok.mp h; rfl
  have e : (fun z => ({ m' with authData := z } : MapNotify).toBytes) =
      fun z => ({ m with authData := z } : MapNotify).toBytes :=
    funext fun z => MapNotify.toBytes_sanitized h z
  show calcAuth H m'.keyId key (fun z => ({ m' with authData := z } : MapNotify).toBytes) =
    calcAuth H m.keyId key (fun z => ({ m with authData := z } : MapNotify).toBytes)
  rw [e, hk]

theorem MapRegister.toBytes_sanitize {m : MapRegister} {d : Bytes} (h : m.toBytes = .ok d) :
    ∃ m', m.sanitize = .ok m' ∧ m'.toBytes = .ok d ∧ m'.authData = m.authData ∧
      m'.nonce = m.nonce ∧ m'.keyId = m.keyId := by
  obtain ⟨m', h1, _⟩ := encMapRegister_ok (toBytes_ok.mp h)
  have := MapRegister.toBytes_sanitized h1 m.authData
  have ha : m'.authData = m.authData ∧ m'.nonce = m.nonce ∧ m'.keyId = m.keyId := by
    obtain ⟨_, _, _, rs, _, rfl⟩ := MapRegister.sanitize_ok.mp h1; exact ⟨rfl, rfl, rfl⟩
  refine ⟨m', h1, ?_, ha⟩
  have e : ({ m' with authData := m.authData } : MapRegister) = m' := by rw [← ha.1]
  rw [e] at this
  exact this.trans h

theorem MapNotify.toBytes_sanitize {m : MapNotify} {d : Bytes} (h : m.toBytes = .ok d) :
    ∃ m', m.sanitize = .ok m' ∧ m'.toBytes = .ok d ∧ m'.authData = m.authData ∧
      m'.nonce = m.nonce ∧ m'.keyId = m.keyId := by
  obtain ⟨m', h1, _⟩ := encMapNotify_ok (toBytes_ok.mp h)
  have := MapNotify.toBytes_sanitized h1 m.authData
  have ha : m'.authData = m.authData ∧ m'.nonce = m.nonce ∧ m'.keyId = m.keyId := by
    obtain ⟨_, _, _, _, rs, _, rfl⟩ := MapNotify.sanitize_ok.mp h1; exact ⟨rfl, rfl, rfl⟩
  refine ⟨m', h1, ?_, ha⟩
  have e : ({ m' with authData := m.authData } : MapNotify) = m' := by rw [← ha.1]
  rw [e] at this
  exact this.trans h

mutual
/-- an address is written like what a receiver makes of it -/
theorem encAddr_strip : ∀ a : Addr, encAddr a.strip = encAddr a
  | .none => rfl
  | .ip _ => rfl
  | .net _ => rfl
  | .null => rfl
  | .afiList l => by simp only [Addr.strip, encAddr, encAddrs_strip l]
  | .inst i a m => by simp only [Addr.strip, encAddr, encAddr_strip a]
  | .asn n a => by simp only [Addr.strip, encAddr, encAddr_strip a]
  | .geo _ _ _ _ _ _ _ _ _ a => by simp only [Addr.strip, encAddr, encAddr_strip a]
  | .natT mp ep g m p l => by
    simp only [Addr.strip, encAddr, encAddr_strip g, encAddr_strip m, encAddr_strip p,
      encAddrs_strip l]
theorem encAddrs_strip : ∀ l : List Addr, encAddrs (stripList l) = encAddrs l
  | [] => rfl
  | a :: l => by simp only [stripList, encAddrs, encAddr_strip a, encAddrs_strip l]
end

theorem Info.sanitize_strip (m : Info) (z : Bytes) :
    ({ m with authData := z, reply := m.reply.strip } : Info).sanitize =
      .ok { m with authData := z, reply := m.reply.strip } ↔
    ({ m with authData := z } : Info).sanitize = .ok { m with authData := z } := by
  have hr : replyOk m.isReply m.reply.strip = replyOk m.isReply m.reply := by
    cases m.isReply <;> cases hm : m.reply <;> simp [replyOk, Addr.strip]
  simp only [Info.sanitize_ok, hr, and_true]

theorem Info.toBytes_strip (m : Info) (z : Bytes) :
    ({ m with authData := z, reply := m.reply.strip } : Info).toBytes =
      ({ m with authData := z } : Info).toBytes := by
  have hs : ∀ i : Info, i.sanitize = .ok i ∨ ∃ e, i.sanitize = .error e := by
    intro i
    cases h : i.sanitize with
    | ok x => obtain ⟨_, _, _, _, _, rfl⟩ := Info.sanitize_ok.mp h; exact .inl rfl
    | error e => exact .inr ⟨e, rfl⟩
  have hr : replyOk m.isReply m.reply.strip = replyOk m.isReply m.reply := by
    cases m.isReply <;> cases hm : m.reply <;> simp [replyOk, Addr.strip]
  have h1 : ∀ (x : Info), x.isReply = m.isReply → x.reply = m.reply →
      ({ x with reply := m.reply.strip } : Info).sanitize =
      x.sanitize.map fun _ => ({ x with reply := m.reply.strip } : Info) := by
    intro x hi hx
    unfold Info.sanitize
    simp only [hi, hr, hx]
    repeat (first | split | rfl)
  show PyLisp.toBytes (encInfo _) = PyLisp.toBytes (encInfo _)
  congr 1
  have h2 := h1 { m with authData := z } rfl rfl
  show (({ m with authData := z, reply := m.reply.strip } : Info).sanitize >>= encInfoRaw) =
    (({ m with authData := z } : Info).sanitize >>= encInfoRaw)
  have h2 : ({ m with authData := z, reply := m.reply.strip } : Info).sanitize =
      ({ m with authData := z } : Info).sanitize.map fun _ =>
        ({ m with authData := z, reply := m.reply.strip } : Info) := h2
  rw [h2]
  rcases hs { m with authData := z } with h | ⟨e, h⟩
  · rw [h]
    show encInfoRaw _ = encInfoRaw _
    simp only [encInfoRaw, encAddr_strip]
  · rw [h]; rfl

theorem bytesToBits_take (d : Bytes) (k : Nat) :
    bytesToBits (d.take k) = (bytesToBits d).take (8 * k) := by
  by_cases h : k ≤ d.length
  · have e : bytesToBits d = bytesToBits (d.take k) ++ bytesToBits (d.drop k) := by
      rw [← bytesToBits_append, List.take_append_drop]
    rw [e, List.take_left' (by simp; omega)]
  · rw [List.take_of_length_le (by omega), List.take_of_length_le (by simp; omega)]

theorem bytesToBits_drop (d : Bytes) (k : Nat) :
    bytesToBits (d.drop k) = (bytesToBits d).drop (8 * k) := by
  by_cases h : k ≤ d.length
  · have e : bytesToBits d = bytesToBits (d.take k) ++ bytesToBits (d.drop k) := by
      rw [← bytesToBits_append, List.take_append_drop]
    rw [e, List.drop_left' (by simp; omega)]
  · rw [List.drop_of_length_le (by omega), List.drop_of_length_le (by simp; omega)]; rfl

end PyLisp
