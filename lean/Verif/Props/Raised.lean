import Verif.LcafWitness
/-
Property C77: which exceptions the parsers raise, and when.
-/
namespace PyLisp.Props
open PyLisp

attribute [local irreducible] natToBits readUint readBits readBool readBytes readInt zeros readIP

/-! ### The exception classes -/

/-- ValueError, or bitstring's ReadError (an IndexError) -/
def Refused (e : Err) : Prop := e = .value ∨ e = .read
/-- … or TypeError -/
def RefusedT (e : Err) : Prop := e = .value ∨ e = .read ∨ e = .type
/-- … or NotImplementedError -/
def RefusedTN (e : Err) : Prop := e = .value ∨ e = .read ∨ e = .type ∨ e = .notImpl

instance : VR Refused := ⟨.inl rfl, .inr rfl⟩
instance : VRT RefusedT := { value := .inl rfl, read := .inr (.inl rfl), type := .inr (.inr rfl) }
instance : VRTN RefusedTN :=
  { value := .inl rfl, read := .inr (.inl rfl), type := .inr (.inr (.inl rfl)),
    notImpl := .inr (.inr (.inr rfl)) }

/-- C77: reading an address raises nothing but ValueError and ReadError. -/
theorem address_raises (b : Bytes) (e : Err) (h : runOn (readAfi none) (bytesToBits b) = .error e) :
    e = .value ∨ e = .read :=
  Raises.runOn (P := Refused) (.readAfi_none _) e h

/-- C77: reading a prefix, a locator, a record or a message raises nothing but ValueError, ReadError and,
where there may be LCAF addresses, TypeError. -/
theorem prefix_raises (p : Nat) (b : Bytes) (e : Err)
    (h : runOn (readAfi (some p)) (bytesToBits b) = .error e) : e = .value ∨ e = .read ∨ e = .type :=
  Raises.runOn (P := RefusedT) (.readAfi _ _) e h
/-- C77 -/
theorem locator_raises (b : Bytes) (e : Err) (h : runOn readLocator (bytesToBits b) = .error e) :
    e = .value ∨ e = .read :=
  Raises.runOn (P := Refused) (.readLocator _) e h
/-- C77 -/
theorem record_raises (b : Bytes) (e : Err) (h : runOn readRecord (bytesToBits b) = .error e) :
    e = .value ∨ e = .read ∨ e = .type :=
  Raises.runOn (P := RefusedT) (.readRecord _) e h
/-- C77 -/
theorem map_request_raises (b : Bytes) (e : Err) (h : runOn readMapRequest (bytesToBits b) = .error e) :
    e = .value ∨ e = .read ∨ e = .type :=
  Raises.runOn (P := RefusedT) (.readMapRequest _) e h
/-- C77 -/
theorem map_register_raises (b : Bytes) (e : Err)
    (h : runOn readMapRegister (bytesToBits b) = .error e) : e = .value ∨ e = .read ∨ e = .type :=
  Raises.runOn (P := RefusedT) (.readMapRegister _) e h
/-- C77 -/
theorem map_notify_raises (b : Bytes) (e : Err) (h : runOn readMapNotify (bytesToBits b) = .error e) :
    e = .value ∨ e = .read ∨ e = .type :=
  Raises.runOn (P := RefusedT) (.readMapNotify _) e h
/-- C77 -/
theorem info_raises (b : Bytes) (e : Err) (h : runOn readInfo (bytesToBits b) = .error e) :
    e = .value ∨ e = .read ∨ e = .type :=
  Raises.runOn (P := RefusedT) (.readInfo _) e h
/-- C77: Map-Replies, Map-Referrals and everything that may contain one can also be refused with
NotImplementedError. -/
theorem map_reply_raises (b : Bytes) (e : Err) (h : runOn readMapReply (bytesToBits b) = .error e) :
    e = .value ∨ e = .read ∨ e = .type ∨ e = .notImpl :=
  Raises.runOn (P := RefusedTN) (.readMapReply _) e h
/-- C77 -/
theorem map_referral_raises (b : Bytes) (e : Err)
    (h : runOn readMapReferral (bytesToBits b) = .error e) :
    e = .value ∨ e = .read ∨ e = .type ∨ e = .notImpl :=
  Raises.runOn (P := RefusedTN) (.readMapReferral _) e h
/-- C77: … so parsing any packet, however deep its layers, raises one of four exceptions: a handler that
catches these catches everything a peer can cause by what it sends. -/
theorem packet_raises (k : Kind) (b : Bytes) (e : Err) (h : Pkt.fromBytes k b = .error e) :
    e = .value ∨ e = .read ∨ e = .type ∨ e = .notImpl :=
  Raises.dec (P := RefusedTN) k _ e h
/-- C77: when the payload is not to be decoded, ValueError and ReadError are all there is. -/
theorem header_raises (k : Kind) (hk : k = .ipv4 false ∨ k = .ipv6 false ∨ k = .data false ∨
    k = .fragment ∨ k = .nonext) (b : Bytes) (e : Err) (h : Pkt.fromBytes k b = .error e) :
    e = .value ∨ e = .read := by
  rcases hk with rfl | rfl | rfl | rfl | rfl
  · exact Raises.dec_v4 (P := Refused) _ e h
  · exact Raises.dec_v6 (P := Refused) _ e h
  · exact Raises.dec_data (P := Refused) _ e h
  · exact Raises.dec_fragment (P := Refused) _ e h
  · exact Raises.dec_nonext (P := Refused) _ e h

/-! ### TypeError -/

/-- C77: parsing raises TypeError only for packets that contain an LCAF address: the bytes 40 03 of its
address family number are in the packet. -/
theorem type_error_needs_lcaf (k : Kind) (b : Bytes) (h : Pkt.fromBytes k b = .error .type) :
    ∃ pre post, b = pre ++ [0x40, 0x03] ++ post :=
  lcafIn_bytes (Raises.lcaf_dec k _ .type h rfl)

/-- an LCAF address without any address in it -/
def Hollow (a : Addr) : Prop := Carries a []

theorem exBind_err {x : Except Err α} {f : α → Except Err β} {e : Err} :
    (x >>= f) = .error e ↔ x = .error e ∨ ∃ a, x = .ok a ∧ f a = .error e := by
  cases x with
  | ok a => simp
  | error e' => simp

theorem hollow_ip {a : IP} (h : Hollow (.ip a)) : False := by cases h

theorem sortLocators_type {ls : List Locator} (hs : ∀ l ∈ ls, l.sanitize = .ok ()) :
    sortLocators ls = .error .type ↔ ∃ l ∈ ls, Hollow l.address := by
  constructor
  · intro h
    by_cases hl : ∀ l ∈ ls, ∃ i, l.address = .ip i
    · rw [sortLocators_ok.mpr ⟨hl, rfl⟩] at h; cases h
    · have ⟨l, hl⟩ := Classical.not_forall.mp hl
      have ⟨hm, hl⟩ := Classical.not_imp.mp hl
      obtain ⟨_, _, _, _, h5⟩ := (locator_accepted_exact l).mp (hs l hm)
      rcases h5 with ⟨a, ha, _⟩ | h5
      · exact absurd ⟨a, ha⟩ hl
      · exact ⟨l, hm, h5⟩
  · rintro ⟨l, hl, hh⟩
    have hne : ∀ ls', sortLocators ls ≠ .ok ls' := by
      intro ls' h
      obtain ⟨i, hi⟩ := (sortLocators_ok.mp h).1 l hl
      rw [hi] at hh
      exact hollow_ip hh
    cases h : sortLocators ls with
    | ok ls' => exact absurd h (hne ls')
    | error e =>
      unfold sortLocators at h
      rcases exBind_err.mp h with h | ⟨_, _, h⟩
      · have : ∀ ls, checkKeys ls = .error e → e = .type := by
          intro ls
          induction ls with
          | nil => intro h; cases h
          | cons l ls ih =>
            intro h
            unfold checkKeys at h
            rcases exBind_err.mp h with h | ⟨_, _, h⟩
            · unfold Locator.sortKey at h
              split at h
              · cases h
              · cases h; rfl
            · exact ih h
        rw [this _ h]
      · cases h

theorem sanitizeLocators_type {ls : List Locator} : sanitizeLocators ls ≠ .error .type := by
  intro h
  have := Raises.sanitizeLocators (P := Refused) ls _ h
  rcases this with h | h <;> cases h

/-- C77: a record with sane fields and sane locators raises TypeError exactly when one of its locators is an
LCAF address without any address in it (the locators cannot be put in order then). -/
theorem record_type_error_iff (r : Record) : r.sanitize = .error .type ↔
    (0 ≤ r.ttl ∧ r.ttl ≤ 0xffffffff) ∧ (r.locators ≠ [] ∨ r.action = 0 ∨ r.action = 1 ∨ r.action = 2 ∨ r.action = 3) ∧
    (0 ≤ r.mapVersion ∧ r.mapVersion < 2 ^ 12) ∧ (∃ n, r.eid = .net n) ∧
    (∀ l ∈ r.locators, l.sanitize = .ok ()) ∧ ∃ l ∈ r.locators, Hollow l.address := by
  unfold Record.sanitize
  by_cases h1 : r.ttl < 0 ∨ r.ttl > 0xffffffff
  · rw [if_pos h1]
    exact ⟨fun h => by (cases h), fun h => by omega⟩
  rw [if_neg h1]
  dsimp only
  by_cases h2 : ¬ ((if r.locators ≠ [] then (0 : Int) else r.action) = 0 ∨
      (if r.locators ≠ [] then (0 : Int) else r.action) = 1 ∨
      (if r.locators ≠ [] then (0 : Int) else r.action) = 2 ∨
      (if r.locators ≠ [] then (0 : Int) else r.action) = 3)
  · rw [if_pos h2]
    refine ⟨fun h => by (cases h), fun h => ?_⟩
    by_cases hl : r.locators = []
    · simp only [hl, ne_eq, not_true_eq_false, if_false, false_or] at h h2
      exact absurd h.2.1 h2
    · simp [hl] at h2
  rw [if_neg h2]
  have h2 := Decidable.not_not.mp h2
  by_cases h3 : r.mapVersion < 0 ∨ r.mapVersion ≥ 2 ^ 12
  · rw [if_pos h3]
    exact ⟨fun h => by (cases h), fun h => by omega⟩
  rw [if_neg h3]
  have h2' : r.locators ≠ [] ∨ r.action = 0 ∨ r.action = 1 ∨ r.action = 2 ∨ r.action = 3 := by
    by_cases hl : r.locators = []
    · simp only [hl, ne_eq, not_true_eq_false, if_false] at h2
      exact .inr h2
    · exact .inl hl
  split
  · rename_i n hn
    constructor
    · intro h
      rcases exBind_err.mp h with h | ⟨_, hs, h⟩
      · exact absurd h sanitizeLocators_type
      · have hs := sanitizeLocators_ok.mp hs
        rcases exBind_err.mp h with h | ⟨_, _, h⟩
        · exact ⟨by omega, h2', by omega, ⟨n, hn⟩, hs, (sortLocators_type hs).mp h⟩
        · cases h
    · rintro ⟨_, _, _, _, hs, hh⟩
      rw [exBind_err]
      refine .inr ⟨(), sanitizeLocators_ok.mpr hs, exBind_err.mpr (.inl ((sortLocators_type hs).mpr hh))⟩
  · rename_i hn
    refine ⟨fun h => by (cases h), fun h => ?_⟩
    obtain ⟨n, hn'⟩ := h.2.2.2.1
    exact absurd hn' (hn n)

/-! ### NotImplementedError -/

instance : VRT (· ≠ Err.notImpl) := { value := by simp, read := by simp, type := by simp }

theorem rdBind_err {x : Rd α} {f : α → Rd β} {s : Bits} {e : Err} :
    (x >>= f) s = .error e ↔ x s = .error e ∨ ∃ a s', x s = .ok (a, s') ∧ f a s' = .error e := by
  rw [Rd.bind_apply]
  cases h : x s with
  | ok v =>
    obtain ⟨a, s'⟩ := v
    constructor
    · intro h'; exact .inr ⟨a, s', rfl, h'⟩
    · rintro (h' | ⟨_, _, h', h2⟩)
      · cases h'
      · cases h'; exact h2
  | error e' => simp

theorem no_notImpl {x : Except Err α} (h : Raises (· ≠ Err.notImpl) x) : x ≠ .error .notImpl :=
  fun he => h _ he rfl

theorem bind_notImpl {x : Rd α} {f : α → Rd β} {s : Bits} (h : Raises (· ≠ Err.notImpl) (x s)) :
    (x >>= f) s = .error .notImpl ↔ ∃ a s', x s = .ok (a, s') ∧ f a s' = .error .notImpl := by
  rw [rdBind_err]
  exact ⟨fun h' => h'.resolve_left (no_notImpl h), .inr⟩

theorem runOn_err {x : Rd α} {s : Bits} {e : Err} : runOn x s = .error e ↔ x s = .error e := by
  unfold runOn; split <;> simp_all

/-- a Map-Reply after its flags -/
def replyTail (probe enlra security : Bool) : Rd MapReply := do
  let reserved1 ← readUint 17
  let count ← readUint 8
  let nonce ← readBytes 8
  let records ← readN readRecord count
  if security = true then Rd.fail .notImpl
  else pure { probe := probe, enlraEnabled := enlra, security := security, nonce := nonce,
              records := records, reserved1 := BitVec.ofNat 17 reserved1 }

theorem reply_raw_split (p e b r : Bool) (t : Bits) :
    readMapReplyRaw (natToBits 4 2 ++ ([p, e, b, r] ++ t)) = replyTail p e b (r :: t) := by
  have ht : ∀ u, expectType 2 (natToBits 4 2 ++ u) = .ok ((), u) := fun u =>
    (expectType_iff (by decide)).mpr rfl
  have hb : ∀ b u, readBool (b :: u) = .ok (b, u) := fun b u => readBool_iff.mpr rfl
  unfold readMapReplyRaw
  rw [Rd.bind_apply, ht]
  dsimp only [List.cons_append, List.nil_append]
  rw [Rd.bind_apply, hb]
  dsimp only
  rw [Rd.bind_apply, hb]
  dsimp only
  rw [Rd.bind_apply, hb]
  rfl

theorem replyTail_notImpl (p e b : Bool) (u : Bits) :
    replyTail p e b u = .error .notImpl ↔ b = true ∧ ∃ m rest, replyTail p e false u = .ok (m, rest) := by
  unfold replyTail
  rw [bind_notImpl (.readUint _ _)]
  simp only [bind_notImpl (Raises.readUint (P := (· ≠ Err.notImpl)) _ _),
    bind_notImpl (Raises.readBytes (P := (· ≠ Err.notImpl)) _ _),
    bind_notImpl (Raises.readN (P := (· ≠ Err.notImpl)) Raises.readRecord _ _), Rd.bind_ok]
  cases b with
  | false =>
    constructor
    · rintro ⟨_, _, _, _, _, _, _, _, _, _, _, _, h⟩; cases h
    · rintro ⟨h, _⟩; cases h
  | true =>
    constructor
    · rintro ⟨_, _, h1, _, _, h2, _, _, h3, _, _, h4, _⟩
      exact ⟨rfl, _, _, _, _, h1, _, _, h2, _, _, h3, _, _, h4, rfl⟩
    · rintro ⟨_, _, _, _, _, h1, _, _, h2, _, _, h3, _, _, h4, _⟩
      exact ⟨_, _, h1, _, _, h2, _, _, h3, _, _, h4, rfl⟩

/-- what is read passes `sanitize` -/
theorem reply_sanitize {s rest : Bits} {m : MapReply} (h : readMapReplyRaw s = .ok (m, rest)) :
    m.sanitize = .ok m := by
  simp only [readMapReplyRaw, Rd.bind_ok] at h
  obtain ⟨_, _, _, _, _, _, _, _, _, _, _, _, _, _, _, _, _, _, _, _, hn, rs, _, hr, h⟩ := h
  split at h
  · cases h
  · rename_i hs
    simp only [Rd.pure_ok_iff] at h
    obtain ⟨rfl, _⟩ := h
    have hs := Bool.eq_false_iff.mpr hs
    have hf := sanitizeAll_fix fun r hr' => PyLisp.readN_mem (P := fun r => r.sanitize = .ok r)
      (fun _ _ _ h => readRecord_fix h) hr r hr'
    simp [MapReply.sanitize, hs, (readBytes_iff.mp hn).1, hf]

theorem reply_notImpl_bits (p e b r : Bool) (t : Bits) :
    runOn readMapReply (natToBits 4 2 ++ ([p, e, b, r] ++ t)) = .error .notImpl ↔
    b = true ∧ ∃ m, runOn readMapReply (natToBits 4 2 ++ ([p, e, false, r] ++ t)) = .ok m := by
  rw [runOn_err]
  simp only [runOn_iff', readMapReply, rdBind_err, Rd.bind_ok, Rd.lift_ok_iff]
  rw [reply_raw_split, replyTail_notImpl, ← reply_raw_split]
  constructor
  · rintro (⟨hb, m, rest, h⟩ | ⟨m, rest, h, h2⟩)
    · exact ⟨hb, m, rest, m, rest, h, reply_sanitize h, rfl⟩
    · rw [← reply_raw_split] at h
      rw [reply_sanitize h] at h2; cases h2
  · rintro ⟨hb, m, rest, m', rest', h, _⟩
    exact .inl ⟨hb, _, _, h⟩

theorem reply_first_byte : ∀ b : Byte, b.toNat / 16 = 2 → 
    natToBits 8 b.toNat = natToBits 4 2 ++ [b.getLsbD 3, b.getLsbD 2, b.getLsbD 1, b.getLsbD 0] ∧
    natToBits 8 (b &&& 0xfd).toNat = natToBits 4 2 ++ [b.getLsbD 3, b.getLsbD 2, false, b.getLsbD 0] ∧
    (b.getLsbD 1 = true ↔ b &&& 2 ≠ 0) ∧ (b &&& 0xfd).toNat / 16 = 2 := by
  decide +kernel

theorem reply_other_type (b : Byte) (hb : b.toNat / 16 ≠ 2) (t : Bits) :
    readMapReply (natToBits 8 b.toNat ++ t) = .error .value := by
  have h0 : natToBits 8 b.toNat = natToBits 4 (b.toNat / 16) ++ natToBits 4 b.toNat := natToBits_append 4 4 _
  have h1 : expectType 2 (natToBits 8 b.toNat ++ t) = .error .value := by
    rw [h0, List.append_assoc]
    unfold expectType
    rw [Rd.bind_apply, readUint_app (by have := b.isLt; omega)]
    simp only [ne_eq, hb, not_false_eq_true, if_true]
    rfl
  unfold readMapReply
  rw [rdBind_err]
  refine .inl ?_
  unfold readMapReplyRaw
  rw [rdBind_err]
  exact .inl h1

/-- C77: a Map-Reply is refused with NotImplementedError exactly when its security flag (bit 02 of the first
byte) is set and the same message without that flag is accepted. -/
theorem map_reply_not_implemented_iff (b : Byte) (t : Bytes) :
    runOn readMapReply (bytesToBits (b :: t)) = .error .notImpl ↔
    b &&& 2 ≠ 0 ∧ ∃ m, runOn readMapReply (bytesToBits ((b &&& 0xfd) :: t)) = .ok m := by
  by_cases hb : b.toNat / 16 = 2
  · obtain ⟨e1, e2, e3, _⟩ := reply_first_byte b hb
    rw [bytesToBits, bytesToBits, e1, e2, List.append_assoc, List.append_assoc, reply_notImpl_bits, e3]
  · have hb' : ∀ b : Byte, b.toNat / 16 ≠ 2 → (b &&& 0xfd).toNat / 16 ≠ 2 := by decide +kernel
    constructor
    · intro h
      rw [bytesToBits, runOn_err, reply_other_type b hb] at h; cases h
    · rintro ⟨_, m, h⟩
      rw [bytesToBits, runOn_iff'] at h
      obtain ⟨rest, h⟩ := h
      rw [reply_other_type _ (hb' b hb)] at h; cases h

/-- C77: an Encapsulated Control Message with its security flag (bit 08 of the first byte) set is refused with
NotImplementedError as soon as its four byte header is there, whatever it contains. -/
theorem ecm_not_implemented (b : Byte) (x y z : Byte) (t : Bytes) (h8 : b.toNat / 16 = 8) (hs : b &&& 8 ≠ 0) :
    Pkt.fromBytes .control (b :: x :: y :: z :: t) = .error .notImpl := by
  have hbits : ∀ b : Byte, b.toNat / 16 = 8 → b &&& 8 ≠ 0 → 
    natToBits 8 b.toNat = natToBits 4 8 ++ (true :: natToBits 3 b.toNat) := by decide +kernel
  have e := hbits b h8 hs
  obtain ⟨d, u, hu⟩ : ∃ d u, natToBits 3 b.toNat = d :: u := by
    cases h : natToBits 3 b.toNat with
    | nil => have := congrArg List.length h; simp at this
    | cons d u => exact ⟨d, u, rfl⟩
  have hul : u.length = 2 := by
    have := congrArg List.length hu; simp at this; omega
  have hs' : bytesToBits (b :: x :: y :: z :: t) = natToBits 4 8 ++ (true :: d ::
      ((u ++ natToBits 8 x.toNat ++ natToBits 8 y.toNat ++ natToBits 8 z.toNat) ++ bytesToBits t)) := by
    simp only [bytesToBits, e, hu, List.append_assoc, List.cons_append]
  have hh : readEcmHdr (bytesToBits (b :: x :: y :: z :: t)) = .error .notImpl := by
    rw [hs']
    unfold readEcmHdr
    rw [Rd.bind_apply, (expectType_iff (u := ()) (by decide)).mpr rfl]
    dsimp only
    rw [Rd.bind_apply, readBool_iff.mpr rfl]
    dsimp only
    rw [Rd.bind_apply, readBool_iff.mpr rfl]
    dsimp only
    rw [Rd.bind_apply, readUint_app' (by simp [hul])]
    rfl
  have ht : runOn (readUint 4) (bytesToBits (b :: x :: y :: z :: t)) = .ok 8 := by
    rw [hs', runOn_iff']
    exact ⟨_, readUint_app (by decide) _⟩
  unfold Pkt.fromBytes
  rw [dec_eq]
  simp only [decStep, decControl]
  rw [exBind_err]
  refine .inr ⟨8, ht, ?_⟩
  simp only [show (8 : Nat) ≠ 1 by decide, show (8 : Nat) ≠ 2 by decide, show (8 : Nat) ≠ 3 by decide,
    show (8 : Nat) ≠ 4 by decide, show (8 : Nat) ≠ 6 by decide, show (8 : Nat) ≠ 7 by decide, if_false, if_true]
  unfold decEcm
  rw [exBind_err]
  exact .inl hh

theorem refRecord_sig_bits (ttl cnt p act sig : Nat) (a i : Bool) (r : BitVec 11) (ver : Nat) (x d : Bytes) :
    bytesToBits (be32 ttl ++ [byteOf cnt, byteOf p] ++
      be32 (pack [(3, act), flag a, flag i, (11, r.toNat), (4, sig), (12, ver)]) ++ x ++ d) =
    natToBits 32 ttl ++ (natToBits 8 cnt ++ (natToBits 8 p ++ (natToBits 3 act ++ (a :: i ::
      (natToBits 11 r.toNat ++ (natToBits 4 sig ++ (natToBits 12 ver ++
        (bytesToBits x ++ bytesToBits d)))))))) := by
  simp only [bytesToBits_append, bytesToBits_be32, bytesToBits_cons, bytesToBits_nil,
    List.append_nil, List.append_assoc]
  rw [pack_bits 32 _ rfl]
  simp only [List.flatMap_cons, List.flatMap_nil, natToBits_flag, List.append_nil,
    List.append_assoc, List.cons_append, List.nil_append]

/-- C77: a Map-Referral record is refused with NotImplementedError exactly when it announces signatures (its
four bit signature count is not zero) and its EID-prefix and all its locators can be read. -/
theorem referral_record_not_implemented_iff (s : Bits) : readRefRecord s = .error .notImpl ↔
    ∃ (ttl p act sig ver : Nat) (a i : Bool) (r : BitVec 11) (e : Addr) (ls : List Locator) (x d : Bytes)
      (rest : Bits),
      ttl < 2 ^ 32 ∧ p < 2 ^ 8 ∧ act < 2 ^ 3 ∧ ver < 2 ^ 12 ∧ ls.length < 2 ^ 8 ∧ 0 < sig ∧ sig < 2 ^ 4 ∧
      IsPrefix p e x ∧ Sequence IsLocator ls d ∧
      s = bytesToBits (be32 ttl ++ [byteOf ls.length, byteOf p] ++
        be32 (pack [(3, act), flag a, flag i, (11, r.toNat), (4, sig), (12, ver)]) ++ x ++ d) ++ rest := by
  have hsan : ∀ r : RefRecord, r.sanitize ≠ .error .notImpl := fun r => no_notImpl (.refSanitize r)
  have h0 : readRefRecord s = .error .notImpl ↔ readRefRecordRaw s = .error .notImpl := by
    unfold readRefRecord
    rw [rdBind_err]
    refine ⟨?_, .inl⟩
    rintro (h | ⟨m, s', _, h⟩)
    · exact h
    · unfold Rd.lift at h
      cases hm : m.sanitize with
      | ok v => rw [hm] at h; cases h
      | error e => rw [hm] at h; cases h; exact absurd hm (hsan m)
  rw [h0]
  unfold readRefRecordRaw
  rw [bind_notImpl (.readUint _ _)]
  simp only [bind_notImpl (Raises.readUint (P := (· ≠ Err.notImpl)) _ _),
    bind_notImpl (Raises.readBool (P := (· ≠ Err.notImpl)) _),
    bind_notImpl (Raises.readAfi (P := (· ≠ Err.notImpl)) _ _),
    bind_notImpl (Raises.readN (P := (· ≠ Err.notImpl)) Raises.readLocator _ _),
    readUint_iff, readBool_iff, readAfi_isPrefix, readN_iff locator_language]
  constructor
  · rintro ⟨ttl, _, ⟨h1, rfl⟩, cnt, _, ⟨h2, rfl⟩, p, _, ⟨h3, rfl⟩, act, _, ⟨h4, rfl⟩, au, _,
      rfl, ic, _, rfl, rs, _, ⟨h5, rfl⟩, sc, _, ⟨h6, rfl⟩, ver, _, ⟨h7, rfl⟩, e, _, ⟨x, hx, rfl⟩, ls,
      rest, ⟨hl, y, hy, rfl⟩, h⟩
    subst hl
    by_cases hsc : sc = 0
    · simp [hsc] at h
    · have hr : (BitVec.ofNat 11 rs).toNat = rs := by
        rw [BitVec.toNat_ofNat, Nat.mod_eq_of_lt h5]
      refine ⟨ttl, p, act, sc, ver, au, ic, BitVec.ofNat 11 rs, e, ls, x, y, rest, h1, h3, h4, h7, h2,
        by omega, h6, hx, hy, ?_⟩
      rw [refRecord_sig_bits, hr]
      simp only [List.append_assoc, List.cons_append]
  · rintro ⟨ttl, p, act, sig, ver, a, i, r, e, ls, x, d, rest, h1, h2, h3, h4, h5, h6, h7, hx, hd, rfl⟩
    rw [refRecord_sig_bits]
    simp only [List.append_assoc, List.cons_append]
    refine ⟨ttl, _, ⟨h1, rfl⟩, _, _, ⟨h5, rfl⟩, _, _, ⟨h2, rfl⟩, _, _, ⟨h3, rfl⟩, _, _, rfl, _, _, rfl, _, _,
      ⟨r.isLt, rfl⟩, _, _, ⟨h7, rfl⟩, _, _, ⟨h4, rfl⟩, _, _, ⟨x, hx, rfl⟩, _, _, ⟨rfl, d, hd, rfl⟩, ?_⟩
    rw [if_pos (by omega)]
    rfl

/-! ### What is refused stays refused -/

/-- a parser that decides by the bytes it has read: what follows a message, or a refusal for any other reason
than missing bytes, makes no difference -/
structure Stb {α : Type} (r : Rd α) : Prop where
  loc : Loc r
  err : ∀ (s t : Bits) (e : Err), r s = .error e → e ≠ .read → r (s ++ t) = .error e

theorem Stb.short {α : Type} {r : Rd α} (hl : Loc r) (h : ∀ s e, r s = .error e → e = .read) : Stb r :=
  ⟨hl, fun s _ e he hn => absurd (h s e he) hn⟩

theorem Stb.pure {α : Type} (a : α) : Stb (Pure.pure a : Rd α) := ⟨.pure a, fun _ _ _ h => by cases h⟩
theorem Stb.fail {α : Type} (e : Err) : Stb (Rd.fail e : Rd α) := ⟨.fail e, fun _ _ _ h _ => by cases h; rfl⟩
theorem Stb.lift {α : Type} (x : Except Err α) : Stb (Rd.lift x) := by
  refine ⟨.lift x, fun s t e h _ => ?_⟩
  cases x with
  | ok a => cases h
  | error e' => cases h; rfl
theorem Stb.bind {α β : Type} {x : Rd α} {f : α → Rd β} (hx : Stb x) (hf : ∀ a, Stb (f a)) : Stb (x >>= f) := by
  refine ⟨.bind hx.loc fun a => (hf a).loc, fun s t e h hn => ?_⟩
  rw [rdBind_err] at h ⊢
  rcases h with h | ⟨a, s', h1, h2⟩
  · exact .inl (hx.err _ _ _ h hn)
  · obtain ⟨pre, rfl, hp⟩ := hx.loc _ _ _ h1
    refine .inr ⟨a, s' ++ t, ?_, (hf a).err _ _ _ h2 hn⟩
    rw [List.append_assoc]; exact hp _
theorem Stb.ite {α : Type} {c : Prop} [Decidable c] {x y : Rd α} (hx : Stb x) (hy : Stb y) :
    Stb (if c then x else y) := by
  split
  · exact hx
  · exact hy
theorem Stb.readBits (n : Nat) : Stb (readBits n) :=
  .short (.readBits n) fun s e h => by
    unfold PyLisp.readBits at h; split at h <;> cases h; rfl
theorem Stb.readUint (n : Nat) : Stb (readUint n) :=
  .short (.readUint n) fun s e h => by
    unfold PyLisp.readUint at h; split at h <;> cases h; rfl
theorem Stb.readBool : Stb readBool :=
  .short .readBool fun s e h => by
    unfold PyLisp.readBool at h; split at h <;> cases h; rfl
theorem Stb.readBytes (n : Nat) : Stb (readBytes n) :=
  .short (.readBytes n) fun s e h => by
    unfold PyLisp.readBytes at h
    split at h
    · rename_i hl
      obtain ⟨bs, hb, _⟩ := bitsToBytes_ok_of_length (b := s.take (8 * n)) (k := n) (by simp; omega)
      rw [hb] at h; cases h
    · cases h; rfl
theorem Stb.readIP (v : Ver) : Stb (readIP v) := by
  refine .short (.readIP v) fun s e h => ?_
  unfold PyLisp.readIP at h; split at h <;> cases h; rfl
theorem Stb.expectType (n : Nat) : Stb (expectType n) := by
  unfold PyLisp.expectType
  exact .bind (.readUint _) fun _ => .ite (.fail _) (.pure _)
theorem Stb.readN {α : Type} {r : Rd α} (hr : Stb r) (n : Nat) : Stb (readN r n) := by
  induction n with
  | zero => exact .pure _
  | succ n ih => exact .bind hr fun _ => .bind ih fun _ => .pure _
theorem Stb.readAfi (plen : Option Nat) : Stb (readAfi plen) := by
  have h : Stb (readAddrStep (PyLisp.readAfi .none) (fun p d => readAddrs (d.length + 1) p d) plen) := by
    unfold readAddrStep
    refine .bind (.readUint _) fun afi => .ite ?_ (.ite ?_ (.ite ?_ (.ite ?_ (.fail _))))
    · split
      · exact .pure _
      · exact .ite (.pure _) (.fail _)
    · exact .bind (.readIP _) fun _ => .lift _
    · exact .bind (.readIP _) fun _ => .lift _
    · exact .bind (.readBits _) fun _ => .bind (.readBits _) fun _ => .bind (.readUint _) fun _ =>
        .bind (.readUint _) fun _ => .bind (.readUint _) fun _ => .bind (.readBits _) fun _ => .lift _
  refine ⟨.readAfi plen, fun s t e he hn => ?_⟩
  rw [readAfi_unfold] at he ⊢
  exact h.err s t e he hn

/-- prove `Stb` for a reader -/
macro "stb" : tactic => `(tactic|
  repeat (first
    | exact Stb.pure _ | exact Stb.fail _ | exact Stb.lift _ | exact Stb.readUint _
    | exact Stb.readBits _ | exact Stb.readBool | exact Stb.readBytes _
    | exact Stb.readAfi _ | exact Stb.readIP _ | exact Stb.expectType _ | assumption
    | (with_reducible refine Stb.readN ?_ _)
    | (with_reducible refine Stb.bind ?_ fun _ => ?_)
    | (with_reducible refine Stb.ite ?_ ?_)))

theorem Stb.readLocator : Stb readLocator := by
  unfold PyLisp.readLocator readLocatorRaw; stb
theorem Stb.readRecord : Stb readRecord := by
  have := Stb.readLocator
  unfold PyLisp.readRecord readRecordRaw; stb
theorem Stb.readRefRecord : Stb readRefRecord := by
  have := Stb.readLocator
  unfold PyLisp.readRefRecord readRefRecordRaw; stb
theorem Stb.readMapRequest : Stb readMapRequest := by
  have := Stb.readRecord
  unfold PyLisp.readMapRequest readMapRequestRaw readEidPrefix readOptRecord; stb
theorem Stb.readMapReply : Stb readMapReply := by
  have := Stb.readRecord
  unfold PyLisp.readMapReply readMapReplyRaw; stb
theorem Stb.readMapRegister : Stb readMapRegister := by
  have := Stb.readRecord
  unfold PyLisp.readMapRegister readMapRegisterRaw readIds; stb
theorem Stb.readMapNotify : Stb readMapNotify := by
  have := Stb.readRecord
  unfold PyLisp.readMapNotify readMapNotifyRaw readIds; stb
theorem Stb.readMapReferral : Stb readMapReferral := by
  have := Stb.readRefRecord
  unfold PyLisp.readMapReferral readMapReferralRaw; stb
theorem Stb.readInfo : Stb readInfo := by
  unfold PyLisp.readInfo readInfoRaw; stb

theorem Stb.decided {α : Type} {r : Rd α} (h : Stb r) (s t : Bits) (hs : runOn r s ≠ .error .read) :
    runOn r (s ++ t) = runOn r s := by
  cases hr : runOn r s with
  | error e =>
    rw [runOn_err] at hr ⊢
    refine h.err s t e hr fun he => hs ?_
    rw [runOn_err, hr, he]
  | ok a =>
    rw [runOn_iff'] at hr ⊢
    obtain ⟨rest, hr⟩ := hr
    obtain ⟨pre, rfl, hp⟩ := h.loc _ _ _ hr
    exact ⟨rest ++ t, by rw [List.append_assoc]; exact hp _⟩

/-- C77: whatever a control message parser says about some bytes, other than that bytes are missing, it says
about the same bytes with any others after them: the same message, or the same exception. -/
theorem verdict_stands (b c : Bytes) :
    (runOn readMapRequest (bytesToBits b) ≠ .error .read →
      runOn readMapRequest (bytesToBits (b ++ c)) = runOn readMapRequest (bytesToBits b)) ∧
    (runOn readMapReply (bytesToBits b) ≠ .error .read →
      runOn readMapReply (bytesToBits (b ++ c)) = runOn readMapReply (bytesToBits b)) ∧
    (runOn readMapRegister (bytesToBits b) ≠ .error .read →
      runOn readMapRegister (bytesToBits (b ++ c)) = runOn readMapRegister (bytesToBits b)) ∧
    (runOn readMapNotify (bytesToBits b) ≠ .error .read →
      runOn readMapNotify (bytesToBits (b ++ c)) = runOn readMapNotify (bytesToBits b)) ∧
    (runOn readMapReferral (bytesToBits b) ≠ .error .read →
      runOn readMapReferral (bytesToBits (b ++ c)) = runOn readMapReferral (bytesToBits b)) ∧
    (runOn readInfo (bytesToBits b) ≠ .error .read →
      runOn readInfo (bytesToBits (b ++ c)) = runOn readInfo (bytesToBits b)) := by
  simp only [bytesToBits_append]
  exact ⟨Stb.readMapRequest.decided _ _, Stb.readMapReply.decided _ _, Stb.readMapRegister.decided _ _,
    Stb.readMapNotify.decided _ _, Stb.readMapReferral.decided _ _, Stb.readInfo.decided _ _⟩

/-! ### Each exception does occur -/

/-- a record 10.0.0.0/8 with one locator, given by the bytes of its address -/
def exRaisedRecord (a : Bytes) : Bytes :=
  [0, 0, 0, 60, 1, 8, 0x10, 0, 0, 0, 0, 1, 10, 0, 0, 0, 1, 100, 1, 100, 0, 5] ++ a

/-- 192.0.2.1 as locator: accepted; the LCAF "null body" as locator: TypeError; 255.255.255.255: ValueError;
nothing: ReadError -/
example : (runOn readRecord (bytesToBits (exRaisedRecord [0, 1, 192, 0, 2, 1]))).isOk = true ∧
    runOn readRecord (bytesToBits (exRaisedRecord [0x40, 3, 0, 0, 0, 0, 0, 0])) = .error .type ∧
    runOn readRecord (bytesToBits (exRaisedRecord [0, 1, 255, 255, 255, 255])) = .error .value ∧
    runOn readRecord (bytesToBits (exRaisedRecord [])) = .error .read := by decide +kernel
/-- a Map-Register carrying such a record raises TypeError (hypothesis of `type_error_needs_lcaf`) -/
example : Pkt.fromBytes .control ([0x30, 0, 0, 1, 0, 0, 0, 0, 0, 0, 0, 1, 0, 0, 0, 0] ++
    exRaisedRecord [0x40, 3, 0, 0, 0, 0, 0, 0]) = .error .type := by decide +kernel
/-- a prefix around an instance id around an AFI list with an address in it: TypeError; around an empty
one: ValueError; around an address: accepted -/
example : runOn (readAfi (some 8)) (bytesToBits
      [0x40, 3, 0, 0, 2, 0, 0, 18, 0, 0, 0, 1, 0x40, 3, 0, 0, 1, 0, 0, 6, 0, 1, 10, 0, 0, 0]) =
      .error .type ∧
    runOn (readAfi (some 8)) (bytesToBits
      [0x40, 3, 0, 0, 2, 0, 0, 12, 0, 0, 0, 1, 0x40, 3, 0, 0, 1, 0, 0, 0]) = .error .value ∧
    (runOn (readAfi (some 8)) (bytesToBits
      [0x40, 3, 0, 0, 2, 0, 0, 10, 0, 0, 0, 1, 0, 1, 10, 0, 0, 0])).isOk = true := by decide +kernel
/-- a Map-Reply without records: accepted; the same with the security flag: NotImplementedError -/
example : (runOn readMapReply (bytesToBits [0x20, 0, 0, 0, 1, 2, 3, 4, 5, 6, 7, 8])).isOk = true ∧
    Pkt.fromBytes .control [0x22, 0, 0, 0, 1, 2, 3, 4, 5, 6, 7, 8] = .error .notImpl := by decide +kernel
/-- an Encapsulated Control Message with the security flag: NotImplementedError, with or without content -/
example : Pkt.fromBytes .control [0x88, 0, 0, 0] = .error .notImpl ∧
    Pkt.fromBytes .control [0x88, 0, 0, 0, 0x45, 0] = .error .notImpl ∧
    Pkt.fromBytes .control [0x88, 0, 0] = .error .read ∧
    Pkt.fromBytes .control [0x80, 0, 0, 0, 0x45, 0] = .error .read ∧
    Pkt.fromBytes .control [0x50, 0, 0, 0] = .error .value := by decide +kernel
/-- a Map-Referral record with a signature count of 1 -/
example : runOn readRefRecord (bytesToBits [0, 0, 0, 60, 0, 8, 0xb8, 0, 0x10, 0, 0, 1, 10, 0, 0, 0]) =
    .error .notImpl := by decide +kernel
/-- refused for good: a bad type nibble, and not enough bytes -/
example : runOn readInfo (bytesToBits [0x10]) = .error .value ∧
    runOn readInfo (bytesToBits [0x10, 1, 2, 3]) = .error .value ∧
    runOn readInfo (bytesToBits [0x70]) = .error .read := by decide +kernel

end PyLisp.Props
