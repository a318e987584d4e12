import Verif.Dyn
import Verif.Wire
/-
C87: messages whose attributes hold values of the wrong type.

The specification relates an object with arbitrary attribute values (`DMapReply` etc.) to the message it stands for
(`MapReply` etc., the subject of the other properties): numbers may be ints, longs or booleans, key ids and actions
anything that equals a whole number, flags must be booleans, addresses must be address objects.
-/
namespace PyLisp.Props

/-! ### Specification -/

/-- the value counts as the integer `i` -/
inductive IntValue : PyObj → Int → Prop
  | int (i : Int) : IntValue (.int i) i
  | one : IntValue (.bool true) 1
  | zero : IntValue (.bool false) 0

/-- the value equals the integer `i` -/
inductive NumValue : PyObj → Int → Prop
  | int (i : Int) : NumValue (.int i) i
  | one : NumValue (.bool true) 1
  | zero : NumValue (.bool false) 0
  | whole (i : Int) : NumValue (.float (some i)) i

/-- two lists of the same length whose elements are related -/
inductive Each {α β : Type} (R : α → β → Prop) : List α → List β → Prop
  | nil : Each R [] []
  | cons {a b l m} : R a b → Each R l m → Each R (a :: l) (b :: m)

/-- the list element is an object of the class, and stands for `b` -/
inductive IsObj {α β : Type} (R : α → β → Prop) : Item α → β → Prop
  | mk {a b} : R a b → IsObj R (.obj a) b

/-- the locator record that the object stands for -/
structure LocatorDen (d : DLocator) (l : Locator) : Prop where
  priority : IntValue d.priority l.priority
  weight : IntValue d.weight l.weight
  mPriority : IntValue d.mPriority l.mPriority
  mWeight : IntValue d.mWeight l.mWeight
  isLocal : d.isLocal = .bool l.isLocal
  probed : d.probed = .bool l.probed
  reachable : d.reachable = .bool l.reachable
  address : d.address = .addr l.address
  reserved1 : d.reserved1 = l.reserved1

/-- the Map-Reply or Map-Register record that the object stands for; the action of a record with locators does not
matter -/
structure RecordDen (d : DRecord) (r : Record) : Prop where
  ttl : IntValue d.ttl r.ttl
  action : d.locators ≠ [] ∨ NumValue d.action r.action
  authoritative : d.authoritative = .bool r.authoritative
  mapVersion : IntValue d.mapVersion r.mapVersion
  eid : d.eid = .addr r.eid
  locators : Each (IsObj LocatorDen) d.locators r.locators
  reserved1 : d.reserved1 = r.reserved1

/-- the Map-Referral record that the object stands for -/
structure RefRecordDen (d : DRefRecord) (r : RefRecord) : Prop where
  ttl : IntValue d.ttl r.ttl
  action : NumValue d.action r.action
  authoritative : d.authoritative = .bool r.authoritative
  incomplete : d.incomplete = .bool r.incomplete
  mapVersion : IntValue d.mapVersion r.mapVersion
  eid : d.eid = .addr r.eid
  locators : Each (IsObj LocatorDen) d.locators r.locators
  sigs : d.sigs = r.sigs
  reserved1 : d.reserved1 = r.reserved1

/-- the MapRegisterRecord that the object stands for -/
def RegisterRecordDen (d : DRecord) (r : Record) : Prop := d.register = true ∧ RecordDen d r

/-- the optional record that the value stands for -/
inductive OptDen : Option (Item DRecord) → Option Record → Prop
  | none : OptDen none none
  | some {d r} : RecordDen d r → OptDen (some (.obj d)) (some r)

/-- the Map-Request that the object stands for -/
structure RequestDen (d : DMapRequest) (m : MapRequest) : Prop where
  authoritative : d.authoritative = .bool m.authoritative
  probe : d.probe = .bool m.probe
  smr : d.smr = .bool m.smr
  pitr : d.pitr = .bool m.pitr
  smrInvoked : d.smrInvoked = .bool m.smrInvoked
  nonce : d.nonce = .bytes m.nonce
  sourceEid : d.sourceEid = .addr m.sourceEid
  itrRlocs : d.itrRlocs = m.itrRlocs.map .addr
  eidPrefixes : d.eidPrefixes = m.eidPrefixes.map .addr
  mapReply : OptDen d.mapReply m.mapReply
  reserved1 : d.reserved1 = m.reserved1

/-- the Map-Reply that the object stands for: its nonce is the text of whatever the attribute holds -/
structure ReplyDen (P : Py) (d : DMapReply) (m : MapReply) : Prop where
  probe : d.probe = .bool m.probe
  enlraEnabled : d.enlraEnabled = .bool m.enlraEnabled
  security : d.security = .bool m.security
  nonce : P.str d.nonce = .ok m.nonce
  records : Each (IsObj RecordDen) d.records m.records
  reserved1 : d.reserved1 = m.reserved1

/-- the Map-Register that the object stands for -/
structure RegisterDen (d : DMapRegister) (m : MapRegister) : Prop where
  proxyMapReply : d.proxyMapReply = .bool m.proxyMapReply
  forRtr : d.forRtr = .bool m.forRtr
  wantMapNotify : d.wantMapNotify = .bool m.wantMapNotify
  nonce : d.nonce = .bytes m.nonce
  keyId : NumValue d.keyId m.keyId
  authData : d.authData = .bytes m.authData
  records : Each (IsObj RegisterRecordDen) d.records m.records
  xtrId : IntValue d.xtrId m.xtrId
  siteId : IntValue d.siteId m.siteId
  reserved1 : d.reserved1 = m.reserved1
  reserved2 : d.reserved2 = m.reserved2

/-- the Map-Notify that the object stands for -/
structure NotifyDen (d : DMapNotify) (m : MapNotify) : Prop where
  nonce : d.nonce = .bytes m.nonce
  keyId : NumValue d.keyId m.keyId
  authData : d.authData = .bytes m.authData
  records : Each (IsObj RegisterRecordDen) d.records m.records
  xtrId : IntValue d.xtrId m.xtrId
  siteId : IntValue d.siteId m.siteId
  reserved1 : d.reserved1 = m.reserved1

/-- the Map-Referral that the object stands for -/
structure ReferralDen (d : DMapReferral) (m : MapReferral) : Prop where
  nonce : d.nonce = .bytes m.nonce
  records : Each (IsObj RefRecordDen) d.records m.records
  reserved1 : d.reserved1 = m.reserved1

/-- the Info message that the object stands for -/
structure InfoDen (d : DInfo) (m : Info) : Prop where
  isReply : d.isReply = .bool m.isReply
  nonce : d.nonce = .bytes m.nonce
  keyId : NumValue d.keyId m.keyId
  authData : d.authData = .bytes m.authData
  ttl : IntValue d.ttl m.ttl
  eidPrefix : d.eidPrefix = .addr m.eidPrefix
  reply : d.reply = .addr m.reply
  reserved1 : d.reserved1 = m.reserved1
  reserved2 : d.reserved2 = m.reserved2

/-- the optional value that the attribute stands for; None for none -/
inductive OptVal {α : Type} (R : PyObj → α → Prop) : PyObj → Option α → Prop
  | none : OptVal R (.addr .none) none
  | some {o a} : R o a → OptVal R o (some a)

/-- the header of an encapsulated control message that the object stands for -/
structure EcmDen (d : DEcmHdr) (h : EcmHdr) : Prop where
  security : d.security = .bool h.security
  ddtOriginated : d.ddtOriginated = .bool h.ddtOriginated
  forRtr : d.forRtr = .bool h.forRtr
  relayedByRtr : d.relayedByRtr = .bool h.relayedByRtr

/-- the LISP data header that the object stands for; the locator status bits are a list or tuple of booleans -/
structure DataDen (d : DDataHdr) (h : DataHdr) : Prop where
  echoNonce : d.echoNonce = .bool h.echoNonce
  nonce : OptVal (fun o b => o = .bytes b) d.nonce h.nonce
  srcVersion : OptVal IntValue d.srcVersion h.srcVersion
  dstVersion : OptVal IntValue d.dstVersion h.dstVersion
  lsb : OptVal (fun o l => ∃ t, o = .seq t (l.map .bool)) d.lsb h.lsb
  iid : OptVal IntValue d.iid h.iid

/-- the IPv4 header that the object stands for -/
structure V4Den (d : DV4Hdr) (h : V4Hdr) : Prop where
  tos : IntValue d.tos h.tos
  ident : IntValue d.ident h.ident
  df : d.df = .bool h.df
  mf : d.mf = .bool h.mf
  fragOff : IntValue d.fragOff h.fragOff
  ttl : IntValue d.ttl h.ttl
  src : OptVal (fun o a => o = .addr (.ip a)) d.src h.src
  dst : OptVal (fun o a => o = .addr (.ip a)) d.dst h.dst

/-- the IPv6 header that the object stands for -/
structure V6Den (d : DV6Hdr) (h : V6Hdr) : Prop where
  trafficClass : IntValue d.trafficClass h.trafficClass
  flowLabel : IntValue d.flowLabel h.flowLabel
  hopLimit : IntValue d.hopLimit h.hopLimit
  src : OptVal (fun o a => o = .addr (.ip a)) d.src h.src
  dst : OptVal (fun o a => o = .addr (.ip a)) d.dst h.dst

/-- the UDP header that the object stands for -/
structure UdpDen (d : DUdpHdr) (h : UdpHdr) : Prop where
  sport : IntValue d.sport h.sport
  dport : IntValue d.dport h.dport

/-! ### Proofs -/

/-- both succeed with related results, or both raise the same exception -/
def Agree {α β : Type} (R : α → β → Prop) : Except Err α → Except Err β → Prop
  | .ok a, .ok b => R a b
  | .error e, .error f => e = f
  | _, _ => False

theorem Agree.bind {α β γ δ : Type} {R : α → β → Prop} {S : γ → δ → Prop} {x : Except Err α} {y : Except Err β}
    {f : α → Except Err γ} {g : β → Except Err δ} (h : Agree R x y) (hf : ∀ a b, R a b → Agree S (f a) (g b)) :
    Agree S (x >>= f) (y >>= g) := by
  cases x <;> cases y <;> first | exact h | exact h.elim | exact hf _ _ h

theorem Agree.ite {α β : Type} {R : α → β → Prop} {p q : Prop} [Decidable p] [Decidable q] {e : Err}
    {x : Except Err α} {y : Except Err β} (hp : p ↔ q) (h : ¬ q → Agree R x y) :
    Agree R (if p then .error e else x) (if q then .error e else y) := by
  by_cases hq : q
  · rw [if_pos hq, if_pos (hp.mpr hq)]; exact rfl
  · rw [if_neg hq, if_neg (fun h => hq (hp.mp h))]; exact h hq

theorem agree_eq {α : Type} {x y : Except Err α} (h : Agree Eq x y) : x = y := by
  cases x <;> cases y <;> first | (cases h; rfl) | exact h.elim

theorem agree_refl {α : Type} (x : Except Err α) : Agree Eq x x := by
  cases x <;> exact rfl

theorem Agree.skip {α β : Type} {R : α → β → Prop} {p : Prop} [Decidable p] {e : Err}
    {x : Except Err α} {y : Except Err β} (hp : ¬ p) (h : Agree R x y) :
    Agree R (if p then .error e else x) y := by
  rw [if_neg hp]; exact h

theorem int_integral {o : PyObj} {i : Int} : IntValue o i ↔ o.integral = some i := by
  constructor
  · intro h; cases h <;> rfl
  · intro h
    cases o with
    | bool b => cases b <;> (cases h; constructor)
    | int j => cases h; constructor
    | _ => cases h

theorem num_number {o : PyObj} {i : Int} : NumValue o i ↔ o.number = some i := by
  constructor
  · intro h; cases h <;> rfl
  · intro h
    cases o with
    | bool b => cases b <;> (cases h; constructor)
    | int j => cases h; constructor
    | float v => cases h; constructor
    | _ => cases h

theorem int_num {o : PyObj} {i : Int} (h : IntValue o i) : NumValue o i := by
  cases h <;> constructor

theorem num_fmt {o : PyObj} {i : Int} (h : NumValue o i) : o.fmt = .ok i := by
  simp only [PyObj.fmt, num_number.mp h]

theorem encUintD_num {o : PyObj} {i : Int} (h : NumValue o i) (n : Nat) : encUintD n o = encUint n i := by
  simp only [encUintD, num_fmt h]; rfl

theorem encBoolD_bool (b : Bool) : encBoolD (.bool b) = .ok [b] := by
  cases b <;> rfl

theorem eqs_num {o : PyObj} {i : Int} (h : NumValue o i) (j : Int) : o.eqs j = true ↔ i = j := by
  simp [PyObj.eqs, num_number.mp h]

theorem intIn_int {o : PyObj} {i : Int} (h : IntValue o i) (lo hi : Int) :
    o.intIn lo hi = true ↔ lo ≤ i ∧ i ≤ hi := by
  simp [PyObj.intIn, int_integral.mp h]

theorem intIn_not {o : PyObj} {i : Int} (h : IntValue o i) (lo hi : Int) :
    o.intIn lo hi = false ↔ i < lo ∨ i > hi := by
  rw [← Bool.not_eq_true, intIn_int h]; omega

theorem intIn_value {o : PyObj} {lo hi : Int} (h : o.intIn lo hi = true) : ∃ i, IntValue o i := by
  unfold PyObj.intIn at h
  cases hi : o.integral with
  | none => rw [hi] at h; cases h
  | some i => exact ⟨i, int_integral.mpr hi⟩

theorem truth_int {o : PyObj} {i : Int} (h : IntValue o i) : o.truth = (i != 0) := by
  cases h <;> rfl

theorem isBool_value {o : PyObj} (h : o.isBool = true) : ∃ b, o = .bool b := by
  cases o <;> first | exact ⟨_, rfl⟩ | cases h

theorem isBytes_value {o : PyObj} (h : o.isBytes = true) : ∃ b, o = .bytes b := by
  cases o <;> first | exact ⟨_, rfl⟩ | cases h

theorem isNet_value {o : PyObj} (h : o.isNet = true) : ∃ a, o = .addr a := by
  cases o <;> first | exact ⟨_, rfl⟩ | cases h

theorem eqs_value {o : PyObj} {i : Int} (h : o.eqs i = true) : NumValue o i := by
  rw [num_number]; simpa [PyObj.eqs] using h

/-! #### Locators -/

theorem locator_agree {d : DLocator} {l : Locator} (h : LocatorDen d l) : d.sanitize = l.sanitize := by
  obtain ⟨h1, h2, h3, h4, h5, h6, h7, h8, _⟩ := h
  refine agree_eq ?_
  unfold DLocator.sanitize Locator.sanitize
  refine .ite (intIn_not h1 _ _) fun _ => .ite (intIn_not h2 _ _) fun _ => .ite (intIn_not h3 _ _) fun _ =>
    .ite (intIn_not h4 _ _) fun _ => ?_
  rw [h5, h6, h7, h8]
  exact .skip nofun (.skip nofun (.skip nofun (agree_refl _)))

theorem locator_typed {d : DLocator} (h : d.sanitize = .ok ()) : ∃ l, LocatorDen d l := by
  unfold DLocator.sanitize at h
  simp only [exIteErr_ok, Bool.not_eq_false] at h
  obtain ⟨h1, h2, h3, h4, h5, h6, h7, h8⟩ := h
  obtain ⟨i1, h1⟩ := intIn_value h1
  obtain ⟨i2, h2⟩ := intIn_value h2
  obtain ⟨i3, h3⟩ := intIn_value h3
  obtain ⟨i4, h4⟩ := intIn_value h4
  obtain ⟨b5, h5⟩ := isBool_value h5
  obtain ⟨b6, h6⟩ := isBool_value h6
  obtain ⟨b7, h7⟩ := isBool_value h7
  have h8' : ∃ a, d.address = .addr a := by
    cases hd : d.address <;> rw [hd] at h8 <;> first | exact ⟨_, rfl⟩ | cases h8
  obtain ⟨a, h8'⟩ := h8'
  exact ⟨⟨i1, i2, i3, i4, b5, b6, b7, a, d.reserved1⟩, h1, h2, h3, h4, h5, h6, h7, h8', rfl⟩

theorem locator_refused {d : DLocator} (h : ∀ l, ¬ LocatorDen d l) : d.sanitize = .error .value := by
  cases hd : d.sanitize with
  | ok u => exact absurd (locator_typed hd) (fun ⟨l, hl⟩ => h l hl)
  | error e =>
    refine congrArg _ ?_
    unfold DLocator.sanitize at hd
    repeat' split at hd
    all_goals try (cases hd; rfl)
    unfold checkLocatorAddressD at hd
    split at hd
    · rename_i a _
      unfold checkLocatorAddress at hd
      repeat' split at hd
      all_goals (cases hd; try rfl)
    · cases hd; rfl

theorem locator_enc {d : DLocator} {l : Locator} (h : LocatorDen d l) : d.enc = encLocator l := by
  have hs := locator_agree h
  obtain ⟨h1, h2, h3, h4, h5, h6, h7, h8, h9⟩ := h
  unfold DLocator.enc encLocator encLocatorRaw
  rw [hs, encUintD_num (int_num h1), encUintD_num (int_num h2), encUintD_num (int_num h3), encUintD_num (int_num h4),
    h5, h6, h7, h8, h9]
  simp only [encBoolD_bool, exBind_okl, encAddrD]
  simp only [List.append_assoc, List.cons_append, List.nil_append]

theorem Each.length {α β : Type} {R : α → β → Prop} {l : List α} {m : List β} (h : Each R l m) :
    l.length = m.length := by
  induction h with
  | nil => rfl
  | cons _ _ ih => simp [ih]

theorem Each.nil_iff {α β : Type} {R : α → β → Prop} {l : List α} {m : List β} (h : Each R l m) :
    l = [] ↔ m = [] := by
  cases h <;> simp

theorem Each.mono {α β : Type} {R S : α → β → Prop} {l : List α} {m : List β} (h : Each R l m)
    (f : ∀ a b, R a b → S a b) : Each S l m := by
  induction h with
  | nil => exact .nil
  | cons h _ ih => exact .cons (f _ _ h) ih

theorem enc_each {α β : Type} {R : α → β → Prop} {e : α → Except Err Bits} {f : β → Except Err Bits}
    (hef : ∀ a b, R a b → e a = f b) {l : List α} {m : List β} (h : Each R l m) : encAll e l = encAll f m := by
  induction h with
  | nil => rfl
  | cons h _ ih => unfold encAll; rw [hef _ _ h, ih]

theorem enc_item {α β : Type} {R : α → β → Prop} {e : α → Except Err Bits} {f : β → Except Err Bits}
    (hef : ∀ a b, R a b → e a = f b) {i : Item α} {b : β} (h : IsObj R i b) : encItem e i = f b := by
  cases h with | mk h => exact hef _ _ h

theorem enc_items {α β : Type} {R : α → β → Prop} {e : α → Except Err Bits} {f : β → Except Err Bits}
    (hef : ∀ a b, R a b → e a = f b) {l : List (Item α)} {m : List β} (h : Each (IsObj R) l m) :
    encAll (encItem e) l = encAll f m :=
  enc_each (R := IsObj R) (fun _ _ h => enc_item hef h) h

theorem locators_agree {ds : List (Item DLocator)} {ls : List Locator} (h : Each (IsObj LocatorDen) ds ls) :
    sanitizeLocatorsD ds = sanitizeLocators ls := by
  induction h with
  | nil => rfl
  | cons h _ ih =>
    cases h with
    | mk h => unfold sanitizeLocatorsD sanitizeLocators; rw [locator_agree h, ih]

theorem ref_locators_agree {ds : List (Item DLocator)} {ls : List Locator} (h : Each (IsObj LocatorDen) ds ls) :
    sanitizeRefLocatorsD ds = sanitizeRefLocators ls := by
  induction h with
  | nil => rfl
  | cons h _ ih =>
    cases h with
    | mk h =>
      unfold sanitizeRefLocatorsD sanitizeRefLocators
      rw [locator_agree h, ih, h.probed]
      rfl

theorem locators_typed {ds : List (Item DLocator)} (h : sanitizeLocatorsD ds = .ok ()) :
    ∃ ls, Each (IsObj LocatorDen) ds ls := by
  induction ds with
  | nil => exact ⟨[], .nil⟩
  | cons d ds ih =>
    cases d with
    | alien o => cases h
    | obj d =>
      unfold sanitizeLocatorsD at h
      rw [exBind_ok] at h
      obtain ⟨_, h1, h2⟩ := h
      obtain ⟨l, hl⟩ := locator_typed h1
      obtain ⟨ls, hls⟩ := ih h2
      exact ⟨l :: ls, .cons ⟨hl⟩ hls⟩

theorem ref_locators_typed {ds : List (Item DLocator)} (h : sanitizeRefLocatorsD ds = .ok ()) :
    ∃ ls, Each (IsObj LocatorDen) ds ls := by
  induction ds with
  | nil => exact ⟨[], .nil⟩
  | cons d ds ih =>
    cases d with
    | alien o => cases h
    | obj d =>
      unfold sanitizeRefLocatorsD at h
      rw [exIteErr_ok, exBind_ok] at h
      obtain ⟨_, _, h1, h2⟩ := h
      obtain ⟨l, hl⟩ := locator_typed h1
      obtain ⟨ls, hls⟩ := ih h2
      exact ⟨l :: ls, .cons ⟨hl⟩ hls⟩

theorem key_agree {d : Item DLocator} {l : Locator} (h : IsObj LocatorDen d l) :
    sortKeyD d = l.sortKey ∧ keyD d = l.key := by
  cases h with
  | mk h =>
    unfold sortKeyD keyD Locator.sortKey Locator.key
    simp only [h.address]
    cases l.address <;> exact ⟨rfl, rfl⟩

theorem insert_each {α β : Type} {R : α → β → Prop} {k : α → Nat} {k' : β → Nat} (hk : ∀ a b, R a b → k a = k' b)
    {a : α} {b : β} (hab : R a b) {l : List α} {m : List β} (h : Each R l m) :
    Each R (insertBy k a l) (insertBy k' b m) := by
  induction h with
  | nil => exact .cons hab .nil
  | @cons c d l m hcd hlm ih =>
    unfold insertBy
    rw [hk _ _ hab, hk _ _ hcd]
    split
    · exact .cons hab (.cons hcd hlm)
    · exact .cons hcd ih

theorem sort_each {α β : Type} {R : α → β → Prop} {k : α → Nat} {k' : β → Nat} (hk : ∀ a b, R a b → k a = k' b)
    {l : List α} {m : List β} (h : Each R l m) : Each R (sortBy k l) (sortBy k' m) := by
  induction h with
  | nil => exact .nil
  | cons hab _ ih => exact insert_each hk hab ih

theorem sort_agree {ds : List (Item DLocator)} {ls : List Locator} (h : Each (IsObj LocatorDen) ds ls) :
    Agree (Each (IsObj LocatorDen)) (sortLocatorsD ds) (sortLocators ls) := by
  have hc : checkKeysD ds = checkKeys ls := by
    induction h with
    | nil => rfl
    | cons h _ ih => unfold checkKeysD checkKeys; rw [(key_agree h).1, ih]
  unfold sortLocatorsD sortLocators
  rw [hc]
  refine Agree.bind (agree_refl _) fun _ _ _ => ?_
  show Each (IsObj LocatorDen) (sortBy keyD ds) (sortBy Locator.key ls)
  exact sort_each (R := IsObj LocatorDen) (fun a b h => (key_agree h).2) h

/-! #### Records -/

theorem record_agree {d : DRecord} {r : Record} (h : RecordDen d r) :
    Agree (fun d' r' => RecordDen d' r' ∧ NumValue d'.action r'.action ∧ d'.register = d.register) d.sanitize r.sanitize := by
  obtain ⟨h1, h2, h3, h4, h5, h6, h7⟩ := h
  have hn := h6.nil_iff
  have hf : NumValue d.fixed (if r.locators ≠ [] then 0 else r.action) := by
    unfold DRecord.fixed
    by_cases hl : r.locators = []
    · rw [if_neg (not_not_intro hl), if_pos (by rw [hn.mpr hl]; rfl)]
      exact h2.resolve_left (not_not_intro (hn.mpr hl))
    · rw [if_pos hl, if_neg (by simpa using fun h => hl (hn.mp h))]
      exact .int 0
  unfold DRecord.sanitize Record.sanitize
  refine .ite (intIn_not h1 _ _) fun _ => ?_
  dsimp only
  generalize (if r.locators ≠ [] then 0 else r.action) = act at hf ⊢
  refine .ite ?_ fun _ => ?_
  · rw [← Bool.not_eq_true, Bool.or_eq_true, Bool.or_eq_true, Bool.or_eq_true, eqs_num hf, eqs_num hf, eqs_num hf,
      eqs_num hf, or_assoc, or_assoc]
  refine .skip (by rw [h3]; nofun) (.ite ?_ fun _ => ?_)
  · rw [intIn_not h4]; omega
  rw [h5]
  cases he : r.eid with
  | net n =>
    refine .skip nofun ?_
    rw [locators_agree h6]
    refine Agree.bind (agree_refl _) fun _ _ _ => Agree.bind (sort_agree h6) fun ls ls' hls => ?_
    refine ⟨⟨h1, Or.inr hf, h3, h4, ?_, hls, h7⟩, hf, rfl⟩
    exact rfl
  | _ => exact rfl

theorem record_typed {d d' : DRecord} (h : d.sanitize = .ok d') : ∃ r, RecordDen d r := by
  unfold DRecord.sanitize at h
  simp only [exIteErr_ok, exBind_ok, Bool.not_eq_false] at h
  obtain ⟨h1, h2, h3, h4, h5, _, h6, _⟩ := h
  obtain ⟨i1, h1⟩ := intIn_value h1
  obtain ⟨b3, h3⟩ := isBool_value h3
  obtain ⟨i4, h4⟩ := intIn_value h4
  obtain ⟨a, h5⟩ := isNet_value h5
  obtain ⟨ls, h6⟩ := locators_typed h6
  have h2' : ∃ i, d.locators ≠ [] ∨ NumValue d.action i := by
    by_cases hl : d.locators = []
    · have hf : d.fixed = d.action := by unfold DRecord.fixed; rw [hl]; rfl
      rw [hf] at h2
      simp only [Bool.or_eq_true] at h2
      rcases h2 with ((h2 | h2) | h2) | h2 <;> exact ⟨_, Or.inr (eqs_value h2)⟩
    · exact ⟨0, Or.inl hl⟩
  obtain ⟨i2, h2'⟩ := h2'
  exact ⟨⟨i1, i2, b3, i4, a, ls, d.reserved1⟩, h1, h2', h3, h4, h5, h6, rfl⟩

/-- the error of a list of locators that are not all locator records with attributes of the right types -/
theorem locators_refused {ds : List (Item DLocator)} {e : Err} (h : sanitizeLocatorsD ds = .error e) : e = .value := by
  induction ds with
  | nil => cases h
  | cons d ds ih =>
    cases d with
    | alien o => cases h; rfl
    | obj d =>
      unfold sanitizeLocatorsD at h
      cases hd : d.sanitize with
      | error f =>
        rw [hd] at h; cases h
        by_cases hl : ∃ l, LocatorDen d l
        · obtain ⟨l, hl⟩ := hl
          rw [locator_agree hl] at hd
          unfold Locator.sanitize checkLocatorAddress at hd
          repeat' split at hd
          all_goals (cases hd; try rfl)
        · rw [locator_refused fun l h => hl ⟨l, h⟩] at hd
          cases hd; rfl
      | ok u => rw [hd] at h; exact ih h

theorem record_refused {d : DRecord} (h : ∀ r, ¬ RecordDen d r) : d.sanitize = .error .value := by
  cases hd : d.sanitize with
  | ok d' => exact absurd (record_typed hd) (fun ⟨r, hr⟩ => h r hr)
  | error e =>
    refine congrArg _ ?_
    have hs := hd
    unfold DRecord.sanitize at hd
    split at hd
    · cases hd; rfl
    split at hd
    · cases hd; rfl
    split at hd
    · cases hd; rfl
    split at hd
    · cases hd; rfl
    split at hd
    · cases hd; rfl
    rename_i h1 h2 h3 h4 h5
    cases hl : sanitizeLocatorsD d.locators with
    | error f => rw [hl] at hd; cases hd; exact locators_refused hl
    | ok u =>
      exfalso
      rw [Bool.not_eq_false] at h1 h2 h3 h4 h5
      obtain ⟨ls, h6⟩ := locators_typed hl
      obtain ⟨i1, h1⟩ := intIn_value h1
      obtain ⟨b3, h3⟩ := isBool_value h3
      obtain ⟨i4, h4⟩ := intIn_value h4
      obtain ⟨a, h5⟩ := isNet_value h5
      have h2' : ∃ i, d.locators ≠ [] ∨ NumValue d.action i := by
        by_cases hl : d.locators = []
        · have hf : d.fixed = d.action := by unfold DRecord.fixed; rw [hl]; rfl
          rw [hf] at h2
          simp only [Bool.or_eq_true] at h2
          rcases h2 with ((h2 | h2) | h2) | h2 <;> exact ⟨_, Or.inr (eqs_value h2)⟩
        · exact ⟨0, Or.inl hl⟩
      obtain ⟨i2, h2'⟩ := h2'
      exact h ⟨i1, i2, b3, i4, a, ls, d.reserved1⟩ ⟨h1, h2', h3, h4, h5, h6, rfl⟩

theorem agree_ok {α β : Type} {R : α → β → Prop} {x : Except Err α} {y : Except Err β} (h : Agree R x y) {a : α}
    (hx : x = .ok a) : ∃ b, y = .ok b ∧ R a b := by
  subst hx
  cases y with
  | ok b => exact ⟨b, rfl, h⟩
  | error e => exact h.elim

theorem record_encRaw {d : DRecord} {r : Record} (h : RecordDen d r) (ha : NumValue d.action r.action) :
    d.encRaw = encRecordRaw r := by
  obtain ⟨h1, _, h3, h4, h5, h6, h7⟩ := h
  unfold DRecord.encRaw encRecordRaw
  rw [encUintD_num (int_num h1), encUintD_num ha, encUintD_num (int_num h4), h3, h5, h7, h6.length,
    enc_items (R := LocatorDen) (fun _ _ h => locator_enc h) h6]
  simp only [encBoolD_bool, exBind_okl, encAddrD, prefixlenD]

theorem record_enc {d : DRecord} {r : Record} (h : RecordDen d r) : d.enc = encRecord r := by
  unfold DRecord.enc encRecord
  have ha := record_agree h
  cases hd : d.sanitize with
  | error e =>
    rw [hd] at ha
    cases hr : r.sanitize with
    | error f => rw [hr] at ha; cases ha; rfl
    | ok r' => rw [hr] at ha; exact ha.elim
  | ok d' =>
    obtain ⟨r', hr, hrd, hra, -⟩ := agree_ok ha hd
    rw [hr]
    exact record_encRaw hrd hra

theorem refTable_agree {a i t : PyObj} {ls : List (Item DLocator)} {act ttl : Int} {inc : Bool} {ms : List Locator}
    (ha : NumValue a act) (hi : i = .bool inc) (ht : IntValue t ttl) (hl : ls = [] ↔ ms = []) :
    refTableD a i ls t = refTable act inc ms ttl := by
  subst hi
  have hn : ∀ j, (t.eqs j = false) = (ttl ≠ j) := fun j => by
    rw [← Bool.not_eq_true]; exact propext (not_congr (eqs_num (int_num ht) j))
  have he : (ls.isEmpty = true) = (ms = []) := by rw [List.isEmpty_iff]; exact propext hl
  have he' : ((!ls.isEmpty) = true) = (ms ≠ []) := by
    rw [Bool.not_eq_true', ← Bool.not_eq_true]; exact propext (not_congr (by rw [he]))
  have e : ∀ j, (a.eqs j = true) = (act = j) := fun j => propext (eqs_num ha j)
  have e01 : ((a.eqs 0 || a.eqs 1) = true) = (act = 0 ∨ act = 1) := by rw [Bool.or_eq_true, e, e]
  unfold refTableD refTable
  simp only [hn, he, he', e, e01, PyObj.truth]

theorem wrap_agree {o : PyObj} {a : Addr} (h : o = .addr a) :
    Agree (fun o' a' => o' = .addr a') (wrapEidD o) (wrapEid a) := by
  subst h
  unfold wrapEidD
  dsimp only
  cases wrapEid a <;> exact rfl

theorem ref_record_agree {d : DRefRecord} {r : RefRecord} (h : RefRecordDen d r) :
    Agree RefRecordDen d.sanitize r.sanitize := by
  obtain ⟨h1, h2, h3, h4, h5, h6, h7, h8, h9⟩ := h
  unfold DRefRecord.sanitize RefRecord.sanitize
  refine .ite (intIn_not h1 _ _) fun _ => .ite ?_ fun _ => .skip (by rw [h3]; nofun) (.skip (by rw [h4]; nofun) ?_)
  · rw [← Bool.not_eq_true]
    simp only [Bool.or_eq_true, eqs_num h2, or_assoc]
  rw [refTable_agree h2 h4 h1 h7.nil_iff]
  refine Agree.bind (agree_refl _) fun _ _ _ => .ite ?_ fun _ => ?_
  · rw [intIn_not h5]; omega
  refine Agree.bind (wrap_agree h6) fun o a ho => ?_
  rw [ref_locators_agree h7]
  refine Agree.bind (agree_refl _) fun _ _ _ => Agree.bind (sort_agree h7) fun ls ls' hls => ?_
  exact ⟨h1, h2, h3, h4, h5, ho, hls, h8, h9⟩

theorem ref_record_typed {d d' : DRefRecord} (h : d.sanitize = .ok d') : ∃ r, RefRecordDen d r := by
  unfold DRefRecord.sanitize at h
  simp only [exIteErr_ok, exBind_ok, Bool.not_eq_false] at h
  obtain ⟨h1, h2, h3, h4, _, _, h5, o, h6, _, h7, _⟩ := h
  obtain ⟨i1, h1⟩ := intIn_value h1
  obtain ⟨b3, h3⟩ := isBool_value h3
  obtain ⟨b4, h4⟩ := isBool_value h4
  obtain ⟨i5, h5⟩ := intIn_value h5
  obtain ⟨ls, h7⟩ := ref_locators_typed h7
  have h2' : ∃ i, NumValue d.action i := by
    simp only [Bool.or_eq_true] at h2
    rcases h2 with ((((h2 | h2) | h2) | h2) | h2) | h2 <;> exact ⟨_, eqs_value h2⟩
  obtain ⟨i2, h2'⟩ := h2'
  have h6' : ∃ a, d.eid = .addr a := by
    cases hd : d.eid <;> rw [hd] at h6 <;> first | exact ⟨_, rfl⟩ | cases h6
  obtain ⟨a, h6'⟩ := h6'
  exact ⟨⟨i1, i2, b3, b4, i5, a, ls, d.sigs, d.reserved1⟩, h1, h2', h3, h4, h5, h6', h7, rfl, rfl⟩

theorem ref_record_encRaw {d : DRefRecord} {r : RefRecord} (h : RefRecordDen d r) :
    d.encRaw = encRefRecordRaw r := by
  obtain ⟨h1, h2, h3, h4, h5, h6, h7, h8, h9⟩ := h
  unfold DRefRecord.encRaw encRefRecordRaw
  rw [encUintD_num (int_num h1), encUintD_num h2, encUintD_num (int_num h5), h3, h4, h6, h8, h9, h7.length,
    enc_items (R := LocatorDen) (fun _ _ h => locator_enc h) h7]
  simp only [encBoolD_bool, exBind_okl, encAddrD, prefixlenD]
  simp only [List.append_assoc, List.cons_append, List.nil_append]

/-- what is written after agreeing checks agrees -/
theorem agree_then {α β γ : Type} {R : α → β → Prop} {x : Except Err α} {y : Except Err β} {f : α → Except Err γ}
    {g : β → Except Err γ} (h : Agree R x y) (hf : ∀ a b, R a b → f a = g b) : (x >>= f) = (y >>= g) :=
  agree_eq (Agree.bind h fun a b hab => by rw [hf a b hab]; exact agree_refl _)

theorem ref_record_enc {d : DRefRecord} {r : RefRecord} (h : RefRecordDen d r) : d.enc = encRefRecord r :=
  agree_then (ref_record_agree h) fun _ _ => ref_record_encRaw

/-! #### Messages -/

theorem items_agree {α β : Type} {R : α → β → Prop} {cls : α → Bool} {f : α → Except Err α} {g : β → Except Err β}
    (hc : ∀ a b, R a b → cls a = true) (hf : ∀ a b, R a b → Agree R (f a) (g b)) {l : List (Item α)} {m : List β}
    (h : Each (IsObj R) l m) : Agree (Each (IsObj R)) (sanitizeItems cls f l) (sanitizeAll g m) := by
  induction h with
  | nil => exact .nil
  | cons h _ ih =>
    cases h with
    | mk h =>
      unfold sanitizeItems sanitizeAll
      refine .skip (by rw [hc _ _ h]; nofun) ?_
      exact Agree.bind (hf _ _ h) fun a b hab => Agree.bind ih fun l m hlm => .cons ⟨hab⟩ hlm

theorem items_typed {α β : Type} {R : α → β → Prop} {cls : α → Bool} {f : α → Except Err α}
    (hf : ∀ a a', cls a = true → f a = .ok a' → ∃ b, R a b) {l l' : List (Item α)}
    (h : sanitizeItems cls f l = .ok l') : ∃ m, Each (IsObj R) l m := by
  induction l generalizing l' with
  | nil => exact ⟨[], .nil⟩
  | cons i l ih =>
    cases i with
    | alien o => cases h
    | obj a =>
      unfold sanitizeItems at h
      simp only [exIteErr_ok, exBind_ok, Bool.not_eq_false] at h
      obtain ⟨h1, a', h2, l'', h3, _⟩ := h
      obtain ⟨b, hb⟩ := hf a a' h1 h2
      obtain ⟨m, hm⟩ := ih h3
      exact ⟨b :: m, .cons ⟨hb⟩ hm⟩

theorem reply_records_agree {l : List (Item DRecord)} {m : List Record} (h : Each (IsObj RecordDen) l m) :
    Agree (Each (IsObj RecordDen)) (sanitizeItems (fun _ => true) DRecord.sanitize l)
      (sanitizeAll Record.sanitize m) := by
  refine items_agree (fun _ _ _ => rfl) (fun a b hab => ?_) h
  have := record_agree hab
  cases ha : a.sanitize <;> cases hb : b.sanitize <;> rw [ha, hb] at this
  · exact this
  · exact this.elim
  · exact this.elim
  · exact this.1

theorem register_records_agree {l : List (Item DRecord)} {m : List Record} (h : Each (IsObj RegisterRecordDen) l m) :
    Agree (Each (IsObj RegisterRecordDen)) (sanitizeItems DRecord.register DRecord.sanitize l)
      (sanitizeAll Record.sanitize m) := by
  refine items_agree (fun _ _ h => h.1) (fun a b hab => ?_) h
  have := record_agree hab.2
  cases ha : a.sanitize <;> cases hb : b.sanitize <;> rw [ha, hb] at this
  · exact this
  · exact this.elim
  · exact this.elim
  · exact ⟨this.2.2.trans hab.1, this.1⟩

theorem strLen_ok {P : Py} {o : PyObj} {ok : Nat → Bool} (h : P.strLen o ok = .ok ()) :
    ∃ s, P.str o = .ok s ∧ ok s.length = true := by
  unfold Py.strLen at h
  rw [exBind_ok] at h
  obtain ⟨s, h1, h2⟩ := h
  refine ⟨s, h1, ?_⟩
  split at h2
  · assumption
  · cases h2

theorem strLen_str {P : Py} {o : PyObj} {s : Bytes} (h : P.str o = .ok s) (ok : Nat → Bool) :
    P.strLen o ok = if ok s.length = false then .error .value else .ok () := by
  unfold Py.strLen
  rw [h, exBind_okl]
  cases ok s.length <;> rfl

/-- a check of one side that is a plain condition of the other -/
theorem Agree.check {α β : Type} {R : α → β → Prop} {p q : Prop} [Decidable p] [Decidable q] {e : Err}
    {f : Unit → Except Err α} {y : Except Err β} (hp : p ↔ q) (h : ¬ q → Agree R (f ()) y) :
    Agree R ((if p then .error e else .ok ()) >>= f) (if q then .error e else y) := by
  by_cases hq : q
  · rw [if_pos hq, if_pos (hp.mpr hq)]; exact rfl
  · rw [if_neg hq, if_neg (fun h => hq (hp.mp h))]; exact h hq

theorem keyId_agree {o : PyObj} {k : Int} (h : NumValue o k) : o.keyIdOk = false ↔ ¬ keyIdOk k := by
  rw [← Bool.not_eq_true]
  unfold PyObj.keyIdOk keyIdOk
  simp only [Bool.or_eq_true, eqs_num h, or_assoc]

theorem keyId_typed {o : PyObj} (h : o.keyIdOk = true) : ∃ k, NumValue o k := by
  unfold PyObj.keyIdOk at h
  simp only [Bool.or_eq_true] at h
  rcases h with (h | h) | h <;> exact ⟨_, eqs_value h⟩

/-! ##### Map-Reply -/

theorem reply_agree {P : Py} {d : DMapReply} {m : MapReply} (h : ReplyDen P d m) :
    Agree (ReplyDen P) (d.sanitize P) m.sanitize := by
  obtain ⟨h1, h2, h3, h4, h5, h6⟩ := h
  unfold DMapReply.sanitize MapReply.sanitize
  refine .skip (by rw [h1]; nofun) (.skip (by rw [h2]; nofun) (.skip (by rw [h3]; nofun) (.ite ?_ fun _ => ?_)))
  · rw [h3]; exact Iff.rfl
  rw [strLen_str h4]
  refine .check ?_ fun _ => ?_
  · rw [← Bool.not_eq_true]; simp
  refine Agree.bind (reply_records_agree h5) fun rs rs' hrs => ?_
  exact ⟨h1, h2, h3, h4, hrs, h6⟩

theorem reply_typed {P : Py} {d d' : DMapReply} (h : d.sanitize P = .ok d') : ∃ m, ReplyDen P d m := by
  unfold DMapReply.sanitize at h
  simp only [exIteErr_ok, exBind_ok, Bool.not_eq_false] at h
  obtain ⟨h1, h2, h3, _, _, h4, rs, h5, _⟩ := h
  obtain ⟨b1, h1⟩ := isBool_value h1
  obtain ⟨b2, h2⟩ := isBool_value h2
  obtain ⟨b3, h3⟩ := isBool_value h3
  obtain ⟨n, h4, -⟩ := strLen_ok h4
  obtain ⟨rs, h5⟩ := items_typed (R := RecordDen) (fun _ _ _ => record_typed) h5
  exact ⟨⟨b1, b2, b3, n, rs, d.reserved1⟩, h1, h2, h3, h4, h5, rfl⟩

/-! ##### Which exceptions -/

theorem bind_error {α β : Type} {x : Except Err α} {f : α → Except Err β} {e : Err} (h : (x >>= f) = .error e) :
    x = .error e ∨ ∃ a, x = .ok a ∧ f a = .error e := by
  cases x with
  | error e' => cases h; exact .inl rfl
  | ok a => exact .inr ⟨a, rfl, h⟩

theorem sort_error {ds : List (Item DLocator)} {e : Err} (hs : ∀ o, .alien o ∉ ds) (h : sortLocatorsD ds = .error e) :
    e = .type := by
  rcases bind_error h with h | ⟨_, _, h⟩
  · induction ds with
    | nil => cases h
    | cons d ds ih =>
      rcases bind_error h with h | ⟨_, _, h⟩
      · cases d with
        | alien o => exact absurd List.mem_cons_self (hs o)
        | obj d =>
          unfold sortKeyD at h
          dsimp only at h
          split at h <;> cases h
          rfl
      · refine ih (fun o ho => hs o (List.mem_cons_of_mem _ ho)) ?_ h
        exact (by unfold sortLocatorsD; rw [h]; rfl)
  · cases h

theorem locators_objects {ds : List (Item DLocator)} {u : Unit} (h : sanitizeLocatorsD ds = .ok u) :
    ∀ o, .alien o ∉ ds := by
  induction ds with
  | nil => intro o ho; cases ho
  | cons d ds ih =>
    cases d with
    | alien o => cases h
    | obj d =>
      unfold sanitizeLocatorsD at h
      rw [exBind_ok] at h
      obtain ⟨_, _, h⟩ := h
      intro o ho
      rcases List.mem_cons.mp ho with ho | ho
      · cases ho
      · exact ih h o ho

theorem ref_locators_objects {ds : List (Item DLocator)} {u : Unit} (h : sanitizeRefLocatorsD ds = .ok u) :
    ∀ o, .alien o ∉ ds := by
  induction ds with
  | nil => intro o ho; cases ho
  | cons d ds ih =>
    cases d with
    | alien o => cases h
    | obj d =>
      unfold sanitizeRefLocatorsD at h
      split at h
      · cases h
      rw [exBind_ok] at h
      obtain ⟨_, _, h⟩ := h
      intro o ho
      rcases List.mem_cons.mp ho with ho | ho
      · cases ho
      · exact ih h o ho

theorem record_error {d : DRecord} {e : Err} (h : d.sanitize = .error e) : e = .value ∨ e = .type := by
  unfold DRecord.sanitize at h
  split at h
  · cases h; exact .inl rfl
  split at h
  · cases h; exact .inl rfl
  split at h
  · cases h; exact .inl rfl
  split at h
  · cases h; exact .inl rfl
  split at h
  · cases h; exact .inl rfl
  rcases bind_error h with h | ⟨_, hl, h⟩
  · exact .inl (locators_refused h)
  rcases bind_error h with h | ⟨_, _, h⟩
  · exact .inr (sort_error (locators_objects hl) h)
  cases h

theorem ref_locators_refused {ds : List (Item DLocator)} {e : Err} (h : sanitizeRefLocatorsD ds = .error e) :
    e = .value := by
  induction ds with
  | nil => cases h
  | cons d ds ih =>
    cases d with
    | alien o => cases h; rfl
    | obj d =>
      unfold sanitizeRefLocatorsD at h
      split at h
      · cases h; rfl
      · cases hd : d.sanitize with
        | error f =>
          rw [hd] at h; cases h
          have : sanitizeLocatorsD [.obj d] = .error e := by
            unfold sanitizeLocatorsD; rw [hd]; rfl
          exact locators_refused this
        | ok u => rw [hd] at h; exact ih h

theorem refTableD_error {a i t : PyObj} {ls : List (Item DLocator)} {e : Err} (h : refTableD a i ls t = .error e) :
    e = .value := by
  unfold refTableD at h
  repeat' split at h
  all_goals (cases h; try rfl)

theorem wrapEidD_error {o : PyObj} {e : Err} (hw : wrapEidD o = .error e) : e = .value := by
  unfold wrapEidD at hw
  split at hw
  · rcases bind_error hw with hw | ⟨_, _, hw⟩
    · unfold wrapEid at hw
      split at hw <;> cases hw
      rfl
    · cases hw
  · cases hw; rfl

theorem ref_record_error {d : DRefRecord} {e : Err} (h : d.sanitize = .error e) : e = .value ∨ e = .type := by
  unfold DRefRecord.sanitize at h
  split at h
  · cases h; exact .inl rfl
  split at h
  · cases h; exact .inl rfl
  split at h
  · cases h; exact .inl rfl
  split at h
  · cases h; exact .inl rfl
  rcases bind_error h with h | ⟨_, _, h⟩
  · exact .inl (refTableD_error h)
  split at h
  · cases h; exact .inl rfl
  rcases bind_error h with h | ⟨_, _, h⟩
  · exact .inl (wrapEidD_error h)
  rcases bind_error h with h | ⟨_, hl, h⟩
  · exact .inl (ref_locators_refused h)
  rcases bind_error h with h | ⟨_, _, h⟩
  · exact .inr (sort_error (ref_locators_objects hl) h)
  cases h

theorem items_error {α : Type} {cls : α → Bool} {f : α → Except Err α} {l : List (Item α)} {e : Err}
    (hf : ∀ a e, f a = .error e → e = .value ∨ e = .type) (h : sanitizeItems cls f l = .error e) :
    e = .value ∨ e = .type := by
  induction l with
  | nil => cases h
  | cons d l ih =>
    cases d with
    | alien o => cases h; exact .inl rfl
    | obj d =>
      unfold sanitizeItems at h
      split at h
      · cases h; exact .inl rfl
      rcases bind_error h with h | ⟨_, _, h⟩
      · exact hf _ _ h
      rcases bind_error h with h | ⟨_, _, h⟩
      · exact ih h
      cases h

theorem nonce_error {P : Py} {n : Bytes} {ok : Nat → Bool} {e : Err} (h : P.strLen (.bytes n) ok = .error e) :
    e = .value := by
  rw [strLen_str (P.str_bytes n)] at h
  split at h <;> cases h
  rfl

/-- an error of the checks is an error of `to_bytes` -/
theorem toBytes_raises {α : Type} {x : Except Err α} {f : α → Except Err Bits} {Q : Err → Prop}
    (h : ∀ a, x ≠ .ok a) (hQ : ∀ e, x = .error e → Q e) :
    ∃ e, Q e ∧ PyLisp.toBytes (x >>= f) = .error e := by
  cases x with
  | ok a => exact absurd rfl (h a)
  | error e => exact ⟨e, hQ e rfl, rfl⟩

/-- one of two exceptions -/
theorem one_of_two {x : Except Err Bytes} (h : ∃ e, (e = .value ∨ e = .type) ∧ x = .error e) :
    x = .error .value ∨ x = .error .type := by
  obtain ⟨e, rfl | rfl, h⟩ := h
  · exact .inl h
  · exact .inr h

theorem reply_encRaw {P : Py} {d : DMapReply} {m : MapReply} (h : ReplyDen P d m) : d.encRaw P = encMapReplyRaw m := by
  obtain ⟨h1, h2, h3, h4, h5, h6⟩ := h
  unfold DMapReply.encRaw encMapReplyRaw
  rw [h1, h2, h3, h4, h6, h5.length, enc_items (R := RecordDen) (fun _ _ h => record_enc h) h5]
  simp only [encBoolD_bool, exBind_okl, PyObj.truth, List.append_assoc, List.cons_append, List.nil_append]

theorem reply_error {P : Py} {d : DMapReply} {e : Err} (h : d.sanitize P = .error e) :
    e = .value ∨ e = .type ∨ (e = .notImpl ∧ d.security = .bool true) ∨ P.str d.nonce = .error e := by
  unfold DMapReply.sanitize at h
  split at h
  · cases h; exact .inl rfl
  split at h
  · cases h; exact .inl rfl
  split at h
  · cases h; exact .inl rfl
  rename_i hb
  rw [Bool.not_eq_false] at hb
  obtain ⟨b, hb⟩ := isBool_value hb
  split at h
  · rename_i ht
    rw [hb] at ht ⊢
    have : b = true := ht
    cases h
    exact .inr (.inr (.inl ⟨rfl, congrArg _ this⟩))
  rcases bind_error h with h | ⟨_, _, h⟩
  · rcases bind_error h with h | ⟨_, _, h⟩
    · exact .inr (.inr (.inr h))
    · split at h <;> cases h
      exact .inl rfl
  rcases bind_error h with h | ⟨_, _, h⟩
  · exact (items_error (fun _ _ => record_error) h).imp id .inl
  cases h

/-- C87: a Map-Reply object is written exactly as the Map-Reply it stands for (with the same exceptions), and if it
stands for none, `to_bytes` raises ValueError or TypeError, NotImplementedError (only if the security flag is True) or
what `str()` of the nonce raises.  Its nonce is the text (`str()`) of whatever value it was given. -/
theorem reply_object (P : Py) (d : DMapReply) :
    (∀ m, ReplyDen P d m → d.toBytes P = m.toBytes) ∧
    ((∀ m, ¬ ReplyDen P d m) → ∃ e, (e = .value ∨ e = .type ∨ (e = .notImpl ∧ d.security = .bool true) ∨
      P.str d.nonce = .error e) ∧ d.toBytes P = .error e) := by
  refine ⟨fun m h => ?_, fun h => toBytes_raises (fun d' hd => ?_) (fun e he => reply_error he)⟩
  · unfold DMapReply.toBytes MapReply.toBytes encMapReply
    exact congrArg _ (agree_then (reply_agree h) fun d m h => reply_encRaw h)
  · obtain ⟨m, hm⟩ := reply_typed hd
    exact h m hm

/-! ##### Map-Register -/

theorem register_agree {d : DMapRegister} {m : MapRegister} (h : RegisterDen d m) :
    Agree RegisterDen d.sanitize m.sanitize := by
  obtain ⟨h1, h2, h3, h4, h5, h6, h7, h8, h9, h10, h11⟩ := h
  unfold DMapRegister.sanitize MapRegister.sanitize
  refine .skip (by rw [h1]; nofun) (.ite ?_ fun _ => .ite ?_ fun _ => .skip (by rw [h2]; nofun)
    (.skip (by rw [h3]; nofun) (.ite (keyId_agree h5) fun _ => .skip (by rw [h6]; nofun) ?_)))
  · rw [intIn_not h8]; omega
  · rw [intIn_not h9]; omega
  refine Agree.bind (register_records_agree h7) fun rs rs' hrs => ?_
  exact ⟨h1, h2, h3, h4, h5, h6, hrs, h8, h9, h10, h11⟩

theorem register_typed {d d' : DMapRegister} (h : d.sanitize = .ok d') (n : Bytes) (hn : d.nonce = .bytes n) :
    ∃ m, RegisterDen d m := by
  unfold DMapRegister.sanitize at h
  simp only [exIteErr_ok, exBind_ok, Bool.not_eq_false] at h
  obtain ⟨h1, h2, h3, h4, h5, h6, h7, rs, h8, _⟩ := h
  obtain ⟨b1, h1⟩ := isBool_value h1
  obtain ⟨i2, h2⟩ := intIn_value h2
  obtain ⟨i3, h3⟩ := intIn_value h3
  obtain ⟨b4, h4⟩ := isBool_value h4
  obtain ⟨b5, h5⟩ := isBool_value h5
  obtain ⟨k, h6⟩ := keyId_typed h6
  obtain ⟨au, h7⟩ := isBytes_value h7
  obtain ⟨rs, h8⟩ := items_typed (R := RegisterRecordDen)
    (fun _ _ hc hs => (record_typed hs).imp fun _ hr => ⟨hc, hr⟩) h8
  exact ⟨⟨b1, b4, b5, n, k, au, rs, i2, i3, d.reserved1, d.reserved2⟩, h1, h4, h5, hn, h6, h7, h8, h2, h3, rfl, rfl⟩

theorem bind_of_ok {α β : Type} {x : Except Err α} {a : α} (h : x = .ok a) (f : α → Except Err β) :
    (x >>= f) = f a := by subst h; rfl

theorem raw_bind {β : Type} (P : Py) (b : Bytes) (f : Bytes → Except Err β) : (P.raw (.bytes b) >>= f) = f b :=
  bind_of_ok (P.raw_bytes b) f

theorem encBool_bind {β : Type} (b : Bool) (f : Bits → Except Err β) : (encBoolD (.bool b) >>= f) = f [b] :=
  bind_of_ok (encBoolD_bool b) f

theorem auth_bind {β : Type} (b : Bytes) (f : Bits × Bits → Except Err β) :
    (encAuthD (.bytes b) >>= f) = (encUint 16 b.length >>= fun n => encHex b >>= fun h => f (n, h)) := by
  unfold encAuthD
  dsimp only
  cases encUint 16 (b.length : Int) with
  | error e => rfl
  | ok n => cases encHex b <;> rfl

theorem ids_agree {x s : PyObj} {i j : Int} (hx : IntValue x i) (hs : IntValue s j) (p : Bool) :
    encIdsD p x s = encIds p i j := by
  unfold encIdsD encIds
  rw [encUintD_num (int_num hx), encUintD_num (int_num hs)]

theorem register_encRaw (P : Py) {d : DMapRegister} {m : MapRegister} (h : RegisterDen d m) :
    d.encRaw P = encMapRegisterRaw m := by
  obtain ⟨h1, h2, h3, h4, h5, h6, h7, h8, h9, h10, h11⟩ := h
  unfold DMapRegister.encRaw encMapRegisterRaw MapRegister.hasIds
  generalize natToBits 4 3 = w
  dsimp only
  rw [truth_int h8, truth_int h9]
  rw [h1, h2, h3, h4, h6, h10, h11, h7.length, enc_items (R := RegisterRecordDen) (fun _ _ h => record_enc h.2) h7,
    ids_agree h8 h9, encUintD_num h5]
  generalize natToBits 1 m.reserved1.toNat = w1
  generalize natToBits 15 m.reserved2.toNat = w2
  simp only [raw_bind, encBool_bind, PyObj.truth, auth_bind]
  simp only [List.append_assoc, List.cons_append, List.nil_append]

theorem register_error {d : DMapRegister} {n : Bytes} (_ : d.nonce = .bytes n) {e : Err} (h : d.sanitize = .error e) :
    e = .value ∨ e = .type := by
  unfold DMapRegister.sanitize at h
  iterate 7
    split at h
    · cases h; exact .inl rfl
  rcases bind_error h with h | ⟨_, _, h⟩
  · exact items_error (fun _ _ => record_error) h
  cases h

/-- C87: a Map-Register object with a byte string for a nonce is written exactly as the Map-Register it stands for, and
if it stands for none (a record that is a MapReplyRecord but no MapRegisterRecord is enough), `to_bytes` raises ValueError or TypeError. -/
theorem register_object (P : Py) (d : DMapRegister) (n : Bytes) (hn : d.nonce = .bytes n) :
    (∀ m, RegisterDen d m → d.toBytes P = m.toBytes) ∧
    ((∀ m, ¬ RegisterDen d m) → d.toBytes P = .error .value ∨ d.toBytes P = .error .type) := by
  refine ⟨fun m h => ?_, fun h => one_of_two (toBytes_raises (fun d' hd => ?_) (fun e he => register_error hn he))⟩
  · unfold DMapRegister.toBytes MapRegister.toBytes encMapRegister
    exact congrArg _ (agree_then (register_agree h) fun d m h => register_encRaw P h)
  · obtain ⟨m, hm⟩ := register_typed hd n hn
    exact h m hm

/-! ##### Map-Notify -/

theorem nonce_agree {α β : Type} {R : α → β → Prop} {P : Py} {o : PyObj} {n : Bytes} (h : o = .bytes n)
    {f : Unit → Except Err α} {y : Except Err β} (hf : Agree R (f ()) y) :
    Agree R (P.strLen o (· = 8) >>= f) (if n.length ≠ 8 then .error .value else y) := by
  rw [h, strLen_str (P.str_bytes n)]
  exact .check (by rw [← Bool.not_eq_true]; simp) fun _ => hf

theorem notify_agree {P : Py} {d : DMapNotify} {m : MapNotify} (h : NotifyDen d m) :
    Agree NotifyDen (d.sanitize P) m.sanitize := by
  obtain ⟨h1, h2, h3, h4, h5, h6, h7⟩ := h
  unfold DMapNotify.sanitize MapNotify.sanitize
  refine .ite ?_ fun _ => .ite ?_ fun _ => nonce_agree h1 (.ite (keyId_agree h2) fun _ =>
    .skip (by rw [h3]; nofun) ?_)
  · rw [intIn_not h5]; omega
  · rw [intIn_not h6]; omega
  refine Agree.bind (register_records_agree h4) fun rs rs' hrs => ?_
  exact ⟨h1, h2, h3, hrs, h5, h6, h7⟩

theorem notify_typed {P : Py} {d d' : DMapNotify} (h : d.sanitize P = .ok d') (n : Bytes)
    (hn : d.nonce = .bytes n) : ∃ m, NotifyDen d m := by
  unfold DMapNotify.sanitize at h
  simp only [exIteErr_ok, exBind_ok, Bool.not_eq_false] at h
  obtain ⟨h1, h2, _, _, h3, h4, rs, h5, _⟩ := h
  obtain ⟨i1, h1⟩ := intIn_value h1
  obtain ⟨i2, h2⟩ := intIn_value h2
  obtain ⟨k, h3⟩ := keyId_typed h3
  obtain ⟨au, h4⟩ := isBytes_value h4
  obtain ⟨rs, h5⟩ := items_typed (R := RegisterRecordDen)
    (fun _ _ hc hs => (record_typed hs).imp fun _ hr => ⟨hc, hr⟩) h5
  exact ⟨⟨n, k, au, rs, i1, i2, d.reserved1⟩, hn, h3, h4, h5, h1, h2, rfl⟩

theorem notify_encRaw (P : Py) {d : DMapNotify} {m : MapNotify} (h : NotifyDen d m) :
    d.encRaw P = encMapNotifyRaw m := by
  obtain ⟨h1, h2, h3, h4, h5, h6, h7⟩ := h
  unfold DMapNotify.encRaw encMapNotifyRaw MapNotify.hasIds
  generalize natToBits 4 4 = w
  dsimp only
  rw [truth_int h5, truth_int h6]
  rw [h1, h3, h7, h4.length, enc_items (R := RegisterRecordDen) (fun _ _ h => record_enc h.2) h4,
    ids_agree h5 h6, encUintD_num h2]
  generalize natToBits 19 m.reserved1.toNat = w1
  simp only [raw_bind, auth_bind]

theorem notify_error {P : Py} {d : DMapNotify} {n : Bytes} (hn : d.nonce = .bytes n) {e : Err}
    (h : d.sanitize P = .error e) : e = .value ∨ e = .type := by
  unfold DMapNotify.sanitize at h
  iterate 2
    split at h
    · cases h; exact .inl rfl
  rcases bind_error h with h | ⟨_, _, h⟩
  · rw [hn] at h; exact .inl (nonce_error h)
  iterate 2
    split at h
    · cases h; exact .inl rfl
  rcases bind_error h with h | ⟨_, _, h⟩
  · exact items_error (fun _ _ => record_error) h
  cases h

/-- C87: a Map-Notify object with a byte string for a nonce is written exactly as the Map-Notify it stands for, and if it
stands for none, `to_bytes` raises ValueError or TypeError. -/
theorem notify_object (P : Py) (d : DMapNotify) (n : Bytes) (hn : d.nonce = .bytes n) :
    (∀ m, NotifyDen d m → d.toBytes P = m.toBytes) ∧
    ((∀ m, ¬ NotifyDen d m) → d.toBytes P = .error .value ∨ d.toBytes P = .error .type) := by
  refine ⟨fun m h => ?_, fun h => one_of_two (toBytes_raises (fun d' hd => ?_) (fun e he => notify_error hn he))⟩
  · unfold DMapNotify.toBytes MapNotify.toBytes encMapNotify
    exact congrArg _ (agree_then (notify_agree h) fun d m h => notify_encRaw P h)
  · obtain ⟨m, hm⟩ := notify_typed hd n hn
    exact h m hm

/-! ##### Map-Referral -/

theorem referral_agree {P : Py} {d : DMapReferral} {m : MapReferral} (h : ReferralDen d m) :
    Agree ReferralDen (d.sanitize P) m.sanitize := by
  obtain ⟨h1, h2, h3⟩ := h
  unfold DMapReferral.sanitize MapReferral.sanitize
  refine nonce_agree h1 ?_
  refine Agree.bind (items_agree (R := RefRecordDen) (fun _ _ _ => rfl) (fun _ _ => ref_record_agree) h2)
    fun rs rs' hrs => ?_
  exact ⟨h1, hrs, h3⟩

theorem referral_typed {P : Py} {d d' : DMapReferral} (h : d.sanitize P = .ok d') (n : Bytes)
    (hn : d.nonce = .bytes n) : ∃ m, ReferralDen d m := by
  unfold DMapReferral.sanitize at h
  simp only [exBind_ok] at h
  obtain ⟨_, _, rs, h5, _⟩ := h
  obtain ⟨rs, h5⟩ := items_typed (R := RefRecordDen) (fun _ _ _ => ref_record_typed) h5
  exact ⟨⟨n, rs, d.reserved1⟩, hn, h5, rfl⟩

theorem referral_encRaw (P : Py) {d : DMapReferral} {m : MapReferral} (h : ReferralDen d m) :
    d.encRaw P = encMapReferralRaw m := by
  obtain ⟨h1, h2, h3⟩ := h
  unfold DMapReferral.encRaw encMapReferralRaw
  generalize natToBits 4 6 = w
  rw [h1, h3, h2.length, enc_items (R := RefRecordDen) (fun _ _ h => ref_record_enc h) h2]
  simp only [raw_bind]

theorem referral_error {P : Py} {d : DMapReferral} {n : Bytes} (hn : d.nonce = .bytes n) {e : Err}
    (h : d.sanitize P = .error e) : e = .value ∨ e = .type := by
  unfold DMapReferral.sanitize at h
  rcases bind_error h with h | ⟨_, _, h⟩
  · rw [hn] at h; exact .inl (nonce_error h)
  rcases bind_error h with h | ⟨_, _, h⟩
  · exact items_error (fun _ _ => ref_record_error) h
  cases h

/-- C87: a Map-Referral object with a byte string for a nonce is written exactly as the Map-Referral it stands for, and
if it stands for none, `to_bytes` raises ValueError or TypeError. -/
theorem referral_object (P : Py) (d : DMapReferral) (n : Bytes) (hn : d.nonce = .bytes n) :
    (∀ m, ReferralDen d m → d.toBytes P = m.toBytes) ∧
    ((∀ m, ¬ ReferralDen d m) → d.toBytes P = .error .value ∨ d.toBytes P = .error .type) := by
  refine ⟨fun m h => ?_, fun h => one_of_two (toBytes_raises (fun d' hd => ?_) (fun e he => referral_error hn he))⟩
  · unfold DMapReferral.toBytes MapReferral.toBytes encMapReferral
    exact congrArg _ (agree_then (referral_agree h) fun d m h => referral_encRaw P h)
  · obtain ⟨m, hm⟩ := referral_typed hd n hn
    exact h m hm

/-! ##### Info -/

theorem info_agree {P : Py} {d : DInfo} {m : Info} (h : InfoDen d m) :
    Agree InfoDen (d.sanitize P) m.sanitize := by
  have hd := h
  obtain ⟨h1, h2, h3, h4, h5, h6, h7, h8, h9⟩ := h
  unfold DInfo.sanitize Info.sanitize
  refine .skip (by rw [h1]; nofun) (nonce_agree h2 (.ite (keyId_agree h3) fun _ =>
    .skip (by rw [h4]; nofun) (.ite (intIn_not h5 _ _) fun _ => .ite ?_ fun _ => .ite ?_ fun _ => hd)))
  · rw [h6]; exact Iff.rfl
  · rw [h7, h1]; exact Iff.rfl

theorem info_typed {P : Py} {d d' : DInfo} (h : d.sanitize P = .ok d') (n : Bytes)
    (hn : d.nonce = .bytes n) : ∃ m, InfoDen d m := by
  unfold DInfo.sanitize at h
  simp only [exIteErr_ok, exBind_ok, Bool.not_eq_false] at h
  obtain ⟨h1, _, _, h2, h3, h4, h5, h6, _⟩ := h
  obtain ⟨b, h1⟩ := isBool_value h1
  obtain ⟨k, h2⟩ := keyId_typed h2
  obtain ⟨au, h3⟩ := isBytes_value h3
  obtain ⟨t, h4⟩ := intIn_value h4
  obtain ⟨p, h5⟩ := isNet_value h5
  have h6' : ∃ a, d.reply = .addr a := by
    cases hd : d.reply <;> rw [hd] at h6 <;> first | exact ⟨_, rfl⟩ | cases h6
  obtain ⟨a, h6'⟩ := h6'
  exact ⟨⟨b, n, k, au, t, p, a, d.reserved1, d.reserved2⟩, h1, hn, h2, h3, h4, h5, h6', rfl, rfl⟩

theorem info_encRaw (P : Py) {d : DInfo} {m : Info} (h : InfoDen d m) : d.encRaw P = encInfoRaw m := by
  obtain ⟨h1, h2, h3, h4, h5, h6, h7, h8, h9⟩ := h
  unfold DInfo.encRaw encInfoRaw
  generalize natToBits 4 7 = w
  rw [h1, h2, h4, h6, h7, h8, h9, encUintD_num h3, encUintD_num (int_num h5)]
  generalize natToBits 27 m.reserved1.toNat = w1
  generalize natToBits 8 m.reserved2.toNat = w2
  simp only [encBool_bind, raw_bind, auth_bind, prefixlenD, encAddrD]

theorem info_error {P : Py} {d : DInfo} {n : Bytes} (hn : d.nonce = .bytes n) {e : Err}
    (h : d.sanitize P = .error e) : e = .value ∨ e = .type := by
  unfold DInfo.sanitize at h
  split at h
  · cases h; exact .inl rfl
  rcases bind_error h with h | ⟨_, _, h⟩
  · rw [hn] at h; exact .inl (nonce_error h)
  iterate 5
    split at h
    · cases h; exact .inl rfl
  cases h

/-- C87: an Info object with a byte string for a nonce is written exactly as the Info message it stands for, and if it
stands for none, `to_bytes` raises ValueError or TypeError. -/
theorem info_object (P : Py) (d : DInfo) (n : Bytes) (hn : d.nonce = .bytes n) :
    (∀ m, InfoDen d m → d.toBytes P = m.toBytes) ∧
    ((∀ m, ¬ InfoDen d m) → d.toBytes P = .error .value ∨ d.toBytes P = .error .type) := by
  refine ⟨fun m h => ?_, fun h => one_of_two (toBytes_raises (fun d' hd => ?_) (fun e he => info_error hn he))⟩
  · unfold DInfo.toBytes Info.toBytes encInfo
    exact congrArg _ (agree_then (info_agree h) fun d m h => info_encRaw P h)
  · obtain ⟨m, hm⟩ := info_typed hd n hn
    exact h m hm

/-! ##### Map-Request -/

theorem itr_agree (l : List Addr) :
    itrRlocsD (l.map .addr) = if l.all Addr.isIP = false then .error .value else .ok () := by
  induction l with
  | nil => rfl
  | cons a l ih =>
    unfold List.map itrRlocsD
    rw [List.all_cons, ih]
    cases a.isIP <;> simp

theorem eids_agree (l : List Addr) :
    eidPrefixesD (l.map .addr) =
      if l.all (fun p => p.getAddresses.all Addr.isIPorNet) = false then .error .value else .ok () := by
  induction l with
  | nil => rfl
  | cons a l ih =>
    unfold List.map eidPrefixesD
    rw [List.all_cons, ih]
    cases a.getAddresses.all Addr.isIPorNet <;> simp

theorem opt_agree {d : Option (Item DRecord)} {r : Option Record} (h : OptDen d r) :
    Agree OptDen (mapReplyD d) (sanitizeOpt r) := by
  cases h with
  | none => exact .none
  | some h =>
    refine Agree.bind (record_agree h) fun a b hab => ?_
    exact OptDen.some hab.1

theorem source_agree (a : Addr) :
    sourceEidD (.addr a) = if sourceEidOk a = false then .error .value else .ok () := by
  show (if sourceEidOk a = true then _ else _) = _
  cases sourceEidOk a <;> rfl

theorem request_agree {P : Py} {d : DMapRequest} {m : MapRequest} (h : RequestDen d m) :
    Agree RequestDen (d.sanitize P) m.sanitize := by
  obtain ⟨h1, h2, h3, h4, h5, h6, h7, h8, h9, h10, h11⟩ := h
  unfold DMapRequest.sanitize MapRequest.sanitize
  refine .skip (by rw [h1]; nofun) (.skip (by rw [h2]; nofun) (.skip (by rw [h3]; nofun) (.skip (by rw [h4]; nofun)
    (.skip (by rw [h5]; nofun) (.ite ?_ fun _ => .ite ?_ fun _ => nonce_agree h6 ?_)))))
  · rw [h8, List.length_map]
  · rw [h9, List.length_map]
  rw [h7, source_agree]
  refine .check Iff.rfl fun _ => ?_
  rw [h8, itr_agree]
  refine .check Iff.rfl fun _ => ?_
  rw [h9, eids_agree]
  refine .check Iff.rfl fun _ => ?_
  refine Agree.bind (opt_agree h10) fun r r' hr => ?_
  exact ⟨h1, h2, h3, h4, h5, h6, rfl, rfl, rfl, hr, h11⟩

theorem itr_value {l : List PyObj} (h : itrRlocsD l = .ok ()) : ∃ m : List Addr, l = m.map PyObj.addr := by
  induction l with
  | nil => exact ⟨[], rfl⟩
  | cons o l ih =>
    cases o with
    | addr a =>
      unfold itrRlocsD at h
      split at h
      · obtain ⟨m, rfl⟩ := ih h
        exact ⟨a :: m, rfl⟩
      · cases h
    | _ => cases h

theorem eids_value {l : List PyObj} (h : eidPrefixesD l = .ok ()) : ∃ m : List Addr, l = m.map PyObj.addr := by
  induction l with
  | nil => exact ⟨[], rfl⟩
  | cons o l ih =>
    cases o with
    | addr a =>
      unfold eidPrefixesD at h
      split at h
      · obtain ⟨m, rfl⟩ := ih h
        exact ⟨a :: m, rfl⟩
      · cases h
    | _ => cases h

theorem opt_value {d d' : Option (Item DRecord)} (h : mapReplyD d = .ok d') : ∃ r, OptDen d r := by
  cases d with
  | none => exact ⟨none, .none⟩
  | some i =>
    cases i with
    | alien o => cases h
    | obj a =>
      unfold mapReplyD at h
      rw [exBind_ok] at h
      obtain ⟨a', ha, _⟩ := h
      obtain ⟨r, hr⟩ := record_typed ha
      exact ⟨some r, .some hr⟩

theorem request_typed {P : Py} {d d' : DMapRequest} (h : d.sanitize P = .ok d') (n : Bytes)
    (hn : d.nonce = .bytes n) : ∃ m, RequestDen d m := by
  unfold DMapRequest.sanitize at h
  simp only [exIteErr_ok, exBind_ok, Bool.not_eq_false] at h
  obtain ⟨h1, h2, h3, h4, h5, _, _, _, _, _, h6, _, h7, _, h8, r, h9, _⟩ := h
  obtain ⟨b1, h1⟩ := isBool_value h1
  obtain ⟨b2, h2⟩ := isBool_value h2
  obtain ⟨b3, h3⟩ := isBool_value h3
  obtain ⟨b4, h4⟩ := isBool_value h4
  obtain ⟨b5, h5⟩ := isBool_value h5
  have h6' : ∃ a, d.sourceEid = .addr a := by
    cases hd : d.sourceEid <;> rw [hd] at h6 <;> first | exact ⟨_, rfl⟩ | cases h6
  obtain ⟨a, h6'⟩ := h6'
  obtain ⟨is, h7⟩ := itr_value h7
  obtain ⟨es, h8⟩ := eids_value h8
  obtain ⟨r, h9⟩ := opt_value h9
  exact ⟨⟨b1, b2, b3, b4, b5, n, a, is, es, r, d.reserved1⟩, h1, h2, h3, h4, h5, hn, h6', h7, h8, h9, rfl⟩

theorem enc_map {α β : Type} (g : β → α) {e : α → Except Err Bits} {f : β → Except Err Bits}
    (h : ∀ b, e (g b) = f b) (l : List β) : encAll e (l.map g) = encAll f l := by
  induction l with
  | nil => rfl
  | cons b l ih => unfold List.map encAll; rw [h, ih]

theorem opt_enc {d : Option (Item DRecord)} {r : Option Record} (h : OptDen d r) :
    encOptRecordD d = encOptRecord r ∧ d.isSome = r.isSome := by
  cases h with
  | none => exact ⟨rfl, rfl⟩
  | some h => exact ⟨record_enc h, rfl⟩

theorem request_encRaw (P : Py) {d : DMapRequest} {m : MapRequest} (h : RequestDen d m) :
    d.encRaw P = encMapRequestRaw m := by
  obtain ⟨h1, h2, h3, h4, h5, h6, h7, h8, h9, h10, h11⟩ := h
  unfold DMapRequest.encRaw encMapRequestRaw
  generalize natToBits 4 1 = w
  rw [h1, h2, h3, h4, h5, h6, h7, h8, h9, h11, (opt_enc h10).1, (opt_enc h10).2, List.length_map, List.length_map,
    enc_map PyObj.addr (f := encAddr) (fun _ => rfl), enc_map PyObj.addr (f := encEidPrefix) (fun _ => rfl)]
  generalize natToBits 9 m.reserved1.toNat = w1
  simp only [encBool_bind, raw_bind, encAddrD]
  simp only [List.append_assoc, List.cons_append, List.nil_append]

theorem reprErr_two (o : PyObj) : o.reprErr = .value ∨ o.reprErr = .type := by
  unfold PyObj.reprErr
  split
  · split
    · exact .inl rfl
    · exact .inr rfl
  · exact .inl rfl

theorem itrRlocs_error {l : List PyObj} {e : Err} (h : itrRlocsD l = .error e) : e = .value := by
  induction l with
  | nil => cases h
  | cons o l ih =>
    unfold itrRlocsD at h
    split at h
    · cases h
    · rename_i a _ heq
      cases heq
      split at h
      · exact ih h
      · cases h; rfl
    · cases h; rfl

theorem eidPrefixes_error {l : List PyObj} {e : Err} (h : eidPrefixesD l = .error e) : e = .value ∨ e = .type := by
  induction l with
  | nil => cases h
  | cons o l ih =>
    unfold eidPrefixesD at h
    split at h
    · cases h
    · rename_i a _ heq
      cases heq
      split at h
      · exact ih h
      · cases h; exact .inl rfl
    · rename_i heq
      cases heq
      cases h; exact reprErr_two _

theorem request_error {P : Py} {d : DMapRequest} {n : Bytes} (hn : d.nonce = .bytes n) {e : Err}
    (h : d.sanitize P = .error e) : e = .value ∨ e = .type := by
  unfold DMapRequest.sanitize at h
  iterate 7
    split at h
    · cases h; exact .inl rfl
  rcases bind_error h with h | ⟨_, _, h⟩
  · rw [hn] at h; exact .inl (nonce_error h)
  rcases bind_error h with h | ⟨_, _, h⟩
  · unfold sourceEidD at h
    split at h
    · split at h <;> cases h
      exact .inl rfl
    · cases h; exact reprErr_two _
  rcases bind_error h with h | ⟨_, _, h⟩
  · exact .inl (itrRlocs_error h)
  rcases bind_error h with h | ⟨_, _, h⟩
  · exact eidPrefixes_error h
  rcases bind_error h with h | ⟨_, _, h⟩
  · unfold mapReplyD at h
    split at h
    · cases h
    · cases h; exact .inl rfl
    · rcases bind_error h with h | ⟨_, _, h⟩
      · exact record_error h
      cases h
  cases h

/-- C87: a Map-Request object with a byte string for a nonce is written exactly as the Map-Request it stands for, and if
it stands for none, `to_bytes` raises ValueError or TypeError. -/
theorem request_object (P : Py) (d : DMapRequest) (n : Bytes) (hn : d.nonce = .bytes n) :
    (∀ m, RequestDen d m → d.toBytes P = m.toBytes) ∧
    ((∀ m, ¬ RequestDen d m) → d.toBytes P = .error .value ∨ d.toBytes P = .error .type) := by
  refine ⟨fun m h => ?_, fun h => one_of_two (toBytes_raises (fun d' hd => ?_) (fun e he => request_error hn he))⟩
  · unfold DMapRequest.toBytes MapRequest.toBytes encMapRequest
    exact congrArg _ (agree_then (request_agree h) fun d m h => request_encRaw P h)
  · obtain ⟨m, hm⟩ := request_typed hd n hn
    exact h m hm

/-! ##### Records and locators by themselves -/

/-- C87: a locator record object passes or fails `sanitize` exactly as the locator record it stands for, and is written
as that; if it stands for none, `sanitize` raises ValueError. -/
theorem locator_object (d : DLocator) :
    (∀ l, LocatorDen d l → d.sanitize = l.sanitize ∧ d.enc = encLocator l) ∧
    ((∀ l, ¬ LocatorDen d l) → d.sanitize = .error .value ∧ d.enc = .error .value) := by
  refine ⟨fun l h => ⟨locator_agree h, locator_enc h⟩, fun h => ⟨locator_refused h, ?_⟩⟩
  unfold DLocator.enc
  rw [locator_refused h]
  rfl

/-- C87: a Map-Reply or Map-Register record object passes or fails `sanitize` exactly as the record it stands for, and is
written as that; if it stands for none, `sanitize` raises ValueError. -/
theorem record_object (d : DRecord) :
    (∀ r, RecordDen d r → Agree RecordDen d.sanitize r.sanitize ∧ d.enc = encRecord r) ∧
    ((∀ r, ¬ RecordDen d r) → d.sanitize = .error .value ∧ d.enc = .error .value) := by
  refine ⟨fun r h => ⟨?_, record_enc h⟩, fun h => ⟨record_refused h, ?_⟩⟩
  · have := record_agree h
    cases ha : d.sanitize <;> cases hb : r.sanitize <;> rw [ha, hb] at this
    · exact this
    · exact this.elim
    · exact this.elim
    · exact this.1
  · unfold DRecord.enc
    rw [record_refused h]
    rfl

theorem ref_record_refused {d : DRefRecord} (h : ∀ r, ¬ RefRecordDen d r) : d.sanitize = .error .value := by
  cases hd : d.sanitize with
  | ok d' => exact absurd (ref_record_typed hd) (fun ⟨r, hr⟩ => h r hr)
  | error e =>
    refine congrArg _ ?_
    unfold DRefRecord.sanitize at hd
    split at hd
    · cases hd; rfl
    split at hd
    · cases hd; rfl
    split at hd
    · cases hd; rfl
    split at hd
    · cases hd; rfl
    rename_i h1 h2 h3 h4
    cases ht : refTableD d.action d.incomplete d.locators d.ttl with
    | error f => rw [ht] at hd; cases hd; exact refTableD_error ht
    | ok u =>
      rw [ht, exBind_okl] at hd
      split at hd
      · cases hd; rfl
      rename_i h5
      cases hw : wrapEidD d.eid with
      | error f =>
        rw [hw] at hd; cases hd
        unfold wrapEidD at hw
        split at hw
        · rename_i a _
          cases a <;> cases hw <;> rfl
        · cases hw; rfl
      | ok o =>
        rw [hw, exBind_okl] at hd
        cases hl : sanitizeRefLocatorsD d.locators with
        | error f => rw [hl] at hd; cases hd; exact ref_locators_refused hl
        | ok u =>
          exfalso
          rw [Bool.not_eq_false] at h1 h2 h3 h4 h5
          obtain ⟨ls, h6⟩ := ref_locators_typed hl
          obtain ⟨i1, h1⟩ := intIn_value h1
          obtain ⟨b3, h3⟩ := isBool_value h3
          obtain ⟨b4, h4⟩ := isBool_value h4
          obtain ⟨i5, h5⟩ := intIn_value h5
          have h2' : ∃ i, NumValue d.action i := by
            simp only [Bool.or_eq_true] at h2
            rcases h2 with ((((h2 | h2) | h2) | h2) | h2) | h2 <;> exact ⟨_, eqs_value h2⟩
          obtain ⟨i2, h2'⟩ := h2'
          have h6' : ∃ a, d.eid = .addr a := by
            cases hd : d.eid <;> rw [hd] at hw <;> first | exact ⟨_, rfl⟩ | cases hw
          obtain ⟨a, h6'⟩ := h6'
          exact h ⟨i1, i2, b3, b4, i5, a, ls, d.sigs, d.reserved1⟩ ⟨h1, h2', h3, h4, h5, h6', h6, rfl, rfl⟩

/-- C87: a Map-Referral record object passes or fails `sanitize` exactly as the record it stands for, and is written as
that; if it stands for none, `sanitize` raises ValueError. -/
theorem ref_record_object (d : DRefRecord) :
    (∀ r, RefRecordDen d r → Agree RefRecordDen d.sanitize r.sanitize ∧ d.enc = encRefRecord r) ∧
    ((∀ r, ¬ RefRecordDen d r) → d.sanitize = .error .value ∧ d.enc = .error .value) := by
  refine ⟨fun r h => ⟨ref_record_agree h, ref_record_enc h⟩, fun h => ⟨ref_record_refused h, ?_⟩⟩
  unfold DRefRecord.enc
  rw [ref_record_refused h]
  rfl

/-! ##### Headers -/

/-- C87: the header of an encapsulated control message passes or fails `sanitize` exactly as the header it stands for; if
it stands for none, `sanitize` raises ValueError, or NotImplementedError if the security flag is the boolean True. -/
theorem ecm_object (d : DEcmHdr) :
    (∀ h, EcmDen d h → d.sanitize = h.sanitize) ∧
    ((∀ h, ¬ EcmDen d h) → (d.security = .bool true ∧ d.sanitize = .error .notImpl) ∨
      (d.security ≠ .bool true ∧ d.sanitize = .error .value)) := by
  constructor
  · rintro h ⟨h1, h2, h3, h4⟩
    unfold DEcmHdr.sanitize EcmHdr.sanitize
    rw [h1, h2, h3, h4]
    cases h.security <;> rfl
  · intro h
    unfold DEcmHdr.sanitize
    by_cases h1 : d.security.isBool = true
    · obtain ⟨b, h1⟩ := isBool_value h1
      rw [h1]
      cases b with
      | true => exact Or.inl ⟨rfl, rfl⟩
      | false =>
        refine Or.inr ⟨(fun h => by cases h), ?_⟩
        show (if d.ddtOriginated.isBool = false then _ else _) = _
        split
        · rfl
        split
        · rfl
        split
        · rfl
        rename_i h2 h3 h4
        rw [Bool.not_eq_false] at h2 h3 h4
        obtain ⟨b2, h2⟩ := isBool_value h2
        obtain ⟨b3, h3⟩ := isBool_value h3
        obtain ⟨b4, h4⟩ := isBool_value h4
        exact absurd ⟨h1, h2, h3, h4⟩ (h ⟨false, b2, b3, b4, 0⟩)
    · refine Or.inr ⟨fun h => h1 (by rw [h]; rfl), ?_⟩
      rw [if_pos (by simpa using h1)]

theorem opt_none {α : Type} {R : PyObj → α → Prop} {o : PyObj} {v : Option α} (h : OptVal R o v)
    (hR : ∀ a, ¬ R (.addr .none) a) : o.isNone = v.isNone := by
  cases h with
  | none => rfl
  | some h =>
    cases o with
    | addr a => cases a <;> first | rfl | exact absurd h (hR _)
    | _ => rfl

theorem none_value {o : PyObj} (h : o.isNone = true) : o = .addr .none := by
  cases o with
  | addr a => cases a <;> first | rfl | cases h
  | _ => cases h

theorem opt_int {o : PyObj} {v : Option Int} (h : OptVal IntValue o v) : o.isNone = v.isNone :=
  opt_none h (fun _ h => by cases h)

theorem opt_range {o : PyObj} {v : Option Int} (h : OptVal IntValue o v) (hi : Int) :
    (!o.intIn 0 hi) = true ↔ ¬ ∃ x, v = some x ∧ 0 ≤ x ∧ x ≤ hi := by
  cases h with
  | none => exact ⟨fun _ => (fun ⟨x, h, _⟩ => by cases h), fun _ => rfl⟩
  | @some o x h =>
    rw [Bool.not_eq_true', intIn_not h]
    constructor
    · rintro h ⟨y, he, h1, h2⟩
      cases he
      omega
    · intro h
      by_cases h1 : 0 ≤ x ∧ x ≤ hi
      · exact absurd ⟨x, rfl, h1⟩ h
      · omega

theorem bools_all (l : List Bool) : (l.map PyObj.bool).all PyObj.isBool = true := by
  induction l with
  | nil => rfl
  | cons b l ih => rw [List.map_cons, List.all_cons, ih]; rfl

theorem bools_value {l : List PyObj} (h : l.all PyObj.isBool = true) : ∃ m : List Bool, l = m.map .bool := by
  induction l with
  | nil => exact ⟨[], rfl⟩
  | cons o l ih =>
    rw [List.all_cons, Bool.and_eq_true] at h
    obtain ⟨b, rfl⟩ := isBool_value h.1
    obtain ⟨m, rfl⟩ := ih h.2
    exact ⟨b :: m, rfl⟩

theorem data_agree {d : DDataHdr} {h : DataHdr} (hd : DataDen d h) : Agree DataDen d.sanitize h.sanitize := by
  have hden := hd
  obtain ⟨h1, h2, h3, h4, h5, h6⟩ := hd
  have hn : d.nonce.isNone = h.nonce.isNone := opt_none h2 (fun _ h => by cases h)
  have hv : (!d.srcVersion.isNone || !d.dstVersion.isNone) = true ↔
      h.srcVersion.isSome = true ∨ h.dstVersion.isSome = true := by
    rw [opt_int h3, opt_int h4]
    cases h.srcVersion <;> cases h.dstVersion <;> simp
  have hl : d.lsb.isNone = h.lsb.isNone := opt_none h5 (fun _ ⟨_, h⟩ => by cases h)
  have hi : d.iid.isNone = h.iid.isNone := opt_int h6
  unfold DDataHdr.sanitize DataHdr.sanitize
  dsimp only
  refine .ite ?_ fun _ => .ite ?_ fun _ => .ite ?_ fun _ => .skip (by rw [h1]; nofun) (.ite ?_ fun _ => .ite ?_ fun _ =>
    .ite ?_ fun _ => ?_)
  · revert h2
    generalize d.nonce = o
    generalize h.nonce = v
    intro h2
    cases h2 with
    | none => exact ⟨nofun, nofun⟩
    | some h => subst h; simp
  · rw [Bool.and_eq_true, hv, hn]
    cases h.nonce <;> simp
  · revert h5 hl
    generalize d.lsb = o
    generalize h.lsb = v
    intro h5 hl
    rw [hi]
    cases h5 with
    | none => exact ⟨nofun, nofun⟩
    | some h =>
      obtain ⟨t, rfl⟩ := h
      show (!(PyObj.seq t _).isNone && !(decide _ && _)) = true ↔ _
      rw [bools_all, Bool.and_true, List.length_map]
      cases d.iid <;> cases h.iid <;> simp [lsbBits, PyObj.isNone]
  · rw [Bool.and_eq_true, hv, opt_range h3]
    refine and_congr Iff.rfl (not_congr ?_)
    unfold versionOk
    exact exists_congr fun x => and_congr Iff.rfl (and_congr Iff.rfl (by omega))
  · rw [Bool.and_eq_true, hv, opt_range h4]
    refine and_congr Iff.rfl (not_congr ?_)
    unfold versionOk
    exact exists_congr fun x => and_congr Iff.rfl (and_congr Iff.rfl (by omega))
  · rw [Bool.and_eq_true, opt_range h6, hi]
    cases h.iid with
    | none => simp
    | some x => simp; omega
  · refine ⟨?_, h2, h3, h4, h5, h6⟩
    show (if (d.echoNonce.truth && d.nonce.isNone) = true then PyObj.bool false else d.echoNonce) = .bool _
    rw [h1, hn]
    cases h.echoNonce <;> cases h.nonce <;> rfl

theorem int_opt {o : PyObj} {v hi : Int} {w : Bool} (hw : o.isNone = false → w = true)
    (h : ¬ (w && !o.intIn v hi) = true) : ∃ x, OptVal IntValue o x := by
  cases hn : o.isNone with
  | true => rw [none_value hn]; exact ⟨none, .none⟩
  | false =>
    rw [hw hn, Bool.true_and, Bool.not_eq_true', Bool.not_eq_false] at h
    obtain ⟨i, hi⟩ := intIn_value h
    exact ⟨some i, .some hi⟩

theorem data_typed {d d' : DDataHdr} (h : d.sanitize = .ok d') : ∃ m, DataDen d m := by
  unfold DDataHdr.sanitize at h
  dsimp only at h
  simp only [exIteErr_ok] at h
  obtain ⟨h1, _, h3, h4, h5, h6, h7, _⟩ := h
  obtain ⟨b, h4⟩ := isBool_value (by simpa using h4)
  obtain ⟨sv, h5⟩ := int_opt (fun h => by rw [h]; rfl) h5
  obtain ⟨dv, h6⟩ := int_opt (fun h => by rw [h]; simp) h6
  obtain ⟨ii, h7⟩ := int_opt (fun h => by rw [h]; rfl) h7
  have h1' : ∃ n, OptVal (fun o b => o = .bytes b) d.nonce n := by
    cases hd : d.nonce with
    | bytes b => exact ⟨some b, .some rfl⟩
    | addr a =>
      rw [hd] at h1
      cases a <;> first | exact ⟨none, .none⟩ | exact absurd rfl h1
    | _ => rw [hd] at h1; exact absurd rfl h1
  have h3' : ∃ l, OptVal (fun o (l : List Bool) => ∃ t, o = .seq t (l.map .bool)) d.lsb l := by
    cases hd : d.lsb with
    | seq t l =>
      rw [hd] at h3
      have : l.all PyObj.isBool = true := by
        simp [PyObj.isNone, PyObj.lsbOk] at h3
        simpa using h3.2
      obtain ⟨m, rfl⟩ := bools_value this
      exact ⟨some m, .some ⟨t, rfl⟩⟩
    | addr a =>
      rw [hd] at h3
      cases a <;> first | exact ⟨none, .none⟩ | exact absurd rfl h3
    | _ => rw [hd] at h3; exact absurd rfl h3
  obtain ⟨n, h1'⟩ := h1'
  obtain ⟨l, h3'⟩ := h3'
  exact ⟨⟨b, n, sv, dv, l, ii⟩, h4, h1', h5, h6, h3', h7⟩

/-- C87: a LISP data header passes or fails `sanitize` exactly as the header it stands for, with the same header left; if
it stands for none, `sanitize` raises ValueError. -/
theorem data_object (d : DDataHdr) :
    (∀ h, DataDen d h → Agree DataDen d.sanitize h.sanitize) ∧
    ((∀ h, ¬ DataDen d h) → d.sanitize = .error .value) := by
  refine ⟨fun h hd => data_agree hd, fun h => ?_⟩
  cases hd : d.sanitize with
  | ok d' => exact absurd (data_typed hd) (fun ⟨m, hm⟩ => h m hm)
  | error e =>
    refine congrArg _ ?_
    unfold DDataHdr.sanitize at hd
    dsimp only at hd
    repeat' split at hd
    all_goals (cases hd; try rfl)

theorem ver_agree {o : PyObj} {v : Option IP} (h : OptVal (fun o a => o = .addr (.ip a)) o v) (w : Ver) :
    o.isVer w = isVer w v := by
  cases h with
  | none => rfl
  | some h => subst h; rfl

theorem ver_value {o : PyObj} {w : Ver} (h : o.isVer w = true) :
    ∃ v, OptVal (fun o a => o = .addr (.ip a)) o v := by
  cases o with
  | addr a =>
    cases a with
    | ip i => exact ⟨some i, .some rfl⟩
    | _ => cases h
  | _ => cases h

/-- C87: an IPv4 header passes or fails `sanitize` exactly as the header it stands for; if it stands for none,
`sanitize` raises ValueError. -/
theorem ipv4_object (d : DV4Hdr) :
    (∀ h p, V4Den d h → Agree (fun _ _ => True) d.sanitize (h.sanitize p)) ∧
    ((∀ h, ¬ V4Den d h) → d.sanitize = .error .value) := by
  constructor
  · rintro h p ⟨h1, h2, h3, h4, h5, h6, h7, h8⟩
    unfold DV4Hdr.sanitize V4Hdr.sanitize
    dsimp only
    refine .ite ?_ fun _ => .ite ?_ fun _ => .skip (by rw [h3]; nofun) (.skip (by rw [h4]; nofun) (.ite ?_ fun hf => .ite ?_
      fun _ => .ite ?_ fun _ => .ite ?_ fun _ => .ite ?_ fun _ => trivial))
    · rw [intIn_not h1]; omega
    · rw [intIn_not h2]; omega
    · rw [intIn_not h5]; omega
    · rw [Bool.and_eq_true, intIn_int h5, h3]
      refine and_congr Iff.rfl ?_
      omega
    · rw [intIn_not h6]; omega
    · rw [ver_agree h7]
    · rw [ver_agree h8]
  · intro h
    cases hd : d.sanitize with
    | error e =>
      refine congrArg _ ?_
      unfold DV4Hdr.sanitize at hd
      repeat' split at hd
      all_goals (cases hd; try rfl)
    | ok u =>
      exfalso
      unfold DV4Hdr.sanitize at hd
      simp only [exIteErr_ok, Bool.not_eq_false] at hd
      obtain ⟨h1, h2, h3, h4, h5, _, h6, h7, h8, _⟩ := hd
      obtain ⟨i1, h1⟩ := intIn_value h1
      obtain ⟨i2, h2⟩ := intIn_value h2
      obtain ⟨b3, h3⟩ := isBool_value h3
      obtain ⟨b4, h4⟩ := isBool_value h4
      obtain ⟨i5, h5⟩ := intIn_value h5
      obtain ⟨i6, h6⟩ := intIn_value h6
      obtain ⟨a7, h7⟩ := ver_value h7
      obtain ⟨a8, h8⟩ := ver_value h8
      exact h { tos := i1, ident := i2, df := b3, mf := b4, fragOff := i5, ttl := i6, src := a7, dst := a8 }
        ⟨h1, h2, h3, h4, h5, h6, h7, h8⟩

/-- C87: an IPv6 header passes or fails `sanitize` exactly as the header it stands for; if it stands for none,
`sanitize` raises ValueError. -/
theorem ipv6_object (d : DV6Hdr) :
    (∀ h p, V6Den d h → Agree (fun _ _ => True) d.sanitize (h.sanitize p)) ∧
    ((∀ h, ¬ V6Den d h) → d.sanitize = .error .value) := by
  constructor
  · rintro h p ⟨h1, h2, h3, h4, h5⟩
    unfold DV6Hdr.sanitize V6Hdr.sanitize
    dsimp only
    refine .ite ?_ fun _ => .ite ?_ fun _ => .ite ?_ fun _ => .ite ?_ fun _ => .ite ?_ fun _ => trivial
    · rw [intIn_not h1]; omega
    · rw [intIn_not h2]; omega
    · rw [intIn_not h3]; omega
    · rw [ver_agree h4]
    · rw [ver_agree h5]
  · intro h
    cases hd : d.sanitize with
    | error e =>
      refine congrArg _ ?_
      unfold DV6Hdr.sanitize at hd
      repeat' split at hd
      all_goals (cases hd; try rfl)
    | ok u =>
      exfalso
      unfold DV6Hdr.sanitize at hd
      simp only [exIteErr_ok, Bool.not_eq_false] at hd
      obtain ⟨h1, h2, h3, h4, h5, _⟩ := hd
      obtain ⟨i1, h1⟩ := intIn_value h1
      obtain ⟨i2, h2⟩ := intIn_value h2
      obtain ⟨i3, h3⟩ := intIn_value h3
      obtain ⟨a4, h4⟩ := ver_value h4
      obtain ⟨a5, h5⟩ := ver_value h5
      exact h { trafficClass := i1, flowLabel := i2, hopLimit := i3, src := a4, dst := a5 } ⟨h1, h2, h3, h4, h5⟩

/-- C87: a UDP header passes or fails `sanitize` exactly as the header it stands for; if it stands for none,
`sanitize` raises ValueError. -/
theorem udp_object (d : DUdpHdr) :
    (∀ h, UdpDen d h → d.sanitize = h.sanitize) ∧
    ((∀ h, ¬ UdpDen d h) → d.sanitize = .error .value) := by
  constructor
  · rintro h ⟨h1, h2⟩
    refine agree_eq ?_
    unfold DUdpHdr.sanitize UdpHdr.sanitize
    refine .ite ?_ fun _ => .ite ?_ fun _ => agree_refl _
    · rw [intIn_not h1]; omega
    · rw [intIn_not h2]; omega
  · intro h
    cases hd : d.sanitize with
    | error e =>
      refine congrArg _ ?_
      unfold DUdpHdr.sanitize at hd
      repeat' split at hd
      all_goals (cases hd; try rfl)
    | ok u =>
      exfalso
      unfold DUdpHdr.sanitize at hd
      simp only [exIteErr_ok, Bool.not_eq_false] at hd
      obtain ⟨h1, h2, _⟩ := hd
      obtain ⟨i1, h1⟩ := intIn_value h1
      obtain ⟨i2, h2⟩ := intIn_value h2
      exact h { sport := i1, dport := i2 } ⟨h1, h2⟩

/-! ### Examples -/

/-- an interpreter: integers have their decimal text, other values (here) no usable one -/
def exPy : Py where
  str := fun o => match o with
    | .bytes b => .ok b
    | .int i => .ok ((if i < 0 then [0x2d] else []) ++ (Nat.toDigits 10 i.natAbs).map fun c => BitVec.ofNat 8 c.toNat)
    | _ => .error .value
  raw := fun o => match o with
    | .bytes b => .ok b
    | _ => .error .type
  str_bytes := fun _ => rfl
  raw_bytes := fun _ => rfl

/-- 192.0.2.0/24 -/
def exDynNet : Net := ⟨.v4, 0xc0000200, 24, by decide, by decide, by decide⟩

/-- a locator whose priority is True -/
def exDynLocator : DLocator := { priority := .bool true, address := .addr (.ip ⟨.v4, 0xc6336401, by decide⟩) }

/-- a record whose map version is False and whose action is no number at all (it has a locator) -/
def exDynRecord : DRecord :=
  { ttl := .int 1440, action := .text none, mapVersion := .bool false, eid := .addr (.net exDynNet),
    locators := [.obj exDynLocator] }

/-- the record that it stands for -/
def exStatRecord : Record :=
  { ttl := 1440, eid := .net exDynNet,
    locators := [{ priority := 1, address := .ip ⟨.v4, 0xc6336401, by decide⟩ }] }

theorem exDynRecord_den : RecordDen exDynRecord exStatRecord :=
  ⟨.int _, Or.inl (by simp [exDynRecord]), rfl, .zero, rfl,
    .cons ⟨⟨.one, .int _, .int _, .int _, rfl, rfl, rfl, rfl, rfl⟩⟩ .nil, rfl⟩

/-- a Map-Reply whose nonce is the number 12345678 stands for one with these eight digits as nonce, and is written so -/
example : ReplyDen exPy { nonce := .int 12345678, records := [.obj exDynRecord] }
      { nonce := [0x31, 0x32, 0x33, 0x34, 0x35, 0x36, 0x37, 0x38], records := [exStatRecord] } ∧
    (DMapReply.toBytes exPy { nonce := .int 12345678, records := [.obj exDynRecord] }).toOption.isSome = true := by
  have h : ReplyDen exPy { nonce := .int 12345678, records := [.obj exDynRecord] }
      { nonce := [0x31, 0x32, 0x33, 0x34, 0x35, 0x36, 0x37, 0x38], records := [exStatRecord] } :=
    ⟨rfl, rfl, rfl, by decide +kernel, .cons ⟨exDynRecord_den⟩ .nil, rfl⟩
  refine ⟨h, ?_⟩
  rw [(reply_object exPy _).1 _ h]
  decide +kernel

/-- the same record is refused in a Map-Register, because it is no MapRegisterRecord; as one it is accepted, and a key id
of 1.0 counts as 1 -/
example :
    (DMapRegister.sanitize { keyId := .float (some 1), records := [.obj exDynRecord] }).toOption.isSome = false := by
  decide +kernel

example : RegisterDen
      { keyId := .float (some 1), authData := .bytes [7], records := [.obj { exDynRecord with register := true }] }
      { keyId := 1, authData := [7], records := [exStatRecord] } ∧
    (MapRegister.toBytes { keyId := 1, authData := [7], records := [exStatRecord] }).toOption.isSome = true := by
  have h := exDynRecord_den
  refine ⟨⟨rfl, rfl, rfl, rfl, .whole 1, rfl, .cons ⟨⟨rfl, h.1, h.2, h.3, h.4, h.5, h.6, h.7⟩⟩ .nil, .int 0, .int 0, rfl, rfl⟩, ?_⟩
  decide +kernel

/-- an integer is no flag, a boolean is a number -/
example : (DLocator.sanitize { exDynLocator with isLocal := .int 1 } = .error .value) ∧
    DLocator.sanitize exDynLocator = .ok () := ⟨rfl, by decide +kernel⟩

/-- a Map-Request whose source EID is an empty tuple: TypeError, not ValueError -/
example : (DMapRequest.sanitize exPy
    { sourceEid := .seq true [], itrRlocs := [.addr (.ip ⟨.v4, 1, by decide⟩)],
      eidPrefixes := [.addr (.net exDynNet)] }).toOption.isSome = false ∧
    sourceEidD (.seq true []) = .error .type := ⟨by decide +kernel, rfl⟩

/-- locator status bits: eight booleans are fine with an instance id, eight numbers are not -/
example : (DDataHdr.sanitize { lsb := .seq false (List.replicate 8 (.bool true)), iid := .int 5 }).toOption.isSome = true ∧
    (DDataHdr.sanitize { lsb := .seq false (List.replicate 8 (.int 1)), iid := .int 5 }).toOption.isSome = false := by
  decide +kernel

end PyLisp.Props
