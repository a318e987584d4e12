import Verif.ControlLemmas
/-
The byte-level API of the fixed-layout control messages: `X.toBytes` is `x.to_bytes()`,
`X.fromBytes` is `X.from_bytes(data)` on a byte string (unread trailing bits are ignored, as in the
code: none of these `from_bytes` checks that the stream is exhausted).
-/
namespace PyLisp

attribute [local irreducible] natToBits readUint readBits readBool readBytes readInt zeros readIP

/-- map_request.py:278-340 -/
def MapRequest.toBytes (m : MapRequest) : Except Err Bytes := PyLisp.toBytes (encMapRequest m)
/-- map_request.py:183-276 on a byte string -/
def MapRequest.fromBytes (d : Bytes) : Except Err MapRequest := runOn readMapRequest (bytesToBits d)
/-- map_reply.py:136-176 -/
def MapReply.toBytes (m : MapReply) : Except Err Bytes := PyLisp.toBytes (encMapReply m)
/-- map_reply.py:86-134 on a byte string -/
def MapReply.fromBytes (d : Bytes) : Except Err MapReply := runOn readMapReply (bytesToBits d)
/-- map_register.py:274-322 -/
def MapRegister.toBytes (m : MapRegister) : Except Err Bytes := PyLisp.toBytes (encMapRegister m)
/-- map_register.py:210-272 on a byte string -/
def MapRegister.fromBytes (d : Bytes) : Except Err MapRegister :=
  runOn readMapRegister (bytesToBits d)
/-- map_notify.py:202-240 -/
def MapNotify.toBytes (m : MapNotify) : Except Err Bytes := PyLisp.toBytes (encMapNotify m)
/-- map_notify.py:148-200 on a byte string -/
def MapNotify.fromBytes (d : Bytes) : Except Err MapNotify := runOn readMapNotify (bytesToBits d)
/-- map_referral.py:103-126 -/
def MapReferral.toBytes (m : MapReferral) : Except Err Bytes := PyLisp.toBytes (encMapReferral m)
/-- map_referral.py:64-101 on a byte string -/
def MapReferral.fromBytes (d : Bytes) : Except Err MapReferral :=
  runOn readMapReferral (bytesToBits d)
/-- info_message.py:219-259 -/
def Info.toBytes (m : Info) : Except Err Bytes := PyLisp.toBytes (encInfo m)
/-- info_message.py:163-217 on a byte string -/
def Info.fromBytes (d : Bytes) : Except Err Info := runOn readInfo (bytesToBits d)

/-! ### Lemmas -/

theorem toBytes_ok {e : Except Err Bits} {d : Bytes} :
    toBytes e = .ok d ↔ e = .ok (bytesToBits d) := by
  constructor
  · intro h
    simp only [toBytes, exBind_ok] at h
    obtain ⟨b, rfl, hb⟩ := h
    rw [bytesToBits_of_bitsToBytes hb]
  · rintro rfl; simp [toBytes]

/-- whole bytes come out whenever the bit length is a multiple of 8 -/
theorem toBytes_of_len8 {e : Except Err Bits} {b : Bits} (h : e = .ok b) (h8 : b.length % 8 = 0) :
    ∃ d, toBytes e = .ok d := by
  obtain ⟨d, hd, _⟩ := bitsToBytes_ok_of_length (b := b) (k := b.length / 8) (by omega)
  exact ⟨d, by rw [h]; simpa [toBytes] using hd⟩

theorem runOn_iff {r : Rd α} {s : Bits} {a : α} : runOn r s = .ok a ↔ ∃ rest, r s = .ok (a, rest) := by
  unfold runOn
  split
  · rename_i b t h; rw [h]
    constructor
    · intro e; cases e; exact ⟨_, rfl⟩
    · rintro ⟨_, e⟩; cases e; rfl
  · rename_i e h; rw [h]; simp

theorem runOn_enc {r : Rd α} {b : Bits} {a : α} (h : ∀ t, r (b ++ t) = .ok (a, t)) :
    runOn r b = .ok a := runOn_iff.mpr ⟨[], by simpa using h []⟩

/-- no strict prefix of a fully consumed message is accepted, at the byte level -/
theorem Loc.no_short_bytes {r : Rd α} (hr : Loc r) {d pre cut : Bytes} {a : α}
    (h : ∀ t, r (bytesToBits d ++ t) = .ok (a, t)) (hd : d = pre ++ cut) (hc : cut ≠ []) :
    ∀ a', runOn r (bytesToBits pre) ≠ .ok a' := by
  intro a' ha'
  obtain ⟨rest, hrest⟩ := runOn_iff.mp ha'
  have h0 := h []
  rw [List.append_nil] at h0
  have hcut : bytesToBits cut ≠ [] := by
    intro e
    have := congrArg List.length e
    simp at this
    exact hc (List.length_eq_zero_iff.mp (by omega))
  exact hr.no_short h0 (by rw [hd, bytesToBits_append]) hcut a' rest hrest

theorem encAll_len8 {e : α → Except Err Bits} (he : ∀ a b, e a = .ok b → b.length % 8 = 0) :
    ∀ (l : List α) (b : Bits), encAll e l = .ok b → b.length % 8 = 0
  | [], b, h => by simp [encAll] at h; subst h; rfl
  | a :: l, b, h => by
    simp only [encAll, exBind_ok] at h
    obtain ⟨x, hx, y, hy, h⟩ := h
    simp only [exPure, Except.ok.injEq] at h
    subst h
    have h1 := he _ _ hx
    have h2 := encAll_len8 he l y hy
    simp; omega

theorem encLocator_len8 (l : Locator) (b : Bits) (h : encLocator l = .ok b) : b.length % 8 = 0 := by
  simp only [encLocator, exBind_ok] at h
  obtain ⟨_, _, h⟩ := h
  obtain ⟨a, ha, _, _, _, _, rfl⟩ := encLocatorRaw_ok h
  have := encAddr_length8 ha
  simp; omega

theorem encIP_len8 (a : IP) : (encIP a).length % 8 = 0 := encAddr_length8 (a := .ip a) rfl

theorem encRecordRaw_len8 {r : Record} {b : Bits} (h : encRecordRaw r = .ok b) :
    b.length % 8 = 0 := by
  simp only [encRecordRaw, exBind_ok, encUint_iff] at h
  obtain ⟨_, ⟨_, _, rfl⟩, _, ⟨_, _, rfl⟩, _, hp, _, ⟨_, _, rfl⟩, _, ⟨_, _, rfl⟩,
    _, ⟨_, _, rfl⟩, e, he, ls, hls, h⟩ := h
  simp only [exPure, Except.ok.injEq] at h
  subst h
  have h1 := encAddr_length8 he
  have h2 := encAll_len8 encLocator_len8 _ _ hls
  simp; omega

theorem encRecord_len8 (r : Record) (b : Bits) (h : encRecord r = .ok b) : b.length % 8 = 0 := by
  simp only [encRecord, exBind_ok] at h
  obtain ⟨_, _, h⟩ := h
  exact encRecordRaw_len8 h

theorem encRefRecord_len8 (r : RefRecord) (b : Bits) (h : encRefRecord r = .ok b) :
    b.length % 8 = 0 := by
  simp only [encRefRecord, exBind_ok] at h
  obtain ⟨_, _, h⟩ := h
  obtain ⟨_, _, _, _, _, p, e, ls, _, _, he, hls, rfl⟩ := encRefRecordRaw_ok h
  have h1 := encAddr_length8 he
  have h2 := encAll_len8 encLocator_len8 _ _ hls
  simp; omega

theorem encIds_len8 {p : Bool} {x s : Int} {b : Bits} (h : encIds p x s = .ok b) :
    b.length % 8 = 0 := by
  rcases encIds_ok h with ⟨_, _, _, rfl⟩ | ⟨_, rfl⟩ <;> simp

theorem encMapRequest_len8 {m : MapRequest} {b : Bits} (h : encMapRequest m = .ok b) :
    b.length % 8 = 0 := by
  obtain ⟨m', _, h⟩ := encMapRequest_ok h
  obtain ⟨_, _, b3, b4, b5, b6, h3, h4, h5, h6, rfl⟩ := encMapRequestRaw_ok h
  have e3 := encAddr_length8 h3
  have e4 := encAll_len8 (fun _ _ => encAddr_length8) _ _ h4
  have e5 := encAll_len8 (fun a b hb => by
    obtain ⟨n, _, rfl⟩ := encEidPrefix_ok hb
    have := encIP_len8 n.first
    simp; omega) _ _ h5
  have e6 : b6.length % 8 = 0 := by
    cases hm : m'.mapReply with
    | none => rw [hm] at h6; cases h6; rfl
    | some r => rw [hm] at h6; exact encRecord_len8 r _ h6
  simp; omega

theorem encMapReply_len8 {m : MapReply} {b : Bits} (h : encMapReply m = .ok b) :
    b.length % 8 = 0 := by
  obtain ⟨m', _, h⟩ := encMapReply_ok h
  obtain ⟨_, _, b2, h2, rfl⟩ := encMapReplyRaw_ok h
  have e2 := encAll_len8 encRecord_len8 _ _ h2
  simp; omega

theorem encMapRegister_len8 {m : MapRegister} {b : Bits} (h : encMapRegister m = .ok b) :
    b.length % 8 = 0 := by
  obtain ⟨m', _, h⟩ := encMapRegister_ok h
  obtain ⟨_, _, _, b4, b5, h4, h5, rfl⟩ := encMapRegisterRaw_ok h
  have e4 := encAll_len8 encRecord_len8 _ _ h4
  have e5 := encIds_len8 h5
  simp; omega

theorem encMapNotify_len8 {m : MapNotify} {b : Bits} (h : encMapNotify m = .ok b) :
    b.length % 8 = 0 := by
  obtain ⟨m', _, h⟩ := encMapNotify_ok h
  obtain ⟨_, _, _, b4, b5, h4, h5, rfl⟩ := encMapNotifyRaw_ok h
  have e4 := encAll_len8 encRecord_len8 _ _ h4
  have e5 := encIds_len8 h5
  simp; omega

theorem encMapReferral_len8 {m : MapReferral} {b : Bits} (h : encMapReferral m = .ok b) :
    b.length % 8 = 0 := by
  obtain ⟨m', _, h⟩ := encMapReferral_ok h
  obtain ⟨_, b2, h2, rfl⟩ := encMapReferralRaw_ok h
  have e2 := encAll_len8 encRefRecord_len8 _ _ h2
  simp; omega

theorem encInfo_len8 {m : Info} {b : Bits} (h : encInfo m = .ok b) : b.length % 8 = 0 := by
  obtain ⟨h1, h2⟩ := encInfo_ok h
  obtain ⟨a1, a2, a3, a4, a5, _⟩ := Info.sanitize_ok.mp h1
  have hn : ∃ n, m.eidPrefix = .net n := by
    cases hm : m.eidPrefix <;> simp_all [Addr.isNet]
  obtain ⟨n, hn⟩ := hn
  obtain ⟨_, _, _, b6, h6, rfl⟩ := encInfoRaw_ok h2 hn
  have e6 := encAddr_length8 h6
  have := encIP_len8 n.first
  simp; omega

/-- sanitising a list and then writing it works exactly when each element can be written -/
theorem sanitize_enc_iff {f : α → Except Err α} {g : α → Except Err Bits} {e : α → Except Err Bits}
    (he : ∀ a, e a = f a >>= g) (hi : ∀ a a', f a = .ok a' → f a' = .ok a') (l : List α) :
    (∃ l' b, sanitizeAll f l = .ok l' ∧ encAll e l' = .ok b) ↔ ∀ a ∈ l, ∃ b, e a = .ok b := by
  induction l with
  | nil => simp [sanitizeAll, encAll]
  | cons a l ih =>
    simp only [List.mem_cons, forall_eq_or_imp, ← ih, sanitizeAll, exBind_ok, exPure,
      Except.ok.injEq]
    constructor
    · rintro ⟨_, b, ⟨a', ha, l', hl, rfl⟩, hb⟩
      simp only [encAll, exBind_ok] at hb
      obtain ⟨x, hx, y, hy, _⟩ := hb
      refine ⟨⟨x, ?_⟩, l', y, hl, hy⟩
      rw [he, exBind_ok] at hx ⊢
      obtain ⟨a2, h1, h2⟩ := hx
      rw [hi _ _ ha] at h1; cases h1
      exact ⟨_, ha, h2⟩
    · rintro ⟨⟨x, hx⟩, l', y, hl, hy⟩
      have hx' := hx
      rw [he, exBind_ok] at hx
      obtain ⟨a', h1, h2⟩ := hx
      refine ⟨a' :: l', x ++ y, ⟨a', h1, l', hl, rfl⟩, ?_⟩
      have : e a' = .ok x := by rw [he, hi _ _ h1]; exact h2
      simp [encAll, this, hy]

theorem records_enc_iff (l : List Record) :
    (∃ l' b, sanitizeAll Record.sanitize l = .ok l' ∧ encAll encRecord l' = .ok b) ↔
      ∀ a ∈ l, ∃ b, encRecord a = .ok b :=
  sanitize_enc_iff (g := encRecordRaw) (fun _ => rfl) (fun _ _ => Record.sanitize_idem) l

theorem refs_enc_iff (l : List RefRecord) :
    (∃ l' b, sanitizeAll RefRecord.sanitize l = .ok l' ∧ encAll encRefRecord l' = .ok b) ↔
      ∀ a ∈ l, ∃ b, encRefRecord a = .ok b :=
  sanitize_enc_iff (g := encRefRecordRaw) (fun _ => rfl) (fun _ _ => RefRecord.sanitize_idem) l

theorem encAll_ok_iff {e : α → Except Err Bits} (l : List α) :
    (∃ b, encAll e l = .ok b) ↔ ∀ a ∈ l, ∃ b, e a = .ok b := by
  induction l with
  | nil => simp [encAll]
  | cons a l ih =>
    simp only [List.mem_cons, forall_eq_or_imp, ← ih, encAll, exBind_ok, exPure,
      Except.ok.injEq]
    constructor
    · rintro ⟨_, x, hx, y, hy, _⟩; exact ⟨⟨x, hx⟩, y, hy⟩
    · rintro ⟨⟨x, hx⟩, y, hy⟩; exact ⟨_, x, hx, y, hy, rfl⟩

/-- an address read without a prefix length contains no network anywhere -/
theorem readAddr_strip (f : Nat) :
    (∀ s a rest, readAddr f .none s = .ok (a, rest) → a.strip = a) ∧
    (∀ s l, readAddrs f .none s = .ok l → stripList l = l) := by
  induction f with
  | zero =>
    constructor
    · intro s a rest h; cases h
    · intro s l h; cases h
  | succ f ih =>
    obtain ⟨ih1, ih2⟩ := ih
    constructor
    · intro s a rest h
      rw [readAddr_succ, readAddrStep, Rd.bind_ok] at h
      obtain ⟨afi, s1, _, h⟩ := h
      split at h
      · cases h; rfl
      split at h
      · simp only [Rd.bind_ok, Rd.lift_ok_iff, applyPrefix, Except.ok.injEq] at h
        obtain ⟨_, _, _, rfl, _⟩ := h; rfl
      split at h
      · simp only [Rd.bind_ok, Rd.lift_ok_iff, applyPrefix, Except.ok.injEq] at h
        obtain ⟨_, _, _, rfl, _⟩ := h; rfl
      split at h
      · simp only [readLcaf, Rd.bind_ok, Rd.lift_ok_iff] at h
        obtain ⟨_, _, _, _, _, _, type, _, _, rsvd2, _, _, len, _, _, data, _, _, h, _⟩ := h
        simp only [lcafFromData] at h
        split at h
        · cases h; rfl
        split at h
        · cases hr : readAddrs f .none data with
          | error e => rw [hr] at h; cases h
          | ok l => rw [hr] at h; cases h; simp [Addr.strip, ih2 _ _ hr]
        split at h
        · obtain ⟨rest', h⟩ := runOn_iff.mp h
          simp only [instFromData, Rd.bind_ok, Rd.lift_ok_iff, applyPrefix, Except.ok.injEq,
            Rd.pure_ok_iff] at h
          obtain ⟨_, _, _, x, _, hx, _, _, ⟨rfl, _⟩, rfl, _⟩ := h
          simp [Addr.strip, ih1 _ _ _ hx]
        split at h
        · obtain ⟨rest', h⟩ := runOn_iff.mp h
          simp only [asnFromData, Rd.bind_ok, Rd.lift_ok_iff, applyPrefix, Except.ok.injEq,
            Rd.pure_ok_iff] at h
          obtain ⟨_, _, _, x, _, hx, _, _, ⟨rfl, _⟩, rfl, _⟩ := h
          simp [Addr.strip, ih1 _ _ _ hx]
        split at h
        · obtain ⟨rest', h⟩ := runOn_iff.mp h
          simp only [geoFromData, Rd.bind_ok, Rd.lift_ok_iff, applyPrefix, Except.ok.injEq,
            Rd.pure_ok_iff] at h
          obtain ⟨_, _, _, _, _, _, _, _, _, _, _, _, _, _, _, _, _, _, _, _, _, _, _, _, _, _, _, x, _, hx, _, _, ⟨rfl, _⟩, rfl, _⟩ := h
          simp [Addr.strip, ih1 _ _ _ hx]
        split at h
        · obtain ⟨rest', h⟩ := runOn_iff.mp h
          simp only [natFromData, Rd.bind_ok, Rd.pure_ok_iff] at h
          obtain ⟨_, _, _, _, _, _, g, _, hg, m, _, hm, p, _, hp, l, _, hl, rfl, _⟩ := h
          have hl' : ∃ d, readAddrs f .none d = .ok l := by
            unfold readAll at hl
            split at hl
            · rename_i hh; cases hl; exact ⟨_, hh⟩
            · cases hl
          obtain ⟨d, hl'⟩ := hl'
          simp [Addr.strip, ih1 _ _ _ hg, ih1 _ _ _ hm, ih1 _ _ _ hp, ih2 _ _ hl']
        · cases h
      · cases h
    · intro s l h
      simp only [readAddrs] at h
      split at h
      · cases h; rfl
      · split at h
        · rename_i a rest ha
          simp only [applyPrefix] at h
          split at h
          · rename_i l' hl'
            cases h
            simp [stripList, ih1 _ _ _ ha, ih2 _ _ hl']
          · cases h
        · cases h

theorem readAfi_none_strip {s rest : Bits} {a : Addr} (h : readAfi .none s = .ok (a, rest)) :
    a.strip = a := (readAddr_strip _).1 _ _ _ h

theorem readInfo_strip {s rest : Bits} {m : Info} (h : readInfo s = .ok (m, rest)) :
    m.reply.strip = m.reply := by
  simp only [readInfo, Rd.bind_ok, Rd.lift_ok_iff] at h
  obtain ⟨raw, s1, h1, h2, _⟩ := h
  obtain ⟨_, _, _, _, _, rfl⟩ := Info.sanitize_ok.mp h2
  simp only [readInfoRaw, Rd.bind_ok, Rd.pure_ok_iff] at h1
  obtain ⟨_, _, _, _, _, _, _, _, _, _, _, _, _, _, _, _, _, _, _, _, _, _, _, _, _, _, _, _, _, _,
    _, _, _, x, _, hx, rfl, _⟩ := h1
  exact readAfi_none_strip hx

theorem readMapRequest_strip {s rest : Bits} {m : MapRequest}
    (h : readMapRequest s = .ok (m, rest)) : m.sourceEid.strip = m.sourceEid := by
  simp only [readMapRequest, Rd.bind_ok, Rd.lift_ok_iff] at h
  obtain ⟨raw, s1, h1, h2, _⟩ := h
  obtain ⟨_, _, _, _, _, _, r, _, rfl⟩ := MapRequest.sanitize_ok.mp h2
  simp only [readMapRequestRaw, Rd.bind_ok, Rd.pure_ok_iff] at h1
  obtain ⟨_, _, _, _, _, _, _, _, _, _, _, _, _, _, _, _, _, _, _, _, _, _, _, _, _, _, _, _, _, _,
    _, _, _, x, _, hx, h1⟩ := h1
  obtain ⟨_, _, _, _, _, _, _, _, _, rfl, _⟩ := h1
  exact readAfi_none_strip hx

/-- an instance-id address read with a prefix length contains a network -/
theorem readAfi_inst_inv {p : Nat} {s rest : Bits} {i m : Int} {a : Addr}
    (h : readAfi (.some p) s = .ok (.inst i a m, rest)) : ∃ n, a = .net n := by
  rw [readAfi_unfold, readAddrStep, Rd.bind_ok] at h
  obtain ⟨afi, s1, _, h⟩ := h
  split at h
  · split at h <;> cases h
  split at h
  · simp only [Rd.bind_ok, Rd.lift_ok_iff] at h
    obtain ⟨_, _, _, h, _⟩ := h
    obtain ⟨_, _, _, h, _⟩ := (applyPrefix_ip _ _ _).mp h
    simp_all
  split at h
  · simp only [Rd.bind_ok, Rd.lift_ok_iff] at h
    obtain ⟨_, _, _, h, _⟩ := h
    obtain ⟨_, _, _, h, _⟩ := (applyPrefix_ip _ _ _).mp h
    simp_all
  split at h
  · simp only [readLcaf, Rd.bind_ok, Rd.lift_ok_iff] at h
    obtain ⟨_, _, _, _, _, _, type, _, _, rsvd2, _, _, len, _, _, data, _, _, h, _⟩ := h
    simp only [lcafFromData] at h
    split at h
    · cases h
    split at h
    · split at h <;> cases h
    split at h
    · obtain ⟨rest', h⟩ := runOn_iff.mp h
      simp only [instFromData, Rd.bind_ok, Rd.lift_ok_iff, Rd.pure_ok_iff] at h
      obtain ⟨_, _, _, x, _, hx, y, _, ⟨hy, _⟩, h, _⟩ := h
      cases h
      obtain ⟨_, n, _, hn, _⟩ := applyPrefix_some_ok hy
      exact ⟨n, hn⟩
    split at h
    · obtain ⟨rest', h⟩ := runOn_iff.mp h
      simp only [asnFromData, Rd.bind_ok, Rd.lift_ok_iff, Rd.pure_ok_iff] at h
      obtain ⟨_, _, _, x, _, hx, y, _, ⟨hy, _⟩, h, _⟩ := h
      cases h
    split at h
    · obtain ⟨rest', h⟩ := runOn_iff.mp h
      simp only [geoFromData, Rd.bind_ok, Rd.lift_ok_iff, Rd.pure_ok_iff] at h
      obtain ⟨_, _, _, _, _, _, _, _, _, _, _, _, _, _, _, _, _, _, _, _, _, _, _, _, _, _, _, x, _, hx, _, _, _, h, _⟩ := h
      cases h
    split at h
    · obtain ⟨rest', h⟩ := runOn_iff.mp h
      simp only [natFromData, Rd.bind_ok, Rd.pure_ok_iff] at h
      obtain ⟨_, _, _, _, _, _, g, _, hg, m, _, hm, p, _, hp, l, _, hl, h, _⟩ := h
      cases h
    · cases h
  · cases h

/-- the EID of a received referral record is a network with an instance id -/
theorem readRefRecord_eid {s rest : Bits} {r : RefRecord} (h : readRefRecord s = .ok (r, rest)) :
    ∃ i n m, r.eid = .inst i (.net n) m := by
  obtain ⟨raw, h1, h2⟩ := readRefRecord_ok h
  obtain ⟨_, _, _, _, _, e, hw, rfl⟩ := RefRecord.sanitize_ok.mp h2
  have : ∃ p s t, readAfi (.some p) s = .ok (raw.eid, t) := by
    simp only [readRefRecordRaw, Rd.bind_ok] at h1
    obtain ⟨_, _, _, _, _, _, p, _, _, _, _, _, _, _, _, _, _, _, _, _, _, _, _, _, _, _, _, x, _, hx, _, _, _, h1⟩ := h1
    split at h1
    · cases h1
    · cases h1; exact ⟨_, _, _, hx⟩
  obtain ⟨p, s, t, hx⟩ := this
  show ∃ i n m, e = .inst i (.net n) m
  cases hr : raw.eid <;> rw [hr] at hw hx <;> try (cases hw; done)
  · cases hw; exact ⟨_, _, _, rfl⟩
  · cases hw
    obtain ⟨n, rfl⟩ := readAfi_inst_inv hx
    exact ⟨_, _, _, rfl⟩

theorem readN_mem {r : Rd α} {P : α → Prop} (hr : ∀ s a t, r s = .ok (a, t) → P a) {n : Nat}
    {s rest : Bits} {l : List α} (h : readN r n s = .ok (l, rest)) : ∀ a ∈ l, P a := by
  induction n generalizing s l with
  | zero => simp [readN] at h; simp [h.1]
  | succ n ih =>
    simp only [readN, Rd.bind_ok, Rd.pure_ok_iff] at h
    obtain ⟨a, s1, h1, l', s2, h2, rfl, rfl⟩ := h
    intro x hx
    rcases List.mem_cons.mp hx with rfl | hx
    · exact hr _ _ _ h1
    · exact ih h2 x hx

theorem readMapReferral_eid {s rest : Bits} {m : MapReferral}
    (h : readMapReferral s = .ok (m, rest)) : ∀ r ∈ m.records, ∃ i n k, r.eid = .inst i (.net n) k := by
  simp only [readMapReferral, Rd.bind_ok, Rd.lift_ok_iff] at h
  obtain ⟨raw, s1, h1, h2, _⟩ := h
  obtain ⟨_, rs, h3, rfl⟩ := MapReferral.sanitize_ok.mp h2
  simp only [readMapReferralRaw, Rd.bind_ok, Rd.pure_ok_iff] at h1
  obtain ⟨_, _, _, _, _, _, _, _, _, _, _, _, l, _, hl, rfl, _⟩ := h1
  intro r hr
  obtain ⟨r0, hr0, hs⟩ := sanitizeAll_mem h3 r hr
  obtain ⟨i, n, k, he⟩ := readN_mem (fun _ _ _ => readRefRecord_eid) hl r0 hr0
  obtain ⟨_, _, _, _, _, e, hw, rfl⟩ := RefRecord.sanitize_ok.mp hs
  rw [he] at hw; cases hw
  exact ⟨_, _, _, rfl⟩

end PyLisp
