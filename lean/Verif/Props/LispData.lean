import Verif.Props.IP
/-
Properties C17, C18 (LISP data packets), C31 (encapsulated control messages), C32 (dispatch).
-/
namespace PyLisp.Props
open PyLisp

/-- the bits of a number, least significant first -/
def bitsOf (n v : Nat) : List Bool := (List.range n).map fun i => v.testBit i

theorem natToBits_reverse (n v : Nat) : (natToBits n v).reverse = bitsOf n v := by
  induction n with
  | zero => rfl
  | succ n ih => simp [natToBits, bitsOf, List.range_succ, ih]

theorem natToBits8 (v : Nat) : natToBits 8 v = [v.testBit 7, v.testBit 6, v.testBit 5, v.testBit 4,
    v.testBit 3, v.testBit 2, v.testBit 1, v.testBit 0] := rfl

attribute [local irreducible] natToBits readUint readBits readBool readBytes readInt zeros readIP

/-- the first nibble of a byte string -/
def firstNibble : Bytes → Option Nat
  | [] => none
  | b :: _ => some (b.toNat / 16)

/-- how the payload behind a LISP header is parsed: by its IP version nibble -/
def versionPayloadParsed (decode : Bool) (payload : Bytes) (q : Pkt) : Prop :=
  match firstNibble payload with
  | some 4 => Pkt.fromBytes (.ipv4 decode) payload = .ok q
  | some 6 => Pkt.fromBytes (.ipv6 decode) payload = .ok q
  | _ => q = .raw payload

theorem versionPayloadParsed_iff {dd : Bool} {pl : Bytes} {q : Pkt} :
    versionPayloadParsed dd pl q ↔ decByVersion dec dd (bytesToBits pl) = .ok q := by
  cases pl with
  | nil => simp [versionPayloadParsed, firstNibble, decByVersion, bytesToBits, eq_comm]
  | cons b t =>
    obtain ⟨s', hs'⟩ := first_nibble b t
    rw [decByVersion_of (by have := b.isLt; omega) s' hs']
    unfold versionPayloadParsed firstNibble Pkt.fromBytes
    by_cases h4 : b.toNat / 16 = 4
    · simp [h4]
    · by_cases h6 : b.toNat / 16 = 6
      · simp [h6]
      · simp only [if_neg h4, if_neg h6]
        split
        · rename_i h; simp at h; omega
        · rename_i h; simp at h; omega
        · simp [eq_comm]

/-! ### LISP data -/

/-- Specification: the fields of the 8-byte LISP data header `f n1 n2 n3 w4 w5 w6 w7`
(RFC 6830 section 5.3: flags N, L, E, V, I from the most significant bit). -/
def lispHeader (f n1 n2 n3 w4 w5 w6 w7 : Byte) : DataHdr :=
  let N := f.toNat.testBit 7
  let L := f.toNat.testBit 6
  let E := f.toNat.testBit 5
  let V := f.toNat.testBit 4
  let I := f.toNat.testBit 3
  { nonce := if N then some [n1, n2, n3] else none
    echoNonce := N && E
    srcVersion := if !N && V then some (n1.toNat * 16 + n2.toNat / 16 : Nat) else none
    dstVersion := if !N && V then some (n2.toNat % 16 * 256 + n3.toNat : Nat) else none
    iid := if I then some (w4.toNat * 65536 + w5.toNat * 256 + w6.toNat : Nat) else none
    lsb := if L then some (if I then bitsOf 8 w7.toNat
      else bitsOf 32 (w4.toNat * 16777216 + w5.toNat * 65536 + w6.toNat * 256 + w7.toNat)) else none }

theorem bits24 (a b c : Byte) : natToBits 8 a.toNat ++ (natToBits 8 b.toNat ++ natToBits 8 c.toNat) =
    natToBits 24 (a.toNat * 65536 + b.toNat * 256 + c.toNat) := by
  have := a.isLt; have := b.isLt; have := c.isLt
  obtain ⟨v, hv⟩ : ∃ v, v = a.toNat * 65536 + b.toNat * 256 + c.toNat := ⟨_, rfl⟩
  rw [← hv]
  have e1 := natToBits_append 8 16 v
  have e2 := natToBits_append 8 8 v
  simp only [Nat.reduceAdd] at e1 e2
  rw [e1, e2, natToBits_congr (n := 8) (v := v / 2 ^ 16) (w := a.toNat) (by omega),
    natToBits_congr (n := 8) (v := v / 2 ^ 8) (w := b.toNat) (by omega),
    natToBits_congr (n := 8) (v := v) (w := c.toNat) (by omega)]

theorem bits24_versions (a b c : Byte) :
    natToBits 8 a.toNat ++ (natToBits 8 b.toNat ++ natToBits 8 c.toNat) =
    natToBits 12 (a.toNat * 16 + b.toNat / 16) ++ natToBits 12 (b.toNat % 16 * 256 + c.toNat) := by
  have := a.isLt; have := b.isLt; have := c.isLt
  rw [bits24]
  obtain ⟨v, hv⟩ : ∃ v, v = a.toNat * 65536 + b.toNat * 256 + c.toNat := ⟨_, rfl⟩
  rw [← hv]
  have e1 := natToBits_append 12 12 v
  simp only [Nat.reduceAdd] at e1
  rw [e1, natToBits_congr (n := 12) (v := v / 2 ^ 12) (w := a.toNat * 16 + b.toNat / 16) (by omega),
    natToBits_congr (n := 12) (v := v) (w := b.toNat % 16 * 256 + c.toNat) (by omega)]

theorem bits32 (a b c d : Byte) : natToBits 8 a.toNat ++ (natToBits 8 b.toNat ++ (natToBits 8 c.toNat ++
    natToBits 8 d.toNat)) =
    natToBits 32 (a.toNat * 16777216 + b.toNat * 65536 + c.toNat * 256 + d.toNat) := by
  have := a.isLt; have := b.isLt; have := c.isLt; have := d.isLt
  obtain ⟨v, hv⟩ : ∃ v, v = a.toNat * 16777216 + b.toNat * 65536 + c.toNat * 256 + d.toNat := ⟨_, rfl⟩
  rw [← hv]
  have e1 := natToBits_append 24 8 v
  simp only [Nat.reduceAdd] at e1
  rw [e1, natToBits_congr (n := 8) (v := v) (w := d.toNat) (by omega),
    natToBits_congr (n := 24) (v := v / 2 ^ 8) (w := a.toNat * 65536 + b.toNat * 256 + c.toNat)
      (by omega), ← bits24]
  simp

/-- the header as it is read, before `sanitize` -/
theorem readDataHdr_bytes (f n1 n2 n3 w4 w5 w6 w7 : Byte) (t : Bytes) :
    readDataHdr (bytesToBits ([f, n1, n2, n3, w4, w5, w6, w7] ++ t)) =
      .ok ({ lispHeader f n1 n2 n3 w4 w5 w6 w7 with echoNonce := f.toNat.testBit 5 },
        bytesToBits t) := by
  have hn := n1.isLt; have := n2.isLt; have := n3.isLt
  have h4 := w4.isLt; have := w5.isLt; have := w6.isLt; have := w7.isLt
  have hnv : ∀ N V, readNonceOrVersions N V (natToBits 8 n1.toNat ++ (natToBits 8 n2.toNat ++
      (natToBits 8 n3.toNat ++ (bytesToBits ([w4, w5, w6, w7] ++ t))))) =
      .ok ((if N then some [n1, n2, n3] else none,
        if !N && V then some ((n1.toNat * 16 + n2.toNat / 16 : Nat) : Int) else none,
        if !N && V then some ((n2.toNat % 16 * 256 + n3.toNat : Nat) : Int) else none),
        bytesToBits ([w4, w5, w6, w7] ++ t)) := by
    intro N V
    generalize bytesToBits ([w4, w5, w6, w7] ++ t) = r
    cases N
    · cases V
      · have : natToBits 8 n1.toNat ++ (natToBits 8 n2.toNat ++ (natToBits 8 n3.toNat ++ r)) =
            (natToBits 8 n1.toNat ++ (natToBits 8 n2.toNat ++ natToBits 8 n3.toNat)) ++ r := by simp
        simp [readNonceOrVersions, this, -List.append_assoc, readBits_app (show (natToBits 8 n1.toNat ++
          (natToBits 8 n2.toNat ++ natToBits 8 n3.toNat)).length = 24 by simp)]
      · have : natToBits 8 n1.toNat ++ (natToBits 8 n2.toNat ++ (natToBits 8 n3.toNat ++ r)) =
            natToBits 12 (n1.toNat * 16 + n2.toNat / 16) ++ (natToBits 12 (n2.toNat % 16 * 256 +
              n3.toNat) ++ r) := by
          rw [← List.append_assoc (natToBits 12 _), ← bits24_versions]; simp
        rw [this]
        unfold readNonceOrVersions
        rw [if_neg (by decide), if_pos rfl]
        simp only [Rd.bind_apply,
          readUint_app (show n1.toNat * 16 + n2.toNat / 16 < 2 ^ 12 by omega),
          readUint_app (show n2.toNat % 16 * 256 + n3.toNat < 2 ^ 12 by omega)]
        rfl
    · have : natToBits 8 n1.toNat ++ (natToBits 8 n2.toNat ++ (natToBits 8 n3.toNat ++ r)) =
            bytesToBits [n1, n2, n3] ++ r := by simp [bytesToBits]
      simp only [readNonceOrVersions, this, if_true, Rd.bind_apply,
        readBytes_app' (show [n1, n2, n3].length = 3 by rfl), Rd.pure_apply]
      rfl
  have hil : ∀ L I, (readIid I >>= fun i => readLsb L (lsbBits i) >>= fun l => pure (i, l))
      (bytesToBits ([w4, w5, w6, w7] ++ t)) =
      .ok ((if I then some ((w4.toNat * 65536 + w5.toNat * 256 + w6.toNat : Nat) : Int) else none,
        if L then some (if I then bitsOf 8 w7.toNat
          else bitsOf 32 (w4.toNat * 16777216 + w5.toNat * 65536 + w6.toNat * 256 + w7.toNat)) else none),
        bytesToBits t) := by
    intro L I
    cases I
    · have : bytesToBits ([w4, w5, w6, w7] ++ t) = natToBits 32 (w4.toNat * 16777216 + w5.toNat * 65536 +
          w6.toNat * 256 + w7.toNat) ++ bytesToBits t := by
        rw [← bits32]; simp [bytesToBits]
      rw [this]
      simp only [readIid, lsbBits, readLsb, Rd.bind_apply, Rd.pure_apply]
      simp [readBits_app (natToBits_length 32 _), natToBits_reverse]
    · have : bytesToBits ([w4, w5, w6, w7] ++ t) = natToBits 24 (w4.toNat * 65536 + w5.toNat * 256 +
          w6.toNat) ++ (natToBits 8 w7.toNat ++ bytesToBits t) := by
        rw [← bits24]; simp [bytesToBits]
      rw [this]
      simp only [readIid, lsbBits, readLsb, Rd.bind_apply, Rd.pure_apply, if_true,
        readUint_app (show w4.toNat * 65536 + w5.toNat * 256 + w6.toNat < 2 ^ 24 by omega)]
      simp [readBits_app (natToBits_length 8 _), natToBits_reverse]
  have hb : bytesToBits ([f, n1, n2, n3, w4, w5, w6, w7] ++ t) =
      f.toNat.testBit 7 :: f.toNat.testBit 6 :: f.toNat.testBit 5 :: f.toNat.testBit 4 ::
      f.toNat.testBit 3 :: ([f.toNat.testBit 2, f.toNat.testBit 1, f.toNat.testBit 0] ++
      (natToBits 8 n1.toNat ++ (natToBits 8 n2.toNat ++
      (natToBits 8 n3.toNat ++ (bytesToBits ([w4, w5, w6, w7] ++ t)))))) := by
    show natToBits 8 f.toNat ++ _ = _
    rw [natToBits8]; simp [bytesToBits]
  rw [hb]
  have hil' := hil (f.toNat.testBit 6) (f.toNat.testBit 3)
  simp only [Rd.bind_ok, Rd.pure_ok_iff, Prod.mk.injEq] at hil'
  obtain ⟨i, s1, h1, l, s2, h2, ⟨e1, e2⟩, rfl⟩ := hil'
  simp only [readDataHdr, Rd.bind_apply, readBool_cons, readBits_app (show [f.toNat.testBit 2,
    f.toNat.testBit 1, f.toNat.testBit 0].length = 3 from rfl), hnv, h1, h2, Rd.pure_apply, lispHeader, ← e1, ← e2]

theorem lispHeader_sanitize (f n1 n2 n3 w4 w5 w6 w7 : Byte) :
    DataHdr.sanitize { lispHeader f n1 n2 n3 w4 w5 w6 w7 with echoNonce := f.toNat.testBit 5 } =
      .ok (lispHeader f n1 n2 n3 w4 w5 w6 w7) := by
  have hn := n1.isLt; have := n2.isLt; have := n3.isLt
  have h4 := w4.isLt; have := w5.isLt; have := w6.isLt; have := w7.isLt
  refine DataHdr.sanitize_ok.mpr ⟨⟨?_, ?_, ?_, ?_⟩, ?_⟩
  · intro n hn
    simp only [lispHeader] at hn ⊢
    cases h : f.toNat.testBit 7 <;> simp [h] at hn ⊢
    simp [← hn]
  · simp only [lispHeader]
    cases h : f.toNat.testBit 7 <;> cases h' : f.toNat.testBit 4 <;> simp
    omega
  · intro i hi
    simp only [lispHeader] at hi
    cases h : f.toNat.testBit 3 <;> simp [h] at hi
    omega
  · intro l hl
    simp only [lispHeader] at hl ⊢
    by_cases h : f.toNat.testBit 3 = true
    · simp [h] at hl ⊢
      simp [← hl.2, bitsOf]
    · simp only [h] at hl ⊢
      simp at hl ⊢
      simp [← hl.2, bitsOf]
  · simp only [lispHeader]
    cases f.toNat.testBit 7 <;> cases f.toNat.testBit 5 <;> simp

/-- C17: `LISPDataPacket.from_bytes` accepts exactly the byte strings of at least 8 bytes whose
payload (by IP version nibble) is accepted, and returns the fields of RFC 6830 section 5.3: nonce or
map versions by the N and V flags, instance id and 8 status bits with the I flag, 32 status bits
without. -/
theorem data_accepted_iff (decode : Bool) (d : Bytes) (p : Pkt) :
    Pkt.fromBytes (.data decode) d = .ok p ↔
      ∃ f n1 n2 n3 w4 w5 w6 w7 payload q, d = [f, n1, n2, n3, w4, w5, w6, w7] ++ payload ∧
        versionPayloadParsed decode payload q ∧ p = .data (lispHeader f n1 n2 n3 w4 w5 w6 w7) q := by
  rw [Pkt.fromBytes, dec_eq]
  simp only [decStep, decData, exBind_ok, exPure, Except.ok.injEq, versionPayloadParsed_iff]
  constructor
  · rintro ⟨⟨h, rest⟩, hr, q, hq, h', hs, rfl⟩
    have hlen := readDataHdr_len hr
    simp only [bytesToBits_length] at hlen
    match d, hlen with
    | f :: n1 :: n2 :: n3 :: w4 :: w5 :: w6 :: w7 :: t, _ =>
      have := readDataHdr_bytes f n1 n2 n3 w4 w5 w6 w7 t
      simp only [List.cons_append, List.nil_append] at this
      rw [this] at hr
      cases hr
      simp only [lispHeader_sanitize] at hs
      cases hs
      exact ⟨f, n1, n2, n3, w4, w5, w6, w7, t, q, rfl, hq, rfl⟩
    | [], h => simp at h
    | [_], h => simp at h
    | [_, _], h => simp at h
    | [_, _, _], h => simp at h
    | [_, _, _, _], h => simp at h
    | [_, _, _, _, _], h => simp at h
    | [_, _, _, _, _, _], h => simp at h
    | [_, _, _, _, _, _, _], h => simp at h
  · rintro ⟨f, n1, n2, n3, w4, w5, w6, w7, pl, q, rfl, hq, rfl⟩
    exact ⟨_, readDataHdr_bytes f n1 n2 n3 w4 w5 w6 w7 pl, q, hq, _, lispHeader_sanitize _ _ _ _ _ _ _ _, rfl⟩

/-- C17: a data packet that was serialised is parsed back as the same packet; only the echo-nonce
flag is dropped when there is no nonce to echo. -/
theorem data_round_trip {h : DataHdr} {p p' : Pkt} {d : Bytes} (hp : Arrives .version p p')
    (hd : (Pkt.data h p).toBytes = .ok d) :
    Pkt.fromBytes (.data true) d =
      .ok (.data { h with echoNonce := h.echoNonce && h.nonce.isSome } p') :=
  arrives_parse (slot := .ports 4341 4341) (.data (.inl rfl) hp) d hd (fun _ e => by cases e)

/-- Specification: a data header the wire format can represent (C18). -/
def Representable (h : DataHdr) : Prop :=
  (h.nonce = none ∨ ∃ n, h.nonce = some n ∧ n.length = 3) ∧
  (h.srcVersion = none ∧ h.dstVersion = none ∨
    h.nonce = none ∧ ∃ s d, h.srcVersion = some s ∧ h.dstVersion = some d ∧
      0 ≤ s ∧ s ≤ 4095 ∧ 0 ≤ d ∧ d ≤ 4095) ∧
  (h.iid = none ∨ ∃ i, h.iid = some i ∧ 0 ≤ i ∧ i ≤ 16777215) ∧
  (h.lsb = none ∨ ∃ l, h.lsb = some l ∧ ((h.iid = none ∧ l.length = 32) ∨ (h.iid ≠ none ∧ l.length = 8)))

theorem representable_iff {h : DataHdr} : Representable h ↔ DataFields h := by
  obtain ⟨e, n, s, d, l, i⟩ := h
  simp only [Representable]
  constructor
  · rintro ⟨h1, h2, h3, h4⟩
    refine ⟨?_, ?_, ?_, ?_⟩ <;> simp only
    · rintro x rfl
      rcases h1 with h1 | ⟨y, hy, h1⟩
      · cases h1
      · cases hy
        rcases h2 with h2 | ⟨h2, _⟩
        · exact ⟨h1, h2⟩
        · cases h2
    · rcases h2 with h2 | ⟨_, s', d', h2, h3, _⟩
      · exact .inl h2
      · exact .inr ⟨s', d', h2, h3, by omega, by omega⟩
    · rintro x rfl
      rcases h3 with h3 | ⟨y, hy, h3⟩
      · cases h3
      · cases hy; omega
    · rintro x rfl
      rcases h4 with h4 | ⟨y, hy, h4⟩
      · cases h4
      · cases hy
        rcases h4 with ⟨rfl, h4⟩ | ⟨h, h4⟩
        · simpa using h4
        · simpa [h] using h4
  · rintro ⟨h1, h2, h3, h4⟩
    simp only at h1 h2 h3 h4
    refine ⟨?_, ?_, ?_, ?_⟩
    · cases n with
      | none => exact .inl rfl
      | some n => exact .inr ⟨n, rfl, (h1 n rfl).1⟩
    · rcases h2 with h2 | ⟨s', d', rfl, rfl, h2, h3⟩
      · exact .inl h2
      · cases n with
        | none => exact .inr ⟨rfl, s', d', rfl, rfl, by omega, by omega, by omega, by omega⟩
        | some n => obtain ⟨_, h, _⟩ := h1 n rfl; cases h
    · cases i with
      | none => exact .inl rfl
      | some i => exact .inr ⟨i, rfl, by have := h3 i rfl; omega, by have := h3 i rfl; omega⟩
    · cases l with
      | none => exact .inl rfl
      | some l =>
        have := h4 l rfl
        cases i with
        | none => exact .inr ⟨l, rfl, .inl ⟨rfl, by simpa using this⟩⟩
        | some i => exact .inr ⟨l, rfl, .inr ⟨by simp, by simpa using this⟩⟩

theorem encDataRaw_of_fields {h : DataHdr} (hf : DataFields h) :
    ∃ b, encDataRaw h = .ok b ∧ b.length = 64 := by
  obtain ⟨e, n, s, d, l, i⟩ := h
  obtain ⟨h1, h2, h3, h4⟩ := hf
  simp only at h1 h2 h3 h4
  have hnv : ∃ b, encNonceOrVersions ⟨e, n, s, d, l, i⟩ = .ok b ∧ b.length = 24 := by
    cases n with
    | some n => exact ⟨_, rfl, by simp [(h1 n rfl).1]⟩
    | none =>
      rcases h2 with ⟨rfl, rfl⟩ | ⟨s, d, rfl, rfl, hs, hd⟩
      · exact ⟨_, rfl, by simp⟩
      · refine ⟨natToBits 12 s.toNat ++ natToBits 12 d.toNat, ?_, by simp⟩
        unfold encNonceOrVersions
        simp only [encUint_eq_ok hs.1 hs.2, encUint_eq_ok hd.1 hd.2, exBind_okl, exPure]
  have hil : ∃ b, encIidLsb ⟨e, n, s, d, l, i⟩ = .ok b ∧ b.length = 32 := by
    have hlw : (lsbWire i l).length = lsbBits i := by
      cases l with
      | none => simp [lsbWire]
      | some l =>
        have := h4 l rfl
        cases i <;> simp [lsbWire, lsbBits] at this ⊢ <;> exact this
    cases i with
    | none => exact ⟨_, rfl, by simpa [lsbBits] using hlw⟩
    | some i =>
      have := h3 i rfl
      refine ⟨natToBits 24 i.toNat ++ lsbWire (some i) l, ?_, by simp [hlw, lsbBits]⟩
      unfold encIidLsb
      simp only [encIid, encUint_eq_ok this.1 this.2, exBind_okl, exPure]
  obtain ⟨b1, hb1, l1⟩ := hnv
  obtain ⟨b2, hb2, l2⟩ := hil
  unfold encDataRaw
  rw [hb1, exBind_okl, hb2, exBind_okl, exPure]
  exact ⟨_, rfl, by simp [l1, l2]⟩

/-- C18: a data packet can be serialised exactly when its header is representable and its payload
can be serialised. -/
theorem data_writable_iff {h : DataHdr} {p : Pkt} :
    (∃ d, (Pkt.data h p).toBytes = .ok d) ↔ Representable h ∧ ∃ payload, p.toBytes = .ok payload := by
  rw [representable_iff]
  constructor
  · rintro ⟨d, hd⟩
    simp only [Pkt.toBytes] at hd
    obtain ⟨h', hsan, hd⟩ := exBind_ok.mp hd
    obtain ⟨x, hx, hd⟩ := exBind_ok.mp hd
    obtain ⟨pb, hpb, hwp⟩ := exBind_ok.mp hd
    exact ⟨(DataHdr.sanitize_ok.mp hsan).1, pb, hpb⟩
  · rintro ⟨hf, pb, hpb⟩
    have hf' : DataFields { h with echoNonce := h.echoNonce && h.nonce.isSome } :=
      ⟨hf.nonce, hf.versions, hf.iid, hf.lsb⟩
    obtain ⟨b, hb, hl⟩ := encDataRaw_of_fields hf'
    obtain ⟨x, hx, _⟩ := bitsToBytes_ok_of_length (k := 8) hl
    refine ⟨x ++ pb, ?_⟩
    unfold Pkt.toBytes
    rw [DataHdr.sanitize_ok.mpr ⟨hf, rfl⟩, exBind_okl, hb, exBind_okl, hpb, exBind_okl, withPayload, hx]
    rfl

/-- C17: the header written is the RFC 6830 header whose fields are the packet's. -/
theorem data_written {h : DataHdr} {p : Pkt} {d : Bytes} (hd : (Pkt.data h p).toBytes = .ok d) :
    ∃ f n1 n2 n3 w4 w5 w6 w7 payload, d = [f, n1, n2, n3, w4, w5, w6, w7] ++ payload ∧
      p.toBytes = .ok payload ∧ f.toNat % 8 = 0 ∧
      lispHeader f n1 n2 n3 w4 w5 w6 w7 = { h with echoNonce := h.echoNonce && h.nonce.isSome } := by
  simp only [Pkt.toBytes] at hd
  obtain ⟨h', hsan, hd⟩ := exBind_ok.mp hd
  obtain ⟨x, hx, hd⟩ := exBind_ok.mp hd
  obtain ⟨pb, hpb, hwp⟩ := exBind_ok.mp hd
  obtain ⟨hf, rfl⟩ := DataHdr.sanitize_ok.mp hsan
  have hf' : DataFields { h with echoNonce := h.echoNonce && h.nonce.isSome } :=
    ⟨hf.nonce, hf.versions, hf.iid, hf.lsb⟩
  have hbits := (withPayload_ok.mp hwp).1
  have hpar := readDataHdr_enc hf' hx (bytesToBits pb)
  rw [← hbits] at hpar
  have hlen := readDataHdr_len hpar
  simp only [bytesToBits_length] at hlen
  match d, hlen with
  | f :: n1 :: n2 :: n3 :: w4 :: w5 :: w6 :: w7 :: t, _ =>
    have := readDataHdr_bytes f n1 n2 n3 w4 w5 w6 w7 t
    simp only [List.cons_append, List.nil_append] at this
    rw [this] at hpar
    simp only [Except.ok.injEq, Prod.mk.injEq] at hpar
    obtain ⟨he, ht⟩ := hpar
    have ht := bytesToBits_inj ht
    subst ht
    refine ⟨f, n1, n2, n3, w4, w5, w6, w7, t, rfl, hpb, ?_, ?_⟩
    · have hz : (natToBits 8 f.toNat).drop 5 = zeros 3 := by
        have : natToBits 8 f.toNat = (bytesToBits (f :: n1 :: n2 :: n3 :: w4 :: w5 :: w6 :: w7 :: t)).take 8 := by
          rw [bytesToBits, List.take_append_of_le_length (by simp), List.take_of_length_le (by simp)]
        rw [this, hbits]
        unfold encDataRaw at hx
        obtain ⟨b1, _, hx⟩ := exBind_ok.mp hx
        obtain ⟨b2, _, hx⟩ := exBind_ok.mp hx
        cases hx
        simp [zeros]
      have h8 := natToBits_append 5 3 f.toNat
      simp only [Nat.reduceAdd] at h8
      rw [h8, List.drop_append_of_le_length (by simp), List.drop_of_length_le (by simp),
        List.nil_append, ← natToBits_zero] at hz
      have hc := natToBits_congr (n := 3) (v := f.toNat % 8) (w := f.toNat) (by omega)
      rw [← hc] at hz
      exact natToBits_inj (n := 3) (by omega) (by omega) hz
    · have h5 : (lispHeader f n1 n2 n3 w4 w5 w6 w7).echoNonce =
          ((lispHeader f n1 n2 n3 w4 w5 w6 w7).nonce.isSome && f.toNat.testBit 5) := by
        simp only [lispHeader]; cases f.toNat.testBit 7 <;> simp
      rw [DataHdr.mk.injEq] at he
      obtain ⟨h5', hn, k3, k4, k5, k6⟩ := he
      rw [hn, h5'] at h5
      have h5'' : (lispHeader f n1 n2 n3 w4 w5 w6 w7).echoNonce = (h.echoNonce && h.nonce.isSome) := by
        rw [h5]; cases h.nonce.isSome <;> cases h.echoNonce <;> rfl
      generalize lispHeader f n1 n2 n3 w4 w5 w6 w7 = g at *
      obtain ⟨g1, g2, g3, g4, g5, g6⟩ := g
      simp only at *
      rw [h5'', hn, k3, k4, k5, k6]
  | [], h => simp at h
  | [_], h => simp at h
  | [_, _], h => simp at h
  | [_, _, _], h => simp at h
  | [_, _, _, _], h => simp at h
  | [_, _, _, _, _], h => simp at h
  | [_, _, _, _, _, _], h => simp at h
  | [_, _, _, _, _, _, _], h => simp at h

/-! Non-vacuity: a data packet with nonce, instance id and status bits around an IPv4 packet; one with
map versions. -/

def exData : DataHdr :=
  { echoNonce := true, nonce := some [1, 2, 3], iid := some 77,
    lsb := some [true, false, true, false, false, false, false, true] }
def exData2 : DataHdr := { echoNonce := true, srcVersion := some 5, dstVersion := some 4095 }

example : ∃ d, (Pkt.data exData (.ipv4 exHdr4 (.raw [1, 2]))).toBytes = .ok d ∧
    Pkt.fromBytes (.data true) d = .ok (.data exData (.ipv4 exHdr4 (.raw [1, 2]))) := by
  obtain ⟨d, hd⟩ := isOk_iff.mp (show isOk (Pkt.data exData (.ipv4 exHdr4 (.raw [1, 2]))).toBytes = true by
    decide +kernel)
  exact ⟨d, hd, data_round_trip (.ipv4 (.inr rfl) rfl (fun t h => by cases h) (fun _ => rfl)
    (.opaqueProto rfl (by unfold knownProtocol exHdr4; decide) rfl)) hd⟩

example : ∃ d, (Pkt.data exData2 (.raw [])).toBytes = .ok d ∧
    Pkt.fromBytes (.data true) d = .ok (.data { exData2 with echoNonce := false } (.raw [])) := by
  obtain ⟨d, hd⟩ := isOk_iff.mp (show isOk (Pkt.data exData2 (.raw [])).toBytes = true by decide +kernel)
  exact ⟨d, hd, data_round_trip (.opaqueVersion rfl (by simp [looksLikeIP])) hd⟩

example : Representable exData := by
  simp [Representable, exData]
example : ¬ Representable { exData with iid := none } := by
  simp [Representable, exData]

/-! ### Control messages -/

/-- C31: an encapsulated control message that was serialised is parsed back with the same
DDT-originated flag, reserved bits and inner packet; the two RTR flags are never transmitted. -/
theorem ecm_round_trip {h : EcmHdr} {p p' : Pkt} {d : Bytes} (hp : Arrives .version p p')
    (hd : (Pkt.ecm h p).toBytes = .ok d) :
    Pkt.fromBytes .control d = .ok (.ecm { h with forRtr := false, relayedByRtr := false } p') :=
  arrives_parse (slot := .ports 4342 4342) (.ecm (by decide) (.inl rfl) hp) d hd (fun _ e => by cases e)

/-- C31: it is written exactly when the security flag is off and the inner packet can be written;
the layout is type 8, S, D and 26 reserved bits, then the inner packet. -/
theorem ecm_written_iff {h : EcmHdr} {p : Pkt} {d : Bytes} :
    (Pkt.ecm h p).toBytes = .ok d ↔ h.security = false ∧ ∃ payload, p.toBytes = .ok payload ∧
      bytesToBits d = natToBits 4 8 ++ [false, h.ddtOriginated] ++ natToBits 26 h.reserved1.toNat ++
        bytesToBits payload := by
  have hl : (encEcmRaw h).length = 8 * 4 := by simp [encEcmRaw]
  obtain ⟨x, hx, _⟩ := bitsToBytes_ok_of_length hl
  constructor
  · intro hd
    simp only [Pkt.toBytes] at hd
    obtain ⟨_, hsan, hd⟩ := exBind_ok.mp hd
    obtain ⟨pb, hpb, hd⟩ := exBind_ok.mp hd
    have hsec : h.security = false := by
      simp only [EcmHdr.sanitize, exIteErr_ok] at hsan
      simpa using hsan.1
    refine ⟨hsec, pb, hpb, ?_⟩
    rw [(withPayload_ok.mp hd).1, encEcmRaw, hsec]
  · rintro ⟨hsec, pb, hpb, hd⟩
    simp only [Pkt.toBytes, EcmHdr.sanitize, hsec, hpb, exBind_okl, Bool.false_eq_true, if_false]
    exact withPayload_ok.mpr ⟨by rw [hd, encEcmRaw, hsec], x, hx⟩

/-- C31: a byte string is accepted as an encapsulated control message exactly when it has type 8,
no security bit and an acceptable inner packet. -/
theorem ecm_accepted_iff {d : Bytes} {h : EcmHdr} {q : Pkt} :
    Pkt.fromBytes .control d = .ok (.ecm h q) ↔ h.security = false ∧ h.forRtr = false ∧
      h.relayedByRtr = false ∧ ∃ payload, versionPayloadParsed true payload q ∧
      bytesToBits d = natToBits 4 8 ++ [false, h.ddtOriginated] ++ natToBits 26 h.reserved1.toNat ++
        bytesToBits payload := by
  rw [Pkt.fromBytes, dec_eq]
  simp only [versionPayloadParsed_iff]
  constructor
  · intro hd
    simp only [decStep, decControl] at hd
    obtain ⟨t, ht, hd⟩ := exBind_ok.mp hd
    repeat' split at hd
    all_goals (try (obtain ⟨_, _, hd⟩ := exBind_ok.mp hd; cases hd; done))
    · unfold decEcm at hd
      obtain ⟨⟨h1, rest⟩, hr, hd⟩ := exBind_ok.mp hd
      obtain ⟨q', hq, hd⟩ := exBind_ok.mp hd
      obtain ⟨_, _, hd⟩ := exBind_ok.mp hd
      simp only [exPure, Except.ok.injEq, Pkt.ecm.injEq] at hd
      obtain ⟨rfl, rfl⟩ := hd
      obtain ⟨a1, a2, a3, a4⟩ := readEcmHdr_ok.mp hr
      have hlen := congrArg List.length a4
      simp [encEcmRaw] at hlen
      obtain ⟨pl, hpl, _⟩ := bitsToBytes_ok_of_length (b := rest) (k := d.length - 4) (by omega)
      have hpl := bytesToBits_of_bitsToBytes hpl
      refine ⟨a1, a2, a3, pl, by rw [hpl]; exact hq, ?_⟩
      rw [hpl, a4, encEcmRaw, a1]
    · cases hd
  · rintro ⟨a1, a2, a3, pl, hq, hd⟩
    have := decEcm_of (h := h) a1 (by rw [hd, encEcmRaw, a1]) hq
    rw [dec_eq] at this
    rw [this]
    obtain ⟨sec, ddt, fr, rr, r1⟩ := h
    simp only at a2 a3
    rw [a2, a3]

theorem firstNibble_read {d : Bytes} {t : Nat} :
    runOn (readUint 4) (bytesToBits d) = .ok t ↔ firstNibble d = some t := by
  cases d with
  | nil => simp [firstNibble, bytesToBits, runOn, readUint]
  | cons b r =>
    obtain ⟨s', hs'⟩ := first_nibble b r
    have : runOn (readUint 4) (bytesToBits (b :: r)) = .ok (b.toNat / 16) := by
      rw [hs']; exact runOn_iff.mpr ⟨_, readUint_app (by have := b.isLt; omega) _⟩
    rw [this]; simp [firstNibble]

/-- C32: `ControlMessage.from_bytes` accepts a byte string as a (non-encapsulated) control message
exactly when the parser of the class with the string's type nibble accepts it: 1 Map-Request,
2 Map-Reply, 3 Map-Register, 4 Map-Notify, 6 Map-Referral, 7 Info. -/
theorem control_dispatch_iff {d : Bytes} {m : Ctrl} :
    Pkt.fromBytes .control d = .ok (.ctrl m) ↔ firstNibble d = some (ctrlTypeNr m) ∧ ctrlParsedAs d m := by
  constructor
  · intro hd
    have key : ctrlParsedAs d m := by
      rw [Pkt.fromBytes, dec_eq] at hd
      simp only [decStep, decControl] at hd
      obtain ⟨t, ht, hd⟩ := exBind_ok.mp hd
      repeat' split at hd
      all_goals (try (obtain ⟨m', hm, hd⟩ := exBind_ok.mp hd; cases hd; exact hm))
      · unfold decEcm at hd
        obtain ⟨_, _, hd⟩ := exBind_ok.mp hd
        obtain ⟨_, _, hd⟩ := exBind_ok.mp hd
        obtain ⟨_, _, hd⟩ := exBind_ok.mp hd
        cases hd
      · cases hd
    exact ⟨firstNibble_read.mp (ctrl_first_nibble key), key⟩
  · rintro ⟨_, h⟩
    rw [Pkt.fromBytes, dec_eq]
    exact decControl_of h _

/-- C32: whatever is accepted is a control message (encapsulated ones have type nibble 8). -/
theorem control_result {d : Bytes} {p : Pkt} (hd : Pkt.fromBytes .control d = .ok p) :
    (∃ m, p = .ctrl m) ∨ (∃ h q, p = .ecm h q) ∧ firstNibble d = some 8 := by
  rw [Pkt.fromBytes, dec_eq] at hd
  simp only [decStep, decControl] at hd
  obtain ⟨t, ht, hd⟩ := exBind_ok.mp hd
  repeat' split at hd
  all_goals (try (obtain ⟨m', hm, hd⟩ := exBind_ok.mp hd; cases hd; exact .inl ⟨_, rfl⟩))
  · rename_i h8
    subst h8
    unfold decEcm at hd
    obtain ⟨_, _, hd⟩ := exBind_ok.mp hd
    obtain ⟨_, _, hd⟩ := exBind_ok.mp hd
    obtain ⟨_, _, hd⟩ := exBind_ok.mp hd
    cases hd
    exact .inr ⟨⟨_, _, rfl⟩, firstNibble_read.mp ht⟩
  · cases hd

/-- C32: unregistered types are rejected, and so is the empty string. -/
theorem control_unregistered_rejected {d : Bytes} {p : Pkt}
    (h : ∀ t ∈ [1, 2, 3, 4, 6, 7, 8], firstNibble d ≠ some t) :
    Pkt.fromBytes .control d ≠ .ok p := by
  intro hd
  rcases control_result hd with ⟨m, rfl⟩ | ⟨_, h8⟩
  · obtain ⟨hn, _⟩ := control_dispatch_iff.mp hd
    refine h _ ?_ hn
    cases m <;> simp [ctrlTypeNr]
  · exact h 8 (by simp) h8

/-! Non-vacuity -/

example : ∃ d, (Pkt.ecm { ddtOriginated := true } (.ipv4 exHdr4 exUdpPkt)).toBytes = .ok d ∧
    Pkt.fromBytes .control d = .ok (.ecm { ddtOriginated := true }
      (.ipv4 { exHdr4 with nextHeader := 17 } exUdpPkt)) := by
  obtain ⟨d, hd⟩ := isOk_iff.mp (show isOk (Pkt.ecm { ddtOriginated := true }
    (.ipv4 exHdr4 exUdpPkt)).toBytes = true by decide +kernel)
  exact ⟨d, hd, ecm_round_trip (.ipv4 (.inr rfl) rfl (fun t h => by cases h; rfl) (fun h => by cases h)
    (.udp (.opaquePorts (by decide) (by decide) rfl))) hd⟩

example : ∃ d m, firstNibble d = some 3 ∧ Pkt.fromBytes .control d = .ok (.ctrl (.register m)) := by
  obtain ⟨d, hd⟩ := isOk_iff.mp (show isOk exRegister.toBytes = true by decide +kernel)
  obtain ⟨m, hm⟩ := isOk_iff.mp (show isOk (exRegister.toBytes >>= fun d => MapRegister.fromBytes d) = true by
    decide +kernel)
  rw [hd] at hm
  have hp : ctrlParsedAs d (.register m) := hm
  exact ⟨d, m, firstNibble_read.mp (ctrl_first_nibble hp), control_dispatch_iff.mpr
    ⟨firstNibble_read.mp (ctrl_first_nibble hp), hp⟩⟩

example (p : Pkt) : Pkt.fromBytes .control [0x50, 0, 0, 0] ≠ .ok p :=
  control_unregistered_rejected (by decide)

end PyLisp.Props
