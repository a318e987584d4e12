import Verif.PktLemmas
/-
What the packet writers produce, in terms of the readers' layout.
-/
namespace PyLisp

attribute [local irreducible] natToBits readUint readBits readBool readBytes readInt zeros readIP

/-- zero padding of a byte string to `n` more bytes -/
def padZero (o : Bytes) (n : Nat) : Bytes := o ++ List.replicate n 0

theorem bytesToBits_padZero (o : Bytes) (n : Nat) :
    bytesToBits (padZero o n) = bytesToBits o ++ zeros (8 * n) := by
  rw [padZero, bytesToBits_append, bytesToBits_replicate_zero]

@[simp] theorem padZero_length (o : Bytes) (n : Nat) : (padZero o n).length = o.length + n := by
  simp [padZero]

theorem withPayload_ok {b : Bits} {pb d : Bytes} :
    withPayload b pb = .ok d ↔ bytesToBits d = b ++ bytesToBits pb ∧ ∃ x, bitsToBytes b = .ok x := by
  simp only [withPayload, exBind_ok, exPure, Except.ok.injEq]
  constructor
  · rintro ⟨x, hx, rfl⟩
    exact ⟨by rw [bytesToBits_append, bytesToBits_of_bitsToBytes hx], x, hx⟩
  · rintro ⟨h, x, hx⟩
    refine ⟨x, hx, bytesToBits_inj ?_⟩
    rw [h, bytesToBits_append, bytesToBits_of_bitsToBytes hx]

theorem addrInt_range {v : Ver} {o : Option IP} (h : isVer v o = true) :
    0 ≤ addrInt o ∧ addrInt o < 2 ^ v.width := by
  obtain ⟨a, rfl, rfl⟩ := isVer_iff.mp h
  exact nat_range a.lt

theorem V4Hdr.sanitize_ok {h h' : V4Hdr} {p : Pkt} : h.sanitize p = .ok h' ↔
    (0 ≤ h.tos ∧ h.tos < 2 ^ 8) ∧ (0 ≤ h.ident ∧ h.ident < 2 ^ 16) ∧
    (0 ≤ h.fragOff ∧ h.fragOff < 2 ^ 13) ∧ ¬ (h.df = true ∧ h.fragOff > 0) ∧
    (0 ≤ h.ttl ∧ h.ttl < 2 ^ 8) ∧ isVer .v4 h.src = true ∧ isVer .v4 h.dst = true ∧
    h' = { h with nextHeader := fixNextHeader p h.nextHeader } := by
  simp only [V4Hdr.sanitize, exIteErr_ok, Bool.not_eq_false, Except.ok.injEq, not_or, Int.not_lt,
    ge_iff_le, Int.not_le, and_assoc, eq_comm (b := h')]

theorem V6Hdr.sanitize_ok {h h' : V6Hdr} {p : Pkt} : h.sanitize p = .ok h' ↔
    (0 ≤ h.trafficClass ∧ h.trafficClass < 2 ^ 8) ∧ (0 ≤ h.flowLabel ∧ h.flowLabel < 2 ^ 20) ∧
    (0 ≤ h.hopLimit ∧ h.hopLimit < 2 ^ 8) ∧ isVer .v6 h.src = true ∧ isVer .v6 h.dst = true ∧
    h' = { h with nextHeader := fixNextHeader p h.nextHeader } := by
  simp only [V6Hdr.sanitize, exIteErr_ok, Bool.not_eq_false, Except.ok.injEq, not_or, Int.not_lt,
    ge_iff_le, Int.not_le, and_assoc, eq_comm (b := h')]

theorem UdpHdr.sanitize_ok {h : UdpHdr} {u : Unit} : h.sanitize = .ok u ↔
    (0 ≤ h.sport ∧ h.sport < 2 ^ 16) ∧ (0 ≤ h.dport ∧ h.dport < 2 ^ 16) := by
  simp only [UdpHdr.sanitize, exIteErr_ok, not_or, Int.not_lt, ge_iff_le, Int.not_le, and_true]

/-- the layout written by `IPv4Packet.to_bytes` -/
theorem encV4_ok {h : V4Hdr} {pb d : Bytes} (hs : isVer .v4 h.src = true)
    (hd : isVer .v4 h.dst = true) (he : encV4 h pb = .ok d) :
    ∃ ihl pad c, ihl = 5 + (h.options.length + 3) / 4 ∧ h.options.length + pad = (ihl - 5) * 4 ∧
      ihl < 2 ^ 4 ∧ 20 + pb.length < 2 ^ 16 ∧ c < 2 ^ 16 ∧
      V4Ranges { h with options := padZero h.options pad } ∧
      headerCksum (v4Bits { h with options := padZero h.options pad } ihl (20 + pb.length) 0) = .ok c ∧
      bytesToBits d =
        v4Bits { h with options := padZero h.options pad } ihl (20 + pb.length) c ++ bytesToBits pb := by
  simp only [encV4, encV4Raw, exBind_ok, encUint_iff, exPure, Except.ok.injEq] at he
  obtain ⟨b, ⟨_, ⟨_, hi, rfl⟩, _, ⟨t0, t1, rfl⟩, _, ⟨_, hl, rfl⟩, _, ⟨i0, i1, rfl⟩, _, ⟨f0, f1, rfl⟩,
    _, ⟨l0, l1, rfl⟩, _, ⟨n0, n1, rfl⟩, _, ⟨_, _, rfl⟩, _, ⟨_, _, rfl⟩, rfl⟩, hb, hhb, _,
    ⟨_, hc, rfl⟩, out, hout, rfl⟩ := he
  have hraw : natToBits 4 4 ++ natToBits 4 (Int.toNat (5 + ((h.options.length + 3) / 4 : Nat))) ++
      natToBits 8 h.tos.toNat ++ natToBits 16 (Int.toNat (20 + pb.length : Nat)) ++
      natToBits 16 h.ident.toNat ++ [false, h.df, h.mf] ++ natToBits 13 h.fragOff.toNat ++
      natToBits 8 h.ttl.toNat ++ natToBits 8 h.nextHeader.toNat ++ zeros 16 ++
      natToBits 32 (addrInt h.src).toNat ++ natToBits 32 (addrInt h.dst).toNat ++
      bytesToBits h.options ++ zeros (8 * ((4 - h.options.length % 4) % 4)) =
      v4Bits { h with options := padZero h.options ((4 - h.options.length % 4) % 4) }
        (5 + (h.options.length + 3) / 4) (20 + pb.length) 0 := by
    simp only [v4Bits, bytesToBits_padZero, natToBits_zero, Int.toNat_natCast]
    rw [show Int.toNat (5 + ((h.options.length + 3) / 4 : Nat)) = 5 + (h.options.length + 3) / 4 by
      omega]
    simp
  rw [hraw] at hhb hout
  have hlt : onesComplement hb < 2 ^ 16 := by
    have : (onesComplement hb : Int) < (2 ^ 16 : Nat) := by exact_mod_cast hc
    exact_mod_cast this
  refine ⟨_, (4 - h.options.length % 4) % 4, onesComplement hb, rfl, by omega, by simp at hi ⊢; omega, by simp at hl ⊢; omega,
    hlt, ⟨⟨t0, t1⟩, ⟨i0, i1⟩, ⟨f0, f1⟩, ⟨l0, l1⟩, ⟨n0, n1⟩, hs, hd⟩, ?_, ?_⟩
  · unfold headerCksum
    rw [zeroCksum_v4Bits, hhb]; rfl
  · rw [bytesToBits_append, bytesToBits_of_bitsToBytes hout]
    congr 1
    rw [Int.toNat_natCast]
    have hx : ∀ c, v4Bits { h with options := padZero h.options ((4 - h.options.length % 4) % 4) }
        (5 + (h.options.length + 3) / 4) (20 + pb.length) c =
        (natToBits 4 4 ++ natToBits 4 (5 + (h.options.length + 3) / 4) ++ natToBits 8 h.tos.toNat ++
      natToBits 16 (20 + pb.length) ++
      natToBits 16 h.ident.toNat ++ [false, h.df, h.mf] ++ natToBits 13 h.fragOff.toNat ++
      natToBits 8 h.ttl.toNat ++ natToBits 8 h.nextHeader.toNat) ++ (natToBits 16 c ++
      (natToBits 32 (addrInt h.src).toNat ++ natToBits 32 (addrInt h.dst).toNat ++
      bytesToBits (padZero h.options ((4 - h.options.length % 4) % 4)))) := by
      intro c; simp [v4Bits]
    rw [hx 0, hx (onesComplement hb)]
    rw [List.take_append_of_le_length (by simp), List.take_of_length_le (by simp),
      List.drop_append, List.drop_of_length_le (by simp), List.drop_append,
      List.drop_of_length_le (by simp)]
    simp

theorem encV6_ok {h : V6Hdr} {pb d : Bytes} (hs : isVer .v6 h.src = true)
    (hd : isVer .v6 h.dst = true)
    (he : (encV6Raw h pb.length >>= fun b => withPayload b pb) = .ok d) :
    V6Ranges h ∧ pb.length < 2 ^ 16 ∧ bytesToBits d = v6Bits h pb.length ++ bytesToBits pb := by
  simp only [encV6Raw, exBind_ok, encUint_iff, exPure, Except.ok.injEq, withPayload_ok] at he
  obtain ⟨b, ⟨_, ⟨t0, t1, rfl⟩, _, ⟨f0, f1, rfl⟩, _, ⟨_, hl, rfl⟩, _, ⟨n0, n1, rfl⟩,
    _, ⟨l0, l1, rfl⟩, _, ⟨_, _, rfl⟩, _, ⟨_, _, rfl⟩, rfl⟩, hb, _⟩ := he
  exact ⟨⟨⟨t0, t1⟩, ⟨f0, f1⟩, ⟨n0, n1⟩, ⟨l0, l1⟩, hs, hd⟩, by simp at hl ⊢; omega, hb⟩

theorem encOpts_ok {nh : Int} {o pb d : Bytes}
    (he : (encOpts nh o >>= fun b => withPayload b pb) = .ok d) :
    ∃ len pad, (0 ≤ nh ∧ nh < 2 ^ 8) ∧ len < 2 ^ 8 ∧ pad < 8 ∧ o.length + pad = (len + 1) * 8 - 2 ∧
      bytesToBits d = natToBits 8 nh.toNat ++ natToBits 8 len ++ bytesToBits (padZero o pad) ++
        bytesToBits pb := by
  simp only [encOpts, exBind_ok, encUint_iff, exPure, Except.ok.injEq, withPayload_ok] at he
  obtain ⟨b, ⟨_, ⟨n0, n1, rfl⟩, _, ⟨l0, l1, rfl⟩, rfl⟩, hb, _⟩ := he
  refine ⟨(o.length + 2 + 7) / 8 - 1, (8 - (o.length + 2) % 8) % 8, ⟨n0, n1⟩, ?_, by omega, by omega,
    ?_⟩
  · simp at l1; omega
  · rw [hb, bytesToBits_padZero, show Int.toNat (((o.length + 2 + 7) / 8 : Nat) - 1 : Int) =
      (o.length + 2 + 7) / 8 - 1 by omega]
    simp

theorem encRouting_ok {nh rt sl : Int} {o pb d : Bytes}
    (he : (encRouting nh rt sl o >>= fun b => withPayload b pb) = .ok d) :
    ∃ len pad, (0 ≤ nh ∧ nh < 2 ^ 8) ∧ (0 ≤ rt ∧ rt < 2 ^ 8) ∧ (0 ≤ sl ∧ sl < 2 ^ 8) ∧
      len < 2 ^ 8 ∧ pad < 8 ∧ o.length + pad = (len + 1) * 8 - 4 ∧
      bytesToBits d = natToBits 8 nh.toNat ++ natToBits 8 len ++ natToBits 8 rt.toNat ++
        natToBits 8 sl.toNat ++ bytesToBits (padZero o pad) ++ bytesToBits pb := by
  simp only [encRouting, exBind_ok, encUint_iff, exPure, Except.ok.injEq, withPayload_ok] at he
  obtain ⟨b, ⟨_, ⟨n0, n1, rfl⟩, _, ⟨l0, l1, rfl⟩, _, ⟨r0, r1, rfl⟩, _, ⟨s0, s1, rfl⟩, rfl⟩, hb, _⟩ := he
  refine ⟨(o.length + 4 + 7) / 8 - 1, (8 - (o.length + 4) % 8) % 8, ⟨n0, n1⟩, ⟨r0, r1⟩, ⟨s0, s1⟩, ?_,
    by omega, by omega, ?_⟩
  · simp at l1; omega
  · rw [hb, bytesToBits_padZero, show Int.toNat (((o.length + 4 + 7) / 8 : Nat) - 1 : Int) =
      (o.length + 4 + 7) / 8 - 1 by omega]
    simp

theorem encFragment_ok {nh off : Int} {mf : Bool} {ident : Int} {pb d : Bytes}
    (he : (encFragment nh off mf ident >>= fun b => withPayload b pb) = .ok d) :
    (0 ≤ nh ∧ nh < 2 ^ 8) ∧ (0 ≤ off ∧ off < 2 ^ 13) ∧ (0 ≤ ident ∧ ident < 2 ^ 32) ∧
      bytesToBits d = natToBits 8 nh.toNat ++ zeros 8 ++ natToBits 13 off.toNat ++ zeros 2 ++ [mf] ++
      natToBits 32 ident.toNat ++ bytesToBits pb := by
  simp only [encFragment, exBind_ok, encUint_iff, exPure, Except.ok.injEq, withPayload_ok] at he
  obtain ⟨b, ⟨_, ⟨n0, n1, rfl⟩, _, ⟨l0, l1, rfl⟩, _, ⟨r0, r1, rfl⟩, rfl⟩, hb, _⟩ := he
  exact ⟨⟨n0, n1⟩, ⟨l0, l1⟩, ⟨r0, r1⟩, hb⟩

theorem encUdp_ok {h : UdpHdr} {pb d : Bytes}
    (he : (encUdpRaw h pb.length >>= fun b => withPayload b pb) = .ok d) :
    (0 ≤ h.sport ∧ h.sport < 2 ^ 16) ∧ (0 ≤ h.dport ∧ h.dport < 2 ^ 16) ∧
    (0 ≤ h.cksum ∧ h.cksum < 2 ^ 16) ∧ pb.length + 8 < 2 ^ 16 ∧
    bytesToBits d = natToBits 16 h.sport.toNat ++ natToBits 16 h.dport.toNat ++
      natToBits 16 (pb.length + 8) ++ natToBits 16 h.cksum.toNat ++ bytesToBits pb := by
  simp only [encUdpRaw, exBind_ok, encUint_iff, exPure, Except.ok.injEq, withPayload_ok] at he
  obtain ⟨b, ⟨_, ⟨n0, n1, rfl⟩, _, ⟨l0, l1, rfl⟩, _, ⟨r0, r1, rfl⟩, _, ⟨c0, c1, rfl⟩, rfl⟩, hb, _⟩ := he
  exact ⟨⟨n0, n1⟩, ⟨l0, l1⟩, ⟨c0, c1⟩, by simp at r1 ⊢; omega, hb⟩

/-! ### LISP data header -/

/-- a data header `to_bytes` can represent -/
structure DataFields (h : DataHdr) : Prop where
  nonce : ∀ n, h.nonce = some n → n.length = 3 ∧ h.srcVersion = none ∧ h.dstVersion = none
  versions : (h.srcVersion = none ∧ h.dstVersion = none) ∨
    ∃ s d, h.srcVersion = some s ∧ h.dstVersion = some d ∧ (0 ≤ s ∧ s < 2 ^ 12) ∧ (0 ≤ d ∧ d < 2 ^ 12)
  iid : ∀ i, h.iid = some i → 0 ≤ i ∧ i < 2 ^ 24
  lsb : ∀ l, h.lsb = some l → l.length = if h.iid = none then 32 else 8

theorem DataHdr.sanitize_ok {h h' : DataHdr} : h.sanitize = .ok h' ↔
    DataFields h ∧ h' = { h with echoNonce := h.echoNonce && h.nonce.isSome } := by
  obtain ⟨e, n, s, d, l, i⟩ := h
  simp only [DataHdr.sanitize, exIteErr_ok, Except.ok.injEq, eq_comm (b := h')]
  constructor
  · rintro ⟨h1, h2, h3, h4, h5, h6, rfl⟩
    refine ⟨⟨?_, ?_, ?_, ?_⟩, rfl⟩
    · rintro x rfl
      simp at h1 h2 ⊢
      exact ⟨h1, h2⟩
    · simp only [Bool.not_eq_true, not_and, Decidable.not_not] at h4 h5
      rcases s with _ | s <;> rcases d with _ | d
      · exact .inl ⟨rfl, rfl⟩
      · obtain ⟨x, hx, _⟩ := h4 (by simp); cases hx
      · obtain ⟨x, hx, _⟩ := h5 (by simp); cases hx
      · obtain ⟨x, hx, hs⟩ := h4 (by simp)
        obtain ⟨y, hy, hd⟩ := h5 (by simp)
        cases hx; cases hy
        exact .inr ⟨s, d, rfl, rfl, hs, hd⟩
    · rintro x rfl
      simp at h6 ⊢; omega
    · rintro x rfl
      simp [lsbBits] at h3 ⊢
      cases i <;> simp at h3 ⊢ <;> exact h3
  · rintro ⟨⟨h1, h2, h3, h4⟩, rfl⟩
    simp only at h1 h2 h3 h4
    refine ⟨?_, ?_, ?_, ?_, ?_, ?_, rfl⟩
    · cases n with
      | none => simp
      | some n => simp [(h1 n rfl).1]
    · cases n with
      | none => simp
      | some n => simp [(h1 n rfl).2]
    · cases l with
      | none => simp
      | some l => have := h4 l rfl; cases i <;> simp_all [lsbBits]
    · rcases h2 with ⟨rfl, rfl⟩ | ⟨s, d, rfl, rfl, hs, hd⟩
      · simp
      · intro hh; exact hh.2 ⟨s, rfl, hs⟩
    · rcases h2 with ⟨rfl, rfl⟩ | ⟨s, d, rfl, rfl, hs, hd⟩
      · simp
      · intro hh; exact hh.2 ⟨d, rfl, hd⟩
    · cases i with
      | none => simp
      | some i => have := h3 i rfl; simp; omega

theorem readNonceOrVersions_enc {h : DataHdr} {b : Bits} (hf : DataFields h)
    (he : encNonceOrVersions h = .ok b) (t : Bits) :
    readNonceOrVersions h.nonce.isSome (h.srcVersion.isSome || h.dstVersion.isSome) (b ++ t) =
      .ok ((h.nonce, h.srcVersion, h.dstVersion), t) := by
  obtain ⟨e, n, s, d, l, i⟩ := h
  obtain ⟨h1, h2, h3, h4⟩ := hf
  simp only at h1 h2
  cases n with
  | some n =>
    obtain ⟨hn, rfl, rfl⟩ := h1 n rfl
    simp only [encNonceOrVersions, Except.ok.injEq] at he
    subst he
    simp only [readNonceOrVersions, Option.isSome_some, if_true, Rd.bind_apply, readBytes_app' hn,
      Rd.pure_apply]
  | none =>
    rcases h2 with ⟨rfl, rfl⟩ | ⟨s, d, rfl, rfl, hs, hd⟩
    · simp only [encNonceOrVersions, Except.ok.injEq] at he
      subst he
      simp [readNonceOrVersions, readBits_app (zeros_length _)]
    · simp only [encNonceOrVersions, exBind_ok, encUint_iff, exPure, Except.ok.injEq] at he
      obtain ⟨_, ⟨_, _, rfl⟩, _, ⟨_, _, rfl⟩, rfl⟩ := he
      simp [readNonceOrVersions, List.append_assoc, readUint_app_int hs.1 hs.2,
        readUint_app_int hd.1 hd.2, Int.toNat_of_nonneg hs.1, Int.toNat_of_nonneg hd.1]

theorem readDataHdr_enc {h : DataHdr} {b : Bits} (hf : DataFields h) (he : encDataRaw h = .ok b)
    (t : Bits) : readDataHdr (b ++ t) = .ok (h, t) := by
  simp only [encDataRaw, encIidLsb, exBind_ok, exPure, Except.ok.injEq] at he
  obtain ⟨b1, h1, _, ⟨b2, h2, rfl⟩, rfl⟩ := he
  have hnv := fun t => readNonceOrVersions_enc hf h1 t
  have hiid : ∀ t, readIid h.iid.isSome (b2 ++ t) = .ok (h.iid, t) := by
    intro t
    have hi := hf.iid
    revert h2 hi
    cases h.iid with
    | none => intro h2 _; cases h2; simp [readIid]
    | some i =>
      intro h2 hi
      simp only [encIid, encUint_iff] at h2
      obtain ⟨_, _, rfl⟩ := h2
      simp [readIid, readUint_app_int (hi i rfl).1 (hi i rfl).2, Int.toNat_of_nonneg (hi i rfl).1]
  have hlsb : ∀ t, readLsb h.lsb.isSome (lsbBits h.iid)
      (lsbWire h.iid h.lsb ++ t) =
      .ok (h.lsb, t) := by
    intro t
    have hl := hf.lsb
    revert hl
    cases h.lsb with
    | none => intro _; simp [readLsb, lsbWire, readBits_app (zeros_length _)]
    | some l =>
      intro hl
      have hl := hl l rfl
      have : l.reverse.length = lsbBits h.iid := by
        rw [List.length_reverse, hl]; unfold lsbBits; cases h.iid <;> rfl
      simp [readLsb, lsbWire, readBits_app this]
  obtain ⟨e, n, s, d, l, i⟩ := h
  simp only [readDataHdr, Rd.bind_apply, List.append_assoc, List.cons_append, List.nil_append,
    readBool_cons, readBits_app (zeros_length _), hnv, hiid, hlsb, Rd.pure_apply]

end PyLisp
