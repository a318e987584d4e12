import Verif.Props.Stable
import Verif.Props.Layout
/-
C34: which accepted packets can be written again, and in how many bytes.
-/
namespace PyLisp.Props
open PyLisp

theorem be64_length (v : Nat) : (be64 v).length = 8 := rfl

attribute [local irreducible] natToBits readUint readBits readBool readBytes readInt zeros readIP
  readAfi be16 be32 be128 be64 wIP pack

/-! ### Lengths of what is written again -/


theorem wAddr_le {a : Addr} {x : Bytes} (h : IsAddr a x) : (wAddr a).length ≤ x.length := by
  obtain ⟨b, hb, hl⟩ := isAddr_writable h
  have := wAddr_bits a _ hb
  have e := congrArg List.length this
  rw [bytesToBits_length] at e
  omega

theorem wLocator_le {l : Locator} {x : Bytes} (h : IsIPLocator l x) : (wLocator l).length ≤ x.length := by
  obtain ⟨⟨_, _, _, _, _, y, hy, rfl⟩, _⟩ := h
  have := wAddr_le hy
  simp only [wLocator, List.length_append]
  omega

theorem flatMap_le {α : Type} {P : α → Bytes → Prop} {f : α → Bytes} {c : Nat}
    (hP : ∀ a x, P a x → (f a).length ≤ x.length + c) {l : List α} {x : Bytes} (h : Sequence P l x) :
    (l.flatMap f).length ≤ x.length + c * l.length := by
  induction h with
  | nil => simp
  | @cons a l d e h1 h2 ih =>
    have := hP a d h1
    simp only [List.flatMap_cons, List.length_append, List.length_cons, Nat.mul_succ]
    omega

theorem flatMap_length_perm {α : Type} {f : α → Bytes} {l l' : List α} (h : l.Perm l') :
    (l.flatMap f).length = (l'.flatMap f).length := by
  induction h with
  | nil => rfl
  | cons a _ ih => simp only [List.flatMap_cons, List.length_append, ih]
  | swap a b l => simp only [List.flatMap_cons, List.length_append]; omega
  | trans _ _ h1 h2 => exact h1.trans h2

theorem wLocators_le {ls ls' : List Locator} {x : Bytes} (h : Sequence IsIPLocator ls x) (hp : ls'.Perm ls) :
    (ls'.flatMap wLocator).length ≤ x.length := by
  rw [flatMap_length_perm hp]
  simpa using flatMap_le (c := 0) (fun a x h => by simpa using wLocator_le h) h

theorem wRecord_le {r r' : Record} {x : Bytes} (h : IsRecord r x) (hs : r.sanitize = .ok r') :
    (wRecord r').length ≤ x.length := by
  obtain ⟨_, _, _, _, _, rfl⟩ := Record.sanitize_ok.mp hs
  cases h with
  | @mk ttl act ver auth rsvd n ls ls' d h1 h2 h3 h4 h5 h6 h7 =>
    have := wLocators_le h6 ((sortBy_perm Locator.key ls').trans h7.1)
    simp only [wRecord, wAddr, List.length_append, List.length_cons, List.length_nil, be32_length]
    omega

/-- the bytes of every EID of a Map-Referral record that is a plain network get an instance-ID LCAF around -/
theorem wRefRecord_le {r r' : RefRecord} {x : Bytes} (h : IsRefRecord r x) (hs : r.sanitize = .ok r') :
    (wRefRecord r').length ≤ x.length + 12 := by
  obtain ⟨_, _, _, _, _, eid, he, rfl⟩ := RefRecord.sanitize_ok.mp hs
  cases h with
  | @mk ttl act ver p auth inc rsvd e e' ls ls' y d h1 h2 h3 h4 h5 h6 h7 h8 h9 h10 h11 =>
    have hl := wLocators_le h9 ((sortBy_perm Locator.key ls').trans h11.1)
    have hw : (wAddr eid).length ≤ y.length + 12 := by
      cases h8 with
      | net n =>
        cases he
        cases h7
        simp only [wAddr, wLcaf, List.length_append, List.length_cons, List.length_nil, be16_length, be32_length]
        omega
      | inst i a m =>
        cases he
        cases h7 with
        | inst n hi hd =>
          obtain ⟨hd, _⟩ := isLcaf_len hd
          simp only [wAddr, wLcaf, List.length_append, List.length_cons, List.length_nil, be16_length,
            be32_length] at hd ⊢
          omega
    simp only [wRefRecord, List.length_append, List.length_cons, List.length_nil, be32_length]
    omega

theorem records_le {l l' : List Record} {x : Bytes} (h : Sequence IsRecord l x)
    (hs : sanitizeAll Record.sanitize l = .ok l') : (l'.flatMap wRecord).length ≤ x.length := by
  induction h generalizing l' with
  | nil => cases hs; simp
  | cons h1 h2 ih =>
    simp only [sanitizeAll, exBind_ok, exPure, Except.ok.injEq] at hs
    obtain ⟨r, hr, rs, hrs, rfl⟩ := hs
    have := wRecord_le h1 hr
    have := ih hrs
    simp only [List.flatMap_cons, List.length_append]
    omega

theorem refRecords_le {l l' : List RefRecord} {x : Bytes} (h : Sequence IsRefRecord l x)
    (hs : sanitizeAll RefRecord.sanitize l = .ok l') :
    (l'.flatMap wRefRecord).length ≤ x.length + 12 * l.length := by
  induction h generalizing l' with
  | nil => cases hs; simp
  | cons h1 h2 ih =>
    simp only [sanitizeAll, exBind_ok, exPure, Except.ok.injEq] at hs
    obtain ⟨r, hr, rs, hrs, rfl⟩ := hs
    have := wRefRecord_le h1 hr
    have := ih hrs
    simp only [List.flatMap_cons, List.length_append, List.length_cons]
    omega

theorem wEid_le {a : Addr} {n : Net} {x : Bytes} (h : IsEid a x) (hd : Denotes a n) :
    (wEid n).length ≤ x.length := by
  obtain ⟨r, p, y, l, _, hp, _, _, rfl⟩ := h
  have : (wIP n.first).length ≤ y.length := by
    cases hd with
    | net n => cases hp; exact Nat.le_refl _
    | ip a n => cases hp
    | inst a m n hn =>
      generalize hi : (0 : Int) = i at hp
      cases hp with
      | inst k hk hd =>
        cases hn
        obtain ⟨hd, _⟩ := isLcaf_len hd
        simp only [List.length_append] at hd
        omega
  simp only [wEid, List.length_append, List.length_cons, List.length_nil]
  omega

theorem wEids_le {l : List Addr} {ns : List Net} {x : Bytes} (h : Sequence IsEid l x) (hn : ns.length = l.length)
    (hd : ∀ i (h : i < l.length) (h' : i < ns.length), Denotes l[i] ns[i]) :
    (ns.flatMap wEid).length ≤ x.length := by
  induction h generalizing ns with
  | nil => rw [List.length_eq_zero_iff.mp hn]; simp
  | @cons a l d e h1 h2 ih =>
    cases ns with
    | nil => simp at hn
    | cons n ns =>
      have h3 : (wEid n).length ≤ _ := wEid_le h1 (hd 0 (by simp) (by simp))
      have h4 := ih (by simpa using hn) (fun i hi hi' => hd (i + 1) (by simpa using hi) (by simpa using hi'))
      simp only [List.flatMap_cons, List.length_append]
      omega

/-! ### Control messages -/

/-- Specification: at most this many bytes are added when an accepted message is written again: a Map-Register with
the RTR flag always gets its (zero) xTR and site IDs, every EID of a Map-Referral an instance-ID LCAF -/
def growth : Ctrl → Nat
  | .register m => if m.forRtr = true ∧ m.xtrId = 0 ∧ m.siteId = 0 then 24 else 0
  | .referral m => 12 * m.records.length
  | _ => 0

/-- Specification: what an accepted message must have to be written again: the EIDs of a Map-Request are networks, and
a message with an authentication field has authentication data -/
def Rewritable : Ctrl → Prop
  | .request m => ∀ a ∈ m.eidPrefixes, ∃ n, Denotes a n
  | .register m => m.authData ≠ []
  | .notify m => m.authData ≠ []
  | .info m => m.authData ≠ []
  | _ => True

/-- C34: an accepted control message (a Map-Request: whose EIDs denote networks; a Map-Register, Map-Notify or Info message:
with authentication data) can be written again, in at most as many bytes, except for the IDs added to Map-Registers for RTRs and the instance ids added to Map-Referrals. -/
theorem control_rewritten (m : Ctrl) (d : Bytes) (h : Pkt.fromBytes .control d = .ok (.ctrl m)) (he : Rewritable m) :
    ∃ d', (Pkt.ctrl m).toBytes = .ok d' ∧ d'.length ≤ d.length + growth m := by
  obtain ⟨x, j, hc, rfl⟩ := (control_language d m).mp h
  have hx : ∀ d' : Bytes, d'.length ≤ x.length + growth m → d'.length ≤ (x ++ j).length + growth m := by
    intro d' h; rw [List.length_append]; omega
  cases hc with
  | @request m _ hm =>
    have hfb := (map_request_language (x ++ j) m).mpr ⟨x, j, hm, rfl⟩
    obtain ⟨d', hd'⟩ := (map_request_reserialises_iff _ m hfb).mpr he
    refine ⟨d', hd', hx _ ?_⟩
    obtain ⟨r, ns, hr, ⟨hn, hden⟩, rfl⟩ := map_request_bytes m d' hd'
    cases hm with
    | @mk itrs src eids rec h1 h2 h3 h4 h5 h6 h7 h8 h9 h10 =>
      have l1 := wAddr_le h2
      have l2 := wEids_le h9 hn hden
      have l3 : (wOptRecord r).length ≤ rec.length := by
        generalize m.mapReply = mr at h10 hr
        cases h10 with
        | none => cases hr; simp [wOptRecord]
        | some hrec =>
          simp only [sanitizeOpt, exBind_ok, exPure, Except.ok.injEq] at hr
          obtain ⟨r1, hr1, rfl⟩ := hr
          exact wRecord_le hrec hr1
      have l4 : (m.itrRlocs.flatMap wAddr).length = (itrs.flatMap wIP).length := by
        rw [h4, List.flatMap_map]; rfl
      simp only [wMapRequest, List.length_append, be32_length, growth]
      omega
  | @reply m _ hm =>
    have hfb := (map_reply_language (x ++ j) m).mpr ⟨x, j, hm, rfl⟩
    obtain ⟨d', hd'⟩ := map_reply_reserialises _ m hfb
    refine ⟨d', hd', hx _ ?_⟩
    obtain ⟨rs, hrs, rfl⟩ := map_reply_bytes m d' hd'
    rw [sanitised_iff] at hrs
    cases hm with
    | mk h1 h2 h3 h4 =>
      have l1 := records_le h4 hrs
      simp only [wMapReply, List.length_append, be32_length, growth, List.length_replicate]
      omega
  | @register m _ hm =>
    have hfb := (map_register_language (x ++ j) m).mpr ⟨x, j, hm, rfl⟩
    obtain ⟨d', hd'⟩ := (map_register_reserialises_iff _ m hfb).mpr he
    refine ⟨d', hd', hx _ ?_⟩
    obtain ⟨rs, hrs, rfl⟩ := map_register_bytes m d' hd'
    rw [sanitised_iff] at hrs
    cases hm with
    | @mk i recs ids h1 h2 h3 h4 h5 h6 =>
      have l1 := records_le h5 hrs
      have l2 : (if m.xtrId ≠ 0 ∨ m.siteId ≠ 0 ∨ m.forRtr = true then be128 m.xtrId.toNat ++ be64 m.siteId.toNat
          else []).length ≤ ids.length + growth (.register m) := by
        split
        · rename_i hc
          simp only [List.length_append, be128_length, be64_length]
          by_cases hz : m.xtrId = 0 ∧ m.siteId = 0
          · have hr : m.forRtr = true := by
              rcases hc with h | h | h
              · exact absurd hz.1 h
              · exact absurd hz.2 h
              · exact h
            simp only [growth, if_pos (show m.forRtr = true ∧ m.xtrId = 0 ∧ m.siteId = 0 from ⟨hr, hz⟩)]
            omega
          · generalize hxx : m.xtrId = xx at h6 hz
            generalize hss : m.siteId = ss at h6 hz
            cases h6 with
            | absent => exact absurd ⟨rfl, rfl⟩ hz
            | present => simp only [List.length_append, be128_length, be64_length]; omega
        · simp
      simp only [wMapRegister, List.length_append, be32_length, wAuth]
      omega
  | @notify m _ hm =>
    have hfb := (map_notify_language (x ++ j) m).mpr ⟨x, j, hm, rfl⟩
    obtain ⟨d', hd'⟩ := (map_notify_reserialises_iff _ m hfb).mpr he
    refine ⟨d', hd', hx _ ?_⟩
    obtain ⟨rs, hrs, rfl⟩ := map_notify_bytes m d' hd'
    rw [sanitised_iff] at hrs
    cases hm with
    | @mk i recs ids h1 h2 h3 h4 h5 h6 =>
      have l1 := records_le h5 hrs
      have l2 : (if m.xtrId ≠ 0 ∨ m.siteId ≠ 0 then be128 m.xtrId.toNat ++ be64 m.siteId.toNat
          else []).length ≤ ids.length := by
        split
        · rename_i hc
          simp only [List.length_append, be128_length, be64_length]
          generalize hxx : m.xtrId = xx at h6 hc
          generalize hss : m.siteId = ss at h6 hc
          cases h6 with
          | absent => rcases hc with h | h <;> exact absurd rfl h
          | present => simp only [List.length_append, be128_length, be64_length]; omega
        · simp
      simp only [wMapNotify, List.length_append, be32_length, wAuth, growth]
      omega
  | @referral m _ hm =>
    have hfb := (map_referral_language (x ++ j) m).mpr ⟨x, j, hm, rfl⟩
    obtain ⟨d', hd'⟩ := map_referral_reserialises _ m hfb
    refine ⟨d', hd', hx _ ?_⟩
    obtain ⟨m', hm1, hm2⟩ := encMapReferral_ok (toBytes_ok.mp hd')
    obtain ⟨rs0, rs, hr, rfl⟩ := MapReferral.sanitize_ok.mp hm1
    obtain ⟨rs', hrs', rfl⟩ := map_referral_bytes m d' hd'
    have : rs' = rs := by
      obtain ⟨a1, a2⟩ := hrs'
      obtain ⟨b1, b2⟩ := sanitisedRef_of hr
      refine List.ext_getElem (by rw [a1, b1]) fun i hi hi' => ?_
      have hl : i < m.records.length := by rw [← a1]; exact hi
      have e := (a2 i hl hi).symm.trans (b2 i hl hi')
      exact Except.ok.inj e
    subst this
    cases hm with
    | mk h1 h2 h3 =>
      have l1 := refRecords_le h3 hr
      simp only [wMapReferral, List.length_append, be32_length, growth]
      omega
  | @info m _ hm =>
    have hfb := (info_language (x ++ j) m).mpr ⟨x, j, hm, rfl⟩
    obtain ⟨d', hd'⟩ := (info_reserialises_iff _ m hfb).mpr he
    refine ⟨d', hd', hx _ ?_⟩
    obtain ⟨n, hn, rfl⟩ := info_bytes m d' hd'
    cases hm with
    | @mk ttl n' rep h1 h2 h3 h4 h5 h6 h7 h8 =>
      have l1 := wAddr_le h7
      have : n = n' := by rw [hn] at h6; cases h6; rfl
      subst this
      simp only [wInfo, List.length_append, be32_length, wAuth, List.length_cons, List.length_nil, growth]
      omega

/-! ### Packets -/

/-- Specification: the control message in a packet, if there is one -/
def core : Pkt → Option Ctrl
  | .ctrl m => some m
  | .raw _ => none
  | .ipv4 _ p | .ipv6 _ p | .udp _ p | .hbh _ _ p | .dest _ _ p | .routing _ _ _ _ p | .fragment _ _ _ _ p
  | .nonext p | .data _ p | .ecm _ p => core p

/-- Specification: the growth of a packet is that of its control message -/
def packetGrowth (p : Pkt) : Nat := ((core p).map growth).getD 0

/-- `p` can be written again in at most `n` bytes more -/
def WritableIn (n : Nat) (p : Pkt) : Prop :=
  ∀ k d, Pkt.fromBytes k d = .ok p → (n = 0 ∨ d.length + n < 65536) →
    ∃ d', p.toBytes = .ok d' ∧ d'.length ≤ d.length + n

theorem writable_payload {n : Nat} {dd : Bool} {nh : Int} {pl : Bytes} {q : Pkt} (ih : WritableIn n q)
    (hn : n = 0 ∨ pl.length + n < 65536) (h : payloadParsed dd nh pl q) :
    ∃ pl', q.toBytes = .ok pl' ∧ pl'.length ≤ pl.length + n := by
  unfold payloadParsed at h
  split at h
  · split at h
    · exact ih _ _ h hn
    · subst h; exact ⟨pl, rfl, by omega⟩
  · subst h; exact ⟨pl, rfl, by omega⟩

theorem writable_version {n : Nat} {dd : Bool} {pl : Bytes} {q : Pkt} (ih : WritableIn n q)
    (hn : n = 0 ∨ pl.length + n < 65536) (h : versionPayloadParsed dd pl q) :
    ∃ pl', q.toBytes = .ok pl' ∧ pl'.length ≤ pl.length + n := by
  unfold versionPayloadParsed at h
  split at h
  · exact ih _ _ h hn
  · exact ih _ _ h hn
  · subst h; exact ⟨pl, rfl, by omega⟩

theorem length_of_bits_le {a b : Bits} {d d' pl pl' : Bytes} {n : Nat} (h1 : bytesToBits d = a ++ bytesToBits pl)
    (h2 : bytesToBits d' = b ++ bytesToBits pl') (hab : a.length = b.length) (hl : pl'.length ≤ pl.length + n) :
    d'.length ≤ d.length + n := by
  have e1 := congrArg List.length h1
  have e2 := congrArg List.length h2
  simp only [List.length_append, bytesToBits_length] at e1 e2
  omega

theorem length_of_bits_ge {a : Bits} {d pl : Bytes} (h1 : bytesToBits d = a ++ bytesToBits pl) :
    pl.length ≤ d.length := by
  have e1 := congrArg List.length h1
  simp only [List.length_append, bytesToBits_length] at e1
  omega

/-- a received IPv4 header, with or without options, can be written in front of a payload that fits: the packet then
has the bytes of the header and of the payload -/
theorem ipv4_rewritten {h : V4Hdr} {q : Pkt} {d pl pb : Bytes} (hw : IsIPv4 d h pl)
    (hfix : fixNextHeader q h.nextHeader = h.nextHeader) (hpb : q.toBytes = .ok pb)
    (hl : 20 + pb.length < 65536) :
    ∃ d', (Pkt.ipv4 h q).toBytes = .ok d' ∧ d'.length = 20 + h.options.length + pb.length := by
  have hr := hw.ranges
  have ho := hw.options
  have hsan : h.sanitize q = .ok h :=
    V4Hdr.sanitize_ok.mpr ⟨hr.tos, hr.ident, hr.fragOff, fun ⟨a, b⟩ => by
      have := hw.dontFragment a; omega, hr.ttl, hr.src, hr.dst, by rw [hfix]⟩
  simp only [Pkt.toBytes, exBind_ok]
  have hS := addrInt_range hr.src
  have hD := addrInt_range hr.dst
  simp only [Ver.width] at hS hD
  have hll : ((20 + pb.length : Nat) : Int) < 2 ^ 16 := by omega
  have hi : (5 : Int) + (((h.options.length + 3) / 4 : Nat) : Int) < 2 ^ 4 := by omega
  have hi0 : (0 : Int) ≤ 5 + (((h.options.length + 3) / 4 : Nat) : Int) := by omega
  have : ∃ x, encV4Raw h pb.length = .ok x ∧ x.length = 8 * (20 + h.options.length) := by
    unfold encV4Raw
    simp only [encUint_eq_ok hr.tos.1 hr.tos.2,
      encUint_eq_ok (Int.natCast_nonneg _) hll, encUint_eq_ok hr.ident.1 hr.ident.2,
      encUint_eq_ok hr.fragOff.1 hr.fragOff.2, encUint_eq_ok hr.ttl.1 hr.ttl.2,
      encUint_eq_ok hr.nextHeader.1 hr.nextHeader.2, encUint_eq_ok hS.1 hS.2,
      encUint_eq_ok hD.1 hD.2, exBind_okl, exPure, encUint_eq_ok hi0 hi]
    refine ⟨_, rfl, ?_⟩
    simp only [List.length_append, natToBits_length, bytesToBits_length, zeros, List.length_replicate,
      List.length_cons, List.length_nil]
    omega
  obtain ⟨x, hx, hxl⟩ := this
  obtain ⟨hb, hhb, _⟩ := bitsToBytes_ok_of_length hxl
  have hc : ∃ c, encUint 16 (onesComplement hb) = .ok c := by
    have := checksum_range hb
    exact ⟨_, encUint_eq_ok (Int.natCast_nonneg _) (by omega)⟩
  obtain ⟨c, hc⟩ := hc
  have hcl : c.length = 16 := by
    obtain ⟨_, _, rfl⟩ := encUint_iff.mp hc; simp
  have hout : (x.take 80 ++ c ++ x.drop 96).length = 8 * (20 + h.options.length) := by
    simp [hxl, hcl]; omega
  obtain ⟨out, hout, hol⟩ := bitsToBytes_ok_of_length hout
  have henc : encV4 h pb = .ok (out ++ pb) := by
    unfold encV4
    rw [hx, exBind_okl, hhb, exBind_okl, hc, exBind_okl, hout, exBind_okl, exPure]
  refine ⟨out ++ pb, ⟨_, hsan, _, encUint_eq_ok hi0 hi, pb, hpb, henc⟩, ?_⟩
  simp only [List.length_append]
  omega

theorem writable_ipv4 {n : Nat} {h : V4Hdr} {q : Pkt} (ih : WritableIn n q) : WritableIn n (.ipv4 h q) := by
  intro k d hd hn
  have hc := parsed_class hd
  cases k <;> first | (cases hc; done) | skip
  rename_i dd
  obtain ⟨h0, pl, q0, hw, hq, he⟩ := (ipv4_accepted_iff dd d _).mp hd
  cases he
  have hlen := hw.length
  have hd := congrArg List.length hw.layout
  simp only [List.length_append, rfc791_length] at hd
  obtain ⟨pl', b1, b2⟩ := writable_payload ih (by omega) hq
  obtain ⟨d', h1, h2⟩ := ipv4_rewritten hw (payloadParsed_fix hq hw.nextHeader.1) b1 (by omega)
  exact ⟨d', h1, by omega⟩

theorem writable_ipv6 {n : Nat} {h : V6Hdr} {q : Pkt} (ih : WritableIn n q) : WritableIn n (.ipv6 h q) := by
  intro k d hd hn
  have hc := parsed_class hd
  cases k <;> first | (cases hc; done) | skip
  rename_i dd
  obtain ⟨h0, pl, q0, hw, hq, he⟩ := (ipv6_accepted_iff dd d _).mp hd
  cases he
  obtain ⟨hr, hl, hbits⟩ := isIPv6_iff.mp hw
  have hge := length_of_bits_ge hbits
  obtain ⟨pl', b1, b2⟩ := writable_payload ih (by omega) hq
  have hfix := payloadParsed_fix hq hw.nextHeader.1
  have hfix' : ({ h with nextHeader := fixNextHeader q h.nextHeader } : V6Hdr) = h := by rw [hfix]
  have hl' : pl'.length < 2 ^ 16 := by omega
  have hw' : IsIPv6 (rfc8200 h pl') h pl' :=
    ⟨rfl, hl', hw.trafficClass, hw.flowLabel, hw.nextHeader, hw.hopLimit, hw.src, hw.dst⟩
  obtain ⟨d', hd'⟩ := (ipv6_writable_iff (h := h) (p := q)).mpr ⟨pl', _, b1, by rw [hfix']; exact hw'⟩
  obtain ⟨pl2, c1, c2⟩ := ipv6_written hd'
  rw [b1] at c1
  cases c1
  rw [hfix'] at c2
  obtain ⟨_, _, hb'⟩ := isIPv6_iff.mp c2
  refine ⟨d', hd', length_of_bits_le hbits hb' ?_ b2⟩
  unfold v6Bits
  simp only [List.length_append, natToBits_length]

theorem writable_udp {n : Nat} {h : UdpHdr} {q : Pkt} (ih : WritableIn n q) : WritableIn n (.udp h q) := by
  intro k d hd hn
  have hc := parsed_class hd
  cases k <;> first | (cases hc; done) | skip
  obtain ⟨h0, pl, q0, hw, hq, he⟩ := (udp_accepted_iff d _).mp hd
  cases he
  have hl := hw.length
  rw [hw.layout] at hl hn
  simp only [rfc768, List.length_append, be16_length] at hl hn
  have : ∃ pl', q.toBytes = .ok pl' ∧ pl'.length ≤ pl.length + n := by
    unfold udpPayloadParsed at hq
    split at hq
    · exact ih _ _ hq (by omega)
    · split at hq
      · exact ih _ _ hq (by omega)
      · subst hq; exact ⟨pl, rfl, by omega⟩
  obtain ⟨pl', b1, b2⟩ := this
  have hw' : IsUDP (rfc768 h pl') h pl' := by
    refine ⟨rfl, ?_, hw.sport, hw.dport, hw.cksum⟩
    simp only [rfc768, List.length_append, be16_length]
    omega
  refine ⟨rfc768 h pl', udp_written_iff.mpr ⟨pl', b1, hw'⟩, ?_⟩
  rw [hw.layout]
  simp only [rfc768, List.length_append, be16_length]
  omega

theorem writable_data {n : Nat} {h : DataHdr} {q : Pkt} (ih : WritableIn n q) : WritableIn n (.data h q) := by
  intro k d hd hn
  have hc := parsed_class hd
  cases k <;> first | (cases hc; done) | skip
  rename_i dd
  obtain ⟨f, n1, n2, n3, w4, w5, w6, w7, pl, q0, rfl, hq, he⟩ := (data_accepted_iff dd d _).mp hd
  cases he
  obtain ⟨pl', b1, b2⟩ := writable_version ih (by simp only [List.length_append] at hn; omega) hq
  have hr := representable_iff.mpr (DataHdr.sanitize_ok.mp (lispHeader_sanitize f n1 n2 n3 w4 w5 w6 w7)).1
  have hr : Representable (lispHeader f n1 n2 n3 w4 w5 w6 w7) := hr
  obtain ⟨d', hd'⟩ := data_writable_iff.mpr ⟨hr, pl', b1⟩
  obtain ⟨f', m1, m2, m3, v4, v5, v6, v7, pl2, rfl, c1, _, c3⟩ := data_written hd'
  cases b1.symm.trans c1
  refine ⟨_, hd', ?_⟩
  simp only [List.length_append, List.length_cons, List.length_nil]
  omega

theorem writable_ecm {n : Nat} {h : EcmHdr} {q : Pkt} (ih : WritableIn n q) : WritableIn n (.ecm h q) := by
  intro k d hd hn
  have hc := parsed_class hd
  cases k <;> first | (cases hc; done) | skip
  obtain ⟨a1, a2, a3, pl, hq, hb⟩ := ecm_accepted_iff.mp hd
  have hge := length_of_bits_ge hb
  obtain ⟨pl', b1, b2⟩ := writable_version ih (by omega) hq
  obtain ⟨x, hx, _⟩ := bitsToBytes_ok_of_length (k := 4 + pl'.length)
    (b := natToBits 4 8 ++ [false, h.ddtOriginated] ++ natToBits 26 h.reserved1.toNat ++ bytesToBits pl')
    (by simp; omega)
  have hx := bytesToBits_of_bitsToBytes hx
  exact ⟨x, ecm_written_iff.mpr ⟨a1, pl', b1, hx⟩, length_of_bits_le hb hx rfl b2⟩

theorem writable_opts {n : Nat} {k : Kind} {mk : Int → Bytes → Pkt → Pkt} {d : Bytes} {nh : Int} {o : Bytes} {q : Pkt}
    (hk : ∀ d p, Pkt.fromBytes k d = .ok p ↔ decOpts dec mk (bytesToBits d) = .ok p)
    (hb : ∀ nh o q, (mk nh o q).toBytes = (encOpts nh o >>= fun b => q.toBytes >>= fun pb => withPayload b pb))
    (hmk : ∀ nh o q nh' o' q', mk nh o q = mk nh' o' q' → nh = nh' ∧ o = o' ∧ q = q')
    (ih : WritableIn n q) (hn : n = 0 ∨ d.length + n < 65536) (hd : Pkt.fromBytes k d = .ok (mk nh o q)) :
    ∃ d', (mk nh o q).toBytes = .ok d' ∧ d'.length ≤ d.length + n := by
  obtain ⟨nh1, len, o1, pl, q1, a1, a2, a3, a4, a5, he⟩ := readOpts_parsed ((hk _ _).mp hd)
  obtain ⟨rfl, rfl, rfl⟩ := hmk _ _ _ _ _ _ he
  have hge := length_of_bits_ge a4
  obtain ⟨pl', b1, b2⟩ := writable_payload ih (by omega) a5
  obtain ⟨d', c1, c2⟩ := opts_toBytes (pl' := pl') a1 a2 a3
  refine ⟨d', ?_, length_of_bits_le a4 c2 rfl b2⟩
  rw [hb, b1]
  exact c1

theorem writable_routing {n : Nat} {nh rt sl : Int} {o : Bytes} {q : Pkt} (ih : WritableIn n q) :
    WritableIn n (.routing nh rt sl o q) := by
  intro k d hd hn
  have hc := parsed_class hd
  cases k <;> first | (cases hc; done) | skip
  have hk : ∀ d p, Pkt.fromBytes .routing d = .ok p ↔ decRouting dec (bytesToBits d) = .ok p := by
    intro d p
    rw [Pkt.fromBytes, dec_eq]; rfl
  have hd0 := (hk _ _).mp hd
  unfold decRouting at hd0
  obtain ⟨⟨⟨nh, rt, sl, o, pl⟩, rest⟩, hr, hd0⟩ := exBind_ok.mp hd0
  obtain ⟨q, hq, hd0⟩ := exBind_ok.mp hd0
  cases hd0
  obtain ⟨a1, ar, as, _, len, a2, a3, a4⟩ := readRouting_inv hr
  have a5 : payloadParsed true (nh : Int) pl q := payloadParsed_iff.mpr (by simpa using hq)
  have hge := length_of_bits_ge a4
  obtain ⟨pl', b1, b2⟩ := writable_payload ih (by omega) a5
  obtain ⟨d', c1, c2⟩ := routing_toBytes (pl' := pl') a1 ar as a2 a3
  refine ⟨d', ?_, length_of_bits_le a4 c2 rfl b2⟩
  unfold Pkt.toBytes
  rw [b1]
  exact c1

/-- what is in a packet that can be written can be written -/
theorem core_written : ∀ (p : Pkt) (d' : Bytes) (m : Ctrl), p.toBytes = .ok d' → core p = some m →
    ∃ b, (Pkt.ctrl m).toBytes = .ok b := by
  intro p
  induction p with
  | raw b => intro d' m _ h; cases h
  | ctrl c => intro d' m h hc; cases hc; exact ⟨_, h⟩
  | nonext q ih => intro d' m h hc; exact ih _ _ (by simpa [Pkt.toBytes] using h) hc
  | ipv4 h q ih =>
    intro d' m hd hc
    simp only [Pkt.toBytes, exBind_ok] at hd
    obtain ⟨_, _, _, _, _, h1, _⟩ := hd
    exact ih _ _ h1 hc
  | _ =>
    rename_i ih
    intro d' m hd hc
    simp only [Pkt.toBytes, exBind_ok] at hd
    first
      | (obtain ⟨_, _, _, h1, _⟩ := hd; exact ih _ _ h1 hc)
      | (obtain ⟨_, _, _, _, _, h1, _⟩ := hd; exact ih _ _ h1 hc)

theorem written_denotes {m : Ctrl} {b : Bytes} (h : (Pkt.ctrl m).toBytes = .ok b) : Rewritable m := by
  cases m with
  | request m =>
    obtain ⟨_, ns, _, ⟨hl, hd⟩, _⟩ := map_request_bytes m b h
    intro a ha
    obtain ⟨i, hi, rfl⟩ := List.mem_iff_getElem.mp ha
    exact ⟨_, hd i hi (by omega)⟩
  | register m => exact ((map_register_writable_iff m).mp ⟨b, h⟩).2.2.2.1.1
  | notify m => exact ((map_notify_writable_iff m).mp ⟨b, h⟩).2.2.2.2.1.1
  | info m => exact ((info_writable_iff m).mp ⟨b, h⟩).2.2.1.1
  | _ => trivial

theorem packet_writable (p : Pkt) (he : ∀ m, core p = some m → Rewritable m) :
    WritableIn (packetGrowth p) p := by
  suffices hs : ∀ n, (∀ m, core p = some m → growth m = n) → (core p = none → n = 0) → WritableIn n p by
    refine hs _ (fun m hm => ?_) (fun hm => ?_) <;> simp [packetGrowth, hm]
  intro n
  induction p with
  | raw b =>
    intro _ _ k d hd _
    have hc := parsed_class hd
    cases k <;> (cases hc; done)
  | ctrl m =>
    intro h1 _ k d hd _
    have hc := parsed_class hd
    cases k <;> first | (cases hc; done) | skip
    have := control_rewritten m d hd (he m rfl)
    rwa [h1 m rfl] at this
  | ipv4 h q ih => exact fun h1 h2 => writable_ipv4 (ih he h1 h2)
  | ipv6 h q ih => exact fun h1 h2 => writable_ipv6 (ih he h1 h2)
  | udp h q ih => exact fun h1 h2 => writable_udp (ih he h1 h2)
  | data h q ih => exact fun h1 h2 => writable_data (ih he h1 h2)
  | ecm h q ih => exact fun h1 h2 => writable_ecm (ih he h1 h2)
  | routing nh rt sl o q ih =>
    exact fun h1 h2 => writable_routing (ih he h1 h2)
  | hbh nh o q ih =>
    intro h1 h2 k d hd hn
    have hc := parsed_class hd
    cases k <;> first | (cases hc; done) | skip
    refine writable_opts (mk := .hbh) ?_ ?_ ?_ (ih he h1 h2) hn hd
    · intro d p; rw [Pkt.fromBytes, dec_eq]; rfl
    · intro nh o q; rfl
    · intro _ _ _ _ _ _ h; cases h; exact ⟨rfl, rfl, rfl⟩
  | dest nh o q ih =>
    intro h1 h2 k d hd hn
    have hc := parsed_class hd
    cases k <;> first | (cases hc; done) | skip
    refine writable_opts (mk := .dest) ?_ ?_ ?_ (ih he h1 h2) hn hd
    · intro d p; rw [Pkt.fromBytes, dec_eq]; rfl
    · intro nh o q; rfl
    · intro _ _ _ _ _ _ h; cases h; exact ⟨rfl, rfl, rfl⟩
  | fragment nh off mf i q ih =>
    intro h1 h2 k d hd hn
    have hc := parsed_class hd
    cases k <;> first | (cases hc; done) | skip
    obtain ⟨d', a1, a2, _⟩ := rewritten_fragment hd
    exact ⟨d', a1, by omega⟩
  | nonext q ih =>
    intro h1 h2 k d hd hn
    have hc := parsed_class hd
    have h := fromBytes_kind hd
    cases k <;> first
      | (cases hc; done)
      | (cases h; exact ⟨d, by simp [Pkt.toBytes], by omega⟩)

/-- C34: exactly those accepted packets can be written again whose control message (if they have one) is not a
Map-Request with an EID that is no network.  There must be room for the IDs added
to a Map-Register for RTRs and the instance ids added to a Map-Referral. -/
theorem packet_writable_iff (k : Kind) (d : Bytes) (p : Pkt) (h : Pkt.fromBytes k d = .ok p)
    (hroom : packetGrowth p = 0 ∨ d.length + packetGrowth p < 65536) :
    (∃ d', p.toBytes = .ok d') ↔ ∀ m, core p = some m → Rewritable m := by
  constructor
  · rintro ⟨d', hd'⟩ m hm
    obtain ⟨b, hb⟩ := core_written p d' m hd' hm
    exact written_denotes hb
  · intro he
    obtain ⟨d', hd', _⟩ := packet_writable p he k d h hroom
    exact ⟨d', hd'⟩

/-- C34: what is then written has at most as many bytes as were received (apart from these additions) and, if no IPv4
header has options, is the same packet again, the EIDs of a Map-Request being networks. -/
theorem packet_written_again (k : Kind) (d d' : Bytes) (p : Pkt) (h : Pkt.fromBytes k d = .ok p)
    (hroom : packetGrowth p = 0 ∨ d.length + packetGrowth p < 65536) (hd : p.toBytes = .ok d') :
    d'.length ≤ d.length + packetGrowth p ∧
      (NoOptions p → ∃ p', SamePacket p p' ∧ Pkt.fromBytes k d' = .ok p') := by
  have he := (packet_writable_iff k d p h hroom).mp ⟨d', hd⟩
  obtain ⟨d2, h2, hl⟩ := packet_writable p he k d h hroom
  rw [hd] at h2
  cases h2
  exact ⟨hl, fun ho => packet_stable k d d' p h ho hd⟩

/-! ### The hypotheses are met -/

/-- a Map-Register in UDP in IPv4 -/
def exRegisterPkt : Pkt :=
  .ipv4 { exHdr4 with nextHeader := 17 } (.udp { sport := 4342, dport := 4342, cksum := 0 } (.ctrl (.register exRegister)))

example : ∃ d, Pkt.fromBytes (.ipv4 true) d = .ok exRegisterPkt ∧ NoOptions exRegisterPkt ∧
    packetGrowth exRegisterPkt = 0 ∧ core exRegisterPkt = some (.register exRegister) := by
  have h : (exRegisterPkt.toBytes >>= fun d => Pkt.fromBytes (.ipv4 true) d) = .ok exRegisterPkt := by decide +kernel
  obtain ⟨d, _, hd⟩ := exBind_ok.mp h
  exact ⟨d, hd, .ipv4 _ _ rfl (.udp _ _ (.ctrl _)), by decide +kernel, rfl⟩

/-- the additions are real: a Map-Register with the RTR flag and without IDs is written in 24 bytes more -/
example : (match MapRegister.fromBytes ([0x31, 0, 0, 0] ++ List.replicate 8 1 ++ [0, 0, 0, 1, 7]) with
    | .ok m => m.toBytes.map List.length
    | .error e => .error e) = .ok 41 := by
  decide +kernel

/-- and a Map-Referral with a plain IPv4 prefix in 12 bytes more -/
example : (match MapReferral.fromBytes ([0x60, 0, 0, 1] ++ List.replicate 8 1 ++
      [0, 0, 0, 0, 0, 24, 0xa8, 0, 0, 0] ++ [0, 1, 192, 0, 2, 0]) with
    | .ok m => m.toBytes.map List.length
    | .error e => .error e) = .ok 40 := by
  decide +kernel

end PyLisp.Props
