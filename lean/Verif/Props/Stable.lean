import Verif.Props.Reserialise
import Verif.Props.Canonical
/-
C34 for whole packets: IP packets with LISP messages inside, LISP data packets and encapsulated control
messages that were received and are written again.
-/
namespace PyLisp.Props
open PyLisp

attribute [local irreducible] natToBits readUint readBits readBool readBytes readInt zeros readIP

/-- no IPv4 header anywhere in the packet has options -/
inductive NoOptions : Pkt → Prop
  | raw (b) : NoOptions (.raw b)
  | ipv4 (h p) (ho : h.options = []) (hp : NoOptions p) : NoOptions (.ipv4 h p)
  | ipv6 (h p) (hp : NoOptions p) : NoOptions (.ipv6 h p)
  | hbh (nh o p) (hp : NoOptions p) : NoOptions (.hbh nh o p)
  | dest (nh o p) (hp : NoOptions p) : NoOptions (.dest nh o p)
  | routing (nh rt sl o p) (hp : NoOptions p) : NoOptions (.routing nh rt sl o p)
  | fragment (nh off mf i p) (hp : NoOptions p) : NoOptions (.fragment nh off mf i p)
  | nonext (p) (hp : NoOptions p) : NoOptions (.nonext p)
  | udp (h p) (hp : NoOptions p) : NoOptions (.udp h p)
  | data (h p) (hp : NoOptions p) : NoOptions (.data h p)
  | ctrl (m) : NoOptions (.ctrl m)
  | ecm (h p) (hp : NoOptions p) : NoOptions (.ecm h p)

/-- the same control message, except that the EIDs of a Map-Request are the networks they denote -/
inductive SameCtrl : Ctrl → Ctrl → Prop
  | same (m) : SameCtrl m m
  | request (m : MapRequest) (ns : List Net) (hl : ns.length = m.eidPrefixes.length)
      (hn : ∀ i (h : i < m.eidPrefixes.length) (h' : i < ns.length), Denotes m.eidPrefixes[i] ns[i]) :
      SameCtrl (.request m) (.request { m with eidPrefixes := ns.map .net })

/-- the same packet, header for header, except for the EIDs of a Map-Request inside -/
inductive SamePacket : Pkt → Pkt → Prop
  | raw (b) : SamePacket (.raw b) (.raw b)
  | ipv4 (h) {p p'} (hp : SamePacket p p') : SamePacket (.ipv4 h p) (.ipv4 h p')
  | ipv6 (h) {p p'} (hp : SamePacket p p') : SamePacket (.ipv6 h p) (.ipv6 h p')
  | hbh (nh o) {p p'} (hp : SamePacket p p') : SamePacket (.hbh nh o p) (.hbh nh o p')
  | dest (nh o) {p p'} (hp : SamePacket p p') : SamePacket (.dest nh o p) (.dest nh o p')
  | routing (nh rt sl o) {p p'} (hp : SamePacket p p') : SamePacket (.routing nh rt sl o p) (.routing nh rt sl o p')
  | fragment (nh off mf i) {p p'} (hp : SamePacket p p') :
      SamePacket (.fragment nh off mf i p) (.fragment nh off mf i p')
  | nonext {p p'} (hp : SamePacket p p') : SamePacket (.nonext p) (.nonext p')
  | udp (h) {p p'} (hp : SamePacket p p') : SamePacket (.udp h p) (.udp h p')
  | data (h) {p p'} (hp : SamePacket p p') : SamePacket (.data h p) (.data h p')
  | ctrl {m m'} (hm : SameCtrl m m') : SamePacket (.ctrl m) (.ctrl m')
  | ecm (h) {p p'} (hp : SamePacket p p') : SamePacket (.ecm h p) (.ecm h p')

theorem SamePacket.refl : ∀ p, SamePacket p p
  | .raw b => .raw b
  | .ipv4 h p => .ipv4 h (.refl p)
  | .ipv6 h p => .ipv6 h (.refl p)
  | .hbh nh o p => .hbh nh o (.refl p)
  | .dest nh o p => .dest nh o (.refl p)
  | .routing nh rt sl o p => .routing nh rt sl o (.refl p)
  | .fragment nh off mf i p => .fragment nh off mf i (.refl p)
  | .nonext p => .nonext (.refl p)
  | .udp h p => .udp h (.refl p)
  | .data h p => .data h (.refl p)
  | .ctrl m => .ctrl (.same m)
  | .ecm h p => .ecm h (.refl p)

/-- what is known of the bytes a parsed packet is written as -/
def StableAt (p : Pkt) : Prop :=
  ∀ k d d', Pkt.fromBytes k d = .ok p → p.toBytes = .ok d' → ∃ p', SamePacket p p' ∧ Pkt.fromBytes k d' = .ok p'

theorem stable_payload {dd : Bool} {nh : Int} {pl pl' : Bytes} {q : Pkt} (ih : StableAt q)
    (h : payloadParsed dd nh pl q) (hb : q.toBytes = .ok pl') :
    ∃ q', SamePacket q q' ∧ payloadParsed dd nh pl' q' := by
  unfold payloadParsed at h ⊢
  split at h
  · rename_i k hk
    split at h
    · rename_i hd
      obtain ⟨q', h1, h2⟩ := ih k pl pl' h hb
      exact ⟨q', h1, by simp only [hd, if_true]; exact h2⟩
    · rename_i hd
      subst h
      cases (show (Except.ok pl : Except Err Bytes) = .ok pl' from hb)
      exact ⟨_, .refl _, by simp only [if_neg hd]⟩
  · subst h
    cases (show (Except.ok pl : Except Err Bytes) = .ok pl' from hb)
    exact ⟨_, .refl _, rfl⟩

/-- an IPv4 packet begins with nibble 4 -/
theorem ipv4_nibble {dd : Bool} {d : Bytes} {p : Pkt} (h : Pkt.fromBytes (.ipv4 dd) d = .ok p) :
    firstNibble d = some 4 := by
  obtain ⟨h0, pl, q0, hw, _, _⟩ := (ipv4_accepted_iff dd d p).mp h
  obtain ⟨hr, _, ihl, total, c, a1, a2, a3, a4, a5, a6, a7, a8, a9⟩ := isIPv4_iff.mp hw
  refine firstNibble_read.mp ?_
  rw [a9, v4Bits]
  simp only [List.append_assoc]
  exact runOn_iff.mpr ⟨_, readUint_app (by decide) _⟩

theorem ipv6_nibble {dd : Bool} {d : Bytes} {p : Pkt} (h : Pkt.fromBytes (.ipv6 dd) d = .ok p) :
    firstNibble d = some 6 := by
  obtain ⟨h0, pl, q0, hw, _, _⟩ := (ipv6_accepted_iff dd d p).mp h
  obtain ⟨_, _, hb⟩ := isIPv6_iff.mp hw
  refine firstNibble_read.mp ?_
  rw [hb, v6Bits]
  simp only [List.append_assoc]
  exact runOn_iff.mpr ⟨_, readUint_app (by decide) _⟩

theorem stable_version {dd : Bool} {pl pl' : Bytes} {q : Pkt} (ih : StableAt q)
    (h : versionPayloadParsed dd pl q) (hb : q.toBytes = .ok pl') :
    ∃ q', SamePacket q q' ∧ versionPayloadParsed dd pl' q' := by
  unfold versionPayloadParsed at h
  split at h
  · obtain ⟨q', h1, h2⟩ := ih _ pl pl' h hb
    refine ⟨q', h1, ?_⟩
    unfold versionPayloadParsed
    rw [ipv4_nibble h2]
    exact h2
  · obtain ⟨q', h1, h2⟩ := ih _ pl pl' h hb
    refine ⟨q', h1, ?_⟩
    unfold versionPayloadParsed
    rw [ipv6_nibble h2]
    exact h2
  · rename_i h4 h6
    subst h
    cases (show (Except.ok pl : Except Err Bytes) = .ok pl' from hb)
    refine ⟨_, .refl _, ?_⟩
    unfold versionPayloadParsed
    split
    · rename_i e; exact absurd e h4
    · rename_i e; exact absurd e h6
    · rfl

theorem stable_ctrl {m : Ctrl} {d d' : Bytes} (h : ctrlParsedAs d m) (hd : (Pkt.ctrl m).toBytes = .ok d') :
    ∃ m', SameCtrl m m' ∧ ctrlParsedAs d' m' := by
  cases m with
  | request m =>
    obtain ⟨ns, ⟨h1, h2⟩, h3⟩ := map_request_stable d d' m h (by simpa [Pkt.toBytes, Ctrl.toBytes] using hd)
    exact ⟨_, .request m ns h1 h2, h3⟩
  | reply m => exact ⟨_, .same _, map_reply_stable d d' m h (by simpa [Pkt.toBytes, Ctrl.toBytes] using hd)⟩
  | register m => exact ⟨_, .same _, map_register_stable d d' m h (by simpa [Pkt.toBytes, Ctrl.toBytes] using hd)⟩
  | notify m => exact ⟨_, .same _, map_notify_stable d d' m h (by simpa [Pkt.toBytes, Ctrl.toBytes] using hd)⟩
  | referral m => exact ⟨_, .same _, map_referral_stable d d' m h (by simpa [Pkt.toBytes, Ctrl.toBytes] using hd)⟩
  | info m => exact ⟨_, .same _, info_stable d d' m h (by simpa [Pkt.toBytes, Ctrl.toBytes] using hd)⟩

theorem stable_ipv4 {h : V4Hdr} {q : Pkt} (ho : h.options = []) (ih : StableAt q) : StableAt (.ipv4 h q) := by
  intro k d d' hd hd'
  have hc := parsed_class hd
  cases k <;> first | (cases hc; done) | skip
  rename_i dd
  obtain ⟨h0, pl, q0, hw, hq, he⟩ := (ipv4_accepted_iff dd d _).mp hd
  cases he
  obtain ⟨pl', b1, b2⟩ := ipv4_written ho hd'
  rw [payloadParsed_fix hq hw.nextHeader.1] at b2
  obtain ⟨q', s1, s2⟩ := stable_payload ih hq b1
  exact ⟨_, .ipv4 h s1, (ipv4_accepted_iff dd d' _).mpr ⟨h, pl', q', b2, s2, rfl⟩⟩

theorem stable_ipv6 {h : V6Hdr} {q : Pkt} (ih : StableAt q) : StableAt (.ipv6 h q) := by
  intro k d d' hd hd'
  have hc := parsed_class hd
  cases k <;> first | (cases hc; done) | skip
  rename_i dd
  obtain ⟨h0, pl, q0, hw, hq, he⟩ := (ipv6_accepted_iff dd d _).mp hd
  cases he
  obtain ⟨pl', b1, b2⟩ := ipv6_written hd'
  rw [payloadParsed_fix hq hw.nextHeader.1] at b2
  obtain ⟨q', s1, s2⟩ := stable_payload ih hq b1
  exact ⟨_, .ipv6 h s1, (ipv6_accepted_iff dd d' _).mpr ⟨h, pl', q', b2, s2, rfl⟩⟩

theorem stable_udp {h : UdpHdr} {q : Pkt} (ih : StableAt q) : StableAt (.udp h q) := by
  intro k d d' hd hd'
  have hc := parsed_class hd
  cases k <;> first | (cases hc; done) | skip
  obtain ⟨h0, pl, q0, hw, hq, he⟩ := (udp_accepted_iff d _).mp hd
  cases he
  obtain ⟨pl', b1, b2⟩ := udp_written_iff.mp hd'
  have : ∃ q', SamePacket q q' ∧ udpPayloadParsed h pl' q' := by
    unfold udpPayloadParsed at hq ⊢
    split at hq
    · rename_i hp
      obtain ⟨q', s1, s2⟩ := ih _ _ _ hq b1
      exact ⟨q', s1, by rw [if_pos hp]; exact s2⟩
    · rename_i hp
      split at hq
      · rename_i hp'
        obtain ⟨q', s1, s2⟩ := ih _ _ _ hq b1
        exact ⟨q', s1, by rw [if_neg hp, if_pos hp']; exact s2⟩
      · rename_i hp'
        subst hq
        cases (show (Except.ok pl : Except Err Bytes) = .ok pl' from b1)
        exact ⟨_, .refl _, by rw [if_neg hp, if_neg hp']⟩
  obtain ⟨q', s1, s2⟩ := this
  exact ⟨_, .udp h s1, (udp_accepted_iff d' _).mpr ⟨h, pl', q', b2, s2, rfl⟩⟩

/-- hop-by-hop and destination options -/
theorem stable_opts {k : Kind} {mk : Int → Bytes → Pkt → Pkt} {d d' : Bytes} {nh : Int} {o : Bytes} {q : Pkt}
    (hk : ∀ d p, Pkt.fromBytes k d = .ok p ↔ decOpts dec mk (bytesToBits d) = .ok p)
    (hb : ∀ nh o q, (mk nh o q).toBytes = (encOpts nh o >>= fun b => q.toBytes >>= fun pb => withPayload b pb))
    (hs : ∀ nh o {q q'}, SamePacket q q' → SamePacket (mk nh o q) (mk nh o q'))
    (hmk : ∀ nh o q nh' o' q', mk nh o q = mk nh' o' q' → nh = nh' ∧ o = o' ∧ q = q')
    (ih : StableAt q) (hd : Pkt.fromBytes k d = .ok (mk nh o q)) (hd' : (mk nh o q).toBytes = .ok d') :
    ∃ p', SamePacket (mk nh o q) p' ∧ Pkt.fromBytes k d' = .ok p' := by
  obtain ⟨nh1, len, o1, pl, q1, a1, a2, a3, a4, a5, he⟩ := readOpts_parsed ((hk _ _).mp hd)
  obtain ⟨rfl, rfl, rfl⟩ := hmk _ _ _ _ _ _ he
  rw [hb] at hd'
  obtain ⟨_, _, h2⟩ := exBind_ok.mp hd'
  obtain ⟨pl', b1, _⟩ := exBind_ok.mp h2
  obtain ⟨q', s1, s2⟩ := stable_payload ih a5 b1
  obtain ⟨d2, c1, c2⟩ := opts_toBytes (pl' := pl') a1 a2 a3
  rw [b1] at hd'
  cases c1.symm.trans hd'
  exact ⟨_, hs _ _ s1, (hk _ _).mpr (readOpts_parse a1 a2 a3 c2 s2)⟩

theorem stable_routing {nh rt sl : Int} {o : Bytes} {q : Pkt} (ih : StableAt q) :
    StableAt (.routing nh rt sl o q) := by
  intro k d d' hd hd'
  have hc := parsed_class hd
  cases k <;> first | (cases hc; done) | skip
  have hk : ∀ d p, Pkt.fromBytes .routing d = .ok p ↔ decRouting dec (bytesToBits d) = .ok p := by
    intro d p
    rw [Pkt.fromBytes, dec_eq]; rfl
  have hd0 := (hk _ _).mp hd
  unfold decRouting at hd0
  obtain ⟨⟨⟨nh, rt, sl, o, pl⟩, rest⟩, hr, hd0⟩ := exBind_ok.mp hd0
  obtain ⟨q, hq, hd0⟩ := exBind_ok.mp hd0
  cases hd0
  obtain ⟨a1, ar, as, _, len, a2, a3, a4⟩ := readRouting_inv hr
  have a5 : payloadParsed true (nh : Int) pl q := payloadParsed_iff.mpr (by simpa using hq)
  unfold Pkt.toBytes at hd'
  obtain ⟨_, _, h2⟩ := exBind_ok.mp hd'
  obtain ⟨pl', b1, _⟩ := exBind_ok.mp h2
  obtain ⟨q', s1, s2⟩ := stable_payload ih a5 b1
  obtain ⟨d2, c1, c2⟩ := routing_toBytes (pl' := pl') a1 ar as a2 a3
  rw [b1] at hd'
  cases c1.symm.trans hd'
  refine ⟨_, .routing _ _ _ _ s1, ?_⟩
  rw [hk]
  unfold decRouting
  rw [c2, readRouting_app a1 a2 ar as a3, exBind_okl]
  have := payloadParsed_iff.mp s2
  rw [Int.toNat_natCast] at this
  show (decPayload dec true nh pl' >>= fun p => pure (Pkt.routing nh rt sl o p)) = _
  rw [this, exBind_okl]
  rfl

/-- the header of a parsed data packet has no echo-nonce flag without a nonce -/
theorem lispHeader_echo (f n1 n2 n3 w4 w5 w6 w7 : Byte) :
    ({ lispHeader f n1 n2 n3 w4 w5 w6 w7 with
        echoNonce := (lispHeader f n1 n2 n3 w4 w5 w6 w7).echoNonce &&
          (lispHeader f n1 n2 n3 w4 w5 w6 w7).nonce.isSome } : DataHdr) = lispHeader f n1 n2 n3 w4 w5 w6 w7 := by
  simp only [lispHeader]
  cases f.toNat.testBit 7 <;> simp

theorem stable_data {h : DataHdr} {q : Pkt} (ih : StableAt q) : StableAt (.data h q) := by
  intro k d d' hd hd'
  have hc := parsed_class hd
  cases k <;> first | (cases hc; done) | skip
  rename_i dd
  obtain ⟨f, n1, n2, n3, w4, w5, w6, w7, pl, q0, rfl, hq, he⟩ := (data_accepted_iff dd d _).mp hd
  cases he
  obtain ⟨f', m1, m2, m3, v4, v5, v6, v7, pl', rfl, b1, _, b3⟩ := data_written hd'
  rw [lispHeader_echo] at b3
  obtain ⟨q', s1, s2⟩ := stable_version ih hq b1
  refine ⟨_, .data _ s1, (data_accepted_iff dd _ _).mpr ⟨f', m1, m2, m3, v4, v5, v6, v7, pl', q', rfl, s2, ?_⟩⟩
  rw [b3]

theorem stable_ecm {h : EcmHdr} {q : Pkt} (ih : StableAt q) : StableAt (.ecm h q) := by
  intro k d d' hd hd'
  have hc := parsed_class hd
  cases k <;> first | (cases hc; done) | skip
  obtain ⟨a1, a2, a3, pl, hq, hb⟩ := ecm_accepted_iff.mp hd
  obtain ⟨_, pl', b1, b2⟩ := ecm_written_iff.mp hd'
  obtain ⟨q', s1, s2⟩ := stable_version ih hq b1
  exact ⟨_, .ecm h s1, ecm_accepted_iff.mpr ⟨a1, a2, a3, pl', s2, b2⟩⟩

/-- C34: a packet of any class and nesting that was accepted - IP packets with LISP messages inside, LISP data
packets, encapsulated control messages, control messages - and is written again, without IPv4 options anywhere in
it, is accepted again and is the same packet, except that the EIDs of a Map-Request come back as the networks they
denote. -/
theorem packet_stable (k : Kind) (d d' : Bytes) (p : Pkt) (h : Pkt.fromBytes k d = .ok p) (ho : NoOptions p)
    (hd : p.toBytes = .ok d') : ∃ p', SamePacket p p' ∧ Pkt.fromBytes k d' = .ok p' := by
  suffices hs : StableAt p from hs k d d' h hd
  clear h hd k d d'
  induction p with
  | ipv4 h q ih => cases ho with | ipv4 _ _ ho hp => exact stable_ipv4 ho (ih hp)
  | ipv6 h q ih => cases ho with | ipv6 _ _ hp => exact stable_ipv6 (ih hp)
  | udp h q ih => cases ho with | udp _ _ hp => exact stable_udp (ih hp)
  | hbh nh o q ih =>
    cases ho with
    | hbh _ _ _ hp =>
      intro k d d' hd hd'
      have hc := parsed_class hd
      cases k <;> first | (cases hc; done) | skip
      refine stable_opts (mk := .hbh) ?_ ?_ ?_ ?_ (ih hp) hd hd'
      · intro d p; rw [Pkt.fromBytes, dec_eq]; rfl
      · intro nh o q; rfl
      · intro nh o q q' h; exact .hbh nh o h
      · intro _ _ _ _ _ _ h; cases h; exact ⟨rfl, rfl, rfl⟩
  | dest nh o q ih =>
    cases ho with
    | dest _ _ _ hp =>
      intro k d d' hd hd'
      have hc := parsed_class hd
      cases k <;> first | (cases hc; done) | skip
      refine stable_opts (mk := .dest) ?_ ?_ ?_ ?_ (ih hp) hd hd'
      · intro d p; rw [Pkt.fromBytes, dec_eq]; rfl
      · intro nh o q; rfl
      · intro nh o q q' h; exact .dest nh o h
      · intro _ _ _ _ _ _ h; cases h; exact ⟨rfl, rfl, rfl⟩
  | routing nh rt sl o q ih => cases ho with | routing _ _ _ _ _ hp => exact stable_routing (ih hp)
  | fragment nh off mf i q ih =>
    intro k d d' hd hd'
    have hc := parsed_class hd
    cases k <;> first | (cases hc; done) | skip
    obtain ⟨d2, c1, _, c3, _⟩ := rewritten_fragment hd
    cases c1.symm.trans hd'
    exact ⟨_, .refl _, c3⟩
  | nonext q ih =>
    intro k d d' hd hd'
    have hc := parsed_class hd
    have h := fromBytes_kind hd
    cases k <;> first | (cases hc; done) | skip
    cases h
    cases (show (Except.ok d : Except Err Bytes) = .ok d' from by simpa [Pkt.toBytes] using hd')
    exact ⟨_, .refl _, hd⟩
  | raw b =>
    intro k d d' hd hd'
    have hc := parsed_class hd
    cases k <;> (cases hc; done)
  | data h q ih => cases ho with | data _ _ hp => exact stable_data (ih hp)
  | ecm h q ih => cases ho with | ecm _ _ hp => exact stable_ecm (ih hp)
  | ctrl m =>
    intro k d d' hd hd'
    have hc := parsed_class hd
    cases k <;> first | (cases hc; done) | skip
    obtain ⟨m', s1, s2⟩ := stable_ctrl (control_dispatch_iff.mp hd).2 hd'
    exact ⟨_, .ctrl s1, control_dispatch_iff.mpr ⟨firstNibble_read.mp (ctrl_first_nibble s2), s2⟩⟩

/-- IP packets, LISP data packets and encapsulated control messages, nested as they like, without IPv4 options and
without any other control message -/
inductive NoControl : Pkt → Prop
  | raw (b) : NoControl (.raw b)
  | ipv4 (h p) (ho : h.options = []) (hp : NoControl p) : NoControl (.ipv4 h p)
  | ipv6 (h p) (hp : NoControl p) : NoControl (.ipv6 h p)
  | hbh (nh o p) (hp : NoControl p) : NoControl (.hbh nh o p)
  | dest (nh o p) (hp : NoControl p) : NoControl (.dest nh o p)
  | routing (nh rt sl o p) (hp : NoControl p) : NoControl (.routing nh rt sl o p)
  | fragment (nh off mf i p) (hp : NoControl p) : NoControl (.fragment nh off mf i p)
  | nonext (p) (hp : NoControl p) : NoControl (.nonext p)
  | udp (h p) (hp : NoControl p) : NoControl (.udp h p)
  | data (h p) (hp : NoControl p) : NoControl (.data h p)
  | ecm (h p) (hp : NoControl p) : NoControl (.ecm h p)

theorem rewritten_udp' {h : UdpHdr} {q : Pkt} {d : Bytes}
    (ih : ∀ k d, Pkt.fromBytes k d = .ok q → ∃ d', Rewritten k q d d')
    (hd : Pkt.fromBytes .udp d = .ok (.udp h q)) : ∃ d', Rewritten .udp (.udp h q) d d' := by
  obtain ⟨h0, pl, q0, hw, hq, he⟩ := (udp_accepted_iff d _).mp hd
  cases he
  have : ∃ pl', q.toBytes = .ok pl' ∧ pl'.length = pl.length ∧ udpPayloadParsed h pl' q ∧
      (NoFragment q → pl' = pl) := by
    unfold udpPayloadParsed at hq ⊢
    split at hq
    · rename_i hp
      obtain ⟨d', h1, h2, h3, h4⟩ := ih _ _ hq
      exact ⟨d', h1, h2, by rw [if_pos hp]; exact h3, h4⟩
    · rename_i hp
      split at hq
      · rename_i hp'
        obtain ⟨d', h1, h2, h3, h4⟩ := ih _ _ hq
        exact ⟨d', h1, h2, by rw [if_neg hp, if_pos hp']; exact h3, h4⟩
      · rename_i hp'
        subst hq
        exact ⟨pl, rfl, rfl, by rw [if_neg hp, if_neg hp'], fun _ => rfl⟩
  obtain ⟨pl', b1, b2, b3, b4⟩ := this
  have hl := hw.length
  rw [hw.layout] at hl
  have hw' : IsUDP (rfc768 h pl') h pl' := by
    refine ⟨rfl, ?_, hw.sport, hw.dport, hw.cksum⟩
    simp only [rfc768, List.length_append, b2] at hl ⊢
    exact hl
  refine ⟨rfc768 h pl', udp_written_iff.mpr ⟨pl', b1, hw'⟩, ?_,
    (udp_accepted_iff _ _).mpr ⟨h, pl', q, hw', b3, rfl⟩, ?_⟩
  · rw [hw.layout]
    simp only [rfc768, List.length_append, b2]
  · intro hn
    cases hn with
    | udp _ _ hn => rw [b4 hn, hw.layout]

theorem rewritten_version {dd : Bool} {pl : Bytes} {q : Pkt}
    (ih : ∀ k d, Pkt.fromBytes k d = .ok q → ∃ d', Rewritten k q d d') (h : versionPayloadParsed dd pl q) :
    ∃ pl', q.toBytes = .ok pl' ∧ pl'.length = pl.length ∧ versionPayloadParsed dd pl' q := by
  unfold versionPayloadParsed at h
  split at h
  · obtain ⟨d', h1, h2, h3, _⟩ := ih _ _ h
    refine ⟨d', h1, h2, ?_⟩
    unfold versionPayloadParsed
    rw [ipv4_nibble h3]
    exact h3
  · obtain ⟨d', h1, h2, h3, _⟩ := ih _ _ h
    refine ⟨d', h1, h2, ?_⟩
    unfold versionPayloadParsed
    rw [ipv6_nibble h3]
    exact h3
  · rename_i h4 h6
    subst h
    refine ⟨pl, rfl, rfl, ?_⟩
    unfold versionPayloadParsed
    split
    · rename_i e; exact absurd e h4
    · rename_i e; exact absurd e h6
    · rfl

theorem rewritten_data {dd : Bool} {h : DataHdr} {q : Pkt} {d : Bytes}
    (ih : ∀ k d, Pkt.fromBytes k d = .ok q → ∃ d', Rewritten k q d d')
    (hd : Pkt.fromBytes (.data dd) d = .ok (.data h q)) : ∃ d', Rewritten (.data dd) (.data h q) d d' := by
  obtain ⟨f, n1, n2, n3, w4, w5, w6, w7, pl, q0, rfl, hq, he⟩ := (data_accepted_iff dd d _).mp hd
  cases he
  obtain ⟨pl', b1, b2, b3⟩ := rewritten_version ih hq
  have hr := representable_iff.mpr (DataHdr.sanitize_ok.mp (lispHeader_sanitize f n1 n2 n3 w4 w5 w6 w7)).1
  have hr : Representable (lispHeader f n1 n2 n3 w4 w5 w6 w7) := hr
  obtain ⟨d', hd'⟩ := data_writable_iff.mpr ⟨hr, pl', b1⟩
  obtain ⟨f', m1, m2, m3, v4, v5, v6, v7, pl2, rfl, c1, _, c3⟩ := data_written hd'
  cases b1.symm.trans c1
  rw [lispHeader_echo] at c3
  refine ⟨_, hd', ?_, (data_accepted_iff dd _ _).mpr ⟨f', m1, m2, m3, v4, v5, v6, v7, pl', q, rfl, b3, ?_⟩, ?_⟩
  · simp only [List.length_append, b2, List.length_cons]
  · rw [c3]
  · intro hn; cases hn

theorem rewritten_ecm {h : EcmHdr} {q : Pkt} {d : Bytes}
    (ih : ∀ k d, Pkt.fromBytes k d = .ok q → ∃ d', Rewritten k q d d')
    (hd : Pkt.fromBytes .control d = .ok (.ecm h q)) : ∃ d', Rewritten .control (.ecm h q) d d' := by
  obtain ⟨a1, a2, a3, pl, hq, hb⟩ := ecm_accepted_iff.mp hd
  obtain ⟨pl', b1, b2, b3⟩ := rewritten_version ih hq
  obtain ⟨x, hx, _⟩ := bitsToBytes_ok_of_length (k := 4 + pl'.length)
    (b := natToBits 4 8 ++ [false, h.ddtOriginated] ++ natToBits 26 h.reserved1.toNat ++ bytesToBits pl')
    (by simp; omega)
  have hx := bytesToBits_of_bitsToBytes hx
  refine ⟨x, ecm_written_iff.mpr ⟨a1, pl', b1, hx⟩, ?_, ecm_accepted_iff.mpr ⟨a1, a2, a3, pl', b3, hx⟩, ?_⟩
  · exact length_of_bits hb hx b2
  · intro hn; cases hn

/-- C34: every accepted packet without control messages and IPv4 options - also LISP data packets and encapsulated
control messages, nested as they like - can be written again, in as many bytes, and is then parsed as the same
packet. -/
theorem packet_rewritten (k : Kind) (d : Bytes) (p : Pkt) (h : Pkt.fromBytes k d = .ok p) (hp : NoControl p) :
    ∃ d', p.toBytes = .ok d' ∧ d'.length = d.length ∧ Pkt.fromBytes k d' = .ok p := by
  suffices hs : ∀ (k : Kind) (d : Bytes), Pkt.fromBytes k d = .ok p → ∃ d', Rewritten k p d d' by
    obtain ⟨d', h1, h2, h3, _⟩ := hs k d h
    exact ⟨d', h1, h2, h3⟩
  clear h k d
  induction p with
  | ipv4 h q ih =>
    intro k d hd
    cases hp with
    | ipv4 _ _ ho hp =>
      have hc := parsed_class hd
      cases k <;> first | (cases hc; done) | exact rewritten_ipv4 ho (ih hp) hd
  | ipv6 h q ih =>
    intro k d hd
    cases hp with
    | ipv6 _ _ hp =>
      have hc := parsed_class hd
      cases k <;> first | (cases hc; done) | exact rewritten_ipv6 (ih hp) hd
  | udp h q ih =>
    intro k d hd
    cases hp with
    | udp _ _ hp =>
      have hc := parsed_class hd
      cases k <;> first | (cases hc; done) | exact rewritten_udp' (ih hp) hd
  | hbh nh o q ih =>
    intro k d hd
    cases hp with
    | hbh _ _ _ hp =>
      have hc := parsed_class hd
      have h := fromBytes_kind hd
      cases k <;> first
        | (cases hc; done)
        | (obtain ⟨n, _, _, _, _, _, _, _, _, _, he⟩ := readOpts_parsed h
           cases he
           refine rewritten_hbh_dest (mk := .hbh) ?_ ?_ ?_ ?_ (ih hp) hd
           · intro d p; rw [Pkt.fromBytes, dec_eq]; rfl
           · intro nh o q; rfl
           · intro nh o q h; cases h with | hbh _ _ _ h => exact h
           · intro _ _ _ _ _ _ h; cases h; exact ⟨rfl, rfl, rfl⟩)
  | dest nh o q ih =>
    intro k d hd
    cases hp with
    | dest _ _ _ hp =>
      have hc := parsed_class hd
      have h := fromBytes_kind hd
      cases k <;> first
        | (cases hc; done)
        | (obtain ⟨n, _, _, _, _, _, _, _, _, _, he⟩ := readOpts_parsed h
           cases he
           refine rewritten_hbh_dest (mk := .dest) ?_ ?_ ?_ ?_ (ih hp) hd
           · intro d p; rw [Pkt.fromBytes, dec_eq]; rfl
           · intro nh o q; rfl
           · intro nh o q h; cases h with | dest _ _ _ h => exact h
           · intro _ _ _ _ _ _ h; cases h; exact ⟨rfl, rfl, rfl⟩)
  | routing nh rt sl o q ih =>
    intro k d hd
    cases hp with
    | routing _ _ _ _ _ hp =>
      have hc := parsed_class hd
      cases k <;> first
        | (cases hc; done)
        | exact rewritten_routing (fun _ _ _ _ _ he => by cases he; exact ih hp) hd
  | fragment nh off mf i q ih =>
    intro k d hd
    have hc := parsed_class hd
    cases k <;> first | (cases hc; done) | exact rewritten_fragment hd
  | nonext q ih =>
    intro k d hd
    have hc := parsed_class hd
    have h := fromBytes_kind hd
    cases k <;> first
      | (cases hc; done)
      | (cases h; exact ⟨d, by simp [Pkt.toBytes], rfl, hd, fun _ => rfl⟩)
  | raw b =>
    intro k d hd
    have hc := parsed_class hd
    cases k <;> (cases hc; done)
  | data h q ih =>
    intro k d hd
    cases hp with
    | data _ _ hp =>
      have hc := parsed_class hd
      cases k <;> first | (cases hc; done) | exact rewritten_data (ih hp) hd
  | ecm h q ih =>
    intro k d hd
    cases hp with
    | ecm _ _ hp =>
      have hc := parsed_class hd
      cases k <;> first | (cases hc; done) | exact rewritten_ecm (ih hp) hd
  | ctrl _ => cases hp

/-! ### Map-Requests that cannot be written -/

theorem toNetwork_err : ∀ (a : Addr), (¬ ∃ n, Denotes a n) →
    a.toNetwork = .error (if a.textRaises = true then .type else .value)
  | .ip i, h => absurd ⟨_, (denotes_iff _ _).mpr rfl⟩ h
  | .net n, h => absurd ⟨_, .net n⟩ h
  | .inst i a m, h => by
    by_cases hi : i = 0
    · subst hi
      have : ¬ ∃ n, Denotes a n := fun ⟨n, hn⟩ => h ⟨n, .inst a m n hn⟩
      show (if (0 : Int) = 0 then a.toNetwork else .error a.noNetwork) = _
      rw [if_pos rfl, toNetwork_err a this]
      rfl
    · show (if i = 0 then a.toNetwork else .error a.noNetwork) = _
      rw [if_neg hi]
      rfl
  | .none, _ => rfl
  | .null, _ => rfl
  | .afiList _, _ => rfl
  | .asn _ _, _ => rfl
  | .geo _ _ _ _ _ _ _ _ _ _, _ => rfl
  | .natT _ _ _ _ _ _, _ => rfl

theorem encAll_first_err {α : Type} {e : α → Except Err Bits} {x : Err} {a : α} {post : List α} :
    ∀ {pre : List α}, (∀ y ∈ pre, ∃ b, e y = .ok b) → e a = .error x → encAll e (pre ++ a :: post) = .error x
  | [], _, ha => by simp only [List.nil_append, encAll, ha]; rfl
  | y :: pre, hp, ha => by
    obtain ⟨b, hb⟩ := hp y (.head _)
    have := encAll_first_err (pre := pre) (post := post) (fun z hz => hp z (.tail _ hz)) ha
    simp only [List.cons_append, encAll, hb, this]
    rfl

/-- C34/C77: serialising an accepted Map-Request with an EID that denotes no network raises: TypeError when the
first such EID has no text, ValueError when it has. -/
theorem map_request_unwritable (d : Bytes) (m : MapRequest) (h : MapRequest.fromBytes d = .ok m) (pre post : List Addr)
    (a : Addr) (he : m.eidPrefixes = pre ++ a :: post) (hp : ∀ x ∈ pre, ∃ n, Denotes x n) (ha : ¬ ∃ n, Denotes a n) :
    (Unprintable a → m.toBytes = .error .type) ∧ (¬ Unprintable a → m.toBytes = .error .value) := by
  have herr := toNetwork_err a ha
  suffices hm : m.toBytes = .error (if a.textRaises = true then .type else .value) by
    rw [unprintable_iff, hm]
    exact ⟨(fun ht => by rw [if_pos ht]), (fun ht => by rw [if_neg ht])⟩
  obtain ⟨x, j, hl, rfl⟩ := (map_request_language d m).mp h
  -- with another EID it can be written
  have hw : ∃ d', ({ m with eidPrefixes := [.net exNet] } : MapRequest).toBytes = .ok d' := by
    rw [map_request_writable_iff]
    cases hl with
    | @mk itrs src eids rec h1 h2 h3 h4 h5 h6 h7 h8 h9 h10 =>
      obtain ⟨b, hb, _⟩ := isAddr_writable h2
      refine ⟨⟨by simp only [h4]; simpa using h5, by simp only [h4]; simpa using h6, ?_⟩,
        ⟨by simp, by simp, ?_⟩, h1, ⟨h3, b, hb⟩, ?_⟩
      · intro a ha
        simp only [h4] at ha
        obtain ⟨i, _, rfl⟩ := List.mem_map.mp ha
        exact ⟨i, rfl⟩
      · intro a ha
        cases List.mem_singleton.mp ha
        exact ⟨_, .net _⟩
      · intro r hr
        simp only at hr
        generalize m.mapReply = o at h10 hr
        cases h10 with
        | none => cases hr
        | some h => cases hr; exact isRecord_writable h
  have hs : m.sanitize = .ok m := by
    obtain ⟨t, ht⟩ := runOn_iff.mp h
    unfold readMapRequest at ht
    obtain ⟨m0, s1, _, h2⟩ := Rd.bind_ok.mp ht
    obtain ⟨h2, _⟩ := Rd.lift_ok_iff.mp h2
    exact MapRequest.sanitize_idem h2
  obtain ⟨w, hw⟩ := hw
  obtain ⟨m', h1, h2⟩ := encMapRequest_ok (toBytes_ok.mp hw)
  obtain ⟨_, _, _, _, _, _, r, _, rfl⟩ := MapRequest.sanitize_ok.mp h1
  obtain ⟨e1, _, b3, b4, _, _, e3, e4, _, _, _⟩ := encMapRequestRaw_ok h2
  obtain ⟨_, ⟨_, hn⟩, _⟩ := MapRequest.sanitize_ok.mp hs
  have e2 : ((m.eidPrefixes.length : Nat) : Int) < 2 ^ 8 := by omega
  have e5 : encAll encEidPrefix m.eidPrefixes = .error (if a.textRaises = true then .type else .value) := by
    rw [he]
    refine encAll_first_err (fun y hy => ?_) ?_
    · obtain ⟨n, hn⟩ := hp y hy
      have hpl : ((n.plen : Nat) : Int) < 2 ^ 8 := by
        have := n.plen_le
        have : n.ver.width ≤ 128 := by cases n.ver <;> decide
        omega
      unfold encEidPrefix
      rw [(denotes_iff _ _).mp hn, exBind_okl, encUint_eq_ok (Int.natCast_nonneg _) hpl, exBind_okl, exPure]
      exact ⟨_, rfl⟩
    · unfold encEidPrefix
      rw [herr]
      rfl
  unfold MapRequest.toBytes toBytes encMapRequest
  rw [hs, exBind_okl]
  unfold encMapRequestRaw
  rw [encUint_eq_ok e1.1 e1.2, exBind_okl, encUint_eq_ok (Int.natCast_nonneg _) e2, exBind_okl]
  simp only at e3 e4
  rw [e3, exBind_okl, e4, exBind_okl, e5]
  rfl

/-! ### The hypotheses are met -/

/-- an encapsulated Map-Request in an IPv4 packet -/
def exEncapsulated : Pkt :=
  .ecm { ddtOriginated := true } (.ipv4 { exHdr4 with nextHeader := 17 }
    (.udp { sport := 4342, dport := 4342, cksum := 0 } (.ctrl (.request exRequest))))

example : ∃ d, exEncapsulated.toBytes = .ok d ∧ Pkt.fromBytes .control d = .ok exEncapsulated ∧
    NoOptions exEncapsulated := by
  have h : isOk exEncapsulated.toBytes = true ∧
      (exEncapsulated.toBytes >>= fun d => Pkt.fromBytes .control d) = .ok exEncapsulated := by decide +kernel
  obtain ⟨d, hd⟩ := isOk_iff.mp h.1
  have h2 := h.2
  rw [hd, exBind_okl] at h2
  exact ⟨d, hd, h2, .ecm _ _ (.ipv4 _ _ rfl (.udp _ _ (.ctrl _)))⟩

/-- a Map-Request whose EID 192.0.2.0/24 comes in an LCAF with instance id 0 -/
def exWrapped : Bytes :=
  [0x10, 0, 0, 1, 1, 2, 3, 4, 5, 6, 7, 8, 0, 0, 0, 1, 1, 2, 3, 4,
   0, 24, 0x40, 3, 0, 0, 2, 32, 0, 10, 0, 0, 0, 0, 0, 1, 192, 0, 2, 0]

/-- what it is parsed as, with the given EID -/
def exWithEid (a : Addr) : Pkt :=
  .ctrl (.request { nonce := [1, 2, 3, 4, 5, 6, 7, 8], itrRlocs := [.ip (.v4 0x01020304)], eidPrefixes := [a] })

-- it comes back with the plain network
example : Pkt.fromBytes .control exWrapped = .ok (exWithEid (.inst 0 (.net exNet) 32)) ∧
    ((exWithEid (.inst 0 (.net exNet) 32)).toBytes >>= fun d => Pkt.fromBytes .control d) =
      .ok (exWithEid (.net exNet)) := by decide +kernel

/-- a Map-Request for an AFI list with 192.0.2.0/24 in it -/
def exListed : Bytes :=
  [0x10, 0, 0, 1, 1, 2, 3, 4, 5, 6, 7, 8, 0, 0, 0, 1, 1, 2, 3, 4,
   0, 24, 0x40, 3, 0, 0, 1, 0, 0, 6, 0, 1, 192, 0, 2, 0]

-- it is accepted, and cannot be written
example : Pkt.fromBytes .control exListed = .ok (exWithEid (.afiList [.net exNet])) ∧
    (exWithEid (.afiList [.net exNet])).toBytes = .error .type := by decide +kernel

/-- LISP data with an IPv6 packet inside, in UDP -/
def exTunnelled : Pkt :=
  .udp { sport := 61000, dport := 4341, cksum := 0 }
    (.data { nonce := some [1, 2, 3] } (.ipv6 { exHdr6 with nextHeader := 99 } (.raw [7, 7])))

example : ∃ d, Pkt.fromBytes .udp d = .ok exTunnelled ∧ NoControl exTunnelled := by
  have h : (exTunnelled.toBytes >>= fun d => Pkt.fromBytes .udp d) = .ok exTunnelled := by decide +kernel
  obtain ⟨d, _, hd⟩ := exBind_ok.mp h
  exact ⟨d, hd, .udp _ _ (.data _ _ (.ipv6 _ _ (.raw _)))⟩

end PyLisp.Props
