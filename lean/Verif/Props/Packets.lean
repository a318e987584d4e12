import Verif.PktRound
import Verif.Props.Checksum
import Verif.Props.Control
/-
Properties C07 (packets), C08–C18, C31, C32: the packet classes.
-/
namespace PyLisp.Props
open PyLisp

attribute [local irreducible] natToBits readUint readBits readBool readBytes readInt zeros readIP

/-! ### What a receiver gets

`Arrives slot p p'` says how the packet `p`, serialised by the sender, comes out of the parser at the
other side when it sits in a given `Slot`.  It is a specification: it does not mention the parsers
(except that a control message is described by properties C25–C30). -/

/-- how the payload of an enclosing header is identified -/
inductive Slot
  | proto (nextHeader : Int)     -- behind an IP or extension header with this next-header number
  | ports (source dest : Int)    -- inside a UDP message with these ports
  | version                      -- inside a LISP data packet or encapsulated control message

/-- the protocol numbers the library has a parser for -/
def knownProtocol (nh : Int) : Prop :=
  nh = 0 ∨ nh = 4 ∨ nh = 17 ∨ nh = 41 ∨ nh = 43 ∨ nh = 44 ∨ nh = 59 ∨ nh = 60

/-- the first nibble of a byte string is 4 or 6 -/
def looksLikeIP : Bytes → Prop
  | [] => False
  | b :: _ => b.toNat / 16 = 4 ∨ b.toNat / 16 = 6

/-- a control message arrives as properties C25–C30 say: whatever it serialises to is read back as
`m'` by the parser of its own class -/
def CtrlArrives : Ctrl → Ctrl → Prop
  | .request m, .request m' => ∀ d, m.toBytes = .ok d → MapRequest.fromBytes d = .ok m'
  | .reply m, .reply m' => ∀ d, m.toBytes = .ok d → MapReply.fromBytes d = .ok m'
  | .register m, .register m' => ∀ d, m.toBytes = .ok d → MapRegister.fromBytes d = .ok m'
  | .notify m, .notify m' => ∀ d, m.toBytes = .ok d → MapNotify.fromBytes d = .ok m'
  | .referral m, .referral m' => ∀ d, m.toBytes = .ok d → MapReferral.fromBytes d = .ok m'
  | .info m, .info m' => ∀ d, m.toBytes = .ok d → Info.fromBytes d = .ok m'
  | _, _ => False

/-- zero padding of option or routing data so that `fixed + length` is a multiple of 8 -/
def pad8 (fixed : Nat) (o : Bytes) : Bytes :=
  o ++ List.replicate ((8 - (o.length + fixed) % 8) % 8) 0

inductive Arrives : Slot → Pkt → Pkt → Prop
  /-- behind a next header without a parser the bytes arrive -/
  | opaqueProto {nh : Int} {p : Pkt} {b : Bytes} (hp : p.headerType = none)
      (hn : ¬ knownProtocol nh) (hb : p.toBytes = .ok b) : Arrives (.proto nh) p (.raw b)
  /-- behind other ports than the LISP ones the bytes arrive -/
  | opaquePorts {s d : Int} {p : Pkt} {b : Bytes} (h1 : s ≠ 4341 ∧ d ≠ 4341)
      (h2 : s ≠ 4342 ∧ d ≠ 4342) (hb : p.toBytes = .ok b) : Arrives (.ports s d) p (.raw b)
  /-- what does not look like an IP packet arrives as bytes -/
  | opaqueVersion {p : Pkt} {b : Bytes} (hb : p.toBytes = .ok b) (hn : ¬ looksLikeIP b) :
      Arrives .version p (.raw b)
  /-- an IPv4 packet without options arrives as it is, except that its protocol number is the one of
  its payload -/
  | ipv4 {slot : Slot} {h : V4Hdr} {p p' : Pkt} {nh : Int} (hs : slot = .proto 4 ∨ slot = .version)
      (ho : h.options = []) (h1 : ∀ t, p.headerType = some t → nh = t)
      (h2 : p.headerType = none → nh = h.nextHeader) (hp : Arrives (.proto nh) p p') :
      Arrives slot (.ipv4 h p) (.ipv4 { h with nextHeader := nh } p')
  /-- the same for IPv6 -/
  | ipv6 {slot : Slot} {h : V6Hdr} {p p' : Pkt} {nh : Int} (hs : slot = .proto 41 ∨ slot = .version)
      (h1 : ∀ t, p.headerType = some t → nh = t)
      (h2 : p.headerType = none → nh = h.nextHeader) (hp : Arrives (.proto nh) p p') :
      Arrives slot (.ipv6 h p) (.ipv6 { h with nextHeader := nh } p')
  /-- options arrive zero padded -/
  | hbh {nh : Int} {o : Bytes} {p p' : Pkt} (hp : Arrives (.proto nh) p p') :
      Arrives (.proto 0) (.hbh nh o p) (.hbh nh (pad8 2 o) p')
  | dest {nh : Int} {o : Bytes} {p p' : Pkt} (hp : Arrives (.proto nh) p p') :
      Arrives (.proto 60) (.dest nh o p) (.dest nh (pad8 2 o) p')
  | routing {nh rt sl : Int} {o : Bytes} {p p' : Pkt} (hp : Arrives (.proto nh) p p') :
      Arrives (.proto 43) (.routing nh rt sl o p) (.routing nh rt sl (pad8 4 o) p')
  /-- the payload of a fragment, and what follows a no-next-header, arrives as bytes -/
  | fragment {nh off ident : Int} {mf : Bool} {p : Pkt} {b : Bytes} (hb : p.toBytes = .ok b) :
      Arrives (.proto 44) (.fragment nh off mf ident p) (.fragment nh off mf ident (.raw b))
  | nonext {p : Pkt} {b : Bytes} (hb : p.toBytes = .ok b) :
      Arrives (.proto 59) (.nonext p) (.nonext (.raw b))
  | udp {h : UdpHdr} {p p' : Pkt} (hp : Arrives (.ports h.sport h.dport) p p') :
      Arrives (.proto 17) (.udp h p) (.udp h p')
  /-- LISP data on port 4341; the echo-nonce flag is dropped when there is no nonce -/
  | data {s d : Int} {h : DataHdr} {p p' : Pkt} (hs : s = 4341 ∨ d = 4341)
      (hp : Arrives .version p p') :
      Arrives (.ports s d) (.data h p) (.data { h with echoNonce := h.echoNonce && h.nonce.isSome } p')
  /-- LISP control messages on port 4342 -/
  | ctrl {s d : Int} {m m' : Ctrl} (h1 : s ≠ 4341 ∧ d ≠ 4341) (h2 : s = 4342 ∨ d = 4342)
      (hm : CtrlArrives m m') : Arrives (.ports s d) (.ctrl m) (.ctrl m')
  /-- the two RTR flags of an encapsulated control message are not transmitted -/
  | ecm {s d : Int} {h : EcmHdr} {p p' : Pkt} (h1 : s ≠ 4341 ∧ d ≠ 4341) (h2 : s = 4342 ∨ d = 4342)
      (hp : Arrives .version p p') :
      Arrives (.ports s d) (.ecm h p) (.ecm { h with forRtr := false, relayedByRtr := false } p')

/-! ### Proof of the round trip -/

/-- the parser used for a slot -/
def Slot.parse : Slot → Bytes → Except Err Pkt
  | .proto nh, b => decPayload dec true nh.toNat b
  | .ports s d, b => decUdpPayload dec { sport := s, dport := d } b
  | .version, b => decByVersion dec true (bytesToBits b)

theorem protoKind_none {nh : Int} (h0 : 0 ≤ nh) (h : ¬ knownProtocol nh) :
    protoKind nh.toNat = none := by
  unfold knownProtocol at h
  unfold protoKind
  repeat rw [if_neg (by omega)]

/-- a payload arrives with the same protocol number -/
theorem Arrives.headerType_eq {nh : Int} {p p' : Pkt} (h : Arrives (.proto nh) p p') :
    p'.headerType = p.headerType := by
  cases h with
  | opaqueProto hp => rw [hp]; rfl
  | _ => rfl

/-- the number in front of a protocol payload is its own -/
theorem Arrives.nh_eq {nh : Int} {p p' : Pkt} (h : Arrives (.proto nh) p p') :
    fixNextHeader p nh = nh ∧ fixNextHeader p' nh = nh := by
  have h' := h.headerType_eq
  have : fixNextHeader p nh = nh := by
    cases h with
    | opaqueProto hp => simp [fixNextHeader, hp]
    | ipv4 hs => rcases hs with hs | hs <;> cases hs; rfl
    | ipv6 hs => rcases hs with hs | hs <;> cases hs; rfl
    | _ => rfl
  exact ⟨this, by rw [← this]; unfold fixNextHeader; rw [h']; cases p.headerType <;> rfl⟩

theorem fixNextHeader_eq {p : Pkt} {nh x : Int} (h1 : ∀ t, p.headerType = some t → nh = t)
    (h2 : p.headerType = none → nh = x) : fixNextHeader p x = nh := by
  unfold fixNextHeader
  cases h : p.headerType with
  | none => exact (h2 h).symm
  | some t => exact (h1 t h).symm

theorem decByVersion_of {s : Bits} {v : Nat} (hv : v < 2 ^ 4) (s' : Bits) (hs : s = natToBits 4 v ++ s')
    (f : Kind → Bits → Except Err Pkt) (dd : Bool) :
    decByVersion f dd s = if v = 4 then f (.ipv4 dd) s else if v = 6 then f (.ipv6 dd) s else
      (bitsToBytes s >>= fun b => .ok (.raw b)) := by
  have hne : s ≠ [] := by
    intro h; have := congrArg List.length (hs ▸ h); simp at this
  have hr : runOn (readUint 4) s = .ok v := by
    rw [hs]; exact runOn_iff.mpr ⟨_, readUint_app hv _⟩
  unfold decByVersion
  rw [if_neg hne, hr]
  rfl

theorem first_nibble (b : Byte) (t : Bytes) :
    ∃ s', bytesToBits (b :: t) = natToBits 4 (b.toNat / 16) ++ s' := by
  have : natToBits 8 b.toNat = natToBits 4 (b.toNat / 16) ++ natToBits 4 b.toNat := by
    have := natToBits_append 4 4 b.toNat
    simpa using this
  exact ⟨natToBits 4 b.toNat ++ bytesToBits t, by
    rw [← List.append_assoc, ← this]; simp [bytesToBits]⟩

theorem decV4_of {d pb : Bytes} {h : V4Hdr} {c : Nat} {p p' : Pkt} {nh : Int}
    (dd : Bool) (hs : (h.sanitize p).isOk = true)
    (hf : fixNextHeader p' nh = nh) (ho : h.options = [])
    (hr : V4Ranges { h with nextHeader := nh }) (hl : 20 + pb.length < 2 ^ 16) (hc : c < 2 ^ 16)
    (hck : headerCksum (v4Bits { h with nextHeader := nh } 5 (20 + pb.length) 0) = .ok c)
    (hd : bytesToBits d = v4Bits { h with nextHeader := nh } 5 (20 + pb.length) c ++ bytesToBits pb)
    (hrec : decPayload dec dd nh.toNat pb = .ok p') :
    dec (.ipv4 dd) (bytesToBits d) = .ok (.ipv4 { h with nextHeader := nh } p') := by
  rw [dec_eq, hd]
  have h1 := readV4_app (t := []) hr (by omega) (by omega) hl hc (by omega : 5 * 4 ≤ 20 + pb.length)
    (by simp [ho]) (pl := pb) (by omega) hck
  rw [List.append_nil] at h1
  have h2 : V4Hdr.sanitize { h with nextHeader := nh } p' = .ok { h with nextHeader := nh } := by
    obtain ⟨h', hs⟩ : ∃ h', h.sanitize p = .ok h' := by
      cases hh : h.sanitize p with
      | ok h' => exact ⟨h', rfl⟩
      | error e => rw [hh] at hs; cases hs
    obtain ⟨a1, a2, a3, a4, a5, a6, a7, _⟩ := V4Hdr.sanitize_ok.mp hs
    exact V4Hdr.sanitize_ok.mpr ⟨a1, a2, a3, a4, a5, a6, a7, by simp [hf]⟩
  simp only [decStep, decV4, h1, exBind_okl, hrec, noneLeft, if_true, h2, exPure]

theorem decV6_of {d pb : Bytes} {h : V6Hdr} {p p' : Pkt} {nh : Int}
    (dd : Bool) (hs : (h.sanitize p).isOk = true) (hf : fixNextHeader p' nh = nh)
    (hr : V6Ranges { h with nextHeader := nh }) (hl : pb.length < 2 ^ 16)
    (hd : bytesToBits d = v6Bits { h with nextHeader := nh } pb.length ++ bytesToBits pb)
    (hrec : decPayload dec dd nh.toNat pb = .ok p') :
    dec (.ipv6 dd) (bytesToBits d) = .ok (.ipv6 { h with nextHeader := nh } p') := by
  rw [dec_eq, hd]
  have h1 := readV6_app (t := []) hr hl
  rw [List.append_nil] at h1
  have h2 : V6Hdr.sanitize { h with nextHeader := nh } p' = .ok { h with nextHeader := nh } := by
    obtain ⟨h', hs⟩ : ∃ h', h.sanitize p = .ok h' := by
      cases hh : h.sanitize p with
      | ok h' => exact ⟨h', rfl⟩
      | error e => rw [hh] at hs; cases hs
    obtain ⟨a1, a2, a3, a4, a5, _⟩ := V6Hdr.sanitize_ok.mp hs
    exact V6Hdr.sanitize_ok.mpr ⟨a1, a2, a3, a4, a5, by simp [hf]⟩
  simp only [decStep, decV6, h1, exBind_okl, hrec, noneLeft, if_true, h2, exPure]

theorem pad8_eq {o : Bytes} {fixed len pad : Nat} (hf : fixed ≤ 8) (h8 : pad < 8)
    (h : o.length + pad = (len + 1) * 8 - fixed) : padZero o pad = pad8 fixed o := by
  unfold padZero pad8
  congr 2
  omega

/-- the type nibble in front of a control message -/
theorem ctrl_nibble {r : Rd α} {n : Nat} {f : Unit → Rd α} {s : Bits} {a : α} (hn : n < 2 ^ 4)
    (hr : r = (expectType n >>= f)) (h : runOn r s = .ok a) : runOn (readUint 4) s = .ok n := by
  obtain ⟨rest, h⟩ := runOn_iff.mp h
  rw [hr] at h
  obtain ⟨_, s', h1, _⟩ := Rd.bind_ok.mp h
  rw [expectType_ok h1]
  exact runOn_iff.mpr ⟨_, readUint_app hn _⟩

theorem ctrl_nibble' {r r0 : Rd α} {g : α → Rd α} {n : Nat} {f : Unit → Rd α} {s : Bits} {a : α}
    (hn : n < 2 ^ 4) (hr : r = (r0 >>= g)) (h0 : r0 = (expectType n >>= f)) (h : runOn r s = .ok a) :
    runOn (readUint 4) s = .ok n := by
  obtain ⟨rest, h⟩ := runOn_iff.mp h
  rw [hr] at h
  obtain ⟨x, s', h1, _⟩ := Rd.bind_ok.mp h
  exact ctrl_nibble hn h0 (runOn_iff.mpr ⟨_, h1⟩)

/-- the parser of the control message's own class -/
def ctrlParsedAs (d : Bytes) : Ctrl → Prop
  | .request m => MapRequest.fromBytes d = .ok m
  | .reply m => MapReply.fromBytes d = .ok m
  | .register m => MapRegister.fromBytes d = .ok m
  | .notify m => MapNotify.fromBytes d = .ok m
  | .referral m => MapReferral.fromBytes d = .ok m
  | .info m => Info.fromBytes d = .ok m

/-- the RFC 6830 / DDT / NAT-traversal type number of a control message -/
def ctrlTypeNr : Ctrl → Nat
  | .request _ => 1
  | .reply _ => 2
  | .register _ => 3
  | .notify _ => 4
  | .referral _ => 6
  | .info _ => 7

theorem ctrl_first_nibble {m : Ctrl} {d : Bytes} (h : ctrlParsedAs d m) :
    runOn (readUint 4) (bytesToBits d) = .ok (ctrlTypeNr m) := by
  cases m with
  | request m => exact ctrl_nibble' (by simp [ctrlTypeNr]) rfl rfl h
  | reply m => exact ctrl_nibble' (by simp [ctrlTypeNr]) rfl rfl h
  | register m => exact ctrl_nibble' (by simp [ctrlTypeNr]) rfl rfl h
  | notify m => exact ctrl_nibble' (by simp [ctrlTypeNr]) rfl rfl h
  | referral m => exact ctrl_nibble' (by simp [ctrlTypeNr]) rfl rfl h
  | info m => exact ctrl_nibble' (by simp [ctrlTypeNr]) rfl rfl h

theorem decControl_of {m : Ctrl} {d : Bytes} (h : ctrlParsedAs d m)
    (f : Kind → Bits → Except Err Pkt) : decControl f (bytesToBits d) = .ok (.ctrl m) := by
  unfold decControl
  rw [ctrl_first_nibble h]
  cases m <;>
  · simp only [ctrlParsedAs, MapRequest.fromBytes, MapReply.fromBytes, MapRegister.fromBytes,
      MapNotify.fromBytes, MapReferral.fromBytes, Info.fromBytes] at h
    simp [ctrlTypeNr, h]

theorem decEcm_of {d : Bytes} {h : EcmHdr} {pb : Bytes} {p' : Pkt} (hs : h.security = false)
    (hd : bytesToBits d = encEcmRaw h ++ bytesToBits pb)
    (hrec : decByVersion dec true (bytesToBits pb) = .ok p') :
    dec .control (bytesToBits d) =
      .ok (.ecm { h with forRtr := false, relayedByRtr := false } p') := by
  have h1 : readEcmHdr (bytesToBits d) = .ok ({ h with forRtr := false, relayedByRtr := false },
      bytesToBits pb) := readEcmHdr_ok.mpr ⟨hs, rfl, rfl, hd⟩
  have h2 : runOn (readUint 4) (bytesToBits d) = .ok 8 := by
    rw [hd, encEcmRaw]
    simp only [List.append_assoc]
    exact runOn_iff.mpr ⟨_, readUint_app (by decide) _⟩
  have h3 : EcmHdr.sanitize { h with forRtr := false, relayedByRtr := false } = .ok () := by
    simp [EcmHdr.sanitize, hs]
  rw [dec_eq]
  simp only [decStep, decControl, h2, exBind_okl]
  simp [decEcm, h1, hrec, h3]

theorem arrives_parse {slot : Slot} {p p' : Pkt} (h : Arrives slot p p') :
    ∀ d, p.toBytes = .ok d → (∀ nh, slot = .proto nh → 0 ≤ nh) → slot.parse d = .ok p' := by
  induction h with
  | opaqueProto hp hn hb =>
    intro d hd h0
    rw [hb] at hd; cases hd
    simp [Slot.parse, decPayload, protoKind_none (h0 _ rfl) hn]
  | opaquePorts h1 h2 hb =>
    intro d hd _
    rw [hb] at hd; cases hd
    simp [Slot.parse, decUdpPayload, h1, h2]
  | opaqueVersion hb hn =>
    intro d hd _
    rw [hb] at hd; cases hd
    rename_i b _
    cases b with
    | nil => rfl
    | cons b t =>
      obtain ⟨s', hs'⟩ := first_nibble b t
      unfold looksLikeIP at hn
      show decByVersion dec true (bytesToBits _) = _
      rw [decByVersion_of (by have := b.isLt; omega) s' hs', if_neg (by omega), if_neg (by omega)]
      simp
  | @ipv4 slot h p p' nh hs ho h1 h2 hp ih =>
    intro d hd _
    simp only [Pkt.toBytes, exBind_ok] at hd
    obtain ⟨h', hsan, _, _, pb, hpb, henc⟩ := hd
    have hsan' := hsan
    obtain ⟨_, _, _, _, _, hsrc, hdst, rfl⟩ := V4Hdr.sanitize_ok.mp hsan
    rw [fixNextHeader_eq h1 h2] at henc
    obtain ⟨ihl, pad, c, e1, e2, _, e4, e5, e6, e7, e8⟩ := encV4_ok (h := { h with nextHeader := nh }) hsrc hdst henc
    simp only [ho, List.length_nil] at e1 e2
    have e1' : ihl = 5 := by omega
    have e2' : pad = 0 := by omega
    clear e1 e2
    subst e1' e2'
    simp only [padZero, List.replicate_zero, List.append_nil] at e6 e7 e8
    have hrec := ih pb hpb (fun nh' e => by cases e; exact e6.nextHeader.1)
    have hv4 := fun dd hrec => decV4_of (d := d) (p := p) (p' := p') (h := h) (nh := nh) dd
      (by rw [hsan']; rfl) hp.nh_eq.2 ho e6 e4 e5 e7 e8 hrec
    rcases hs with rfl | rfl
    · exact hv4 true hrec
    · show decByVersion dec true (bytesToBits _) = _
      rw [decByVersion_of (v := 4) (by decide) _ (by rw [e8]; unfold v4Bits; simp only [List.append_assoc]; rfl),
        if_pos rfl]
      exact hv4 true hrec
  | @ipv6 slot h p p' nh hs h1 h2 hp ih =>
    intro d hd _
    simp only [Pkt.toBytes] at hd
    obtain ⟨h', hsan, hd⟩ := exBind_ok.mp hd
    obtain ⟨pb, hpb, henc⟩ := exBind_ok.mp hd
    have hsan' := hsan
    obtain ⟨_, _, _, hsrc, hdst, rfl⟩ := V6Hdr.sanitize_ok.mp hsan
    rw [fixNextHeader_eq h1 h2] at henc
    obtain ⟨e6, e4, e8⟩ := encV6_ok (h := { h with nextHeader := nh }) hsrc hdst henc
    have hrec := ih pb hpb (fun nh' e => by cases e; exact e6.nextHeader.1)
    have hv6 := fun dd hrec => decV6_of (d := d) (p := p) (p' := p') (h := h) (nh := nh) dd
      (by rw [hsan']; rfl) hp.nh_eq.2 e6 e4 e8 hrec
    rcases hs with rfl | rfl
    · exact hv6 true hrec
    · show decByVersion dec true (bytesToBits _) = _
      rw [decByVersion_of (v := 6) (by decide) _ (by rw [e8]; unfold v6Bits; simp only [List.append_assoc]; rfl),
        if_neg (by decide), if_pos rfl]
      exact hv6 true hrec
  | @hbh nh o p p' hp ih =>
    intro d hd _
    simp only [Pkt.toBytes] at hd
    obtain ⟨b, hb, hd⟩ := exBind_ok.mp hd
    obtain ⟨pb, hpb, hd⟩ := exBind_ok.mp hd
    obtain ⟨len, pad, e1, e2, e3, e4, e5⟩ := encOpts_ok (exBind_ok.mpr ⟨b, hb, hd⟩)
    have hrec := ih pb hpb (fun nh' e => by cases e; exact e1.1)
    have hpar := readOpts_app (toNat_lt e1.1 e1.2) e2 (by simpa using e4) (o := padZero o pad) (pl := pb)
    show dec .hbh (bytesToBits d) = _
    simp only [Slot.parse] at hrec
    rw [pad8_eq (by omega) e3 e4] at hpar e5
    rw [dec_eq, e5]
    simp only [decStep, decOpts, hpar, exBind_okl, hrec, exPure, Int.toNat_of_nonneg e1.1]
  | @dest nh o p p' hp ih =>
    intro d hd _
    simp only [Pkt.toBytes] at hd
    obtain ⟨b, hb, hd⟩ := exBind_ok.mp hd
    obtain ⟨pb, hpb, hd⟩ := exBind_ok.mp hd
    obtain ⟨len, pad, e1, e2, e3, e4, e5⟩ := encOpts_ok (exBind_ok.mpr ⟨b, hb, hd⟩)
    have hrec := ih pb hpb (fun nh' e => by cases e; exact e1.1)
    have hpar := readOpts_app (toNat_lt e1.1 e1.2) e2 (by simpa using e4) (o := padZero o pad) (pl := pb)
    show dec .dest (bytesToBits d) = _
    simp only [Slot.parse] at hrec
    rw [pad8_eq (by omega) e3 e4] at hpar e5
    rw [dec_eq, e5]
    simp only [decStep, decOpts, hpar, exBind_okl, hrec, exPure, Int.toNat_of_nonneg e1.1]
  | @routing nh rt sl o p p' hp ih =>
    intro d hd _
    simp only [Pkt.toBytes] at hd
    obtain ⟨b, hb, hd⟩ := exBind_ok.mp hd
    obtain ⟨pb, hpb, hd⟩ := exBind_ok.mp hd
    obtain ⟨len, pad, e1, e1', e1'', e2, e3, e4, e5⟩ := encRouting_ok (exBind_ok.mpr ⟨b, hb, hd⟩)
    have hrec := ih pb hpb (fun nh' e => by cases e; exact e1.1)
    have hpar := readRouting_app (toNat_lt e1.1 e1.2) e2 (toNat_lt e1'.1 e1'.2)
      (toNat_lt e1''.1 e1''.2) (by simpa using e4) (d := padZero o pad) (pl := pb)
    show dec .routing (bytesToBits d) = _
    simp only [Slot.parse] at hrec
    rw [pad8_eq (by omega) e3 e4] at hpar e5
    rw [dec_eq, e5]
    simp only [decStep, decRouting, hpar, exBind_okl, hrec, exPure, Int.toNat_of_nonneg e1.1,
      Int.toNat_of_nonneg e1'.1, Int.toNat_of_nonneg e1''.1]
  | @fragment nh off ident mf p b hb =>
    intro d hd _
    simp only [Pkt.toBytes] at hd
    obtain ⟨x, hx, hd⟩ := exBind_ok.mp hd
    obtain ⟨pb, hpb, hd⟩ := exBind_ok.mp hd
    rw [hb] at hpb; cases hpb
    obtain ⟨e1, e2, e3, e4⟩ := encFragment_ok (exBind_ok.mpr ⟨x, hx, hd⟩)
    have hpar := readFragment_app (mf := mf) (pl := b) (toNat_lt e1.1 e1.2) (toNat_lt e2.1 e2.2)
      (toNat_lt e3.1 e3.2)
    rw [Int.toNat_of_nonneg e1.1, Int.toNat_of_nonneg e2.1, Int.toNat_of_nonneg e3.1] at hpar
    show dec .fragment (bytesToBits d) = _
    rw [dec_eq, e4]
    exact runOn_iff.mpr ⟨_, hpar⟩
  | @nonext p b hb =>
    intro d hd _
    simp only [Pkt.toBytes] at hd
    rw [hb] at hd; cases hd
    show dec .nonext (bytesToBits b) = _
    rw [dec_eq]
    simp [decStep]
  | @udp h p p' hp ih =>
    intro d hd _
    simp only [Pkt.toBytes] at hd
    obtain ⟨_, hsan, hd⟩ := exBind_ok.mp hd
    obtain ⟨pb, hpb, henc⟩ := exBind_ok.mp hd
    obtain ⟨e1, e2, e3, e4, e5⟩ := encUdp_ok henc
    have hrec := ih pb hpb (fun nh' e => by cases e)
    have hpar := readUdp_app (t := []) e1 e2 e3 e4
    rw [List.append_nil] at hpar
    show dec .udp (bytesToBits d) = _
    rw [dec_eq, e5]
    have hrec' : decUdpPayload dec h pb = .ok p' := hrec
    simp only [decStep, decUdp, hpar, exBind_okl, hrec', noneLeft, if_true, hsan, exPure]
  | @data s d h p p' hs hp ih =>
    intro bs hd _
    simp only [Pkt.toBytes] at hd
    obtain ⟨h', hsan, hd⟩ := exBind_ok.mp hd
    obtain ⟨x, hx, hd⟩ := exBind_ok.mp hd
    obtain ⟨pb, hpb, hwp⟩ := exBind_ok.mp hd
    obtain ⟨hf, rfl⟩ := DataHdr.sanitize_ok.mp hsan
    have hf' : DataFields { h with echoNonce := h.echoNonce && h.nonce.isSome } :=
      ⟨hf.nonce, hf.versions, hf.iid, hf.lsb⟩
    have hbits := (withPayload_ok.mp hwp).1
    have hpar := readDataHdr_enc hf' hx (bytesToBits pb)
    have hsan2 : DataHdr.sanitize { h with echoNonce := h.echoNonce && h.nonce.isSome } =
        .ok { h with echoNonce := h.echoNonce && h.nonce.isSome } :=
      DataHdr.sanitize_ok.mpr ⟨hf', by simp⟩
    have hrec := ih pb hpb (fun nh' e => by cases e)
    simp only [Slot.parse] at hrec
    have : dec (.data true) (bytesToBits bs) =
        .ok (.data { h with echoNonce := h.echoNonce && h.nonce.isSome } p') := by
      rw [dec_eq, hbits]
      simp only [decStep, decData, hpar, exBind_okl, hrec, hsan2, exPure]
    simp only [Slot.parse, decUdpPayload, if_pos hs, this]
  | @ctrl s d m m' h1 h2 hm =>
    intro bs hd _
    have hp : ctrlParsedAs bs m' := by
      cases m <;> cases m' <;> first | exact hm bs hd | exact hm.elim
    have : dec .control (bytesToBits bs) = .ok (.ctrl m') := by
      rw [dec_eq]; exact decControl_of hp _
    simp only [Slot.parse, decUdpPayload, if_neg (show ¬ (s = 4341 ∨ d = 4341) by omega), if_pos h2, this]
  | @ecm s d h p p' h1 h2 hp ih =>
    intro bs hd _
    simp only [Pkt.toBytes] at hd
    obtain ⟨_, hsan, hd⟩ := exBind_ok.mp hd
    obtain ⟨pb, hpb, hd⟩ := exBind_ok.mp hd
    have hsec : h.security = false := by
      simp only [EcmHdr.sanitize, exIteErr_ok] at hsan
      simpa using hsan.1
    have hrec := ih pb hpb (fun nh' e => by cases e)
    simp only [Slot.parse] at hrec
    have := decEcm_of hsec (withPayload_ok.mp hd).1 hrec
    simp only [Slot.parse, decUdpPayload, if_neg (show ¬ (s = 4341 ∨ d = 4341) by omega), if_pos h2, this]

end PyLisp.Props
