import Verif.Rfc
import Verif.Props.Packets
/-
Properties C07 (packets), C08–C16: IPv4, IPv6 with extension headers, UDP.
-/
namespace PyLisp.Props
open PyLisp

attribute [local irreducible] natToBits readUint readBits readBool readBytes readInt zeros readIP

/-- C07: no `from_bytes` (IPv4, IPv6, each extension header, UDP, LISP data, LISP control), on any
byte string, runs into the nesting bound of the model: parsing terminates with a packet or an
error of the library. -/
theorem packet_parsing_total (k : Kind) (d : Bytes) : Pkt.fromBytes k d ≠ .error .fuel :=
  dec_ne_fuel k _

/-- C07: nested parsing is what it says: one header, then the parser of the payload. -/
theorem packet_parsing_unfolds (k : Kind) (s : Bits) : dec k s = decStep dec k s := dec_eq k s

/-! ### IPv4 -/

/-- Specification: `d` is a well-formed IPv4 packet with header `h` and this payload. -/
structure IsIPv4 (d : Bytes) (h : V4Hdr) (payload : Bytes) : Prop where
  layout : d = rfc791 h payload.length (onesComplement (rfc791 h payload.length 0)) ++ payload
  options : h.options.length % 4 = 0 ∧ h.options.length ≤ 40
  length : d.length < 65536
  tos : 0 ≤ h.tos ∧ h.tos < 256
  ident : 0 ≤ h.ident ∧ h.ident < 65536
  fragOff : 0 ≤ h.fragOff ∧ h.fragOff < 8192
  ttl : 0 ≤ h.ttl ∧ h.ttl < 256
  nextHeader : 0 ≤ h.nextHeader ∧ h.nextHeader < 256
  src : ∃ a, h.src = some a ∧ a.ver = .v4
  dst : ∃ a, h.dst = some a ∧ a.ver = .v4
  dontFragment : h.df = true → h.fragOff = 0

theorem IsIPv4.ranges {d : Bytes} {h : V4Hdr} {pl : Bytes} (w : IsIPv4 d h pl) : V4Ranges h :=
  ⟨w.tos, w.ident, w.fragOff, w.ttl, w.nextHeader, isVer_iff.mpr w.src, isVer_iff.mpr w.dst⟩

theorem isIPv4_iff {d : Bytes} {h : V4Hdr} {pl : Bytes} : IsIPv4 d h pl ↔
    V4Ranges h ∧ (h.df = true → h.fragOff = 0) ∧
    ∃ ihl total c, 5 ≤ ihl ∧ ihl < 2 ^ 4 ∧ total < 2 ^ 16 ∧ c < 2 ^ 16 ∧
      ihl * 4 ≤ total ∧ h.options.length = (ihl - 5) * 4 ∧ pl.length = total - ihl * 4 ∧
      headerCksum (v4Bits h ihl total 0) = .ok c ∧
      bytesToBits d = v4Bits h ihl total c ++ bytesToBits pl := by
  constructor
  · intro w
    have hl := w.length
    rw [w.layout] at hl
    simp only [List.length_append, rfc791_length] at hl
    have ho := w.options
    have e5 : 5 ≤ 5 + h.options.length / 4 := by omega
    have e16 : 5 + h.options.length / 4 < 2 ^ 4 := by omega
    have eo : h.options.length = (5 + h.options.length / 4 - 5) * 4 := by omega
    refine ⟨w.ranges, w.dontFragment, 5 + h.options.length / 4, 20 + h.options.length + pl.length,
      onesComplement (rfc791 h pl.length 0), e5, e16, by omega, checksum_range _, by omega, eo,
      by omega, rfc791_cksum w.ranges e5 e16 eo, ?_⟩
    rw [congrArg bytesToBits w.layout, bytesToBits_append, rfc791_bits w.ranges e5 e16 eo]
  · rintro ⟨hr, hdf, ihl, total, c, h5, h16, ht, hc, hit, ho, hp, hck, hd⟩
    have et : total = 20 + h.options.length + pl.length := by omega
    subst et
    rw [rfc791_cksum hr h5 h16 ho] at hck
    cases hck
    have hd' := hd
    rw [← rfc791_bits hr h5 h16 ho, ← bytesToBits_append] at hd
    have hd := bytesToBits_inj hd
    refine ⟨hd, by omega, ?_, hr.tos, hr.ident, hr.fragOff, hr.ttl, hr.nextHeader,
      isVer_iff.mp hr.src, isVer_iff.mp hr.dst, hdf⟩
    rw [hd]; simp; omega

/-- the class of a parsed packet -/
theorem protoKind_headerType {nh : Nat} {k : Kind} {s : Bits} {p : Pkt} (hk : protoKind nh = some k)
    (h : dec k s = .ok p) : p.headerType = some nh := by
  have key : ∀ (k : Kind) (n : Nat), (match k with
      | .ipv4 _ => n = 4 | .ipv6 _ => n = 41 | .udp => n = 17 | .hbh => n = 0 | .routing => n = 43
      | .fragment => n = 44 | .nonext => n = 59 | .dest => n = 60 | _ => False) →
      dec k s = .ok p → p.headerType = some n := by
    intro k n hn hd
    rw [dec_eq] at hd
    cases k <;> simp only at hn <;> (try subst hn) <;>
      simp only [decStep, decV4, decV6, decOpts, decRouting, decUdp, exBind_ok, exPure,
        Except.ok.injEq] at hd
    · obtain ⟨_, _, _, _, _, _, _, _, rfl⟩ := hd; rfl
    · obtain ⟨_, _, _, _, _, _, _, _, rfl⟩ := hd; rfl
    · obtain ⟨_, _, _, _, rfl⟩ := hd; rfl
    · obtain ⟨_, _, _, _, rfl⟩ := hd; rfl
    · obtain ⟨_, _, _, _, rfl⟩ := hd; rfl
    · obtain ⟨_, h⟩ := runOn_iff.mp hd
      simp only [readFragment, Rd.bind_ok, Rd.pure_ok_iff] at h
      obtain ⟨_, _, _, _, _, _, _, _, _, _, _, _, _, _, _, _, _, _, _, _, _, rfl, _⟩ := h
      rfl
    · obtain ⟨_, _, rfl⟩ := hd; rfl
    · obtain ⟨_, _, _, _, _, _, _, _, rfl⟩ := hd; rfl
  refine key k nh ?_ h
  unfold protoKind at hk
  repeat' split at hk
  all_goals first | (cases hk; simp_all; done) | (cases hk; assumption) | cases hk

theorem decPayload_fix {dd : Bool} {nh : Nat} {pl : Bytes} {q : Pkt}
    (h : decPayload dec dd nh pl = .ok q) : fixNextHeader q nh = nh := by
  unfold decPayload at h
  split at h
  · split at h
    · rename_i k hk
      simp [fixNextHeader, protoKind_headerType hk h]
    · cases h; rfl
  · cases h; rfl

/-- what the payload is parsed into: the protocol's own parser if there is one and decoding was
asked for, otherwise the bytes -/
def payloadParsed (decode : Bool) (nh : Int) (payload : Bytes) (q : Pkt) : Prop :=
  match protoKind nh.toNat with
  | some k => if decode = true then Pkt.fromBytes k payload = .ok q else q = .raw payload
  | none => q = .raw payload

theorem payloadParsed_iff {dd : Bool} {nh : Int} {pl : Bytes} {q : Pkt} :
    payloadParsed dd nh pl q ↔ decPayload dec dd nh.toNat pl = .ok q := by
  unfold payloadParsed decPayload Pkt.fromBytes
  cases dd <;> simp <;> cases protoKind nh.toNat <;> simp [eq_comm]

/-- C08/C09/C10/C11: `IPv4Packet.from_bytes` accepts exactly the well-formed IPv4 packets (RFC 791
layout, header checksum, total length equal to the length of the data, fields in range, no fragment
offset on a don't-fragment packet) whose payload is accepted by the parser of its protocol, and
returns exactly the header fields, options and payload. -/
theorem ipv4_accepted_iff (decode : Bool) (d : Bytes) (p : Pkt) :
    Pkt.fromBytes (.ipv4 decode) d = .ok p ↔
      ∃ h payload q, IsIPv4 d h payload ∧ payloadParsed decode h.nextHeader payload q ∧
        p = .ipv4 h q := by
  rw [Pkt.fromBytes, dec_eq]
  simp only [decStep, decV4, exBind_ok, exPure, Except.ok.injEq, isIPv4_iff, payloadParsed_iff]
  constructor
  · rintro ⟨⟨⟨h, pl⟩, rest⟩, hr, q, hq, _, hn, h', hs, rfl⟩
    obtain ⟨hr', ihl, total, c, a1, a2, a3, a4, a5, a6, a7, a8, a9⟩ := readV4_inv hr
    simp only [noneLeft, exIte_ok] at hn
    obtain ⟨rfl, _⟩ := hn
    simp only [V4Hdr.sanitize_ok] at hs
    obtain ⟨_, _, _, hdf, _, _, _, rfl⟩ := hs
    have hfix := decPayload_fix hq
    simp only [Int.toNat_of_nonneg hr'.nextHeader.1] at hfix
    refine ⟨h, pl, q, ⟨hr', fun hd => ?_, ihl, total, c, a1, a2, a3, a4, a5, a6, a7, a8,
      by simpa using a9⟩, hq, by simp [hfix]⟩
    have := hr'.fragOff.1
    simp only [hd, true_and] at hdf
    omega
  · rintro ⟨h, pl, q, ⟨hr, hdf, ihl, total, c, a1, a2, a3, a4, a5, a6, a7, a8, a9⟩, hq, rfl⟩
    have hfix := decPayload_fix hq
    simp only [Int.toNat_of_nonneg hr.nextHeader.1] at hfix
    refine ⟨((h, pl), []), ?_, q, hq, (), by simp [noneLeft], h, ?_, rfl⟩
    · rw [a9, ← List.append_nil (_ ++ _)]
      exact readV4_app hr a1 a2 a3 a4 a5 a6 a7 a8
    · refine V4Hdr.sanitize_ok.mpr ⟨hr.tos, hr.ident, hr.fragOff, ?_, hr.ttl, hr.src, hr.dst,
        by simp [hfix]⟩
      rintro ⟨hd, hf⟩
      rw [hdf hd] at hf; omega

/-- the header length of an IPv4 packet in bytes: four times the low nibble of its first byte -/
def headerLen (d : Bytes) : Nat := 4 * ((d.headD 0).toNat % 16)

theorem IsIPv4.headerLen_eq {d : Bytes} {h : V4Hdr} {pl : Bytes} (w : IsIPv4 d h pl) :
    headerLen d = 20 + h.options.length := by
  have := w.options
  rw [w.layout]
  simp [headerLen, rfc791, byteOf]
  omega

/-- C11: what a receiver can check without the library: version, header length, total length,
reserved flag, and the RFC 1071 verification of the header checksum. -/
theorem ipv4_accepted_checks {decode : Bool} {d : Bytes} {p : Pkt}
    (h : Pkt.fromBytes (.ipv4 decode) d = .ok p) :
    (d.headD 0).toNat / 16 = 4 ∧ 20 ≤ headerLen d ∧ headerLen d ≤ d.length ∧
    (d.getD 2 0).toNat * 256 + (d.getD 3 0).toNat = d.length ∧
    (d.getD 6 0).toNat / 128 = 0 ∧
    onesComplement (d.take (headerLen d)) = 0 := by
  obtain ⟨h, pl, q, w, _, _⟩ := (ipv4_accepted_iff decode d p).mp h
  have hl := w.headerLen_eq
  have ho := w.options
  have hlen := w.length
  have hoff := w.fragOff
  refine ⟨?_, by omega, ?_, ?_, ?_, ?_⟩
  · rw [w.layout]; simp [rfc791, byteOf]; omega
  · rw [hl, w.layout]; simp
  · rw [w.layout] at hlen ⊢
    simp only [List.length_append, rfc791_length] at hlen ⊢
    simp [rfc791, byteOf, be16]; omega
  · rw [w.layout]
    simp only [rfc791, be16, flagsWord, byteOf, List.cons_append, List.nil_append]
    simp
    cases h.df <;> cases h.mf <;> simp <;> omega
  · rw [hl, w.layout, List.take_append_of_le_length (by simp), List.take_of_length_le (by simp)]
    have key : ∀ c, rfc791 h pl.length c = ([byteOf (0x40 + (5 + h.options.length / 4)),
        byteOf h.tos.toNat] ++ be16 (20 + h.options.length + pl.length) ++
        be16 h.ident.toNat ++ be16 (flagsWord h.df h.mf h.fragOff.toNat) ++
        [byteOf h.ttl.toNat, byteOf h.nextHeader.toNat]) ++ be16 c ++
        (be32 (addrNat h.src) ++ be32 (addrNat h.dst) ++ h.options) := by
      intro c; simp [rfc791]
    rw [key 0, key]
    exact checksum_self_verifying _ _ (by simp)

/-- C10: of two byte strings that differ in one aligned 16-bit word of the IPv4 header (not 0x0000
against 0xffff, and not in the header-length nibble) at most one is accepted. -/
theorem ipv4_header_corruption_rejected {pre post : Bytes} {v w : Nat} {dc dc' : Bool} {p : Pkt}
    (hacc : Pkt.fromBytes (.ipv4 dc) (pre ++ be16 v ++ post) = .ok p)
    (heven : pre.length % 2 = 0) (hin : pre.length < headerLen (pre ++ be16 v ++ post))
    (hsame : headerLen (pre ++ be16 w ++ post) = headerLen (pre ++ be16 v ++ post))
    (hv : v < 65536) (hw : w < 65536) (hne : v ≠ w)
    (hz : ¬ (v = 0 ∧ w = 65535)) (hz' : ¬ (v = 65535 ∧ w = 0)) (p' : Pkt) :
    Pkt.fromBytes (.ipv4 dc') (pre ++ be16 w ++ post) ≠ .ok p' := by
  intro hacc'
  obtain ⟨_, _, _, _, _, h1⟩ := ipv4_accepted_checks hacc
  obtain ⟨_, _, _, _, _, h2⟩ := ipv4_accepted_checks hacc'
  have hm : headerLen (pre ++ be16 v ++ post) % 4 = 0 := by unfold headerLen; omega
  rw [hsame] at h2
  have ht : ∀ x, (pre ++ be16 x ++ post).take (headerLen (pre ++ be16 v ++ post)) =
      pre ++ be16 x ++ post.take (headerLen (pre ++ be16 v ++ post) - (pre.length + 2)) := by
    intro x
    rw [List.take_append, List.take_of_length_le (by rw [List.length_append, be16_length]; omega)]
    simp
  rw [ht] at h1 h2
  exact checksum_detects_word_change pre _ v w heven hv hw hne hz hz' (h1.trans h2.symm)

/-- C08: an IPv4 packet without options that was serialised is parsed back as the same packet; its
protocol number is that of its payload, and the payload is as `Arrives` describes. -/
theorem ipv4_round_trip {h : V4Hdr} {p p' : Pkt} {nh : Int} {d : Bytes} (ho : h.options = [])
    (h1 : ∀ t, p.headerType = some t → nh = t) (h2 : p.headerType = none → nh = h.nextHeader)
    (hp : Arrives (.proto nh) p p') (hd : (Pkt.ipv4 h p).toBytes = .ok d) :
    Pkt.fromBytes (.ipv4 true) d = .ok (.ipv4 { h with nextHeader := nh } p') :=
  arrives_parse (.ipv4 (.inl rfl) ho h1 h2 hp) d hd (fun _ e => by cases e; decide)

theorem toBytes_ipv4_inv {h : V4Hdr} {p : Pkt} {d : Bytes} (hd : (Pkt.ipv4 h p).toBytes = .ok d) :
    ∃ pb, p.toBytes = .ok pb ∧
      (h.sanitize p = .ok { h with nextHeader := fixNextHeader p h.nextHeader }) ∧
      encV4 { h with nextHeader := fixNextHeader p h.nextHeader } pb = .ok d := by
  simp only [Pkt.toBytes, exBind_ok] at hd
  obtain ⟨h', hsan, _, _, pb, hpb, henc⟩ := hd
  have := V4Hdr.sanitize_ok.mp hsan
  obtain ⟨_, _, _, _, _, hsrc, hdst, rfl⟩ := this
  exact ⟨pb, hpb, hsan, henc⟩

/-- C08: the bytes written are a well-formed IPv4 packet (RFC 791, correct checksum and lengths)
around the bytes of the payload; this is what any other receiver gets. -/
theorem ipv4_written {h : V4Hdr} {p : Pkt} {d : Bytes} (ho : h.options = [])
    (hd : (Pkt.ipv4 h p).toBytes = .ok d) :
    ∃ payload, p.toBytes = .ok payload ∧
      IsIPv4 d { h with nextHeader := fixNextHeader p h.nextHeader } payload := by
  obtain ⟨pb, hpb, hsan, henc⟩ := toBytes_ipv4_inv hd
  obtain ⟨_, _, _, hdf, _, hsrc, hdst, _⟩ := V4Hdr.sanitize_ok.mp hsan
  obtain ⟨ihl, pad, c, e1, e2, _, e4, e5, e6, e7, e8⟩ :=
    encV4_ok (h := { h with nextHeader := fixNextHeader p h.nextHeader }) hsrc hdst henc
  simp only [ho, List.length_nil] at e1 e2
  have e1' : ihl = 5 := by omega
  have e2' : pad = 0 := by omega
  clear e1 e2
  subst e1' e2'
  simp only [padZero, List.replicate_zero, List.append_nil] at e6 e7 e8
  refine ⟨pb, hpb, isIPv4_iff.mpr ⟨e6, ?_, 5, _, c, by omega, by omega, e4, e5, by omega, by simp [ho],
    by omega, e7, e8⟩⟩
  intro hd'
  have : 0 ≤ h.fragOff := e6.fragOff.1
  have hd'' : h.df = true := hd'
  have hnf : ¬ h.fragOff > 0 := fun x => hdf ⟨hd'', x⟩
  show h.fragOff = 0
  omega

/-- C08: with `decode_payload=False` the payload bytes come back, whatever the payload was. -/
theorem ipv4_round_trip_undecoded {h : V4Hdr} {p : Pkt} {d : Bytes} (ho : h.options = [])
    (hd : (Pkt.ipv4 h p).toBytes = .ok d) :
    ∃ payload, p.toBytes = .ok payload ∧ Pkt.fromBytes (.ipv4 false) d =
      .ok (.ipv4 { h with nextHeader := fixNextHeader p h.nextHeader } (.raw payload)) := by
  obtain ⟨pb, hpb, hw⟩ := ipv4_written ho hd
  refine ⟨pb, hpb, (ipv4_accepted_iff _ _ _).mpr ⟨_, pb, _, hw, ?_, rfl⟩⟩
  unfold payloadParsed
  split <;> simp

/-- C08: which IPv4 packets without options can be serialised: exactly those whose fields fit, given
that the payload can be serialised and is not too long. -/
theorem ipv4_writable_iff {h : V4Hdr} {p : Pkt} (ho : h.options = []) :
    (∃ d, (Pkt.ipv4 h p).toBytes = .ok d) ↔
      ∃ payload d, p.toBytes = .ok payload ∧
        IsIPv4 d { h with nextHeader := fixNextHeader p h.nextHeader } payload := by
  constructor
  · rintro ⟨d, hd⟩
    obtain ⟨pb, hpb, hw⟩ := ipv4_written ho hd
    exact ⟨pb, d, hpb, hw⟩
  · rintro ⟨pb, d, hpb, hw⟩
    have hr := hw.ranges
    have hl := hw.length
    rw [hw.layout] at hl
    simp only [List.length_append, rfc791_length, ho, List.length_nil] at hl
    have hsan : h.sanitize p = .ok { h with nextHeader := fixNextHeader p h.nextHeader } :=
      V4Hdr.sanitize_ok.mpr ⟨hr.tos, hr.ident, hr.fragOff, fun ⟨a, b⟩ => by
        have := hw.dontFragment a; simp only at this; omega, hr.ttl, hr.src, hr.dst, rfl⟩
    simp only [Pkt.toBytes, exBind_ok]
    have hS := addrInt_range hr.src
    have hD := addrInt_range hr.dst
    simp only [Ver.width] at hS hD
    have hll : ((20 + pb.length : Nat) : Int) < 2 ^ 16 := by omega
    have : ∃ x, encV4Raw { h with nextHeader := fixNextHeader p h.nextHeader } pb.length = .ok x ∧
        x.length = 8 * 20 := by
      unfold encV4Raw
      simp only [ho, List.length_nil, encUint_eq_ok hr.tos.1 hr.tos.2,
        encUint_eq_ok (Int.natCast_nonneg _) hll, encUint_eq_ok hr.ident.1 hr.ident.2,
        encUint_eq_ok hr.fragOff.1 hr.fragOff.2, encUint_eq_ok hr.ttl.1 hr.ttl.2,
        encUint_eq_ok hr.nextHeader.1 hr.nextHeader.2, encUint_eq_ok hS.1 hS.2,
        encUint_eq_ok hD.1 hD.2, exBind_okl, exPure,
        encUint_eq_ok (n := 4) (v := 5 + ((0 + 3) / 4 : Nat)) (by decide) (by decide)]
      exact ⟨_, rfl, by simp [bytesToBits]⟩
    obtain ⟨x, hx, hxl⟩ := this
    obtain ⟨hb, hhb, _⟩ := bitsToBytes_ok_of_length hxl
    have hc : ∃ c, encUint 16 (onesComplement hb) = .ok c := by
      have := checksum_range hb
      exact ⟨_, encUint_eq_ok (Int.natCast_nonneg _) (by omega)⟩
    obtain ⟨c, hc⟩ := hc
    have hcl : c.length = 16 := by
      obtain ⟨_, _, rfl⟩ := encUint_iff.mp hc; simp
    have hout : (x.take 80 ++ c ++ x.drop 96).length = 8 * 20 := by
      simp [hxl, hcl]
    obtain ⟨out, hout, _⟩ := bitsToBytes_ok_of_length hout
    have henc : encV4 { h with nextHeader := fixNextHeader p h.nextHeader } pb = .ok (out ++ pb) := by
      unfold encV4
      rw [hx, exBind_okl, hhb, exBind_okl, hc, exBind_okl, hout, exBind_okl, exPure]
    refine ⟨out ++ pb, _, hsan, natToBits 4 5, ?_, pb, hpb, henc⟩
    rw [ho]
    exact encUint_eq_ok (n := 4) (v := 5 + ((0 + 3) / 4 : Nat)) (by decide) (by decide)

/-- C09: options do not survive: an IPv4 packet with options is written with a total length that ignores
the options, and no byte string written that way is ever accepted. -/
theorem ipv4_options_never_accepted {h : V4Hdr} {p : Pkt} {d : Bytes} (ho : h.options ≠ [])
    (hd : (Pkt.ipv4 h p).toBytes = .ok d) (decode : Bool) (p' : Pkt) :
    Pkt.fromBytes (.ipv4 decode) d ≠ .ok p' := by
  intro hacc
  obtain ⟨pb, hpb, hsan, henc⟩ := toBytes_ipv4_inv hd
  obtain ⟨_, _, _, hdf, _, hsrc, hdst, _⟩ := V4Hdr.sanitize_ok.mp hsan
  obtain ⟨ihl, pad, c, e1, e2, e3, e4, e5, e6, e7, e8⟩ :=
    encV4_ok (h := { h with nextHeader := fixNextHeader p h.nextHeader }) hsrc hdst henc
  obtain ⟨h2, pl, q, w, _, _⟩ := (ipv4_accepted_iff _ _ _).mp hacc
  obtain ⟨_, _, ihl2, total2, c2, _, _, b3, _, b5, b6, b7, _, b9⟩ := isIPv4_iff.mp w
  have hlen := congrArg List.length e8
  have hlen2 := congrArg List.length b9
  have htot : natToBits 16 (20 + pb.length) = natToBits 16 total2 := by
    rw [e8] at b9
    simp only [v4Bits, List.append_assoc] at b9
    have b9 := (List.append_inj b9 (by simp)).2
    have b9 := (List.append_inj b9 (by simp)).2
    have b9 := (List.append_inj b9 (by simp)).2
    exact (List.append_inj b9 (by simp)).1
  have htot := natToBits_inj e4 b3 htot
  have : 0 < h.options.length := List.length_pos_iff.mpr ho
  simp only at e1 e2
  simp [v4Bits_length, padZero] at hlen hlen2
  omega

/-- C09: options sent by a correct sender are received: whatever well-formed IPv4 packet arrives,
its options come back unchanged. -/
theorem ipv4_options_received {d : Bytes} {h : V4Hdr} {payload : Bytes} (w : IsIPv4 d h payload) :
    Pkt.fromBytes (.ipv4 false) d = .ok (.ipv4 h (.raw payload)) :=
  (ipv4_accepted_iff _ _ _).mpr ⟨h, payload, _, w, by unfold payloadParsed; split <;> simp, rfl⟩

/-! Non-vacuity: a concrete IPv4 packet carrying TCP bytes, one carrying UDP, one with options. -/

def exSrc4 : IP := ⟨.v4, 0xC0000201, by decide⟩
def exDst4 : IP := ⟨.v4, 0xC6336407, by decide⟩
def exHdr4 : V4Hdr :=
  { tos := 3, ident := 77, df := true, ttl := 64, nextHeader := 6, src := some exSrc4, dst := some exDst4 }
def exUdpHdr : UdpHdr := { sport := 1000, dport := 53, cksum := 0 }
def exUdpPkt : Pkt := .udp exUdpHdr (.raw [1, 2, 3])

example : ∃ d, (Pkt.ipv4 exHdr4 (.raw [1, 2, 3])).toBytes = .ok d ∧
    Pkt.fromBytes (.ipv4 true) d = .ok (.ipv4 exHdr4 (.raw [1, 2, 3])) := by
  obtain ⟨d, hd⟩ := isOk_iff.mp (show isOk (Pkt.ipv4 exHdr4 (.raw [1, 2, 3])).toBytes = true by decide +kernel)
  exact ⟨d, hd, ipv4_round_trip rfl (fun t h => by cases h) (fun _ => rfl)
    (.opaqueProto rfl (by unfold knownProtocol exHdr4; decide) rfl) hd⟩

example : ∃ d, (Pkt.ipv4 exHdr4 exUdpPkt).toBytes = .ok d ∧
    Pkt.fromBytes (.ipv4 true) d = .ok (.ipv4 { exHdr4 with nextHeader := 17 } exUdpPkt) := by
  obtain ⟨d, hd⟩ := isOk_iff.mp (show isOk (Pkt.ipv4 exHdr4 exUdpPkt).toBytes = true by decide +kernel)
  exact ⟨d, hd, ipv4_round_trip rfl (fun t h => by cases h; rfl) (fun h => by cases h)
    (.udp (.opaquePorts (by decide) (by decide) rfl)) hd⟩

example : ∃ d, (Pkt.ipv4 { exHdr4 with options := [7, 7, 7] } (.raw [1, 2, 3, 4, 5])).toBytes = .ok d ∧
    ∀ p', Pkt.fromBytes (.ipv4 true) d ≠ .ok p' := by
  obtain ⟨d, hd⟩ := isOk_iff.mp (show isOk (Pkt.ipv4 { exHdr4 with options := [7, 7, 7] }
    (.raw [1, 2, 3, 4, 5])).toBytes = true by decide +kernel)
  exact ⟨d, hd, ipv4_options_never_accepted (by simp) hd true⟩

example : IsIPv4 (rfc791 { exHdr4 with options := [7, 7, 7, 0] } 2
    (onesComplement (rfc791 { exHdr4 with options := [7, 7, 7, 0] } 2 0)) ++ [9, 9])
    { exHdr4 with options := [7, 7, 7, 0] } [9, 9] where
  layout := rfl
  options := by decide
  length := by decide
  tos := by decide
  ident := by decide
  fragOff := by decide
  ttl := by decide
  nextHeader := by decide
  src := ⟨_, rfl, rfl⟩
  dst := ⟨_, rfl, rfl⟩
  dontFragment := fun _ => rfl

/-- the header of an accepted packet, with its TTL word changed, is rejected -/
example : ∃ pre post p, Pkt.fromBytes (.ipv4 true) (pre ++ be16 0x4006 ++ post) = .ok p ∧
    ∀ p', Pkt.fromBytes (.ipv4 true) (pre ++ be16 0x3f06 ++ post) ≠ .ok p' := by
  have h : Pkt.fromBytes (.ipv4 true) ([0x45, 3, 0, 23, 0, 77, 0x40, 0] ++ be16 0x4006 ++
      [0x4e, 0x55, 192, 0, 2, 1, 198, 51, 100, 7, 1, 2, 3]) = .ok (.ipv4 exHdr4 (.raw [1, 2, 3])) := by
    decide +kernel
  exact ⟨_, _, _, h, ipv4_header_corruption_rejected (v := 0x4006) (w := 0x3f06) h rfl (by decide)
    (by decide) (by decide) (by decide) (by decide) (by decide) (by decide)⟩

/-! ### IPv6 and extension headers -/

/-- Specification: `d` is a well-formed IPv6 packet with header `h` and this payload. -/
structure IsIPv6 (d : Bytes) (h : V6Hdr) (payload : Bytes) : Prop where
  layout : d = rfc8200 h payload
  length : payload.length < 65536
  trafficClass : 0 ≤ h.trafficClass ∧ h.trafficClass < 256
  flowLabel : 0 ≤ h.flowLabel ∧ h.flowLabel < 2 ^ 20
  nextHeader : 0 ≤ h.nextHeader ∧ h.nextHeader < 256
  hopLimit : 0 ≤ h.hopLimit ∧ h.hopLimit < 256
  src : ∃ a, h.src = some a ∧ a.ver = .v6
  dst : ∃ a, h.dst = some a ∧ a.ver = .v6

theorem isIPv6_iff {d : Bytes} {h : V6Hdr} {pl : Bytes} : IsIPv6 d h pl ↔
    V6Ranges h ∧ pl.length < 2 ^ 16 ∧ bytesToBits d = v6Bits h pl.length ++ bytesToBits pl := by
  constructor
  · intro w
    have hr : V6Ranges h := ⟨w.trafficClass, w.flowLabel, w.nextHeader, w.hopLimit,
      isVer_iff.mpr w.src, isVer_iff.mpr w.dst⟩
    exact ⟨hr, w.length, by rw [w.layout, rfc8200_bits hr]⟩
  · rintro ⟨hr, hl, hd⟩
    rw [← rfc8200_bits hr] at hd
    exact ⟨bytesToBits_inj hd, hl, hr.trafficClass, hr.flowLabel, hr.nextHeader, hr.hopLimit,
      isVer_iff.mp hr.src, isVer_iff.mp hr.dst⟩

/-- C12: `IPv6Packet.from_bytes` accepts exactly the well-formed IPv6 packets (RFC 8200 layout,
payload length equal to the number of bytes that follow the header) whose payload is accepted by the
parser of its protocol, and returns exactly the header fields and payload. -/
theorem ipv6_accepted_iff (decode : Bool) (d : Bytes) (p : Pkt) :
    Pkt.fromBytes (.ipv6 decode) d = .ok p ↔
      ∃ h payload q, IsIPv6 d h payload ∧ payloadParsed decode h.nextHeader payload q ∧
        p = .ipv6 h q := by
  rw [Pkt.fromBytes, dec_eq]
  simp only [decStep, decV6, exBind_ok, exPure, Except.ok.injEq, isIPv6_iff, payloadParsed_iff]
  constructor
  · rintro ⟨⟨⟨h, pl⟩, rest⟩, hr, q, hq, _, hn, h', hs, rfl⟩
    obtain ⟨hr', a1, a2⟩ := readV6_inv hr
    simp only [noneLeft, exIte_ok] at hn
    obtain ⟨rfl, _⟩ := hn
    simp only [V6Hdr.sanitize_ok] at hs
    obtain ⟨_, _, _, _, _, rfl⟩ := hs
    have hfix := decPayload_fix hq
    simp only [Int.toNat_of_nonneg hr'.nextHeader.1] at hfix
    exact ⟨h, pl, q, ⟨hr', a1, by simpa using a2⟩, hq, by simp [hfix]⟩
  · rintro ⟨h, pl, q, ⟨hr, a1, a2⟩, hq, rfl⟩
    have hfix := decPayload_fix hq
    simp only [Int.toNat_of_nonneg hr.nextHeader.1] at hfix
    refine ⟨((h, pl), []), ?_, q, hq, (), by simp [noneLeft], h, ?_, rfl⟩
    · rw [a2, ← List.append_nil (_ ++ _)]
      exact readV6_app hr a1
    · exact V6Hdr.sanitize_ok.mpr ⟨hr.trafficClass, hr.flowLabel, hr.hopLimit, hr.src, hr.dst,
        by simp [hfix]⟩

/-- C12: an IPv6 packet that was serialised is parsed back as the same packet, through extension
headers and nested packets (`Arrives`). -/
theorem ipv6_round_trip {h : V6Hdr} {p p' : Pkt} {nh : Int} {d : Bytes}
    (h1 : ∀ t, p.headerType = some t → nh = t) (h2 : p.headerType = none → nh = h.nextHeader)
    (hp : Arrives (.proto nh) p p') (hd : (Pkt.ipv6 h p).toBytes = .ok d) :
    Pkt.fromBytes (.ipv6 true) d = .ok (.ipv6 { h with nextHeader := nh } p') :=
  arrives_parse (.ipv6 (.inl rfl) h1 h2 hp) d hd (fun _ e => by cases e; decide)

/-- C12: the bytes written are a well-formed IPv6 packet around the bytes of the payload. -/
theorem ipv6_written {h : V6Hdr} {p : Pkt} {d : Bytes} (hd : (Pkt.ipv6 h p).toBytes = .ok d) :
    ∃ payload, p.toBytes = .ok payload ∧
      IsIPv6 d { h with nextHeader := fixNextHeader p h.nextHeader } payload := by
  simp only [Pkt.toBytes] at hd
  obtain ⟨h', hsan, hd⟩ := exBind_ok.mp hd
  obtain ⟨pb, hpb, henc⟩ := exBind_ok.mp hd
  obtain ⟨_, _, _, hsrc, hdst, rfl⟩ := V6Hdr.sanitize_ok.mp hsan
  obtain ⟨e6, e4, e8⟩ :=
    encV6_ok (h := { h with nextHeader := fixNextHeader p h.nextHeader }) hsrc hdst henc
  exact ⟨pb, hpb, isIPv6_iff.mpr ⟨e6, e4, e8⟩⟩

/-- C12: an IPv6 packet can be written exactly when the payload can, and some well-formed packet with this
header and payload exists (the fields are in range, the payload is shorter than 65536 bytes). -/
theorem ipv6_writable_iff {h : V6Hdr} {p : Pkt} :
    (∃ d, (Pkt.ipv6 h p).toBytes = .ok d) ↔
      ∃ payload d, p.toBytes = .ok payload ∧
        IsIPv6 d { h with nextHeader := fixNextHeader p h.nextHeader } payload := by
  constructor
  · rintro ⟨d, hd⟩
    obtain ⟨pb, hpb, hw⟩ := ipv6_written hd
    exact ⟨pb, d, hpb, hw⟩
  · rintro ⟨pb, d, hpb, hw⟩
    obtain ⟨hr, hl, hb⟩ := isIPv6_iff.mp hw
    have hsan : h.sanitize p = .ok { h with nextHeader := fixNextHeader p h.nextHeader } :=
      V6Hdr.sanitize_ok.mpr ⟨hr.trafficClass, hr.flowLabel, hr.hopLimit, hr.src, hr.dst, rfl⟩
    have hS := addrInt_range hr.src
    have hD := addrInt_range hr.dst
    simp only [Ver.width] at hS hD
    have hll : ((pb.length : Nat) : Int) < 2 ^ 16 := by omega
    have : ∃ x, encV6Raw { h with nextHeader := fixNextHeader p h.nextHeader } pb.length = .ok x ∧
        x.length = 8 * 40 := by
      unfold encV6Raw
      simp only [encUint_eq_ok hr.trafficClass.1 hr.trafficClass.2,
        encUint_eq_ok (Int.natCast_nonneg _) hll, encUint_eq_ok hr.flowLabel.1 hr.flowLabel.2,
        encUint_eq_ok hr.hopLimit.1 hr.hopLimit.2,
        encUint_eq_ok hr.nextHeader.1 hr.nextHeader.2, encUint_eq_ok hS.1 hS.2,
        encUint_eq_ok hD.1 hD.2, exBind_okl, exPure]
      exact ⟨_, rfl, by simp⟩
    obtain ⟨x, hx, hxl⟩ := this
    obtain ⟨hb, hhb, _⟩ := bitsToBytes_ok_of_length hxl
    refine ⟨hb ++ pb, ?_⟩
    simp only [Pkt.toBytes]
    rw [hsan, exBind_okl, hpb, exBind_okl, hx, exBind_okl]
    unfold withPayload
    rw [hhb]; rfl

/-- C12: with `decode_payload=False` the payload bytes come back, whatever the payload was. -/
theorem ipv6_round_trip_undecoded {h : V6Hdr} {p : Pkt} {d : Bytes}
    (hd : (Pkt.ipv6 h p).toBytes = .ok d) :
    ∃ payload, p.toBytes = .ok payload ∧ Pkt.fromBytes (.ipv6 false) d =
      .ok (.ipv6 { h with nextHeader := fixNextHeader p h.nextHeader } (.raw payload)) := by
  obtain ⟨pb, hpb, hw⟩ := ipv6_written hd
  refine ⟨pb, hpb, (ipv6_accepted_iff _ _ _).mpr ⟨_, pb, _, hw, ?_, rfl⟩⟩
  unfold payloadParsed
  split <;> simp

/-- the IPv6 extension headers that have a next header -/
inductive Ext
  | hbh (options : Bytes)
  | dest (options : Bytes)
  | routing (routingType segmentsLeft : Int) (data : Bytes)
  | fragment (fragOff : Int) (mf : Bool) (ident : Int)

/-- the number and packet of an extension header in front of (number, packet) -/
def Ext.before : Ext → Int × Pkt → Int × Pkt
  | .hbh o, (nh, p) => (0, .hbh nh o p)
  | .dest o, (nh, p) => (60, .dest nh o p)
  | .routing rt sl d, (nh, p) => (43, .routing nh rt sl d p)
  | .fragment off mf i, (nh, p) => (44, .fragment nh off mf i p)

/-- a chain of extension headers in front of (number, packet) -/
def extChain (es : List Ext) (final : Int × Pkt) : Int × Pkt := es.foldr Ext.before final

def Ext.isFragment : Ext → Bool
  | .fragment .. => true
  | _ => false

/-- the packet is itself one of these extension headers -/
def isExtHeader : Pkt → Bool
  | .hbh .. | .dest .. | .routing .. | .fragment .. => true
  | _ => false

/-- what arrives of an extension header: option and routing data are zero padded -/
def Ext.padded : Ext → Ext
  | .hbh o => .hbh (pad8 2 o)
  | .dest o => .dest (pad8 2 o)
  | .routing rt sl d => .routing rt sl (pad8 4 d)
  | .fragment off mf i => .fragment off mf i

theorem extChain_arrives {es : List Ext} (hf : ∀ e ∈ es, e.isFragment = false) {nh : Int} {p p' : Pkt}
    (hp : Arrives (.proto nh) p p') :
    (extChain (es.map Ext.padded) (nh, p')).1 = (extChain es (nh, p)).1 ∧
    Arrives (.proto (extChain es (nh, p)).1) (extChain es (nh, p)).2
      (extChain (es.map Ext.padded) (nh, p')).2 := by
  induction es with
  | nil => exact ⟨rfl, hp⟩
  | cons e es ih =>
    obtain ⟨i1, i2⟩ := ih (fun x hx => hf x (by simp [hx]))
    have he := hf e (by simp)
    generalize hx : extChain es (nh, p) = x at *
    generalize hy : extChain (es.map Ext.padded) (nh, p') = y at *
    have ex : extChain (e :: es) (nh, p) = e.before x := by rw [← hx]; rfl
    have ey : extChain ((e :: es).map Ext.padded) (nh, p') = e.padded.before y := by rw [← hy]; rfl
    rw [ex, ey]
    obtain ⟨x1, x2⟩ := x
    obtain ⟨y1, y2⟩ := y
    simp only at i1 i2
    subst i1
    cases e with
    | hbh o => exact ⟨rfl, .hbh i2⟩
    | dest o => exact ⟨rfl, .dest i2⟩
    | routing rt sl d => exact ⟨rfl, .routing i2⟩
    | fragment off mf i => cases he

/-- C12: any chain of hop-by-hop, destination options and routing headers, of any length, in front
of any payload that arrives, is parsed back (data zero padded to 8 bytes), in order and with the
right next-header numbers. -/
theorem ipv6_chain_round_trip {h : V6Hdr} {es : List Ext} (hf : ∀ e ∈ es, e.isFragment = false)
    {nh : Int} {p p' : Pkt} {d : Bytes} (h1 : ∀ t, p.headerType = some t → nh = t)
    (hn : h.nextHeader = (extChain es (nh, p)).1) (hp : Arrives (.proto nh) p p')
    (hd : (Pkt.ipv6 h (extChain es (nh, p)).2).toBytes = .ok d) :
    Pkt.fromBytes (.ipv6 true) d = .ok (.ipv6 h (extChain (es.map Ext.padded) (nh, p')).2) := by
  have hc := (extChain_arrives hf hp).2
  have := ipv6_round_trip (h := h) (nh := (extChain es (nh, p)).1) ?_ (fun _ => hn.symm) hc hd
  · rw [← hn] at this; exact this
  · intro t ht
    cases es with
    | nil => exact h1 t ht
    | cons e es => cases e <;> · simp [extChain, Ext.before, Pkt.headerType] at ht ⊢; omega

/-- C12: with a fragment header at the end of the chain (in front of whatever is in the fragment) the
chain is parsed back up to the fragment header, and the fragment comes back as its bytes. -/
theorem ipv6_fragment_round_trip {h : V6Hdr} {es : List Ext} (hf : ∀ e ∈ es, e.isFragment = false)
    {nh off ident : Int} {mf : Bool} {p : Pkt} {b d : Bytes} (hb : p.toBytes = .ok b)
    (hn : h.nextHeader = (extChain es (44, .fragment nh off mf ident p)).1)
    (hd : (Pkt.ipv6 h (extChain es (44, .fragment nh off mf ident p)).2).toBytes = .ok d) :
    Pkt.fromBytes (.ipv6 true) d =
      .ok (.ipv6 h (extChain (es.map Ext.padded) (44, .fragment nh off mf ident (.raw b))).2) :=
  ipv6_chain_round_trip hf (fun t ht => by simp [Pkt.headerType] at ht; omega) hn
    (.fragment hb) hd

/-- C12: the same for a no-next-header: what follows it comes back as its bytes. -/
theorem ipv6_nonext_round_trip {h : V6Hdr} {es : List Ext} (hf : ∀ e ∈ es, e.isFragment = false)
    {p : Pkt} {b d : Bytes} (hb : p.toBytes = .ok b)
    (hn : h.nextHeader = (extChain es (59, .nonext p)).1)
    (hd : (Pkt.ipv6 h (extChain es (59, .nonext p)).2).toBytes = .ok d) :
    Pkt.fromBytes (.ipv6 true) d =
      .ok (.ipv6 h (extChain (es.map Ext.padded) (59, .nonext (.raw b))).2) :=
  ipv6_chain_round_trip hf (fun t ht => by simp [Pkt.headerType] at ht; omega) hn (.nonext hb) hd

/-- extension headers, each with its own next-header field, stacked in front of a payload -/
def stack (es : List (Ext × Int)) (p : Pkt) : Pkt :=
  es.foldr (fun e q => (e.1.before (e.2, q)).2) p

/-- C13: in front of a payload that is no extension header, the walk goes through the whole chain:
the final payload is what follows the last header, with the number the last header gives. -/
theorem final_payload_of_chain (h : V6Hdr) (es : List (Ext × Int)) (p : Pkt)
    (hp : isExtHeader p = false) :
    (Pkt.ipv6 h (stack es p)).getFinalPayload =
      some ((es.getLast?.map Prod.snd).getD h.nextHeader, p) := by
  have key : ∀ (es : List (Ext × Int)) (n : Int), finalPayload n (stack es p) =
      ((es.getLast?.map Prod.snd).getD n, p) := by
    intro es
    induction es with
    | nil =>
      intro n
      show finalPayload n p = _
      cases p <;> first | rfl | cases hp
    | cons e es ih =>
      intro n
      have : finalPayload n (stack (e :: es) p) = finalPayload e.2 (stack es p) := by
        obtain ⟨e, m⟩ := e
        cases e <;> rfl
      rw [this, ih]
      cases es with
      | nil => rfl
      | cons e' es => simp [List.getLast?_cons_cons, List.getLast?_eq_some_getLast]
  simp [Pkt.getFinalPayload, key]

/-- C13: an IPv6 packet is fragmented exactly when its chain contains a fragment header. -/
theorem is_fragmented_of_chain (h : V6Hdr) (es : List (Ext × Int)) (p : Pkt)
    (hp : isExtHeader p = false) :
    (Pkt.ipv6 h (stack es p)).isFragmented = some (es.any fun e => e.1.isFragment) := by
  have key : hasFragment (stack es p) = es.any fun e => e.1.isFragment := by
    induction es with
    | nil => show hasFragment p = _; cases p <;> first | rfl | cases hp
    | cons e es ih =>
      simp only [List.any_cons, ← ih]
      obtain ⟨e, m⟩ := e
      cases e <;> simp [stack, Ext.before, hasFragment, Ext.isFragment]
  simp [Pkt.isFragmented, key]

/-- C13: every payload is such a stack of extension headers in front of something else, so the two
theorems above cover every IPv6 packet. -/
theorem every_payload_is_a_stack : ∀ p : Pkt, ∃ es q, isExtHeader q = false ∧ p = stack es q
  | .hbh nh o p => by
    obtain ⟨es, q, hq, rfl⟩ := every_payload_is_a_stack p
    exact ⟨(.hbh o, nh) :: es, q, hq, rfl⟩
  | .dest nh o p => by
    obtain ⟨es, q, hq, rfl⟩ := every_payload_is_a_stack p
    exact ⟨(.dest o, nh) :: es, q, hq, rfl⟩
  | .routing nh rt sl d p => by
    obtain ⟨es, q, hq, rfl⟩ := every_payload_is_a_stack p
    exact ⟨(.routing rt sl d, nh) :: es, q, hq, rfl⟩
  | .fragment nh off mf i p => by
    obtain ⟨es, q, hq, rfl⟩ := every_payload_is_a_stack p
    exact ⟨(.fragment off mf i, nh) :: es, q, hq, rfl⟩
  | .raw b => ⟨[], .raw b, rfl, rfl⟩
  | .ipv4 h p => ⟨[], .ipv4 h p, rfl, rfl⟩
  | .ipv6 h p => ⟨[], .ipv6 h p, rfl, rfl⟩
  | .nonext p => ⟨[], .nonext p, rfl, rfl⟩
  | .udp h p => ⟨[], .udp h p, rfl, rfl⟩
  | .data h p => ⟨[], .data h p, rfl, rfl⟩
  | .ctrl m => ⟨[], .ctrl m, rfl, rfl⟩
  | .ecm h p => ⟨[], .ecm h p, rfl, rfl⟩

/-- C13: an IPv4 packet's final payload is its payload; it is fragmented exactly when more
fragments follow or its offset is not zero. -/
theorem ipv4_final_payload (h : V4Hdr) (p : Pkt) :
    (Pkt.ipv4 h p).getFinalPayload = some (h.nextHeader, p) ∧
    ((Pkt.ipv4 h p).isFragmented = some true ↔ h.mf = true ∨ h.fragOff ≠ 0) := by
  simp [Pkt.getFinalPayload, Pkt.isFragmented]

/-! Non-vacuity: an IPv6 packet with three extension headers in front of UDP, and one in front of a
fragment. -/

def exSrc6 : IP := ⟨.v6, 0x20010db8000000000000000000000001, by decide⟩
def exDst6 : IP := ⟨.v6, 0x20010db8000000000000000000000002, by decide⟩
def exHdr6 : V6Hdr :=
  { trafficClass := 1, flowLabel := 0xabcde, hopLimit := 9, src := some exSrc6, dst := some exDst6 }
def exExts : List Ext := [.hbh [1, 2, 3], .routing 0 1 [9, 9, 9, 9, 9], .dest []]

example : ∃ d, (Pkt.ipv6 exHdr6 (extChain exExts (17, exUdpPkt)).2).toBytes = .ok d ∧
    Pkt.fromBytes (.ipv6 true) d = .ok (.ipv6 exHdr6 (.hbh 43 [1, 2, 3, 0, 0, 0]
      (.routing 60 0 1 [9, 9, 9, 9, 9, 0, 0, 0, 0, 0, 0, 0] (.dest 17 [0, 0, 0, 0, 0, 0] exUdpPkt)))) := by
  obtain ⟨d, hd⟩ := isOk_iff.mp (show isOk (Pkt.ipv6 exHdr6 (extChain exExts (17, exUdpPkt)).2).toBytes
    = true by decide +kernel)
  refine ⟨d, hd, ipv6_chain_round_trip (es := exExts) (nh := 17) (p := exUdpPkt) ?_ ?_ rfl
    (.udp (.opaquePorts (by decide) (by decide) rfl)) hd⟩
  · simp [exExts, Ext.isFragment]
  · intro t h; cases h; rfl

example : ∃ d, (Pkt.ipv6 exHdr6 (extChain [.hbh [7]] (44, .fragment 60 8 true 5 (.dest 17 [] exUdpPkt))).2).toBytes
    = .ok d := isOk_iff.mp (by decide +kernel)

example : (Pkt.ipv6 exHdr6 (stack [(.hbh [], 44), (.fragment 8 true 5, 17)] exUdpPkt)).getFinalPayload =
    some (17, exUdpPkt) := final_payload_of_chain _ _ _ rfl

example : (Pkt.ipv6 exHdr6 (stack [(.hbh [], 44), (.fragment 8 true 5, 17)] exUdpPkt)).isFragmented =
    some true := is_fragmented_of_chain _ _ _ rfl

/-! ### UDP -/

/-- the payload of a UDP message: LISP data on port 4341, otherwise LISP control on port 4342,
otherwise bytes -/
def udpPayloadParsed (h : UdpHdr) (payload : Bytes) (q : Pkt) : Prop :=
  if h.sport = 4341 ∨ h.dport = 4341 then Pkt.fromBytes (.data true) payload = .ok q
  else if h.sport = 4342 ∨ h.dport = 4342 then Pkt.fromBytes .control payload = .ok q
  else q = .raw payload

/-- Specification: `d` is a well-formed UDP message. -/
structure IsUDP (d : Bytes) (h : UdpHdr) (payload : Bytes) : Prop where
  layout : d = rfc768 h payload
  length : d.length < 65536
  sport : 0 ≤ h.sport ∧ h.sport < 65536
  dport : 0 ≤ h.dport ∧ h.dport < 65536
  cksum : 0 ≤ h.cksum ∧ h.cksum < 65536

theorem isUDP_iff {d : Bytes} {h : UdpHdr} {pl : Bytes} : IsUDP d h pl ↔
    (0 ≤ h.sport ∧ h.sport < 2 ^ 16) ∧ (0 ≤ h.dport ∧ h.dport < 2 ^ 16) ∧
    (0 ≤ h.cksum ∧ h.cksum < 2 ^ 16) ∧ pl.length + 8 < 2 ^ 16 ∧
    bytesToBits d = natToBits 16 h.sport.toNat ++ natToBits 16 h.dport.toNat ++
      natToBits 16 (pl.length + 8) ++ natToBits 16 h.cksum.toNat ++ bytesToBits pl := by
  constructor
  · intro w
    have hl := w.length
    rw [w.layout] at hl
    simp [rfc768] at hl
    exact ⟨w.sport, w.dport, w.cksum, by omega, by rw [w.layout, rfc768_bits]⟩
  · rintro ⟨h1, h2, h3, h4, hd⟩
    rw [← rfc768_bits] at hd
    have hd := bytesToBits_inj hd
    refine ⟨hd, ?_, h1, h2, h3⟩
    rw [hd]; simp [rfc768]; omega

/-- C14: `UDPMessage.from_bytes` accepts exactly the well-formed UDP messages (length field equal to
the length of the data) whose payload is accepted by the parser its ports select. -/
theorem udp_accepted_iff (d : Bytes) (p : Pkt) :
    Pkt.fromBytes .udp d = .ok p ↔
      ∃ h payload q, IsUDP d h payload ∧ udpPayloadParsed h payload q ∧ p = .udp h q := by
  have hpay : ∀ (h : UdpHdr) pl q, udpPayloadParsed h pl q ↔ decUdpPayload dec h pl = .ok q := by
    intro h pl q
    unfold udpPayloadParsed decUdpPayload Pkt.fromBytes
    split
    · rfl
    · split
      · rfl
      · simp [eq_comm]
  rw [Pkt.fromBytes, dec_eq]
  simp only [decStep, decUdp, exBind_ok, exPure, Except.ok.injEq, isUDP_iff, hpay]
  constructor
  · rintro ⟨⟨⟨h, pl⟩, rest⟩, hr, q, hq, _, hn, _, hs, rfl⟩
    obtain ⟨a1, a2, a3, a4, a5⟩ := readUdp_inv hr
    simp only [noneLeft, exIte_ok] at hn
    obtain ⟨rfl, _⟩ := hn
    exact ⟨h, pl, q, ⟨a1, a2, a3, a4, by simpa using a5⟩, hq, rfl⟩
  · rintro ⟨h, pl, q, ⟨a1, a2, a3, a4, a5⟩, hq, rfl⟩
    refine ⟨((h, pl), []), ?_, q, hq, (), by simp [noneLeft], (), ?_, rfl⟩
    · rw [a5, ← List.append_nil (_ ++ bytesToBits pl)]
      exact readUdp_app a1 a2 a3 a4
    · simp only [UdpHdr.sanitize]
      rw [if_neg (by omega), if_neg (by omega)]

/-- C14: a UDP message that was serialised is parsed back as the same message; LISP payloads are
decoded on ports 4341 and 4342 (`Arrives`). -/
theorem udp_round_trip {h : UdpHdr} {p p' : Pkt} {d : Bytes}
    (hp : Arrives (.ports h.sport h.dport) p p') (hd : (Pkt.udp h p).toBytes = .ok d) :
    Pkt.fromBytes .udp d = .ok (.udp h p') :=
  arrives_parse (.udp hp) d hd (fun _ e => by cases e; decide)

/-- C14: on other ports every payload comes back as its bytes. -/
theorem udp_round_trip_raw {h : UdpHdr} {p : Pkt} {d : Bytes} (h1 : h.sport ≠ 4341 ∧ h.dport ≠ 4341)
    (h2 : h.sport ≠ 4342 ∧ h.dport ≠ 4342) (hd : (Pkt.udp h p).toBytes = .ok d) :
    ∃ payload, p.toBytes = .ok payload ∧ Pkt.fromBytes .udp d = .ok (.udp h (.raw payload)) := by
  have hd' := hd
  simp only [Pkt.toBytes] at hd'
  obtain ⟨_, _, hd'⟩ := exBind_ok.mp hd'
  obtain ⟨pb, hpb, _⟩ := exBind_ok.mp hd'
  exact ⟨pb, hpb, udp_round_trip (.opaquePorts h1 h2 hpb) hd⟩

/-- C14: a UDP message can be serialised exactly when ports and checksum fit 16 bits and the payload
can be serialised in less than 65528 bytes; the result is the RFC 768 layout. -/
theorem udp_written_iff {h : UdpHdr} {p : Pkt} {d : Bytes} :
    (Pkt.udp h p).toBytes = .ok d ↔ ∃ payload, p.toBytes = .ok payload ∧ IsUDP d h payload := by
  constructor
  · intro hd
    simp only [Pkt.toBytes] at hd
    obtain ⟨_, _, hd⟩ := exBind_ok.mp hd
    obtain ⟨pb, hpb, henc⟩ := exBind_ok.mp hd
    exact ⟨pb, hpb, isUDP_iff.mpr (encUdp_ok henc)⟩
  · rintro ⟨pb, hpb, hw⟩
    obtain ⟨a1, a2, a3, a4, a5⟩ := isUDP_iff.mp hw
    have hs : h.sanitize = .ok () := by
      simp only [UdpHdr.sanitize]
      rw [if_neg (by omega), if_neg (by omega)]
    have hl : ((pb.length + 8 : Nat) : Int) < 2 ^ 16 := by omega
    have henc : encUdpRaw h pb.length = .ok (natToBits 16 h.sport.toNat ++
        natToBits 16 h.dport.toNat ++ natToBits 16 (pb.length + 8) ++ natToBits 16 h.cksum.toNat) := by
      unfold encUdpRaw
      rw [encUint_eq_ok a1.1 a1.2, exBind_okl, encUint_eq_ok a2.1 a2.2, exBind_okl,
        encUint_eq_ok (Int.natCast_nonneg _) hl, exBind_okl, encUint_eq_ok a3.1 a3.2, exBind_okl,
        exPure, Int.toNat_natCast]
    obtain ⟨x, hx, _⟩ := bitsToBytes_ok_of_length (k := 8) (b := natToBits 16 h.sport.toNat ++
      natToBits 16 h.dport.toNat ++ natToBits 16 (pb.length + 8) ++ natToBits 16 h.cksum.toNat)
      (by simp)
    unfold Pkt.toBytes
    rw [hs, exBind_okl, hpb, exBind_okl, henc, exBind_okl]
    exact withPayload_ok.mpr ⟨a5, x, hx⟩

end PyLisp.Props
