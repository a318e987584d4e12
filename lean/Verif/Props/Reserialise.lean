import Verif.Props.LispData
/-
Writing a packet again that was received (C64): a packet without LISP messages and IPv4 options is
written as it came in.
-/
namespace PyLisp.Props
open PyLisp

attribute [local irreducible] natToBits readUint readBits readBool readBytes readInt zeros readIP

/-- packets built from IPv4 without options, IPv6, extension headers, UDP and bytes: no LISP messages -/
inductive PlainIP : Pkt → Prop
  | raw (b) : PlainIP (.raw b)
  | ipv4 (h p) (ho : h.options = []) (hp : PlainIP p) : PlainIP (.ipv4 h p)
  | ipv6 (h p) (hp : PlainIP p) : PlainIP (.ipv6 h p)
  | hbh (nh o p) (hp : PlainIP p) : PlainIP (.hbh nh o p)
  | dest (nh o p) (hp : PlainIP p) : PlainIP (.dest nh o p)
  | routing (nh rt sl o p) (hp : PlainIP p) : PlainIP (.routing nh rt sl o p)
  | fragment (nh off mf i p) (hp : PlainIP p) : PlainIP (.fragment nh off mf i p)
  | nonext (p) (hp : PlainIP p) : PlainIP (.nonext p)
  | udp (h p) (hp : PlainIP p) : PlainIP (.udp h p)

/-- there is no fragment header anywhere in the packet -/
inductive NoFragment : Pkt → Prop
  | raw (b) : NoFragment (.raw b)
  | ipv4 (h p) (hp : NoFragment p) : NoFragment (.ipv4 h p)
  | ipv6 (h p) (hp : NoFragment p) : NoFragment (.ipv6 h p)
  | hbh (nh o p) (hp : NoFragment p) : NoFragment (.hbh nh o p)
  | dest (nh o p) (hp : NoFragment p) : NoFragment (.dest nh o p)
  | routing (nh rt sl o p) (hp : NoFragment p) : NoFragment (.routing nh rt sl o p)
  | nonext (p) (hp : NoFragment p) : NoFragment (.nonext p)
  | udp (h p) (hp : NoFragment p) : NoFragment (.udp h p)

theorem payloadParsed_fix {dd : Bool} {nh : Int} {pl : Bytes} {q : Pkt} (h : payloadParsed dd nh pl q)
    (h0 : 0 ≤ nh) : fixNextHeader q nh = nh := by
  have := decPayload_fix (payloadParsed_iff.mp h)
  rwa [Int.toNat_of_nonneg h0] at this

/-- what is known of the bytes a parsed packet is written as -/
def Rewritten (k : Kind) (p : Pkt) (d d' : Bytes) : Prop :=
  p.toBytes = .ok d' ∧ d'.length = d.length ∧ Pkt.fromBytes k d' = .ok p ∧ (NoFragment p → d' = d)

/-- the payload of a header -/
theorem rewritten_payload {dd : Bool} {nh : Int} {pl : Bytes} {q : Pkt}
    (ih : ∀ k d, Pkt.fromBytes k d = .ok q → ∃ d', Rewritten k q d d')
    (h : payloadParsed dd nh pl q) :
    ∃ pl', q.toBytes = .ok pl' ∧ pl'.length = pl.length ∧ payloadParsed dd nh pl' q ∧
      (NoFragment q → pl' = pl) := by
  unfold payloadParsed at h ⊢
  split at h
  · rename_i k hk
    split at h
    · rename_i hd
      obtain ⟨d', h1, h2, h3, h4⟩ := ih k pl h
      exact ⟨d', h1, h2, by simp only [hd, if_true]; exact h3, h4⟩
    · rename_i hd
      subst h
      exact ⟨pl, rfl, rfl, by simp only [if_neg hd], fun _ => rfl⟩
  · subst h
    exact ⟨pl, rfl, rfl, rfl, fun _ => rfl⟩

theorem opts_toBytes {nh : Nat} {len : Nat} {o pl' : Bytes} (h1 : nh < 2 ^ 8) (h2 : len < 2 ^ 8)
    (h3 : o.length = (len + 1) * 8 - 2) :
    ∃ d', (encOpts nh o >>= fun b => withPayload b pl') = .ok d' ∧
      bytesToBits d' = natToBits 8 nh ++ natToBits 8 len ++ bytesToBits o ++ bytesToBits pl' := by
  have e1 : encUint 8 (nh : Int) = .ok (natToBits 8 nh) := by
    rw [encUint_eq_ok (by omega) (by omega), Int.toNat_natCast]
  have e2 : encUint 8 (((o.length + 2 + 7) / 8 : Nat) - 1 : Int) = .ok (natToBits 8 len) := by
    rw [show (((o.length + 2 + 7) / 8 : Nat) - 1 : Int) = (len : Int) by omega,
      encUint_eq_ok (by omega) (by omega), Int.toNat_natCast]
  have e3 : 8 * ((8 - (o.length + 2) % 8) % 8) = 0 := by omega
  have henc : encOpts nh o = .ok (natToBits 8 nh ++ natToBits 8 len ++ bytesToBits o) := by
    unfold encOpts
    rw [e1, exBind_okl, e2, exBind_okl, e3, exPure]
    simp [zeros]
  rw [henc, exBind_okl]
  obtain ⟨x, hx, _⟩ := bitsToBytes_ok_of_length (k := 2 + o.length)
    (b := natToBits 8 nh ++ natToBits 8 len ++ bytesToBits o) (by simp; omega)
  refine ⟨x ++ pl', ?_, ?_⟩
  · rw [withPayload, hx]; rfl
  · rw [bytesToBits_append, bytesToBits_of_bitsToBytes hx]

theorem routing_toBytes {nh rt sl : Nat} {len : Nat} {o pl' : Bytes} (h1 : nh < 2 ^ 8) (hr : rt < 2 ^ 8)
    (hs : sl < 2 ^ 8) (h2 : len < 2 ^ 8) (h3 : o.length = (len + 1) * 8 - 4) :
    ∃ d', (encRouting nh rt sl o >>= fun b => withPayload b pl') = .ok d' ∧
      bytesToBits d' = natToBits 8 nh ++ natToBits 8 len ++ natToBits 8 rt ++ natToBits 8 sl ++
        bytesToBits o ++ bytesToBits pl' := by
  have e : ∀ n : Nat, n < 2 ^ 8 → encUint 8 (n : Int) = .ok (natToBits 8 n) := by
    intro n hn
    rw [encUint_eq_ok (by omega) (by omega), Int.toNat_natCast]
  have e2 : encUint 8 (((o.length + 4 + 7) / 8 : Nat) - 1 : Int) = .ok (natToBits 8 len) := by
    rw [show (((o.length + 4 + 7) / 8 : Nat) - 1 : Int) = (len : Int) by omega, e len h2]
  have e3 : 8 * ((8 - (o.length + 4) % 8) % 8) = 0 := by omega
  have henc : encRouting nh rt sl o = .ok (natToBits 8 nh ++ natToBits 8 len ++ natToBits 8 rt ++
      natToBits 8 sl ++ bytesToBits o) := by
    unfold encRouting
    rw [e nh h1, exBind_okl, e2, exBind_okl, e rt hr, exBind_okl, e sl hs, exBind_okl, e3, exPure]
    simp [zeros]
  rw [henc, exBind_okl]
  obtain ⟨x, hx, _⟩ := bitsToBytes_ok_of_length (k := 4 + o.length)
    (b := natToBits 8 nh ++ natToBits 8 len ++ natToBits 8 rt ++ natToBits 8 sl ++ bytesToBits o)
    (by simp; omega)
  refine ⟨x ++ pl', ?_, ?_⟩
  · rw [withPayload, hx]; rfl
  · rw [bytesToBits_append, bytesToBits_of_bitsToBytes hx]

/-- the lengths of byte strings with these bits -/
theorem length_of_bits {d d' : Bytes} {b : Bits} {pl pl' : Bytes} (h : bytesToBits d = b ++ bytesToBits pl)
    (h' : bytesToBits d' = b ++ bytesToBits pl') (hl : pl'.length = pl.length) : d'.length = d.length := by
  have h := congrArg List.length h
  have h' := congrArg List.length h'
  simp only [List.length_append, bytesToBits_length] at h h'
  omega

theorem rewritten_ipv4 {dd : Bool} {h : V4Hdr} {q : Pkt} {d : Bytes} (ho : h.options = [])
    (ih : ∀ k d, Pkt.fromBytes k d = .ok q → ∃ d', Rewritten k q d d')
    (hd : Pkt.fromBytes (.ipv4 dd) d = .ok (.ipv4 h q)) : ∃ d', Rewritten (.ipv4 dd) (.ipv4 h q) d d' := by
  obtain ⟨h0, pl, q0, hw, hq, he⟩ := (ipv4_accepted_iff dd d _).mp hd
  cases he
  obtain ⟨pl', b1, b2, b3, b4⟩ := rewritten_payload ih hq
  have hfix := payloadParsed_fix hq hw.nextHeader.1
  have hfix' : ({ h with nextHeader := fixNextHeader q h.nextHeader } : V4Hdr) = h := by
    rw [hfix]
  -- the same header in front of the new payload
  have hw' : IsIPv4 (rfc791 h pl'.length (onesComplement (rfc791 h pl'.length 0)) ++ pl') h pl' := by
    refine ⟨rfl, hw.options, ?_, hw.tos, hw.ident, hw.fragOff, hw.ttl, hw.nextHeader, hw.src, hw.dst,
      hw.dontFragment⟩
    have := hw.length
    rw [hw.layout] at this
    simp only [List.length_append, rfc791_length] at this ⊢
    omega
  obtain ⟨d', hd'⟩ := (ipv4_writable_iff (h := h) (p := q) ho).mpr ⟨pl', _, b1, by rw [hfix']; exact hw'⟩
  obtain ⟨pl2, c1, c2⟩ := ipv4_written ho hd'
  rw [b1] at c1
  cases c1
  rw [hfix'] at c2
  refine ⟨d', hd', ?_, (ipv4_accepted_iff dd d' _).mpr ⟨h, pl', q, c2, b3, rfl⟩, ?_⟩
  · rw [c2.layout, hw.layout]
    simp only [List.length_append, rfc791_length]
    omega
  · intro hn
    cases hn with
    | ipv4 _ _ hn =>
      have := b4 hn
      subst this
      rw [c2.layout, hw.layout]

theorem rewritten_ipv6 {dd : Bool} {h : V6Hdr} {q : Pkt} {d : Bytes}
    (ih : ∀ k d, Pkt.fromBytes k d = .ok q → ∃ d', Rewritten k q d d')
    (hd : Pkt.fromBytes (.ipv6 dd) d = .ok (.ipv6 h q)) : ∃ d', Rewritten (.ipv6 dd) (.ipv6 h q) d d' := by
  obtain ⟨h0, pl, q0, hw, hq, he⟩ := (ipv6_accepted_iff dd d _).mp hd
  cases he
  obtain ⟨pl', b1, b2, b3, b4⟩ := rewritten_payload ih hq
  have hfix := payloadParsed_fix hq hw.nextHeader.1
  have hfix' : ({ h with nextHeader := fixNextHeader q h.nextHeader } : V6Hdr) = h := by
    rw [hfix]
  obtain ⟨hr, hl, hbits⟩ := isIPv6_iff.mp hw
  have hsan : h.sanitize q = .ok h :=
    V6Hdr.sanitize_ok.mpr ⟨hr.trafficClass, hr.flowLabel, hr.hopLimit, hr.src, hr.dst, hfix'.symm⟩
  have hS := addrInt_range hr.src
  have hD := addrInt_range hr.dst
  simp only [Ver.width] at hS hD
  have hll : ((pl'.length : Nat) : Int) < 2 ^ 16 := by omega
  have : ∃ x, encV6Raw h pl'.length = .ok x ∧ x.length = 8 * 40 := by
    unfold encV6Raw
    simp only [encUint_eq_ok hr.trafficClass.1 hr.trafficClass.2, encUint_eq_ok hr.flowLabel.1 hr.flowLabel.2,
      encUint_eq_ok (Int.natCast_nonneg _) hll, encUint_eq_ok hr.nextHeader.1 hr.nextHeader.2,
      encUint_eq_ok hr.hopLimit.1 hr.hopLimit.2, encUint_eq_ok hS.1 hS.2, encUint_eq_ok hD.1 hD.2,
      exBind_okl, exPure]
    exact ⟨_, rfl, by simp⟩
  obtain ⟨x, hx, hxl⟩ := this
  obtain ⟨out, hout, _⟩ := bitsToBytes_ok_of_length hxl
  have hd' : (Pkt.ipv6 h q).toBytes = .ok (out ++ pl') := by
    unfold Pkt.toBytes
    rw [hsan, exBind_okl, b1, exBind_okl, hx, exBind_okl, withPayload, hout]
    rfl
  obtain ⟨pl2, c1, c2⟩ := ipv6_written hd'
  rw [b1] at c1
  cases c1
  rw [hfix'] at c2
  refine ⟨_, hd', ?_, (ipv6_accepted_iff dd _ _).mpr ⟨h, pl', q, c2, b3, rfl⟩, ?_⟩
  · obtain ⟨_, _, hb'⟩ := isIPv6_iff.mp c2
    rw [b2] at hb'
    exact length_of_bits hbits hb' b2
  · intro hn
    cases hn with
    | ipv6 _ _ hn =>
      have := b4 hn
      subst this
      rw [c2.layout, hw.layout]

theorem rewritten_udp {h : UdpHdr} {q : Pkt} {d : Bytes} (hp : PlainIP q)
    (hd : Pkt.fromBytes .udp d = .ok (.udp h q)) : ∃ d', Rewritten .udp (.udp h q) d d' := by
  obtain ⟨h0, pl, q0, hw, hq, he⟩ := (udp_accepted_iff d _).mp hd
  cases he
  have hq' : q = .raw pl := by
    unfold udpPayloadParsed at hq
    split at hq
    · obtain ⟨_, _, _, _, _, _, _, _, _, _, _, _, rfl⟩ := (data_accepted_iff true pl q).mp hq
      cases hp
    · split at hq
      · rcases control_result hq with ⟨m, rfl⟩ | ⟨⟨_, _, rfl⟩, _⟩ <;> cases hp
      · exact hq
  subst hq'
  exact ⟨d, udp_written_iff.mpr ⟨pl, rfl, hw⟩, rfl, hd, fun _ => rfl⟩

theorem readOpts_parsed {mk : Int → Bytes → Pkt → Pkt} {d : Bytes} {p : Pkt}
    (hd : decOpts dec mk (bytesToBits d) = .ok p) :
    ∃ nh len o pl q, nh < 2 ^ 8 ∧ len < 2 ^ 8 ∧ o.length = (len + 1) * 8 - 2 ∧
      bytesToBits d = natToBits 8 nh ++ natToBits 8 len ++ bytesToBits o ++ bytesToBits pl ∧
      payloadParsed true (nh : Int) pl q ∧ p = mk nh o q := by
  unfold decOpts at hd
  obtain ⟨⟨⟨nh, o, pl⟩, rest⟩, hr, hd⟩ := exBind_ok.mp hd
  obtain ⟨q, hq, hd⟩ := exBind_ok.mp hd
  cases hd
  obtain ⟨a1, _, len, a2, a3, a4⟩ := readOpts_inv hr
  exact ⟨nh, len, o, pl, q, a1, a2, a3, a4, payloadParsed_iff.mpr (by simpa using hq), rfl⟩

theorem readOpts_parse {mk : Int → Bytes → Pkt → Pkt} {d : Bytes} {nh len : Nat} {o pl : Bytes} {q : Pkt}
    (a1 : nh < 2 ^ 8) (a2 : len < 2 ^ 8) (a3 : o.length = (len + 1) * 8 - 2)
    (a4 : bytesToBits d = natToBits 8 nh ++ natToBits 8 len ++ bytesToBits o ++ bytesToBits pl)
    (a5 : payloadParsed true (nh : Int) pl q) : decOpts dec mk (bytesToBits d) = .ok (mk nh o q) := by
  unfold decOpts
  rw [a4, readOpts_app a1 a2 a3, exBind_okl]
  have := payloadParsed_iff.mp a5
  rw [Int.toNat_natCast] at this
  show (decPayload dec true nh pl >>= fun p => pure (mk nh o p)) = _
  rw [this, exBind_okl]
  rfl

/-- which kind of parser gives an extension header, a fragment, … -/
theorem fromBytes_kind {k : Kind} {d : Bytes} {p : Pkt} (hd : Pkt.fromBytes k d = .ok p) :
    match k with
    | .ipv4 _ => ∃ h q, p = .ipv4 h q
    | .ipv6 _ => ∃ h q, p = .ipv6 h q
    | .hbh => decOpts dec .hbh (bytesToBits d) = .ok p
    | .dest => decOpts dec .dest (bytesToBits d) = .ok p
    | .routing => decRouting dec (bytesToBits d) = .ok p
    | .fragment => runOn readFragment (bytesToBits d) = .ok p
    | .nonext => p = .nonext (.raw d)
    | .udp => ∃ h q, p = .udp h q
    | .data _ => ∃ h q, p = .data h q
    | .control => (∃ m, p = .ctrl m) ∨ ∃ h q, p = .ecm h q := by
  cases k with
  | ipv4 dd => obtain ⟨h, _, q, _, _, rfl⟩ := (ipv4_accepted_iff dd d p).mp hd; exact ⟨h, q, rfl⟩
  | ipv6 dd => obtain ⟨h, _, q, _, _, rfl⟩ := (ipv6_accepted_iff dd d p).mp hd; exact ⟨h, q, rfl⟩
  | udp => obtain ⟨h, _, q, _, _, rfl⟩ := (udp_accepted_iff d p).mp hd; exact ⟨h, q, rfl⟩
  | data dd =>
    obtain ⟨_, _, _, _, _, _, _, _, _, q, _, _, rfl⟩ := (data_accepted_iff dd d p).mp hd
    exact ⟨_, q, rfl⟩
  | control =>
    rcases control_result hd with h | ⟨h, _⟩
    · exact .inl h
    · exact .inr h
  | nonext =>
    rw [Pkt.fromBytes, dec_eq] at hd
    simp only [decStep] at hd
    obtain ⟨b, hb, hd⟩ := exBind_ok.mp hd
    cases hd
    have := bytesToBits_inj (bytesToBits_of_bitsToBytes hb)
    show Pkt.nonext (.raw b) = .nonext (.raw d)
    rw [this]
  | hbh => rw [Pkt.fromBytes, dec_eq] at hd; exact hd
  | dest => rw [Pkt.fromBytes, dec_eq] at hd; exact hd
  | routing => rw [Pkt.fromBytes, dec_eq] at hd; exact hd
  | fragment => rw [Pkt.fromBytes, dec_eq] at hd; exact hd

theorem readFragment_inv {s : Bits} {p : Pkt} (hd : runOn readFragment s = .ok p) :
    ∃ nh off mf ident pl r1 r2, nh < 2 ^ 8 ∧ off < 2 ^ 13 ∧ ident < 2 ^ 32 ∧ r1.length = 8 ∧ r2.length = 2 ∧
      p = .fragment (nh : Nat) (off : Nat) mf (ident : Nat) (.raw pl) ∧
      s = natToBits 8 nh ++ (r1 ++ (natToBits 13 off ++ (r2 ++ ([mf] ++ (natToBits 32 ident ++ bytesToBits pl))))) := by
  obtain ⟨t, h⟩ := runOn_iff.mp hd
  simp only [readFragment, Rd.bind_ok, Rd.pure_ok_iff, readRest_ok] at h
  obtain ⟨nh, s1, h1, r1, s2, h2, off, s3, h3, r2, s4, h4, mf, s5, h5, ident, s6, h6, pl, s7, ⟨h7, rfl⟩,
    rfl, rfl⟩ := h
  obtain ⟨e1, rfl⟩ := readUint_ok h1
  obtain ⟨e2, rfl⟩ := readBits_ok h2
  obtain ⟨e3, rfl⟩ := readUint_ok h3
  obtain ⟨e4, rfl⟩ := readBits_ok h4
  have h5 := readBool_ok h5
  subst h5
  obtain ⟨e6, rfl⟩ := readUint_ok h6
  subst h7
  exact ⟨nh, off, mf, ident, pl, r1, r2, e1, e3, e6, e2, e4, rfl, rfl⟩

theorem rewritten_fragment {p : Pkt} {d : Bytes} (hd : Pkt.fromBytes .fragment d = .ok p) :
    ∃ d', Rewritten .fragment p d d' := by
  obtain ⟨nh, off, mf, ident, pl, r1, r2, a1, a2, a3, a4, a5, rfl, a6⟩ :=
    readFragment_inv (fromBytes_kind hd)
  have e : ∀ n m : Nat, m < 2 ^ n → encUint n (m : Int) = .ok (natToBits n m) := by
    intro n m hm
    rw [encUint_eq_ok (by omega) (by exact_mod_cast hm), Int.toNat_natCast]
  have henc : encFragment nh off mf ident = .ok (natToBits 8 nh ++ zeros 8 ++ natToBits 13 off ++ zeros 2 ++
      [mf] ++ natToBits 32 ident) := by
    unfold encFragment
    rw [e 8 nh a1, exBind_okl, e 13 off a2, exBind_okl, e 32 ident a3, exBind_okl, exPure]
  obtain ⟨x, hx, hxl⟩ := bitsToBytes_ok_of_length (k := 8) (b := natToBits 8 nh ++ zeros 8 ++ natToBits 13 off ++
    zeros 2 ++ [mf] ++ natToBits 32 ident) (by simp)
  have hd' : (Pkt.fragment nh off mf ident (.raw pl)).toBytes = .ok (x ++ pl) := by
    unfold Pkt.toBytes
    rw [henc, exBind_okl, Pkt.toBytes, exBind_okl, withPayload, hx]
    rfl
  refine ⟨x ++ pl, hd', ?_, ?_, ?_⟩
  · have := congrArg List.length a6
    simp only [List.length_append, bytesToBits_length, natToBits_length, List.length_singleton, a4, a5] at this
    rw [List.length_append]
    omega
  · rw [Pkt.fromBytes, dec_eq]
    show runOn readFragment _ = _
    refine runOn_iff.mpr ⟨[], ?_⟩
    rw [bytesToBits_append, bytesToBits_of_bitsToBytes hx]
    exact readFragment_app a1 a2 a3
  · intro hn; cases hn

theorem rewritten_hbh_dest {k : Kind} {mk : Int → Bytes → Pkt → Pkt} {d : Bytes} {nh : Nat} {o : Bytes} {q : Pkt}
    (hk : ∀ d p, Pkt.fromBytes k d = .ok p ↔ decOpts dec mk (bytesToBits d) = .ok p)
    (hb : ∀ nh o q, (mk nh o q).toBytes = (encOpts nh o >>= fun b => q.toBytes >>= fun pb => withPayload b pb))
    (hf : ∀ nh o q, NoFragment (mk nh o q) → NoFragment q)
    (hmk : ∀ nh o q nh' o' q', mk nh o q = mk nh' o' q' → nh = nh' ∧ o = o' ∧ q = q')
    (ih : ∀ k d, Pkt.fromBytes k d = .ok q → ∃ d', Rewritten k q d d')
    (hd : Pkt.fromBytes k d = .ok (mk nh o q)) : ∃ d', Rewritten k (mk nh o q) d d' := by
  obtain ⟨nh1, len, o1, pl, q1, a1, a2, a3, a4, a5, he⟩ := readOpts_parsed ((hk _ _).mp hd)
  obtain ⟨e1, rfl, rfl⟩ := hmk _ _ _ _ _ _ he
  have e1 : nh = nh1 := by omega
  subst e1
  obtain ⟨pl', b1, b2, b3, b4⟩ := rewritten_payload ih a5
  obtain ⟨d', c1, c2⟩ := opts_toBytes (pl' := pl') a1 a2 a3
  refine ⟨d', ?_, ?_, (hk _ _).mpr (readOpts_parse a1 a2 a3 c2 b3), ?_⟩
  · rw [hb]
    rw [b1]
    exact c1
  · exact length_of_bits a4 c2 b2
  · intro hn
    have := b4 (hf _ _ _ hn)
    subst this
    rw [← a4] at c2
    exact bytesToBits_inj c2

theorem rewritten_routing {d : Bytes} {p : Pkt}
    (ih : ∀ nh rt sl o q, p = .routing nh rt sl o q → ∀ k d, Pkt.fromBytes k d = .ok q → ∃ d', Rewritten k q d d')
    (hd : Pkt.fromBytes .routing d = .ok p) : ∃ d', Rewritten .routing p d d' := by
  have hk : ∀ d p, Pkt.fromBytes .routing d = .ok p ↔ decRouting dec (bytesToBits d) = .ok p := by
    intro d p
    rw [Pkt.fromBytes, dec_eq]; rfl
  have hd0 := (hk _ _).mp hd
  unfold decRouting at hd0
  obtain ⟨⟨⟨nh, rt, sl, o, pl⟩, rest⟩, hr, hd0⟩ := exBind_ok.mp hd0
  obtain ⟨q, hq, hd0⟩ := exBind_ok.mp hd0
  cases hd0
  obtain ⟨a1, ar, as, _, len, a2, a3, a4⟩ := readRouting_inv hr
  have a5 : payloadParsed true (nh : Int) pl q := payloadParsed_iff.mpr (by simpa using hq)
  obtain ⟨pl', b1, b2, b3, b4⟩ := rewritten_payload (ih _ _ _ _ _ rfl) a5
  obtain ⟨d', c1, c2⟩ := routing_toBytes (pl' := pl') a1 ar as a2 a3
  refine ⟨d', ?_, length_of_bits a4 c2 b2, ?_, ?_⟩
  · unfold Pkt.toBytes
    rw [b1]
    exact c1
  · rw [hk]
    unfold decRouting
    rw [c2, readRouting_app a1 a2 ar as a3, exBind_okl]
    have := payloadParsed_iff.mp b3
    rw [Int.toNat_natCast] at this
    show (decPayload dec true nh pl' >>= fun p => pure (Pkt.routing nh rt sl o p)) = _
    rw [this, exBind_okl]
    rfl
  · intro hn
    cases hn with
    | routing _ _ _ _ _ hn =>
      have := b4 hn
      subst this
      rw [← a4] at c2
      exact bytesToBits_inj c2

/-- the class of packets a parser returns -/
def Kind.gives : Kind → Pkt → Bool
  | .ipv4 _, .ipv4 .. => true
  | .ipv6 _, .ipv6 .. => true
  | .hbh, .hbh .. => true
  | .dest, .dest .. => true
  | .routing, .routing .. => true
  | .fragment, .fragment .. => true
  | .nonext, .nonext .. => true
  | .udp, .udp .. => true
  | .data _, .data .. => true
  | .control, .ctrl _ => true
  | .control, .ecm .. => true
  | _, _ => false

theorem parsed_class {k : Kind} {d : Bytes} {p : Pkt} (hd : Pkt.fromBytes k d = .ok p) :
    Kind.gives k p = true := by
  have h := fromBytes_kind hd
  cases k with
  | hbh => obtain ⟨_, _, _, _, _, _, _, _, _, _, rfl⟩ := readOpts_parsed h; rfl
  | dest => obtain ⟨_, _, _, _, _, _, _, _, _, _, rfl⟩ := readOpts_parsed h; rfl
  | fragment => obtain ⟨_, _, _, _, _, _, _, _, _, _, _, _, rfl, _⟩ := readFragment_inv h; rfl
  | routing =>
    simp only [decRouting] at h
    obtain ⟨_, _, h⟩ := exBind_ok.mp h
    obtain ⟨_, _, h⟩ := exBind_ok.mp h
    cases h
    rfl
  | nonext => cases h; rfl
  | control => rcases h with ⟨_, rfl⟩ | ⟨_, _, rfl⟩ <;> rfl
  | _ => obtain ⟨_, _, rfl⟩ := h; rfl

/-- C64: a received packet without LISP messages and IPv4 options, of any nesting, is written again with
the same length, and is parsed as the same packet again; without fragment headers the bytes are the same.
(Of a fragment header the ten reserved bits are written as zeros.) -/
theorem plain_rewritten (p : Pkt) (hp : PlainIP p) : ∀ (k : Kind) (d : Bytes), Pkt.fromBytes k d = .ok p →
    ∃ d', p.toBytes = .ok d' ∧ d'.length = d.length ∧ Pkt.fromBytes k d' = .ok p ∧
      (NoFragment p → d' = d) := by
  show ∀ (k : Kind) (d : Bytes), Pkt.fromBytes k d = .ok p → ∃ d', Rewritten k p d d'
  induction p with
  | ipv4 h q ih =>
    intro k d hd
    cases hp with
    | ipv4 _ _ ho hp =>
      have hc := parsed_class hd
      cases k <;> first | (cases hc; done) | exact rewritten_ipv4 ho (ih hp) hd
  | ipv6 h q ih =>
    intro k d hd
    cases hp with
    | ipv6 _ _ hp =>
      have hc := parsed_class hd
      cases k <;> first | (cases hc; done) | exact rewritten_ipv6 (ih hp) hd
  | udp h q ih =>
    intro k d hd
    cases hp with
    | udp _ _ hp =>
      have hc := parsed_class hd
      cases k <;> first | (cases hc; done) | exact rewritten_udp hp hd
  | hbh nh o q ih =>
    intro k d hd
    cases hp with
    | hbh _ _ _ hp =>
      have hc := parsed_class hd
      have h := fromBytes_kind hd
      cases k <;> first
        | (cases hc; done)
        | (obtain ⟨n, _, _, _, _, _, _, _, _, _, he⟩ := readOpts_parsed h
           cases he
           refine rewritten_hbh_dest (mk := .hbh) ?_ ?_ ?_ ?_ (ih hp) hd
           · intro d p; rw [Pkt.fromBytes, dec_eq]; rfl
           · intro nh o q; rfl
           · intro nh o q h; cases h with | hbh _ _ _ h => exact h
           · intro _ _ _ _ _ _ h; cases h; exact ⟨rfl, rfl, rfl⟩)
  | dest nh o q ih =>
    intro k d hd
    cases hp with
    | dest _ _ _ hp =>
      have hc := parsed_class hd
      have h := fromBytes_kind hd
      cases k <;> first
        | (cases hc; done)
        | (obtain ⟨n, _, _, _, _, _, _, _, _, _, he⟩ := readOpts_parsed h
           cases he
           refine rewritten_hbh_dest (mk := .dest) ?_ ?_ ?_ ?_ (ih hp) hd
           · intro d p; rw [Pkt.fromBytes, dec_eq]; rfl
           · intro nh o q; rfl
           · intro nh o q h; cases h with | dest _ _ _ h => exact h
           · intro _ _ _ _ _ _ h; cases h; exact ⟨rfl, rfl, rfl⟩)
  | routing nh rt sl o q ih =>
    intro k d hd
    cases hp with
    | routing _ _ _ _ _ hp =>
      have hc := parsed_class hd
      cases k <;> first
        | (cases hc; done)
        | exact rewritten_routing (fun _ _ _ _ _ he => by cases he; exact ih hp) hd
  | fragment nh off mf i q ih =>
    intro k d hd
    have hc := parsed_class hd
    cases k <;> first | (cases hc; done) | exact rewritten_fragment hd
  | nonext q ih =>
    intro k d hd
    have hc := parsed_class hd
    have h := fromBytes_kind hd
    cases k <;> first
      | (cases hc; done)
      | (cases h; exact ⟨d, by simp [Pkt.toBytes], rfl, hd, fun _ => rfl⟩)
  | raw b =>
    intro k d hd
    have hc := parsed_class hd
    cases k <;> (cases hc; done)
  | data _ _ => cases hp
  | ctrl _ => cases hp
  | ecm _ _ => cases hp

/-! ### The hypotheses are met -/

/-- IPv6 with a hop-by-hop options header, a routing header, and UDP: parsed and written unchanged -/
example : ∃ d p, Pkt.fromBytes (.ipv6 true) d = .ok p ∧ PlainIP p ∧ NoFragment p ∧ p.toBytes = .ok d ∧
    d.length = 67 := by
  obtain ⟨d, hd⟩ := isOk_iff.mp (show isOk (Pkt.ipv6 exHdr6 (.hbh 43 [1, 2, 3, 0, 0, 0]
    (.routing 17 0 1 [9, 9, 9, 9] exUdpPkt))).toBytes = true by decide +kernel)
  have hp : Pkt.fromBytes (.ipv6 true) d = .ok (.ipv6 exHdr6 (.hbh 43 [1, 2, 3, 0, 0, 0]
    (.routing 17 0 1 [9, 9, 9, 9] exUdpPkt))) := by
    have := show (Pkt.ipv6 exHdr6 (.hbh 43 [1, 2, 3, 0, 0, 0]
      (.routing 17 0 1 [9, 9, 9, 9] exUdpPkt))).toBytes >>= (fun d => Pkt.fromBytes (.ipv6 true) d) =
      .ok (.ipv6 exHdr6 (.hbh 43 [1, 2, 3, 0, 0, 0] (.routing 17 0 1 [9, 9, 9, 9] exUdpPkt))) by decide +kernel
    rw [hd] at this
    exact this
  have h1 : PlainIP (.ipv6 exHdr6 (.hbh 43 [1, 2, 3, 0, 0, 0] (.routing 17 0 1 [9, 9, 9, 9] exUdpPkt))) :=
    .ipv6 _ _ (.hbh _ _ _ (.routing _ _ _ _ _ (.udp _ _ (.raw _))))
  have h2 : NoFragment (.ipv6 exHdr6 (.hbh 43 [1, 2, 3, 0, 0, 0] (.routing 17 0 1 [9, 9, 9, 9] exUdpPkt))) :=
    .ipv6 _ _ (.hbh _ _ _ (.routing _ _ _ _ _ (.udp _ _ (.raw _))))
  obtain ⟨d', e1, e2, e3, e4⟩ := plain_rewritten _ h1 _ _ hp
  have := e4 h2
  subst this
  refine ⟨d', _, hp, h1, h2, e1, ?_⟩
  have := show ((Pkt.ipv6 exHdr6 (.hbh 43 [1, 2, 3, 0, 0, 0]
      (.routing 17 0 1 [9, 9, 9, 9] exUdpPkt))).toBytes.map List.length) = .ok 67 by decide +kernel
  rw [e1] at this
  simpa [Except.map] using this

end PyLisp.Props
