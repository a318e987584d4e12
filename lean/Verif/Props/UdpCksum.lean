import Verif.Props.IP
/-
Properties C15, C16: the UDP checksum.
-/
namespace PyLisp.Props
open PyLisp

attribute [local irreducible] natToBits readUint readBits readBool readBytes readInt zeros readIP

/-- Specification: the pseudo header of RFC 768 (IPv4) and RFC 8200 section 8.1 (IPv6) for a UDP
length. -/
inductive IsPseudo : Option IP → Option IP → Nat → Bytes → Prop
  | v4 {a b : IP} {len : Nat} (ha : a.ver = .v4) (hb : b.ver = .v4) (hl : len < 65536) :
      IsPseudo (some a) (some b) len (be32 a.val ++ be32 b.val ++ [0, 17] ++ be16 len)
  | v6 {a b : IP} {len : Nat} (ha : a.ver = .v6) (hb : b.ver = .v6) (hl : len < 4294967296) :
      IsPseudo (some a) (some b) len (be128 a.val ++ be128 b.val ++ be32 len ++ [0, 0, 0, 17])

theorem pseudo_iff {s d : Option IP} {len : Nat} {ph : Bytes} :
    pseudoHeader s d len = .ok ph ↔ IsPseudo s d len ph := by
  have e17 : natToBits 16 17 = bytesToBits [0, 17] := by
    rw [← bytesToBits_be16]; rfl
  have e17' : natToBits 32 17 = bytesToBits [0, 0, 0, 17] := by
    rw [← bytesToBits_be32]; rfl
  constructor
  · intro h
    unfold pseudoHeader at h
    split at h
    · rename_i a b
      split at h
      · rename_i hv
        obtain ⟨l, hl, h⟩ := exBind_ok.mp h
        obtain ⟨_, hl, rfl⟩ := encUint_iff.mp hl
        have h := bytesToBits_of_bitsToBytes h
        rw [e17, Int.toNat_natCast, ← bytesToBits_be16, ← bytesToBits_be32, ← bytesToBits_be32,
          ← bytesToBits_append, ← bytesToBits_append, ← bytesToBits_append] at h
        rw [bytesToBits_inj h]
        exact .v4 hv.1 hv.2 (by omega)
      · split at h
        · rename_i hv
          obtain ⟨l, hl, h⟩ := exBind_ok.mp h
          obtain ⟨_, hl, rfl⟩ := encUint_iff.mp hl
          have h := bytesToBits_of_bitsToBytes h
          rw [e17', Int.toNat_natCast, ← bytesToBits_be32, ← bytesToBits_be128, ← bytesToBits_be128,
            ← bytesToBits_append, ← bytesToBits_append, ← bytesToBits_append] at h
          rw [bytesToBits_inj h]
          exact .v6 hv.1 hv.2 (by omega)
        · cases h
    · cases h
  · rintro (⟨ha, hb, hl⟩ | ⟨ha, hb, hl⟩)
    · unfold pseudoHeader
      simp only [ha, hb, and_self, if_true]
      rw [encUint_eq_ok (Int.natCast_nonneg _) (by omega), exBind_okl, e17, Int.toNat_natCast,
        ← bytesToBits_be16, ← bytesToBits_be32, ← bytesToBits_be32,
        ← bytesToBits_append, ← bytesToBits_append, ← bytesToBits_append]
      exact bitsToBytes_bytesToBits _
    · unfold pseudoHeader
      simp only [ha, hb, and_self, if_true, reduceCtorEq, if_false]
      rw [encUint_eq_ok (Int.natCast_nonneg _) (by omega), exBind_okl, e17', Int.toNat_natCast,
        ← bytesToBits_be32, ← bytesToBits_be128, ← bytesToBits_be128,
        ← bytesToBits_append, ← bytesToBits_append, ← bytesToBits_append]
      exact bitsToBytes_bytesToBits _

theorem IsPseudo.even {s d : Option IP} {len : Nat} {ph : Bytes} (h : IsPseudo s d len ph) :
    ph.length % 2 = 0 := by
  cases h <;> simp

/-- the UDP message with checksum `c`, in three parts -/
theorem rfc768_split (h : UdpHdr) (c : Nat) (pl : Bytes) : rfc768 { h with cksum := c } pl =
    (be16 h.sport.toNat ++ be16 h.dport.toNat ++ be16 (8 + pl.length)) ++ be16 c ++ pl := by
  simp [rfc768]

theorem udp_wire {h : UdpHdr} {p : Pkt} {pb w : Bytes} (hpb : p.toBytes = .ok pb) :
    (Pkt.udp h p).toBytes = .ok w ↔ IsUDP w h pb := by
  rw [udp_written_iff]
  constructor
  · rintro ⟨pb', hpb', hw⟩
    rw [hpb] at hpb'; cases hpb'; exact hw
  · exact fun hw => ⟨pb, hpb, hw⟩

theorem isUDP_cksum {w : Bytes} {h : UdpHdr} {pl : Bytes} (hw : IsUDP w h pl) {c : Nat} (hc : c < 65536) :
    IsUDP (rfc768 { h with cksum := c } pl) { h with cksum := c } pl := by
  have hl := hw.length
  rw [hw.layout] at hl
  exact ⟨rfl, by simpa [rfc768] using hl, hw.sport, hw.dport, ⟨by simp, by simp; omega⟩⟩

/-- the value `calculate_checksum` returns -/
theorem udpChecksum_ok {h : UdpHdr} {p : Pkt} {s d : Option IP} {c : Nat} :
    udpChecksum h p s d = .ok c ↔ ∃ pb ph, p.toBytes = .ok pb ∧ IsPseudo s d (8 + pb.length) ph ∧
      IsUDP (rfc768 { h with cksum := 0 } pb) { h with cksum := 0 } pb ∧
      c = if onesComplement (ph ++ rfc768 { h with cksum := 0 } pb) = 0 then 65535
        else onesComplement (ph ++ rfc768 { h with cksum := 0 } pb) := by
  unfold udpChecksum
  constructor
  · intro hh
    obtain ⟨pb, hpb, hh⟩ := exBind_ok.mp hh
    obtain ⟨ph, hph, hh⟩ := exBind_ok.mp hh
    obtain ⟨msg, hm, hh⟩ := exBind_ok.mp hh
    have hu := (udp_wire hpb).mp hm
    have := hu.layout
    subst this
    cases hh
    exact ⟨pb, ph, hpb, pseudo_iff.mp hph, hu, rfl⟩
  · rintro ⟨pb, ph, hpb, hph, hu, rfl⟩
    rw [hpb, exBind_okl, pseudo_iff.mpr hph, exBind_okl, (udp_wire hpb).mpr hu]
    rfl

/-- the checksum word that makes the message verify, as a number -/
theorem cksum_unique {pre post : Bytes} {x : Nat} (he : pre.length % 2 = 0) (hx : x < 65536)
    (hnz : 0 < (words pre).sum) (hx0 : x ≠ 0) :
    onesComplement (pre ++ be16 x ++ post) = 0 ↔
      x = if onesComplement (pre ++ be16 0 ++ post) = 0 then 65535
        else onesComplement (pre ++ be16 0 ++ post) := by
  have hw : ∀ v, v < 65536 → (words (pre ++ be16 v ++ post)).sum
      = (words pre).sum + v + (words post).sum := by
    intro v hv
    rw [List.append_assoc, words_append _ _ he, words_append _ _ (by simp), words_be16 hv]
    simp; omega
  rw [checksum_closed_form, checksum_closed_form, ← words_sum, ← words_sum, hw x hx, hw 0 (by omega)]
  generalize (words pre).sum = a at *
  generalize (words post).sum = b at *
  clear hw
  have h1 : ¬ (a + x + b = 0) := by omega
  have h2 : ¬ (a + 0 + b = 0) := by omega
  rw [if_neg h1, if_neg h2]
  by_cases h3 : (a + 0 + b) % 65535 = 0
  · rw [if_pos h3, if_pos rfl]
    split <;> omega
  · have h4 : ¬ (65535 - (a + 0 + b) % 65535 = 0) := by
      have := Nat.mod_lt (a + 0 + b) (show 0 < 65535 by decide); omega
    rw [if_neg h3, if_neg h4]
    have e1 := Nat.div_add_mod (a + 0 + b) 65535
    have e2 := Nat.div_add_mod (a + x + b) 65535
    have l1 := Nat.mod_lt (a + 0 + b) (show 0 < 65535 by decide)
    have l2 := Nat.mod_lt (a + x + b) (show 0 < 65535 by decide)
    generalize (a + 0 + b) % 65535 = m at *
    generalize (a + x + b) % 65535 = n at *
    generalize (a + 0 + b) / 65535 = q at *
    generalize (a + x + b) / 65535 = r at *
    split <;> constructor <;> intro h <;> omega

theorem pseudo_nonzero {s d : Option IP} {len : Nat} {ph : Bytes} (h : IsPseudo s d len ph) (t : Bytes) :
    0 < (words (ph ++ t)).sum := by
  have key : ∀ (a b c : Bytes) (v : Nat), a.length % 2 = 0 → 0 < v → v < 65536 →
      0 < (words (a ++ be16 v ++ b)).sum := by
    intro a b c v ha hv hv'
    rw [List.append_assoc, words_append _ _ ha, words_append _ _ (by simp), words_be16 hv']
    simp; omega
  cases h with
  | @v4 a b _ ha hb hl =>
    have := key (be32 a.val ++ be32 b.val) (be16 len ++ t) [] 17 (by simp) (by omega) (by omega)
    simpa [be16] using this
  | @v6 a b _ ha hb hl =>
    have := key (be128 a.val ++ be128 b.val ++ be32 len ++ [0, 0]) t [] 17 (by simp) (by omega) (by omega)
    simpa [be16] using this

theorem udp_cksum_key {h : UdpHdr} {pb ph : Bytes} {s d : Option IP} {len : Nat} {x : Nat}
    (hph : IsPseudo s d len ph) (hx : x < 65536) (hx0 : x ≠ 0) :
    onesComplement (ph ++ rfc768 { h with cksum := (x : Int) } pb) = 0 ↔
      x = if onesComplement (ph ++ rfc768 { h with cksum := 0 } pb) = 0 then 65535
        else onesComplement (ph ++ rfc768 { h with cksum := 0 } pb) := by
  have e0 := rfc768_split h 0 pb
  have := cksum_unique (pre := ph ++ (be16 h.sport.toNat ++ be16 h.dport.toNat ++
    be16 (8 + pb.length))) (post := pb) (x := x)
    (by have := hph.even; simp; omega) hx (pseudo_nonzero hph _) hx0
  rw [rfc768_split h x pb]
  rw [show (((0 : Nat) : Int)) = 0 from rfl] at e0
  rw [e0]
  simpa only [List.append_assoc] using this

/-- C15: the calculated checksum is never 0 and fits 16 bits, and the message verifies with it. -/
theorem udp_checksum_verifies {h : UdpHdr} {p : Pkt} {s d : Option IP} {c : Nat}
    (hc : udpChecksum h p s d = .ok c) :
    1 ≤ c ∧ c ≤ 65535 ∧ udpVerify { h with cksum := c } p s d = .ok true := by
  obtain ⟨pb, ph, hpb, hph, hu, rfl⟩ := udpChecksum_ok.mp hc
  have hr := checksum_range (ph ++ rfc768 { h with cksum := 0 } pb)
  have h1 : 1 ≤ (if onesComplement (ph ++ rfc768 { h with cksum := 0 } pb) = 0 then 65535
        else onesComplement (ph ++ rfc768 { h with cksum := 0 } pb)) := by split <;> omega
  refine ⟨h1, by split <;> omega, ?_⟩
  unfold udpVerify
  rw [if_neg (by simp only; omega)]
  have : ∀ x : Int, udpChecksum { h with cksum := x } p s d = udpChecksum h p s d := fun x => rfl
  rw [this, hc]
  simp

/-- C15: a zero checksum means "no checksum" and is always accepted. -/
theorem udp_zero_checksum_accepted (h : UdpHdr) (p : Pkt) (s d : Option IP) (hz : h.cksum = 0) :
    udpVerify h p s d = .ok true := by
  unfold udpVerify; rw [if_pos hz]

/-- C15/C16: `verify_checksum` of a message with a non-zero checksum is exactly the RFC check: the
one's complement sum over pseudo header and message is all ones (`ones_complement` gives 0). -/
theorem udp_verify_iff {h : UdpHdr} {p : Pkt} {s d : Option IP} (hz : h.cksum ≠ 0) :
    udpVerify h p s d = .ok true ↔ ∃ ph wire, (Pkt.udp h p).toBytes = .ok wire ∧
      IsPseudo s d wire.length ph ∧ onesComplement (ph ++ wire) = 0 := by
  unfold udpVerify
  rw [if_neg hz]
  constructor
  · intro hh
    obtain ⟨c, hc, hh⟩ := exBind_ok.mp hh
    simp only [exPure, Except.ok.injEq, decide_eq_true_eq] at hh
    obtain ⟨h1, h2, _⟩ := udp_checksum_verifies hc
    obtain ⟨pb, ph, hpb, hph, hu, hcv⟩ := udpChecksum_ok.mp hc
    have heq : { h with cksum := (c : Int) } = h := by rw [← hh]
    have hw := isUDP_cksum (c := c) hu (by omega)
    have hw' : IsUDP (rfc768 h pb) h pb := by rw [← heq]; exact hw
    refine ⟨ph, rfc768 h pb, (udp_wire hpb).mpr hw', ?_, ?_⟩
    · have : (rfc768 h pb).length = 8 + pb.length := by simp [rfc768]; omega
      rw [this]; exact hph
    · rw [← heq]; exact (udp_cksum_key hph (by omega) (by omega)).mpr hcv
  · rintro ⟨ph, wire, hw, hph, hz'⟩
    obtain ⟨pb, hpb, hu⟩ := udp_written_iff.mp hw
    have hl := hu.layout
    subst hl
    have hlen : (rfc768 h pb).length = 8 + pb.length := by simp [rfc768]; omega
    rw [hlen] at hph
    have hck := hu.cksum
    obtain ⟨x, hx⟩ : ∃ x : Nat, h.cksum = x := ⟨h.cksum.toNat, by omega⟩
    have heq : { h with cksum := (x : Int) } = h := by rw [← hx]
    have hu0 : IsUDP (rfc768 { h with cksum := 0 } pb) { h with cksum := 0 } pb :=
      isUDP_cksum (c := 0) hu (by omega)
    have := (udp_cksum_key (h := h) (pb := pb) (x := x) hph (by omega) (by omega)).mp (by rw [heq]; exact hz')
    rw [udpChecksum_ok.mpr ⟨pb, ph, hpb, hph, hu0, rfl⟩, exBind_okl, ← this, hx]
    simp

/-- C16: of two UDP messages with non-zero checksums whose pseudo header and bytes differ in a single
16-bit word (not 0x0000 against 0xffff), at most one verifies: a changed port, length, payload word
or address word is always detected. -/
theorem udp_corruption_detected {h h' : UdpHdr} {p p' : Pkt} {s d s' d' : Option IP}
    {ph ph' wire wire' pre post : Bytes} {v w : Nat}
    (hv : udpVerify h p s d = .ok true) (hc : h.cksum ≠ 0) (hc' : h'.cksum ≠ 0)
    (hw : (Pkt.udp h p).toBytes = .ok wire) (hw' : (Pkt.udp h' p').toBytes = .ok wire')
    (hp : IsPseudo s d wire.length ph) (hp' : IsPseudo s' d' wire'.length ph')
    (e : ph ++ wire = pre ++ be16 v ++ post) (e' : ph' ++ wire' = pre ++ be16 w ++ post)
    (heven : pre.length % 2 = 0) (h1 : v < 65536) (h2 : w < 65536) (hne : v ≠ w)
    (hz : ¬ (v = 0 ∧ w = 65535)) (hz' : ¬ (v = 65535 ∧ w = 0)) :
    udpVerify h' p' s' d' ≠ .ok true := by
  intro hv'
  obtain ⟨q, w1, hq1, hq2, hq3⟩ := (udp_verify_iff hc).mp hv
  obtain ⟨q', w1', hq1', hq2', hq3'⟩ := (udp_verify_iff hc').mp hv'
  rw [hw] at hq1; cases hq1
  rw [hw'] at hq1'; cases hq1'
  have u : q = ph := by
    have a := pseudo_iff.mpr hq2; have b := pseudo_iff.mpr hp
    rw [a] at b; cases b; rfl
  have u' : q' = ph' := by
    have a := pseudo_iff.mpr hq2'; have b := pseudo_iff.mpr hp'
    rw [a] at b; cases b; rfl
  subst u u'
  rw [e] at hq3
  rw [e'] at hq3'
  exact checksum_detects_word_change pre post v w heven h1 h2 hne hz hz' (hq3.trans hq3'.symm)

/-- C15: `calculate_checksum` gives a value exactly when the two addresses are of the same family
and the message (with any 16-bit checksum) can be serialised. -/
theorem udp_checksum_defined_iff {h : UdpHdr} {p : Pkt} {s d : Option IP} :
    (∃ c, udpChecksum h p s d = .ok c) ↔
      (∃ wire, (Pkt.udp { h with cksum := 0 } p).toBytes = .ok wire) ∧
      ∃ a b, s = some a ∧ d = some b ∧ a.ver = b.ver := by
  constructor
  · rintro ⟨c, hc⟩
    obtain ⟨pb, ph, hpb, hph, hu, _⟩ := udpChecksum_ok.mp hc
    refine ⟨⟨_, (udp_wire hpb).mpr hu⟩, ?_⟩
    cases hph with
    | v4 ha hb => exact ⟨_, _, rfl, rfl, by rw [ha, hb]⟩
    | v6 ha hb => exact ⟨_, _, rfl, rfl, by rw [ha, hb]⟩
  · rintro ⟨⟨w, hw⟩, a, b, rfl, rfl, hab⟩
    obtain ⟨pb, hpb, hu⟩ := udp_written_iff.mp hw
    have hlen := hu.length
    have hl := hu.layout
    subst hl
    simp [rfc768] at hlen
    have : ∃ ph, IsPseudo (some a) (some b) (8 + pb.length) ph := by
      cases hv : a.ver with
      | v4 => exact ⟨_, .v4 hv (by rw [← hab, hv]) (by omega)⟩
      | v6 => exact ⟨_, .v6 hv (by rw [← hab, hv]) (by omega)⟩
    obtain ⟨ph, hph⟩ := this
    exact ⟨_, udpChecksum_ok.mpr ⟨pb, ph, hpb, hph, hu, rfl⟩⟩

/-! Non-vacuity -/

example : ∃ c, udpChecksum exUdpHdr (.raw [1, 2, 3]) (some exSrc4) (some exDst4) = .ok c ∧
    udpVerify { exUdpHdr with cksum := c } (.raw [1, 2, 3]) (some exSrc4) (some exDst4) = .ok true := by
  obtain ⟨c, hc⟩ := isOk_iff.mp (show isOk (udpChecksum exUdpHdr (.raw [1, 2, 3]) (some exSrc4)
    (some exDst4)) = true by decide +kernel)
  exact ⟨c, hc, (udp_checksum_verifies hc).2.2⟩

/-- a changed destination port is detected -/
example : ∃ c : Nat, udpChecksum exUdpHdr (.raw [1, 2, 3]) (some exSrc4) (some exDst4) = .ok c ∧
    udpVerify { exUdpHdr with cksum := c, dport := 54 } (.raw [1, 2, 3]) (some exSrc4) (some exDst4)
      ≠ .ok true := by
  obtain ⟨c, hc⟩ := isOk_iff.mp (show isOk (udpChecksum exUdpHdr (.raw [1, 2, 3]) (some exSrc4)
    (some exDst4)) = true by decide +kernel)
  obtain ⟨h1, h2, h3⟩ := udp_checksum_verifies hc
  obtain ⟨ph, wire, hw, hph, _⟩ := (udp_verify_iff (by simp; omega)).mp h3
  obtain ⟨pb, hpb, hu⟩ := udp_written_iff.mp hw
  cases hpb
  have hl := hu.layout
  subst hl
  have hu' : IsUDP (rfc768 { exUdpHdr with cksum := c, dport := 54 } [1, 2, 3])
      { exUdpHdr with cksum := c, dport := 54 } [1, 2, 3] :=
    ⟨rfl, by simp [rfc768], by simp [exUdpHdr], by simp, by simp; omega⟩
  refine ⟨c, hc, udp_corruption_detected h3 (by simp; omega) (by simp; omega) hw
    ((udp_wire rfl).mpr hu') hph hph (pre := ph ++ be16 1000) (v := 53) (w := 54)
    (post := be16 11 ++ be16 c ++ [1, 2, 3]) ?_ ?_ ?_ (by omega) (by omega) (by omega) (by omega) (by omega)⟩
  · simp [rfc768, exUdpHdr]
  · simp [rfc768, exUdpHdr]
  · have := hph.even; simp; omega

end PyLisp.Props
