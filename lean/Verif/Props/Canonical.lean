import Verif.Props.Accepted
import Verif.Props.Auth
import Verif.Props.Unprintable
/-
Property C34 (and C23, C24, C29, C33): everything that is accepted can be serialised again, and what
becomes of Map-Referral records with other EIDs than networks.
-/
namespace PyLisp.Props
open PyLisp
attribute [local irreducible] natToBits readUint readBits readBool readBytes readInt zeros readIP

theorem isLcaf_len {t x : Nat} {data d : Bytes} (h : IsLcaf t x data d) :
    d.length = 8 + data.length ∧ data.length < 2 ^ 16 ∧ x < 2 ^ 8 := by
  obtain ⟨h1, h2, r, f, rfl⟩ := isLcaf_iff.mp h
  refine ⟨?_, h1, h2⟩
  simp [be16_length]; omega

theorem encLcaf_fits {t : Nat} {r data : Bits} (h : data.length / 8 < 2 ^ 16) :
    ∃ b, encLcaf t r data = .ok b ∧ b.length = 40 + r.length + data.length := by
  unfold encLcaf
  rw [encUint_eq_ok (by omega) (by omega)]
  refine ⟨_, rfl, ?_⟩
  simp; omega

theorem natU {n v : Nat} (h : v < 2 ^ n) : encUint n (v : Int) = .ok (natToBits n v) := by
  rw [encUint_eq_ok (by omega) (by exact_mod_cast h), Int.toNat_natCast]

theorem enc_inst {i m : Nat} {a : Addr} {e b : Bits} (h3 : m < 2 ^ 8) (hi : i < 2 ^ 32) (he : encAddr a = .ok e)
    (hb : encLcaf 2 (natToBits 8 m) (natToBits 32 i ++ e) = .ok b) :
    encAddr (.inst i a m) = .ok (natToBits 16 16387 ++ b) := by
  simp only [encAddr, exBind_ok, exPure]
  exact ⟨_, natU h3, _, natU hi, _, he, _, hb, rfl⟩

theorem enc_asn {i : Nat} {a : Addr} {e b : Bits} (hi : i < 2 ^ 32) (he : encAddr a = .ok e)
    (hb : encLcaf 3 (zeros 8) (natToBits 32 i ++ e) = .ok b) :
    encAddr (.asn i a) = .ok (natToBits 16 16387 ++ b) := by
  simp only [encAddr, exBind_ok, exPure]
  exact ⟨_, natU hi, _, he, _, hb, rfl⟩

theorem enc_geo {n ee : Bool} {ld lm ls od om os : Nat} {alt : Int} {a : Addr} {e b : Bits}
    (hf : GeoFits ld lm ls od om os alt) (he : encAddr a = .ok e)
    (hb : encLcaf 5 (zeros 8) ([n] ++ natToBits 15 ld ++ natToBits 8 lm ++ natToBits 8 ls ++ [ee] ++
      natToBits 15 od ++ natToBits 8 om ++ natToBits 8 os ++ natToBits 32 (alt % 2 ^ 32).toNat ++ e) =
        .ok b) :
    encAddr (.geo n ld lm ls ee od om os alt a) = .ok (natToBits 16 16387 ++ b) := by
  obtain ⟨f1, f2, f3, f4, f5, f6, f7, f8⟩ := hf
  have ha7 : encInt 32 alt = .ok (natToBits 32 (alt % 2 ^ 32).toNat) :=
    encInt_iff.mpr ⟨f7, f8, rfl⟩
  simp only [encAddr, exBind_ok, exPure]
  exact ⟨_, natU f1, _, natU f2, _, natU f3, _, natU f4, _, natU f5, _, natU f6, _, ha7, _, he, _, hb, rfl⟩

theorem enc_natT {mp ep : Nat} {g m q : Addr} {l : List Addr} {eg em eq er b : Bits} (f1 : mp < 2 ^ 16)
    (f2 : ep < 2 ^ 16) (g1 : encAddr g = .ok eg) (m1 : encAddr m = .ok em) (q1 : encAddr q = .ok eq)
    (r1 : encAddrs l = .ok er)
    (hb : encLcaf 7 (zeros 8) (natToBits 16 mp ++ natToBits 16 ep ++ eg ++ em ++ eq ++ er) = .ok b) :
    encAddr (.natT mp ep g m q l) = .ok (natToBits 16 16387 ++ b) := by
  simp only [encAddr, exBind_ok, exPure]
  exact ⟨_, natU f1, _, natU f2, _, g1, _, m1, _, q1, _, r1, _, hb, rfl⟩

mutual
theorem isAddr_writable : ∀ {a : Addr} {d : Bytes}, IsAddr a d →
    ∃ b, encAddr a = .ok b ∧ b.length ≤ 8 * d.length
  | _, _, .none => ⟨_, rfl, by simp [be16_length]⟩
  | _, _, .ip a => ⟨_, rfl, by rw [← wIP_bits, bytesToBits_length]; omega⟩
  | _, _, .null h => by
    obtain ⟨h1, h2, h3⟩ := isLcaf_len h
    obtain ⟨b, hb, hl⟩ := encLcaf_fits (t := 0) (r := zeros 8) (data := []) (by simp)
    refine ⟨natToBits 16 16387 ++ b, by simp only [encAddr, exBind_ok, exPure]; exact ⟨_, hb, rfl⟩, ?_⟩
    simp only [List.length_append, natToBits_length, zeros_length, List.length_nil] at hl ⊢; omega
  | _, _, .afiList hl h => by
    obtain ⟨h1, h2, h3⟩ := isLcaf_len h
    obtain ⟨e, he, hel⟩ := isAddrs_writable hl
    obtain ⟨b, hb, hl⟩ := encLcaf_fits (t := 1) (r := zeros 8) (data := e) (by omega)
    refine ⟨natToBits 16 16387 ++ b, by simp only [encAddr, exBind_ok, exPure]; exact ⟨_, he, _, hb, rfl⟩, ?_⟩
    simp only [List.length_append, natToBits_length, zeros_length] at hl ⊢; omega
  | _, _, .inst (i := i) (m := m) hi ha h => by
    obtain ⟨h1, h2, h3⟩ := isLcaf_len h
    obtain ⟨e, he, hel⟩ := isAddr_writable ha
    simp only [List.length_append, be32_length] at h1 h2
    obtain ⟨b, hb, hl⟩ := encLcaf_fits (t := 2) (r := natToBits 8 m)
      (data := natToBits 32 i ++ e) (by simp only [List.length_append, natToBits_length]; omega)
    refine ⟨natToBits 16 16387 ++ b, enc_inst h3 hi he hb, ?_⟩
    simp only [List.length_append, natToBits_length] at hl ⊢; omega
  | _, _, .asn (n := n) hi ha h => by
    obtain ⟨h1, h2, h3⟩ := isLcaf_len h
    obtain ⟨e, he, hel⟩ := isAddr_writable ha
    simp only [List.length_append, be32_length] at h1 h2
    obtain ⟨b, hb, hl⟩ := encLcaf_fits (t := 3) (r := zeros 8)
      (data := natToBits 32 n ++ e) (by simp only [List.length_append, natToBits_length]; omega)
    refine ⟨natToBits 16 16387 ++ b, enc_asn hi he hb, ?_⟩
    simp only [List.length_append, natToBits_length, zeros_length] at hl ⊢; omega
  | _, _, .geo (n := n) (e := ee) (ld := ld) (lm := lm) (ls := ls) (od := od) (om := om) (os := os)
      (alt := alt) hf ha h => by
    obtain ⟨h1, h2, h3⟩ := isLcaf_len h
    obtain ⟨e, he, hel⟩ := isAddr_writable ha
    simp only [List.length_append, geoHead, be16_length, be32_length, List.length_cons,
      List.length_nil] at h1 h2
    obtain ⟨b, hb, hl⟩ := encLcaf_fits (t := 5) (r := zeros 8)
      (data := [n] ++ natToBits 15 ld ++ natToBits 8 lm ++ natToBits 8 ls ++ [ee] ++ natToBits 15 od ++
        natToBits 8 om ++ natToBits 8 os ++ natToBits 32 (alt % 2 ^ 32).toNat ++ e)
      (by simp only [List.length_append, natToBits_length, List.length_cons, List.length_nil]; omega)
    refine ⟨natToBits 16 16387 ++ b, enc_geo hf he hb, ?_⟩
    simp only [List.length_append, natToBits_length, zeros_length, List.length_cons,
      List.length_nil] at hl ⊢; omega
  | _, _, .natT (mp := mp) (ep := ep) f1 f2 hg hm hp hr h => by
    obtain ⟨h1, h2, h3⟩ := isLcaf_len h
    obtain ⟨eg, g1, g2⟩ := isAddr_writable hg
    obtain ⟨em, m1, m2⟩ := isAddr_writable hm
    obtain ⟨eq, q1, q2⟩ := isAddr_writable hp
    obtain ⟨er, r1, r2⟩ := isAddrs_writable hr
    simp only [List.length_append, be16_length] at h1 h2
    obtain ⟨b, hb, hl⟩ := encLcaf_fits (t := 7) (r := zeros 8)
      (data := natToBits 16 mp ++ natToBits 16 ep ++ eg ++ em ++ eq ++ er)
      (by simp only [List.length_append, natToBits_length]; omega)
    refine ⟨natToBits 16 16387 ++ b, enc_natT f1 f2 g1 m1 q1 r1 hb, ?_⟩
    simp only [List.length_append, natToBits_length, zeros_length] at hl ⊢; omega
theorem isAddrs_writable : ∀ {l : List Addr} {d : Bytes}, IsAddrs l d →
    ∃ b, encAddrs l = .ok b ∧ b.length ≤ 8 * d.length
  | _, _, .nil => ⟨[], rfl, by simp⟩
  | _, _, .cons ha hl => by
    obtain ⟨b, hb, hbl⟩ := isAddr_writable ha
    obtain ⟨c, hc, hcl⟩ := isAddrs_writable hl
    refine ⟨b ++ c, by simp only [encAddrs, exBind_ok, exPure]; exact ⟨_, hb, _, hc, rfl⟩, ?_⟩
    simp; omega
end

/-- C34: every address that was received can be serialised again, in at most as many bits. -/
theorem address_reserialises (s rest : Bits) (a : Addr) (h : readAfi none s = .ok (a, rest)) :
    ∃ b, encAddr a = .ok b ∧ b.length + rest.length ≤ s.length := by
  obtain ⟨d, hd, rfl⟩ := (address_language _ _ _).mp h
  obtain ⟨b, hb, hl⟩ := isAddr_writable hd
  refine ⟨b, hb, ?_⟩
  rw [List.length_append, bytesToBits_length]; omega

theorem isRecord_writable {r : Record} {d : Bytes} (h : IsRecord r d) : ∃ b, encRecord r = .ok b :=
  readRecord_writable (rest := []) ((record_language _ _ _).mpr ⟨d, h, rfl⟩)

/-- C34: every accepted Map-Reply can be serialised again. -/
theorem map_reply_reserialises (d : Bytes) (m : MapReply) (h : MapReply.fromBytes d = .ok m) :
    ∃ d', m.toBytes = .ok d' := by
  obtain ⟨x, j, hm, rfl⟩ := (map_reply_language d m).mp h
  cases hm with
  | mk h1 h2 h3 h4 =>
    refine (map_reply_writable_iff m).mpr ⟨h1, .inr h2, by omega, fun r hr => ?_⟩
    obtain ⟨y, hy⟩ := sequence_mem h4 r hr
    exact isRecord_writable hy

/-- C34: an accepted Map-Request can be serialised again exactly when each of its EIDs denotes a
network; EIDs with an instance id other than 0, for instance, are accepted but cannot be written. -/
theorem map_request_reserialises_iff (d : Bytes) (m : MapRequest)
    (h : MapRequest.fromBytes d = .ok m) :
    (∃ d', m.toBytes = .ok d') ↔ ∀ a ∈ m.eidPrefixes, ∃ n, Denotes a n := by
  obtain ⟨x, j, hm, rfl⟩ := (map_request_language d m).mp h
  rw [map_request_writable_iff]
  refine ⟨fun h => h.2.1.2.2, fun he => ?_⟩
  cases hm with
  | @mk itrs src eids rec h1 h2 h3 h4 h5 h6 h7 h8 h9 h10 =>
    obtain ⟨b, hb, _⟩ := isAddr_writable h2
    refine ⟨⟨by rw [h4]; simpa using h5, by rw [h4]; simpa using h6, ?_⟩, ⟨h7, h8, he⟩, h1,
      ⟨h3, b, hb⟩, ?_⟩
    · intro a ha
      rw [h4] at ha
      obtain ⟨i, _, rfl⟩ := List.mem_map.mp ha
      exact ⟨i, rfl⟩
    · intro r hr
      generalize m.mapReply = o at h10 hr
      cases h10 with
      | none => cases hr
      | some h => cases hr; exact isRecord_writable h

/-- an accepted Info message can be serialised with other authentication data -/
theorem info_writable_with (d : Bytes) (m : Info) (h : Info.fromBytes d = .ok m) (z : Bytes)
    (hz : z ≠ []) (hzl : z.length < 65536) :
    ∃ d', ({ m with authData := z } : Info).toBytes = .ok d' := by
  obtain ⟨x, j, hm, rfl⟩ := (info_language d m).mp h
  cases hm with
  | @mk ttl n rep h1 h2 h3 h4 h5 h6 h7 h8 =>
    obtain ⟨b, hb, _⟩ := isAddr_writable h7
    refine (info_writable_iff _).mpr ⟨h1, h2, ⟨hz, hzl⟩, ⟨by show 0 ≤ m.ttl; omega, by show m.ttl < _; omega⟩,
      ⟨n, h6⟩, ?_⟩
    rcases h8 with ⟨e1, e2⟩ | ⟨e1, e2⟩
    · exact .inr ⟨e1, e2, b, hb⟩
    · exact .inl ⟨e1, e2⟩

/-- C34/C86: an accepted Info message can be serialised again exactly when it has authentication data. -/
theorem info_reserialises_iff (d : Bytes) (m : Info) (h : Info.fromBytes d = .ok m) :
    (∃ d', m.toBytes = .ok d') ↔ m.authData ≠ [] := by
  constructor
  · rintro ⟨d', h'⟩
    exact ((info_writable_iff m).mp ⟨d', h'⟩).2.2.1.1
  · intro ha
    obtain ⟨x, j, hm, rfl⟩ := (info_language d m).mp h
    cases hm with
    | @mk ttl n rep h1 h2 h3 h4 h5 h6 h7 h8 =>
      exact info_writable_with _ m h m.authData ha h3

/-- C38/C30: whatever bytes were received and accepted as an Info message, verification answers yes
exactly when the canonical re-serialisation of the parsed message is authentic; and if there is no
authentication data (so that there is no re-serialisation), when the key id is 0. -/
theorem info_verify_any (H : Mac) (r : Info) (key d : Bytes) (h : Info.fromBytes d = .ok r) :
    (r.authData ≠ [] → ∃ d', r.toBytes = .ok d' ∧ authField d' = r.authData ∧
      (r.verify H key = .ok true ↔ Authentic H key d')) ∧
    (r.authData = [] → r.verify H key = .ok (decide (r.keyId = 0))) := by
  refine ⟨fun ha => ?_, fun ha => ?_⟩
  · obtain ⟨d', hd'⟩ := (info_reserialises_iff d r h).mpr ha
    refine ⟨d', hd', ?_, info_verify_iff H r key d' hd'⟩
    obtain ⟨h1, h2, p, q, hp, rfl, _⟩ := info_shape hd'
    exact (shape_fields hp (by omega) h1).2.2.1
  · obtain ⟨d', hd'⟩ := info_writable_with d r h [0] (by simp) (by simp)
    obtain ⟨b, hb⟩ := info_verify_total H r key _ d' hd'
    rw [hb]
    congr 1
    rw [Bool.eq_iff_iff, decide_eq_true_eq]
    constructor
    · rintro rfl
      rcases (info_verify_cases H r key).mp hb with ⟨h0, _⟩ | ⟨_, msg, _, he⟩ | ⟨_, msg, _, he⟩
      · exact h0
      · rw [ha] at he
        have := congrArg List.length he
        rw [H.sha1_length] at this; cases this
      · rw [ha] at he
        have := congrArg List.length he
        rw [H.sha256_length] at this; cases this
    · intro h0
      rw [(info_verify_cases H r key).mpr (.inl ⟨h0, ha⟩)] at hb
      cases hb; rfl

/-! ### Map-Referral records -/

/-- the prefix length of an EID: that of the network at its core, or 0 for a null address -/
inductive PrefixLen : Addr → Nat → Prop
  | net (n : Net) : PrefixLen (.net n) n.plen
  | null : PrefixLen .null 0
  | inst (i m : Int) {a : Addr} {p : Nat} : PrefixLen a p → PrefixLen (.inst i a m) p
  | asn (i : Int) {a : Addr} {p : Nat} : PrefixLen a p → PrefixLen (.asn i a) p
  | geo {n e : Bool} {b c d f g h k : Int} {a : Addr} {p : Nat} : PrefixLen a p →
    PrefixLen (.geo n b c d e f g h k a) p

theorem prefixLen_iff : ∀ {a : Addr} {p : Nat}, PrefixLen a p ↔ a.prefixlen = .ok p
  | .net n, p => by
    simp only [Addr.prefixlen, Except.ok.injEq]
    exact ⟨fun h => by cases h; rfl, fun h => by subst h; exact .net n⟩
  | .null, p => by
    simp only [Addr.prefixlen, Except.ok.injEq]
    exact ⟨fun h => by cases h; rfl, fun h => by subst h; exact .null⟩
  | .inst i a m, p => by
    simp only [Addr.prefixlen, ← prefixLen_iff (a := a)]
    exact ⟨fun h => by cases h; assumption, fun h => .inst i m h⟩
  | .asn i a, p => by
    simp only [Addr.prefixlen, ← prefixLen_iff (a := a)]
    exact ⟨fun h => by cases h; assumption, fun h => .asn i h⟩
  | .geo _ _ _ _ _ _ _ _ _ a, p => by
    simp only [Addr.prefixlen, ← prefixLen_iff (a := a)]
    exact ⟨fun h => by cases h; assumption, fun h => .geo h⟩
  | .none, p => by constructor <;> (intro h; cases h)
  | .ip a, p => by constructor <;> (intro h; cases h)
  | .afiList l, p => by constructor <;> (intro h; cases h)
  | .natT .., p => by constructor <;> (intro h; cases h)

theorem prefixLen_lt {a : Addr} {p : Nat} (h : PrefixLen a p) : p < 2 ^ 8 := by
  induction h with
  | net n => exact net_plen_lt n
  | null => decide
  | _ => assumption

theorem prefixLen_det {a : Addr} {p q : Nat} (h : PrefixLen a p) (h' : PrefixLen a q) : p = q := by
  have := (prefixLen_iff.mp h).symm.trans (prefixLen_iff.mp h')
  cases this; rfl

theorem refRecord_enc_iff {r r' : RefRecord} (hs : r.sanitize = .ok r') :
    (∃ b, encRefRecord r = .ok b) ↔ r.locators.length ≤ 255 ∧ r.sigs = 0 ∧
      ∃ p e, r'.eid.prefixlen = .ok p ∧ encAddr r'.eid = .ok e := by
  obtain ⟨h1, h2, h3, h4, h5, e, h6, rfl⟩ := RefRecord.sanitize_ok.mp hs
  constructor
  · rintro ⟨b, hb⟩
    obtain ⟨r'', g1, g2⟩ := encRefRecord_ok hb
    rw [hs] at g1; cases g1
    obtain ⟨_, k2, _, _, k5, p, e', _, k6, _, k8, _⟩ := encRefRecordRaw_ok g2
    simp only [sortBy_length] at k2
    exact ⟨by omega, k5, p, e', k6, k8⟩
  · rintro ⟨hl, hg, p, e', k1, k2⟩
    have hp := prefixLen_lt (prefixLen_iff.mpr k1)
    have henc : ∃ ls, encAll encLocator (sortBy Locator.key r.locators) = .ok ls := by
      apply encAll_ok_of_mem
      intro l hl
      obtain ⟨_, hs, i, hi⟩ := h5 l ((sortBy_perm _ _).mem_iff.mp hl)
      exact (locator_writable_iff l i hi).mpr ((locator_accepted_iff l i hi).mp hs)
    obtain ⟨ls, hls⟩ := henc
    have e1 : encUint 32 r.ttl = .ok (natToBits 32 r.ttl.toNat) := encUint_eq_ok h1.1 (by omega)
    have e2 := natU (n := 8) (v := (sortBy Locator.key r.locators).length)
      (by rw [sortBy_length]; omega)
    have e3 := natU hp
    have e4 : encUint 3 r.action = .ok (natToBits 3 r.action.toNat) := encUint_eq_ok h2.1 (by omega)
    have e5 := natU (n := 4) (v := 0) (by decide)
    have e6 : encUint 12 r.mapVersion = .ok (natToBits 12 r.mapVersion.toNat) :=
      encUint_eq_ok h4.1 (by omega)
    refine ⟨natToBits 32 r.ttl.toNat ++ natToBits 8 (sortBy Locator.key r.locators).length ++
      natToBits 8 p ++ natToBits 3 r.action.toNat ++ [r.authoritative, r.incomplete] ++
      natToBits 11 r.reserved1.toNat ++ natToBits 4 0 ++ natToBits 12 r.mapVersion.toNat ++ e' ++ ls, ?_⟩
    simp only [encRefRecord, encRefRecordRaw, exBind_ok, exPure]
    refine ⟨_, hs, _, e1, _, e2, _, k1, _, e3, _, e4, _, by rw [hg]; exact e5, _, e6, _, k2, _, hls, ?_⟩
    rw [if_neg (by simp [hg])]

/-- C24: exactly which Map-Referral records can be written: those that follow the DDT table, whose
map version fits, with up to 255 valid IP locators without probe flag, without signatures, and with
an EID that is a network, or an instance-id address that has a prefix length and can be written. -/
theorem referral_writable_iff (r : RefRecord) : (∃ b, encRefRecord r = .ok b) ↔
    DdtRow r.action r.incomplete (!r.locators.isEmpty) r.ttl ∧
    (0 ≤ r.mapVersion ∧ r.mapVersion < 2 ^ 12) ∧
    (r.locators.length ≤ 255 ∧
      ∀ l ∈ r.locators, l.probed = false ∧ l.sanitize = .ok () ∧ ∃ i, l.address = .ip i) ∧
    r.sigs = 0 ∧
    ((∃ n, r.eid = .net n) ∨
      ∃ i a m p, r.eid = .inst i a m ∧ PrefixLen a p ∧ ∃ b, encAddr r.eid = .ok b) := by
  constructor
  · rintro ⟨b, hb⟩
    obtain ⟨r', g1, _⟩ := encRefRecord_ok hb
    obtain ⟨a1, a2, a3, a4⟩ := (referral_accepted_iff r).mp ⟨r', g1⟩
    obtain ⟨b1, b2, p, e, b3, b4⟩ := (refRecord_enc_iff g1).mp ⟨b, hb⟩
    refine ⟨a1, a2, ⟨b1, a4⟩, b2, ?_⟩
    rcases a3 with ⟨i, a, m, ha⟩ | ⟨n, hn⟩
    · obtain ⟨_, _, _, _, _, e', h6, rfl⟩ := RefRecord.sanitize_ok.mp g1
      rw [ha] at h6; cases h6
      refine .inr ⟨i, a, m, p, ha, ?_, e, by rw [ha]; exact b4⟩
      have := prefixLen_iff.mpr b3
      cases this; assumption
    · exact .inl ⟨n, hn⟩
  · rintro ⟨a1, a2, ⟨b1, a4⟩, b2, hE⟩
    obtain ⟨r', g1⟩ := (referral_accepted_iff r).mpr ⟨a1, a2, by
      rcases hE with ⟨n, hn⟩ | ⟨i, a, m, p, ha, _⟩
      · exact .inr ⟨n, hn⟩
      · exact .inl ⟨i, a, m, ha⟩, a4⟩
    refine (refRecord_enc_iff g1).mpr ⟨b1, b2, ?_⟩
    obtain ⟨_, _, _, _, _, e', h6, rfl⟩ := RefRecord.sanitize_ok.mp g1
    rcases hE with ⟨n, hn⟩ | ⟨i, a, m, p, ha, hp, e, he⟩
    · rw [hn] at h6; cases h6
      obtain ⟨b, hb, hl⟩ := encLcaf_fits (t := 2) (r := natToBits 8 32)
        (data := natToBits 32 0 ++ encIP n.first)
        (by simp only [List.length_append, natToBits_length, encIP_length]
            cases n.first.ver <;> simp [Ver.width])
      exact ⟨n.plen, _, rfl, enc_inst (i := 0) (m := 32) (by decide) (by decide) rfl hb⟩
    · rw [ha] at h6; cases h6
      exact ⟨p, e, prefixLen_iff.mp (.inst i m hp), by rw [← ha]; exact he⟩

/-- C34: every accepted Map-Referral can be serialised again. -/
theorem map_referral_reserialises (d : Bytes) (m : MapReferral) (h : MapReferral.fromBytes d = .ok m) :
    ∃ d', m.toBytes = .ok d' := by
  obtain ⟨x, j, hm, rfl⟩ := (map_referral_language d m).mp h
  cases hm with
  | mk h1 h2 h3 =>
    refine (map_referral_writable_iff m).mpr ⟨h1, by omega, fun r hr => ?_⟩
    obtain ⟨y, hy⟩ := sequence_mem h3 r hr
    rw [referral_writable_iff]
    cases hy with
    | @mk ttl act ver p au ic rs e e' ls ls' x d g1 g2 g3 g4 g5 g6 g7 g8 g9 g10 g11 =>
      have hmem := fun l => (g11.1.mem_iff (a := l))
      have hlen := g11.1.length_eq
      have hemp : ls'.isEmpty = ls.isEmpty := by
        rw [Bool.eq_iff_iff, List.isEmpty_iff, List.isEmpty_iff, ← List.length_eq_zero_iff, hlen,
          List.length_eq_zero_iff]
      refine ⟨by rw [hemp]; exact g6, by dsimp only; omega, ⟨by dsimp only; omega, ?_⟩, rfl, ?_⟩
      · intro l hl
        have hl := (hmem l).mp hl
        obtain ⟨y, hy, ha⟩ := sequence_mem g9 l hl
        exact ⟨g10 l hl, isLocator_sanitize hy, ha⟩
      · right
        cases g8 with
        | net n =>
          obtain ⟨b, hb, hl⟩ := encLcaf_fits (t := 2) (r := natToBits 8 32)
            (data := natToBits 32 0 ++ encIP n.first)
            (by simp only [List.length_append, natToBits_length, encIP_length]
                cases n.first.ver <;> simp [Ver.width])
          exact ⟨0, .net n, 32, n.plen, rfl, .net n, _,
            enc_inst (i := 0) (m := 32) (by decide) (by decide) rfl hb⟩
        | inst i a m =>
          cases g7 with
          | @inst i' m' n junk d' hi hL =>
            obtain ⟨_, _, hm⟩ := isLcaf_len hL
            obtain ⟨b, hb, hl⟩ := encLcaf_fits (t := 2) (r := natToBits 8 m')
              (data := natToBits 32 i' ++ encIP n.first)
              (by simp only [List.length_append, natToBits_length, encIP_length]
                  cases n.first.ver <;> simp [Ver.width])
            exact ⟨_, _, _, n.plen, rfl, .net n, _, enc_inst hm hi rfl hb⟩

/-- an instance-id address is read back with a prefix length only if an IP address is inside -/
theorem readAfi_inst_inner {i m : Int} {a x : Addr} {p : Nat} {e t rest : Bits}
    (h : encAddr (.inst i a m) = .ok e) (hr : readAfi (.some p) (e ++ t) = .ok (x, rest)) :
    ∃ ip, a.strip = .ip ip := by
  simp only [encAddr, exBind_ok, encUint_iff] at h
  obtain ⟨mb, ⟨hm0, hm1, rfl⟩, ib, ⟨hi0, hi1, rfl⟩, d, hd, c, hc, h⟩ := h
  simp only [exPure, Except.ok.injEq] at h; subst h
  obtain ⟨k1, k2, k3⟩ := encAddr_rt a d hd
  have hcl : d.length ≤ (natToBits 16 16387 ++ c ++ t).length := by
    obtain ⟨_, rfl⟩ := encLcaf_ok hc
    simp; omega
  unfold readAfi at hr
  rw [readAddr_lcaf _ _ 2 m.toNat _ c t hc (by decide) (toNat_lt hm0 hm1) (by simp; omega)] at hr
  simp only [lcafFromData, Nat.reduceEqDiff, if_false, if_true] at hr
  obtain ⟨hr, _⟩ := Rd.lift_ok_iff.mp hr
  obtain ⟨rest', hr⟩ := runOn_iff.mp hr
  have h1 := k3 _ [] hcl
  rw [List.append_nil] at h1
  simp only [instFromData, Rd.bind_apply, readUint_app_int hi0 hi1, h1] at hr
  generalize a.strip = y at hr
  cases y with
  | ip ip => exact ⟨ip, rfl⟩
  | _ => cases hr

theorem prefixLen_strip {a : Addr} {p : Nat} (h : PrefixLen a p) {ip : IP} (hs : a.strip = .ip ip) :
    ∃ n, a = .net n := by
  cases h with
  | net n => exact ⟨n, rfl⟩
  | _ => cases hs

/-- C24: a Map-Referral record that was written is read back exactly when its EID is a network, with
or without an instance id (what is read back then is in `referral_round_trip`); any other EID that
can be written, such as an instance id around a null or AS-number address, makes the record
unreadable. -/
theorem referral_readable_iff (r : RefRecord) (b t : Bits) (h : encRefRecord r = .ok b) :
    (∃ x, readRefRecord (b ++ t) = .ok x) ↔ ReferralEid r.eid := by
  constructor
  · rintro ⟨⟨r2, rest⟩, hx⟩
    obtain ⟨r', g1, g2⟩ := encRefRecord_ok h
    obtain ⟨h1, h2, h3, h4, h5, p, e, ls, hp, hp8, he, hls, rfl⟩ := encRefRecordRaw_ok g2
    obtain ⟨raw, hraw, _⟩ := readRefRecord_ok hx
    simp only [readRefRecordRaw, Rd.bind_apply, List.append_assoc, List.cons_append, List.nil_append,
      readUint_app_int h1.1 h1.2, readUint_app h2, readUint_app hp8,
      readUint_app_int h3.1 h3.2, readBool_cons, readUint_app r'.reserved1.isLt,
      readUint_app (show 0 < 2 ^ 4 by decide), readUint_app_int h4.1 h4.2] at hraw
    obtain ⟨_, _, _, _, _, e', hw, rfl⟩ := RefRecord.sanitize_ok.mp g1
    have hcase := (referral_writable_iff r).mp ⟨_, h⟩ |>.2.2.2.2
    rcases hcase with ⟨n, hn⟩ | ⟨i, a, m, q, hn, hq, _⟩
    · rw [hn]; exact .net n
    · rw [hn] at hw; cases hw
      cases hrd : readAfi (.some p) (e ++ (ls ++ t)) with
      | error err => simp only [hrd] at hraw; cases hraw
      | ok y =>
        obtain ⟨y, rest'⟩ := y
        obtain ⟨ip, hip⟩ := readAfi_inst_inner he hrd
        obtain ⟨n, rfl⟩ := prefixLen_strip hq hip
        rw [hn]; exact .inst i n m
  · intro he
    obtain ⟨r', _, h2, _⟩ := referral_round_trip r he b h
    exact ⟨_, h2 t⟩

/-- C24/C33: no truncated Map-Referral record is accepted, whatever its EID. -/
theorem referral_never_truncated (r r' : RefRecord) (b pre cut rest : Bits)
    (h : encRefRecord r = .ok b) (hb : b = pre ++ cut) (hc : cut ≠ []) :
    readRefRecord pre ≠ .ok (r', rest) := by
  intro hr
  obtain ⟨u, hu, hall⟩ := Loc.readRefRecord _ _ _ hr
  have he : ReferralEid r.eid := by
    refine (referral_readable_iff r b [] h).mp ⟨(r', rest ++ cut), ?_⟩
    rw [hb, hu, List.append_nil, List.append_assoc]
    exact hall _
  exact referral_no_truncation r r' he b pre cut rest h hb hc hr

theorem sanitizeAll_image {α : Type} {f : α → Except Err α} {l l' : List α}
    (h : sanitizeAll f l = .ok l') : ∀ a ∈ l, ∃ a' ∈ l', f a = .ok a' := by
  induction l generalizing l' with
  | nil => simp
  | cons a l ih =>
    simp only [sanitizeAll, exBind_ok, exPure, Except.ok.injEq] at h
    obtain ⟨a', h1, l2, h2, rfl⟩ := h
    intro c hc
    rcases List.mem_cons.mp hc with rfl | hc
    · exact ⟨a', by simp, h1⟩
    · obtain ⟨c', m, e⟩ := ih h2 c hc
      exact ⟨c', by simp [m], e⟩

theorem readN_encAll_bad {α : Type} {e : α → Except Err Bits} {r : Rd α} {P : α → Prop} (l : List α)
    (b t : Bits) (h : encAll e l = .ok b)
    (hgood : ∀ a ∈ l, P a → ∀ b t, e a = .ok b → ∃ a', r (b ++ t) = .ok (a', t))
    (hbad : ∀ a ∈ l, ∀ b t x, e a = .ok b → r (b ++ t) = .ok x → P a) (x : List α × Bits)
    (hx : readN r l.length (b ++ t) = .ok x) : ∀ a ∈ l, P a := by
  induction l generalizing b x with
  | nil => simp
  | cons a l ih =>
    simp only [encAll, exBind_ok] at h
    obtain ⟨b1, hb1, b2, hb2, h⟩ := h
    simp only [exPure, Except.ok.injEq] at h; subst h
    obtain ⟨xl, xr⟩ := x
    simp only [List.length_cons, readN, Rd.bind_ok, List.append_assoc] at hx
    obtain ⟨a1, s1, h1, l1, s2, h2, _⟩ := hx
    have ha := hbad a (by simp) _ _ _ hb1 h1
    obtain ⟨a', ha'⟩ := hgood a (by simp) ha _ (b2 ++ t) hb1
    rw [h1] at ha'; cases ha'
    intro c hc
    rcases List.mem_cons.mp hc with rfl | hc
    · exact ha
    · exact ih _ hb2 (fun a ha => hgood a (by simp [ha])) (fun a ha => hbad a (by simp [ha])) _ h2 c hc

/-- C29: a serialised Map-Referral is read back exactly when the EIDs of all its records are
networks, with or without an instance id. -/
theorem map_referral_readable_iff (m : MapReferral) (d : Bytes) (h : m.toBytes = .ok d) :
    (∃ x, MapReferral.fromBytes d = .ok x) ↔ ∀ r ∈ m.records, ReferralEid r.eid := by
  constructor
  · rintro ⟨x, hx⟩
    have h := toBytes_ok.mp h
    obtain ⟨m', g1, g2⟩ := encMapReferral_ok h
    obtain ⟨hn, rs, hrs, rfl⟩ := MapReferral.sanitize_ok.mp g1
    obtain ⟨h1, b2, h3, hb⟩ := encMapReferralRaw_ok g2
    obtain ⟨rest, hx⟩ := runOn_iff.mp hx
    simp only [readMapReferral, Rd.bind_ok] at hx
    obtain ⟨raw, s1, hraw, _⟩ := hx
    rw [hb] at hraw
    simp only [readMapReferralRaw, Rd.bind_apply, List.append_assoc,
      expectType_app (show 6 < 2 ^ 4 by decide), readUint_app m.reserved1.isLt,
      readUint_app h1, readBytes_app' hn] at hraw
    cases hrd : readN readRefRecord rs.length b2 with
    | error err => simp only [hrd] at hraw; cases hraw
    | ok y =>
      have := readN_encAll_bad (P := fun r => ReferralEid r.eid) rs b2 [] h3
        (fun a _ ha b t hb => by
          obtain ⟨r', _, h2, _⟩ := referral_round_trip a ha b hb
          exact ⟨_, h2 t⟩)
        (fun a _ b t x hb hx => (referral_readable_iff a b t hb).mp ⟨x, hx⟩) y
        (by rw [List.append_nil]; exact hrd)
      intro r hr
      obtain ⟨r', hr', hs⟩ := sanitizeAll_image hrs r hr
      have := this r' hr'
      obtain ⟨_, _, _, _, _, e', hw, rfl⟩ := RefRecord.sanitize_ok.mp hs
      generalize r.eid = y at hw
      cases y with
      | net n => exact .net n
      | inst i a k => cases hw; exact this
      | _ => cases hw
  · intro he
    obtain ⟨rs, _, h2⟩ := map_referral_round_trip m d h he
    exact ⟨_, h2⟩

/-- C33: no truncated Map-Referral is accepted, whatever the EIDs of its records. -/
theorem map_referral_never_truncated (m m' : MapReferral) (d pre cut : Bytes)
    (h : m.toBytes = .ok d) (hd : d = pre ++ cut) (hc : cut ≠ []) :
    MapReferral.fromBytes pre ≠ .ok m' := by
  intro hr
  obtain ⟨rest, hr'⟩ := runOn_iff.mp hr
  obtain ⟨u, hu, hall⟩ := Loc.readMapReferral _ _ _ hr'
  have he := (map_referral_readable_iff m d h).mp ⟨m', runOn_iff.mpr ⟨_, by
    rw [hd, bytesToBits_append, hu, List.append_assoc]
    exact hall _⟩⟩
  exact map_referral_no_truncation m m' d pre cut h he hd hc hr

/-! ### Round trips without reference to the model's own flattening function -/

mutual
/-- `Flattened a b`: `b` is `a` with every network in it, at any depth, replaced by its first
address -/
inductive Flattened : Addr → Addr → Prop
  | none : Flattened .none .none
  | ip (i : IP) : Flattened (.ip i) (.ip i)
  | net (n : Net) : Flattened (.net n) (.ip n.first)
  | null : Flattened .null .null
  | afiList {l l' : List Addr} : FlattenedAll l l' → Flattened (.afiList l) (.afiList l')
  | inst (i m : Int) {a a' : Addr} : Flattened a a' → Flattened (.inst i a m) (.inst i a' m)
  | asn (i : Int) {a a' : Addr} : Flattened a a' → Flattened (.asn i a) (.asn i a')
  | geo {n e : Bool} {b c d f g h k : Int} {a a' : Addr} : Flattened a a' →
    Flattened (.geo n b c d e f g h k a) (.geo n b c d e f g h k a')
  | natT {mp ep : Int} {g g' m m' p p' : Addr} {l l' : List Addr} : Flattened g g' →
    Flattened m m' → Flattened p p' → FlattenedAll l l' →
    Flattened (.natT mp ep g m p l) (.natT mp ep g' m' p' l')
inductive FlattenedAll : List Addr → List Addr → Prop
  | nil : FlattenedAll [] []
  | cons {a a' : Addr} {l l' : List Addr} : Flattened a a' → FlattenedAll l l' →
    FlattenedAll (a :: l) (a' :: l')
end

mutual
theorem flattened_strip : ∀ a : Addr, Flattened a a.strip
  | .none => .none
  | .ip i => .ip i
  | .net n => .net n
  | .null => .null
  | .afiList l => .afiList (flattened_stripList l)
  | .inst i a m => .inst i m (flattened_strip a)
  | .asn i a => .asn i (flattened_strip a)
  | .geo _ _ _ _ _ _ _ _ _ a => .geo (flattened_strip a)
  | .natT _ _ g m p l => .natT (flattened_strip g) (flattened_strip m) (flattened_strip p)
      (flattened_stripList l)
theorem flattened_stripList : ∀ l : List Addr, FlattenedAll l (stripList l)
  | [] => .nil
  | a :: l => .cons (flattened_strip a) (flattened_stripList l)
end

mutual
theorem flattened_unique : ∀ {a b : Addr}, Flattened a b → b = a.strip
  | _, _, .none => rfl
  | _, _, .ip _ => rfl
  | _, _, .net _ => rfl
  | _, _, .null => rfl
  | _, _, .afiList h => congrArg Addr.afiList (flattenedAll_unique h)
  | _, _, .inst i m h => congrArg (fun x => Addr.inst i x m) (flattened_unique h)
  | _, _, .asn i h => congrArg (fun x => Addr.asn i x) (flattened_unique h)
  | _, _, .geo h => by rw [flattened_unique h]; rfl
  | _, _, .natT h1 h2 h3 h4 => by
    rw [flattened_unique h1, flattened_unique h2, flattened_unique h3, flattenedAll_unique h4]; rfl
theorem flattenedAll_unique : ∀ {l l' : List Addr}, FlattenedAll l l' → l' = stripList l
  | _, _, .nil => rfl
  | _, _, .cons h1 h2 => by rw [flattened_unique h1, flattenedAll_unique h2]; rfl
end

theorem flattened_iff {a b : Addr} : Flattened a b ↔ b = a.strip :=
  ⟨flattened_unique, fun h => h ▸ flattened_strip a⟩

/-- C04: an address, at any nesting, that can be written is read back with the networks in it
replaced by their first addresses and everything else the same; what follows is left unread. -/
theorem address_round_trip (a a' : Addr) (b t rest : Bits) (h : encAddr a = .ok b) :
    readAfi none (b ++ t) = .ok (a', rest) ↔ Flattened a a' ∧ rest = t := by
  rw [lcaf_round_trip a b h t, flattened_iff]
  simp only [Except.ok.injEq, Prod.mk.injEq, eq_comm]

/-- C19: a locator record with an address of any kind is read back with its address flattened and
everything else the same. -/
theorem locator_round_trip_flat (l : Locator) (b : Bits) (h : encLocator l = .ok b) :
    ∃ a, Flattened l.address a ∧ ∀ t, readLocator (b ++ t) = .ok ({ l with address := a }, t) :=
  ⟨_, flattened_strip _, fun t => readLocator_enc h t⟩

/-- C25: a Map-Request that serialises is read back with the same flags, nonce and ITR-RLOCs, its
source EID flattened, its record (if any) sanitised, and its EID prefixes as the networks they
denote. -/
theorem map_request_round_trip_flat (m : MapRequest) (d : Bytes) (h : m.toBytes = .ok d) :
    ∃ (s : Addr) (r : Option Record) (ns : List Net), Flattened m.sourceEid s ∧
      (m.mapReply = none → r = none) ∧
      (∀ x, m.mapReply = some x → ∃ x', r = some x' ∧ x.sanitize = .ok x') ∧
      (ns.length = m.eidPrefixes.length ∧
        ∀ i (h : i < m.eidPrefixes.length) (h' : i < ns.length), Denotes m.eidPrefixes[i] ns[i]) ∧
      MapRequest.fromBytes d = .ok { m with sourceEid := s, eidPrefixes := ns.map .net, mapReply := r } := by
  obtain ⟨r, ns, h1, h2, h3⟩ := map_request_round_trip m d h
  refine ⟨_, r, ns, flattened_strip _, ?_, ?_, h2, h3⟩
  · intro e; rw [e] at h1; cases h1; rfl
  · intro x e
    rw [e] at h1
    simp only [sanitizeOpt, exBind_ok, exPure, Except.ok.injEq] at h1
    obtain ⟨x', hx, rfl⟩ := h1
    exact ⟨x', rfl, hx⟩

/-- C30: an Info message that serialises is read back the same, with the NAT-traversal address
flattened. -/
theorem info_round_trip_flat (m : Info) (d : Bytes) (h : m.toBytes = .ok d) :
    ∃ a, Flattened m.reply a ∧ Info.fromBytes d = .ok { m with reply := a } :=
  ⟨_, flattened_strip _, info_round_trip m d h⟩

/-! Non-vacuity -/

/-- a referral record whose EID is an instance id around a null address -/
def exNullReferral : RefRecord := { exReferral with eid := .inst 7 .null 0 }

example : ∃ b, encRefRecord exNullReferral = .ok b := isOk_iff.mp (by decide +kernel)
example : ¬ ReferralEid exNullReferral.eid := by intro h; cases h
example (b t : Bits) (h : encRefRecord exNullReferral = .ok b) (x : RefRecord × Bits) :
    readRefRecord (b ++ t) ≠ .ok x := fun hx => by
  have := (referral_readable_iff _ b t h).mp ⟨x, hx⟩
  cases this
/-- a Map-Referral with one readable and one unreadable record -/
example : ∃ d, MapReferral.toBytes
    { nonce := [1, 2, 3, 4, 5, 6, 7, 8], records := [exReferral, exNullReferral] } = .ok d :=
  isOk_iff.mp (by decide +kernel)
example : PrefixLen (.asn 65000 (.inst 1 (.net exNet) 0)) 24 := .asn _ (.inst _ _ (.net exNet))
/-- a Map-Request for an EID with instance id 5: accepted, but it cannot be written -/
def exForeignEid : Bytes :=
  [0x10, 0, 0, 1] ++ [1, 2, 3, 4, 5, 6, 7, 8] ++ [0, 0] ++ [0, 1, 192, 0, 2, 1] ++ [0, 24] ++
    [0x40, 0x03, 0, 0, 2, 0, 0, 10, 0, 0, 0, 5, 0, 1, 192, 0, 2, 0]
example : (MapRequest.fromBytes exForeignEid).toOption.map (·.eidPrefixes) =
    some [.inst 5 (.net exNet) 0] := by decide +kernel
example : ¬ ∃ n, Denotes (.inst 5 (.net exNet) 0) n := by
  rintro ⟨n, h⟩; cases h
example : Flattened (.afiList [.net exNet, .inst 3 (.net exNet) 0])
    (.afiList [.ip exNet.first, .inst 3 (.ip exNet.first) 0]) :=
  .afiList (.cons (.net _) (.cons (.inst _ _ (.net _)) .nil))

/-! ### Prefixes inside instance ids -/

theorem textRaises_strip : ∀ a : Addr, a.strip.textRaises = a.textRaises
  | .none => rfl
  | .ip _ => rfl
  | .net _ => rfl
  | .null => rfl
  | .afiList l => by cases l <;> rfl
  | .inst _ a _ => textRaises_strip a
  | .asn _ a => textRaises_strip a
  | .geo _ _ _ _ _ _ _ _ _ a => textRaises_strip a
  | .natT _ _ g m p _ => by
    simp only [Addr.strip, Addr.textRaises, textRaises_strip g, textRaises_strip m, textRaises_strip p]

theorem unprintable_strip (a : Addr) : Unprintable a.strip ↔ Unprintable a := by
  rw [unprintable_iff, unprintable_iff, textRaises_strip a]

/-- C77: when an address of any kind but a plain one inside an instance id is read with a prefix length, `from_bytes`
raises: TypeError if the address has no text, else ValueError. -/
theorem instance_prefix_raises {i m : Int} {a : Addr} {e : Bits} (h : encAddr (.inst i a m) = .ok e)
    (hn : ∀ ip, a.strip ≠ .ip ip) (p : Nat) (t : Bits) :
    (Unprintable a → readAfi (.some p) (e ++ t) = .error .type) ∧
    (¬ Unprintable a → readAfi (.some p) (e ++ t) = .error .value) := by
  simp only [encAddr, exBind_ok, encUint_iff] at h
  obtain ⟨mb, ⟨hm0, hm1, rfl⟩, ib, ⟨hi0, hi1, rfl⟩, d, hd, c, hc, h⟩ := h
  simp only [exPure, Except.ok.injEq] at h; subst h
  obtain ⟨k1, k2, k3⟩ := encAddr_rt a d hd
  have hcl : d.length ≤ (natToBits 16 16387 ++ c ++ t).length := by
    obtain ⟨_, rfl⟩ := encLcaf_ok hc
    simp; omega
  have ha : applyPrefix (.some p) a.strip = .error a.strip.noNetwork := by
    generalize a.strip = y at hn
    cases y with
    | ip ip => exact absurd rfl (hn ip)
    | _ => rfl
  have key : readAfi (.some p) (natToBits 16 16387 ++ c ++ t) = .error a.strip.noNetwork := by
    unfold readAfi
    rw [readAddr_lcaf _ _ 2 m.toNat _ c t hc (by decide) (toNat_lt hm0 hm1) (by simp; omega)]
    simp only [lcafFromData, Nat.reduceEqDiff, if_false, if_true]
    have h1 := k3 _ [] hcl
    rw [List.append_nil] at h1
    simp only [runOn, instFromData, Rd.bind_apply, readUint_app_int hi0 hi1, h1, Rd.lift, ha]
  rw [key, ← unprintable_strip, unprintable_iff]
  unfold Addr.noNetwork
  exact ⟨fun h => by rw [if_pos h], fun h => by rw [if_neg h]⟩

/-- an instance id around an AS number around a list of one address; around an empty list -/
example : Unprintable (.asn 3 (.afiList [.none])) ∧ ¬ Unprintable (.asn 3 (.afiList [])) ∧
    (encAddr (.inst 1 (.asn 3 (.afiList [.none])) 0)).isOk = true ∧
    (encAddr (.inst 1 (.asn 3 (.afiList [])) 0)).isOk = true :=
  ⟨.asn (.list (by simp)), (fun h => by cases h with | asn h => cases h with | list h => exact h rfl),
    by decide +kernel, by decide +kernel⟩

end PyLisp.Props
