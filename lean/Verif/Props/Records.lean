import Verif.RecordLemmas
import Verif.Props.Addr
/-
C19–C24: locator records, Map-Reply/Map-Register records, Map-Referral records.
`encX` models `X.to_bitstream`, `readX` models `X.from_bytes` on a stream.
-/
namespace PyLisp.Props
open PyLisp

/-! ### Specification vocabulary -/

/-- an address that may be used as a locator (RFC 6830: not broadcast, not link-local multicast) -/
def UsableLocator (a : IP) : Prop :=
  match a.ver with
  | .v4 => a.val ≠ 0xffffffff ∧ a.val / 2 ^ 8 ≠ 0xe00000
  | .v6 => a.val / 2 ^ 112 ≠ 0xff02 ∧ a.val / 2 ^ 112 ≠ 0xff12

/-- an integer that fits in a byte -/
def FitsByte (x : Int) : Prop := 0 ≤ x ∧ x ≤ 255

/-- `Carries a l`: the addresses inside the address `a`, in order, are `l`.  A plain address carries
itself; null LCAFs nothing; instance-id, AS-number and geo LCAFs what their single address carries; an
AFI list what its members carry; a NAT-traversal LCAF its RTRs (as they are). -/
inductive Carries : Addr → List Addr → Prop
  | none : Carries .none [.none]
  | ip (a : IP) : Carries (.ip a) [.ip a]
  | net (n : Net) : Carries (.net n) [.net n]
  | null : Carries .null []
  | inst (i : Int) (a : Addr) (m : Int) (l : List Addr) (h : Carries a l) : Carries (.inst i a m) l
  | asn (n : Int) (a : Addr) (l : List Addr) (h : Carries a l) : Carries (.asn n a) l
  | geo (north : Bool) (b c d : Int) (east : Bool) (e f g h : Int) (a : Addr) (l : List Addr)
      (hc : Carries a l) : Carries (.geo north b c d east e f g h a) l
  | nat (mp ep : Int) (g m p : Addr) (rtrs : List Addr) : Carries (.natT mp ep g m p rtrs) rtrs
  | listNil : Carries (.afiList []) []
  | listCons (a : Addr) (as la l : List Addr) (h : Carries a la) (hs : Carries (.afiList as) l) :
      Carries (.afiList (a :: as)) (la ++ l)

mutual
theorem carries_get : ∀ a : Addr, Carries a a.getAddresses
  | .none => .none
  | .ip _ => .ip _
  | .net _ => .net _
  | .null => .null
  | .afiList l => by rw [Addr.getAddresses]; exact carries_list l
  | .inst _ a _ => .inst _ _ _ _ (carries_get a)
  | .asn _ a => .asn _ _ _ (carries_get a)
  | .geo _ _ _ _ _ _ _ _ _ a => .geo _ _ _ _ _ _ _ _ _ _ _ (carries_get a)
  | .natT _ _ _ _ _ _ => .nat _ _ _ _ _ _
theorem carries_list : ∀ l : List Addr, Carries (.afiList l) (getAddressesList l)
  | [] => .listNil
  | a :: l => .listCons _ _ _ _ (carries_get a) (carries_list l)
end

/-- C20/C25: `get_addresses` returns exactly the addresses carried, in order. -/
theorem get_addresses_iff (a : Addr) (l : List Addr) : a.getAddresses = l ↔ Carries a l := by
  constructor
  · rintro rfl; exact carries_get a
  · intro h
    induction h with
    | listCons a as la l h hs ih1 ih2 =>
      rw [Addr.getAddresses, getAddressesList]
      rw [Addr.getAddresses] at ih2
      rw [ih1, ih2]
    | inst _ _ _ _ _ ih | asn _ _ _ _ ih | geo _ _ _ _ _ _ _ _ _ _ _ _ ih => exact ih
    | _ => rfl

example : Carries (.afiList [.inst 5 (.ip (IP.mk .v4 1 (by decide))) 32, .null, .none])
    [.ip (IP.mk .v4 1 (by decide)), .none] :=
  (get_addresses_iff _ _).mp rfl

/-! ### C20 -/

theorem containsIP_iff (n : Net) (a : IP) :
    n.containsIP a = true ↔ n.ver = a.ver ∧ n.base ≤ a.val ∧ a.val < n.base + n.size := by
  simp [Net.containsIP, and_assoc]

theorem checkLocatorAddress_ip (a : IP) : checkLocatorAddress (.ip a) = .ok () ↔ UsableLocator a := by
  obtain ⟨v, x, hx⟩ := a
  cases v
  · simp only [checkLocatorAddress, UsableLocator, exIteErr_ok, containsIP_iff]
    have h1 : netLinkLocalMc4.base = 0xe0000000 := rfl
    have h2 : netLinkLocalMc4.size = 256 := rfl
    have h3 : netLinkLocalMc4.ver = .v4 := rfl
    rw [h1, h2, h3]
    simp only [true_and, and_true]
    constructor
    · rintro ⟨h, h'⟩; exact ⟨h, by omega⟩
    · rintro ⟨h, h'⟩; exact ⟨h, by omega⟩
  · simp only [checkLocatorAddress, UsableLocator, exIteErr_ok, Bool.or_eq_true, containsIP_iff]
    have h1 : netFf02.base = 0xff02 * 2 ^ 112 := by decide +kernel
    have h2 : netFf02.size = 2 ^ 112 := rfl
    have h3 : netFf02.ver = .v6 := rfl
    have h4 : netFf12.base = 0xff12 * 2 ^ 112 := by decide +kernel
    have h5 : netFf12.size = 2 ^ 112 := rfl
    have h6 : netFf12.ver = .v6 := rfl
    rw [h1, h2, h3, h4, h5, h6]
    simp only [true_and, and_true]
    omega

/-- C20: a locator record with an IP address passes `sanitize` exactly when its priorities and
weights fit in a byte and the address is usable. -/
theorem locator_accepted_iff (l : Locator) (a : IP) (ha : l.address = .ip a) :
    l.sanitize = .ok () ↔
      FitsByte l.priority ∧ FitsByte l.weight ∧ FitsByte l.mPriority ∧ FitsByte l.mWeight ∧
      UsableLocator a := by
  rw [Locator.sanitize_ok, ha, checkLocatorAddress_ip]; rfl

/-- C20: the same condition decides whether `to_bytes` succeeds. -/
theorem locator_writable_iff (l : Locator) (a : IP) (ha : l.address = .ip a) :
    (∃ b, encLocator l = .ok b) ↔
      FitsByte l.priority ∧ FitsByte l.weight ∧ FitsByte l.mPriority ∧ FitsByte l.mWeight ∧
      UsableLocator a := by
  rw [← locator_accepted_iff l a ha]
  constructor
  · rintro ⟨b, hb⟩
    simp only [encLocator, exBind_ok] at hb
    obtain ⟨_, h, _⟩ := hb; exact h
  · intro h
    have h' := (locator_accepted_iff l a ha).mp h
    obtain ⟨⟨_, _⟩, ⟨_, _⟩, ⟨_, _⟩, ⟨_, _⟩, _⟩ := h'
    simp only [encLocator, h, exBind_okl, encLocatorRaw, ha, encAddr]
    rw [encUint_eq_ok (by assumption) (by omega), encUint_eq_ok (by assumption) (by omega),
      encUint_eq_ok (by assumption) (by omega), encUint_eq_ok (by assumption) (by omega)]
    exact ⟨_, rfl⟩

/-- C20: no locator, a network as locator, or an LCAF that contains an address is always
rejected. -/
theorem locator_rejected (l : Locator)
    (h : l.address = .none ∨ (∃ n, l.address = .net n) ∨
      (l.address.isLcaf = true ∧ ∃ x xs, Carries l.address (x :: xs))) :
    l.sanitize ≠ .ok () ∧ (∀ b, encLocator l ≠ .ok b) ∧
      ∀ s rest, readLocator s ≠ .ok (l, rest) := by
  have hs : l.sanitize ≠ .ok () := by
    intro hs
    have hs := (Locator.sanitize_ok.mp hs).2.2.2.2
    rcases h with h | ⟨n, h⟩ | ⟨h1, h2⟩
    · rw [h] at hs; cases hs
    · rw [h] at hs; cases hs
    · obtain ⟨x, xs, h2⟩ := h2
      have h3 := (checkLocatorAddress_lcaf h1).mp hs
      rw [(get_addresses_iff _ _).mpr h2] at h3; cases h3
  refine ⟨hs, ?_, ?_⟩
  · intro b hb
    simp only [encLocator, exBind_ok] at hb
    obtain ⟨_, h, _⟩ := hb; exact hs h
  · intro s rest hr; exact hs (readLocator_ok hr).1

/-- C20: exactly which locator records are accepted, whatever the address is: the four numbers fit in a
byte, and the locator is a usable IP address or an LCAF that carries no address at all. -/
theorem locator_accepted_exact (l : Locator) : l.sanitize = .ok () ↔
    FitsByte l.priority ∧ FitsByte l.weight ∧ FitsByte l.mPriority ∧ FitsByte l.mWeight ∧
    ((∃ a, l.address = .ip a ∧ UsableLocator a) ∨ Carries l.address []) := by
  rw [Locator.sanitize_ok]
  have key : checkLocatorAddress l.address = .ok () ↔
      ((∃ a, l.address = .ip a ∧ UsableLocator a) ∨ Carries l.address []) := by
    constructor
    · intro h5
      rcases checkLocatorAddress_cases h5 with ⟨i, hi⟩ | h6
      · exact .inl ⟨i, hi, by rw [hi] at h5; exact (checkLocatorAddress_ip i).mp h5⟩
      · exact .inr ((get_addresses_iff _ _).mp h6.2)
    · rintro (⟨a, ha, hu⟩ | h)
      · rw [ha]; exact (checkLocatorAddress_ip a).mpr hu
      · have hn := (get_addresses_iff _ _).mpr h
        refine (checkLocatorAddress_lcaf ?_).mpr hn
        cases hc : l.address <;> rw [hc] at hn <;> first | rfl | cases hn
  rw [key]; rfl

/-- C20: every locator record that comes out of the parser passes the same checks. -/
theorem locator_parsed_valid (s rest : Bits) (l : Locator) (h : readLocator s = .ok (l, rest)) :
    FitsByte l.priority ∧ FitsByte l.weight ∧ FitsByte l.mPriority ∧ FitsByte l.mWeight ∧
    ((∃ a, l.address = .ip a ∧ UsableLocator a) ∨
     Carries l.address []) :=
  (locator_accepted_exact l).mp (readLocator_ok h).1

/-! ### C19 -/

/-- C19: a locator record with an IP address is read back unchanged. -/
theorem locator_round_trip (l : Locator) (a : IP) (ha : l.address = .ip a) (b : Bits)
    (h : encLocator l = .ok b) (t : Bits) : readLocator (b ++ t) = .ok (l, t) :=
  readLocator_enc_ip h ha t

/-- C19: for every other locator record that can be written (LCAF addresses without contained
addresses) the address comes back as `Addr.strip` says, everything else unchanged. -/
theorem locator_round_trip_any (l : Locator) (b : Bits)
    (h : encLocator l = .ok b) (t : Bits) :
    readLocator (b ++ t) = .ok ({ l with address := l.address.strip }, t) := readLocator_enc h t

/-- C19: exact layout -/
theorem locator_layout (l : Locator) (a : IP) (ha : l.address = .ip a) (b : Bits)
    (h : encLocator l = .ok b) :
    b = natToBits 8 l.priority.toNat ++ natToBits 8 l.weight.toNat ++ natToBits 8 l.mPriority.toNat
      ++ natToBits 8 l.mWeight.toNat ++ natToBits 13 l.reserved1.toNat ++
      [l.isLocal, l.probed, l.reachable] ++
      natToBits 16 (afiNumber a.ver) ++ natToBits a.ver.width a.val := by
  simp only [encLocator, exBind_ok] at h
  obtain ⟨_, _, h⟩ := h
  obtain ⟨x, hx, _, _, _, _, rfl⟩ := encLocatorRaw_ok h
  rw [ha, afi_ip_layout] at hx
  cases hx
  simp

/-- C19/C33: no truncated locator record is accepted. -/
theorem locator_no_truncation (l l' : Locator) (b pre cut rest : Bits) (h : encLocator l = .ok b)
    (hb : b = pre ++ cut) (hc : cut ≠ []) : readLocator pre ≠ .ok (l', rest) := by
  have := readLocator_enc h []
  rw [List.append_nil] at this
  exact Loc.readLocator.no_short this hb hc _ _

/-! ### C21 -/

/-- C21: which records are accepted and what `sanitize` makes of them. -/
theorem record_sanitize_iff (r r' : Record) : r.sanitize = .ok r' ↔
    (0 ≤ r.ttl ∧ r.ttl ≤ 0xffffffff) ∧
    (r.locators = [] → 0 ≤ r.action ∧ r.action ≤ 3) ∧
    (0 ≤ r.mapVersion ∧ r.mapVersion < 2 ^ 12) ∧
    (∃ n, r.eid = .net n) ∧
    (∀ l ∈ r.locators, l.sanitize = .ok () ∧ ∃ i, l.address = .ip i) ∧
    r' = { r with action := if r.locators ≠ [] then 0 else r.action
                  locators := sortBy Locator.key r.locators } := Record.sanitize_ok

/-- C21: a record that can be written is read back as the sanitised record. -/
theorem record_round_trip (r : Record) (b : Bits) (h : encRecord r = .ok b) :
    ∃ r', r.sanitize = .ok r' ∧ ∀ t, readRecord (b ++ t) = .ok (r', t) := by
  obtain ⟨r', h1, _⟩ := encRecord_ok h
  exact ⟨r', h1, readRecord_enc h h1⟩

/-- C21: a sanitised record is read back unchanged. -/
theorem record_round_trip_fixed (r : Record) (hr : r.sanitize = .ok r) (b : Bits)
    (h : encRecord r = .ok b) (t : Bits) : readRecord (b ++ t) = .ok (r, t) := readRecord_enc h hr t

/-- C21: every acceptable record with at most 255 locators can be written. -/
theorem record_writable (r r' : Record) (h : r.sanitize = .ok r') (hl : r.locators.length ≤ 255) :
    ∃ b, encRecord r = .ok b := by
  have hi := Record.sanitize_idem h
  obtain ⟨_, _, _, _, _, e⟩ := Record.sanitize_ok.mp h
  have hlen : r'.locators.length ≤ 255 := by rw [e]; simpa using hl
  obtain ⟨h1, h2, h3, ⟨n, hn⟩, h5, e'⟩ := Record.sanitize_ok.mp hi
  have ha : 0 ≤ r'.action ∧ r'.action ≤ 3 := by
    by_cases hl : r'.locators = []
    · exact h2 hl
    · have : r'.action = 0 := by
        have := congrArg Record.action e'
        simpa [hl] using this
      omega
  have henc : ∃ ls, encAll encLocator r'.locators = .ok ls := by
    apply encAll_ok_of_mem
    intro l hl
    obtain ⟨hs, i, hi⟩ := h5 l hl
    exact (locator_writable_iff l i hi).mpr ((locator_accepted_iff l i hi).mp hs)
  obtain ⟨ls, hls⟩ := henc
  simp only [encRecord, h, exBind_okl, encRecordRaw, hn, Addr.prefixlen, encAddr, hls]
  rw [encUint_eq_ok (by omega) (by omega), encUint_eq_ok (by omega) (by omega),
    encUint_eq_ok (by omega) (by have := n.plen_lt_256; omega),
    encUint_eq_ok (by omega) (by omega), encUint_eq_ok (by omega) (by omega)]
  exact ⟨_, rfl⟩

/-- C21: exactly which records can be written: those that `sanitize` accepts, with at most 255 locators. -/
theorem record_writable_iff (r : Record) : (∃ b, encRecord r = .ok b) ↔
    (0 ≤ r.ttl ∧ r.ttl ≤ 0xffffffff) ∧
    (r.locators = [] → 0 ≤ r.action ∧ r.action ≤ 3) ∧
    (0 ≤ r.mapVersion ∧ r.mapVersion < 2 ^ 12) ∧
    (∃ n, r.eid = .net n) ∧
    (∀ l ∈ r.locators, l.sanitize = .ok () ∧ ∃ i, l.address = .ip i) ∧
    r.locators.length ≤ 255 := by
  constructor
  · rintro ⟨b, h⟩
    obtain ⟨r', h1, h2⟩ := encRecord_ok h
    obtain ⟨a1, a2, a3, ⟨n, a4⟩, a5, e⟩ := Record.sanitize_ok.mp h1
    refine ⟨a1, a2, a3, ⟨n, a4⟩, a5, ?_⟩
    have := (encRecordRaw_ok (n := n) (by rw [e]; exact a4) h2).2.1
    rw [e] at this
    simp only [sortBy_length] at this
    omega
  · rintro ⟨a1, a2, a3, a4, a5, a6⟩
    exact record_writable r _ (Record.sanitize_ok.mpr ⟨a1, a2, a3, a4, a5, rfl⟩) a6

/-- C21: exact layout of a written record -/
theorem record_layout (r r' : Record) (n : Net) (b : Bits) (h : encRecord r = .ok b)
    (hs : r.sanitize = .ok r') (hn : r.eid = .net n) :
    ∃ ls, encAll encLocator r'.locators = .ok ls ∧
    b = natToBits 32 r.ttl.toNat ++ natToBits 8 r.locators.length ++ natToBits 8 n.plen ++
      natToBits 3 r'.action.toNat ++ [r.authoritative] ++ natToBits 16 r.reserved1.toNat ++
      natToBits 12 r.mapVersion.toNat ++ encIP n.first ++ ls := by
  obtain ⟨r'', h1, h2⟩ := encRecord_ok h
  rw [hs] at h1; cases h1
  obtain ⟨_, _, _, _, _, e⟩ := Record.sanitize_ok.mp hs
  have hn' : r'.eid = .net n := by rw [e]; exact hn
  obtain ⟨_, _, _, _, ls, hls, hb⟩ := encRecordRaw_ok hn' h2
  refine ⟨ls, hls, ?_⟩
  rw [hb, e]; simp

/-- C21/C33: no truncated record is accepted. -/
theorem record_no_truncation (r r' : Record) (b pre cut rest : Bits) (h : encRecord r = .ok b)
    (hb : b = pre ++ cut) (hc : cut ≠ []) : readRecord pre ≠ .ok (r', rest) := by
  obtain ⟨r'', _, h2⟩ := record_round_trip r b h
  have := h2 []
  rw [List.append_nil] at this
  exact Loc.readRecord.no_short this hb hc _ _

/-! ### C22 -/

/-- numerical value of an IP locator (`int(address)`) -/
def addrValue (l : Locator) : Nat := match l.address with | .ip a => a.val | _ => 0

/-- C22: what is written is read back with the locators in ascending numerical order, and they are
the given locators. -/
theorem record_locators_sorted (r r' : Record) (b rest t : Bits) (h : encRecord r = .ok b)
    (hr : readRecord (b ++ t) = .ok (r', rest)) :
    r'.locators.Pairwise (fun x y => addrValue x ≤ addrValue y) ∧ r'.locators.Perm r.locators := by
  obtain ⟨r'', h1, h2⟩ := record_round_trip r b h
  rw [h2 t] at hr; cases hr
  obtain ⟨_, _, _, _, _, e⟩ := Record.sanitize_ok.mp h1
  rw [e]
  exact ⟨sortBy_ascending Locator.key r.locators, sortBy_perm _ _⟩

/-- C22: every parsed record has its locators in ascending order. -/
theorem record_parsed_sorted (s rest : Bits) (r : Record) (h : readRecord s = .ok (r, rest)) :
    r.locators.Pairwise (fun x y => addrValue x ≤ addrValue y) := by
  obtain ⟨raw, _, h2⟩ := readRecord_ok h
  obtain ⟨_, _, _, _, _, e⟩ := Record.sanitize_ok.mp h2
  rw [e]; exact sortBy_ascending Locator.key raw.locators

theorem pairwise_ne_inj {f : α → Nat} {l : List α} (h : l.Pairwise (fun x y => f x ≠ f y)) :
    ∀ a ∈ l, ∀ b ∈ l, f a = f b → a = b := by
  induction l with
  | nil => simp
  | cons x l ih =>
    rw [List.pairwise_cons] at h
    intro a ha b hb hab
    rcases List.mem_cons.mp ha with rfl | ha' <;> rcases List.mem_cons.mp hb with rfl | hb'
    · rfl
    · exact absurd hab (h.1 b hb')
    · exact absurd hab.symm (h.1 a ha')
    · exact ih h.2 a ha' b hb' hab

/-- C22: the input order of locators with distinct addresses does not matter. -/
theorem record_order_irrelevant (r : Record) (ls : List Locator) (hp : r.locators.Perm ls)
    (hd : r.locators.Pairwise (fun x y => addrValue x ≠ addrValue y)) (b : Bits)
    (h : encRecord r = .ok b) : encRecord { r with locators := ls } = .ok b := by
  obtain ⟨r', h1, h2⟩ := encRecord_ok h
  have hinj : ∀ a ∈ r.locators, ∀ b ∈ r.locators, Locator.key a = Locator.key b → a = b := by
    exact pairwise_ne_inj hd
  have hs : ({ r with locators := ls } : Record).sanitize = .ok r' := by
    obtain ⟨e1, e2, e3, e4, e5, e6⟩ := Record.sanitize_ok.mp h1
    refine Record.sanitize_ok.mpr ⟨e1, ?_, e3, e4, ?_, ?_⟩
    · intro hl; apply e2
      have hl' : ls = [] := hl
      subst hl'; exact hp.eq_nil
    · intro l hl; exact e5 l (hp.mem_iff.mpr hl)
    · rw [e6, sortBy_perm_eq Locator.key hp hinj]
      congr 1
      by_cases hl : r.locators = []
      · have : ls = [] := by rw [hl] at hp; exact hp.symm.eq_nil
        simp [hl, this]
      · have : ls ≠ [] := by intro h0; rw [h0] at hp; exact hl hp.eq_nil
        simp [hl, this]
  simp only [encRecord, hs, exBind_okl]; exact h2

/-! ### C23 -/

/-- the DDT table (draft-ietf-lisp-ddt): allowed combinations of action, incomplete flag,
referral set and TTL -/
inductive DdtRow : (action : Int) → (incomplete : Bool) → (hasLocators : Bool) → (ttl : Int) → Prop
  | nodeReferral : DdtRow 0 false true 1440
  | msReferral : DdtRow 1 false true 1440
  | msAck (i l) : DdtRow 2 i l 1440
  | msNotRegistered (i l) : DdtRow 3 i l 1
  | delegationHole : DdtRow 4 false false 15
  | notAuthoritative : DdtRow 5 true false 0

theorem ddtRow_iff {action ttl : Int} {inc : Bool} {ls : List Locator} :
    DdtRow action inc (!ls.isEmpty) ttl ↔
      (0 ≤ action ∧ action ≤ 5) ∧ refTable action inc ls ttl = .ok () := by
  constructor
  · intro h
    generalize hl : (!ls.isEmpty) = hasl at h
    cases h <;> (refine ⟨by omega, (refTable_ok (by omega)).mpr ?_⟩; cases ls <;> simp_all)
  · rintro ⟨ha, h⟩
    rw [refTable_ok ha] at h
    obtain ⟨h1, h2, h3, h4, h5⟩ := h
    have : action = 0 ∨ action = 1 ∨ action = 2 ∨ action = 3 ∨ action = 4 ∨ action = 5 := by omega
    have ne : ls ≠ [] → (!ls.isEmpty) = true := by cases ls <;> simp
    have em : ls = [] → (!ls.isEmpty) = false := by cases ls <;> simp
    rcases this with rfl | rfl | rfl | rfl | rfl | rfl
    · obtain ⟨rfl, hl, rfl⟩ := h1 (.inl rfl); rw [ne hl]; exact .nodeReferral
    · obtain ⟨rfl, hl, rfl⟩ := h1 (.inr rfl); rw [ne hl]; exact .msReferral
    · obtain rfl := h2 rfl; exact .msAck _ _
    · obtain rfl := h3 rfl; exact .msNotRegistered _ _
    · obtain ⟨rfl, hl, rfl⟩ := h4 rfl; rw [em hl]; exact .delegationHole
    · obtain ⟨rfl, hl, rfl⟩ := h5 rfl; rw [em hl]; exact .notAuthoritative

/-- C23: a Map-Referral record passes `sanitize` exactly when it follows the table, its map version
fits, its EID is an instance-id address or a network, and its locators are valid IP locators
without the probe bit. -/
theorem referral_accepted_iff (r : RefRecord) : (∃ r', r.sanitize = .ok r') ↔
    DdtRow r.action r.incomplete (!r.locators.isEmpty) r.ttl ∧
    (0 ≤ r.mapVersion ∧ r.mapVersion < 2 ^ 12) ∧
    ((∃ i a m, r.eid = .inst i a m) ∨ ∃ n, r.eid = .net n) ∧
    (∀ l ∈ r.locators, l.probed = false ∧ l.sanitize = .ok () ∧ ∃ i, l.address = .ip i) := by
  have hw : (∃ e, wrapEid r.eid = .ok e) ↔ ((∃ i a m, r.eid = .inst i a m) ∨ ∃ n, r.eid = .net n) := by
    cases r.eid <;> simp [wrapEid]
  rw [ddtRow_iff, ← hw]
  constructor
  · rintro ⟨r', h⟩
    obtain ⟨h1, h2, h3, h4, h5, e, h6, _⟩ := RefRecord.sanitize_ok.mp h
    exact ⟨⟨h2, h3⟩, h4, ⟨e, h6⟩, h5⟩
  · rintro ⟨⟨h2, h3⟩, h4, ⟨e, h6⟩, h5⟩
    refine ⟨_, RefRecord.sanitize_ok.mpr ⟨?_, h2, h3, h4, h5, e, h6, rfl⟩⟩
    have h3' := (refTable_ok h2).mp h3
    omega

/-- C23: whatever the parser accepts follows the table, has no probe bits and no signatures. -/
theorem referral_parsed_valid (s rest : Bits) (r : RefRecord) (h : readRefRecord s = .ok (r, rest)) :
    DdtRow r.action r.incomplete (!r.locators.isEmpty) r.ttl ∧ r.sigs = 0 ∧
    (∀ l ∈ r.locators, l.probed = false) := by
  have hf := readRefRecord_fix h
  obtain ⟨h1, _, _, h4⟩ := (referral_accepted_iff r).mp ⟨r, hf⟩
  refine ⟨h1, ?_, fun l hl => (h4 l hl).1⟩
  obtain ⟨raw, h1, h2⟩ := readRefRecord_ok h
  obtain ⟨_, _, _, _, _, _, _, e⟩ := RefRecord.sanitize_ok.mp h2
  have : raw.sigs = 0 := by
    simp only [readRefRecordRaw, Rd.bind_ok] at h1
    obtain ⟨_, _, _, _, _, _, _, _, _, _, _, _, _, _, _, _, _, _, _, _, _, _, _, _, _, _, _, _, _, _,
      _, _, _, h1⟩ := h1
    split at h1
    · cases h1
    · cases h1; rfl
  rw [e]; exact this

/-- C23: whatever `to_bytes` writes follows the table and carries no signatures. -/
theorem referral_written_valid (r : RefRecord) (b : Bits) (h : encRefRecord r = .ok b) :
    DdtRow r.action r.incomplete (!r.locators.isEmpty) r.ttl ∧ r.sigs = 0 ∧
    (∀ l ∈ r.locators, l.probed = false) := by
  obtain ⟨r', h1, h2⟩ := encRefRecord_ok h
  obtain ⟨g1, _, _, g4⟩ := (referral_accepted_iff r).mp ⟨r', h1⟩
  obtain ⟨_, _, _, _, g, _⟩ := encRefRecordRaw_ok h2
  obtain ⟨_, _, _, _, _, _, _, e⟩ := RefRecord.sanitize_ok.mp h1
  refine ⟨g1, ?_, fun l hl => (g4 l hl).1⟩
  rw [e] at g; exact g

/-! ### C24 -/

/-- the EIDs of Map-Referral records that survive transport: a network, or a network with an
instance id -/
inductive ReferralEid : Addr → Prop
  | net (n : Net) : ReferralEid (.net n)
  | inst (i : Int) (n : Net) (m : Int) : ReferralEid (.inst i (.net n) m)

/-- C24: a Map-Referral record is read back as the sanitised record: same scalar fields, locators
sorted, plain networks wrapped in instance id 0. -/
theorem referral_round_trip (r : RefRecord) (he : ReferralEid r.eid) (b : Bits)
    (h : encRefRecord r = .ok b) :
    ∃ r', r.sanitize = .ok r' ∧ (∀ t, readRefRecord (b ++ t) = .ok (r', t)) ∧
      r' = { r with
        eid := match r.eid with | .net n => .inst 0 (.net n) 32 | e => e
        locators := sortBy Locator.key r.locators } := by
  obtain ⟨r', h1, _⟩ := encRefRecord_ok h
  obtain ⟨_, _, _, _, _, e, hw, hr⟩ := RefRecord.sanitize_ok.mp h1
  refine ⟨r', h1, ?_, ?_⟩
  · generalize heq : r.eid = x at he hw
    cases he with
    | net n =>
      cases hw
      exact readRefRecord_enc h h1 (iid := 0) (n := n) (m := 32) (by rw [hr])
    | inst i n m =>
      cases hw
      exact readRefRecord_enc h h1 (iid := i) (n := n) (m := m) (by rw [hr])
  · rw [hr]
    generalize heq : r.eid = x at he hw
    cases he <;> cases hw <;> rfl

/-- C24: a sanitised record is read back unchanged. -/
theorem referral_round_trip_fixed (r : RefRecord) (hr : r.sanitize = .ok r) (he : ReferralEid r.eid)
    (b : Bits) (h : encRefRecord r = .ok b) (t : Bits) : readRefRecord (b ++ t) = .ok (r, t) := by
  obtain ⟨r', h1, h2, _⟩ := referral_round_trip r he b h
  rw [hr] at h1; cases h1; exact h2 t

/-- C24 counterpart of C22: order of locators -/
theorem referral_locators_sorted (s rest : Bits) (r : RefRecord)
    (h : readRefRecord s = .ok (r, rest)) :
    r.locators.Pairwise (fun x y => addrValue x ≤ addrValue y) := by
  obtain ⟨raw, _, h2⟩ := readRefRecord_ok h
  obtain ⟨_, _, _, _, _, _, _, e⟩ := RefRecord.sanitize_ok.mp h2
  rw [e]; exact sortBy_ascending Locator.key raw.locators

/-- C24/C33: no truncated referral record is accepted. -/
theorem referral_no_truncation (r r' : RefRecord) (he : ReferralEid r.eid) (b pre cut rest : Bits)
    (h : encRefRecord r = .ok b) (hb : b = pre ++ cut) (hc : cut ≠ []) :
    readRefRecord pre ≠ .ok (r', rest) := by
  obtain ⟨r'', _, h2, _⟩ := referral_round_trip r he b h
  have := h2 []
  rw [List.append_nil] at this
  exact Loc.readRefRecord.no_short this hb hc _ _

/-! Non-vacuity -/

def exLoc1 : Locator := { priority := 1, weight := 100, reachable := true, address := .ip (.v4 0xc0000201) }
def exLoc2 : Locator := { priority := 2, weight := 50, address := .ip (.v4 0xc0000202) }
def exLoc6 : Locator := { priority := 2, weight := 50, address := .ip exIP6 }
def exRecord : Record :=
  { ttl := 1440, authoritative := true, eid := .net exNet, locators := [exLoc6, exLoc2, exLoc1] }
def exReferral : RefRecord :=
  { ttl := 1440, action := 0, eid := .net exNet, locators := [exLoc2, exLoc1] }

example : exRecord.sanitize = .ok { exRecord with locators := [exLoc1, exLoc2, exLoc6] } := by
  decide +kernel
example : ∃ b, encRecord exRecord = .ok b := isOk_iff.mp (by decide +kernel)
example : exRecord.locators.Pairwise (fun x y => addrValue x ≠ addrValue y) := by decide +kernel
example : ∃ b, encRefRecord exReferral = .ok b := isOk_iff.mp (by decide +kernel)
example : ReferralEid exReferral.eid := .net _
example : UsableLocator (.v4 0xc0000201) := by simp [UsableLocator, IP.v4]
example : ¬ UsableLocator (.v4 0xe0000005) := by simp [UsableLocator, IP.v4]
example : ∃ b, encLocator exLoc6 = .ok b := isOk_iff.mp (by decide +kernel)
/-- the RFC text "IPv4 less than IPv6" does not hold of the code: ::1 sorts before 192.0.2.1 -/
example : ({ exRecord with locators := [exLoc1, { exLoc2 with address := .ip (.v6 1) }] } : Record).sanitize
    = .ok { exRecord with locators := [{ exLoc2 with address := .ip (.v6 1) }, exLoc1] } := by
  decide +kernel

end PyLisp.Props
