import Verif.AddrText
import Verif.Props.Unprintable
/-
C97: the texts of addresses, and reading them back.  (C95: the text of a packet, with the texts the library really
writes.)
-/
namespace PyLisp.Props
open PyLisp PyLisp.IPText PyLisp.Rep

/-- C97: the text of an address, read with `ip_address`, gives that address: for every IPv4 and every IPv6 address,
however its zeros are abbreviated. -/
theorem address_text_back (a : IP) : ipAddress (addrText a) = some a := ipAddress_addrText a

/-- C97: the text of a network, read with `ip_network`, gives that network; that of an address the network with only
that address; and `ip_address` does not take the text of a network. -/
theorem network_text_back (n : Net) (a : IP) : ipNetwork (netText n) = some n ∧ ipNetwork (addrText a) = some a.toNet ∧
    ipAddress (netText n) = none :=
  ⟨ipNetwork_netText n, ipNetwork_addrText a,
    ipAddress_bad (c := '/') (by simp [netText]) not_addrChar_slash⟩

/-- C97: different addresses have different texts, and so have different networks, also across IPv4 and IPv6. -/
theorem texts_differ : (∀ a b : IP, addrText a = addrText b → a = b) ∧ (∀ m n : Net, netText m = netText n → m = n) := by
  constructor
  · intro a b h
    have := address_text_back a
    rw [h, address_text_back b] at this
    exact (Option.some.inj this).symm
  · intro m n h
    have := (network_text_back m m.first).1
    rw [h, (network_text_back n n.first).1] at this
    exact (Option.some.inj this).symm

theorem unicodeOf_error (coord : Int → Int → Int → List Char) : ∀ (a : Addr) (e : Err),
    unicodeOf coord a = .error e → e = .type
  | .none, e, h => by cases h
  | .ip _, e, h => by cases h
  | .net _, e, h => by cases h
  | .null, e, h => by cases h
  | .afiList l, e, h => by
    unfold unicodeOf at h
    split at h
    · cases h
    · cases h; rfl
  | .inst i a m, e, h => by
    unfold unicodeOf at h
    cases ha : unicodeOf coord a with
    | ok t => rw [ha] at h; cases h
    | error x => rw [ha] at h; cases h; exact unicodeOf_error coord a _ ha
  | .asn n a, e, h => by
    unfold unicodeOf at h
    cases ha : unicodeOf coord a with
    | ok t => rw [ha] at h; cases h
    | error x => rw [ha] at h; cases h; exact unicodeOf_error coord a _ ha
  | .geo _ _ _ _ _ _ _ _ _ a, e, h => by
    unfold unicodeOf at h
    cases ha : unicodeOf coord a with
    | ok t => rw [ha] at h; cases h
    | error x => rw [ha] at h; cases h; exact unicodeOf_error coord a _ ha
  | .natT mp ep g m p r, e, h => by
    unfold unicodeOf at h
    split at h
    · cases h
    · cases h; rfl

/-- C97: `unicode(address)` raises (TypeError) exactly for an AFI list with something in it, and for what contains one
where its text is shown. -/
theorem text_defined_iff (coord : Int → Int → Int → List Char) : ∀ a : Addr,
    unicodeOf coord a = .error .type ↔ Unprintable a
  | .none => ⟨(fun h => by cases h), (fun h => by cases h)⟩
  | .ip _ => ⟨(fun h => by cases h), (fun h => by cases h)⟩
  | .net _ => ⟨(fun h => by cases h), (fun h => by cases h)⟩
  | .null => ⟨(fun h => by cases h), (fun h => by cases h)⟩
  | .afiList l => by
    unfold unicodeOf
    cases l with
    | nil => exact ⟨(fun h => by cases h), (fun h => by cases h; contradiction)⟩
    | cons x l => exact ⟨fun _ => .list (by simp), fun _ => rfl⟩
  | .inst i a m => by
    have ih := text_defined_iff coord a
    unfold unicodeOf
    cases ha : unicodeOf coord a with
    | ok t => exact ⟨(fun h => by cases h), (fun h => by cases h with | inst h => rw [ih.mpr h] at ha; cases ha)⟩
    | error e =>
      have := unicodeOf_error coord a e ha
      subst this
      exact ⟨fun _ => .inst (ih.mp ha), fun _ => rfl⟩
  | .asn n a => by
    have ih := text_defined_iff coord a
    unfold unicodeOf
    cases ha : unicodeOf coord a with
    | ok t => exact ⟨(fun h => by cases h), (fun h => by cases h with | asn h => rw [ih.mpr h] at ha; cases ha)⟩
    | error e =>
      have := unicodeOf_error coord a e ha
      subst this
      exact ⟨fun _ => .asn (ih.mp ha), fun _ => rfl⟩
  | .geo n ld lm ls e od om os alt a => by
    have ih := text_defined_iff coord a
    unfold unicodeOf
    cases ha : unicodeOf coord a with
    | ok t => exact ⟨(fun h => by cases h), (fun h => by cases h with | geo h => rw [ih.mpr h] at ha; cases ha)⟩
    | error e =>
      have := unicodeOf_error coord a e ha
      subst this
      exact ⟨fun _ => .geo (ih.mp ha), fun _ => rfl⟩
  | .natT mp ep g m p r => by
    have ihg := text_defined_iff coord g
    have ihm := text_defined_iff coord m
    have ihp := text_defined_iff coord p
    unfold unicodeOf
    cases hm : unicodeOf coord m with
    | error e =>
      have := unicodeOf_error coord m e hm
      subst this
      exact ⟨fun _ => .natMs (ihm.mp hm), fun _ => rfl⟩
    | ok tm =>
      cases hp : unicodeOf coord p with
      | error e =>
        have := unicodeOf_error coord p e hp
        subst this
        exact ⟨fun _ => .natPrivate (ihp.mp hp), fun _ => rfl⟩
      | ok tp =>
        cases hg : unicodeOf coord g with
        | error e =>
          have := unicodeOf_error coord g e hg
          subst this
          exact ⟨fun _ => .natGlobal (ihg.mp hg), fun _ => rfl⟩
        | ok tg =>
          refine ⟨(fun h => by cases h), fun h => ?_⟩
          cases h with
          | natMs h => rw [ihm.mpr h] at hm; cases hm
          | natPrivate h => rw [ihp.mpr h] at hp; cases hp
          | natGlobal h => rw [ihg.mpr h] at hg; cases hg

/-- the address or network inside instance addresses with instance id 0 only -/
inductive PlainInside : Addr → Addr → Prop
  | self (a) : PlainInside a a
  | inst {a b m} : PlainInside a b → PlainInside (.inst 0 a m) b

/-- characters that are in no text of an address or network -/
theorem bad_chars : (¬ AddrChar '[' ∧ '[' ≠ '/') ∧ (¬ AddrChar '<' ∧ '<' ≠ '/') ∧ (¬ AddrChar 'N' ∧ 'N' ≠ '/') := by
  unfold AddrChar; decide

theorem read_bad {α : Type} (parse : List Char → Option α) (a : Addr) (coord : Int → Int → Int → List Char)
    (h : ∀ t, unicodeOf coord a = .ok t → parse t = none) :
    readText parse (unicodeOf coord a) = .error a.noNetwork := by
  cases ht : unicodeOf coord a with
  | error e =>
    have := unicodeOf_error coord a e ht
    subst this
    have hu := (unprintable_iff a).mp ((text_defined_iff coord a).mp ht)
    simp [readText, Addr.noNetwork, hu]
  | ok t =>
    have hu : a.textRaises = false := by
      cases hr : a.textRaises with
      | false => rfl
      | true =>
        have := (text_defined_iff coord a).mpr ((unprintable_iff a).mpr hr)
        rw [this] at ht; cases ht
    simp [readText, h t ht, Addr.noNetwork, hu]

/-- texts that can be read by nothing: those of None, NULL, AS numbers, places, NAT traversal addresses, AFI lists and
addresses with an instance id -/
theorem bracket_text (coord : Int → Int → Int → List Char) (a : Addr) (t : List Char) (h : unicodeOf coord a = .ok t)
    (hip : ∀ x, a ≠ .ip x) (hnet : ∀ n, a ≠ .net n) (hz : ∀ b m, a ≠ .inst 0 b m) (hl : a ≠ .afiList []) :
    ∃ c ∈ t, ¬ AddrChar c ∧ c ≠ '/' := by
  obtain ⟨b1, b2, b3⟩ := bad_chars
  match a, h with
  | .none, h => cases h; exact ⟨'N', by simp, b3⟩
  | .ip x, _ => exact absurd rfl (hip x)
  | .net n, _ => exact absurd rfl (hnet n)
  | .null, h => cases h; exact ⟨'N', by simp, b3⟩
  | .afiList [], _ => exact absurd rfl hl
  | .afiList (x :: l), h => cases h
  | .inst i a m, h =>
    have hi : i ≠ 0 := by rintro rfl; exact hz a m rfl
    unfold unicodeOf at h
    cases ha : unicodeOf coord a with
    | error e => rw [ha] at h; cases h
    | ok t' =>
      rw [ha] at h
      simp only [if_pos hi] at h
      cases h
      exact ⟨'[', by simp, b1⟩
  | .asn n a, h =>
    unfold unicodeOf at h
    cases ha : unicodeOf coord a with
    | error e => rw [ha] at h; cases h
    | ok t' => rw [ha] at h; cases h; exact ⟨'[', by simp, b1⟩
  | .geo _ _ _ _ _ _ _ _ _ a, h =>
    unfold unicodeOf at h
    cases ha : unicodeOf coord a with
    | error e => rw [ha] at h; cases h
    | ok t' => rw [ha] at h; cases h; exact ⟨'[', by simp, b1⟩
  | .natT mp ep g m p r, h =>
    unfold unicodeOf at h
    split at h
    · cases h
      exact ⟨'<', by simp, b2⟩
    · cases h

theorem empty_text : ipAddress [] = none ∧ ipNetwork [] = none := by decide

/-- what is neither an address, nor a network, nor wrapped in instance id 0, cannot be read -/
theorem read_other (coord : Int → Int → Int → List Char) (a : Addr)
    (hip : ∀ x, a ≠ .ip x) (hnet : ∀ n, a ≠ .net n) (hz : ∀ b m, a ≠ .inst 0 b m) :
    readText ipAddress (unicodeOf coord a) = .error a.noNetwork ∧
    readText ipNetwork (unicodeOf coord a) = .error a.noNetwork := by
  by_cases hl : a = .afiList []
  · subst hl; exact ⟨by rfl, by rfl⟩
  · constructor
    · refine read_bad ipAddress a coord fun t h => ?_
      obtain ⟨c, hc, hb, _⟩ := bracket_text coord a t h hip hnet hz hl
      exact ipAddress_bad hc hb
    · refine read_bad ipNetwork a coord fun t h => ?_
      obtain ⟨c, hc, hb, hs⟩ := bracket_text coord a t h hip hnet hz hl
      exact ipNetwork_bad hc hb hs

/-- C97: sending to an address goes by its text.  The address `send_message` and the ETR make of an object with
`ip_address(unicode(x))` is the one of the model (`Addr.asIP`), and so is the exception. -/
theorem send_address_by_text (coord : Int → Int → Int → List Char) : ∀ a : Addr,
    readText ipAddress (unicodeOf coord a) = a.asIP
  | .ip x => by simp [unicodeOf, readText, address_text_back, Addr.asIP]
  | .net n => read_bad ipAddress (.net n) coord fun t h => by cases h; exact (network_text_back n n.first).2.2
  | .inst i a m => by
    rw [Addr.asIP]
    by_cases hi : i = 0
    · subst hi
      rw [if_pos rfl, ← send_address_by_text coord a]
      rw [unicodeOf]
      cases unicodeOf coord a <;> rfl
    · rw [if_neg hi]
      exact (read_other coord (.inst i a m) (by rintro _ ⟨⟩) (by rintro _ ⟨⟩) (by rintro b m' ⟨⟩; exact hi rfl)).1
  | .none => (read_other coord _ (by rintro _ ⟨⟩) (by rintro _ ⟨⟩) (by rintro _ _ ⟨⟩)).1
  | .null => (read_other coord _ (by rintro _ ⟨⟩) (by rintro _ ⟨⟩) (by rintro _ _ ⟨⟩)).1
  | .afiList _ => (read_other coord _ (by rintro _ ⟨⟩) (by rintro _ ⟨⟩) (by rintro _ _ ⟨⟩)).1
  | .asn _ _ => (read_other coord _ (by rintro _ ⟨⟩) (by rintro _ ⟨⟩) (by rintro _ _ ⟨⟩)).1
  | .geo _ _ _ _ _ _ _ _ _ _ => (read_other coord _ (by rintro _ ⟨⟩) (by rintro _ ⟨⟩) (by rintro _ _ ⟨⟩)).1
  | .natT _ _ _ _ _ _ => (read_other coord _ (by rintro _ ⟨⟩) (by rintro _ ⟨⟩) (by rintro _ _ ⟨⟩)).1

/-- C97: and the network `ip_network(x)` makes of an object is that of the model (`Addr.toNetwork`). -/
theorem network_by_text (coord : Int → Int → Int → List Char) : ∀ a : Addr,
    readText ipNetwork (unicodeOf coord a) = a.toNetwork
  | .ip x => by simp [unicodeOf, readText, ipNetwork_addrText, Addr.toNetwork]
  | .net n => by simp [unicodeOf, readText, ipNetwork_netText, Addr.toNetwork]
  | .inst i a m => by
    rw [Addr.toNetwork]
    by_cases hi : i = 0
    · subst hi
      rw [if_pos rfl, ← network_by_text coord a]
      rw [unicodeOf]
      cases unicodeOf coord a <;> rfl
    · rw [if_neg hi]
      exact (read_other coord (.inst i a m) (by rintro _ ⟨⟩) (by rintro _ ⟨⟩) (by rintro b m' ⟨⟩; exact hi rfl)).2
  | .none => (read_other coord _ (by rintro _ ⟨⟩) (by rintro _ ⟨⟩) (by rintro _ _ ⟨⟩)).2
  | .null => (read_other coord _ (by rintro _ ⟨⟩) (by rintro _ ⟨⟩) (by rintro _ _ ⟨⟩)).2
  | .afiList _ => (read_other coord _ (by rintro _ ⟨⟩) (by rintro _ ⟨⟩) (by rintro _ _ ⟨⟩)).2
  | .asn _ _ => (read_other coord _ (by rintro _ ⟨⟩) (by rintro _ ⟨⟩) (by rintro _ _ ⟨⟩)).2
  | .geo _ _ _ _ _ _ _ _ _ _ => (read_other coord _ (by rintro _ ⟨⟩) (by rintro _ ⟨⟩) (by rintro _ _ ⟨⟩)).2
  | .natT _ _ _ _ _ _ => (read_other coord _ (by rintro _ ⟨⟩) (by rintro _ ⟨⟩) (by rintro _ _ ⟨⟩)).2

/-- the text of an object goes through instance id 0 -/
theorem unicode_plain (coord : Int → Int → Int → List Char) {a b : Addr} (h : PlainInside a b) :
    unicodeOf coord a = unicodeOf coord b := by
  induction h with
  | self => rfl
  | inst _ ih =>
    rw [unicodeOf, ih]
    split <;> simp_all

theorem asIP_plain (x : IP) : ∀ a : Addr, a.asIP = .ok x → PlainInside a (.ip x)
  | .ip y, h => by cases h; exact .self _
  | .inst i b m, h => by
    rw [Addr.asIP] at h
    by_cases hi : i = 0
    · subst hi; rw [if_pos rfl] at h
      exact .inst (asIP_plain x b h)
    · rw [if_neg hi] at h; cases h
  | .none, h => by cases h
  | .net _, h => by cases h
  | .null, h => by cases h
  | .afiList _, h => by cases h
  | .asn _ _, h => by cases h
  | .geo _ _ _ _ _ _ _ _ _ _, h => by cases h
  | .natT _ _ _ _ _ _, h => by cases h

theorem toNetwork_plain (n : Net) : ∀ a : Addr, a.toNetwork = .ok n →
    PlainInside a (.net n) ∨ ∃ x : IP, PlainInside a (.ip x) ∧ n = x.toNet
  | .ip y, h => by cases h; exact .inr ⟨y, .self _, rfl⟩
  | .net y, h => by cases h; exact .inl (.self _)
  | .inst i b m, h => by
    rw [Addr.toNetwork] at h
    by_cases hi : i = 0
    · subst hi; rw [if_pos rfl] at h
      rcases toNetwork_plain n b h with h | ⟨x, h, e⟩
      · exact .inl (.inst h)
      · exact .inr ⟨x, .inst h, e⟩
    · rw [if_neg hi] at h; cases h
  | .none, h => by cases h
  | .null, h => by cases h
  | .afiList _, h => by cases h
  | .asn _ _, h => by cases h
  | .geo _ _ _ _ _ _ _ _ _ _, h => by cases h
  | .natT _ _ _ _ _ _, h => by cases h

/-- C97: `ip_address(unicode(x))` gives an address exactly when `x` is that address, inside any number of instance
addresses with instance id 0. -/
theorem text_is_address_iff (coord : Int → Int → Int → List Char) (a : Addr) (x : IP) :
    readText ipAddress (unicodeOf coord a) = .ok x ↔ PlainInside a (.ip x) := by
  constructor
  · intro h
    rw [send_address_by_text] at h
    exact asIP_plain x a h
  · intro h
    rw [unicode_plain coord h]
    simp [unicodeOf, readText, address_text_back]

/-- C97: `ip_network(unicode(x))` gives a network exactly when `x` is that network, or its only address, inside any
number of instance addresses with instance id 0. -/
theorem text_is_network_iff (coord : Int → Int → Int → List Char) (a : Addr) (n : Net) :
    readText ipNetwork (unicodeOf coord a) = .ok n ↔
      PlainInside a (.net n) ∨ ∃ x : IP, PlainInside a (.ip x) ∧ n = x.toNet := by
  constructor
  · intro h
    rw [network_by_text] at h
    exact toNetwork_plain n a h
  · rintro (h | ⟨x, h, rfl⟩)
    · rw [unicode_plain coord h]
      simp [unicodeOf, readText, ipNetwork_netText]
    · rw [unicode_plain coord h]
      simp [unicodeOf, readText, ipNetwork_addrText]

/-- C97: in all other cases an exception is raised: TypeError if there is no text, else ValueError. -/
theorem text_not_read (coord : Int → Int → Int → List Char) (a : Addr) (h : ∀ x, ¬ PlainInside a (.ip x)) :
    (Unprintable a → readText ipAddress (unicodeOf coord a) = .error .type) ∧
    (¬ Unprintable a → readText ipAddress (unicodeOf coord a) = .error .value) := by
  constructor
  · intro hu
    rw [(text_defined_iff coord a).mpr hu]; rfl
  · intro hu
    cases ht : unicodeOf coord a with
    | error e =>
      have := unicodeOf_error coord a e ht
      subst this
      exact absurd ((text_defined_iff coord a).mp ht) hu
    | ok t =>
      unfold readText
      cases hp : ipAddress t with
      | none => simp [hp]
      | some x =>
        exact absurd ((text_is_address_iff coord a x).mp (by rw [ht]; simp [readText, hp])) (h x)

/-- C95: with the texts of addresses that the library really writes and reads, the text of a packet without UDP
messages evaluates to the packet. -/
theorem repr_evaluates_std (p : Pkt) (hs : Unsigned p) (hu : HasUdp p = false) (v : RVal)
    (hv : Same (pktVal p) v) (hp : Proper v) :
    ∃ v', evalText stdLib (reprOf stdLib v) = some (.ok v') ∧ Same (pktVal p) v' :=
  repr_evaluates stdLib p hs hu v hv hp

/-! ### Concrete texts -/

example : text6 0x20010db8000000000000000000000001 = "2001:db8::1".toList := by decide +kernel
example : text6 0 = "::".toList := by decide +kernel
example : text6 0xfe800000000000000000000000000000 = "fe80::".toList := by decide +kernel
-- the first of two runs of the same length, the longer of two, and a single zero
example : text6 0x00010000000000020003000000000004 = "1::2:3:0:0:4".toList := by decide +kernel
example : text6 0x00010000000000020000000000000004 = "1:0:0:2::4".toList := by decide +kernel
example : text6 0x00010000000200030004000500060007 = "1:0:2:3:4:5:6:7".toList := by decide +kernel
example : text6 0x0000000100020003000400050006abcd = "0:1:2:3:4:5:6:abcd".toList := by decide +kernel
example : text4 0xc0000201 = "192.0.2.1".toList := by decide +kernel
example : netText ⟨.v4, 0x0a000000, 8, by decide, by decide, by decide⟩ = "10.0.0.0/8".toList := by decide +kernel
example : unicodeOf (fun _ _ _ => []) (.inst 7 (.inst 0 (.ip ⟨.v4, 0xc0000201, by decide⟩) 32) 32) =
    .ok "[7]192.0.2.1".toList := by rfl
example : unicodeOf (fun _ _ _ => []) (.natT 4342 1024 (.ip ⟨.v4, 1, by decide⟩) .null .none [.ip ⟨.v6, 1, by decide⟩]) =
    .ok "<MS:[NULL]:4342 Private:[None] Public:[0.0.0.1]:1024 RTRs:[IPv6Address(u'::1')]>".toList := by rfl
-- other ways to write addresses
example : parse6 "::ffff:192.0.2.1".toList = some 0xffffc0000201 := by decide +kernel
example : parse6 "2001:DB8:0:0::1".toList = some 0x20010db8000000000000000000000001 := by decide +kernel
example : parse6 "1::2::3".toList = none ∧ parse6 "1:2:3:4:5:6:7:".toList = none ∧ parse6 ":::".toList = none ∧
    parse6 "12345::".toList = none ∧ parse6 "1:2:3:4:5:6:7:8:9".toList = none := by decide +kernel
example : parse4 "256.1.1.1".toList = none ∧ parse4 "1.2.3".toList = none ∧ parse4 "010.1.1.1".toList = none := by decide +kernel
example : PlainInside (.inst 0 (.inst 0 (.ip ⟨.v4, 1, by decide⟩) 32) 32) (.ip ⟨.v4, 1, by decide⟩) := .inst (.inst (.self _))
-- no address inside: a network, another instance id
example : ∀ x, ¬ PlainInside (.inst 7 (.ip ⟨.v4, 1, by decide⟩) 32) (.ip x) := by rintro x ⟨⟩

end PyLisp.Props
