import Verif.NodeRepr
import Verif.Props.AddrText

/-!
# C98: what logs show of the nodes of the tree, of received messages, sockets and registrations
-/

namespace PyLisp.Props
open PyLisp PyLisp.Rep

/-! ### Specification -/

mutual
/-- two nodes that differ at most in what is not shown: which objects they are, the state of Map-Servers and ETRs, and the
DDT nodes of authoritative containers.  Class, prefix, the addresses of referrals, and the children (in the order of
iteration) are the same, at every depth. -/
inductive Alike : Node → Node → Prop
  | leaf (k : LeafKind) (i j : Nat) (p : Net) : Alike (.leaf k i p) (.leaf k j p)
  | cont {a b : Option (List IP)} (i j : Nat) (p : Net) {cs ds : List Node} : a.isSome = b.isSome → AlikeAll cs ds →
    Alike (.cont a i p cs) (.cont b j p ds)
/-- the same, one by one -/
inductive AlikeAll : List Node → List Node → Prop
  | nil : AlikeAll [] []
  | cons {c d : Node} {cs ds : List Node} : Alike c d → AlikeAll cs ds → AlikeAll (c :: cs) (d :: ds)
end

/-! ### Lemmas -/

theorem split_at {c : Char} {a b r s : List Char} (ha : c ∉ a) (hb : c ∉ b) (h : a ++ c :: r = b ++ c :: s) :
    a = b ∧ r = s := by
  induction a generalizing b with
  | nil =>
    cases b with
    | nil => simp at h; exact ⟨rfl, h⟩
    | cons y b => simp at h; exact absurd (h.1 ▸ List.mem_cons_self) hb
  | cons x a ih =>
    cases b with
    | nil => simp at h; exact absurd (h.1 ▸ List.mem_cons_self) ha
    | cons y b =>
      simp only [List.cons_append, List.cons.injEq] at h
      obtain ⟨rfl, h⟩ := h
      replace h := ih (fun m => ha (List.mem_cons_of_mem _ m)) (fun m => hb (List.mem_cons_of_mem _ m)) h
      obtain ⟨rfl, h⟩ := h
      exact ⟨rfl, h⟩

theorem netClass_paren (v : Ver) : '(' ∉ (netClass v).toList := by cases v <;> decide
theorem addrClass_paren (v : Ver) : '(' ∉ (addrClass v).toList := by cases v <;> decide

theorem netText_quote (L : IpLib) (n : Net) : '\'' ∉ L.netText n := fun h => by
  have := L.net_chars n _ h
  exact absurd this (by decide)

theorem addrText_quote (L : IpLib) (a : IP) : '\'' ∉ L.addrText a := fun h => by
  have := L.addr_chars a _ h
  exact absurd this (by decide)

theorem net_code (L : IpLib) {p q : Net} {r s : List Char} (h : reprOf L (.net p) ++ r = reprOf L (.net q) ++ s) :
    p = q ∧ r = s := by
  simp only [reprOf, reprCall, reprText, List.append_assoc, List.cons_append, List.nil_append] at h
  replace h := split_at (netClass_paren _) (netClass_paren _) h
  obtain ⟨h1, h⟩ := h
  simp only [List.cons.injEq, true_and] at h
  replace h := split_at (netText_quote L p) (netText_quote L q) h
  obtain ⟨h2, h⟩ := h
  simp only [List.cons.injEq, true_and] at h
  have hv : p.ver = q.ver := by
    revert h1
    cases p.ver <;> cases q.ver <;> intro h1 <;> first | rfl | exact absurd h1 (by decide)
  refine ⟨?_, h⟩
  have := L.net_back p
  rw [h2, hv, L.net_back q] at this
  exact (Option.some.inj this).symm

theorem ip_code (L : IpLib) {p q : IP} {r s : List Char} (h : reprOf L (.ip p) ++ r = reprOf L (.ip q) ++ s) :
    p = q ∧ r = s := by
  simp only [reprOf, reprCall, reprText, List.append_assoc, List.cons_append, List.nil_append] at h
  replace h := split_at (addrClass_paren _) (addrClass_paren _) h
  obtain ⟨h1, h⟩ := h
  simp only [List.cons.injEq, true_and] at h
  replace h := split_at (addrText_quote L p) (addrText_quote L q) h
  obtain ⟨h2, h⟩ := h
  simp only [List.cons.injEq, true_and] at h
  have hv : p.ver = q.ver := by
    revert h1
    cases p.ver <;> cases q.ver <;> intro h1 <;> first | rfl | exact absurd h1 (by decide)
  refine ⟨?_, h⟩
  have := L.addr_back p
  rw [h2, hv, L.addr_back q] at this
  exact (Option.some.inj this).symm

/-- the elements after the first one, each with what is before it -/
def commasTail : List (List Char) → List Char
  | [] => []
  | x :: l => ',' :: ' ' :: (x ++ commasTail l)

theorem commas_cons (x : List Char) (l : List (List Char)) : commas (x :: l) = x ++ commasTail l := by
  induction l generalizing x with
  | nil => simp [commas, commasTail]
  | cons y l ih => rw [commas, ih, commasTail]

theorem ips_tail_code (L : IpLib) : ∀ (l m : List IP) (r s : List Char),
    commasTail (l.map fun a => reprOf L (.ip a)) ++ ']' :: r = commasTail (m.map fun a => reprOf L (.ip a)) ++ ']' :: s →
    l = m ∧ r = s
  | [], [], r, s, h => by simpa [commasTail] using h
  | [], b :: m, r, s, h => by simp [commasTail] at h
  | a :: l, [], r, s, h => by simp [commasTail] at h
  | a :: l, b :: m, r, s, h => by
    simp only [List.map_cons, commasTail, List.cons_append, List.cons.injEq, true_and, List.append_assoc] at h
    replace h := ip_code L h
    obtain ⟨rfl, h⟩ := h
    replace h := ips_tail_code L l m r s h
    obtain ⟨rfl, h⟩ := h
    exact ⟨rfl, h⟩

theorem ip_head (L : IpLib) (a : IP) : ∃ t, reprOf L (.ip a) = 'I' :: t := by
  simp only [reprOf, reprCall]
  cases a.ver
  · exact ⟨_, rfl⟩
  · exact ⟨_, rfl⟩

theorem ips_code (L : IpLib) (l m : List IP) (r s : List Char)
    (h : commas (l.map fun a => reprOf L (.ip a)) ++ ']' :: r = commas (m.map fun a => reprOf L (.ip a)) ++ ']' :: s) :
    l = m ∧ r = s := by
  cases l with
  | nil =>
    cases m with
    | nil => simpa [commas] using h
    | cons b m =>
      obtain ⟨t, ht⟩ := ip_head L b
      rw [List.map_cons, commas_cons, ht] at h
      simp [commas] at h
  | cons a l =>
    cases m with
    | nil =>
      obtain ⟨t, ht⟩ := ip_head L a
      rw [List.map_cons, commas_cons, ht] at h
      simp [commas] at h
    | cons b m =>
      rw [List.map_cons, List.map_cons, commas_cons, commas_cons, List.append_assoc, List.append_assoc] at h
      replace h := ip_code L h
      obtain ⟨rfl, h⟩ := h
      replace h := ips_tail_code L l m r s h
      obtain ⟨rfl, h⟩ := h
      exact ⟨rfl, h⟩

theorem leafClass_paren (k : LeafKind) : '(' ∉ (leafClass k).toList := by cases k <;> simp [leafClass]
theorem contClass_paren (a : Option (List IP)) : '(' ∉ (contClass a).toList := by cases a <;> simp [contClass]

theorem leaf_cont_class (k : LeafKind) (a : Option (List IP)) : (leafClass k).toList ≠ (contClass a).toList := by
  cases k <;> cases a <;> simp [leafClass, contClass]

theorem rest_code (L : IpLib) {k l : LeafKind} {r s : List Char} (hc : (leafClass k).toList = (leafClass l).toList)
    (h : leafRest L k ++ ')' :: r = leafRest L l ++ ')' :: s) : k = l ∧ r = s := by
  cases k with
  | ddtReferral a =>
    cases l with
    | ddtReferral b =>
      simp only [leafRest, reprSet, List.cons_append, List.cons.injEq, true_and, List.append_assoc, List.nil_append] at h
      replace h := ips_code L a b _ _ h
      obtain ⟨rfl, h⟩ := h
      simp only [List.cons.injEq, true_and] at h
      exact ⟨rfl, h⟩
    | _ => simp [leafClass] at hc
  | _ =>
    cases l <;> first | (simp [leafClass] at hc; done) | (simp only [leafRest, List.nil_append, List.cons.injEq, true_and] at h; exact ⟨rfl, h⟩)

theorem node_head (L : IpLib) (n : Node) : ∃ c t, nodeRepr L n = c :: t ∧ c ≠ ']' := by
  cases n with
  | leaf k i p => cases k <;> simp [nodeRepr, leafClass]
  | cont a i p cs => cases a <;> simp [nodeRepr, contClass]

mutual
theorem node_code (L : IpLib) : ∀ (n m : Node) (r s : List Char), nodeRepr L n ++ r = nodeRepr L m ++ s →
    Alike n m ∧ r = s
  | .leaf k i p, .leaf l j q, r, s, h => by
    simp only [nodeRepr, List.append_assoc, List.cons_append, List.nil_append] at h
    replace h := split_at (leafClass_paren k) (leafClass_paren l) h
    obtain ⟨h1, h⟩ := h
    replace h := net_code L h
    obtain ⟨rfl, h⟩ := h
    replace h := rest_code L h1 h
    obtain ⟨rfl, h⟩ := h
    exact ⟨.leaf k i j p, h⟩
  | .leaf k i p, .cont b j q ds, r, s, h => by
    simp only [nodeRepr, List.append_assoc, List.cons_append] at h
    exact absurd (split_at (leafClass_paren k) (contClass_paren b) h).1 (leaf_cont_class k b)
  | .cont a i p cs, .leaf l j q, r, s, h => by
    simp only [nodeRepr, List.append_assoc, List.cons_append] at h
    exact absurd (split_at (contClass_paren a) (leafClass_paren l) h).1.symm (leaf_cont_class l a)
  | .cont a i p cs, .cont b j q ds, r, s, h => by
    simp only [nodeRepr, List.append_assoc, List.cons_append, List.nil_append] at h
    replace h := split_at (contClass_paren a) (contClass_paren b) h
    obtain ⟨h1, h⟩ := h
    replace h := net_code L h
    obtain ⟨rfl, h⟩ := h
    simp only [reprSet, List.cons_append, List.cons.injEq, true_and, List.append_assoc, List.nil_append] at h
    replace h := nodes_code L cs ds _ _ h
    obtain ⟨h2, h⟩ := h
    simp only [List.cons.injEq, true_and] at h
    refine ⟨.cont i j p ?_ h2, h⟩
    cases a <;> cases b <;> simp [contClass] at h1 ⊢
theorem nodes_code (L : IpLib) : ∀ (cs ds : List Node) (r s : List Char),
    commas (nodeReprs L cs) ++ ']' :: r = commas (nodeReprs L ds) ++ ']' :: s → AlikeAll cs ds ∧ r = s
  | [], [], r, s, h => by
    simp only [nodeReprs, commas, List.nil_append, List.cons.injEq, true_and] at h
    exact ⟨.nil, h⟩
  | [], d :: ds, r, s, h => by
    obtain ⟨c, t, ht, hc⟩ := node_head L d
    rw [nodeReprs, nodeReprs, commas_cons, ht] at h
    simp only [commas, List.nil_append, List.cons_append, List.cons.injEq] at h
    exact absurd h.1.symm hc
  | c :: cs, [], r, s, h => by
    obtain ⟨x, t, ht, hc⟩ := node_head L c
    rw [nodeReprs, nodeReprs, commas_cons, ht] at h
    simp only [commas, List.nil_append, List.cons_append, List.cons.injEq] at h
    exact absurd h.1 hc
  | c :: cs, d :: ds, r, s, h => by
    rw [nodeReprs, nodeReprs, commas_cons, commas_cons, List.append_assoc, List.append_assoc] at h
    replace h := node_code L c d _ _ h
    obtain ⟨h1, h⟩ := h
    replace h := tail_code L cs ds r s h
    obtain ⟨h2, h⟩ := h
    exact ⟨.cons h1 h2, h⟩
theorem tail_code (L : IpLib) : ∀ (cs ds : List Node) (r s : List Char),
    commasTail (nodeReprs L cs) ++ ']' :: r = commasTail (nodeReprs L ds) ++ ']' :: s → AlikeAll cs ds ∧ r = s
  | [], [], r, s, h => by
    simp only [nodeReprs, commasTail, List.nil_append, List.cons.injEq, true_and] at h
    exact ⟨.nil, h⟩
  | [], d :: ds, r, s, h => by simp [nodeReprs, commasTail] at h
  | c :: cs, [], r, s, h => by simp [nodeReprs, commasTail] at h
  | c :: cs, d :: ds, r, s, h => by
    simp only [nodeReprs, commasTail, List.cons_append, List.cons.injEq, true_and, List.append_assoc] at h
    replace h := node_code L c d _ _ h
    obtain ⟨h1, h⟩ := h
    replace h := tail_code L cs ds r s h
    obtain ⟨h2, h⟩ := h
    exact ⟨.cons h1 h2, h⟩
end

theorem contClass_eq {a b : Option (List IP)} (h : a.isSome = b.isSome) : contClass a = contClass b := by
  cases a <;> cases b <;> simp [contClass] at h ⊢

mutual
theorem alike_text (L : IpLib) : ∀ {n m : Node}, Alike n m → nodeRepr L n = nodeRepr L m
  | _, _, .leaf k i j p => rfl
  | _, _, .cont i j p h hs => by rw [nodeRepr, nodeRepr, contClass_eq h, alikes_text L hs]
theorem alikes_text (L : IpLib) : ∀ {cs ds : List Node}, AlikeAll cs ds → nodeReprs L cs = nodeReprs L ds
  | _, _, .nil => rfl
  | _, _, .cons h hs => by rw [nodeReprs, nodeReprs, alike_text L h, alikes_text L hs]
end

/-! ### C98 -/

/-- C98: two nodes have the same text exactly when they are alike: a log tells class, prefix, the addresses of referrals and
everything below a container, at every depth; it does not tell the state of Map-Servers and ETRs, nor the DDT nodes of an
authoritative container. -/
theorem node_text_iff (L : IpLib) (n m : Node) : nodeRepr L n = nodeRepr L m ↔ Alike n m :=
  ⟨fun h => (node_code L n m [] [] (by rw [h])).1, alike_text L⟩

/-- C98: what a node shows comes from its class and its prefix first: nodes with different prefixes never look the same. -/
theorem node_text_prefix (L : IpLib) {n m : Node} (h : nodeRepr L n = nodeRepr L m) : n.pfx = m.pfx := by
  cases (node_text_iff L n m).mp h with
  | leaf => rfl
  | cont => rfl

/-- C98: a received message shows its number, source, destination, message and socket, in the order of its dictionary, and
neither the layers taken out of an encapsulated message nor anything else. -/
theorem received_shows (dict : List (String × List Char)) (nr source destination message socket udp inner : List Char)
    (h : dict.Perm [("message_nr", nr), ("source", source), ("destination", destination), ("message", message),
      ("socket", socket), ("udp_layer", udp), ("inner_message", inner)]) :
    ∃ items : List (String × List Char), items.Perm [("message_nr", nr), ("source", source), ("destination", destination),
        ("message", message), ("socket", socket)] ∧
      receivedRepr dict = "ReceivedMessage(".toList ++ commas (items.map fun p => p.1.toList ++ '=' :: p.2) ++ [')'] := by
  refine ⟨dict.filter fun p => !isPrivate p.1 && !(["udp_layer", "inner_message"] : List String).contains p.1, ?_, ?_⟩
  · refine (h.filter _).trans ?_
    have : ∀ k ∈ ["message_nr", "source", "destination", "message", "socket"],
        (!isPrivate k && !(["udp_layer", "inner_message"] : List String).contains k) = true := by decide
    have h' : ∀ k ∈ ["udp_layer", "inner_message"],
        (!isPrivate k && !(["udp_layer", "inner_message"] : List String).contains k) = false := by decide
    have f1 := this "message_nr" (by simp)
    have f2 := this "source" (by simp)
    have f3 := this "destination" (by simp)
    have f4 := this "message" (by simp)
    have f5 := this "socket" (by simp)
    have f6 := h' "udp_layer" (by simp)
    have f7 := h' "inner_message" (by simp)
    simp only [List.filter_cons, List.filter_nil, f1, f2, f3, f4, f5, f6, f7, if_true]
    exact List.Perm.refl _
  · rfl

/-- C98: a registration shows its Map-Server and nothing else: in particular, the key is never shown. -/
theorem registration_text_iff (L : IpLib) (r s : EtrReg) : etrRegRepr L r = etrRegRepr L s ↔ r.mapServer = s.mapServer := by
  constructor
  · intro h
    simp only [etrRegRepr, reprCall, List.append_assoc, List.append_cancel_left_eq, List.cons_append, List.cons.injEq,
      true_and] at h
    exact (ip_code L h).1
  · intro h; rw [etrRegRepr, etrRegRepr, h]

/-- C98: a socket at an IP address shows address and port. -/
theorem socket_text_iff (L : IpLib) (a b : IP) (p q : Nat) :
    sockRepr (reprOf L (.ip a)) p = sockRepr (reprOf L (.ip b)) q ↔ a = b ∧ p = q := by
  constructor
  · intro h
    simp only [sockRepr, reprCall, List.append_assoc, List.append_cancel_left_eq, List.cons_append, List.cons.injEq,
      true_and] at h
    replace h := ip_code L h
    obtain ⟨rfl, h⟩ := h
    refine ⟨rfl, ?_⟩
    simp only [List.cons.injEq, true_and, List.append_cancel_right_eq] at h
    have := congrArg valueOf h
    rwa [IPText.valueOf_digits, IPText.valueOf_digits] at this
  · rintro ⟨rfl, rfl⟩; rfl

/-! ### The hypotheses are met -/

/-- a tree with a referral, an authoritative container with a Map-Server, and a node to drop packets -/
def exShown : Node :=
  .cont none 1 ⟨.v4, 0, 0, by decide, by decide, by decide⟩
    [.leaf (.ddtReferral [⟨.v4, 0xc0000201, by decide⟩, ⟨.v6, 1, by decide⟩]) 2 ⟨.v4, 0x0a000000, 8, by decide, by decide, by decide⟩,
     .cont (some [⟨.v4, 0xc0000202, by decide⟩]) 3 ⟨.v4, 0x0b000000, 8, by decide, by decide, by decide⟩
      [.leaf .mapServer 4 ⟨.v4, 0x0b010000, 16, by decide, by decide, by decide⟩],
     .leaf .drop 5 ⟨.v4, 0x0c000000, 8, by decide, by decide, by decide⟩]

example : String.ofList (nodeRepr IPText.stdLib exShown) =
    "ContainerNode(IPv4Network(u'0.0.0.0/0'), set([DDTReferralNode(IPv4Network(u'10.0.0.0/8'), set([IPv4Address(u'192.0.2.1'), IPv6Address(u'::1')])), AuthContainerNode(IPv4Network(u'11.0.0.0/8'), set([MapServerNode(IPv4Network(u'11.1.0.0/16'))])), DropNode(IPv4Network(u'12.0.0.0/8'))]))" := by
  decide +kernel
/-- other objects, other DDT nodes: the same text -/
example : Alike (.cont (some [⟨.v4, 1, by decide⟩]) 3 ⟨.v4, 0x0b000000, 8, by decide, by decide, by decide⟩ [])
    (.cont (some []) 7 ⟨.v4, 0x0b000000, 8, by decide, by decide, by decide⟩ []) := .cont _ _ _ rfl .nil
example : String.ofList (etrRegRepr IPText.stdLib { id := 1, mapServer := ⟨.v4, 0xc0000201, by decide⟩, keyId := 1, key := some [1, 2, 3] }) =
    "ETRRegistration(IPv4Address(u'192.0.2.1'))" := by decide +kernel
example : String.ofList (sockRepr (reprOf IPText.stdLib (.ip ⟨.v6, 1, by decide⟩)) 4342) = "AutoUDPSocket(IPv6Address(u'::1'), 4342)" := by
  decide +kernel

end PyLisp.Props
