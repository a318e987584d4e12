import Verif.MapServer
import Verif.Props.Records
/-
Where an EID is looked up: which instance, which address family, which network.  This is the
specification used by the properties of the Map-Server (C45–C47), the ETR (C48) and the DDT node (C49).
-/
namespace PyLisp.Props
open PyLisp

/-- the number of an address family in `config.INSTANCES` -/
def familyNumber (v : Ver) : Nat := if v = .v4 then 1 else 2

/-- the instance of an EID: that of an instance-id LCAF, 0 for everything else -/
def InstanceOf (e : Addr) (iid : Int) : Prop :=
  (∃ a m, e = .inst iid a m) ∨ (iid = 0 ∧ ∀ j a m, e ≠ .inst j a m)

/-- the network an EID stands for: the one network it carries, or that of the one address it carries -/
def AsksFor (e : Addr) (p : Net) : Prop :=
  Carries e [.net p] ∨ ∃ i, Carries e [.ip i] ∧ p.ver = i.ver ∧ p.base = i.val ∧ p.plen = i.ver.width

/-- `root` is the root of the configured tree in which the EID `e` is looked up, as network `p` -/
def TreeFor (cfg : Config) (e : Addr) (p : Net) (root : Node) : Prop :=
  ∃ iid, InstanceOf e iid ∧ AsksFor e p ∧ cfg iid (familyNumber p.ver) = some root

theorem afi_family (v : Ver) : v.afi = familyNumber v := by cases v <;> rfl

theorem toNet_iff {i : IP} {p : Net} : p = i.toNet ↔ p.ver = i.ver ∧ p.base = i.val ∧ p.plen = i.ver.width := by
  constructor
  · rintro rfl; exact ⟨rfl, rfl, rfl⟩
  · rintro ⟨h1, h2, h3⟩
    cases p with
    | mk v b l _ _ _ =>
      simp only at h1 h2 h3
      subst h1 h2 h3
      rfl

theorem instanceOf_unique {e : Addr} {i j : Int} (h : InstanceOf e i) (h' : InstanceOf e j) : i = j := by
  rcases h with ⟨a, m, rfl⟩ | ⟨rfl, h⟩
  · rcases h' with ⟨_, _, h⟩ | ⟨_, h⟩
    · cases h; rfl
    · exact absurd rfl (h _ _ _)
  · rcases h' with ⟨_, _, rfl⟩ | ⟨rfl, _⟩
    · exact absurd rfl (h _ _ _)
    · rfl

theorem instanceOf_match (e : Addr) : ∃ k, InstanceOf e k ∧ determine e =
    (match e.getAddresses with
    | [.ip x] => some (k, x.ver.afi, .ip x)
    | [.net n] => some (k, n.ver.afi, .net n)
    | _ => none) := by
  cases e
  case inst => exact ⟨_, .inl ⟨_, _, rfl⟩, rfl⟩
  all_goals exact ⟨_, .inr ⟨rfl, fun _ _ _ h => by cases h⟩, rfl⟩

/-- `determine_instance_id_and_afi` finds the instance, the family and the network of the EID -/
theorem determine_iff {e : Addr} {iid : Int} {afi : Nat} {p : Net} :
    (∃ t, determine e = some (iid, afi, t) ∧ t.toNet = p) ↔
      InstanceOf e iid ∧ AsksFor e p ∧ afi = familyNumber p.ver := by
  unfold AsksFor
  simp only [← get_addresses_iff, ← toNet_iff]
  obtain ⟨k, hm, hd⟩ := instanceOf_match e
  rw [hd]
  have hi : InstanceOf e iid ↔ k = iid := ⟨fun h => instanceOf_unique hm h, fun h => h ▸ hm⟩
  rw [hi]
  generalize e.getAddresses = g
  constructor
  · rintro ⟨t, h, rfl⟩
    split at h
    · cases h
      exact ⟨rfl, .inr ⟨_, rfl, rfl⟩, afi_family _⟩
    · cases h
      exact ⟨rfl, .inl rfl, afi_family _⟩
    · cases h
  · rintro ⟨rfl, h | ⟨i, h, rfl⟩, rfl⟩
    · subst h
      exact ⟨.net p, by simp only [afi_family], rfl⟩
    · subst h
      exact ⟨.ip i, by simp only [afi_family]; rfl, rfl⟩

theorem asksFor_unique {e : Addr} {p q : Net} (h : AsksFor e p) (h' : AsksFor e q) : p = q := by
  obtain ⟨k, hm, _⟩ := instanceOf_match e
  obtain ⟨t, h1, rfl⟩ := determine_iff.mpr ⟨hm, h, rfl⟩
  obtain ⟨t', h2, rfl⟩ := determine_iff.mpr ⟨hm, h', rfl⟩
  rw [h1] at h2
  simp only [Option.some.injEq, Prod.mk.injEq, true_and] at h2
  rw [h2.2]

theorem treeFor_unique {cfg : Config} {e : Addr} {p q : Net} {r s : Node} (h : TreeFor cfg e p r)
    (h' : TreeFor cfg e q s) : p = q ∧ r = s := by
  obtain ⟨i, h1, h2, h3⟩ := h
  obtain ⟨j, k1, k2, k3⟩ := h'
  cases instanceOf_unique h1 k1
  cases asksFor_unique h2 k2
  rw [h3] at k3
  cases k3
  exact ⟨rfl, rfl⟩

/-- the lookup of an EID is the search of its tree -/
theorem lookup_of_tree {cfg : Config} {e : Addr} {p : Net} {root : Node} (h : TreeFor cfg e p root) :
    resolvePathIn cfg (determine e) = (root.resolvePath p).map some := by
  obtain ⟨i, h1, h2, h3⟩ := h
  obtain ⟨t, hd, rfl⟩ := determine_iff.mpr ⟨h1, h2, rfl⟩
  rw [hd, resolvePathIn]
  simp only [h3]
  cases root.resolvePath t.toNet <;> rfl

theorem lookup_none {cfg : Config} {e : Addr} (h : ∀ p root, ¬ TreeFor cfg e p root) :
    resolvePathIn cfg (determine e) = .ok none := by
  unfold resolvePathIn
  match hd : determine e with
  | none => rfl
  | some (iid, afi, t) =>
    simp only
    match hc : cfg iid afi with
    | none => rfl
    | some root =>
      obtain ⟨h1, h2, h3⟩ := determine_iff.mp ⟨t, hd, rfl⟩
      exact absurd ⟨iid, h1, h2, by rw [← h3]; exact hc⟩ (h t.toNet root)

theorem lookup_cases (cfg : Config) (e : Addr) :
    (∀ p root, ¬ TreeFor cfg e p root) ∨ ∃ p root, TreeFor cfg e p root := by
  by_cases h : ∃ p root, TreeFor cfg e p root
  · exact .inr h
  · exact .inl fun p root hp => h ⟨p, root, hp⟩

theorem lookup_path_iff {cfg : Config} {e : Addr} {l : List Node} :
    resolvePathIn cfg (determine e) = .ok (some l) ↔ ∃ p root, TreeFor cfg e p root ∧ root.resolvePath p = .ok l := by
  constructor
  · intro h
    rcases lookup_cases cfg e with hn | ⟨p, root, ht⟩
    · rw [lookup_none hn] at h; cases h
    · refine ⟨p, root, ht, ?_⟩
      rw [lookup_of_tree ht] at h
      cases hr : root.resolvePath p with
      | error x => rw [hr] at h; cases h
      | ok l' => rw [hr] at h; cases h; rfl
  · rintro ⟨p, root, ht, hr⟩
    rw [lookup_of_tree ht, hr]; rfl

theorem lookup_error_iff {cfg : Config} {e : Addr} {x : Err} :
    resolvePathIn cfg (determine e) = .error x ↔
      ∃ p root, TreeFor cfg e p root ∧ root.resolvePath p = .error x := by
  constructor
  · intro h
    rcases lookup_cases cfg e with hn | ⟨p, root, ht⟩
    · rw [lookup_none hn] at h; cases h
    · refine ⟨p, root, ht, ?_⟩
      rw [lookup_of_tree ht] at h
      cases hr : root.resolvePath p with
      | error y => rw [hr] at h; cases h; rfl
      | ok l' => rw [hr] at h; cases h
  · rintro ⟨p, root, ht, hr⟩
    rw [lookup_of_tree ht, hr]; rfl

/-- a network is looked up in instance 0 -/
theorem treeFor_net {cfg : Config} {p q : Net} {root : Node} :
    TreeFor cfg (.net p) q root ↔ q = p ∧ cfg 0 (familyNumber p.ver) = some root := by
  constructor
  · rintro ⟨i, h1, h2, h3⟩
    cases instanceOf_unique h1 (.inr ⟨rfl, fun _ _ _ h => by cases h⟩)
    cases asksFor_unique h2 (.inl (.net p))
    exact ⟨rfl, h3⟩
  · rintro ⟨rfl, h⟩
    exact ⟨0, .inr ⟨rfl, fun _ _ _ h => by cases h⟩, .inl (.net q), h⟩

/-! Non-vacuity: an address in an instance, and an address alone. -/
example : InstanceOf (.inst 17 (.ip (.v4 5)) 32) 17 := .inl ⟨_, _, rfl⟩
example : AsksFor (.inst 17 (.ip (.v4 5)) 32) (IP.toNet (.v4 5)) :=
  .inr ⟨_, .inst _ _ _ _ (.ip _), rfl, rfl, rfl⟩

end PyLisp.Props
