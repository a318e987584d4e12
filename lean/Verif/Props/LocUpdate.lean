import Verif.LocUpdate
import Verif.Props.AddrText
import Verif.Props.Delivery
import Verif.Props.NodeRepr

/-!
# C100: updating the address of a locator, and what the log says about it
-/

namespace PyLisp.Props
open PyLisp PyLisp.IPText PyLisp.Rep

/-! ### Specification -/

/-- the text of an address as operating systems give it: with or without a scope after a percent sign -/
inductive TextOf (a : IP) : List Char → Prop
  | plain : TextOf a (addrText a)
  | withScope (scope : List Char) : TextOf a (addrText a ++ '%' :: scope)

/-- a list of interface addresses in which `a` is the first suitable one: the addresses before it are not suitable -/
inductive FirstSuitable (a : IP) : List (Option (List Char)) → Prop
  | here {t : List Char} {l : List (Option (List Char))} : TextOf a t → Suitable a → FirstSuitable a (some t :: l)
  | later {b : IP} {t : List Char} {l : List (Option (List Char))} : TextOf b t → ¬ Suitable b → FirstSuitable a l →
    FirstSuitable a (some t :: l)

/-- an entry that is no address: it has no text, or one that `ip_address` does not take after the scope is removed -/
def NoAddress (e : Option (List Char)) : Prop := ∀ t, e = some t → ipAddress (unscoped t) = none

/-- a list of interface addresses without a suitable one, at least up to the first entry that is no address -/
inductive NoneSuitable : List (Option (List Char)) → Prop
  | nil : NoneSuitable []
  | stop {e : Option (List Char)} {l : List (Option (List Char))} : NoAddress e → NoneSuitable (e :: l)
  | skip {b : IP} {t : List Char} {l : List (Option (List Char))} : TextOf b t → ¬ Suitable b → NoneSuitable l →
    NoneSuitable (some t :: l)

/-- netifaces gives addresses of the family it was asked for -/
def OfFamily (v : Ver) (found : Option (List (Option (List Char)))) : Prop :=
  ∀ l, found = some l → ∀ t, some t ∈ l → ∀ a, ipAddress (unscoped t) = some a → a.ver = v

/-- the zero address of a family, which an automatic address has when its interface has no suitable address -/
def zeroOf (v : Ver) : IP := ⟨v, 0, Nat.two_pow_pos _⟩

/-- the lines in the log that are about the locator -/
def aboutLocator (log : List LogLine) : List (List Char) :=
  (log.map LogLine.text).filter fun t => "Locator".toList.isPrefixOf t

/-! ### Reading the texts -/

theorem percent_not_addr : ¬ AddrChar '%' := by unfold AddrChar; decide

theorem addrText_percent (a : IP) : '%' ∉ addrText a := fun h => by
  have := addrText_nice a _ h
  exact absurd this (by decide)

theorem addrText_space (a : IP) : ' ' ∉ addrText a := fun h => by
  have := addrText_nice a _ h
  exact absurd this (by decide)

theorem unscoped_nil {t : List Char} (h : '%' ∉ t) : unscoped t = t := by
  induction t with
  | nil => rfl
  | cons c t ih =>
    have hc : c ≠ '%' := fun e => h (e ▸ List.mem_cons_self)
    have := ih (fun m => h (List.mem_cons_of_mem _ m))
    simp only [unscoped] at this ⊢
    rw [List.takeWhile_cons_of_pos (by simpa using hc), this]

theorem unscoped_scope {t s : List Char} (h : '%' ∉ t) : unscoped (t ++ '%' :: s) = t := by
  induction t with
  | nil => simp [unscoped]
  | cons c t ih =>
    have hc : c ≠ '%' := fun e => h (e ▸ List.mem_cons_self)
    have := ih (fun m => h (List.mem_cons_of_mem _ m))
    simp only [unscoped, List.cons_append] at this ⊢
    rw [List.takeWhile_cons_of_pos (by simpa using hc), this]

theorem read_textOf {a : IP} {t : List Char} (h : TextOf a t) : ipAddress (unscoped t) = some a := by
  cases h with
  | plain => rw [unscoped_nil (addrText_percent a)]; exact address_text_back a
  | withScope s => rw [unscoped_scope (addrText_percent a)]; exact address_text_back a

/-! ### The value -/

theorem listedFor_of {v : Ver} {found : Option (List (Option (List Char)))} (h : OfFamily v found) :
    ListedFor v (readInterface found) := by
  intro l hl a ha
  cases found with
  | none => simp [readInterface] at hl
  | some m =>
    simp only [readInterface, Option.map_some, Option.some.injEq] at hl
    subst hl
    obtain ⟨e, he, hr⟩ := List.mem_map.mp ha
    cases e with
    | none => simp [readEntry] at hr
    | some t => exact h m rfl t he a (by simpa [readEntry] using hr)

theorem pick_first {a : IP} {l : List (Option (List Char))} (h : FirstSuitable a l) :
    pickAddress (l.map readEntry) = a.val := by
  induction h with
  | here ht hs =>
    simp [readEntry, read_textOf ht, pickAddress, (autoSuitable_iff _).mpr hs]
  | later ht hs _ ih =>
    have : autoSuitable _ ≠ true := fun h => hs ((autoSuitable_iff _).mp h)
    simp [readEntry, read_textOf ht, pickAddress, this, ih]

theorem pick_none {l : List (Option (List Char))} (h : NoneSuitable l) : pickAddress (l.map readEntry) = 0 := by
  induction h with
  | nil => rfl
  | @stop e l he =>
    have : readEntry e = none := by
      cases e with
      | none => rfl
      | some t => exact he t rfl
    simp [this, pickAddress]
  | skip ht hs _ ih =>
    have : autoSuitable _ ≠ true := fun h => hs ((autoSuitable_iff _).mp h)
    simp [readEntry, read_textOf ht, pickAddress, this, ih]

theorem autoValue_ver (v : Ver) (i : Option (List (Option IP))) : (autoValue v i).ver = v := by
  unfold autoValue; split <;> rfl

theorem first_ver {v : Ver} {a : IP} {l : List (Option (List Char))} (hf : OfFamily v (some l)) (h : FirstSuitable a l) :
    a.ver = v := by
  have : ∃ t, some t ∈ l ∧ TextOf a t := by
    clear hf
    induction h with
    | here ht _ => exact ⟨_, List.mem_cons_self, ht⟩
    | later _ _ _ ih => obtain ⟨t, h1, h2⟩ := ih; exact ⟨t, List.mem_cons_of_mem _ h1, h2⟩
  obtain ⟨t, h1, h2⟩ := this
  exact hf l rfl t h1 a (read_textOf h2)

theorem value_first {v : Ver} {a : IP} {l : List (Option (List Char))} (hf : OfFamily v (some l))
    (h : FirstSuitable a l) : autoValue v (readInterface (some l)) = a := by
  have hv := first_ver hf h
  have hp := pick_first h
  subst hv
  have : chooseAddress (readInterface (some l)) = a.val := hp
  unfold autoValue
  rw [dif_pos (by rw [this]; exact a.lt)]
  cases a; simp only [IP.mk.injEq, true_and]; exact this

theorem value_none {v : Ver} {found : Option (List (Option (List Char)))} (h : ∀ l, found = some l → NoneSuitable l) :
    autoValue v (readInterface found) = zeroOf v := by
  have : chooseAddress (readInterface found) = 0 := by
    cases found with
    | none => rfl
    | some l => exact pick_none (h l rfl)
  unfold autoValue
  rw [dif_pos (by rw [this]; exact Nat.two_pow_pos _)]
  simp [zeroOf, this]

/-- C100: updating a locator with an automatic address.  When `a` is the first suitable address of the interface, all
locators with that automatic address have `a` as their address from then on; when the interface does not exist, has no
address of the family, or only unsuitable ones (up to the first entry that is no address), they have the zero address, whatever they had before.  Locators with
any other address keep it, no other attribute of a locator changes, and the set of locators stays as it is. -/
theorem locator_update_value (w : LocWorld) (i id : Nat) (name : String)
    (found : Option (List (Option (List Char)))) (hr : (w.obj i).ref = .auto id name)
    (hf : OfFamily (w.auto id).ver found) :
    (∀ l a, found = some l → FirstSuitable a l → ∀ k n, (w.obj k).ref = .auto id n →
      (w.updateAddress i found).1.addrOf ((w.updateAddress i found).1.obj k).ref = .ip a) ∧
    ((∀ l, found = some l → NoneSuitable l) → ∀ k n, (w.obj k).ref = .auto id n →
      (w.updateAddress i found).1.addrOf ((w.updateAddress i found).1.obj k).ref = .ip (zeroOf (w.auto id).ver)) ∧
    (∀ k, (∀ n, (w.obj k).ref ≠ .auto id n) →
      (w.updateAddress i found).1.addrOf ((w.updateAddress i found).1.obj k).ref = w.addrOf (w.obj k).ref) ∧
    (∀ k, (w.updateAddress i found).1.obj k = w.obj k) ∧ (w.updateAddress i found).1.entries = w.entries := by
  have he : (w.updateAddress i found).1 =
      { w with auto := fun j => if j = id then autoValue (w.auto id).ver (readInterface found) else w.auto j } := by
    simp [LocWorld.updateAddress, hr]
  rw [he]
  refine ⟨?_, ?_, ?_, fun _ => rfl, rfl⟩
  · intro l a hl ha k n hk
    subst hl
    simp [hk, LocWorld.addrOf, value_first hf ha]
  · intro hn k n hk
    simp [hk, LocWorld.addrOf, value_none hn]
  · intro k hk
    show LocWorld.addrOf _ (w.obj k).ref = _
    cases h : (w.obj k).ref with
    | plain a => rfl
    | other j a => rfl
    | auto j n =>
      have : j ≠ id := fun e => hk n (e ▸ h)
      simp [LocWorld.addrOf, this]

/-- C100: for a locator whose address is not an automatic one itself (also when it is an LCAF address with an automatic
address in it) nothing happens, and nothing is logged. -/
theorem locator_update_other (w : LocWorld) (i : Nat) (found : Option (List (Option (List Char))))
    (hr : ∀ id name, (w.obj i).ref ≠ .auto id name) : w.updateAddress i found = (w, []) := by
  unfold LocWorld.updateAddress
  cases h : (w.obj i).ref with
  | auto id name => exact absurd h (hr id name)
  | plain a => rfl
  | other j a => rfl

/-! ### The log -/

theorem auto_not_locator (name : String) (old : IP) (found : Option (List (Option (List Char)))) :
    ∀ x ∈ autoLines name old found, "Locator".toList.isPrefixOf x.text = false := by
  have h1 : ∀ v n a, "Locator".toList.isPrefixOf (foundLine v n a).text = false := fun _ _ _ => rfl
  have h2 : ∀ v n, "Locator".toList.isPrefixOf (noAddressLine v n).text = false := fun _ _ => rfl
  have h3 : ∀ v n o w, "Locator".toList.isPrefixOf (outcomeLine v n o w).text = false := by
    intro v n o w; unfold outcomeLine; split <;> split <;> rfl
  have h4 : ∀ v n l, ∀ x ∈ loopLines v n l, "Locator".toList.isPrefixOf x.text = false := by
    intro v n l
    induction l with
    | nil => simp [loopLines]
    | cons e l ih =>
      cases e with
      | none => intro x hx; simp only [loopLines, List.mem_singleton] at hx; subst hx; exact h2 _ _
      | some a =>
        intro x hx
        simp only [loopLines, List.mem_cons] at hx
        rcases hx with rfl | hx
        · exact h1 _ _ _
        · split at hx
          · simp at hx
          · exact ih x hx
  intro x hx
  unfold autoLines at hx
  simp only [List.cons_append, List.mem_cons, List.mem_append, List.mem_singleton, List.not_mem_nil, or_false] at hx
  rcases hx with rfl | hx | rfl
  · rfl
  · cases hi : readInterface found with
    | none => rw [hi] at hx; simp only [List.mem_singleton] at hx; subst hx; exact h2 _ _
    | some l => rw [hi] at hx; exact h4 _ _ _ x hx
  · exact h3 _ _ _ _

theorem about_auto (name : String) (old : IP) (found : Option (List (Option (List Char)))) (rest : List LogLine) :
    aboutLocator (autoLines name old found ++ rest) = aboutLocator rest := by
  unfold aboutLocator
  rw [List.map_append, List.filter_append]
  have : ((autoLines name old found).map LogLine.text).filter (fun t => "Locator".toList.isPrefixOf t) = [] := by
    rw [List.filter_eq_nil_iff]
    intro t ht
    obtain ⟨x, hx, rfl⟩ := List.mem_map.mp ht
    rw [auto_not_locator name old found x hx]; simp
  rw [this, List.nil_append]

theorem about_lines (o n : IP) : aboutLocator (locatorLines o n) = (locatorLines o n).map LogLine.text := by
  unfold aboutLocator
  rw [List.filter_eq_self]
  intro t ht
  unfold locatorLines at ht
  split at ht
  · split at ht
    · simp only [List.map_cons, List.map_nil, List.mem_singleton] at ht; subst ht; rfl
    · split at ht <;> (simp only [List.map_cons, List.map_nil, List.mem_singleton] at ht; subst ht; rfl)
  · simp at ht

theorem ip_zero {a : IP} (h : a.val = 0) : a = zeroOf a.ver := by
  cases a; simp only at h; subst h; rfl

theorem ip_ext {a b : IP} (hv : a.ver = b.ver) (h : a.val = b.val) : a = b := by
  cases a; cases b; simp only at hv h; subst hv; subst h; rfl

/-- C100: what the log says about the locator, when its address goes from `old` to `new`: nothing when it has not
changed; that it is activated with `new` when it had no address; that it is de-activated (with the old address) when it
lost its address; and both addresses when it has another one. -/
theorem locator_update_log (w : LocWorld) (i id : Nat) (name : String)
    (found : Option (List (Option (List Char)))) (hr : (w.obj i).ref = .auto id name) (old new : IP)
    (ho : w.addrOf (w.obj i).ref = .ip old) (hn : (w.updateAddress i found).1.addrOf (w.obj i).ref = .ip new) :
    new.ver = old.ver ∧
    (old = new → aboutLocator (w.updateAddress i found).2 = []) ∧
    (old = zeroOf old.ver → new ≠ zeroOf old.ver →
      aboutLocator (w.updateAddress i found).2 = ["Locator activated with address ".toList ++ addrText new]) ∧
    (old ≠ zeroOf old.ver → new = zeroOf old.ver →
      aboutLocator (w.updateAddress i found).2 =
        ["Locator with address ".toList ++ addrText old ++ " de-activated".toList]) ∧
    (old ≠ zeroOf old.ver → new ≠ zeroOf old.ver → old ≠ new →
      aboutLocator (w.updateAddress i found).2 =
        ["Locator with address ".toList ++ addrText old ++ " changed to ".toList ++ addrText new]) := by
  have h1 : w.auto id = old := by simpa [hr, LocWorld.addrOf] using ho
  have h2 : autoValue (w.auto id).ver (readInterface found) = new := by
    simpa [hr, LocWorld.addrOf, LocWorld.updateAddress] using hn
  have hv : new.ver = old.ver := by rw [← h2, autoValue_ver, h1]
  have hl : aboutLocator (w.updateAddress i found).2 = (locatorLines old new).map LogLine.text := by
    have : (w.updateAddress i found).2 = autoLines name old found ++ locatorLines old new := by
      simp only [LocWorld.updateAddress, hr, h2]; rw [h1]
    rw [this, about_auto, about_lines]
  have hz : ∀ a : IP, a.ver = old.ver → a ≠ zeroOf old.ver → a.val ≠ 0 := fun a ha h0 hz =>
    h0 (by rw [ip_zero hz, ha]; )
  rw [hl]
  refine ⟨hv, ?_, ?_, ?_, ?_⟩
  · rintro rfl; simp [locatorLines]
  · intro h3 h4
    have h5 : old.val = 0 := by rw [h3]; rfl
    have h6 := hz new hv h4
    have h7 : old.val ≠ new.val := by omega
    simp only [locatorLines, if_pos h7, if_pos h5, List.map_cons, List.map_nil]
  · intro h3 h4
    have h5 : new.val = 0 := by rw [h4]; rfl
    have h6 := hz old rfl h3
    have h7 : old.val ≠ new.val := by omega
    simp only [locatorLines, if_pos h7, if_neg h6, if_pos h5, List.map_cons, List.map_nil]
  · intro h3 h4 h8
    have h5 := hz new hv h4
    have h6 := hz old rfl h3
    have h7 : old.val ≠ new.val := fun e => h8 (ip_ext hv.symm e)
    simp only [locatorLines, if_pos h7, if_neg h6, if_neg h5, List.map_cons, List.map_nil]

theorem lines_inj {o n o' n' : IP} (h : (locatorLines o n).map LogLine.text = (locatorLines o' n').map LogLine.text)
    (hne : o ≠ n) (hv : n.ver = o.ver) (hv' : n'.ver = o'.ver) : o = o' ∧ n = n' := by
  have hne' : o.val ≠ n.val := fun e => hne (ip_ext hv.symm e)
  have hlen : o'.val ≠ n'.val := by
    intro e
    have h0 : locatorLines o' n' = [] := by simp [locatorLines, e]
    rw [h0] at h
    revert h
    unfold locatorLines
    rw [if_pos hne']
    split
    · simp
    · split <;> simp
  have hsp : ∀ {x y r s : List Char}, ' ' ∉ x → ' ' ∉ y → "Locator with address ".toList ++ x ++ ' ' :: r =
      "Locator with address ".toList ++ y ++ ' ' :: s → x = y ∧ r = s := by
    intro x y r s hx hy he
    rw [List.append_assoc, List.append_assoc] at he
    exact split_at hx hy (List.append_cancel_left he)
  have hd : " de-activated".toList = ' ' :: "de-activated".toList := rfl
  have hc : ∀ t : List Char, " changed to ".toList ++ t = ' ' :: ("changed to ".toList ++ t) := fun _ => rfl
  have hi := texts_differ.1
  unfold locatorLines at h
  rw [if_pos hne', if_pos hlen] at h
  by_cases a1 : o.val = 0
  · rw [if_pos a1] at h
    by_cases b1 : o'.val = 0
    · rw [if_pos b1] at h
      simp only [List.map_cons, List.map_nil, List.cons.injEq, and_true] at h
      have := hi _ _ (List.append_cancel_left h)
      subst this
      exact ⟨ip_ext (by rw [← hv, ← hv']) (by rw [a1, b1]), rfl⟩
    · rw [if_neg b1] at h
      split at h <;> simp at h
  · rw [if_neg a1] at h
    by_cases b1 : o'.val = 0
    · rw [if_pos b1] at h
      split at h <;> simp at h
    · rw [if_neg b1] at h
      by_cases a2 : n.val = 0
      · rw [if_pos a2] at h
        by_cases b2 : n'.val = 0
        · rw [if_pos b2] at h
          simp only [List.map_cons, List.map_nil, List.cons.injEq, and_true, hd] at h
          have := hi _ _ (hsp (addrText_space _) (addrText_space _) h).1
          subst this
          exact ⟨rfl, ip_ext (by rw [hv, hv']) (by rw [a2, b2])⟩
        · rw [if_neg b2] at h
          simp only [List.map_cons, List.map_nil, List.cons.injEq, and_true] at h
          rw [List.append_assoc (_ ++ addrText o'), hc, hd] at h
          have := (hsp (addrText_space _) (addrText_space _) h).2
          simp at this
      · rw [if_neg a2] at h
        by_cases b2 : n'.val = 0
        · rw [if_pos b2] at h
          simp only [List.map_cons, List.map_nil, List.cons.injEq, and_true] at h
          rw [List.append_assoc (_ ++ addrText o), hc, hd] at h
          have := (hsp (addrText_space _) (addrText_space _) h).2
          simp at this
        · rw [if_neg b2] at h
          simp only [List.map_cons, List.map_nil, List.cons.injEq, and_true] at h
          rw [List.append_assoc (_ ++ addrText o), List.append_assoc (_ ++ addrText o'), hc, hc] at h
          obtain ⟨h1, h2⟩ := hsp (addrText_space _) (addrText_space _) h
          exact ⟨hi _ _ h1, hi _ _ (List.append_cancel_left h2)⟩

/-- C100: the log can be read back: if the update of one locator and the update of another one, at whatever time and
for whatever interface, say the same about the locator, and the first has changed, then both had the same address
before, and both have the same address now. -/
theorem locator_log_unambiguous (w w' : LocWorld) (i i' id id' : Nat) (name name' : String)
    (found found' : Option (List (Option (List Char))))
    (hr : (w.obj i).ref = .auto id name) (hr' : (w'.obj i').ref = .auto id' name')
    (hne : (w.updateAddress i found).1.addrOf (w.obj i).ref ≠ w.addrOf (w.obj i).ref)
    (h : aboutLocator (w.updateAddress i found).2 = aboutLocator (w'.updateAddress i' found').2) :
    w.addrOf (w.obj i).ref = w'.addrOf (w'.obj i').ref ∧
    (w.updateAddress i found).1.addrOf (w.obj i).ref = (w'.updateAddress i' found').1.addrOf (w'.obj i').ref := by
  have e : ∀ (w : LocWorld) (i id : Nat) (name : String) (found : Option (List (Option (List Char)))),
      (w.obj i).ref = .auto id name → aboutLocator (w.updateAddress i found).2 =
        (locatorLines (w.auto id) (autoValue (w.auto id).ver (readInterface found))).map LogLine.text ∧
      (w.updateAddress i found).1.addrOf (w.obj i).ref = .ip (autoValue (w.auto id).ver (readInterface found)) ∧
      w.addrOf (w.obj i).ref = .ip (w.auto id) := by
    intro w i id name found hr
    refine ⟨?_, ?_, ?_⟩
    · simp only [LocWorld.updateAddress, hr]; rw [about_auto, about_lines]
    · simp [LocWorld.updateAddress, hr, LocWorld.addrOf]
    · simp [hr, LocWorld.addrOf]
  obtain ⟨e1, e2, e3⟩ := e w i id name found hr
  obtain ⟨f1, f2, f3⟩ := e w' i' id' name' found' hr'
  rw [e1, f1] at h
  rw [e2, e3] at hne
  obtain ⟨h1, h2⟩ := lines_inj h (fun he => hne (by rw [← he])) (autoValue_ver _ _) (autoValue_ver _ _)
  rw [e2, e3, f2, f3, h1]
  exact ⟨rfl, by rw [← h2, h1]⟩

/-- C100: the log of updating an automatic address: it names the addresses of the interface, in their order, up to and
including the first suitable one, or up to the first entry that is not an address; then, if the interface has no
address of the family or that entry was met, that no address was found; and last what has become of the address. -/
theorem auto_update_log (name : String) (old : IP) (found : Option (List (Option (List Char)))) :
    ∃ looked : List IP, ∃ failed : Bool,
      autoLines name old found = ⟨.debug, "Updating ".toList ++ autoRepr old.ver name⟩ ::
        (looked.map fun a => ⟨.debug, "Found potential address ".toList ++ addrText a ++ " for ".toList ++
          autoRepr old.ver name⟩) ++
        (if failed = true then [⟨.info, "No address found for ".toList ++ autoRepr old.ver name⟩] else []) ++
        [outcomeLine old.ver name old (autoValue old.ver (readInterface found))] ∧
      (found = none → looked = [] ∧ failed = true) ∧
      ∀ l, found = some l → (∀ a ∈ looked.dropLast, ¬ Suitable a) ∧
        ∃ rest, l.map readEntry = looked.map some ++ rest ∧
          ((failed = false ∧ ∃ a, looked.getLast? = some a ∧ Suitable a) ∨
           ((∀ a ∈ looked, ¬ Suitable a) ∧
             ((failed = false ∧ rest = []) ∨ (failed = true ∧ rest.head? = some none)))) := by
  have key : ∀ (v : Ver) (l : List (Option IP)), ∃ looked : List IP, ∃ failed : Bool,
      loopLines v name l = (looked.map fun a => foundLine v name a) ++
        (if failed = true then [noAddressLine v name] else []) ∧
      (∀ a ∈ looked.dropLast, ¬ Suitable a) ∧ ∃ rest, l = looked.map some ++ rest ∧
        ((failed = false ∧ ∃ a, looked.getLast? = some a ∧ Suitable a) ∨
           ((∀ a ∈ looked, ¬ Suitable a) ∧
             ((failed = false ∧ rest = []) ∨ (failed = true ∧ rest.head? = some none)))) := by
    intro v l
    induction l with
    | nil => exact ⟨[], false, rfl, by simp, [], rfl, .inr ⟨by simp, .inl ⟨rfl, rfl⟩⟩⟩
    | cons e l ih =>
      cases e with
      | none => exact ⟨[], true, rfl, by simp, none :: l, rfl, .inr ⟨by simp, .inr ⟨rfl, rfl⟩⟩⟩
      | some a =>
        by_cases ha : Suitable a
        · exact ⟨[a], false, by simp [loopLines, (autoSuitable_iff a).mpr ha], by simp, l, rfl,
            .inl ⟨rfl, a, rfl, ha⟩⟩
        · have hs : autoSuitable a ≠ true := fun h => ha ((autoSuitable_iff a).mp h)
          obtain ⟨looked, failed, h1, h2, rest, h3, h4⟩ := ih
          refine ⟨a :: looked, failed, by simp [loopLines, hs, h1], ?_, rest, by rw [h3]; rfl, ?_⟩
          · intro b hb
            cases looked with
            | nil => simp at hb
            | cons c looked =>
              simp only [List.dropLast_cons₂, List.mem_cons] at hb
              rcases hb with rfl | hb
              · exact ha
              · exact h2 b hb
          · rcases h4 with ⟨h4, c, hc, hc'⟩ | ⟨h4, h5⟩
            · refine .inl ⟨h4, c, ?_, hc'⟩
              cases looked with
              | nil => simp at hc
              | cons d looked => simpa using hc
            · refine .inr ⟨?_, h5⟩
              intro b hb
              rcases List.mem_cons.mp hb with rfl | hb
              · exact ha
              · exact h4 b hb
  cases found with
  | none => exact ⟨[], true, rfl, fun _ => ⟨rfl, rfl⟩, by simp⟩
  | some l =>
    obtain ⟨looked, failed, h1, h2, rest, h3, h4⟩ := key old.ver (l.map readEntry)
    refine ⟨looked, failed, ?_, by simp, ?_⟩
    · simp only [autoLines, readInterface, Option.map_some]
      rw [h1]
      rfl
    · intro m hm
      cases hm
      exact ⟨h2, rest, h3, h4⟩

/-- C100: the last line of that log: whether there still is no address, the old address is still in use, there is no
usable address any more, or a new address is in use. -/
theorem auto_update_outcome (name : String) (old : IP) (found : Option (List (Option (List Char)))) (new : IP)
    (hf : OfFamily old.ver found)
    (hn : (∃ l, found = some l ∧ FirstSuitable new l) ∨
      ((∀ l, found = some l → NoneSuitable l) ∧ new = zeroOf old.ver)) :
    ∃ t, ((autoLines name old found).getLast?).map LogLine.text = some t ∧
      (old = new ∧ new.val = 0 → t = "Still no address found for ".toList ++ autoRepr old.ver name) ∧
      (old = new ∧ new.val ≠ 0 → t = "Still using address ".toList ++ addrText new ++ " for ".toList ++
        autoRepr old.ver name) ∧
      (old ≠ new ∧ new.val = 0 → t = "No usable ".toList ++ (autoClass old.ver).toList ++ " found for ".toList ++
        autoRepr old.ver name) ∧
      (old ≠ new ∧ new.val ≠ 0 → t = "Using address ".toList ++ addrText new ++ " for ".toList ++
        autoRepr old.ver name) := by
  have hval : autoValue old.ver (readInterface found) = new := by
    rcases hn with ⟨l, rfl, h⟩ | ⟨h, rfl⟩
    · exact value_first hf h
    · exact value_none h
  have hv : new.ver = old.ver := by rw [← hval, autoValue_ver]
  refine ⟨(outcomeLine old.ver name old new).text, ?_, ?_, ?_, ?_, ?_⟩
  · unfold autoLines; rw [hval, List.cons_append, ← List.cons_append, List.getLast?_append]; simp
  · rintro ⟨rfl, h⟩; simp only [outcomeLine, if_pos h, if_true]
  · rintro ⟨rfl, h⟩; simp only [outcomeLine, if_neg h, if_true]
  · rintro ⟨h1, h⟩
    have : old.val ≠ new.val := fun e => h1 (ip_ext hv.symm e)
    simp only [outcomeLine, if_neg this, if_pos h]
  · rintro ⟨h1, h⟩
    have : old.val ≠ new.val := fun e => h1 (ip_ext hv.symm e)
    simp only [outcomeLine, if_neg this, if_neg h]

/-! ### The addresses of the host and of the sockets -/

theorem allSome_none {α : Type} : ∀ {l : List (Option α)}, none ∈ l → allSome l = none
  | [], h => by simp at h
  | none :: l, _ => by simp [allSome]
  | some x :: l, h => by
    have : none ∈ l := by simpa using h
    simp [allSome, allSome_none this]

/-- C100: the addresses to listen on by default are those that the host name has, in that order, without their scopes;
a text that is not an address is a ValueError. -/
theorem default_listen (l : List (IP × List Char)) (h : ∀ p ∈ l, TextOf p.1 p.2) :
    defaultListenOn (l.map Prod.snd) = some (l.map Prod.fst) ∧
    ∀ bad us, ipAddress (unscoped bad) = none → defaultListenOn (l.map Prod.snd ++ bad :: us) = none := by
  constructor
  · unfold defaultListenOn
    rw [← allSome_map_some, List.map_map, List.map_map]
    congr 1
    refine List.map_congr_left fun p hp => ?_
    exact read_textOf (h p hp)
  · intro bad us hb
    exact allSome_none (List.mem_map.mpr ⟨bad, by simp, hb⟩)

/-- C100: the addresses of the sockets that can send to a destination: those of the sockets of its family, in their
order.  A scope in the name of such a socket (which IPv6 sockets on link-local addresses have) is a ValueError. -/
theorem matching_addresses (d : IP) (socks : List IP) :
    findMatchingAddresses d (socks.map fun a => (a.ver, addrText a)) = some (socks.filter fun a => a.ver = d.ver) ∧
    ∀ (before after : List (Ver × List Char)) (a : IP) (scope : List Char),
      findMatchingAddresses d (before ++ (d.ver, addrText a ++ '%' :: scope) :: after) = none := by
  constructor
  · unfold findMatchingAddresses
    rw [← allSome_map_some]
    congr 1
    induction socks with
    | nil => rfl
    | cons a l ih =>
      by_cases ha : a.ver = d.ver
      · simp only [List.map_cons, List.filter_cons, ha, decide_true, if_true, address_text_back, ih]
      · simp only [List.map_cons, List.filter_cons, ha, decide_false, Bool.false_eq_true, if_false, ih]
  · intro before after a scope
    refine allSome_none (List.mem_map.mpr ⟨(d.ver, addrText a ++ '%' :: scope), ?_, ?_⟩)
    · simp
    · exact ipAddress_bad (c := '%') (by simp) percent_not_addr

/-! ### Witnesses -/

/-- an interface with a link-local address with a scope, and then a global one -/
def sampleFound : Option (List (Option (List Char))) :=
  some [some "fe80::1%eth0".toList, some "2001:db8::1".toList, none]

/-- a world with one locator, with an automatic IPv6 address of eth0 that has no value yet -/
def sampleWorld : LocWorld :=
  { obj := fun _ => ⟨{ address := .none }, .auto 0 "eth0"⟩, auto := fun _ => zeroOf .v6 }

theorem sample_first : FirstSuitable (.v6 0x20010db8000000000000000000000001)
    [some "fe80::1%eth0".toList, some "2001:db8::1".toList, none] := by
  refine .later (b := .v6 0xfe800000000000000000000000000001) ?_ ?_ (.here ?_ ?_)
  · exact TextOf.withScope "eth0".toList
  · simp [Suitable, IP.v6]
  · exact TextOf.plain
  · simp [Suitable, IP.v6]

/-- an entry that is no address hides the suitable one after it -/
theorem sample_none : NoneSuitable [some "fe80::1%eth0".toList, none, some "2001:db8::1".toList] := by
  refine .skip (b := .v6 0xfe800000000000000000000000000001) (TextOf.withScope "eth0".toList) ?_ (.stop ?_)
  · simp [Suitable, IP.v6]
  · intro t ht; cases ht

example : aboutLocator (sampleWorld.updateAddress 0 sampleFound).2 =
    ["Locator activated with address 2001:db8::1".toList] := by decide

example : OfFamily (sampleWorld.auto 0).ver sampleFound := by
  intro l hl t ht a ha
  cases hl
  simp only [List.mem_cons, Option.some.injEq, List.not_mem_nil, or_false, reduceCtorEq] at ht
  rcases ht with rfl | rfl
  · have : ipAddress (unscoped "fe80::1%eth0".toList) = some (.v6 0xfe800000000000000000000000000001) := by decide
    rw [this] at ha; cases ha; rfl
  · have : ipAddress (unscoped "2001:db8::1".toList) = some (.v6 0x20010db8000000000000000000000001) := by decide
    rw [this] at ha; cases ha; rfl

example : (autoLines "eth0" (zeroOf .v6) sampleFound).map (fun x => String.ofList x.text) =
    ["Updating AutoIPv6Address(eth0)", "Found potential address fe80::1 for AutoIPv6Address(eth0)",
     "Found potential address 2001:db8::1 for AutoIPv6Address(eth0)",
     "Using address 2001:db8::1 for AutoIPv6Address(eth0)"] := by decide

example : (autoLines "eth0" (.v4 0xc0000201) none).map (fun x => String.ofList x.text) =
    ["Updating AutoIPv4Address(eth0)", "No address found for AutoIPv4Address(eth0)",
     "No usable AutoIPv4Address found for AutoIPv4Address(eth0)"] := by decide

end PyLisp.Props
