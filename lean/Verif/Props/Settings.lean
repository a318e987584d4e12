import Verif.Settings
/-
C59: loading the configuration.
-/
namespace PyLisp.Props
open PyLisp

/-- the value a setting has after the files: that of the last file that defines it, if its name is
in upper case, else the default -/
def lastValue (defaults : Settings) (fs : List ConfigFile) (n : String) : PyVal :=
  ((fs.filterMap fun f => match f with
    | .module attrs => if n = n.toUpper then attrs n else none
    | _ => none).getLast?).getD (defaults n)

theorem applyFiles_spec (s : Settings) (fs : List ConfigFile) :
    (.broken ∈ fs → applyFiles s fs = none) ∧
    (.broken ∉ fs → applyFiles s fs = some (lastValue s fs)) := by
  induction fs generalizing s with
  | nil => exact ⟨by simp, fun _ => rfl⟩
  | cons f fs ih =>
    cases f with
    | ioError =>
      rw [applyFiles]
      have hl : lastValue s (.ioError :: fs) = lastValue s fs := by
        funext n; unfold lastValue; rw [List.filterMap_cons]
      rw [hl]
      simpa using ih s
    | broken => simp [applyFiles]
    | module attrs =>
      rw [applyFiles]
      obtain ⟨h1, h2⟩ := ih (applyModule s attrs)
      refine ⟨fun h => h1 (by simpa using h), fun h => ?_⟩
      rw [h2 (by simpa using h)]
      congr 1
      funext n
      unfold lastValue
      rw [List.filterMap_cons]
      by_cases hn : n = n.toUpper
      · simp only [if_pos hn]
        cases ha : attrs n with
        | none => simp [applyModule, ← hn, ha]
        | some v =>
          simp only []
          rw [List.getLast?_cons]
          simp [applyModule, ← hn, ha]
      · simp only [if_neg hn]
        simp [applyModule, hn]

/-- LISTEN_ON is a list of addresses or texts of addresses, `l'` are the addresses -/
def ListenOk : List ListenItem → List ListenItem → Prop
  | [], [] => True
  | x :: l, y :: l' => (∃ a, (x = .addr a ∨ x = .text (some a)) ∧ y = .addr a) ∧ ListenOk l l'
  | _, _ => False

/-- 0.0.0.0/0 -/
def everyV4 : Net := ⟨.v4, 0, 0, by decide, by decide, by decide⟩
/-- ::/0 -/
def everyV6 : Net := ⟨.v6, 0, 0, by decide, by decide, by decide⟩

/-- INSTANCES maps integers to dicts that have, under AFI 1, a ContainerNode for 0.0.0.0/0 and, under
AFI 2, one for ::/0 -/
def InstancesOk (d : List (InstKey × InstVal)) : Prop :=
  ∀ k v, (k, v) ∈ d → ∃ i t, k = .int i ∧ v = .dict t ∧
    dictGet t 1 = some (.container everyV4) ∧ dictGet t 2 = some (.container everyV6)

theorem fixListen_iff (l l' : List ListenItem) : fixListen l = some l' ↔ ListenOk l l' := by
  induction l generalizing l' with
  | nil => cases l' <;> simp [fixListen, ListenOk]
  | cons x l ih =>
    match x with
    | .text none => cases l' <;> simp [fixListen, ListenOk]
    | .addr a =>
      cases l' with
      | nil => simp [fixListen, ListenOk]
      | cons y l' =>
        simp only [fixListen, Option.map_eq_some_iff, ListenOk, List.cons.injEq, ← ih]
        constructor
        · rintro ⟨_, h, rfl, rfl⟩; exact ⟨⟨a, .inl rfl, rfl⟩, h⟩
        · rintro ⟨⟨b, h | h, rfl⟩, h'⟩
          · cases h; exact ⟨l', h', rfl, rfl⟩
          · cases h
    | .text (some a) =>
      cases l' with
      | nil => simp [fixListen, ListenOk]
      | cons y l' =>
        simp only [fixListen, Option.map_eq_some_iff, ListenOk, List.cons.injEq, ← ih]
        constructor
        · rintro ⟨_, h, rfl, rfl⟩; exact ⟨⟨a, .inr rfl, rfl⟩, h⟩
        · rintro ⟨⟨b, h | h, rfl⟩, h'⟩
          · cases h
          · cases h; exact ⟨l', h', rfl, rfl⟩

theorem rootOk_iff {v : Option TreeVal} {r : Net} : rootOk v r = true ↔ v = some (.container r) := by
  match v with
  | none => simp [rootOk]
  | some .other => simp [rootOk]
  | some (.container p) => simp [rootOk]

theorem fixInstance_iff (d d' : List (Int × TreeVal)) : fixInstance d = some d' ↔
    d' = d ∧ dictGet d 1 = some (.container rootNet4) ∧ dictGet d 2 = some (.container rootNet6) := by
  unfold fixInstance
  by_cases h1 : dictGet d 1 = none
  · simp only [h1, Option.isNone_none, if_true]
    have hx : dictGet (dictSet d 4 (.container rootNet4)) 1 = none := by rw [dictGet_set]; simp [h1]
    constructor
    · intro h
      exfalso
      generalize hd2 : (if (dictGet (dictSet d 4 (.container rootNet4)) 2).isNone = true then
        dictSet (dictSet d 4 (.container rootNet4)) 4 (.container rootNet6)
        else dictSet d 4 (.container rootNet4)) = d2 at h
      have hy : dictGet d2 1 = none := by
        rw [← hd2]
        split
        · rw [dictGet_set]; simp [hx]
        · exact hx
      rw [hy] at h
      simp [rootOk] at h
    · rintro ⟨_, h, _⟩; cases h
  · have h1' : (dictGet d 1).isNone = false := by
      cases hd : dictGet d 1 with
      | none => exact absurd hd h1
      | some => rfl
    simp only [h1', Bool.false_eq_true, if_false]
    by_cases h2 : dictGet d 2 = none
    · simp only [h2, Option.isNone_none, if_true]
      have hx : dictGet (dictSet d 4 (.container rootNet6)) 2 = none := by rw [dictGet_set]; simp [h2]
      constructor
      · intro h
        exfalso
        split at h
        · rename_i hr
          have := rootOk_iff.mp hr.2
          rw [hx] at this; cases this
        · cases h
      · rintro ⟨_, _, h⟩; cases h
    · have h2' : (dictGet d 2).isNone = false := by
        cases hd : dictGet d 2 with
        | none => exact absurd hd h2
        | some => rfl
      simp only [h2', Bool.false_eq_true, if_false, rootOk_iff]
      constructor
      · intro h
        split at h
        · rename_i hr; cases h; exact ⟨rfl, hr⟩
        · cases h
      · rintro ⟨rfl, h⟩; rw [if_pos h]

theorem fixInstances_iff (d d' : List (InstKey × InstVal)) :
    fixInstances d = some d' ↔ d' = d ∧ InstancesOk d := by
  induction d generalizing d' with
  | nil => simp [fixInstances, InstancesOk, eq_comm]
  | cons x d ih =>
    obtain ⟨k, v⟩ := x
    have bad : fixInstances ((k, v) :: d) = none → (¬ ∃ i t, k = .int i ∧ v = .dict t ∧
        dictGet t 1 = some (.container rootNet4) ∧ dictGet t 2 = some (.container rootNet6)) →
        (fixInstances ((k, v) :: d) = some d' ↔ d' = (k, v) :: d ∧ InstancesOk ((k, v) :: d)) := by
      intro h hn
      rw [h]
      constructor
      · intro h; cases h
      · rintro ⟨_, h'⟩; exact absurd (h' k v (by simp)) hn
    match k, v with
    | .other _, .dict _ => exact bad rfl (by rintro ⟨i, t, h, _⟩; cases h)
    | .other _, .other => exact bad rfl (by rintro ⟨i, t, h, _⟩; cases h)
    | .int _, .other => exact bad rfl (by rintro ⟨i, t, _, h, _⟩; cases h)
    | .int i, .dict t =>
      cases hf : fixInstance t with
      | none =>
        refine bad (by simp [fixInstances, hf]) ?_
        rintro ⟨i', t', _, h, h1⟩
        cases h
        rw [(fixInstance_iff t t).mpr ⟨rfl, h1⟩] at hf; cases hf
      | some t' =>
        obtain ⟨rfl, h1, h2⟩ := (fixInstance_iff t t').mp hf
        simp only [fixInstances, hf, Option.map_eq_some_iff]
        constructor
        · rintro ⟨d1, hd1, rfl⟩
          obtain ⟨rfl, hok⟩ := (ih d1).mp hd1
          refine ⟨rfl, ?_⟩
          intro k v hm
          rcases List.mem_cons.mp hm with h | h
          · cases h; exact ⟨i, t', rfl, rfl, h1, h2⟩
          · exact hok k v h
        · rintro ⟨rfl, hok⟩
          exact ⟨d, (ih d).mpr ⟨rfl, fun k v hm => hok k v (List.mem_cons_of_mem _ hm)⟩, rfl⟩

/-- the settings with a fixed type have it -/
def TypesOk (s : Settings) : Prop :=
  (s "PETR" = .none ∨ ∃ a, s "PETR" = .addr a) ∧ (∃ b, s "NATT" = .bool b) ∧
  (s "NFQUEUE_IPV4" = .none ∨ (∃ i, s "NFQUEUE_IPV4" = .int i) ∨ ∃ b, s "NFQUEUE_IPV4" = .bool b) ∧
  (s "NFQUEUE_IPV6" = .none ∨ (∃ i, s "NFQUEUE_IPV6" = .int i) ∨ ∃ b, s "NFQUEUE_IPV6" = .bool b)

theorem typesOk_iff (s : Settings) : typesOk s = true ↔ TypesOk s := by
  unfold typesOk TypesOk
  generalize s "PETR" = p
  generalize s "NATT" = n
  generalize s "NFQUEUE_IPV4" = q4
  generalize s "NFQUEUE_IPV6" = q6
  simp only [Bool.and_eq_true, and_assoc]
  refine and_congr ?_ (and_congr ?_ (and_congr ?_ ?_))
  · cases p <;> simp
  · cases n <;> simp
  · cases q4 <;> simp
  · cases q6 <;> simp

/-- C59: loading succeeds exactly when no file is broken, and the resulting values (of every setting
the last file that defines it, names in upper case only, else the default) are in order: LISTEN_ON
lists addresses, every instance has an integer id and explicitly configured trees rooted at
0.0.0.0/0 and ::/0, and the other settings have their types.  The result is those values, with
LISTEN_ON converted to address objects.  In particular, the default trees are never supplied: an
instance without one of the address families makes loading fail. -/
theorem load_settings_iff (defaults s : Settings) (fs : List ConfigFile) :
    loadSettings defaults fs = some s ↔
      .broken ∉ fs ∧ ∃ l l' d, lastValue defaults fs "LISTEN_ON" = .listen l ∧ ListenOk l l' ∧
        lastValue defaults fs "INSTANCES" = .instances d ∧ InstancesOk d ∧
        TypesOk (lastValue defaults fs) ∧ s "LISTEN_ON" = .listen l' ∧
        ∀ n, n ≠ "LISTEN_ON" → s n = lastValue defaults fs n := by
  unfold loadSettings
  by_cases hb : ConfigFile.broken ∈ fs
  · simp [hb, (applyFiles_spec defaults fs).1 hb]
  · rw [(applyFiles_spec defaults fs).2 hb]
    simp only [not_false_eq_true, true_and, hb]
    generalize lastValue defaults fs = v
    unfold fixConfig
    constructor
    · intro h
      split at h
      · rename_i l hl
        split at h
        · cases h
        · rename_i l' hl'
          split at h
          · rename_i d hd
            split at h
            · cases h
            · rename_i d' hd'
              split at h
              · rename_i ht
                obtain ⟨rfl, hok⟩ := (fixInstances_iff d d').mp hd'
                cases h
                refine ⟨l, l', d', hl, (fixListen_iff l l').mp hl', hd, hok, (typesOk_iff v).mp ht, ?_, ?_⟩
                · simp [Settings.set]
                · intro n hn
                  by_cases hi : n = "INSTANCES"
                  · subst hi; simp [Settings.set, hd]
                  · simp [Settings.set, hn, hi]
              · cases h
          · cases h
      · cases h
    · rintro ⟨l, l', d, hl, hlo, hd, hok, ht, h1, h2⟩
      rw [hl]
      simp only []
      rw [(fixListen_iff l l').mpr hlo]
      simp only [hd]
      rw [(fixInstances_iff d d).mpr ⟨rfl, hok⟩]
      simp only [(typesOk_iff v).mpr ht, if_true, Option.some.injEq]
      funext n
      by_cases hi : n = "INSTANCES"
      · subst hi; simp [Settings.set, h2, hd]
      · by_cases hn : n = "LISTEN_ON"
        · subst hn; simp [Settings.set, h1]
        · simp [Settings.set, hn, hi, h2]

/-- C59: so after loading every configured instance has both trees. -/
theorem loaded_instances (defaults s : Settings) (fs : List ConfigFile)
    (h : loadSettings defaults fs = some s) :
    ∃ d, s "INSTANCES" = .instances d ∧ ∀ k v, (k, v) ∈ d → ∃ i t, k = .int i ∧ v = .dict t ∧
      dictGet t 1 = some (.container everyV4) ∧ dictGet t 2 = some (.container everyV6) := by
  obtain ⟨_, l, l', d, _, _, hd, hok, _, _, h2⟩ := (load_settings_iff defaults s fs).mp h
  exact ⟨d, by rw [h2 _ (by decide), hd], hok⟩

/-- C59: an instance configured for one address family only makes loading fail. -/
theorem one_family_rejected (defaults : Settings) (fs : List ConfigFile)
    (d : List (InstKey × InstVal)) (k : InstKey) (t : List (Int × TreeVal))
    (hd : lastValue defaults fs "INSTANCES" = .instances d) (hm : (k, .dict t) ∈ d)
    (ht : dictGet t 1 = none ∨ dictGet t 2 = none) : loadSettings defaults fs = none := by
  cases hl : loadSettings defaults fs with
  | none => rfl
  | some s =>
    obtain ⟨_, l, l', d', _, _, hd', hok, _⟩ := (load_settings_iff defaults s fs).mp hl
    rw [hd] at hd'; cases hd'
    obtain ⟨i, t', _, e, h1, h2⟩ := hok _ _ hm
    cases e
    rcases ht with h | h
    · rw [h] at h1; cases h1
    · rw [h] at h2; cases h2

/-! ### The hypotheses are met -/

/-- the defaults of settings.py:32-53 on a host with the address 192.0.2.1 -/
def exDefaults : Settings := fun n =>
  if n = "LISTEN_ON" then .listen [.addr (.v4 0xc0000201)]
  else if n = "INSTANCES" then .instances []
  else if n = "NATT" then .bool true
  else .none

def exInstances (t : List (Int × TreeVal)) : ConfigFile :=
  .module fun n => if n = "INSTANCES" then some (.instances [(.int 0, .dict t)]) else none

/-- with both trees the settings load -/
example : ∃ s, loadSettings exDefaults
    [.ioError, exInstances [(1, .container everyV4), (2, .container everyV6)]] = some s := by
  refine Option.isSome_iff_exists.mp ?_
  decide +kernel

/-- without the IPv6 tree they do not -/
example : loadSettings exDefaults [exInstances [(1, .container everyV4)]] = none :=
  one_family_rejected _ _ [(.int 0, .dict [(1, .container everyV4)])] (.int 0)
    [(1, .container everyV4)] (by decide +kernel) (by simp) (.inr rfl)

end PyLisp.Props
