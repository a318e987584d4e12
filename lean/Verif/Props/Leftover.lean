import Verif.Props.AutoCache
/-
Property C83: automatic addresses in lispd itself, where two more of them are made when the Map-Server module is
loaded (map_server_node.py:182-183).
-/
namespace PyLisp.Props
open PyLisp

/-- invariant: the first two objects are the ones made on loading, the cache knows exactly the others, and all others
of another interface or family are registered for updates -/
structure LoadedOk (st : AutoCache) : Prop where
  two : 2 ≤ st.objs.length
  base : ∀ (i : Nat) (o : AutoObj), st.objs[i]? = some o → i < 2 → o.ifName = "vlan2" ∧ o.ver = .v4
  known : ∀ (n : String) (v : Ver) (i : Nat), dictGet st.cache (n, v) = some i ↔
    2 ≤ i ∧ ∃ o, st.objs[i]? = some o ∧ o.ifName = n ∧ o.ver = v
  registered : ∀ o ∈ st.objs, (o.ifName, o.ver) ≠ ("vlan2", Ver.v4) → o.registered = true

theorem loadedOk_init (e1 e2 : Interfaces) : LoadedOk (loaded e1 e2) := by
  refine ⟨by simp [loaded, autoStep], ?_, ?_, ?_⟩
  · intro i o ho hi
    have : i = 0 ∨ i = 1 := by omega
    rcases this with rfl | rfl <;> (simp [loaded, autoStep, AutoObj.refresh] at ho; subst ho; exact ⟨rfl, rfl⟩)
  · intro n v i
    simp only [loaded, dictGet]
    constructor
    · intro h; cases h
    · rintro ⟨hi, o, ho, _⟩
      have : (autoStep (autoStep [] (.create 0 "vlan2" .v4 e1)) (.create 1 "vlan2" .v4 e2))[i]? = none :=
        List.getElem?_eq_none (by simp [autoStep]; omega)
      rw [this] at ho; cases ho
  · intro o ho hne
    simp [loaded, autoStep, AutoObj.refresh] at ho
    rcases ho with rfl | rfl <;> exact absurd rfl hne

theorem get_append {objs : List AutoObj} {o : AutoObj} (i : Nat) (p : AutoObj) :
    (objs ++ [o])[i]? = some p ↔ objs[i]? = some p ∨ (i = objs.length ∧ p = o) := by
  by_cases hi : i < objs.length
  · rw [List.getElem?_append_left hi]
    exact ⟨.inl, fun h => h.resolve_right (by omega)⟩
  · have hnone : objs[i]? = none := List.getElem?_eq_none (by omega)
    rw [List.getElem?_append_right (by omega), hnone]
    by_cases he : i = objs.length
    · subst he; simp [eq_comm]
    · rw [List.getElem?_eq_none (by simp; omega)]
      simp [he]

theorem loadedOk_get {st : AutoCache} (h : LoadedOk st) (n : String) (v : Ver) (env : Interfaces) :
    LoadedOk (getAddress st n v env).1 := by
  unfold getAddress
  split
  · exact h
  · rename_i hnone
    obtain ⟨o, ho, hid, hn, hv, hip, hreg⟩ := create_spec st.objs st.objs.length n v env
    dsimp only
    rw [ho]
    have two := h.two
    refine ⟨by simp only [List.length_append]; omega, ?_, ?_, ?_⟩
    · intro i p hp hi
      rcases (get_append i p).mp hp with hp | ⟨rfl, rfl⟩
      · exact h.base i p hp hi
      · omega
    · intro n' v' i
      dsimp only
      rw [dictGet_set]
      by_cases hk : (n', v') = (n, v)
      · cases hk
        rw [if_pos rfl]
        constructor
        · intro he; cases he
          exact ⟨two, o, (get_append _ _).mpr (.inr ⟨rfl, rfl⟩), hn, hv⟩
        · rintro ⟨hi, p, hp, hpn, hpv⟩
          rcases (get_append i p).mp hp with hp | ⟨rfl, rfl⟩
          · have := (h.known n v i).mpr ⟨hi, p, hp, hpn, hpv⟩
            rw [hnone] at this; cases this
          · rfl
      · rw [if_neg hk, h.known]
        constructor
        · rintro ⟨hi, p, hp, hpn, hpv⟩
          exact ⟨hi, p, (get_append _ _).mpr (.inl hp), hpn, hpv⟩
        · rintro ⟨hi, p, hp, hpn, hpv⟩
          rcases (get_append i p).mp hp with hp | ⟨rfl, rfl⟩
          · exact ⟨hi, p, hp, hpn, hpv⟩
          · exact absurd (by rw [← hpn, ← hpv, hn, hv]) hk
    · intro p hp hne
      rcases List.mem_append.mp hp with hp | hp
      · exact h.registered p hp hne
      · rw [List.mem_singleton.mp hp] at hne ⊢
        rw [hreg]
        rintro ⟨q, hq, _, hqn, hqv, _⟩
        obtain ⟨i, hi, he⟩ := List.mem_iff_getElem.mp hq
        have hq' : st.objs[i]? = some q := by rw [← he]; exact List.getElem?_eq_getElem hi
        by_cases h2 : 2 ≤ i
        · have := (h.known n v i).mpr ⟨h2, q, hq', hqn, hqv⟩
          rw [hnone] at this; cases this
        · obtain ⟨b1, b2⟩ := h.base i q hq' (by omega)
          exact hne (by rw [hn, hv, ← hqn, ← hqv, b1, b2])

theorem loadedOk_update {st : AutoCache} (h : LoadedOk st) (env : Interfaces) :
    LoadedOk (cacheStep st (.updateAll env)) := by
  have hget := update_addresses_spec st.objs env
  refine ⟨by have := h.two; simp only [cacheStep, autoStep, List.length_map]; omega, ?_, ?_, ?_⟩
  · intro i o ho hi
    simp only [cacheStep] at ho
    rw [hget] at ho
    obtain ⟨p, hp, rfl⟩ := Option.map_eq_some_iff.mp ho
    have := h.base i p hp hi
    split <;> exact this
  · intro n v i
    simp only [cacheStep, h.known]
    constructor
    · rintro ⟨hi, p, hp, hpn, hpv⟩
      refine ⟨hi, _, by rw [hget, hp]; rfl, ?_, ?_⟩
      · dsimp only
        split <;> exact hpn
      · dsimp only
        split <;> exact hpv
    · rintro ⟨hi, o, ho, hon, hov⟩
      rw [hget] at ho
      obtain ⟨p, hp, rfl⟩ := Option.map_eq_some_iff.mp ho
      refine ⟨hi, p, hp, ?_, ?_⟩
      · split at hon <;> exact hon
      · split at hov <;> exact hov
  · intro o ho hne
    obtain ⟨i, hi, he⟩ := List.mem_iff_getElem.mp ho
    have ho' : (autoStep st.objs (.updateAll env))[i]? = some o := by
      rw [← he]; exact List.getElem?_eq_getElem hi
    rw [hget] at ho'
    obtain ⟨p, hp, rfl⟩ := Option.map_eq_some_iff.mp ho'
    have hr : p.registered = true := h.registered p (List.mem_of_getElem? hp) (by split at hne <;> exact hne)
    rw [if_pos hr]; exact hr

theorem loadedOk_run (evs : List CacheEvent) (e1 e2 : Interfaces) :
    LoadedOk (evs.foldl cacheStep (loaded e1 e2)) := by
  suffices ∀ st, LoadedOk st → LoadedOk (evs.foldl cacheStep st) from this _ (loadedOk_init e1 e2)
  induction evs with
  | nil => intro st h; exact h
  | cons e evs ih =>
    intro st h
    refine ih _ ?_
    cases e with
    | get n v env => exact loadedOk_get h n v env
    | updateAll env => exact loadedOk_update h env

/-- the value of an object in the state after an update: what the interface has then if it is registered, otherwise
what it was -/
theorem kept {st : AutoCache} (evs : List CacheEvent) {i : Nat} {o : AutoObj} (h : st.objs[i]? = some o) :
    ∃ p, (evs.foldl cacheStep st).objs[i]? = some p ∧ p.ifName = o.ifName ∧ p.ver = o.ver ∧
      p.registered = o.registered ∧ (o.registered = false → p.ip = o.ip) := by
  induction evs generalizing st o with
  | nil => exact ⟨o, h, rfl, rfl, rfl, fun _ => rfl⟩
  | cons e evs ih =>
    rw [List.foldl_cons]
    cases e with
    | get n v env =>
      refine ih ?_
      simp only [cacheStep, getAddress]
      split
      · exact h
      · simp only [autoStep]
        exact (get_append _ _).mpr (.inl h)
    | updateAll env =>
      have := update_addresses_spec st.objs env i
      rw [h] at this
      obtain ⟨p, h1, h2, h3, h4, h5⟩ := ih (st := cacheStep st (.updateAll env)) this
      dsimp only at h2 h3 h4 h5
      refine ⟨p, h1, ?_, ?_, ?_, ?_⟩
      · rw [h2]; split <;> rfl
      · rw [h3]; split <;> rfl
      · rw [h4]; split <;> rfl
      · intro hr
        rw [if_neg (by simp [hr])] at h5
        exact h5 hr

/-- C83: in lispd too, the automatic address got for any interface and family other than IPv4 on vlan2 has, after
every later update, the value picked from what the interface has then. -/
theorem loaded_follows (e1 e2 : Interfaces) (before between : List CacheEvent) (n : String) (v : Ver)
    (env env' : Interfaces) (hn : (n, v) ≠ ("vlan2", Ver.v4)) :
    ∃ o, ((before ++ CacheEvent.get n v env :: (between ++ [CacheEvent.updateAll env'])).foldl cacheStep
        (loaded e1 e2)).objs[(getAddress (before.foldl cacheStep (loaded e1 e2)) n v env).2]? = some o ∧
      o.ifName = n ∧ o.ver = v ∧ o.ip = chooseAddress (env' n v) := by
  rw [List.foldl_append, List.foldl_cons, List.foldl_append]
  have hok := loadedOk_get (loadedOk_run before e1 e2) n v env
  have hk := got_known (st := before.foldl cacheStep (loaded e1 e2)) n v env
  obtain ⟨_, o, ho, hon, hov⟩ := (hok.known _ _ _).mp hk
  have hr := hok.registered o (List.mem_of_getElem? ho) (by rw [hon, hov]; exact hn)
  obtain ⟨p, hp, h1, h2, h3, _⟩ := kept between (st := (getAddress (before.foldl cacheStep (loaded e1 e2)) n v env).1) ho
  refine ⟨{ p with ip := chooseAddress (env' p.ifName p.ver) }, ?_, by rw [← hon, ← h1], by rw [← hov, ← h2], ?_⟩
  · have := update_addresses_spec (between.foldl cacheStep (getAddress (before.foldl cacheStep (loaded e1 e2)) n v env).1).objs
      env' (getAddress (before.foldl cacheStep (loaded e1 e2)) n v env).2
    rw [hp] at this
    simp only [Option.map_some, h3, hr, if_true] at this
    rw [h3, hr]
    exact this
  · dsimp only; rw [h1, h2, hon, hov]

/-- what was last found on the interfaces: by the last update, or otherwise `e` -/
def lastFound (e : Interfaces) : List CacheEvent → Interfaces
  | [] => e
  | .updateAll e' :: evs => lastFound e' evs
  | .get .. :: evs => lastFound e evs

/-- one of the two first objects after a history -/
theorem first_objects {st : AutoCache} (evs : List CacheEvent) {i : Nat} {o : AutoObj} (h : st.objs[i]? = some o)
    (e : Interfaces) (he : o.ip = chooseAddress (e o.ifName o.ver)) :
    ∃ p, (evs.foldl cacheStep st).objs[i]? = some p ∧ p.ifName = o.ifName ∧ p.ver = o.ver ∧
      p.registered = o.registered ∧
      (o.registered = true → p.ip = chooseAddress (lastFound e evs o.ifName o.ver)) := by
  induction evs generalizing st o e with
  | nil => exact ⟨o, h, rfl, rfl, rfl, fun _ => he⟩
  | cons ev evs ih =>
    rw [List.foldl_cons]
    cases ev with
    | get n v env =>
      refine ih ?_ e he
      simp only [cacheStep, getAddress]
      split
      · exact h
      · simp only [autoStep]
        exact (get_append _ _).mpr (.inl h)
    | updateAll env =>
      have := update_addresses_spec st.objs env i
      rw [h] at this
      by_cases hr : o.registered = true
      · simp only [Option.map_some, hr, if_true] at this
        obtain ⟨p, h1, h2, h3, h4, h5⟩ := ih (st := cacheStep st (.updateAll env)) this env rfl
        exact ⟨p, h1, h2, h3, by rw [h4, hr], fun _ => h5 rfl⟩
      · simp only [Option.map_some, hr] at this
        obtain ⟨p, h1, h2, h3, h4, _⟩ := ih (st := cacheStep st (.updateAll env)) this e he
        exact ⟨p, h1, h2, h3, h4, fun x => absurd x hr⟩

/-- there are no other objects for IPv4 on vlan2 before one is asked for -/
theorem only_first (e1 e2 : Interfaces) (before : List CacheEvent)
    (hb : ∀ env, CacheEvent.get "vlan2" .v4 env ∉ before) :
    dictGet (before.foldl cacheStep (loaded e1 e2)).cache ("vlan2", .v4) = none := by
  suffices ∀ st : AutoCache, dictGet st.cache ("vlan2", .v4) = none →
      dictGet (before.foldl cacheStep st).cache ("vlan2", .v4) = none from this _ rfl
  induction before with
  | nil => intro st h; exact h
  | cons e evs ih =>
    intro st h
    refine ih (fun env hm => hb env (List.mem_cons_of_mem _ hm)) _ ?_
    cases e with
    | get n v env =>
      simp only [cacheStep, getAddress]
      split
      · exact h
      · dsimp only
        rw [dictGet_set, if_neg]
        · exact h
        · intro he
          cases he
          exact hb env List.mem_cons_self
    | updateAll env => exact h

/-- C83: the automatic IPv4 address of vlan2 follows its interface in lispd exactly when the objects made on loading
have an address at the time it is first asked for: the first one, and the second one too if it is registered (that is,
if the first one had an address at once).  Otherwise it keeps for ever the value it found first. -/
theorem loaded_vlan2 (e1 e2 : Interfaces) (before between : List CacheEvent) (env env' : Interfaces)
    (hb : ∀ env, CacheEvent.get "vlan2" .v4 env ∉ before) :
    ∃ o, ((before ++ CacheEvent.get "vlan2" .v4 env :: (between ++ [CacheEvent.updateAll env'])).foldl cacheStep
        (loaded e1 e2)).objs[(getAddress (before.foldl cacheStep (loaded e1 e2)) "vlan2" .v4 env).2]? = some o ∧
      o.ifName = "vlan2" ∧ o.ver = .v4 ∧
      o.ip = if chooseAddress (lastFound e1 before "vlan2" .v4) ≠ 0 ∧
          (chooseAddress (e1 "vlan2" .v4) = 0 ∨ chooseAddress (lastFound e2 before "vlan2" .v4) ≠ 0)
        then chooseAddress (env' "vlan2" .v4) else chooseAddress (env "vlan2" .v4) := by
  have hnone := only_first e1 e2 before hb
  have hok := loadedOk_run before e1 e2
  -- the two objects made on loading
  have i0 : (loaded e1 e2).objs[0]? = some ⟨0, "vlan2", .v4, chooseAddress (e1 "vlan2" .v4), true⟩ := by
    simp [loaded, autoStep, AutoObj.refresh, AutoObj.admitted]
  have i1 : (loaded e1 e2).objs[1]? = some ⟨1, "vlan2", .v4, chooseAddress (e2 "vlan2" .v4),
      decide (chooseAddress (e1 "vlan2" .v4) ≠ 0)⟩ := by
    simp [loaded, autoStep, AutoObj.refresh, AutoObj.admitted]
  obtain ⟨p0, a1, a2, a3, a4, a5⟩ := first_objects before i0 e1 rfl
  obtain ⟨p1, b1, b2, b3, b4, b5⟩ := first_objects before i1 e2 rfl
  have a5 := a5 rfl
  generalize hst : before.foldl cacheStep (loaded e1 e2) = st at *
  obtain ⟨o, ho, hid, hn, hv, hip, hreg⟩ := create_spec st.objs st.objs.length "vlan2" .v4 env
  have hg : getAddress st "vlan2" .v4 env =
      ({ objs := st.objs ++ [o], cache := dictSet st.cache ("vlan2", .v4) st.objs.length }, st.objs.length) := by
    unfold getAddress
    rw [hnone]
    dsimp only
    rw [ho]
  -- when it is registered
  have hreg' : o.registered = true ↔ chooseAddress (lastFound e1 before "vlan2" .v4) ≠ 0 ∧
      (chooseAddress (e1 "vlan2" .v4) = 0 ∨ chooseAddress (lastFound e2 before "vlan2" .v4) ≠ 0) := by
    rw [hreg]
    constructor
    · intro hne
      refine ⟨fun h0 => hne ⟨p0, List.mem_of_getElem? a1, a4, a2, a3, by rw [a5]; exact h0⟩, ?_⟩
      by_cases h1 : chooseAddress (e1 "vlan2" .v4) = 0
      · exact .inl h1
      · refine .inr fun h0 => hne ⟨p1, List.mem_of_getElem? b1, by rw [b4]; simp [h1], b2, b3, ?_⟩
        rw [b5 (by simp [h1])]
        exact h0
    · rintro ⟨h0, h1⟩ ⟨q, hq, hqr, hqn, hqv, hqi⟩
      obtain ⟨i, hi, he⟩ := List.mem_iff_getElem.mp hq
      have hq' : st.objs[i]? = some q := by rw [← he]; exact List.getElem?_eq_getElem hi
      by_cases h2 : 2 ≤ i
      · have := (hok.known "vlan2" .v4 i).mpr ⟨h2, q, hq', hqn, hqv⟩
        rw [hnone] at this; cases this
      · have : i = 0 ∨ i = 1 := by omega
        rcases this with rfl | rfl
        · rw [a1] at hq'; cases hq'
          exact h0 (by rw [← hqi, a5])
        · rw [b1] at hq'; cases hq'
          rw [b4] at hqr
          have h1' : chooseAddress (e1 "vlan2" .v4) ≠ 0 := by simpa using hqr
          refine h1.resolve_left h1' ?_
          rw [← hqi, b5 (by simp [h1'])]
  rw [List.foldl_append, List.foldl_cons, List.foldl_append, hst]
  have hget : (getAddress st "vlan2" .v4 env).1.objs[st.objs.length]? = some o := by
    rw [hg]
    exact (get_append _ _).mpr (.inr ⟨rfl, rfl⟩)
  obtain ⟨p, hp, h1, h2, h3, h4⟩ := kept between (st := (getAddress st "vlan2" .v4 env).1) hget
  have hu := update_addresses_spec (between.foldl cacheStep (getAddress st "vlan2" .v4 env).1).objs env' st.objs.length
  rw [hp] at hu
  have hi : (getAddress st "vlan2" .v4 env).2 = st.objs.length := by rw [hg]
  rw [hi]
  refine ⟨_, hu, ?_, ?_, ?_⟩
  · dsimp only
    split <;> rw [← hn, ← h1]
  · dsimp only
    split <;> rw [← hv, ← h2]
  · by_cases hr : o.registered = true
    · rw [if_pos (hreg'.mp hr)]
      simp only [h3, hr, if_true]
      rw [h1, h2, hn, hv]
    · rw [if_neg (fun h => hr (hreg'.mpr h))]
      have : p.registered = true ↔ False := by rw [h3]; simp [hr]
      simp only [this, if_false]
      rw [h4 (by simpa using hr), hip]

/-- C83: so with the shipped configuration, which listens on vlan2, lispd never gets an IPv4 address to listen on when
vlan2 had none at loading and when the configuration was read, whatever vlan2 gets later. -/
theorem shipped_never_listens (e1 e2 env env' : Interfaces) (between : List CacheEvent)
    (h1 : chooseAddress (e1 "vlan2" .v4) = 0) (h2 : chooseAddress (env "vlan2" .v4) = 0) :
    ∃ o, ((CacheEvent.get "vlan2" .v4 env :: (between ++ [CacheEvent.updateAll env'])).foldl cacheStep
        (loaded e1 e2)).objs[(getAddress (loaded e1 e2) "vlan2" .v4 env).2]? = some o ∧
      o.ifName = "vlan2" ∧ o.ver = .v4 ∧ o.ip = 0 := by
  obtain ⟨o, a, b, c, d⟩ := loaded_vlan2 e1 e2 [] between env env' (by simp)
  refine ⟨o, a, b, c, ?_⟩
  rw [d, if_neg (by simp [lastFound, h1]), h2]

/-! Non-vacuity: vlan2 gets an address after lispd was started.  IPv6 follows, IPv4 does not; when vlan2 has an address
from the start both follow. -/

def vlanAddress (v : Nat) (h : v < 2 ^ 32) : Interfaces :=
  fun n f => if n = "vlan2" ∧ f = .v4 then some [some ⟨.v4, v, h⟩] else none

example : (([.get "vlan2" .v4 noAddresses, .get "vlan2" .v6 noAddresses,
    .updateAll (vlanAddress 0xc0000201 (by decide))] : List CacheEvent).foldl cacheStep
      (loaded noAddresses noAddresses)).objs =
    [⟨0, "vlan2", .v4, 0xc0000201, true⟩, ⟨1, "vlan2", .v4, 0, false⟩, ⟨2, "vlan2", .v4, 0, false⟩,
      ⟨3, "vlan2", .v6, 0, true⟩] := by decide +kernel

example : (([.get "vlan2" .v4 (vlanAddress 0xc0000201 (by decide)),
    .updateAll (vlanAddress 0xc0000202 (by decide))] : List CacheEvent).foldl cacheStep
      (loaded (vlanAddress 0xc0000201 (by decide)) (vlanAddress 0xc0000201 (by decide)))).objs =
    [⟨0, "vlan2", .v4, 0xc0000202, true⟩, ⟨1, "vlan2", .v4, 0xc0000202, true⟩,
      ⟨2, "vlan2", .v4, 0xc0000202, true⟩] := by decide +kernel

end PyLisp.Props
