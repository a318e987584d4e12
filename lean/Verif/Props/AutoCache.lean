import Verif.AutoCache
import Verif.Props.NetIO
/-
Property C74: automatic addresses got from the cache are shared, and all follow their interfaces.
-/
namespace PyLisp.Props
open PyLisp

/-- invariant: identities are positions, the cache knows exactly the objects there are, and all are
registered for updates -/
structure CacheOk (st : AutoCache) : Prop where
  ids : ∀ (i : Nat) (o : AutoObj), st.objs[i]? = some o → o.id = i
  known : ∀ (n : String) (v : Ver) (i : Nat), dictGet st.cache (n, v) = some i ↔
    ∃ o, st.objs[i]? = some o ∧ o.ifName = n ∧ o.ver = v
  registered : ∀ o ∈ st.objs, o.registered = true

theorem cacheOk_init : CacheOk {} := ⟨by simp, by simp [dictGet], by simp⟩

theorem cacheOk_get {st : AutoCache} (h : CacheOk st) (n : String) (v : Ver) (env : Interfaces) :
    CacheOk (getAddress st n v env).1 := by
  unfold getAddress
  split
  · exact h
  · rename_i hnone
    obtain ⟨o, ho, hid, hn, hv, hip, hreg⟩ := create_spec st.objs st.objs.length n v env
    have hreg : o.registered = true := by
      rw [hreg]
      rintro ⟨p, hp, _, hpn, hpv, _⟩
      obtain ⟨i, hi, he⟩ := List.mem_iff_getElem.mp hp
      have := (h.known n v i).mpr ⟨p, by rw [← he]; exact List.getElem?_eq_getElem hi, hpn, hpv⟩
      rw [hnone] at this; cases this
    dsimp only
    rw [ho]
    have hget : ∀ i p, (st.objs ++ [o])[i]? = some p ↔ st.objs[i]? = some p ∨ (i = st.objs.length ∧ p = o) := by
      intro i p
      by_cases hi : i < st.objs.length
      · rw [List.getElem?_append_left hi]
        exact ⟨.inl, fun h => h.resolve_right (by omega)⟩
      · have hnone : st.objs[i]? = none := List.getElem?_eq_none (by omega)
        rw [List.getElem?_append_right (by omega), hnone]
        by_cases he : i = st.objs.length
        · subst he; simp [eq_comm]
        · rw [List.getElem?_eq_none (by simp; omega)]
          simp [he]
    refine ⟨?_, ?_, ?_⟩
    · intro i p hp
      rcases (hget i p).mp hp with hp | ⟨rfl, rfl⟩
      · exact h.ids i p hp
      · exact hid
    · intro n' v' i
      dsimp only
      rw [dictGet_set]
      by_cases hk : (n', v') = (n, v)
      · cases hk
        rw [if_pos rfl]
        constructor
        · intro he; cases he
          exact ⟨o, (hget _ _).mpr (.inr ⟨rfl, rfl⟩), hn, hv⟩
        · rintro ⟨p, hp, hpn, hpv⟩
          rcases (hget i p).mp hp with hp | ⟨rfl, rfl⟩
          · have := (h.known n v i).mpr ⟨p, hp, hpn, hpv⟩
            rw [hnone] at this; cases this
          · rfl
      · rw [if_neg hk, h.known]
        constructor
        · rintro ⟨p, hp, hpn, hpv⟩
          exact ⟨p, (hget _ _).mpr (.inl hp), hpn, hpv⟩
        · rintro ⟨p, hp, hpn, hpv⟩
          rcases (hget i p).mp hp with hp | ⟨rfl, rfl⟩
          · exact ⟨p, hp, hpn, hpv⟩
          · exact absurd (by rw [← hpn, ← hpv, hn, hv]) hk
    · intro p hp
      rcases List.mem_append.mp hp with hp | hp
      · exact h.registered p hp
      · rw [List.mem_singleton.mp hp]; exact hreg

theorem cacheOk_update {st : AutoCache} (h : CacheOk st) (env : Interfaces) :
    CacheOk (cacheStep st (.updateAll env)) := by
  have hget := update_addresses_spec st.objs env
  refine ⟨?_, ?_, ?_⟩
  · intro i o ho
    simp only [cacheStep] at ho
    rw [hget] at ho
    obtain ⟨p, hp, rfl⟩ := Option.map_eq_some_iff.mp ho
    have := h.ids i p hp
    split <;> exact this
  · intro n v i
    simp only [cacheStep, h.known]
    constructor
    · rintro ⟨p, hp, hpn, hpv⟩
      refine ⟨_, by rw [hget, hp]; rfl, ?_, ?_⟩
      · dsimp only
        split <;> exact hpn
      · dsimp only
        split <;> exact hpv
    · rintro ⟨o, ho, hon, hov⟩
      rw [hget] at ho
      obtain ⟨p, hp, rfl⟩ := Option.map_eq_some_iff.mp ho
      refine ⟨p, hp, ?_, ?_⟩
      · split at hon <;> exact hon
      · split at hov <;> exact hov
  · intro o ho
    obtain ⟨i, hi, he⟩ := List.mem_iff_getElem.mp ho
    have ho' : (autoStep st.objs (.updateAll env))[i]? = some o := by
      rw [← he]; exact List.getElem?_eq_getElem hi
    rw [hget] at ho'
    obtain ⟨p, hp, rfl⟩ := Option.map_eq_some_iff.mp ho'
    have := h.registered p (List.mem_of_getElem? hp)
    rw [if_pos this]; exact this

theorem cacheOk_run (evs : List CacheEvent) : CacheOk (evs.foldl cacheStep {}) := by
  suffices ∀ st, CacheOk st → CacheOk (evs.foldl cacheStep st) from this _ cacheOk_init
  induction evs with
  | nil => intro st h; exact h
  | cons e evs ih =>
    intro st h
    refine ih _ ?_
    cases e with
    | get n v env => exact cacheOk_get h n v env
    | updateAll env => exact cacheOk_update h env

theorem got_known {st : AutoCache} (n : String) (v : Ver) (env : Interfaces) :
    dictGet (getAddress st n v env).1.cache (n, v) = some (getAddress st n v env).2 := by
  unfold getAddress
  split
  · rename_i h; exact h
  · simp [dictGet_set]

theorem known_stays {st : AutoCache} {n : String} {v : Ver} {i : Nat}
    (h : dictGet st.cache (n, v) = some i) (evs : List CacheEvent) :
    dictGet (evs.foldl cacheStep st).cache (n, v) = some i := by
  induction evs generalizing st with
  | nil => exact h
  | cons e evs ih =>
    refine ih ?_
    cases e with
    | get n' v' env =>
      simp only [cacheStep, getAddress]
      split
      · exact h
      · rename_i hnone
        dsimp only
        rw [dictGet_set, if_neg ?_]
        · exact h
        · intro he; rw [← he, h] at hnone; cases hnone
    | updateAll env => exact h

/-- C74: asking for the automatic address of an interface and family again gives the same object, whatever
happened in between, -/
theorem same_address_again (before between : List CacheEvent) (n : String) (v : Ver)
    (env env' : Interfaces) :
    (getAddress ((before ++ CacheEvent.get n v env :: between).foldl cacheStep {}) n v env').2 =
      (getAddress (before.foldl cacheStep {}) n v env).2 := by
  rw [List.foldl_append, List.foldl_cons]
  have := known_stays (got_known (st := before.foldl cacheStep {}) n v env) between
  generalize hst : between.foldl cacheStep (cacheStep (before.foldl cacheStep {}) (.get n v env)) = st
  have hst' : dictGet st.cache (n, v) = some (getAddress (before.foldl cacheStep {}) n v env).2 := by
    rw [← hst]; exact this
  unfold getAddress at hst' ⊢
  rw [hst']

/-- C74: and for another interface or family a different object. -/
theorem other_address_differs (before between : List CacheEvent) (n n' : String) (v v' : Ver)
    (env env' : Interfaces) (h : (n, v) ≠ (n', v')) :
    (getAddress ((before ++ CacheEvent.get n v env :: between).foldl cacheStep {}) n' v' env').2 ≠
      (getAddress (before.foldl cacheStep {}) n v env).2 := by
  intro he
  have h1 := known_stays (got_known (st := before.foldl cacheStep {}) n v env)
    (between ++ [.get n' v' env'])
  have hst : between.foldl cacheStep (cacheStep (before.foldl cacheStep {}) (.get n v env)) =
      (before ++ CacheEvent.get n v env :: between).foldl cacheStep {} := by rw [List.foldl_append, List.foldl_cons]
  have h1 : dictGet (getAddress ((before ++ CacheEvent.get n v env :: between).foldl cacheStep {}) n' v' env').1.cache
      (n, v) = some (getAddress (before.foldl cacheStep {}) n v env).2 := by
    rw [← hst]
    rw [List.foldl_append] at h1
    exact h1
  have h2 := got_known (st := (before ++ CacheEvent.get n v env :: between).foldl cacheStep {}) n' v' env'
  have hok := cacheOk_get (cacheOk_run (before ++ CacheEvent.get n v env :: between)) n' v' env'
  rw [he] at h2
  obtain ⟨o, ho, hn, hv⟩ := (hok.known _ _ _).mp h1
  obtain ⟨o', ho', hn', hv'⟩ := (hok.known _ _ _).mp h2
  rw [ho] at ho'; cases ho'
  exact h (by rw [← hn, ← hv, ← hn', ← hv'])

/-- C74: the object got for an interface and family is one of that interface and family, and after every
later `update_addresses` it has the value picked from what the interface has then.  (So the defect of C61
never shows in a program that gets its automatic addresses from these functions.) -/
theorem cached_follows (before between : List CacheEvent) (n : String) (v : Ver) (env env' : Interfaces) :
    ∃ o, ((before ++ CacheEvent.get n v env :: (between ++ [CacheEvent.updateAll env'])).foldl cacheStep {}).objs[
        (getAddress (before.foldl cacheStep {}) n v env).2]? = some o ∧
      o.ifName = n ∧ o.ver = v ∧ o.ip = chooseAddress (env' n v) := by
  have e : (before ++ CacheEvent.get n v env :: (between ++ [CacheEvent.updateAll env'])).foldl cacheStep {} =
      cacheStep ((before ++ CacheEvent.get n v env :: between).foldl cacheStep {}) (.updateAll env') := by
    rw [List.foldl_append, List.foldl_cons, List.foldl_append, List.foldl_append, List.foldl_cons]; rfl
  have hok := cacheOk_run (before ++ CacheEvent.get n v env :: between)
  have hst : between.foldl cacheStep (cacheStep (before.foldl cacheStep {}) (.get n v env)) =
      (before ++ CacheEvent.get n v env :: between).foldl cacheStep {} := by rw [List.foldl_append, List.foldl_cons]
  have h1 := known_stays (got_known (st := before.foldl cacheStep {}) n v env) between
  have h1 : dictGet ((before ++ CacheEvent.get n v env :: between).foldl cacheStep {}).cache (n, v) =
      some (getAddress (before.foldl cacheStep {}) n v env).2 := by rw [← hst]; exact h1
  obtain ⟨o, ho, hn, hv⟩ := (hok.known _ _ _).mp h1
  have hr := hok.registered o (List.mem_of_getElem? ho)
  refine ⟨{ o with ip := chooseAddress (env' o.ifName o.ver) }, ?_, hn, hv, by dsimp only; rw [hn, hv]⟩
  rw [e]
  simp only [cacheStep]
  rw [update_addresses_spec, ho]
  simp [hr]

/-- C74: no two objects are made for the same interface and family. -/
theorem one_object_each (evs : List CacheEvent) (i j : Nat) (o p : AutoObj)
    (hi : (evs.foldl cacheStep {}).objs[i]? = some o) (hj : (evs.foldl cacheStep {}).objs[j]? = some p)
    (hn : o.ifName = p.ifName) (hv : o.ver = p.ver) : i = j := by
  have hok := cacheOk_run evs
  have h1 := (hok.known o.ifName o.ver i).mpr ⟨o, hi, rfl, rfl⟩
  have h2 := (hok.known o.ifName o.ver j).mpr ⟨p, hj, hn.symm, hv.symm⟩
  rw [h1] at h2; cases h2; rfl

/-! Non-vacuity: an interface that has no address yet when it is asked for twice (here the defect of C61
would show with objects made directly), and later gets one. -/

def noAddresses : Interfaces := fun _ _ => none
def someAddress : Interfaces := fun n v => if n = "eth0" ∧ v = .v4 then some [some (.v4 0xc0000201)] else none
example : (([.get "eth0" .v4 noAddresses, .get "eth0" .v6 noAddresses, .get "eth0" .v4 noAddresses,
    .updateAll someAddress] : List CacheEvent).foldl cacheStep {}).objs =
    [⟨0, "eth0", .v4, 0xc0000201, true⟩, ⟨1, "eth0", .v6, 0, true⟩] := by decide +kernel

end PyLisp.Props
