import Verif.Objects
import Verif.Props.Auth
import Verif.Props.Accepted
/-
Property C78: `sanitize` and `to_bytes` change objects, but never what messages say.
-/
namespace PyLisp.Props
open PyLisp

attribute [local irreducible] natToBits

/-! ### Specification: messages as values -/

/-- `sanitize` of a message value -/
def ctrlSanitize : Ctrl → Except Err Ctrl
  | .request m => m.sanitize.map .request
  | .reply m => m.sanitize.map .reply
  | .register m => m.sanitize.map .register
  | .notify m => m.sanitize.map .notify
  | .referral m => m.sanitize.map .referral
  | .info m => m.sanitize.map .info

/-- its authentication data -/
def ctrlAuth : Ctrl → Bytes
  | .register m => m.authData
  | .notify m => m.authData
  | .info m => m.authData
  | _ => []

/-- the message with other authentication data -/
def withAuth (a : Bytes) : Ctrl → Ctrl
  | .register m => .register { m with authData := a }
  | .notify m => .notify { m with authData := a }
  | .info m => .info { m with authData := a }
  | v => v

/-- the length of the authentication data by key id -/
def digestSize : Ctrl → Option Nat
  | .register m => if m.keyId = 1 then some 20 else if m.keyId = 2 then some 32 else none
  | .notify m => if m.keyId = 1 then some 20 else if m.keyId = 2 then some 32 else none
  | .info m => if m.keyId = 1 then some 20 else if m.keyId = 2 then some 32 else none
  | _ => none

/-- the right authentication data for a key -/
def ctrlMac (H : Mac) (key : Bytes) : Ctrl → Except Err Bytes
  | .register m => m.calculate H key
  | .notify m => m.calculate H key
  | .info m => m.calculate H key
  | _ => .error .attr

/-- what a call answers if the message is `v` -/
def answer (H : Mac) (v : Ctrl) : Call → Except Err Returned
  | .sanitize _ => (ctrlSanitize v).map fun _ => .nothing
  | .toBytes _ => v.toBytes.map .bytes
  | .verify _ key => (ctrlMac H key v).map fun a => .bool (ctrlAuth v == a)
  | .insert _ key => (ctrlMac H key v).map fun _ => .nothing

/-- the authentication data after a calculation that ends in an exception: zeros, if the key id is 1 or 2 -/
def spoiled (v : Ctrl) : Bytes :=
  match digestSize v with
  | some n => List.replicate n 0
  | none => ctrlAuth v

/-- the authentication data after a call -/
def authAfter (H : Mac) (v : Ctrl) : Call → Bytes
  | .sanitize _ => ctrlAuth v
  | .toBytes _ => ctrlAuth v
  | .verify _ key =>
    match ctrlMac H key v with
    | .ok _ => ctrlAuth v
    | .error _ => spoiled v
  | .insert _ key =>
    match ctrlMac H key v with
    | .ok a => a
    | .error _ => spoiled v

/-- the message a call is made on -/
def target : Call → Nat
  | .sanitize i => i
  | .toBytes i => i
  | .verify i _ => i
  | .insert i _ => i

/-- a call on messages that are values: only authentication data change -/
def valCall (H : Mac) (v : Nat → Ctrl) (c : Call) : Nat → Ctrl :=
  Heap.put v (target c) (withAuth (authAfter H (v (target c)) c) (v (target c)))

/-- … and a sequence of calls -/
def valCalls (H : Mac) : (Nat → Ctrl) → List Call → (Nat → Ctrl) × List (Except Err Returned)
  | v, [] => (v, [])
  | v, c :: cs => ((valCalls H (valCall H v c) cs).1, answer H (v (target c)) c :: (valCalls H (valCall H v c) cs).2)

/-! ### What `sanitize` may change -/

/-- every locator of the list is sane and has an IP address -/
def SaneList (ls : List Locator) : Prop := ∀ l ∈ ls, l.sanitize = .ok () ∧ ∃ a, l.address = .ip a

/-- `h'` is `h` except that some lists of sane locators have been sorted, some records with locators have got
action 0, and some EIDs of Map-Referral records have been wrapped -/
structure Upto (h h' : Heap) : Prop where
  loc : h'.loc = h.loc
  lst : ∀ l, h'.lst l = h.lst l ∨
    SaneList (h.list l) ∧ h'.lst l = sortBy (fun j => (h.loc j).key) (h.lst l)
  recs : ∀ i, h'.recs i = h.recs i ∨
    h.lst (h.recs i).locs ≠ [] ∧ h'.recs i = { h.recs i with action := 0 }
  refs : ∀ i, h'.refs i = h.refs i ∨ ∃ e, wrapEid (h.refs i).eid = .ok e ∧ h'.refs i = { h.refs i with eid := e }

theorem insertBy_map {α β : Type} (f : α → β) (key : β → Nat) (a : α) (l : List α) :
    (insertBy (fun x => key (f x)) a l).map f = insertBy key (f a) (l.map f) := by
  induction l with
  | nil => rfl
  | cons b l ih =>
    simp only [insertBy, List.map_cons]
    split
    · rfl
    · rw [List.map_cons, ih]

theorem sortBy_map {α β : Type} (f : α → β) (key : β → Nat) (l : List α) :
    (sortBy (fun x => key (f x)) l).map f = sortBy key (l.map f) := by
  induction l with
  | nil => rfl
  | cons a l ih => simp only [sortBy, List.map_cons, insertBy_map, ih]

theorem Upto.refl (h : Heap) : Upto h h := ⟨rfl, fun _ => .inl rfl, fun _ => .inl rfl, fun _ => .inl rfl⟩

theorem Upto.list {h h' : Heap} (u : Upto h h') (l : Nat) : h'.list l = h.list l ∨
    SaneList (h.list l) ∧ h'.list l = sortBy Locator.key (h.list l) := by
  unfold Heap.list
  rcases u.lst l with e | ⟨g, e⟩
  · rw [e, u.loc]; exact .inl rfl
  · rw [e, u.loc]
    exact .inr ⟨g, sortBy_map h.loc Locator.key (h.lst l)⟩

theorem Upto.nil_iff {h h' : Heap} (u : Upto h h') (l : Nat) : h'.lst l = [] ↔ h.lst l = [] := by
  rcases u.lst l with e | ⟨_, e⟩
  · rw [e]
  · rw [e, sortBy_eq_nil]

theorem Upto.locs {h h' : Heap} (u : Upto h h') (i : Nat) : (h'.recs i).locs = (h.recs i).locs := by
  rcases u.recs i with e | ⟨_, e⟩ <;> rw [e]
theorem Upto.rlocs {h h' : Heap} (u : Upto h h') (i : Nat) : (h'.refs i).locs = (h.refs i).locs := by
  rcases u.refs i with e | ⟨_, _, e⟩ <;> rw [e]

theorem saneList_sort {ls : List Locator} : SaneList (sortBy Locator.key ls) ↔ SaneList ls := by
  unfold SaneList
  exact ⟨fun h l hl => h l ((mem_sortBy _ _ _).mpr hl), fun h l hl => h l ((mem_sortBy _ _ _).mp hl)⟩

theorem Upto.trans {h h' h'' : Heap} (u : Upto h h') (w : Upto h' h'') : Upto h h'' := by
  refine ⟨w.loc.trans u.loc, fun l => ?_, fun i => ?_, fun i => ?_⟩
  · rcases w.lst l with e | ⟨g, e⟩
    · rw [e]; exact u.lst l
    · right
      have hs : SaneList (h.list l) := by
        rcases u.list l with e' | ⟨g', e'⟩
        · rwa [e'] at g
        · exact g'
      refine ⟨hs, ?_⟩
      rw [e, u.loc]
      rcases u.lst l with e' | ⟨_, e'⟩
      · rw [e']
      · rw [e', sortBy_idem]
  · rcases w.recs i with e | ⟨g, e⟩
    · rw [e]; exact u.recs i
    · right
      rw [u.locs] at g
      refine ⟨fun hn => g ((u.nil_iff _).mpr hn), ?_⟩
      rw [e]
      rcases u.recs i with e' | ⟨_, e'⟩ <;> rw [e']
  · rcases w.refs i with e | ⟨x, g, e⟩
    · rw [e]; exact u.refs i
    · rcases u.refs i with e' | ⟨y, g', e'⟩
      · rw [e'] at g e; exact .inr ⟨x, g, e⟩
      · rw [e'] at g
        have g : wrapEid y = .ok x := g
        rw [wrapEid_idem g'] at g
        cases g
        exact .inr ⟨x, g', by rw [e, e']⟩

/-! ### `sanitize` does not see what it has changed -/

theorem sanitizeLocators_sane {ls : List Locator} (h : SaneList ls) : sanitizeLocators ls = .ok () :=
  sanitizeLocators_ok.mpr fun l hl => (h l hl).1
theorem sortLocators_sane {ls : List Locator} (h : SaneList ls) :
    sortLocators ls = .ok (sortBy Locator.key ls) :=
  sortLocators_ok.mpr ⟨fun l hl => (h l hl).2, rfl⟩
theorem saneList_fix {ls : List Locator} (h1 : sanitizeLocators ls = .ok ()) (h2 : checkKeys ls = .ok ()) :
    SaneList ls := fun l hl => ⟨sanitizeLocators_ok.mp h1 l hl, checkKeys_ok.mp h2 l hl⟩

theorem record_congr {r r0 : Record} (h1 : r.ttl = r0.ttl) (h2 : r.authoritative = r0.authoritative)
    (h3 : r.mapVersion = r0.mapVersion) (h4 : r.eid = r0.eid) (h5 : r.reserved1 = r0.reserved1)
    (ha : r.action = r0.action ∨ r0.locators ≠ [])
    (hl : r.locators = r0.locators ∨ SaneList r0.locators ∧ r.locators = sortBy Locator.key r0.locators) :
    r.sanitize = r0.sanitize := by
  obtain ⟨t, a, au, mv, e, ls, rs⟩ := r
  obtain ⟨t0, a0, au0, mv0, e0, ls0, rs0⟩ := r0
  simp only at h1 h2 h3 h4 h5 ha hl
  subst h1 h2 h3 h4 h5
  have hact : (if ls ≠ [] then (0 : Int) else a) = (if ls0 ≠ [] then 0 else a0) := by
    have hn : ls = [] ↔ ls0 = [] := by
      rcases hl with rfl | ⟨_, rfl⟩
      · rfl
      · exact sortBy_eq_nil
    by_cases h0 : ls0 = []
    · rw [if_neg (by simp [hn, h0]), if_neg (by simp [h0])]
      exact ha.resolve_right (fun h => h h0)
    · rw [if_pos (by simpa [hn] using h0), if_pos h0]
  unfold Record.sanitize
  simp only [hact]
  rcases hl with rfl | ⟨g, rfl⟩
  · rfl
  · rw [sanitizeLocators_sane g, sortLocators_sane g, sanitizeLocators_sane (saneList_sort.mpr g),
      sortLocators_sane (saneList_sort.mpr g), sortBy_idem]

theorem refLocators_value {ls : List Locator} : sanitizeRefLocators ls = .ok () ∨ sanitizeRefLocators ls = .error .value := by
  cases h : sanitizeRefLocators ls with
  | ok u => exact .inl rfl
  | error e =>
    refine .inr (congrArg _ ?_)
    induction ls with
    | nil => cases h
    | cons l ls ih =>
      unfold sanitizeRefLocators at h
      split at h
      · cases h; rfl
      · cases hs : l.sanitize with
        | ok u => rw [hs] at h; exact ih h
        | error e' =>
          rw [hs] at h
          have h : e' = e := by cases h; rfl
          subst h
          unfold Locator.sanitize checkLocatorAddress at hs
          repeat' split at hs
          all_goals first | (cases hs; rfl) | cases hs

theorem refLocators_sort (ls : List Locator) :
    sanitizeRefLocators (sortBy Locator.key ls) = sanitizeRefLocators ls := by
  have key : sanitizeRefLocators (sortBy Locator.key ls) = .ok () ↔ sanitizeRefLocators ls = .ok () := by
    rw [sanitizeRefLocators_ok, sanitizeRefLocators_ok]
    exact ⟨fun h l hl => h l ((mem_sortBy _ _ _).mpr hl), fun h l hl => h l ((mem_sortBy _ _ _).mp hl)⟩
  rcases refLocators_value (ls := ls) with h | h
  · rw [h, key.mpr h]
  · rcases refLocators_value (ls := sortBy Locator.key ls) with h' | h'
    · rw [key.mp h'] at h; cases h
    · rw [h, h']

theorem refTable_sort (a : Int) (b : Bool) (ls : List Locator) (t : Int) :
    refTable a b (sortBy Locator.key ls) t = refTable a b ls t := by
  unfold refTable
  simp only [ne_eq, sortBy_eq_nil]

theorem refRecord_congr {r r0 : RefRecord} (h1 : r.ttl = r0.ttl) (h2 : r.authoritative = r0.authoritative)
    (h3 : r.mapVersion = r0.mapVersion) (h4 : wrapEid r.eid = wrapEid r0.eid) (h5 : r.reserved1 = r0.reserved1)
    (h6 : r.action = r0.action) (h7 : r.incomplete = r0.incomplete) (h8 : r.sigs = r0.sigs)
    (hl : r.locators = r0.locators ∨ SaneList r0.locators ∧ r.locators = sortBy Locator.key r0.locators) :
    r.sanitize = r0.sanitize := by
  obtain ⟨t, a, au, ic, mv, e, ls, sg, rs⟩ := r
  obtain ⟨t0, a0, au0, ic0, mv0, e0, ls0, sg0, rs0⟩ := r0
  simp only at h1 h2 h3 h4 h5 h6 h7 h8 hl
  subst h1 h2 h3 h5 h6 h7 h8
  unfold RefRecord.sanitize
  simp only [h4]
  rcases hl with rfl | ⟨g, rfl⟩
  · rfl
  · rw [refTable_sort, refLocators_sort, sortLocators_sane g, sortLocators_sane (saneList_sort.mpr g), sortBy_idem]

theorem Upto.record {h h' : Heap} (u : Upto h h') (i : Nat) :
    (h'.record i).sanitize = (h.record i).sanitize := by
  have hl : h'.list (h'.recs i).locs = h.list (h.recs i).locs ∨ SaneList (h.list (h.recs i).locs) ∧
      h'.list (h'.recs i).locs = sortBy Locator.key (h.list (h.recs i).locs) := by
    rw [u.locs]; exact u.list _
  refine record_congr ?_ ?_ ?_ ?_ ?_ ?_ hl
  all_goals try (rcases u.recs i with e | ⟨_, e⟩ <;> simp only [Heap.record, e]; done)
  rcases u.recs i with e | ⟨g, e⟩
  · exact .inl (by simp only [Heap.record, e])
  · exact .inr (by simpa [Heap.record, Heap.list] using g)

theorem Upto.refRecord {h h' : Heap} (u : Upto h h') (i : Nat) :
    (h'.refRecord i).sanitize = (h.refRecord i).sanitize := by
  have hl : h'.list (h'.refs i).locs = h.list (h.refs i).locs ∨ SaneList (h.list (h.refs i).locs) ∧
      h'.list (h'.refs i).locs = sortBy Locator.key (h.list (h.refs i).locs) := by
    rw [u.rlocs]; exact u.list _
  refine refRecord_congr ?_ ?_ ?_ ?_ ?_ ?_ ?_ ?_ hl
  all_goals try (rcases u.refs i with e | ⟨_, _, e⟩ <;> simp only [Heap.refRecord, e]; done)
  rcases u.refs i with e | ⟨x, g, e⟩
  · simp only [Heap.refRecord, e]
  · simp only [Heap.refRecord, e]
    rw [g]; exact wrapEid_idem g

/-! ### What each step does -/

theorem put_same {α : Type} (f : Nat → α) (i : Nat) (a : α) : Heap.put f i a i = a := by simp [Heap.put]
theorem put_other {α : Type} (f : Nat → α) {i j : Nat} (h : j ≠ i) (a : α) : Heap.put f i a j = f j := by
  simp [Heap.put, h]

theorem sortList_ok {h : Heap} {l : Nat} (hc : SaneList (h.list l)) :
    ∃ h', h.sortList l = (h', .ok ()) ∧ Upto h h' ∧ h'.msg = h.msg ∧
      h'.list l = sortBy Locator.key (h.list l) ∧ h'.recs = h.recs ∧ h'.refs = h.refs := by
  have hk : checkKeys (h.list l) = .ok () := checkKeys_ok.mpr fun x hx => (hc x hx).2
  refine ⟨{ h with lst := Heap.put h.lst l (sortBy (fun j => (h.loc j).key) (h.lst l)) }, ?_, ⟨rfl, fun k => ?_,
    fun _ => .inl rfl, fun _ => .inl rfl⟩, rfl, ?_, rfl, rfl⟩
  · unfold Heap.sortList; rw [hk]
  · by_cases e : k = l
    · subst e; exact .inr ⟨hc, put_same _ _ _⟩
    · exact .inl (put_other _ e _)
  · unfold Heap.list
    simp only [put_same]
    exact sortBy_map h.loc Locator.key (h.lst l)

theorem sortList_err {h : Heap} {l : Nat} {e : Err} (hk : checkKeys (h.list l) = .error e) :
    h.sortList l = (h, .error e) := by unfold Heap.sortList; rw [hk]

/-- the result of a step that sanitises a record, in terms of what the record contains -/
def Result {α : Type} (h : Heap) (x : Except Err α) (get : Heap → α) (r : Heap × Except Err Unit) : Prop :=
  Upto h r.1 ∧ r.1.msg = h.msg ∧ r.2 = x.map (fun _ => ()) ∧ ∀ v, x = .ok v → get r.1 = v

theorem clearAction_upto (h : Heap) (i : Nat) : Upto h (h.clearAction i) := by
  unfold Heap.clearAction
  split
  · rename_i hn
    refine ⟨rfl, fun _ => .inl rfl, fun j => ?_, fun _ => .inl rfl⟩
    by_cases e : j = i
    · subst e; exact .inr ⟨hn, put_same _ _ _⟩
    · exact .inl (put_other _ e _)
  · exact .refl h

theorem clearAction_msg (h : Heap) (i : Nat) : (h.clearAction i).msg = h.msg := by
  unfold Heap.clearAction; split <;> rfl

/-- after the first part the action is what `sanitize` wants -/
theorem clearAction_record (h : Heap) (i : Nat) :
    (h.clearAction i).record i = { h.record i with action := if (h.record i).locators ≠ [] then 0 else (h.record i).action } := by
  unfold Heap.clearAction
  by_cases hn : h.lst (h.recs i).locs = []
  · rw [if_neg (by simpa using hn), if_neg (by simp [Heap.record, Heap.list, hn])]
  · rw [if_pos hn, if_pos (by simpa [Heap.record, Heap.list] using hn)]
    simp only [Heap.record, Heap.list, put_same]

/-- the checks of `sanitize` when the action has been dealt with -/
theorem checkRec_result (h : Heap) (i : Nat) (ht : ¬ ((h.recs i).ttl < 0 ∨ (h.recs i).ttl > 0xffffffff))
    (ha : (h.record i).locators ≠ [] → (h.record i).action = 0) :
    Result h (h.record i).sanitize (fun h' => h'.record i) (h.checkRec i) := by
  have hact : (if (h.record i).locators ≠ [] then (0 : Int) else (h.record i).action) = (h.recs i).action := by
    split
    · rename_i hn; exact (ha hn).symm
    · rfl
  have ht' : ¬ ((h.record i).ttl < 0 ∨ (h.record i).ttl > 0xffffffff) := ht
  unfold Heap.checkRec Record.sanitize
  rw [if_neg ht']
  simp only [hact]
  by_cases h1 : (h.recs i).action = 0 ∨ (h.recs i).action = 1 ∨ (h.recs i).action = 2 ∨ (h.recs i).action = 3
  · rw [if_neg (not_not_intro h1), if_neg (not_not_intro h1)]
    by_cases h2 : (h.recs i).mapVersion < 0 ∨ (h.recs i).mapVersion ≥ 2 ^ 12
    · rw [if_pos h2, if_pos (show (h.record i).mapVersion < 0 ∨ (h.record i).mapVersion ≥ 2 ^ 12 from h2)]
      exact ⟨.refl h, rfl, rfl, fun v hv => by cases hv⟩
    · rw [if_neg h2, if_neg (show ¬ ((h.record i).mapVersion < 0 ∨ (h.record i).mapVersion ≥ 2 ^ 12) from h2)]
      have he : (h.record i).eid = (h.recs i).eid := rfl
      rw [he]
      cases hE : (h.recs i).eid with
      | net n =>
        dsimp only
        have hL : (h.record i).locators = h.list (h.recs i).locs := rfl
        rw [hL]
        cases hs : sanitizeLocators (h.list (h.recs i).locs) with
        | error e => exact ⟨.refl h, rfl, rfl, fun v hv => by cases hv⟩
        | ok u =>
          dsimp only
          cases hk : checkKeys (h.list (h.recs i).locs) with
          | error e =>
            rw [sortList_err hk]
            refine ⟨.refl h, rfl, ?_, fun v hv => ?_⟩
            · simp only [sortLocators, hk]; rfl
            · simp only [sortLocators, hk] at hv; cases hv
          | ok u' =>
            have hg := saneList_fix hs hk
            obtain ⟨h', e, hu, hm, hl, hr, _⟩ := sortList_ok hg
            rw [e, sortLocators_sane hg]
            refine ⟨hu, hm, rfl, fun v hv => ?_⟩
            have hv := Except.ok.inj hv
            subst hv
            simp only [Heap.record, hr, hl, hE]
      | _ => exact ⟨.refl h, rfl, rfl, fun v hv => by cases hv⟩
  · rw [if_pos h1, if_pos h1]
    exact ⟨.refl h, rfl, rfl, fun v hv => by cases hv⟩

/-- `sanitize` of a record object does to the object what it does to its contents -/
theorem sanitizeRec_result (h : Heap) (i : Nat) :
    Result h (h.record i).sanitize (fun h' => h'.record i) (h.sanitizeRec i) := by
  unfold Heap.sanitizeRec
  by_cases ht : (h.recs i).ttl < 0 ∨ (h.recs i).ttl > 0xffffffff
  · rw [if_pos ht]
    have hr : (h.record i).sanitize = .error .value := by
      unfold Record.sanitize; rw [if_pos (show (h.record i).ttl < 0 ∨ (h.record i).ttl > 0xffffffff from ht)]
    rw [hr]
    exact ⟨.refl h, rfl, rfl, fun v hv => by cases hv⟩
  · rw [if_neg ht]
    have hu := clearAction_upto h i
    have hc := clearAction_record h i
    have htt : ((h.clearAction i).recs i).ttl = (h.recs i).ttl := congrArg Record.ttl hc
    obtain ⟨r1, r2, r3, r4⟩ := checkRec_result (h.clearAction i) i (by rw [htt]; exact ht) (by
      rw [hc]; intro hn; exact if_pos hn)
    refine ⟨hu.trans r1, r2.trans (clearAction_msg h i), ?_, ?_⟩
    · rw [r3, hu.record]
    · intro v hv; exact r4 v (by rw [hu.record]; exact hv)

theorem checkRef_result (h : Heap) (i : Nat)
    (hs : (h.refRecord i).sanitize = (do
      let _ ← sanitizeRefLocators (h.list (h.refs i).locs)
      let ls ← sortLocators (h.list (h.refs i).locs)
      pure { h.refRecord i with locators := ls })) :
    Result h (h.refRecord i).sanitize (fun h' => h'.refRecord i) (h.checkRef i) := by
  rw [hs]
  unfold Heap.checkRef
  cases hl : sanitizeRefLocators (h.list (h.refs i).locs) with
  | error e => exact ⟨.refl h, rfl, rfl, fun v hv => by cases hv⟩
  | ok u =>
    dsimp only
    cases hk : checkKeys (h.list (h.refs i).locs) with
    | error e =>
      rw [sortList_err hk]
      refine ⟨.refl h, rfl, ?_, fun v hv => ?_⟩
      · simp only [sortLocators, hk]; rfl
      · simp only [sortLocators, hk] at hv; cases hv
    | ok u' =>
      have hg : SaneList (h.list (h.refs i).locs) := fun l hm =>
        ⟨(sanitizeRefLocators_ok.mp hl l hm).2, checkKeys_ok.mp hk l hm⟩
      obtain ⟨h', e, hu, hm, hl', _, hr⟩ := sortList_ok hg
      rw [e, sortLocators_sane hg]
      refine ⟨hu, hm, rfl, fun v hv => ?_⟩
      have hv := Except.ok.inj hv
      subst hv
      simp only [Heap.refRecord, hr, hl']

theorem sanitizeRef_result (h : Heap) (i : Nat) :
    Result h (h.refRecord i).sanitize (fun h' => h'.refRecord i) (h.sanitizeRef i) := by
  have hT : (h.refRecord i).ttl = (h.refs i).ttl := rfl
  have hA : (h.refRecord i).action = (h.refs i).action := rfl
  have hM : (h.refRecord i).mapVersion = (h.refs i).mapVersion := rfl
  have hI : (h.refRecord i).incomplete = (h.refs i).incomplete := rfl
  have hE : (h.refRecord i).eid = (h.refs i).eid := rfl
  have hL : (h.refRecord i).locators = h.list (h.refs i).locs := rfl
  have done : ∀ e, (h.refRecord i).sanitize = .error e →
      Result h (h.refRecord i).sanitize (fun h' => h'.refRecord i) (h, .error e) := by
    intro e he; rw [he]; exact ⟨.refl h, rfl, rfl, fun v hv => by cases hv⟩
  unfold Heap.sanitizeRef
  by_cases h1 : (h.refs i).ttl < 0 ∨ (h.refs i).ttl > 0xffffffff
  · rw [if_pos h1]
    refine done _ ?_
    unfold RefRecord.sanitize; rw [hT, if_pos h1]
  rw [if_neg h1]
  by_cases h2 : ¬ ((h.refs i).action = 0 ∨ (h.refs i).action = 1 ∨ (h.refs i).action = 2 ∨ (h.refs i).action = 3 ∨
      (h.refs i).action = 4 ∨ (h.refs i).action = 5)
  · rw [if_pos h2]
    refine done _ ?_
    unfold RefRecord.sanitize; rw [hT, if_neg h1, hA, if_pos h2]
  rw [if_neg h2]
  cases h3 : refTable (h.refs i).action (h.refs i).incomplete (h.list (h.refs i).locs) (h.refs i).ttl with
  | error e =>
    refine done _ ?_
    unfold RefRecord.sanitize; rw [hT, if_neg h1, hA, if_neg h2, hI, hL, h3]; rfl
  | ok u =>
    dsimp only
    by_cases h4 : (h.refs i).mapVersion < 0 ∨ (h.refs i).mapVersion ≥ 2 ^ 12
    · rw [if_pos h4]
      refine done _ ?_
      unfold RefRecord.sanitize; rw [hT, if_neg h1, hA, if_neg h2, hI, hL, h3, hM]
      exact if_pos h4
    rw [if_neg h4]
    cases h5 : wrapEid (h.refs i).eid with
    | error e =>
      refine done _ ?_
      unfold RefRecord.sanitize; rw [hT, if_neg h1, hA, if_neg h2, hI, hL, h3, hM]
      refine (if_neg h4).trans ?_
      rw [hE, h5]; rfl
    | ok x =>
      dsimp only
      have hu : Upto h { h with refs := Heap.put h.refs i { h.refs i with eid := x } } := by
        refine ⟨rfl, fun _ => .inl rfl, fun _ => .inl rfl, fun j => ?_⟩
        by_cases e : j = i
        · subst e; exact .inr ⟨x, h5, put_same _ _ _⟩
        · exact .inl (put_other _ e _)
      have hi : (Heap.put h.refs i { h.refs i with eid := x }) i = { h.refs i with eid := x } := put_same _ _ _
      obtain ⟨r1, r2, r3, r4⟩ := checkRef_result { h with refs := Heap.put h.refs i { h.refs i with eid := x } } i (by
        have hv : ({ h with refs := Heap.put h.refs i { h.refs i with eid := x } } : Heap).refRecord i =
            { h.refRecord i with eid := x } := by simp only [Heap.refRecord, hi, Heap.list]
        rw [hv]
        simp only [hi]
        unfold RefRecord.sanitize
        dsimp only
        rw [hT, if_neg h1, hA, if_neg h2, hI, hL, h3, hM]
        refine (if_neg h4).trans ?_
        rw [wrapEid_idem h5]
        rfl)
      refine ⟨hu.trans r1, r2, ?_, ?_⟩
      · rw [r3, hu.refRecord]
      · intro v hv; exact r4 v (by rw [hu.refRecord]; exact hv)

/-- a step that sanitises one record of a kind -/
structure Steps {α : Type} (f : Heap → Nat → Heap × Except Err Unit) (san : α → Except Err α)
    (get : Heap → Nat → α) : Prop where
  step : ∀ h i, Result h (san (get h i)) (fun h' => get h' i) (f h i)
  same : ∀ h h' i, Upto h h' → san (get h' i) = san (get h i)
  keep : ∀ h h' i, Upto h h' → san (get h i) = .ok (get h i) → get h' i = get h i
  idem : ∀ a a', san a = .ok a' → san a' = .ok a'

theorem each_result {α : Type} {f : Heap → Nat → Heap × Except Err Unit} {san : α → Except Err α}
    {get : Heap → Nat → α} (S : Steps f san get) (is : List Nat) : ∀ h : Heap,
    Result h (sanitizeAll san (is.map (get h))) (fun h' => is.map (get h')) (h.each f is) := by
  induction is with
  | nil => intro h; exact ⟨.refl h, rfl, rfl, fun v hv => by cases hv; rfl⟩
  | cons i is ih =>
    intro h
    obtain ⟨u, hm, hr, hv⟩ := S.step h i
    unfold Heap.each
    cases hf : f h i with
    | mk h1 res =>
      rw [hf] at u hm hr hv
      dsimp only at u hm hr hv
      cases hs : san (get h i) with
      | error e =>
        rw [hs] at hr
        subst hr
        simp only [List.map_cons, sanitizeAll, hs]
        exact ⟨u, hm, rfl, fun v hv => by cases hv⟩
      | ok a =>
        have ha := hv a hs
        rw [hs] at hr
        subst hr
        obtain ⟨u', hm', hr', hv'⟩ := ih h1
        have hmap : sanitizeAll san (is.map (get h1)) = sanitizeAll san (is.map (get h)) := by
          clear ih hr' hv' u' hm'
          induction is with
          | nil => rfl
          | cons j is ih => simp only [List.map_cons, sanitizeAll, S.same h h1 j u, ih]
        rw [hmap] at hr' hv'
        refine ⟨u.trans u', hm'.trans hm, ?_, fun v hv0 => ?_⟩
        · simp only [List.map_cons, sanitizeAll, hs]
          show (h1.each f is).2 = _
          rw [hr']
          cases sanitizeAll san (is.map (get h)) <;> rfl
        · simp only [List.map_cons, sanitizeAll, hs] at hv0
          cases hl : sanitizeAll san (is.map (get h)) with
          | error e => rw [hl] at hv0; cases hv0
          | ok l =>
            rw [hl] at hv0
            have hv0 := Except.ok.inj hv0
            subst hv0
            show get (h1.each f is).1 i :: is.map (get (h1.each f is).1) = a :: l
            rw [show is.map (get (h1.each f is).1) = l from hv' l hl, ← ha]
            refine congrArg (· :: l) (S.keep h1 _ i u' ?_)
            rw [ha]; exact S.idem _ _ hs

theorem record_keep {h h' : Heap} {i : Nat} (u : Upto h h') (hf : (h.record i).sanitize = .ok (h.record i)) :
    h'.record i = h.record i := by
  obtain ⟨_, _, _, _, _, he⟩ := Record.sanitize_ok.mp hf
  have hl := congrArg Record.locators he
  have ha := congrArg Record.action he
  dsimp only at hl ha
  have h1 : h'.list (h'.recs i).locs = h.list (h.recs i).locs := by
    rw [u.locs]
    rcases u.list (h.recs i).locs with e | ⟨_, e⟩
    · exact e
    · exact e.trans hl.symm
  have h2 : h'.recs i = h.recs i := by
    rcases u.recs i with e | ⟨g, e⟩
    · exact e
    · rw [e]
      have : (h.recs i).action = 0 := ha.trans (if_pos (by simpa [Heap.record, Heap.list] using g))
      rw [← this]
  simp only [Heap.record, h2]
  rw [h2] at h1
  rw [h1]

theorem refRecord_keep {h h' : Heap} {i : Nat} (u : Upto h h') (hf : (h.refRecord i).sanitize = .ok (h.refRecord i)) :
    h'.refRecord i = h.refRecord i := by
  obtain ⟨_, _, _, _, _, x, hx, he⟩ := RefRecord.sanitize_ok.mp hf
  have hl := congrArg RefRecord.locators he
  have hE := congrArg RefRecord.eid he
  dsimp only at hl hE
  have h1 : h'.list (h'.refs i).locs = h.list (h.refs i).locs := by
    rw [u.rlocs]
    rcases u.list (h.refs i).locs with e | ⟨_, e⟩
    · exact e
    · exact e.trans hl.symm
  have h2 : h'.refs i = h.refs i := by
    rcases u.refs i with e | ⟨y, g, e⟩
    · exact e
    · rw [e]
      have hxy : y = (h.refs i).eid := by
        have hx : wrapEid (h.refs i).eid = .ok x := hx
        rw [g] at hx
        cases hx
        exact hE.symm
      rw [hxy]
  simp only [Heap.refRecord, h2]
  rw [h2] at h1
  rw [h1]

theorem recSteps : Steps Heap.sanitizeRec Record.sanitize Heap.record :=
  ⟨sanitizeRec_result, fun _ _ i u => u.record i, fun _ _ _ u h => record_keep u h, fun _ _ h => Record.sanitize_idem h⟩
theorem refSteps : Steps Heap.sanitizeRef RefRecord.sanitize Heap.refRecord :=
  ⟨sanitizeRef_result, fun _ _ i u => u.refRecord i, fun _ _ _ u h => refRecord_keep u h,
    fun _ _ h => RefRecord.sanitize_idem h⟩

/-! ### Messages -/

theorem after_result {α β : Type} {h : Heap} {x : Except Err β} {y : Except Err α} {g : Heap → α}
    {k : Heap × Except Err Unit} (val : α → Ctrl) (hk : Result h y g k) :
    Result h (x >>= fun _ => y.map val) (fun h' => val (g h')) (h.after x k) := by
  cases x with
  | error e => exact ⟨.refl h, rfl, rfl, fun v hv => by cases hv⟩
  | ok u =>
    obtain ⟨k1, k2, k3, k4⟩ := hk
    refine ⟨k1, k2, ?_, fun v hv => ?_⟩
    · show k.2 = (y.map val).map _
      rw [k3]; cases y <;> rfl
    · cases y with
      | error e => cases hv
      | ok a =>
        have hv : val a = v := Except.ok.inj hv
        show val (g k.1) = v
        rw [k4 a rfl, hv]

theorem sanitizeMsg_result (h : Heap) (m : MsgObj) :
    Result h (ctrlSanitize (h.value m)) (fun h' => h'.value m) (h.sanitizeMsg m) := by
  cases m with
  | request m r =>
    have key : ctrlSanitize (h.value (.request m r)) = (({ m with mapReply := none } : MapRequest).sanitize >>= fun _ =>
        (sanitizeAll Record.sanitize (r.toList.map h.record)).map
          fun l => .request { m with mapReply := l.head? }) := by
      simp only [Heap.value, ctrlSanitize, MapRequest.sanitize]
      repeat' split
      all_goals try rfl
      cases r with
      | none => rfl
      | some i =>
        simp only [Option.map_some, sanitizeOpt, Option.toList_some, List.map_cons, List.map_nil, sanitizeAll]
        cases (h.record i).sanitize <;> rfl
    rw [key]
    have := after_result (x := ({ m with mapReply := none } : MapRequest).sanitize)
      (fun l => .request { m with mapReply := l.head? }) (each_result recSteps r.toList h)
    unfold Result at this ⊢
    obtain ⟨r1, r2, r3, r4⟩ := this
    refine ⟨r1, r2, r3, fun v hv => ?_⟩
    rw [← r4 v hv]
    cases r <;> rfl
  | reply m rs =>
    have key : ctrlSanitize (h.value (.reply m rs)) = (({ m with records := [] } : MapReply).sanitize >>= fun _ =>
        (sanitizeAll Record.sanitize (rs.map h.record)).map fun l => .reply { m with records := l }) := by
      simp only [Heap.value, ctrlSanitize, MapReply.sanitize]
      repeat' split
      all_goals try rfl
      cases sanitizeAll Record.sanitize (rs.map h.record) <;> rfl
    rw [key]
    exact after_result (fun l => .reply { m with records := l }) (each_result recSteps rs h)
  | register m rs =>
    have key : ctrlSanitize (h.value (.register m rs)) = (({ m with records := [] } : MapRegister).sanitize >>= fun _ =>
        (sanitizeAll Record.sanitize (rs.map h.record)).map fun l => .register { m with records := l }) := by
      simp only [Heap.value, ctrlSanitize, MapRegister.sanitize]
      repeat' split
      all_goals try rfl
      cases sanitizeAll Record.sanitize (rs.map h.record) <;> rfl
    rw [key]
    exact after_result (fun l => .register { m with records := l }) (each_result recSteps rs h)
  | notify m rs =>
    have key : ctrlSanitize (h.value (.notify m rs)) = (({ m with records := [] } : MapNotify).sanitize >>= fun _ =>
        (sanitizeAll Record.sanitize (rs.map h.record)).map fun l => .notify { m with records := l }) := by
      simp only [Heap.value, ctrlSanitize, MapNotify.sanitize]
      repeat' split
      all_goals try rfl
      cases sanitizeAll Record.sanitize (rs.map h.record) <;> rfl
    rw [key]
    exact after_result (fun l => .notify { m with records := l }) (each_result recSteps rs h)
  | referral m rs =>
    have key : ctrlSanitize (h.value (.referral m rs)) = (({ m with records := [] } : MapReferral).sanitize >>= fun _ =>
        (sanitizeAll RefRecord.sanitize (rs.map h.refRecord)).map fun l => .referral { m with records := l }) := by
      simp only [Heap.value, ctrlSanitize, MapReferral.sanitize]
      repeat' split
      all_goals try rfl
      cases sanitizeAll RefRecord.sanitize (rs.map h.refRecord) <;> rfl
    rw [key]
    exact after_result (fun l => .referral { m with records := l }) (each_result refSteps rs h)
  | info m =>
    have key : ctrlSanitize (h.value (.info m)) = (m.sanitize >>= fun _ => (Except.ok ()).map fun _ => .info m) := by
      simp only [Heap.value, ctrlSanitize, Info.sanitize]
      repeat' split
      all_goals rfl
    rw [key]
    exact after_result (y := .ok ()) (g := fun _ => ()) (fun _ => .info m) ⟨.refl h, rfl, rfl, fun v _ => rfl⟩

theorem split_aux {α : Type} (x : Except Err α) (f : α → Except Err Bits) (k : α → Ctrl) (w : Ctrl → Except Err Bytes)
    (hw : ∀ a, w (k a) = toBytes (f a)) : toBytes (x >>= f) = (x.map k >>= w) := by
  cases x with
  | error e => rfl
  | ok a => exact (hw a).symm

/-- `to_bytes` is `sanitize` and then the writes -/
theorem toBytes_split (v : Ctrl) : v.toBytes = (ctrlSanitize v >>= Ctrl.write) := by
  cases v with
  | request m => exact split_aux m.sanitize encMapRequestRaw Ctrl.request Ctrl.write fun _ => rfl
  | reply m => exact split_aux m.sanitize encMapReplyRaw Ctrl.reply Ctrl.write fun _ => rfl
  | register m => exact split_aux m.sanitize encMapRegisterRaw Ctrl.register Ctrl.write fun _ => rfl
  | notify m => exact split_aux m.sanitize encMapNotifyRaw Ctrl.notify Ctrl.write fun _ => rfl
  | referral m => exact split_aux m.sanitize encMapReferralRaw Ctrl.referral Ctrl.write fun _ => rfl
  | info m => exact split_aux m.sanitize encInfoRaw Ctrl.info Ctrl.write fun _ => rfl

theorem toBytes_result (h : Heap) (i : Nat) : Upto h (h.toBytes i).1 ∧ (h.toBytes i).1.msg = h.msg ∧
    (h.toBytes i).2 = (h.value (h.msg i)).toBytes := by
  obtain ⟨r1, r2, r3, r4⟩ := sanitizeMsg_result h (h.msg i)
  rw [toBytes_split]
  unfold Heap.toBytes
  cases hs : h.sanitizeMsg (h.msg i) with
  | mk h1 res =>
    rw [hs] at r1 r2 r3 r4
    dsimp only at r1 r2 r3 r4
    cases hv : ctrlSanitize (h.value (h.msg i)) with
    | error e =>
      rw [hv] at r3
      subst r3
      exact ⟨r1, r2, rfl⟩
    | ok v =>
      rw [hv] at r3
      subst r3
      refine ⟨r1, r2, ?_⟩
      show (h1.value (h1.msg i)).write = v.write
      rw [r2, r4 v hv]

theorem ctrlSanitize_same {h h' : Heap} (u : Upto h h') (m : MsgObj) :
    ctrlSanitize (h'.value m) = ctrlSanitize (h.value m) := by
  have hr : ∀ rs : List Nat, sanitizeAll Record.sanitize (rs.map h'.record) = sanitizeAll Record.sanitize (rs.map h.record) := by
    intro rs
    induction rs with
    | nil => rfl
    | cons j is ih => simp only [List.map_cons, sanitizeAll, u.record, ih]
  have hR : ∀ rs : List Nat,
      sanitizeAll RefRecord.sanitize (rs.map h'.refRecord) = sanitizeAll RefRecord.sanitize (rs.map h.refRecord) := by
    intro rs
    induction rs with
    | nil => rfl
    | cons j is ih => simp only [List.map_cons, sanitizeAll, u.refRecord, ih]
  cases m with
  | request m r =>
    cases r with
    | none => rfl
    | some i => simp only [Heap.value, ctrlSanitize, MapRequest.sanitize, Option.map_some, sanitizeOpt, u.record]
  | reply m rs => simp only [Heap.value, ctrlSanitize, MapReply.sanitize, hr]
  | register m rs => simp only [Heap.value, ctrlSanitize, MapRegister.sanitize, hr]
  | notify m rs => simp only [Heap.value, ctrlSanitize, MapNotify.sanitize, hr]
  | referral m rs => simp only [Heap.value, ctrlSanitize, MapReferral.sanitize, hR]
  | info m => rfl

theorem toBytes_same {h h' : Heap} (u : Upto h h') (m : MsgObj) : (h'.value m).toBytes = (h.value m).toBytes := by
  rw [toBytes_split, toBytes_split, ctrlSanitize_same u]

/-! ### Authentication data -/

theorem value_setAuth (h : Heap) (m : MsgObj) (a : Bytes) : h.value (m.setAuth a) = withAuth a (h.value m) := by
  cases m <;> rfl
theorem auth_value (h : Heap) (m : MsgObj) : ctrlAuth (h.value m) = m.auth := by cases m <;> rfl
theorem setAuth_auth (m : MsgObj) : m.setAuth m.auth = m := by cases m <;> rfl
theorem setAuth_setAuth (m : MsgObj) (a b : Bytes) : (m.setAuth a).setAuth b = m.setAuth b := by cases m <;> rfl
theorem put_id {α : Type} (f : Nat → α) (i : Nat) : Heap.put f i (f i) = f := by
  funext j; unfold Heap.put; split
  · rename_i e; rw [e]
  · rfl
theorem put_put {α : Type} (f : Nat → α) (i : Nat) (a b : α) : Heap.put (Heap.put f i a) i b = Heap.put f i b := by
  funext j; unfold Heap.put; split <;> rfl

theorem upto_setAuth (h : Heap) (i : Nat) (a : Bytes) : Upto h (h.setAuth i a) :=
  ⟨rfl, fun _ => .inl rfl, fun _ => .inl rfl, fun _ => .inl rfl⟩

theorem setAuth_value (h : Heap) (i : Nat) (a : Bytes) (m : MsgObj) : (h.setAuth i a).value m = h.value m := by
  cases m <;> rfl

theorem digest_result (h : Heap) (i n : Nat) (mac : Bytes → Bytes) :
    Upto h (h.digest i n mac).1 ∧
    (h.digest i n mac).2 = (withAuth (List.replicate n 0) (h.value (h.msg i))).toBytes.map mac ∧
    (∀ a, (h.digest i n mac).2 = .ok a → (h.digest i n mac).1.msg = h.msg) ∧
    (∀ e, (h.digest i n mac).2 = .error e →
      (h.digest i n mac).1.msg = Heap.put h.msg i ((h.msg i).setAuth (List.replicate n 0))) := by
  obtain ⟨t1, t2, t3⟩ := toBytes_result (h.setAuth i (List.replicate n 0)) i
  have hm : (h.setAuth i (List.replicate n 0)).msg i = (h.msg i).setAuth (List.replicate n 0) := put_same _ _ _
  rw [hm, setAuth_value, value_setAuth] at t3
  have u := (upto_setAuth h i (List.replicate n 0)).trans t1
  unfold Heap.digest
  cases hb : (h.setAuth i (List.replicate n 0)).toBytes i with
  | mk h1 res =>
    rw [hb] at t2 t3 u
    dsimp only at t2 t3 u
    rw [← t3]
    cases res with
    | error e => dsimp only; exact ⟨u, rfl, (fun a ha => by cases ha), fun e' _ => t2⟩
    | ok b =>
      dsimp only
      refine ⟨u.trans (upto_setAuth h1 i _), rfl, fun a _ => ?_, fun e he => by cases he⟩
      show Heap.put h1.msg i ((h1.msg i).setAuth (h.msg i).auth) = h.msg
      rw [t2]
      show Heap.put (Heap.put h.msg i _) i (MsgObj.setAuth _ (Heap.put h.msg i _ i)) = h.msg
      rw [put_same, setAuth_setAuth, setAuth_auth, put_put, put_id]

/-- the key id of a message with authentication data -/
def ctrlKeyId : Ctrl → Option Int
  | .register m => some m.keyId
  | .notify m => some m.keyId
  | .info m => some m.keyId
  | _ => none

theorem keyId_value (h : Heap) (m : MsgObj) : ctrlKeyId (h.value m) = m.keyId := by cases m <;> rfl

theorem ctrlMac_eq (H : Mac) (key : Bytes) (v : Ctrl) : ctrlMac H key v =
    (match ctrlKeyId v with
    | none => .error .attr
    | some k => calcAuth H k key fun z => (withAuth z v).toBytes) := by cases v <;> rfl

theorem digestSize_eq (v : Ctrl) : digestSize v =
    (match ctrlKeyId v with
    | none => none
    | some k => if k = 1 then some 20 else if k = 2 then some 32 else none) := by cases v <;> rfl

theorem calculate_result (H : Mac) (h : Heap) (i : Nat) (key : Bytes) :
    Upto h (h.calculate H i key).1 ∧
    (h.calculate H i key).2 = ctrlMac H key (h.value (h.msg i)) ∧
    (∀ a, (h.calculate H i key).2 = .ok a → (h.calculate H i key).1.msg = h.msg) ∧
    (∀ e, (h.calculate H i key).2 = .error e →
      (h.calculate H i key).1.msg = Heap.put h.msg i ((h.msg i).setAuth (spoiled (h.value (h.msg i))))) := by
  have hs : spoiled (h.value (h.msg i)) =
      (match digestSize (h.value (h.msg i)) with
      | some n => List.replicate n 0
      | none => (h.msg i).auth) := by unfold spoiled; rw [auth_value]
  rw [ctrlMac_eq, hs, digestSize_eq, keyId_value]
  unfold Heap.calculate
  cases hk : (h.msg i).keyId with
  | none =>
    dsimp only
    refine ⟨.refl h, rfl, (fun a ha => by cases ha), fun e _ => ?_⟩
    show h.msg = Heap.put h.msg i ((h.msg i).setAuth (h.msg i).auth)
    rw [setAuth_auth, put_id]
  | some k =>
    dsimp only
    unfold calcAuth
    by_cases h0 : k = 0
    · rw [if_pos h0, if_pos h0]
      exact ⟨.refl h, rfl, fun _ _ => rfl, fun e he => by cases he⟩
    rw [if_neg h0, if_neg h0]
    by_cases h1 : k = 1
    · rw [if_pos h1, if_pos h1, if_pos h1]
      obtain ⟨d1, d2, d3, d4⟩ := digest_result h i 20 (H.sha1 key)
      refine ⟨d1, ?_, d3, d4⟩
      rw [d2]; dsimp only
      cases (withAuth (List.replicate 20 0) (h.value (h.msg i))).toBytes <;> rfl
    rw [if_neg h1, if_neg h1, if_neg h1]
    by_cases h2 : k = 2
    · rw [if_pos h2, if_pos h2, if_pos h2]
      obtain ⟨d1, d2, d3, d4⟩ := digest_result h i 32 (H.sha256 key)
      refine ⟨d1, ?_, d3, d4⟩
      rw [d2]; dsimp only
      cases (withAuth (List.replicate 32 0) (h.value (h.msg i))).toBytes <;> rfl
    rw [if_neg h2, if_neg h2, if_neg h2]
    dsimp only
    refine ⟨.refl h, rfl, (fun a ha => by cases ha), fun e _ => ?_⟩
    show h.msg = Heap.put h.msg i ((h.msg i).setAuth (h.msg i).auth)
    rw [setAuth_auth, put_id]

/-! ### Calls -/

theorem put_auth (h : Heap) (i : Nat) : Heap.put h.msg i ((h.msg i).setAuth (ctrlAuth (h.value (h.msg i)))) = h.msg := by
  rw [auth_value, setAuth_auth, put_id]

theorem call_result (H : Mac) (h : Heap) (c : Call) :
    Upto h (h.call H c).1 ∧
    (h.call H c).2 = answer H (h.value (h.msg (target c))) c ∧
    (h.call H c).1.msg = Heap.put h.msg (target c)
      ((h.msg (target c)).setAuth (authAfter H (h.value (h.msg (target c))) c)) := by
  cases c with
  | sanitize i =>
    obtain ⟨r1, r2, r3, _⟩ := sanitizeMsg_result h (h.msg i)
    refine ⟨r1, ?_, r2.trans (put_auth h i).symm⟩
    show (h.sanitizeMsg (h.msg i)).2.map (fun _ => Returned.nothing) =
      (ctrlSanitize (h.value (h.msg i))).map fun _ => Returned.nothing
    rw [r3]
    cases ctrlSanitize (h.value (h.msg i)) <;> rfl
  | toBytes i =>
    obtain ⟨r1, r2, r3⟩ := toBytes_result h i
    refine ⟨r1, ?_, r2.trans (put_auth h i).symm⟩
    show (h.toBytes i).2.map _ = _
    rw [r3]; rfl
  | verify i key =>
    obtain ⟨r1, r2, r3, r4⟩ := calculate_result H h i key
    have hv : h.call H (.verify i key) = ((h.verify H i key).1, (h.verify H i key).2.map .bool) := rfl
    rw [hv]
    unfold Heap.verify authAfter answer target
    dsimp only
    cases hc : h.calculate H i key with
    | mk h1 res =>
      rw [hc] at r1 r2 r3 r4
      dsimp only at r1 r2 r3 r4
      rw [← r2]
      cases res with
      | error e => exact ⟨r1, rfl, r4 e rfl⟩
      | ok a =>
        have hm := r3 a rfl
        refine ⟨r1, ?_, hm.trans (put_auth h i).symm⟩
        show Except.ok (Returned.bool ((h1.msg i).auth == a)) = Except.ok (Returned.bool _)
        rw [hm, auth_value]
  | insert i key =>
    obtain ⟨r1, r2, r3, r4⟩ := calculate_result H h i key
    have hv : h.call H (.insert i key) = ((h.insert H i key).1, (h.insert H i key).2.map fun _ => .nothing) := rfl
    rw [hv]
    unfold Heap.insert authAfter answer target
    dsimp only
    cases hc : h.calculate H i key with
    | mk h1 res =>
      rw [hc] at r1 r2 r3 r4
      dsimp only at r1 r2 r3 r4
      rw [← r2]
      cases res with
      | error e => exact ⟨r1, rfl, r4 e rfl⟩
      | ok a =>
        refine ⟨r1.trans (upto_setAuth h1 i a), rfl, ?_⟩
        show Heap.put h1.msg i ((h1.msg i).setAuth a) = _
        rw [r3 a rfl]

theorem ctrlMac_same {h h' : Heap} (u : Upto h h') (H : Mac) (key : Bytes) (m : MsgObj) :
    ctrlMac H key (h'.value m) = ctrlMac H key (h.value m) := by
  rw [ctrlMac_eq, ctrlMac_eq, keyId_value, keyId_value]
  have : (fun z => (withAuth z (h'.value m)).toBytes) = fun z => (withAuth z (h.value m)).toBytes := by
    funext z
    rw [← value_setAuth, ← value_setAuth, toBytes_same u]
  rw [this]

theorem answer_same {h h' : Heap} (u : Upto h h') (H : Mac) (m : MsgObj) (c : Call) :
    answer H (h'.value m) c = answer H (h.value m) c := by
  cases c with
  | sanitize i => simp only [answer, ctrlSanitize_same u]
  | toBytes i => simp only [answer, toBytes_same u]
  | verify i key => simp only [answer, ctrlMac_same u, auth_value]
  | insert i key => simp only [answer, ctrlMac_same u]

theorem authAfter_same {h h' : Heap} (u : Upto h h') (H : Mac) (m : MsgObj) (c : Call) :
    authAfter H (h'.value m) c = authAfter H (h.value m) c := by
  have hs : spoiled (h'.value m) = spoiled (h.value m) := by
    unfold spoiled
    rw [auth_value, auth_value, digestSize_eq, digestSize_eq, keyId_value, keyId_value]
  cases c with
  | sanitize i => simp only [authAfter, auth_value]
  | toBytes i => simp only [authAfter, auth_value]
  | verify i key => simp only [authAfter, ctrlMac_same u, auth_value, hs]
  | insert i key => simp only [authAfter, ctrlMac_same u, hs]

theorem calls_result (H : Mac) (h0 : Heap) (cs : List Call) : ∀ h : Heap, Upto h0 h →
    Upto h0 (h.calls H cs).1 ∧
    (h.calls H cs).2 = (valCalls H (fun i => h0.value (h.msg i)) cs).2 ∧
    (fun i => h0.value ((h.calls H cs).1.msg i)) = (valCalls H (fun i => h0.value (h.msg i)) cs).1 := by
  induction cs with
  | nil => intro h u; exact ⟨u, rfl, rfl⟩
  | cons c cs ih =>
    intro h u
    obtain ⟨c1, c2, c3⟩ := call_result H h c
    rw [answer_same u] at c2
    rw [authAfter_same u] at c3
    obtain ⟨i1, i2, i3⟩ := ih _ (u.trans c1)
    have hv : (fun i => h0.value ((h.call H c).1.msg i)) = valCall H (fun i => h0.value (h.msg i)) c := by
      funext j
      rw [c3]
      unfold valCall Heap.put
      split
      · exact value_setAuth h0 _ _
      · rfl
    rw [hv] at i2 i3
    refine ⟨i1, ?_, i3⟩
    show (h.call H c).2 :: _ = _ :: _
    rw [c2, i2]

/-! ### C78 -/

/-- C78: whatever calls a user makes on messages, in any order and going on after exceptions, each answers (value or
exception) exactly as if messages were immutable values whose only changing part is their authentication data; the
sorting, clearing and wrapping that `sanitize` does to records and lists of locators, also when several messages or
records share them, is never seen in an answer -/
theorem calls_as_values (H : Mac) (h : Heap) (cs : List Call) :
    (h.calls H cs).2 = (valCalls H (fun i => h.value (h.msg i)) cs).2 :=
  (calls_result H h cs h (.refl h)).2.1

/-- C78: what the objects are after any calls: locators are as they were; a list of locators is as it was or has been
sorted by address (stably), and then all its locators are sane and have IP addresses; a record is as it was or has
got action 0, and then it has locators; a Map-Referral record is as it was or has its EID wrapped -/
theorem objects_after (H : Mac) (h : Heap) (cs : List Call) :
    (h.calls H cs).1.loc = h.loc ∧
    (∀ l, (h.calls H cs).1.lst l = h.lst l ∨
      SaneList (h.list l) ∧ ((h.calls H cs).1.lst l).Perm (h.lst l) ∧
      StableSort (h.list l) ((h.calls H cs).1.list l)) ∧
    (∀ i, (h.calls H cs).1.recs i = h.recs i ∨
      h.lst (h.recs i).locs ≠ [] ∧ (h.calls H cs).1.recs i = { h.recs i with action := 0 }) ∧
    (∀ i, (h.calls H cs).1.refs i = h.refs i ∨
      ∃ e, wrapEid (h.refs i).eid = .ok e ∧ (h.calls H cs).1.refs i = { h.refs i with eid := e }) := by
  have u := (calls_result H h cs h (.refl h)).1
  refine ⟨u.loc, fun l => ?_, u.recs, u.refs⟩
  rcases u.lst l with e | ⟨g, e⟩
  · exact .inl e
  · refine .inr ⟨g, ?_, stableSort_iff.mpr ?_⟩
    · rw [e]; exact sortBy_perm _ _
    · unfold Heap.list
      rw [e, u.loc]
      exact sortBy_map h.loc Locator.key (h.lst l)

theorem withAuth_same (v : Ctrl) : withAuth (ctrlAuth v) v = v := by cases v <;> rfl
theorem withAuth_withAuth (a b : Bytes) (v : Ctrl) : withAuth a (withAuth b v) = withAuth a v := by cases v <;> rfl

theorem ctrlMac_withAuth (H : Mac) (key a : Bytes) (v : Ctrl) : ctrlMac H key (withAuth a v) = ctrlMac H key v := by
  rw [ctrlMac_eq, ctrlMac_eq, show ctrlKeyId (withAuth a v) = ctrlKeyId v by cases v <;> rfl]
  simp only [withAuth_withAuth]

theorem ctrlMac_any {H : Mac} {key a : Bytes} {v : Ctrl} (h : ctrlMac H key v = .ok a) (key' : Bytes) :
    ∃ b, ctrlMac H key' v = .ok b := by
  rw [ctrlMac_eq] at h ⊢
  cases hk : ctrlKeyId v with
  | none => rw [hk] at h; cases h
  | some k =>
    rw [hk] at h
    dsimp only [calcAuth] at h ⊢
    by_cases h0 : k = 0
    · rw [if_pos h0]; exact ⟨_, rfl⟩
    rw [if_neg h0] at h ⊢
    by_cases h1 : k = 1
    · rw [if_pos h1] at h ⊢
      cases hb : (withAuth (List.replicate 20 0) v).toBytes with
      | error e => rw [hb] at h; cases h
      | ok b => exact ⟨_, rfl⟩
    rw [if_neg h1] at h ⊢
    by_cases h2 : k = 2
    · rw [if_pos h2] at h ⊢
      cases hb : (withAuth (List.replicate 32 0) v).toBytes with
      | error e => rw [hb] at h; cases h
      | ok b => exact ⟨_, rfl⟩
    rw [if_neg h2] at h; cases h

/-- calls that leave the authentication data of message `i` alone: anything on other messages, and on `i` only
`sanitize`, `to_bytes` and - if `ok` - `verify_authentication_data` -/
def Leaves (ok : Prop) (i : Nat) (c : Call) : Prop :=
  target c = i → c = .sanitize i ∨ c = .toBytes i ∨ ok ∧ ∃ key, c = .verify i key

theorem valCalls_leaves {H : Mac} {i : Nat} {ok : Prop} (cs : List Call) : ∀ v : Nat → Ctrl,
    (∀ c ∈ cs, Leaves ok i c) → (ok → ∀ key, ∃ a, ctrlMac H key (v i) = .ok a) → (valCalls H v cs).1 i = v i := by
  induction cs with
  | nil => intros; rfl
  | cons c cs ih =>
    intro v hc hm
    have h1 : valCall H v c i = v i := by
      unfold valCall
      by_cases e : target c = i
      · rw [e, put_same]
        rcases hc c (by simp) e with h | h | ⟨hok, key, h⟩
        · rw [h]; exact withAuth_same _
        · rw [h]; exact withAuth_same _
        · rw [h]
          obtain ⟨a, ha⟩ := hm hok key
          simp only [authAfter, ha]
          exact withAuth_same _
      · exact put_other _ (fun h => e h.symm) _
    show (valCalls H (valCall H v c) cs).1 i = v i
    rw [ih _ (fun c' h' => hc c' (List.mem_cons_of_mem _ h')) (by rw [h1]; exact hm), h1]

theorem calls_leaves {H : Mac} {h : Heap} {i : Nat} {ok : Prop} {cs : List Call} (hc : ∀ c ∈ cs, Leaves ok i c)
    (hm : ok → ∀ key, ∃ a, ctrlMac H key (h.value (h.msg i)) = .ok a) :
    h.value ((h.calls H cs).1.msg i) = h.value (h.msg i) := by
  have := congrFun (calls_result H h cs h (.refl h)).2.2 i
  exact this.trans (valCalls_leaves cs _ hc hm)

/-- C78: `to_bytes` of a message gives the same bytes, or raises the same exception, before and after any calls that
do not calculate authentication data of that very message - however many records it shares with other messages -/
theorem to_bytes_stable (H : Mac) (h : Heap) (i : Nat) (cs : List Call)
    (hc : ∀ c ∈ cs, target c = i → c = .sanitize i ∨ c = .toBytes i) :
    ((h.calls H cs).1.toBytes i).2 = (h.toBytes i).2 := by
  have u := (calls_result H h cs h (.refl h)).1
  rw [(toBytes_result _ i).2.2, (toBytes_result h i).2.2, toBytes_same u,
    calls_leaves (ok := False) (fun c hm ht => (hc c hm ht).elim .inl fun h => .inr (.inl h)) (fun h => h.elim)]

/-- C78: `verify_authentication_data` that returns has not changed any message -/
theorem verify_returns (H : Mac) (h : Heap) (i : Nat) (key : Bytes) (b : Bool) (hv : (h.verify H i key).2 = .ok b) :
    (h.verify H i key).1.msg = h.msg := by
  obtain ⟨_, _, r3, _⟩ := calculate_result H h i key
  unfold Heap.verify at hv ⊢
  cases hc : h.calculate H i key with
  | mk h1 res =>
    rw [hc] at r3 hv
    cases res with
    | error e => cases hv
    | ok a => exact r3 a rfl

/-- C78: but when it raises with key id 1 or 2, the authentication data of the message are zeros from then on; with any
other key id nothing has changed.  The same for `insert_authentication_data`. -/
theorem raising_spoils (H : Mac) (h : Heap) (i : Nat) (key : Bytes) (e : Err) (h' : Heap)
    (hr : h.verify H i key = (h', .error e) ∨ h.insert H i key = (h', .error e)) :
    (∀ j, j ≠ i → h'.msg j = h.msg j) ∧
    ((h.msg i).keyId = some 1 → h'.msg i = (h.msg i).setAuth (List.replicate 20 0)) ∧
    ((h.msg i).keyId = some 2 → h'.msg i = (h.msg i).setAuth (List.replicate 32 0)) ∧
    ((h.msg i).keyId ≠ some 1 → (h.msg i).keyId ≠ some 2 → h'.msg i = h.msg i) := by
  obtain ⟨_, _, _, r4⟩ := calculate_result H h i key
  have hc : h.calculate H i key = (h', .error e) := by
    unfold Heap.verify Heap.insert at hr
    cases hc : h.calculate H i key with
    | mk h1 res =>
      rw [hc] at hr
      cases res with
      | error e' => rcases hr with hr | hr <;> (cases hr; rfl)
      | ok a => rcases hr with hr | hr <;> cases hr
  rw [hc] at r4
  have hm : h'.msg = _ := r4 e rfl
  rw [hm]
  refine ⟨fun j hj => put_other _ hj _, fun hk => ?_, fun hk => ?_, fun h1 h2 => ?_⟩
  · rw [put_same]
    unfold spoiled; rw [digestSize_eq, keyId_value, hk]; rfl
  · rw [put_same]
    unfold spoiled; rw [digestSize_eq, keyId_value, hk]; rfl
  · rw [put_same]
    unfold spoiled; rw [digestSize_eq, keyId_value, auth_value]
    cases hk : (h.msg i).keyId with
    | none => exact setAuth_auth _
    | some k =>
      rw [hk] at h1 h2
      dsimp only
      rw [if_neg (fun e => h1 (by rw [e])), if_neg (fun e => h2 (by rw [e]))]
      exact setAuth_auth _

/-- C78: a message that has been authenticated with a key verifies with that key, whatever is done in between to other
messages, and to this one short of authenticating it again -/
theorem authenticated_stays (H : Mac) (h : Heap) (i : Nat) (key : Bytes) (cs : List Call)
    (hi : (h.insert H i key).2 = .ok ()) (hc : ∀ c ∈ cs, ∀ key', c ≠ .insert i key') :
    (((h.insert H i key).1.calls H cs).1.verify H i key).2 = .ok true := by
  obtain ⟨r1, r2, r3, _⟩ := calculate_result H h i key
  have key0 : ∃ a h1, h.insert H i key = (Heap.setAuth h1 i a, .ok ()) ∧ Upto h h1 ∧ h1.msg = h.msg ∧
      ctrlMac H key (h.value (h.msg i)) = .ok a := by
    unfold Heap.insert at hi ⊢
    cases hk : h.calculate H i key with
    | mk h1 res =>
      rw [hk] at hi r1 r2 r3
      cases res with
      | error e => cases hi
      | ok a => exact ⟨a, h1, rfl, r1, r3 a rfl, r2.symm⟩
  obtain ⟨a, h1, hins, u1, hm1, hmac⟩ := key0
  rw [hins]
  have u2 := u1.trans (upto_setAuth h1 i a)
  have hmsg : (h1.setAuth i a).msg i = (h.msg i).setAuth a := by
    show Heap.put h1.msg i ((h1.msg i).setAuth a) i = _
    rw [put_same, hm1]
  obtain ⟨c1, _, _⟩ := calls_result H (h1.setAuth i a) cs _ (.refl _)
  have hval : (h1.setAuth i a).value ((h1.setAuth i a).msg i) = withAuth a (h1.value (h.msg i)) := by
    rw [hmsg, setAuth_value, value_setAuth]
  have hmac' : ∀ key', ctrlMac H key' ((h1.setAuth i a).value ((h1.setAuth i a).msg i)) =
      ctrlMac H key' (h.value (h.msg i)) := by
    intro key'; rw [hval, ctrlMac_withAuth, ctrlMac_same u1]
  have hl := calls_leaves (H := H) (h := h1.setAuth i a) (i := i) (ok := True) (cs := cs)
    (fun c hm ht => by
      cases c with
      | sanitize j => cases ht; exact .inl rfl
      | toBytes j => cases ht; exact .inr (.inl rfl)
      | verify j k => cases ht; exact .inr (.inr ⟨trivial, k, rfl⟩)
      | insert j k => cases ht; exact absurd rfl (hc _ hm k))
    (fun _ k => by rw [hmac']; exact ctrlMac_any hmac k)
  generalize hh : ((h1.setAuth i a).calls H cs).1 = h2 at hl c1
  obtain ⟨s1, s2, s3, _⟩ := calculate_result H h2 i key
  rw [ctrlMac_same c1, hl, hmac', hmac] at s2
  unfold Heap.verify
  cases hk : h2.calculate H i key with
  | mk h3 res =>
    rw [hk] at s2 s3
    dsimp only at s2 s3
    subst s2
    dsimp only
    rw [s3 a rfl]
    have ha : (h2.msg i).auth = a := by
      have e := congrArg ctrlAuth hl
      rw [auth_value, hval] at e
      rw [e]
      have hkid : ∃ k, (h.msg i).keyId = some k := by
        rw [ctrlMac_eq, keyId_value] at hmac
        cases hk : (h.msg i).keyId with
        | none => rw [hk] at hmac; cases hmac
        | some k => exact ⟨k, rfl⟩
      obtain ⟨k, hk⟩ := hkid
      cases hmm : h.msg i with
      | register m rs => rfl
      | notify m rs => rfl
      | info m => rfl
      | _ => rw [hmm] at hk; cases hk
    rw [ha, beq_self_eq_true]

/-! ### Sanitising twice -/

theorem sortList_again {h : Heap} {l : Nat} (hc : SaneList (h.list l)) (hs : h.list l = sortBy Locator.key (h.list l)) :
    h.sortList l = (h, .ok ()) := by
  have hk : checkKeys (h.list l) = .ok () := checkKeys_ok.mpr fun x hx => (hc x hx).2
  unfold Heap.sortList
  rw [hk]
  dsimp only
  have ha : Ascending (fun j => (h.loc j).key) (h.lst l) := by
    have h1 : Ascending Locator.key (h.list l) := by rw [hs]; exact sortBy_ascending _ _
    exact (List.pairwise_map (R := fun x y : Locator => x.key ≤ y.key)).mp h1
  rw [sortBy_of_ascending _ _ ha, put_id]

theorem sanitizeRec_fix {h : Heap} {i : Nat} (hf : (h.record i).sanitize = .ok (h.record i)) :
    h.sanitizeRec i = (h, .ok ()) := by
  obtain ⟨_, _, r3, _⟩ := sanitizeRec_result h i
  rw [hf] at r3
  refine Prod.ext ?_ r3
  obtain ⟨ht, _, _, _, _, he⟩ := Record.sanitize_ok.mp hf
  have hca : h.clearAction i = h := by
    have ha := congrArg Record.action he
    dsimp only at ha
    unfold Heap.clearAction
    split
    · rename_i g
      have : (h.recs i).action = 0 := ha.trans (if_pos (by simpa [Heap.record, Heap.list] using g))
      rw [show ({ h.recs i with action := 0 } : RecObj) = h.recs i by rw [← this], put_id]
    · rfl
  unfold Heap.sanitizeRec
  split
  · rfl
  · rw [hca]
    have hl := congrArg Record.locators he
    dsimp only at hl
    unfold Heap.checkRec
    repeat' split
    all_goals try rfl
    rename_i hsan
    by_cases hk : checkKeys (h.list (h.recs i).locs) = .ok ()
    · rw [sortList_again (saneList_fix hsan hk) hl]
    · unfold Heap.sortList
      split
      · rfl
      · rename_i hk'; exact absurd hk' hk

theorem sanitizeRef_fix {h : Heap} {i : Nat} (hf : (h.refRecord i).sanitize = .ok (h.refRecord i)) :
    h.sanitizeRef i = (h, .ok ()) := by
  obtain ⟨_, _, r3, _⟩ := sanitizeRef_result h i
  rw [hf] at r3
  refine Prod.ext ?_ r3
  obtain ⟨_, _, _, _, _, x, hx, he⟩ := RefRecord.sanitize_ok.mp hf
  have hl := congrArg RefRecord.locators he
  have hE := congrArg RefRecord.eid he
  dsimp only at hl hE
  unfold Heap.sanitizeRef
  repeat' split
  all_goals try rfl
  rename_i y hy
  have hxy : y = (h.refs i).eid := by
    have hx : wrapEid (h.refs i).eid = .ok x := hx
    rw [hy] at hx
    cases hx
    exact hE.symm
  have hput : ({ h with refs := Heap.put h.refs i { h.refs i with eid := y } } : Heap) = h := by
    rw [show ({ h.refs i with eid := y } : RefObj) = h.refs i by rw [hxy], put_id]
  rw [hput]
  unfold Heap.checkRef
  split
  · rfl
  · rename_i hsan
    by_cases hk : checkKeys (h.list (h.refs i).locs) = .ok ()
    · rw [sortList_again (fun l hm => ⟨(sanitizeRefLocators_ok.mp hsan l hm).2, checkKeys_ok.mp hk l hm⟩) hl]
    · unfold Heap.sortList
      split
      · rfl
      · rename_i hk'; exact absurd hk' hk

theorem each_fix {f : Heap → Nat → Heap × Except Err Unit} {h : Heap} {is : List Nat}
    (hf : ∀ i ∈ is, f h i = (h, .ok ())) : h.each f is = (h, .ok ()) := by
  induction is with
  | nil => rfl
  | cons i is ih =>
    unfold Heap.each
    rw [hf i (by simp)]
    exact ih fun j hj => hf j (List.mem_cons_of_mem _ hj)

theorem each_again {α : Type} {f : Heap → Nat → Heap × Except Err Unit} {san : α → Except Err α}
    {get : Heap → Nat → α} (S : Steps f san get) (hfix : ∀ h i, san (get h i) = .ok (get h i) → f h i = (h, .ok ()))
    {is : List Nat} {h h1 : Heap} (he : h.each f is = (h1, .ok ())) : ∀ i ∈ is, f h1 i = (h1, .ok ()) := by
  obtain ⟨_, _, r3, r4⟩ := each_result S is h
  rw [he] at r3 r4
  cases hs : sanitizeAll san (is.map (get h)) with
  | error e => rw [hs] at r3; cases r3
  | ok l =>
    have hl := r4 l hs
    intro i hi
    refine hfix h1 i ?_
    have hm : get h1 i ∈ l := by rw [← hl]; exact List.mem_map_of_mem hi
    obtain ⟨a, _, ha⟩ := sanitizeAll_mem hs _ hm
    exact S.idem _ _ ha

/-- C78: once `sanitize` of a message has returned, calling it again on the message, or on any of its records, changes
nothing at all and returns -/
theorem sanitize_again (h h1 : Heap) (m : MsgObj) (hs : h.sanitizeMsg m = (h1, .ok ())) :
    h1.sanitizeMsg m = (h1, .ok ()) ∧
    (match m with
     | .request _ r => ∀ i ∈ r.toList, h1.sanitizeRec i = (h1, .ok ())
     | .reply _ rs => ∀ i ∈ rs, h1.sanitizeRec i = (h1, .ok ())
     | .register _ rs => ∀ i ∈ rs, h1.sanitizeRec i = (h1, .ok ())
     | .notify _ rs => ∀ i ∈ rs, h1.sanitizeRec i = (h1, .ok ())
     | .referral _ rs => ∀ i ∈ rs, h1.sanitizeRef i = (h1, .ok ())
     | .info _ => True) := by
  have aux : ∀ {β : Type} {x : Except Err β} {k : Heap × Except Err Unit}, h.after x k = (h1, .ok ()) →
      k = (h1, .ok ()) ∧ ∃ b, x = .ok b := by
    intro β x k hk
    cases x with
    | error e => cases hk
    | ok b => exact ⟨hk, b, rfl⟩
  have aft : ∀ {β : Type} {x : Except Err β} {k : Heap × Except Err Unit}, (∃ b, x = .ok b) → k = (h1, .ok ()) →
      h1.after x k = (h1, .ok ()) := by
    rintro β x k ⟨b, rfl⟩ rfl; rfl
  cases m with
  | request m r =>
    obtain ⟨hk, hx⟩ := aux hs
    have := each_again recSteps (fun _ _ => sanitizeRec_fix) hk
    exact ⟨aft hx (each_fix this), this⟩
  | reply m rs =>
    obtain ⟨hk, hx⟩ := aux hs
    have := each_again recSteps (fun _ _ => sanitizeRec_fix) hk
    exact ⟨aft hx (each_fix this), this⟩
  | register m rs =>
    obtain ⟨hk, hx⟩ := aux hs
    have := each_again recSteps (fun _ _ => sanitizeRec_fix) hk
    exact ⟨aft hx (each_fix this), this⟩
  | notify m rs =>
    obtain ⟨hk, hx⟩ := aux hs
    have := each_again recSteps (fun _ _ => sanitizeRec_fix) hk
    exact ⟨aft hx (each_fix this), this⟩
  | referral m rs =>
    obtain ⟨hk, hx⟩ := aux hs
    have := each_again refSteps (fun _ _ => sanitizeRef_fix) hk
    exact ⟨aft hx (each_fix this), this⟩
  | info m =>
    obtain ⟨hk, hx⟩ := aux hs
    exact ⟨aft hx rfl, trivial⟩

/-! ### Non-vacuity -/

/-- a Map-Register (0) and a Map-Reply (1) whose records 0 and 1 share one list of locators; a Map-Notify (2) with
the records 1 and 2, of which record 2 is not sane; a Map-Referral (3) -/
def exHeap : Heap where
  loc j := if j = 0 then exLoc6 else if j = 1 then exLoc2 else exLoc1
  lst l := if l = 0 then [0, 1, 2] else []
  recs i :=
    if i = 0 then { ttl := 1440, action := 2, eid := .net exNet, locs := 0 }
    else if i = 1 then { ttl := 60, action := 0, eid := .net exNet, locs := 0 }
    else { ttl := 60, mapVersion := 4096, eid := .net exNet, locs := 1 }
  refs _ := { ttl := 1440, action := 0, eid := .net exNet, locs := 0 }
  msg i :=
    if i = 0 then .register { exRegister with records := [] } [0]
    else if i = 1 then .reply { exReply with records := [] } [1, 1]
    else if i = 2 then .notify { exNotify with records := [] } [1, 2]
    else .referral { exRefMsg with records := [] } [0]

/-- `to_bytes` of the Map-Reply changes the list of the Map-Register's record … -/
example : (exHeap.toBytes 1).1.lst 0 = [2, 1, 0] ∧ exHeap.lst 0 = [0, 1, 2] := by decide +kernel
/-- … and that of the Map-Register clears an action -/
example : ((exHeap.toBytes 0).1.recs 0).action = 0 ∧ (exHeap.recs 0).action = 2 := by decide +kernel
/-- that of the Map-Referral wraps an EID -/
example : ((exHeap.toBytes 3).1.refs 0).eid = .inst 0 (.net exNet) 32 := by decide +kernel
/-- a call that raises also leaves changes behind: lists sorted, and zeros for authentication data -/
example : (exHeap.verify toyMac 2 exKey).2 = .error .value ∧ (exHeap.verify toyMac 2 exKey).1.lst 0 = [2, 1, 0] ∧
    ((exHeap.verify toyMac 2 exKey).1.msg 2).auth = List.replicate 32 0 ∧
    (exHeap.msg 2).auth = List.replicate 32 7 := by decide +kernel
/-- a run of calls with every kind of answer -/
example : ((exHeap.calls toyMac [.sanitize 2, .insert 0 exKey, .toBytes 1, .verify 2 exKey, .verify 0 exKey,
      .verify 1 exKey]).2.map fun x => x.map fun r => r == .bool true || r == .nothing) =
    [.error .value, .ok true, .ok false, .error .value, .ok true, .error .attr] := by decide +kernel
/-- the hypothesis of `sanitize_again` and of `authenticated_stays` -/
example : (exHeap.sanitizeMsg (exHeap.msg 0)).2 = .ok () ∧ (exHeap.insert toyMac 0 exKey).2 = .ok () := by
  decide +kernel
/-- what the model of values says of a run is not trivial: authentication data do change -/
example : ctrlAuth ((valCalls toyMac (fun i => exHeap.value (exHeap.msg i)) [.insert 0 exKey]).1 0) ≠
    List.replicate 20 7 := by decide +kernel
/-- a trap: who looks at objects, not only at answers, sees the change.  Taking the locators away after `to_bytes`
does not give the negative record that taking them away before would have given. -/
example : (({ (exHeap.toBytes 0).1 with lst := fun _ => [] } : Heap).record 0).action = 0 ∧
    (({ exHeap with lst := fun _ => [] } : Heap).record 0).action = 2 := by decide +kernel

end PyLisp.Props
