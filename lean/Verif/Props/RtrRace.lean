import Verif.RtrRace
import Verif.Props.Etr
import Verif.Dict
/-
C94: the registration threads of an ETR node tell each other about changed RTRs; no change is lost.
-/
namespace PyLisp.Props
open PyLisp

/-! ### specification -/

/-- the address is an RTR in use: some registration of the node has set it -/
def RtrInUse (s : RtrSys) (r : Addr) : Prop := ∃ id l, dictGet s.node.rtrs id = some l ∧ r ∈ l

/-- the RTRs the last registration of thread `t` was made with -/
def lastUsed (s : RtrSys) (t : Nat) : Option (List Addr) := dictGet (s.log.reverse) t

/-- these are exactly the RTRs in use -/
def UpToDate (s : RtrSys) (l : List Addr) : Prop := ∀ r, r ∈ l ↔ RtrInUse s r

/-- an IP address -/
def IsIp (r : Addr) : Prop := ∃ a, r = .ip a

/-- a step that raises no exception when registering, and learns IP addresses as RTRs only (asking for NAT information
may fail, and so may the registration) -/
def FineStep (i : MsrIn) : Prop := (∃ r, i.reg = .ok r) ∧ ∀ n, i.nat = .ok n → ∀ r ∈ natRtrs n, IsIp r

/-- the thread has stored RTRs and not yet told all threads about it -/
def Telling : MsrPc → Prop
  | .compare _ => True
  | .signal _ => True
  | _ => False

/-! ### lemmas -/

theorem goto_node (s : RtrSys) (t : Nat) (p : MsrPc) : (s.goto t p).node = s.node := rfl
theorem goto_log (s : RtrSys) (t : Nat) (p : MsrPc) : (s.goto t p).log = s.log := rfl

theorem dictGet_map_flag (d : List (Nat × Bool)) (t j : Nat) (b : Bool) :
    dictGet (d.map fun p => if p.1 = t then (p.1, b) else p) j =
      if j = t then (dictGet d j).map fun _ => b else dictGet d j := by
  induction d with
  | nil => simp [dictGet]
  | cons p d ih =>
    obtain ⟨k, v⟩ := p
    by_cases hk : k = t
    · by_cases hj : k = j
      · have : j = t := by omega
        simp [dictGet, hk, hj, this]
      · simp only [List.map_cons, hk, if_true, dictGet]
        rw [if_neg (by omega), ih, if_neg (show ¬ t = j by omega)]
    · by_cases hj : k = j
      · have : ¬ j = t := by omega
        simp [dictGet, hk, hj, this]
      · simp only [List.map_cons, hk, if_false, dictGet, hj]
        exact ih

theorem keys_setFlag (s : EtrState) (t : Nat) (b : Bool) : dictKeys (s.setFlag t b).threads = dictKeys s.threads := by
  simp only [dictKeys, EtrState.setFlag, List.map_map]
  apply List.map_congr_left
  intro p _
  simp only [Function.comp_apply]
  split <;> rfl

theorem flag_setFlag (s : EtrState) (t j : Nat) (b : Bool) (hj : j ∈ dictKeys s.threads) :
    (s.setFlag t b).flag j = if j = t then b else s.flag j := by
  obtain ⟨v, hv⟩ := mem_keys.mp hj
  simp only [EtrState.flag, EtrState.setFlag, dictGet_map_flag]
  by_cases h : j = t
  · rw [if_pos h, if_pos h, hv]; cases b <;> rfl
  · rw [if_neg h, if_neg h]

/-- somebody has told thread `t`, or is going to -/
def Pend (s : RtrSys) (t : Nat) : Prop :=
  s.node.flag t = true ∨
  (∃ j old, (s.loc j).pc = .compare old ∧ rtrsChanged old ((dictGet s.node.rtrs j).getD []) = true) ∨
  ∃ j todo, (s.loc j).pc = .signal todo ∧ t ∈ todo

/-- the flag is reset, the RTRs are not read yet -/
def Loose : MsrPc → Prop
  | .reset _ => True
  | .read _ => True
  | _ => False

/-- the RTRs are read, the own ones not stored yet -/
def Middle : MsrPc → Prop
  | .sending _ _ => True
  | .setOld => True
  | .setNew _ => True
  | _ => False

/-- the RTRs of the registration thread `t` is making, or else of its last one -/
def madeWith (s : RtrSys) (t : Nat) : Option (List Addr) :=
  match (s.loc t).pc with
  | .sending _ u => some u
  | _ => lastUsed s t

theorem madeWith_other {s : RtrSys} {t : Nat} (h : ∀ n u, (s.loc t).pc ≠ .sending n u) : madeWith s t = lastUsed s t := by
  unfold madeWith
  split
  · rename_i n u hu; exact absurd hu (h n u)
  · rfl

def Fresh (s : RtrSys) (t : Nat) : Prop :=
  Loose (s.loc t).pc ∨ ∀ u, madeWith s t = some u → Pend s t ∨
    ∀ r, r ∈ u ↔ RtrInUse s r ∨ (Middle (s.loc t).pc ∧ r ∈ natRtrs (s.loc t).nat)

structure RtrInv (s : RtrSys) : Prop where
  nodup : (dictKeys s.node.rtrs).Nodup
  ip : ∀ id l, dictGet s.node.rtrs id = some l → ∀ r ∈ l, IsIp r
  natIp : ∀ t, ∀ r ∈ natRtrs (s.loc t).nat, IsIp r
  old : ∀ t old, (s.loc t).pc = .setNew old → old = dictGet s.node.rtrs t
  fresh : ∀ t ∈ dictKeys s.node.threads, Fresh s t

theorem fresh_frame {s s' : RtrSys} {j : Nat} (hloc : s'.loc j = s.loc j) (hlog : lastUsed s' j = lastUsed s j)
    (huse : ∀ r, RtrInUse s' r ↔ RtrInUse s r) (hp : Pend s j → Pend s' j) (h : Fresh s j) : Fresh s' j := by
  have hm : madeWith s' j = madeWith s j := by simp only [madeWith, hloc, hlog]
  unfold Fresh at *
  rw [hloc, hm]
  rcases h with h | h
  · exact .inl h
  · refine .inr fun u hu => ?_
    rcases h u hu with h | h
    · exact .inl (hp h)
    · exact .inr fun r => by rw [huse]; exact h r

theorem setLoc_same (s : RtrSys) (t : Nat) (l : MsrLoc) : (s.setLoc t l).loc t = l := if_pos rfl
theorem setLoc_other (s : RtrSys) {t j : Nat} (l : MsrLoc) (h : j ≠ t) : (s.setLoc t l).loc j = s.loc j := if_neg h
theorem goto_same (s : RtrSys) (t : Nat) (p : MsrPc) : (s.goto t p).loc t = { s.loc t with pc := p } := if_pos rfl
theorem goto_other (s : RtrSys) {t j : Nat} (p : MsrPc) (h : j ≠ t) : (s.goto t p).loc j = s.loc j := if_neg h

/-- when a thread that is not telling moves on, nobody loses a signal -/
theorem pend_setLoc {s : RtrSys} {t : Nat} (hpc : ¬ Telling (s.loc t).pc) (l : MsrLoc) {j : Nat} (h : Pend s j) :
    Pend (s.setLoc t l) j := by
  rcases h with h | ⟨k, old, h1, h2⟩ | ⟨k, todo, h1, h2⟩
  · exact .inl h
  · have hk : k ≠ t := by rintro rfl; rw [h1] at hpc; exact hpc trivial
    exact .inr (.inl ⟨k, old, by rw [setLoc_other s l hk]; exact h1, h2⟩)
  · have hk : k ≠ t := by rintro rfl; rw [h1] at hpc; exact hpc trivial
    exact .inr (.inr ⟨k, todo, by rw [setLoc_other s l hk]; exact h1, h2⟩)

/-- a thread that is not telling moves on, all else stays -/
theorem RtrInv.move {s : RtrSys} (h : RtrInv s) {t : Nat} (hpc : ¬ Telling (s.loc t).pc) (l : MsrLoc)
    (hip : ∀ r ∈ natRtrs l.nat, IsIp r) (hold : ∀ old, l.pc = .setNew old → old = dictGet s.node.rtrs t)
    (hf : Fresh s t → Fresh (s.setLoc t l) t) : RtrInv (s.setLoc t l) where
  nodup := h.nodup
  ip := h.ip
  natIp := by
    intro j
    by_cases hj : j = t
    · subst hj; rw [setLoc_same]; exact hip
    · rw [setLoc_other s l hj]; exact h.natIp j
  old := by
    intro j
    by_cases hj : j = t
    · subst hj; rw [setLoc_same]; exact hold
    · rw [setLoc_other s l hj]; exact h.old j
  fresh := by
    intro j hj
    by_cases hjt : j = t
    · subst hjt; exact hf (h.fresh j hj)
    · exact fresh_frame (setLoc_other s l hjt) rfl (fun _ => Iff.rfl) (pend_setLoc hpc l) (h.fresh j hj)

/-- for a thread that is not between reading the RTRs and storing its own, and goes to such a place -/
theorem fresh_setLoc {s : RtrSys} {t : Nat} (hpc : ¬ Telling (s.loc t).pc) (hl : ¬ Loose (s.loc t).pc)
    {l : MsrLoc} (hn : (∀ n u, l.pc ≠ .sending n u) ∧ ∀ n u, (s.loc t).pc ≠ .sending n u) (hm : (Middle l.pc ↔ Middle (s.loc t).pc) ∧ (Middle l.pc → l.nat = (s.loc t).nat)) (h : Fresh s t) :
    Fresh (s.setLoc t l) t := by
  rcases h with h | h
  · exact absurd h hl
  · refine .inr fun u hu => ?_
    rw [madeWith_other (by rw [setLoc_same]; exact hn.1)] at hu
    rcases h u (by rw [madeWith_other hn.2]; exact hu) with h | h
    · exact .inl (pend_setLoc hpc l h)
    · refine .inr fun r => ?_
      rw [setLoc_same, h r, hm.1]
      constructor
      · rintro (h | ⟨h1, h2⟩)
        · exact .inl h
        · exact .inr ⟨h1, by rw [hm.2 (hm.1.mpr h1)]; exact h2⟩
      · rintro (h | ⟨h1, h2⟩)
        · exact .inl h
        · exact .inr ⟨h1, by rw [hm.2 (hm.1.mpr h1)] at h2; exact h2⟩

theorem lastUsed_append (s : RtrSys) (t j : Nat) (u : List Addr) (nd : EtrState) (lc : Nat → MsrLoc) :
    lastUsed ⟨nd, lc, s.log ++ [(t, u)]⟩ j = if t = j then some u else lastUsed s j := by
  simp only [lastUsed, List.reverse_append, List.reverse_cons, List.reverse_nil, List.nil_append, List.cons_append,
    dictGet]

theorem dict_mem_iff {d : List (Nat × List Addr)} (h : (dictKeys d).Nodup) (k : Nat) (v : List Addr) :
    (k, v) ∈ d ↔ dictGet d k = some v := by
  induction d with
  | nil => simp [dictGet]
  | cons e d ih =>
    obtain ⟨k', v'⟩ := e
    rw [dictKeys, List.map_cons, List.nodup_cons] at h
    have ih := ih h.2
    by_cases hk : k' = k
    · subst hk
      simp only [dictGet, if_true, List.mem_cons, Option.some.injEq]
      constructor
      · rintro (h1 | h1)
        · cases h1; rfl
        · exact absurd (List.mem_map.mpr ⟨(k', v), h1, rfl⟩) h.1
      · rintro rfl; exact .inl rfl
    · simp only [dictGet, if_neg hk, List.mem_cons]
      rw [← ih]
      constructor
      · rintro (h1 | h1)
        · cases h1; exact absurd rfl hk
        · exact h1
      · exact .inr

theorem getRtrs_ok {s : RtrSys} (h : RtrInv s) : ∃ rs, getRtrs s.node = .ok rs ∧
    ∀ (tn : List Addr) r, r ∈ tn.foldl addNew (rs.map Addr.ip) ↔ RtrInUse s r ∨ r ∈ tn := by
  have hall : ∀ p ∈ s.node.rtrs, ∀ r ∈ p.2, ∃ a, r.asIP = .ok a := by
    intro p hp r hr
    obtain ⟨a, rfl⟩ := h.ip p.1 p.2 ((dict_mem_iff h.nodup _ _).mp hp) r hr
    exact ⟨a, rfl⟩
  obtain ⟨rs, hrs⟩ := addAllRtrs_ok s.node.rtrs [] hall
  refine ⟨rs, hrs, fun tn r => ?_⟩
  rw [mem_rtrs (show getRtrs s.node = .ok rs from hrs)]
  apply or_congr ?_ Iff.rfl
  constructor
  · rintro ⟨id, l, h1, r', h2, a, h3, rfl⟩
    have h1 := (dict_mem_iff h.nodup _ _).mp h1
    obtain ⟨b, rfl⟩ := h.ip id l h1 r' h2
    cases h3
    exact ⟨id, l, h1, h2⟩
  · rintro ⟨id, l, h1, h2⟩
    obtain ⟨a, rfl⟩ := h.ip id l h1 r h2
    exact ⟨id, l, (dict_mem_iff h.nodup _ _).mpr h1, _, h2, a, rfl, rfl⟩

theorem RtrInv.step {s : RtrSys} (h : RtrInv s) (t : Nat) (i : MsrIn) (hi : FineStep i) : RtrInv (s.step t i) := by
  unfold RtrSys.step
  split
  · rename_i hpc
    have h1 : ∀ p : MsrPc, ¬ Middle p → (∀ o, p ≠ .setNew o) → RtrInv (s.goto t p) := by
      intro p hp ho
      exact h.move (by rw [hpc]; exact id) _ (h.natIp t) (fun o e => absurd e (ho o))
        (fresh_setLoc (by rw [hpc]; exact id) (by rw [hpc]; exact id)
          ⟨fun n u e => hp (by have e : p = .sending n u := e; rw [e]; trivial), by rw [hpc]; intro n u h; cases h⟩
          ⟨by rw [hpc]; exact ⟨fun h => absurd h hp, fun h => h.elim⟩, fun _ => rfl⟩)
    split
    · exact h1 _ id (fun _ h => by cases h)
    · split
      · exact h1 _ id (fun _ h => by cases h)
      · exact h1 _ id (fun _ h => by cases h)
  · rename_i now hpc
    split
    · exact h.move (by rw [hpc]; exact id) _ (h.natIp t) (fun o e => by cases e)
        (fresh_setLoc (by rw [hpc]; exact id) (by rw [hpc]; exact id)
          ⟨(fun n u h => by cases h), (by rw [hpc]; intro n u h; cases h)⟩
          ⟨by rw [hpc]; exact ⟨fun h => h.elim, fun h => h.elim⟩, fun _ => rfl⟩)
    · rename_i n hn
      exact h.move (by rw [hpc]; exact id) _ (hi.2 n hn) (fun o e => by cases e)
        (fresh_setLoc (by rw [hpc]; exact id) (by rw [hpc]; exact id)
          ⟨(fun n u h => by cases h), (by rw [hpc]; intro n u h; cases h)⟩
          ⟨by rw [hpc]; exact ⟨fun h => h.elim, fun h => h.elim⟩, fun h => h.elim⟩)
  · rename_i now hpc
    split
    · exact h.move (by rw [hpc]; exact id) _ (h.natIp t) (fun o e => by cases e)
        (fun _ => .inl (by rw [setLoc_same]; trivial))
    · exact h.move (by rw [hpc]; exact id) _ (h.natIp t) (fun o e => by cases e)
        (fresh_setLoc (by rw [hpc]; exact id) (by rw [hpc]; exact id)
          ⟨(fun n u h => by cases h), (by rw [hpc]; intro n u h; cases h)⟩
          ⟨by rw [hpc]; exact ⟨fun h => h.elim, fun h => h.elim⟩, fun _ => rfl⟩)
  · -- reset
    rename_i now hpc
    refine ⟨h.nodup, h.ip, ?_, ?_, ?_⟩
    · intro j
      by_cases hj : j = t
      · subst hj; rw [goto_same]; exact h.natIp j
      · rw [goto_other _ _ hj]; exact h.natIp j
    · intro j
      by_cases hj : j = t
      · subst hj; rw [goto_same]; intro o e; cases e
      · rw [goto_other _ _ hj]; exact h.old j
    · intro j hj
      have hj : j ∈ dictKeys s.node.threads := by rw [goto_node, keys_setFlag] at hj; exact hj
      by_cases hjt : j = t
      · subst hjt; exact .inl (by rw [goto_same]; trivial)
      · refine fresh_frame (s := s) (goto_other _ _ hjt) rfl (fun _ => Iff.rfl) ?_ (h.fresh j hj)
        rintro (h1 | ⟨k, old, h1, h2⟩ | ⟨k, todo, h1, h2⟩)
        · exact .inl (by rw [goto_node, flag_setFlag _ _ _ _ hj, if_neg hjt]; exact h1)
        · have hk : k ≠ t := by rintro rfl; rw [h1] at hpc; cases hpc
          exact .inr (.inl ⟨k, old, by rw [goto_other _ _ hk]; exact h1, h2⟩)
        · have hk : k ≠ t := by rintro rfl; rw [h1] at hpc; cases hpc
          exact .inr (.inr ⟨k, todo, by rw [goto_other _ _ hk]; exact h1, h2⟩)
  · -- read
    rename_i now hpc
    obtain ⟨rs, hrs, hmem⟩ := getRtrs_ok h
    rw [hrs]
    simp only
    refine h.move (by rw [hpc]; exact id) _ (h.natIp t) (fun o e => by cases e) fun _ => .inr fun u hu => ?_
    unfold madeWith at hu
    rw [setLoc_same] at hu
    cases hu
    refine .inr fun r => ?_
    rw [hmem, setLoc_same]
    exact or_congr Iff.rfl ⟨fun h => ⟨trivial, h⟩, fun h => h.2⟩
  · -- sending
    rename_i now used hpc
    split
    · rename_i e he
      obtain ⟨r, hr⟩ := hi.1
      rw [he] at hr; cases hr
    · rename_i rr hrr
      refine ⟨h.nodup, h.ip, ?_, ?_, ?_⟩
      · intro j
        by_cases hj : j = t
        · subst hj; rw [setLoc_same]; exact h.natIp j
        · rw [setLoc_other _ _ hj]; exact h.natIp j
      · intro j
        by_cases hj : j = t
        · subst hj; rw [setLoc_same]; intro o e; cases e
        · rw [setLoc_other _ _ hj]; exact h.old j
      · have hp : ∀ k, Pend s k → Pend (RtrSys.setLoc { s with log := s.log ++ [(t, used)] } t
            { s.loc t with pc := .setOld, ok := rr == some true, lastReg := now }) k := fun k =>
          pend_setLoc (s := s) (by rw [hpc]; exact id) _
        intro j hj
        by_cases hjt : j = t
        · subst hjt
          refine .inr fun u hu => ?_
          rw [madeWith_other (by rw [setLoc_same]; intro n u e; cases e)] at hu
          have hu := (lastUsed_append s j j used _ _).symm.trans hu
          rw [if_pos rfl] at hu
          cases hu
          rcases h.fresh j hj with hf | hf
          · rw [hpc] at hf; exact hf.elim
          rcases hf used (by unfold madeWith; rw [hpc]) with hf | hf
          · exact .inl (hp j hf)
          · refine .inr fun r => ?_
            rw [hf r, setLoc_same, hpc]
            exact or_congr Iff.rfl ⟨fun h => ⟨trivial, h.2⟩, fun h => ⟨trivial, h.2⟩⟩
        · refine fresh_frame (s := s) (setLoc_other _ _ hjt) ?_ (fun _ => Iff.rfl) (hp j) (h.fresh j hj)
          exact (lastUsed_append s t j _ _ _).trans (if_neg (Ne.symm hjt))
  · rename_i hpc
    exact h.move (by rw [hpc]; exact id) _ (h.natIp t) (fun o e => by cases e; rfl)
        (fresh_setLoc (by rw [hpc]; exact id) (by rw [hpc]; exact id)
          ⟨(fun n u h => by cases h), (by rw [hpc]; intro n u h; cases h)⟩
          ⟨by rw [hpc]; exact ⟨fun _ => trivial, fun _ => trivial⟩, fun _ => rfl⟩)
  · -- setNew
    rename_i old hpc
    have hold := h.old t old hpc
    have hget : ∀ k, dictGet (dictSet s.node.rtrs t ((natRtrs (s.loc t).nat).foldl addNew [])) k = _ :=
      fun k => dictGet_set _ t k _
    have hmem : ∀ r, r ∈ (natRtrs (s.loc t).nat).foldl addNew [] ↔ r ∈ natRtrs (s.loc t).nat := by
      intro r; rw [mem_foldl_addNew]; simp
    refine ⟨nodup_set _ _ h.nodup, ?_, ?_, ?_, ?_⟩
    · intro id l hl
      have hl := (hget id).symm.trans hl
      split at hl
      · cases hl
        intro r hr
        exact h.natIp t r ((hmem r).mp hr)
      · exact h.ip id l hl
    · intro j
      by_cases hj : j = t
      · subst hj; rw [goto_same]; exact h.natIp j
      · rw [goto_other _ _ hj]; exact h.natIp j
    · intro j
      by_cases hj : j = t
      · subst hj; rw [goto_same]; intro o e; cases e
      · rw [goto_other _ _ hj]
        intro o ho
        exact (h.old j o ho).trans ((hget j).trans (if_neg hj)).symm
    · intro j hj
      cases hc : rtrsChanged old ((natRtrs (s.loc t).nat).foldl addNew []) with
      | true =>
        refine .inr fun u _ => .inl (.inr (.inl ⟨t, old, by rw [goto_same], ?_⟩))
        have : dictGet (dictSet s.node.rtrs t ((natRtrs (s.loc t).nat).foldl addNew [])) t = _ :=
          (hget t).trans (if_pos rfl)
        rw [goto_node, this]
        exact hc
      | false =>
        obtain ⟨o, ho, hs⟩ := rtrsChanged_iff.mp hc
        have huse : ∀ r, RtrInUse (RtrSys.goto { s with node := { s.node with
            rtrs := dictSet s.node.rtrs t ((natRtrs (s.loc t).nat).foldl addNew []) } } t (.compare old)) r ↔
            RtrInUse s r := by
          intro r
          constructor
          · rintro ⟨id, l, hl, hr⟩
            have hl := (hget id).symm.trans hl
            split at hl
            · cases hl
              exact ⟨t, o, by rw [← hold, ho], (hs r).mpr hr⟩
            · exact ⟨id, l, hl, hr⟩
          · rintro ⟨id, l, hl, hr⟩
            by_cases hid : id = t
            · subst hid
              rw [← hold, ho] at hl
              cases hl
              exact ⟨id, _, (hget id).trans (if_pos rfl), (hs r).mp hr⟩
            · exact ⟨id, l, (hget id).trans ((if_neg hid).trans hl), hr⟩
        have hpend : ∀ k, Pend s k → Pend (RtrSys.goto { s with node := { s.node with
            rtrs := dictSet s.node.rtrs t ((natRtrs (s.loc t).nat).foldl addNew []) } } t (.compare old)) k := by
          rintro k (h1 | ⟨m, old', h1, h2⟩ | ⟨m, todo, h1, h2⟩)
          · exact .inl h1
          · have hm : m ≠ t := by rintro rfl; rw [h1] at hpc; cases hpc
            refine .inr (.inl ⟨m, old', by rw [goto_other _ _ hm]; exact h1, ?_⟩)
            have := (hget m).trans (if_neg hm)
            rw [goto_node, this]
            exact h2
          · have hm : m ≠ t := by rintro rfl; rw [h1] at hpc; cases hpc
            exact .inr (.inr ⟨m, todo, by rw [goto_other _ _ hm]; exact h1, h2⟩)
        by_cases hjt : j = t
        · subst hjt
          refine .inr fun u hu => ?_
          rcases h.fresh j hj with hf | hf
          · rw [hpc] at hf; exact hf.elim
          rw [madeWith_other (by rw [goto_same]; intro n u e; cases e)] at hu
          rcases hf u (by rw [madeWith_other (by rw [hpc]; intro n u e; cases e)]; exact hu) with hf | hf
          · exact .inl (hpend j hf)
          · refine .inr fun r => ?_
            rw [huse, hf r, goto_same, hpc]
            have hin : r ∈ natRtrs (s.loc j).nat → RtrInUse s r := fun hr =>
              ⟨j, o, by rw [← hold, ho], (hs r).mpr ((hmem r).mpr hr)⟩
            constructor
            · rintro (h1 | ⟨_, h1⟩)
              · exact .inl h1
              · exact .inl (hin h1)
            · rintro (h1 | ⟨h1, _⟩)
              · exact .inl h1
              · exact h1.elim
        · exact fresh_frame (s := s) (goto_other _ _ hjt) rfl huse (hpend j) (h.fresh j hj)
  · -- compare
    rename_i old hpc
    have key : ∀ p : MsrPc, ¬ Middle p → (∀ o, p ≠ .setNew o) → (∀ k ∈ dictKeys s.node.threads, Pend s k →
        Pend (s.goto t p) k) → RtrInv (s.goto t p) := by
      intro p hm hp hk
      refine ⟨h.nodup, h.ip, ?_, ?_, ?_⟩
      · intro j
        by_cases hj : j = t
        · subst hj; rw [goto_same]; exact h.natIp j
        · rw [goto_other _ _ hj]; exact h.natIp j
      · intro j
        by_cases hj : j = t
        · subst hj; rw [goto_same]; intro o e; exact absurd e (hp o)
        · rw [goto_other _ _ hj]; exact h.old j
      · intro j hj
        by_cases hjt : j = t
        · subst hjt
          refine .inr fun u hu => ?_
          rcases h.fresh j hj with hf | hf
          · rw [hpc] at hf; exact hf.elim
          rw [madeWith_other (by
            rw [goto_same]; intro n u e; exact hm (by have e : p = .sending n u := e; rw [e]; trivial))] at hu
          rcases hf u (by rw [madeWith_other (by rw [hpc]; intro n u e; cases e)]; exact hu) with hf | hf
          · exact .inl (hk j hj hf)
          · refine .inr fun r => ?_
            rw [hf r, goto_same, hpc]
            exact or_congr Iff.rfl ⟨fun h => h.1.elim, fun h => absurd h.1 hm⟩
        · exact fresh_frame (s := s) (goto_other _ _ hjt) rfl (fun _ => Iff.rfl) (hk j hj) (h.fresh j hj)
    split
    · refine key _ id (fun _ h => by cases h) fun k hk _ => ?_
      exact .inr (.inr ⟨t, _, by rw [goto_same], hk⟩)
    · rename_i hc
      refine key _ id (fun _ h => by cases h) ?_
      rintro k _ (h1 | ⟨m, old', h1, h2⟩ | ⟨m, todo, h1, h2⟩)
      · exact .inl h1
      · have hm : m ≠ t := by
          rintro rfl
          rw [h1] at hpc
          cases hpc
          exact hc h2
        exact .inr (.inl ⟨m, old', by rw [goto_other _ _ hm]; exact h1, h2⟩)
      · have hm : m ≠ t := by rintro rfl; rw [h1] at hpc; cases hpc
        exact .inr (.inr ⟨m, todo, by rw [goto_other _ _ hm]; exact h1, h2⟩)
  · -- signal []
    rename_i hpc
    refine ⟨h.nodup, h.ip, ?_, ?_, ?_⟩
    · intro j
      by_cases hj : j = t
      · subst hj; rw [goto_same]; exact h.natIp j
      · rw [goto_other _ _ hj]; exact h.natIp j
    · intro j
      by_cases hj : j = t
      · subst hj; rw [goto_same]; intro o e; cases e
      · rw [goto_other _ _ hj]; exact h.old j
    · have hp : ∀ k, Pend s k → Pend (s.goto t .sleep) k := by
        rintro k (h1 | ⟨m, old', h1, h2⟩ | ⟨m, todo, h1, h2⟩)
        · exact .inl h1
        · have hm : m ≠ t := by rintro rfl; rw [h1] at hpc; cases hpc
          exact .inr (.inl ⟨m, old', by rw [goto_other _ _ hm]; exact h1, h2⟩)
        · have hm : m ≠ t := by
            rintro rfl
            rw [h1] at hpc
            cases hpc
            cases h2
          exact .inr (.inr ⟨m, todo, by rw [goto_other _ _ hm]; exact h1, h2⟩)
      intro j hj
      by_cases hjt : j = t
      · subst hjt
        refine .inr fun u hu => ?_
        rcases h.fresh j hj with hf | hf
        · rw [hpc] at hf; exact hf.elim
        rw [madeWith_other (by rw [goto_same]; intro n u e; cases e)] at hu
        rcases hf u (by rw [madeWith_other (by rw [hpc]; intro n u e; cases e)]; exact hu) with hf | hf
        · exact .inl (hp j hf)
        · refine .inr fun r => ?_
          rw [hf r, goto_same, hpc]
          exact or_congr Iff.rfl ⟨fun h => h.1.elim, fun h => h.1.elim⟩
      · exact fresh_frame (s := s) (goto_other _ _ hjt) rfl (fun _ => Iff.rfl) (hp j) (h.fresh j hj)
  · -- signal (k :: ks)
    rename_i k ks hpc
    refine ⟨h.nodup, h.ip, ?_, ?_, ?_⟩
    · intro j
      by_cases hj : j = t
      · subst hj; rw [goto_same]; exact h.natIp j
      · rw [goto_other _ _ hj]; exact h.natIp j
    · intro j
      by_cases hj : j = t
      · subst hj; rw [goto_same]; intro o e; cases e
      · rw [goto_other _ _ hj]; exact h.old j
    · have hp : ∀ j ∈ dictKeys s.node.threads, Pend s j →
          Pend (RtrSys.goto { s with node := s.node.setFlag k true } t (.signal ks)) j := by
        rintro j hj (h1 | ⟨m, old', h1, h2⟩ | ⟨m, todo, h1, h2⟩)
        · refine .inl ?_
          rw [goto_node, flag_setFlag _ _ _ _ hj, h1]
          split <;> rfl
        · have hm : m ≠ t := by rintro rfl; rw [h1] at hpc; cases hpc
          exact .inr (.inl ⟨m, old', by rw [goto_other _ _ hm]; exact h1, h2⟩)
        · by_cases hm : m = t
          · subst hm
            rw [h1] at hpc
            cases hpc
            rcases List.mem_cons.mp h2 with rfl | h2
            · exact .inl (by rw [goto_node, flag_setFlag _ _ _ _ hj, if_pos rfl])
            · exact .inr (.inr ⟨m, ks, by rw [goto_same], h2⟩)
          · exact .inr (.inr ⟨m, todo, by rw [goto_other _ _ hm]; exact h1, h2⟩)
      intro j hj'
      have hj : j ∈ dictKeys s.node.threads := by rw [goto_node, keys_setFlag] at hj'; exact hj'
      clear hj'
      by_cases hjt : j = t
      · subst hjt
        refine .inr fun u hu => ?_
        rcases h.fresh j hj with hf | hf
        · rw [hpc] at hf; exact hf.elim
        rw [madeWith_other (by rw [goto_same]; intro n u e; cases e)] at hu
        rcases hf u (by rw [madeWith_other (by rw [hpc]; intro n u e; cases e)]; exact hu) with hf | hf
        · exact .inl (hp j hj hf)
        · refine .inr fun r => ?_
          have huse : RtrInUse (RtrSys.goto { s with node := s.node.setFlag k true } j (.signal ks)) r ↔
              RtrInUse s r := Iff.rfl
          rw [hf r, goto_same, hpc, huse]
          exact or_congr Iff.rfl ⟨fun h => h.1.elim, fun h => h.1.elim⟩
      · exact fresh_frame (s := s) (goto_other _ _ hjt) rfl (fun _ => Iff.rfl) (hp j hj) (h.fresh j hj)
  · exact h

theorem run_cons (s : RtrSys) (e : Nat × MsrIn) (l : List (Nat × MsrIn)) : s.run (e :: l) = (s.step e.1 e.2).run l := rfl

theorem keys_step (s : RtrSys) (t : Nat) (i : MsrIn) :
    dictKeys (s.step t i).node.threads = dictKeys s.node.threads := by
  unfold RtrSys.step
  split <;> (try split) <;> (try split) <;> first | rfl | exact keys_setFlag _ _ _

theorem keys_run (l : List (Nat × MsrIn)) : ∀ s : RtrSys,
    dictKeys (s.run l).node.threads = dictKeys s.node.threads := by
  induction l with
  | nil => intro s; rfl
  | cons e l ih => intro s; rw [run_cons, ih, keys_step]

theorem RtrInv.run {l : List (Nat × MsrIn)} (hl : ∀ e ∈ l, FineStep e.2) : ∀ {s : RtrSys}, RtrInv s →
    RtrInv (s.run l) := by
  induction l with
  | nil => intro s h; exact h
  | cons e l ih =>
    intro s h
    rw [run_cons]
    exact ih (fun x hx => hl x (by simp [hx])) (h.step e.1 e.2 (hl e (by simp)))

theorem RtrInv.start (node : EtrState) (hn : (dictKeys node.rtrs).Nodup)
    (hip : ∀ id l, dictGet node.rtrs id = some l → ∀ r ∈ l, IsIp r) : RtrInv { node := node } where
  nodup := hn
  ip := hip
  natIp := fun t r hr => by cases hr
  old := fun t o e => by cases e
  fresh := fun t _ => .inr fun u hu => by cases hu

/-- what all threads agree on when every thread's RTRs are those it got with its NAT information -/
structure RtrSettled (s0 s : RtrSys) : Prop where
  entry : ∀ t ∈ dictKeys s0.node.threads, ∃ l0 l, dictGet s0.node.rtrs t = some l0 ∧
    dictGet s.node.rtrs t = some l ∧ SameRtrs l l0 ∧ SameRtrs (natRtrs (s.loc t).nat) l0
  others : ∀ t, t ∉ dictKeys s0.node.threads → dictGet s.node.rtrs t = dictGet s0.node.rtrs t
  old : ∀ t ∈ dictKeys s0.node.threads, ∀ o, (s.loc t).pc = .setNew o → o = dictGet s.node.rtrs t
  cmp : ∀ t ∈ dictKeys s0.node.threads, ∀ o, (s.loc t).pc = .compare o →
    ∃ l l0, o = some l ∧ dictGet s0.node.rtrs t = some l0 ∧ SameRtrs l l0
  sig : ∀ t ∈ dictKeys s0.node.threads, ∀ todo, (s.loc t).pc ≠ .signal todo
  keys : dictKeys s.node.threads = dictKeys s0.node.threads
  flags : ∀ t ∈ dictKeys s0.node.threads, s.node.flag t = true → s0.node.flag t = true

theorem RtrSettled.move {s0 s : RtrSys} (h : RtrSettled s0 s) {t : Nat} (l : MsrLoc)
    (hnat : t ∈ dictKeys s0.node.threads → ∀ l0, dictGet s0.node.rtrs t = some l0 → SameRtrs (natRtrs l.nat) l0)
    (h1 : ∀ o, l.pc = .setNew o → o = dictGet s.node.rtrs t) (h2 : ∀ o, l.pc ≠ .compare o)
    (h3 : ∀ todo, l.pc ≠ .signal todo) : RtrSettled s0 (s.setLoc t l) where
  entry := by
    intro j hj
    obtain ⟨l0, l', e1, e2, e3, e4⟩ := h.entry j hj
    refine ⟨l0, l', e1, e2, e3, ?_⟩
    by_cases hjt : j = t
    · subst hjt; rw [setLoc_same]; exact hnat hj l0 e1
    · rw [setLoc_other _ _ hjt]; exact e4
  others := h.others
  old := by
    intro j hj
    by_cases hjt : j = t
    · subst hjt; rw [setLoc_same]; exact h1
    · rw [setLoc_other _ _ hjt]; exact h.old j hj
  cmp := by
    intro j hj
    by_cases hjt : j = t
    · subst hjt; rw [setLoc_same]; exact fun o e => absurd e (h2 o)
    · rw [setLoc_other _ _ hjt]; exact h.cmp j hj
  sig := by
    intro j hj
    by_cases hjt : j = t
    · subst hjt; rw [setLoc_same]; exact h3
    · rw [setLoc_other _ _ hjt]; exact h.sig j hj
  keys := h.keys
  flags := h.flags

theorem RtrSettled.node {s0 s : RtrSys} (h : RtrSettled s0 s) (node : EtrState) (log : List (Nat × List Addr))
    (hr : node.rtrs = s.node.rtrs) (hk : dictKeys node.threads = dictKeys s.node.threads)
    (hf : ∀ t ∈ dictKeys s0.node.threads, node.flag t = true → s.node.flag t = true) :
    RtrSettled s0 ⟨node, s.loc, log⟩ where
  entry := by rw [hr]; exact h.entry
  others := by rw [hr]; exact h.others
  old := by rw [hr]; exact h.old
  cmp := h.cmp
  sig := h.sig
  keys := hk.trans h.keys
  flags := fun t ht e => h.flags t ht (hf t ht e)

theorem RtrSettled.step {s0 s : RtrSys} (h : RtrSettled s0 s) (t : Nat) (i : MsrIn)
    (ht : t ∈ dictKeys s0.node.threads)
    (hi : ∀ n, i.nat = .ok n → ∃ l0, dictGet s0.node.rtrs t = some l0 ∧ SameRtrs (natRtrs n) l0) :
    RtrSettled s0 (s.step t i) := by
  have hnat : ∀ l0, dictGet s0.node.rtrs t = some l0 → SameRtrs (natRtrs (s.loc t).nat) l0 := by
    intro l0 hl0
    obtain ⟨l1, l', e1, e2, e3, e4⟩ := h.entry t ht
    rw [hl0] at e1; cases e1; exact e4
  have hgo : ∀ p : MsrPc, (∀ o, p = .setNew o → o = dictGet s.node.rtrs t) → (∀ o, p ≠ .compare o) →
      (∀ todo, p ≠ .signal todo) → RtrSettled s0 (s.goto t p) := fun p h1 h2 h3 =>
    h.move _ (fun _ => hnat) h1 h2 h3
  unfold RtrSys.step
  split
  · split
    · exact hgo _ (fun _ e => by cases e) (fun _ e => by cases e) (fun _ e => by cases e)
    · split
      · exact hgo _ (fun _ e => by cases e) (fun _ e => by cases e) (fun _ e => by cases e)
      · exact hgo _ (fun _ e => by cases e) (fun _ e => by cases e) (fun _ e => by cases e)
  · split
    · exact hgo _ (fun _ e => by cases e) (fun _ e => by cases e) (fun _ e => by cases e)
    · rename_i n hn
      refine h.move _ ?_ (fun _ e => by cases e) (fun _ e => by cases e) (fun _ e => by cases e)
      intro _ l0 hl0
      obtain ⟨l1, e1, e2⟩ := hi n hn
      rw [hl0] at e1; cases e1; exact e2
  · split
    · exact hgo _ (fun _ e => by cases e) (fun _ e => by cases e) (fun _ e => by cases e)
    · exact hgo _ (fun _ e => by cases e) (fun _ e => by cases e) (fun _ e => by cases e)
  · have h' := h.node (s.node.setFlag t false) s.log rfl (keys_setFlag _ _ _) (by
      intro j hj hf
      rw [flag_setFlag _ _ _ _ (by rw [h.keys]; exact hj)] at hf
      split at hf
      · cases hf
      · exact hf)
    exact h'.move _ (fun _ => hnat) (fun _ e => by cases e) (fun _ e => by cases e) (fun _ e => by cases e)
  · split
    · exact hgo _ (fun _ e => by cases e) (fun _ e => by cases e) (fun _ e => by cases e)
    · exact hgo _ (fun _ e => by cases e) (fun _ e => by cases e) (fun _ e => by cases e)
  · rename_i used hpc
    split
    · exact hgo _ (fun _ e => by cases e) (fun _ e => by cases e) (fun _ e => by cases e)
    · have h' := h.node s.node (s.log ++ [(t, used)]) rfl rfl (fun _ _ e => e)
      exact h'.move _ (fun _ => hnat) (fun _ e => by cases e) (fun _ e => by cases e) (fun _ e => by cases e)
  · exact hgo _ (fun _ e => by cases e; rfl) (fun _ e => by cases e) (fun _ e => by cases e)
  · -- setNew
    rename_i old hpc
    have hold := h.old t ht old hpc
    have hget : ∀ k, dictGet (dictSet s.node.rtrs t ((natRtrs (s.loc t).nat).foldl addNew [])) k = _ :=
      fun k => dictGet_set _ t k _
    have hmem : ∀ r, r ∈ (natRtrs (s.loc t).nat).foldl addNew [] ↔ r ∈ natRtrs (s.loc t).nat := by
      intro r; rw [mem_foldl_addNew]; simp
    refine ⟨?_, ?_, ?_, ?_, ?_, h.keys, h.flags⟩
    · intro j hj
      obtain ⟨l0, l', e1, e2, e3, e4⟩ := h.entry j hj
      by_cases hjt : j = t
      · subst hjt
        refine ⟨l0, _, e1, (hget j).trans (if_pos rfl), ?_, by rw [goto_same]; exact e4⟩
        intro r
        rw [hmem]
        exact e4 r
      · exact ⟨l0, l', e1, (hget j).trans ((if_neg hjt).trans e2), e3, by rw [goto_other _ _ hjt]; exact e4⟩
    · intro j hj
      have hjt : j ≠ t := by rintro rfl; exact hj ht
      exact (hget j).trans ((if_neg hjt).trans (h.others j hj))
    · intro j hj
      by_cases hjt : j = t
      · subst hjt; rw [goto_same]; intro o e; cases e
      · rw [goto_other _ _ hjt]
        intro o e
        exact (h.old j hj o e).trans ((hget j).trans (if_neg hjt)).symm
    · intro j hj
      by_cases hjt : j = t
      · subst hjt
        rw [goto_same]
        intro o e
        cases e
        obtain ⟨l0, l', e1, e2, e3, e4⟩ := h.entry j hj
        exact ⟨l', l0, hold.trans e2, e1, e3⟩
      · rw [goto_other _ _ hjt]; exact h.cmp j hj
    · intro j hj
      by_cases hjt : j = t
      · subst hjt; rw [goto_same]; intro o e; cases e
      · rw [goto_other _ _ hjt]; exact h.sig j hj
  · -- compare
    rename_i old hpc
    obtain ⟨l, l0, rfl, e2, e3⟩ := h.cmp t ht old hpc
    obtain ⟨l0', l', f1, f2, f3, f4⟩ := h.entry t ht
    rw [e2] at f1; cases f1
    have : rtrsChanged (some l) ((dictGet s.node.rtrs t).getD []) = false :=
      rtrsChanged_iff.mpr ⟨l, rfl, fun r => by rw [f2]; exact (e3 r).trans (f3 r).symm⟩
    rw [this]
    exact hgo _ (fun _ e => by cases e) (fun _ e => by cases e) (fun _ e => by cases e)
  · rename_i hpc; exact absurd hpc (h.sig t ht _)
  · rename_i hpc; exact absurd hpc (h.sig t ht _)
  · exact h

theorem RtrSettled.run {s0 : RtrSys} {l : List (Nat × MsrIn)} (hl : ∀ e ∈ l, e.1 ∈ dictKeys s0.node.threads ∧
    ∀ n, e.2.nat = .ok n → ∃ l0, dictGet s0.node.rtrs e.1 = some l0 ∧ SameRtrs (natRtrs n) l0) :
    ∀ {s : RtrSys}, RtrSettled s0 s → RtrSettled s0 (s.run l) := by
  induction l with
  | nil => intro s h; exact h
  | cons e l ih =>
    intro s h
    rw [run_cons]
    have he := hl e (by simp)
    exact ih (fun x hx => hl x (by simp [hx])) (h.step e.1 e.2 he.1 he.2)

theorem step_loc_other (s : RtrSys) {t j : Nat} (i : MsrIn) (h : j ≠ t) : (s.step t i).loc j = s.loc j := by
  unfold RtrSys.step
  split <;> (try split) <;> (try split) <;> first | rfl | exact setLoc_other _ _ h

theorem run_loc_other (l : List (Nat × MsrIn)) (j : Nat) (h : ∀ e ∈ l, e.1 ≠ j) : ∀ s : RtrSys,
    (s.run l).loc j = s.loc j := by
  induction l with
  | nil => intro s; rfl
  | cons e l ih =>
    intro s
    rw [run_cons, ih (fun x hx => h x (by simp [hx])), step_loc_other _ _ (Ne.symm (h e (by simp)))]

/-! ### the property -/

/-- C94: no change of the RTRs is lost.  However the registration threads of a node interleave: a thread that is asleep
and has not been told to register again has made its last registration with exactly the RTRs that are in use now, unless
some thread has just changed its RTRs and is still telling the others.  (No registration has raised an exception, RTRs
are IP addresses.) -/
theorem rtr_change_not_lost (node : EtrState) (hn : (dictKeys node.rtrs).Nodup)
    (hip : ∀ id l, dictGet node.rtrs id = some l → ∀ r ∈ l, IsIp r) (l : List (Nat × MsrIn))
    (hl : ∀ e ∈ l, e.1 ∈ dictKeys node.threads ∧ FineStep e.2) (s : RtrSys) (hs : s = RtrSys.run { node := node } l) (t : Nat)
    (ht : t ∈ dictKeys node.threads) (hsleep : (s.loc t).pc = .sleep) (hflag : s.node.flag t = false)
    (htell : ∀ j ∈ dictKeys node.threads, ¬ Telling (s.loc j).pc) (u : List Addr) (hu : lastUsed s t = some u) : UpToDate s u := by
  subst hs
  have htell : ∀ j, ¬ Telling ((RtrSys.run { node := node } l).loc j).pc := by
    intro j
    by_cases hj : j ∈ dictKeys node.threads
    · exact htell j hj
    · rw [run_loc_other l j (fun e he => by rintro rfl; exact hj (hl e he).1)]
      exact id
  have hinv := (RtrInv.start node hn hip).run fun e he => (hl e he).2
  rcases hinv.fresh t (by rw [keys_run]; exact ht) with h | h
  · rw [hsleep] at h; exact h.elim
  · rcases h u (by rw [madeWith_other (by rw [hsleep]; intro n u e; cases e)]; exact hu) with (h | ⟨j, o, h, _⟩ | ⟨j, o, h, _⟩) | h
    · rw [hflag] at h; cases h
    · have := htell j; rw [h] at this; exact absurd trivial this
    · have := htell j; rw [h] at this; exact absurd trivial this
    · intro r
      rw [h r, hsleep]
      exact ⟨fun h => h.elim id fun h => h.1.elim, .inl⟩

/-- C94: … so when all registration threads of a node are asleep and none has been told to register again, all
Map-Servers that got a registration got it with the same RTRs. -/
theorem map_servers_agree (node : EtrState) (hn : (dictKeys node.rtrs).Nodup)
    (hip : ∀ id l, dictGet node.rtrs id = some l → ∀ r ∈ l, IsIp r) (l : List (Nat × MsrIn))
    (hl : ∀ e ∈ l, e.1 ∈ dictKeys node.threads ∧ FineStep e.2) (s : RtrSys) (hs : s = RtrSys.run { node := node } l)
    (hsleep : ∀ t ∈ dictKeys node.threads, (s.loc t).pc = .sleep) (hflag : ∀ t ∈ dictKeys node.threads, s.node.flag t = false) (t t' : Nat)
    (ht : t ∈ dictKeys node.threads) (ht' : t' ∈ dictKeys node.threads) (u u' : List Addr)
    (hu : lastUsed s t = some u) (hu' : lastUsed s t' = some u') : SameRtrs u u' := by
  have htell : ∀ j ∈ dictKeys node.threads, ¬ Telling (s.loc j).pc := fun j hj => by rw [hsleep j hj]; exact id
  have h1 := rtr_change_not_lost node hn hip l hl s hs t ht (hsleep t ht) (hflag t ht) htell u hu
  have h2 := rtr_change_not_lost node hn hip l hl s hs t' ht' (hsleep t' ht') (hflag t' ht') htell u' hu'
  exact fun r => (h1 r).trans (h2 r).symm

/-- C94: once every thread has stored the RTRs of its NAT information and all are asleep, then as long as asking for NAT
information brings the same RTRs (or fails), nobody is told to register again, however the threads interleave and
whatever fails, and the RTRs in use stay the same. -/
theorem no_needless_signals (s : RtrSys) (l : List (Nat × MsrIn))
    (hsleep : ∀ t ∈ dictKeys s.node.threads, (s.loc t).pc = .sleep)
    (hset : ∀ t ∈ dictKeys s.node.threads, ∃ own, dictGet s.node.rtrs t = some own ∧
      SameRtrs (natRtrs (s.loc t).nat) own)
    (hl : ∀ e ∈ l, e.1 ∈ dictKeys s.node.threads ∧
      ∀ n, e.2.nat = .ok n → ∃ own, dictGet s.node.rtrs e.1 = some own ∧ SameRtrs (natRtrs n) own) :
    (∀ t ∈ dictKeys s.node.threads, (s.run l).node.flag t = true → s.node.flag t = true) ∧
    ∀ r, RtrInUse (s.run l) r ↔ RtrInUse s r := by
  have h0 : RtrSettled s s := {
    entry := fun t ht => by
      obtain ⟨own, h1, h2⟩ := hset t ht
      exact ⟨own, own, h1, h1, fun _ => Iff.rfl, h2⟩
    others := fun _ _ => rfl
    old := fun t ht o e => by rw [hsleep t ht] at e; cases e
    cmp := fun t ht o e => by rw [hsleep t ht] at e; cases e
    sig := fun t ht o e => by rw [hsleep t ht] at e; cases e
    keys := rfl
    flags := fun _ _ h => h }
  have h := h0.run hl
  refine ⟨h.flags, fun r => ⟨?_, ?_⟩⟩
  · rintro ⟨id, k, h1, h2⟩
    by_cases hid : id ∈ dictKeys s.node.threads
    · obtain ⟨l0, l', e1, e2, e3, _⟩ := h.entry id hid
      rw [h1] at e2; cases e2
      exact ⟨id, l0, e1, (e3 r).mp h2⟩
    · exact ⟨id, k, by rw [← h.others id hid]; exact h1, h2⟩
  · rintro ⟨id, k, h1, h2⟩
    by_cases hid : id ∈ dictKeys s.node.threads
    · obtain ⟨l0, l', e1, e2, e3, _⟩ := h.entry id hid
      rw [h1] at e1; cases e1
      exact ⟨id, l', e2, (e3 r).mpr h2⟩
    · exact ⟨id, k, by rw [h.others id hid]; exact h1, h2⟩

/-! ### one pass in this system is one pass of `runPass` -/

/-- the variables of thread `t`, its flag and its RTR set -/
def threadView (s : RtrSys) (t : Nat) : RunState :=
  { lastNat := (s.loc t).lastNat, lastReg := (s.loc t).lastReg, ok := (s.loc t).ok, needNew := s.node.flag t,
    nat := (s.loc t).nat, rtrs := dictGet s.node.rtrs t }

/-- thread `t` alone gets from `s` to `s'` -/
def Reaches (t : Nat) (i : MsrIn) (s s' : RtrSys) : Prop := ∃ k, s' = s.run (List.replicate k (t, i))

theorem Reaches.one (t : Nat) (i : MsrIn) (s : RtrSys) : Reaches t i s (s.step t i) := ⟨1, rfl⟩

theorem Reaches.head {t : Nat} {i : MsrIn} {s s' s'' : RtrSys} (h1 : s.step t i = s') (h2 : Reaches t i s' s'') :
    Reaches t i s s'' := by
  subst h1
  obtain ⟨k, rfl⟩ := h2
  exact ⟨k + 1, rfl⟩

theorem signal_all (t : Nat) (i : MsrIn) (todo : List Nat) : ∀ s : RtrSys, t ∈ dictKeys s.node.threads →
    (s.loc t).pc = .signal todo → ∃ s', Reaches t i s s' ∧ s'.loc t = { s.loc t with pc := .sleep } ∧
      s'.node.rtrs = s.node.rtrs ∧ s'.log = s.log ∧ s'.node.flag t = (s.node.flag t || decide (t ∈ todo)) := by
  induction todo with
  | nil =>
    intro s ht hpc
    refine ⟨s.goto t .sleep, ⟨1, ?_⟩, goto_same _ _ _, rfl, rfl, by simp [goto_node]⟩
    simp [RtrSys.run, RtrSys.step, hpc]
  | cons j js ih =>
    intro s ht hpc
    have hstep : s.step t i = RtrSys.goto { s with node := s.node.setFlag j true } t (.signal js) := by
      simp [RtrSys.step, hpc]
    obtain ⟨s', h1, h2, h3, h4, h5⟩ := ih (RtrSys.goto { s with node := s.node.setFlag j true } t (.signal js))
      (by rw [goto_node, keys_setFlag]; exact ht) (by rw [goto_same])
    refine ⟨s', h1.head hstep, by rw [h2, goto_same], h3, h4, ?_⟩
    rw [h5, goto_node, flag_setFlag _ _ _ _ ht]
    by_cases hj : t = j
    · simp [hj]
    · rw [if_neg hj]
      congr 1
      simp [hj]

theorem rtrsChanged_dedup (old : Option (List Addr)) (l : List Addr) :
    rtrsChanged old (l.foldl addNew []) = rtrsChanged old l := by
  cases old with
  | none => rfl
  | some o =>
    have h : ∀ r, r ∈ l.foldl addNew [] ↔ r ∈ l := by intro r; rw [mem_foldl_addNew]; simp
    have : rtrsChanged (some o) (l.foldl addNew []) = false ↔ rtrsChanged (some o) l = false := by
      rw [rtrsChanged_iff, rtrsChanged_iff]
      constructor
      · rintro ⟨o', h1, h2⟩; exact ⟨o', h1, fun r => (h2 r).trans (h r)⟩
      · rintro ⟨o', h1, h2⟩; exact ⟨o', h1, fun r => (h2 r).trans (h r).symm⟩
    cases h1 : rtrsChanged (some o) (l.foldl addNew []) <;> cases h2 : rtrsChanged (some o) l <;> simp_all

/-- from line 435 on -/
theorem register_alone (s : RtrSys) (t : Nat) (ht : t ∈ dictKeys s.node.threads) (p : Pass) (i : MsrIn)
    (hpc : (s.loc t).pc = .check p.now) (hlater : p.signalledLater = false)
    (hreg : ∀ f, p.regResult f = i.reg) (hr : ∃ rs, getRtrs s.node = .ok rs) :
    ∃ s', Reaches t i s s' ∧ (s'.loc t).pc = .sleep ∧
      threadView s' t = (passRegister (threadView s t) p).1 ∧
      s'.log.length = s.log.length + (if (passRegister (threadView s t) p).2.isSome && i.reg.isOk then 1 else 0) := by
  cases hdue : regDue (threadView s t) p.now with
  | false =>
    have hd : (!(s.loc t).ok || s.node.flag t || decide ((s.loc t).lastReg + regInterval < p.now)) = false := hdue
    refine ⟨s.goto t .sleep, Reaches.head (s' := s.goto t .sleep) ?_ ⟨0, rfl⟩, by rw [goto_same], ?_, ?_⟩
    · rw [RtrSys.step, hpc]; simp only [hd]; rfl
    · rw [passRegister, if_neg (by rw [hdue]; decide), hlater]
      simp [threadView, goto_same, goto_node]
    · simp [passRegister, hdue, goto_log]
  | true =>
    have hd : (!(s.loc t).ok || s.node.flag t || decide ((s.loc t).lastReg + regInterval < p.now)) = true := hdue
    obtain ⟨rs, hrs⟩ := hr
    have e1 : s.step t i = s.goto t (.reset p.now) := by
      rw [RtrSys.step, hpc]; simp only [hd]; rfl
    generalize hs1 : s.goto t (.reset p.now) = s1 at e1
    have l1 : s1.loc t = { s.loc t with pc := .reset p.now } := by rw [← hs1, goto_same]
    have n1 : s1.node = s.node := by rw [← hs1]; rfl
    have g1 : s1.log = s.log := by rw [← hs1]; rfl
    have e2 : s1.step t i = RtrSys.goto { s1 with node := s1.node.setFlag t false } t (.read p.now) := by
      simp [RtrSys.step, l1]
    generalize hs2 : RtrSys.goto { s1 with node := s1.node.setFlag t false } t (.read p.now) = s2 at e2
    have l2 : s2.loc t = { s.loc t with pc := .read p.now } := by rw [← hs2, goto_same]; simp [l1]
    have n2 : s2.node = s.node.setFlag t false := by rw [← hs2, ← n1]; rfl
    have g2 : s2.log = s.log := by rw [← hs2, ← g1]; rfl
    have r2 : getRtrs s2.node = .ok rs := by rw [n2]; exact hrs
    generalize hused : (natRtrs (s2.loc t).nat).foldl addNew (rs.map Addr.ip) = used
    have e3 : s2.step t i = s2.goto t (.sending p.now used) := by
      have : (s2.loc t).pc = .read p.now := by rw [l2]
      rw [RtrSys.step, this]; simp only [r2, hused]
    generalize hs3 : s2.goto t (.sending p.now used) = s3 at e3
    have l3 : s3.loc t = { s.loc t with pc := .sending p.now used } := by rw [← hs3, goto_same]; simp [l2]
    have n3 : s3.node = s.node.setFlag t false := by rw [← hs3, ← n2]; rfl
    have g3 : s3.log = s.log := by rw [← hs3, goto_log, g2]
    have f3 : s3.node.flag t = false := by rw [n3, flag_setFlag _ _ _ _ ht, if_pos rfl]
    have r3 : s3.node.rtrs = s.node.rtrs := by rw [n3]; rfl
    cases hi : i.reg with
    | error e =>
      refine ⟨s3.goto t .sleep, Reaches.head e1 (.head e2 (.head e3 (.head (s' := s3.goto t .sleep) ?_ ⟨0, rfl⟩))),
        by rw [goto_same], ?_, ?_⟩
      · rw [RtrSys.step, l3]; simp only [hi]
      · simp only [passRegister, hdue, if_true, hreg, hi, hlater]
        simp only [threadView, goto_same, goto_node, l3, f3, r3]
      · simp only [passRegister, hdue, if_true, hreg, hi, goto_log, g3]
        rfl
    | ok r =>
      have e4 : s3.step t i = RtrSys.setLoc { s3 with log := s3.log ++ [(t, used)] } t
          { s3.loc t with pc := .setOld, ok := r == some true, lastReg := p.now } := by
        have : (s3.loc t).pc = .sending p.now used := by rw [l3]
        rw [RtrSys.step, this]; simp only [hi]
      generalize hs4 : RtrSys.setLoc { s3 with log := s3.log ++ [(t, used)] } t
          { s3.loc t with pc := .setOld, ok := r == some true, lastReg := p.now } = s4 at e4
      have l4 : s4.loc t = { s.loc t with pc := .setOld, ok := r == some true, lastReg := p.now } := by
        rw [← hs4, setLoc_same]; simp [l3]
      have n4 : s4.node = s.node.setFlag t false := by rw [← hs4, ← n3]; rfl
      have g4 : s4.log.length = s.log.length + 1 := by
        rw [← hs4]
        show (s3.log ++ [(t, used)]).length = _
        rw [g3, List.length_append]; rfl
      have e5 : s4.step t i = s4.goto t (.setNew (dictGet s4.node.rtrs t)) := by
        have : (s4.loc t).pc = .setOld := by rw [l4]
        rw [RtrSys.step, this]
      generalize hs5 : s4.goto t (.setNew (dictGet s4.node.rtrs t)) = s5 at e5
      have l5 : s5.loc t = { s.loc t with
          pc := .setNew (dictGet s.node.rtrs t), ok := r == some true, lastReg := p.now } := by
        rw [← hs5, goto_same, l4, n4]; rfl
      have n5 : s5.node = s.node.setFlag t false := by rw [← hs5, ← n4]; rfl
      have g5 : s5.log.length = s.log.length + 1 := by rw [← hs5, ← g4]; rfl
      have e6 : s5.step t i = RtrSys.goto { s5 with node := { s5.node with
          rtrs := dictSet s5.node.rtrs t ((natRtrs (s5.loc t).nat).foldl addNew []) } } t
            (.compare (dictGet s.node.rtrs t)) := by
        have : (s5.loc t).pc = .setNew (dictGet s.node.rtrs t) := by rw [l5]
        rw [RtrSys.step, this]
      generalize hs6 : RtrSys.goto { s5 with node := { s5.node with
          rtrs := dictSet s5.node.rtrs t ((natRtrs (s5.loc t).nat).foldl addNew []) } } t
            (.compare (dictGet s.node.rtrs t)) = s6 at e6
      have l6 : s6.loc t = { s.loc t with
          pc := .compare (dictGet s.node.rtrs t), ok := r == some true, lastReg := p.now } := by
        rw [← hs6, goto_same]; simp [l5]
      have t6 : s6.node.threads = (s.node.setFlag t false).threads := by rw [← hs6, ← n5]; rfl
      have f6 : s6.node.flag t = false := by
        rw [EtrState.flag, t6]
        have := flag_setFlag s.node t t false ht
        rw [if_pos rfl, EtrState.flag] at this
        exact this
      have k6 : t ∈ dictKeys s6.node.threads := by rw [t6, keys_setFlag]; exact ht
      have r6 : dictGet s6.node.rtrs t = some ((natRtrs (s.loc t).nat).foldl addNew []) := by
        rw [← hs6, goto_node]
        show dictGet (dictSet s5.node.rtrs t ((natRtrs (s5.loc t).nat).foldl addNew [])) t = _
        rw [dictGet_set, if_pos rfl, l5]
      have g6 : s6.log.length = s.log.length + 1 := by rw [← hs6, ← g5]; rfl
      have p6 : (s6.loc t).pc = .compare (dictGet s.node.rtrs t) := by rw [l6]
      cases hc : rtrsChanged (dictGet s.node.rtrs t) (natRtrs (s.loc t).nat) with
      | false =>
        refine ⟨s6.goto t .sleep, Reaches.head e1 (.head e2 (.head e3 (.head e4 (.head e5 (.head e6 (.head
          (s' := s6.goto t .sleep) ?_ ⟨0, rfl⟩)))))), by rw [goto_same], ?_, ?_⟩
        · rw [RtrSys.step, p6]
          simp only [r6, Option.getD_some, rtrsChanged_dedup, hc]
          rfl
        · simp only [passRegister, hdue, if_true, hreg, hi, hlater]
          simp only [threadView, goto_same, goto_node, l6, f6, r6, hc]
          rfl
        · simp only [passRegister, hdue, if_true, hreg, hi, goto_log, g6]
          rfl
      | true =>
        have e7 : s6.step t i = s6.goto t (.signal (dictKeys s6.node.threads)) := by
          rw [RtrSys.step, p6]
          simp only [r6, Option.getD_some, rtrsChanged_dedup, hc]
          rfl
        obtain ⟨s', h1, h2, h3, h4, h5⟩ := signal_all t i (dictKeys s6.node.threads)
          (s6.goto t (.signal (dictKeys s6.node.threads))) k6 (by rw [goto_same])
        have f7 : s'.node.flag t = true := by rw [h5]; simp [k6]
        have r7 : dictGet s'.node.rtrs t = some ((natRtrs (s.loc t).nat).foldl addNew []) := by
          rw [h3]; exact r6
        refine ⟨s', Reaches.head e1 (.head e2 (.head e3 (.head e4 (.head e5 (.head e6 (.head e7 h1)))))),
          by rw [h2], ?_, ?_⟩
        · simp only [passRegister, hdue, if_true, hreg, hi, hlater]
          simp only [threadView, h2, goto_same, l6, f7, r7, hc]
          rfl
        · simp only [passRegister, hdue, if_true, hreg, hi, h4, goto_log, g6]
          rfl

/-- C94: the system is made of the passes of C53: a thread that nobody disturbs does in one pass exactly what `runPass`
says about its variables, its flag and its RTR set, and makes a registration in it exactly when that says so and nothing
is raised. -/
theorem pass_alone (s : RtrSys) (t : Nat) (ht : t ∈ dictKeys s.node.threads) (p : Pass) (reg : Except Err (Option Bool))
    (hpc : (s.loc t).pc = .sleep) (hstop : p.stop = false) (hsig : p.signalled = false)
    (hlater : p.signalledLater = false) (hreg : ∀ f, p.regResult f = reg)
    (hr : ∃ rs, getRtrs s.node = .ok rs) :
    ∃ k o, runPass (threadView s t) p =
        some (threadView (s.run (List.replicate k (t, ⟨false, p.now, p.natResult, reg⟩))) t, o) ∧
      ((s.run (List.replicate k (t, ⟨false, p.now, p.natResult, reg⟩))).loc t).pc = .sleep ∧
      (s.run (List.replicate k (t, ⟨false, p.now, p.natResult, reg⟩))).log.length =
        s.log.length + (if o.registered.isSome && reg.isOk then 1 else 0) := by
  suffices h : ∃ s', Reaches t ⟨false, p.now, p.natResult, reg⟩ s s' ∧ (s'.loc t).pc = .sleep ∧
      ∃ o, runPass (threadView s t) p = some (threadView s' t, o) ∧
        s'.log.length = s.log.length + (if o.registered.isSome && reg.isOk then 1 else 0) by
    obtain ⟨s', ⟨k, rfl⟩, h2, o, h3, h4⟩ := h
    exact ⟨k, o, h3, h2, h4⟩
  have hbegin : passBegin (threadView s t) p = threadView s t := by
    simp [passBegin, hsig]
  cases hdue : natDue (threadView s t) p.now with
  | false =>
    have hd : (!(s.loc t).ok || decide ((s.loc t).lastNat + natInterval < p.now)) = false := hdue
    obtain ⟨s', h1, h2, h3, h4⟩ := register_alone (s.goto t (.check p.now)) t ht p
      ⟨false, p.now, p.natResult, reg⟩ (by rw [goto_same]) hlater hreg hr
    have hv : threadView (s.goto t (.check p.now)) t = threadView s t := by
      simp [threadView, goto_same, goto_node]
    rw [hv] at h3 h4
    refine ⟨s', h1.head ?_, h2, ⟨false, (passRegister (threadView s t) p).2⟩, ?_, h4⟩
    · rw [RtrSys.step, hpc]; simp only [hd]; rfl
    · rw [runPass, if_neg (by rw [hstop]; decide), if_neg (by rw [hdue]; decide), hbegin, h3]
  | true =>
    have hd : (!(s.loc t).ok || decide ((s.loc t).lastNat + natInterval < p.now)) = true := hdue
    have e1 : s.step t ⟨false, p.now, p.natResult, reg⟩ = s.goto t (.asking p.now) := by
      rw [RtrSys.step, hpc]; simp only [hd]; rfl
    cases hn : p.natResult with
    | error e =>
      rw [hn] at e1
      refine ⟨(s.goto t (.asking p.now)).goto t .sleep, Reaches.head e1 (.head
        (s' := (s.goto t (.asking p.now)).goto t .sleep) ?_ ⟨0, rfl⟩), by rw [goto_same],
        ⟨true, none⟩, ?_, rfl⟩
      · rw [RtrSys.step, goto_same]
      · rw [runPass, if_neg (by rw [hstop]; decide), if_pos hdue, hn]
        simp only [hsig, hlater, Bool.or_false]
        simp only [threadView, goto_same, goto_node]
    | ok n =>
      rw [hn] at e1
      generalize hs1 : s.goto t (.asking p.now) = s1 at e1
      have l1 : s1.loc t = { s.loc t with pc := .asking p.now } := by rw [← hs1, goto_same]
      have n1 : s1.node = s.node := by rw [← hs1]; rfl
      have g1 : s1.log = s.log := by rw [← hs1]; rfl
      obtain ⟨s', h1, h2, h3, h4⟩ := register_alone
        (s1.setLoc t { s1.loc t with pc := .check p.now, nat := n, lastNat := p.now, ok := false }) t
        (by show t ∈ dictKeys s1.node.threads; rw [n1]; exact ht) p
        ⟨false, p.now, .ok n, reg⟩ (by rw [setLoc_same]) hlater hreg
        (by show ∃ rs, getRtrs s1.node = .ok rs; rw [n1]; exact hr)
      have hv : threadView (s1.setLoc t { s1.loc t with pc := .check p.now, nat := n, lastNat := p.now, ok := false }) t =
          passAsked (passBegin (threadView s t) p) p.now n := by
        rw [hbegin]
        simp only [threadView, setLoc_same]
        have n2 : (s1.setLoc t { s1.loc t with
            pc := .check p.now, nat := n, lastNat := p.now, ok := false }).node = s.node := n1
        rw [n2, l1]
        rfl
      rw [hv] at h3 h4
      refine ⟨s', Reaches.head e1 (h1.head ?_), h2, ⟨true, (passRegister (passAsked (passBegin (threadView s t) p)
        p.now n) p).2⟩, ?_, ?_⟩
      · rw [RtrSys.step, l1]
      · rw [runPass, if_neg (by rw [hstop]; decide), if_pos hdue, hn]
        simp only [h3]
      · rw [h4]
        show s1.log.length + _ = _
        rw [g1]

/-! ### the threads do not make each other register for ever -/

/-- in this step a thread finds its RTRs changed, and starts to tell all threads -/
def Tells (s : RtrSys) (e : Nat × MsrIn) : Bool :=
  match (s.loc e.1).pc, ((s.step e.1 e.2).loc e.1).pc with
  | .compare _, .signal _ => true
  | _, _ => false

/-- how often that happens in a run -/
def tellings : RtrSys → List (Nat × MsrIn) → Nat
  | _, [] => 0
  | s, e :: l => (Tells s e).toNat + tellings (s.step e.1 e.2) l

theorem rtrsChanged_congr {o : Option (List Addr)} {a b : List Addr} (h : SameRtrs a b) :
    rtrsChanged o a = rtrsChanged o b := by
  have : rtrsChanged o a = false ↔ rtrsChanged o b = false := by
    rw [rtrsChanged_iff, rtrsChanged_iff]
    constructor
    · rintro ⟨o', h1, h2⟩; exact ⟨o', h1, fun r => (h2 r).trans (h r)⟩
    · rintro ⟨o', h1, h2⟩; exact ⟨o', h1, fun r => (h2 r).trans (h r).symm⟩
  cases h1 : rtrsChanged o a <;> cases h2 : rtrsChanged o b <;> simp_all

/-- the thread has found its RTRs changed -/
def changedPc (entry : Option (List Addr)) : MsrPc → Nat
  | .compare old => (rtrsChanged old (entry.getD [])).toNat
  | _ => 0

/-- how often a thread can still find its RTRs changed, when asking for NAT information brings `goal` from now on -/
def changesLeft (goal : List Addr) (l : MsrLoc) (entry : Option (List Addr)) : Nat :=
  (!sameSet (natRtrs l.nat) goal).toNat + (rtrsChanged entry (natRtrs l.nat)).toNat + changedPc entry l.pc

theorem toNat_le_one (b : Bool) : b.toNat ≤ 1 := by cases b <;> decide

theorem changesLeft_step (goal : List Addr) (s : RtrSys) (t : Nat) (i : MsrIn)
    (hold : ∀ old, (s.loc t).pc = .setNew old → old = dictGet s.node.rtrs t)
    (hi : ∀ n, i.nat = .ok n → SameRtrs (natRtrs n) goal) :
    changesLeft goal ((s.step t i).loc t) (dictGet (s.step t i).node.rtrs t) + (Tells s (t, i)).toNat ≤
      changesLeft goal (s.loc t) (dictGet s.node.rtrs t) := by
  -- a step that leaves the NAT information and the RTR sets alone and goes to no comparison
  have move : ∀ s' : RtrSys, s.step t i = s' → (s'.loc t).nat = (s.loc t).nat → s'.node.rtrs = s.node.rtrs →
      (∀ o, (s'.loc t).pc ≠ .compare o) → (∀ o, (s.loc t).pc ≠ .compare o) →
      changesLeft goal ((s.step t i).loc t) (dictGet (s.step t i).node.rtrs t) + (Tells s (t, i)).toNat ≤
        changesLeft goal (s.loc t) (dictGet s.node.rtrs t) := by
    intro s' hs h1 h2 h3 h4
    have ht : Tells s (t, i) = false := by
      unfold Tells
      split
      · rename_i o _ e _; exact absurd e (h4 o)
      · rfl
    have hz : changedPc (dictGet s.node.rtrs t) (s'.loc t).pc = 0 := by
      unfold changedPc
      split
      · rename_i o e; exact absurd e (h3 o)
      · rfl
    rw [ht, hs]
    unfold changesLeft
    rw [h1, h2, hz]
    simp only [Bool.toNat_false]
    omega
  cases hpc : (s.loc t).pc with
  | sleep =>
    have hne : ∀ o, (s.loc t).pc ≠ .compare o := by rw [hpc]; intro o e; cases e
    refine move _ rfl ?_ ?_ ?_ hne <;> unfold RtrSys.step <;> rw [hpc] <;> simp only <;> (repeat' split) <;>
      first | rfl | (rw [goto_same]; done) | (rw [goto_same]; intro o e; cases e)
  | asking now =>
    have hne : ∀ o, (s.loc t).pc ≠ .compare o := by rw [hpc]; intro o e; cases e
    cases hn : i.nat with
    | error e =>
      have hs : s.step t i = s.goto t .sleep := by unfold RtrSys.step; rw [hpc]; simp only [hn]
      exact move _ hs (by rw [goto_same]) rfl (by rw [goto_same]; intro o e; cases e) hne
    | ok n =>
      have hs : s.step t i = s.setLoc t { s.loc t with pc := .check now, nat := n, lastNat := now, ok := false } := by
        unfold RtrSys.step; rw [hpc]; simp only [hn]
      have ht : Tells s (t, i) = false := by unfold Tells; simp only [hpc]
      have hg := hi n hn
      rw [ht, hs, setLoc_same]
      unfold changesLeft
      have h1 : sameSet (natRtrs n) goal = true := sameSet_iff.mpr hg
      simp only [h1, hpc, changedPc, Bool.not_true, Bool.toNat_false, Nat.add_zero, Nat.zero_add]
      show (rtrsChanged (dictGet s.node.rtrs t) (natRtrs n)).toNat ≤ _
      cases h2 : sameSet (natRtrs (s.loc t).nat) goal with
      | true =>
        have h2 := sameSet_iff.mp h2
        rw [rtrsChanged_congr (o := dictGet s.node.rtrs t) (show SameRtrs (natRtrs n) (natRtrs (s.loc t).nat) from
          fun r => (hg r).trans (h2 r).symm)]
        simp
      | false =>
        have := toNat_le_one (rtrsChanged (dictGet s.node.rtrs t) (natRtrs n))
        simp only [Bool.not_false, Bool.toNat_true]
        omega
  | check now =>
    have hne : ∀ o, (s.loc t).pc ≠ .compare o := by rw [hpc]; intro o e; cases e
    refine move _ rfl ?_ ?_ ?_ hne <;> unfold RtrSys.step <;> rw [hpc] <;> simp only <;> (repeat' split) <;>
      first | rfl | (rw [goto_same]; done) | (rw [goto_same]; intro o e; cases e)
  | reset now =>
    have hne : ∀ o, (s.loc t).pc ≠ .compare o := by rw [hpc]; intro o e; cases e
    refine move _ rfl ?_ ?_ ?_ hne <;> unfold RtrSys.step <;> rw [hpc] <;> simp only <;>
      first | rfl | (rw [goto_same]; done) | (rw [goto_same]; intro o e; cases e)
  | read now =>
    have hne : ∀ o, (s.loc t).pc ≠ .compare o := by rw [hpc]; intro o e; cases e
    refine move _ rfl ?_ ?_ ?_ hne <;> unfold RtrSys.step <;> rw [hpc] <;> simp only <;> (repeat' split) <;>
      first | rfl | (rw [goto_same]; done) | (rw [goto_same]; intro o e; cases e)
  | sending now used =>
    have hne : ∀ o, (s.loc t).pc ≠ .compare o := by rw [hpc]; intro o e; cases e
    refine move _ rfl ?_ ?_ ?_ hne <;> unfold RtrSys.step <;> rw [hpc] <;> simp only <;> (repeat' split) <;>
      first | rfl | (rw [goto_same]; done) | (rw [goto_same]; intro o e; cases e) | (rw [setLoc_same]; done) |
        (rw [setLoc_same]; intro o e; cases e)
  | setOld =>
    have hne : ∀ o, (s.loc t).pc ≠ .compare o := by rw [hpc]; intro o e; cases e
    refine move _ rfl ?_ ?_ ?_ hne <;> unfold RtrSys.step <;> rw [hpc] <;> simp only <;>
      first | rfl | (rw [goto_same]; done) | (rw [goto_same]; intro o e; cases e)
  | setNew old =>
    have hold := hold old hpc
    have ht : Tells s (t, i) = false := by unfold Tells; simp only [hpc]
    have hs : s.step t i = RtrSys.goto { s with node := { s.node with
        rtrs := dictSet s.node.rtrs t ((natRtrs (s.loc t).nat).foldl addNew []) } } t (.compare old) := by
      unfold RtrSys.step; rw [hpc]
    have hget : dictGet (s.step t i).node.rtrs t = some ((natRtrs (s.loc t).nat).foldl addNew []) := by
      rw [hs]; exact (dictGet_set _ t t _).trans (if_pos rfl)
    rw [hget, ht, hs, goto_same]
    unfold changesLeft
    have h1 : rtrsChanged (some ((natRtrs (s.loc t).nat).foldl addNew [])) (natRtrs (s.loc t).nat) = false :=
      rtrsChanged_iff.mpr ⟨_, rfl, fun r => by rw [mem_foldl_addNew]; simp⟩
    simp only [h1, changedPc, Option.getD_some, rtrsChanged_dedup, hpc, hold, Bool.toNat_false]
    omega
  | compare old =>
    by_cases hc : rtrsChanged old ((dictGet s.node.rtrs t).getD []) = true
    · have hs : s.step t i = s.goto t (.signal (dictKeys s.node.threads)) := by
        unfold RtrSys.step; rw [hpc]; simp only [hc]; rfl
      have := toNat_le_one (Tells s (t, i))
      rw [hs, goto_same]
      unfold changesLeft
      simp only [changedPc, hpc, hc, Bool.toNat_true, goto_node]
      omega
    · have hs : s.step t i = s.goto t .sleep := by
        unfold RtrSys.step; rw [hpc]; simp only [hc]; rfl
      have ht : Tells s (t, i) = false := by
        unfold Tells
        simp only [hs, goto_same, hpc]
      rw [ht, hs, goto_same]
      unfold changesLeft
      simp only [changedPc, goto_node, Bool.toNat_false]
      omega
  | signal todo =>
    have hne : ∀ o, (s.loc t).pc ≠ .compare o := by rw [hpc]; intro o e; cases e
    cases todo with
    | nil =>
      refine move _ rfl ?_ ?_ ?_ hne <;> unfold RtrSys.step <;> rw [hpc] <;> simp only <;>
        first | rfl | (rw [goto_same]; done) | (rw [goto_same]; intro o e; cases e)
    | cons j js =>
      refine move _ rfl ?_ ?_ ?_ hne <;> unfold RtrSys.step <;> rw [hpc] <;> simp only <;>
        first | rfl | (rw [goto_same]; done) | (rw [goto_same]; intro o e; cases e)
  | ended =>
    have hne : ∀ o, (s.loc t).pc ≠ .compare o := by rw [hpc]; intro o e; cases e
    have hs : s.step t i = s := by unfold RtrSys.step; rw [hpc]
    exact move _ hs rfl rfl hne hne

theorem step_rtrs_other (s : RtrSys) {t j : Nat} (i : MsrIn) (h : j ≠ t) :
    dictGet (s.step t i).node.rtrs j = dictGet s.node.rtrs j := by
  unfold RtrSys.step
  split <;> (try split) <;> (try split) <;> first | rfl | exact (dictGet_set _ _ _ _).trans (if_neg h)

theorem step_old (s : RtrSys) (j : Nat) (h : ∀ old, (s.loc j).pc = .setNew old → old = dictGet s.node.rtrs j) (t : Nat)
    (i : MsrIn) (old : Option (List Addr)) (hj : ((s.step t i).loc j).pc = .setNew old) :
    old = dictGet (s.step t i).node.rtrs j := by
  by_cases hjt : j = t
  · subst hjt
    unfold RtrSys.step at hj ⊢
    revert hj
    split <;> (try split) <;> (try split) <;> (try rw [goto_same]) <;> (try rw [setLoc_same]) <;> intro hj <;>
      first
        | (cases hj; done)
        | (cases hj; rfl)
        | (exact h old hj)
  · rw [step_loc_other _ _ hjt] at hj
    rw [step_rtrs_other _ _ hjt]
    exact h old hj

theorem sum_le_sum {l : List Nat} {f g : Nat → Nat} (h : ∀ x ∈ l, f x ≤ g x) :
    (l.map f).sum ≤ (l.map g).sum := by
  induction l with
  | nil => exact Nat.le_refl _
  | cons x l ih =>
    have h1 := h x (by simp)
    have h2 := ih fun y hy => h y (by simp [hy])
    simp only [List.map_cons, List.sum_cons]
    omega

theorem sum_lt_sum {l : List Nat} {f g : Nat → Nat} (h : ∀ x ∈ l, f x ≤ g x) (t : Nat) (ht : t ∈ l) (d : Nat)
    (hd : f t + d ≤ g t) : (l.map f).sum + d ≤ (l.map g).sum := by
  induction l with
  | nil => cases ht
  | cons x l ih =>
    simp only [List.map_cons, List.sum_cons]
    rcases List.mem_cons.mp ht with rfl | ht
    · have h2 := sum_le_sum (fun y hy => h y (List.mem_cons_of_mem _ hy))
      omega
    · have h1 := h x (by simp)
      have h2 := ih (fun y hy => h y (List.mem_cons_of_mem _ hy)) ht
      omega

/-- the same for all threads together -/
def allChangesLeft (goal : Nat → List Addr) (ids : List Nat) (s : RtrSys) : Nat :=
  (ids.map fun t => changesLeft (goal t) (s.loc t) (dictGet s.node.rtrs t)).sum

theorem tellings_le (goal : Nat → List Addr) (ids : List Nat) (l : List (Nat × MsrIn))
    (hl : ∀ e ∈ l, e.1 ∈ ids ∧ ∀ n, e.2.nat = .ok n → SameRtrs (natRtrs n) (goal e.1)) : ∀ s : RtrSys,
    (∀ t ∈ ids, ∀ old, (s.loc t).pc = .setNew old → old = dictGet s.node.rtrs t) → tellings s l ≤ allChangesLeft goal ids s := by
  induction l with
  | nil => intro s _; exact Nat.zero_le _
  | cons e l ih =>
    intro s hold
    obtain ⟨t, i⟩ := e
    have he := hl (t, i) (by simp)
    have h1 := ih (fun x hx => hl x (by simp [hx])) (s.step t i) (fun j hj => step_old s j (hold j hj) t i)
    have h2 := changesLeft_step (goal t) s t i (hold t he.1) he.2
    have h3 : allChangesLeft goal ids (s.step t i) + (Tells s (t, i)).toNat ≤ allChangesLeft goal ids s := by
      refine sum_lt_sum ?_ t he.1 _ h2
      intro j _
      by_cases hj : j = t
      · subst hj; omega
      · rw [step_loc_other _ _ hj, step_rtrs_other _ _ hj]
        exact Nat.le_refl _
    show (Tells s (t, i)).toNat + tellings (s.step t i) l ≤ _
    omega

/-- C94: the threads do not make each other register for ever.  From a moment at which all are asleep, as long as asking
for NAT information (when it succeeds) brings each thread the same RTRs, the threads tell each other at most twice per
thread, in every interleaving, however long it goes on and whatever fails. -/
theorem tellings_bounded (s : RtrSys) (hsleep : ∀ t ∈ dictKeys s.node.threads, (s.loc t).pc = .sleep) (goal : Nat → List Addr)
    (l : List (Nat × MsrIn)) (hl : ∀ e ∈ l, e.1 ∈ dictKeys s.node.threads ∧
      ∀ n, e.2.nat = .ok n → SameRtrs (natRtrs n) (goal e.1)) :
    tellings s l ≤ 2 * s.node.threads.length := by
  refine Nat.le_trans (tellings_le goal (dictKeys s.node.threads) l hl s
    (fun t ht old e => by rw [hsleep t ht] at e; cases e)) ?_
  have hlen : s.node.threads.length = (dictKeys s.node.threads).length := by simp [dictKeys]
  rw [hlen]
  unfold allChangesLeft
  generalize dictKeys s.node.threads = ids at hsleep
  clear hl hlen
  induction ids with
  | nil => exact Nat.le_refl _
  | cons t ids ih =>
    have : changesLeft (goal t) (s.loc t) (dictGet s.node.rtrs t) ≤ 2 := by
      unfold changesLeft
      rw [hsleep t (by simp)]
      have h1 := toNat_le_one (!sameSet (natRtrs (s.loc t).nat) (goal t))
      have h2 := toNat_le_one (rtrsChanged (dictGet s.node.rtrs t) (natRtrs (s.loc t).nat))
      simp only [changedPc]
      omega
    have ih := ih fun x hx => hsleep x (by simp [hx])
    simp only [List.map_cons, List.sum_cons, List.length_cons]
    omega

/-! ### the theorems apply -/

/-- two registrations, nothing learned yet -/
def exRtrNode : EtrState := { threads := [(0, false), (1, false)] }

def exRtr : Addr := .ip ⟨.v4, 0xc0000209, by decide⟩

/-- a step without NAT, one with an RTR; the registration succeeds -/
def exPlain (now : Int) : MsrIn := ⟨false, now, .ok none, .ok (some true)⟩
def exNated (now : Int) : MsrIn :=
  ⟨false, now, .ok (some ⟨4341, .none, ⟨.v4, 0x0a000001, by decide⟩, [exRtr]⟩), .ok (some true)⟩

/-- both threads register twice (the first registration always tells everybody), step by step in turn; thread 1 has
learned of an RTR -/
def exRtrRun : List (Nat × MsrIn) :=
  (List.replicate 12 [(0, exPlain 1000000000), (1, exNated 1000000000)]).flatten ++
  (List.replicate 8 [(0, exPlain 1005000000), (1, exNated 1005000000)]).flatten

theorem exRtrRun_fine : ∀ e ∈ exRtrRun, e.1 ∈ dictKeys exRtrNode.threads ∧ FineStep e.2 := by
  have h1 : ∀ t, FineStep (exPlain t) := fun t => ⟨⟨_, rfl⟩, fun n hn r hr => by cases hn; cases hr⟩
  have h2 : ∀ t, FineStep (exNated t) := fun t => ⟨⟨_, rfl⟩, fun n hn r hr => by
    cases hn
    rcases List.mem_cons.mp hr with rfl | hr
    · exact ⟨_, rfl⟩
    · cases hr⟩
  intro e he
  simp only [exRtrRun, List.mem_append, List.mem_flatten, List.mem_replicate] at he
  rcases he with ⟨l, ⟨_, rfl⟩, h⟩ | ⟨l, ⟨_, rfl⟩, h⟩ <;> rcases List.mem_cons.mp h with rfl | h
  · exact ⟨by decide, h1 _⟩
  · rcases List.mem_cons.mp h with rfl | h
    · exact ⟨by decide, h2 _⟩
    · cases h
  · exact ⟨by decide, h1 _⟩
  · rcases List.mem_cons.mp h with rfl | h
    · exact ⟨by decide, h2 _⟩
    · cases h

example : SameRtrs [exRtr] [exRtr] := by
  have hf : (RtrSys.run { node := exRtrNode } exRtrRun).node.flag 0 = false ∧
      (RtrSys.run { node := exRtrNode } exRtrRun).node.flag 1 = false ∧
      lastUsed (RtrSys.run { node := exRtrNode } exRtrRun) 0 = some [exRtr] ∧
      lastUsed (RtrSys.run { node := exRtrNode } exRtrRun) 1 = some [exRtr] := by decide +kernel
  refine map_servers_agree exRtrNode (by decide) (fun id l h => by cases h) exRtrRun exRtrRun_fine _ rfl ?_ ?_ 0 1
    (by decide) (by decide) [exRtr] [exRtr] hf.2.2.1 hf.2.2.2
  · intro t ht
    simp [exRtrNode, dictKeys] at ht
    rcases ht with rfl | rfl <;> rfl
  · intro t ht
    simp [exRtrNode, dictKeys] at ht
    rcases ht with rfl | rfl
    · exact hf.1
    · exact hf.2.1

/-- from there on nobody is told to register any more, e.g. during the next passes -/
example : (RtrSys.run (RtrSys.run { node := exRtrNode } exRtrRun)
    [(0, exPlain 2000000000), (1, exNated 2000000000), (1, exNated 2000000000), (0, exPlain 2000000000)]).node.flag 1 =
    false := by
  have h := no_needless_signals (RtrSys.run { node := exRtrNode } exRtrRun)
    [(0, exPlain 2000000000), (1, exNated 2000000000), (1, exNated 2000000000), (0, exPlain 2000000000)]
    (by
      intro t ht
      rw [keys_run] at ht
      simp [exRtrNode, dictKeys] at ht
      rcases ht with rfl | rfl <;> rfl)
    (by
      intro t ht
      rw [keys_run] at ht
      simp [exRtrNode, dictKeys] at ht
      rcases ht with rfl | rfl
      · exact ⟨[], rfl, fun _ => Iff.rfl⟩
      · exact ⟨[exRtr], rfl, fun _ => Iff.rfl⟩)
    (by
      intro e he
      rw [keys_run]
      simp only [List.mem_cons, List.not_mem_nil, or_false] at he
      rcases he with rfl | rfl | rfl | rfl
      · exact ⟨by decide, fun n hn => by cases hn; exact ⟨[], rfl, fun _ => Iff.rfl⟩⟩
      · exact ⟨by decide, fun n hn => by cases hn; exact ⟨[exRtr], rfl, fun _ => Iff.rfl⟩⟩
      · exact ⟨by decide, fun n hn => by cases hn; exact ⟨[exRtr], rfl, fun _ => Iff.rfl⟩⟩
      · exact ⟨by decide, fun n hn => by cases hn; exact ⟨[], rfl, fun _ => Iff.rfl⟩⟩)
  cases hb : (RtrSys.run (RtrSys.run { node := exRtrNode } exRtrRun) _).node.flag 1 with
  | false => rfl
  | true =>
    have h1 := h.1 1 (by decide) hb
    have h2 : (RtrSys.run { node := exRtrNode } exRtrRun).node.flag 1 = false := by decide +kernel
    rw [h2] at h1
    exact h1.symm

/-- in that run the threads tell each other twice, of the four times that are allowed -/
example : tellings { node := exRtrNode } exRtrRun = 2 ∧ 2 ≤ 2 * exRtrNode.threads.length := by decide +kernel

example : tellings { node := exRtrNode } exRtrRun ≤ 2 * exRtrNode.threads.length := by
  refine tellings_bounded { node := exRtrNode } (fun _ _ => rfl) (fun t => if t = 0 then [] else [exRtr]) exRtrRun ?_
  intro e he
  simp only [exRtrRun, List.mem_append, List.mem_flatten, List.mem_replicate] at he
  rcases he with ⟨l, ⟨_, rfl⟩, h⟩ | ⟨l, ⟨_, rfl⟩, h⟩ <;> rcases List.mem_cons.mp h with rfl | h
  · exact ⟨(exRtrRun_fine _ (by simp [exRtrRun])).1, fun n hn => by cases hn; exact fun _ => Iff.rfl⟩
  · rcases List.mem_cons.mp h with rfl | h
    · exact ⟨(exRtrRun_fine _ (by simp [exRtrRun])).1, fun n hn => by cases hn; exact fun _ => Iff.rfl⟩
    · cases h
  · exact ⟨(exRtrRun_fine _ (by simp [exRtrRun])).1, fun n hn => by cases hn; exact fun _ => Iff.rfl⟩
  · rcases List.mem_cons.mp h with rfl | h
    · exact ⟨(exRtrRun_fine _ (by simp [exRtrRun])).1, fun n hn => by cases hn; exact fun _ => Iff.rfl⟩
    · cases h

example : ∃ k o, runPass (threadView { node := exRtrNode } 0)
      { now := 1000000000, natResult := .ok none, regResult := fun _ => .ok (some true) } =
    some (threadView (RtrSys.run { node := exRtrNode } (List.replicate k (0, exPlain 1000000000))) 0, o) := by
  obtain ⟨k, o, h, _⟩ := pass_alone { node := exRtrNode } 0 (by decide)
    { now := 1000000000, natResult := .ok none, regResult := fun _ => .ok (some true) } (.ok (some true)) rfl rfl rfl rfl
    (fun _ => rfl) ⟨[], rfl⟩
  exact ⟨k, o, h⟩

/-- a registration that raises, then nothing -/
def exFails (now : Int) : MsrIn := ⟨false, now, .ok none, .error .type⟩

/-- C94: the one way to lose a change: a registration that raises an exception.  Both threads are registered without RTRs
and quiet; then thread 1 learns of an RTR (after 15 minutes) and tells thread 0, whose registration raises (the socket,
say): thread 0 is asleep, nobody is going to tell it, and its Map-Server still has a registration without the RTR (until
the next registration after 60 seconds). -/
theorem rtr_change_can_be_lost : ∃ l : List (Nat × MsrIn), (∀ e ∈ l, e.1 ∈ dictKeys exRtrNode.threads) ∧
    ∃ s, s = RtrSys.run { node := exRtrNode } l ∧ (s.loc 0).pc = .sleep ∧ (s.loc 1).pc = .sleep ∧
      s.node.flag 0 = false ∧ (s.loc 0).ok = true ∧ lastUsed s 0 = some [] ∧ RtrInUse s exRtr := by
  refine ⟨List.replicate 12 (1, exPlain 990000000) ++ List.replicate 12 (0, exPlain 1000000000) ++
    (List.replicate 8 [(0, exPlain 1840000000), (1, exPlain 1840000000)]).flatten ++
    List.replicate 12 (1, exNated 1891000000) ++ List.replicate 5 (0, exFails 1892000000), ?_, _, rfl, ?_⟩
  · decide +kernel
  · exact ⟨rfl, rfl, by decide +kernel, by decide +kernel, by decide +kernel, 1, [exRtr], by decide +kernel, by simp⟩

end PyLisp.Props
