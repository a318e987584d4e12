import Verif.MsInv
import Verif.Props.Auth
import Verif.Props.Tree
import Verif.Props.Lookup
/-
C45–C47: the Map-Server.
-/
namespace PyLisp.Props
open PyLisp

/-! ### C45 -/

/-- the scope rule of a site with prefix `pfx`: the EID lies inside it, and is equal to it unless
more-specifics are allowed -/
def InScope (conf : MsConf) (pfx p : Net) : Prop :=
  Inside p pfx ∧ (p = pfx ∨ conf.allowMoreSpecifics = true)

theorem determine_net (p : Net) : determine (.net p) = some (0, familyNumber p.ver, .net p) := by
  simp [determine, Addr.getAddresses, afi_family]

/-- the scope tests of the code -/
theorem scope_tests {conf : MsConf} {pfx p : Net} :
    InScope conf pfx p ↔ ¬ (p.overlaps pfx = false ∨ p.plen < pfx.plen) ∧
      ¬ (p.plen > pfx.plen ∧ conf.allowMoreSpecifics = false) := by
  unfold InScope
  rw [inside_iff]
  constructor
  · rintro ⟨h1, h2⟩
    have ho := Net.covers_overlaps h1
    rw [Net.overlaps_comm] at ho
    have hle := Net.covers_plen h1
    refine ⟨?_, ?_⟩
    · rintro (h | h)
      · rw [ho] at h; cases h
      · omega
    · rintro ⟨h3, h4⟩
      rcases h2 with rfl | h2
      · omega
      · rw [h2] at h4; cases h4
  · rintro ⟨h1, h2⟩
    have ho : p.overlaps pfx = true := by
      cases h : p.overlaps pfx with
      | true => rfl
      | false => exact absurd (.inl h) h1
    have hl : ¬ p.plen < pfx.plen := fun h => h1 (.inr h)
    have hi : pfx.covers p = true := Net.covers_of_plen (by rw [Net.overlaps_comm]; exact ho) (by omega)
    refine ⟨hi, ?_⟩
    by_cases he : p.plen = pfx.plen
    · exact .inl (Net.covers_antisymm (Net.covers_of_plen ho (by omega)) hi)
    · right
      cases hb : conf.allowMoreSpecifics with
      | true => rfl
      | false => exact absurd ⟨by omega, hb⟩ h2

theorem handleRegisterRecord_net (H : Mac) (conf : MsConf) (pfx : Net) (s : Store) (m : MapRegister)
    (source : IP) (now : Int) (record : Record) (p : Net) (hp : record.eid = .net p) :
    handleRegisterRecord H conf pfx s m source now record =
      match m.verify H conf.key with
      | .error e => .error e
      | .ok false => .error .msAuth
      | .ok true =>
        if p.overlaps pfx = false ∨ p.plen < pfx.plen then .error .msScope
        else if p.plen > pfx.plen ∧ conf.allowMoreSpecifics = false then .error .msScope
        else .ok (s.put p (canonicalSource m source) (newRegistration now record m.proxyMapReply)) := by
  unfold handleRegisterRecord
  rw [hp, determine_net]
  match m.verify H conf.key with
  | .error e => rfl
  | .ok false => rfl
  | .ok true => rfl

/-- C45: a record is accepted exactly when the message authenticates with the site's key and the EID
is in the site's scope. -/
theorem registration_accepted_iff (H : Mac) (conf : MsConf) (pfx : Net) (s : Store)
    (m : MapRegister) (source : IP) (now : Int) (record : Record) (p : Net)
    (hp : record.eid = .net p) :
    (∃ s', handleRegisterRecord H conf pfx s m source now record = .ok s') ↔
      m.verify H conf.key = .ok true ∧ InScope conf pfx p := by
  rw [handleRegisterRecord_net H conf pfx s m source now record p hp, scope_tests]
  match hv : m.verify H conf.key with
  | .error e => exact ⟨(fun ⟨_, h⟩ => by cases h), (fun ⟨h, _⟩ => by cases h)⟩
  | .ok false => exact ⟨(fun ⟨_, h⟩ => by cases h), (fun ⟨h, _⟩ => by cases h)⟩
  | .ok true =>
    simp only []
    by_cases h1 : p.overlaps pfx = false ∨ p.plen < pfx.plen
    · rw [if_pos h1]
      exact ⟨(fun ⟨_, h⟩ => by cases h), fun h => absurd h1 h.2.1⟩
    · rw [if_neg h1]
      by_cases h2 : p.plen > pfx.plen ∧ conf.allowMoreSpecifics = false
      · rw [if_pos h2]
        exact ⟨(fun ⟨_, h⟩ => by cases h), fun h => absurd h2 h.2.2⟩
      · rw [if_neg h2]
        exact ⟨fun _ => ⟨trivial, h1, h2⟩, fun _ => ⟨_, rfl⟩⟩

/-- C45: an accepted record becomes the registration of its EID and sender, valid for 180 s (times
are in µs), and nothing else in the store changes. -/
theorem registration_stored (H : Mac) (conf : MsConf) (pfx : Net) (s s' : Store)
    (m : MapRegister) (source : IP) (now : Int) (record : Record) (p : Net)
    (hp : record.eid = .net p)
    (h : handleRegisterRecord H conf pfx s m source now record = .ok s') (q : Net) (src : Source) :
    s'.get q src =
      if q = p ∧ src = (if m.xtrId = 0 then .addr source else .xtr m.siteId m.xtrId) then
        some { record := record, proxy := m.proxyMapReply, deadline := now + 180000000 }
      else s.get q src := by
  have hc : canonicalSource m source = if m.xtrId = 0 then .addr source else .xtr m.siteId m.xtrId := by
    unfold canonicalSource
    by_cases hx : m.xtrId = 0 <;> simp [hx]
  rw [handleRegisterRecord_net H conf pfx s m source now record p hp] at h
  rw [← hc]
  split at h
  · cases h
  · cases h
  · split at h
    · cases h
    · split at h
      · cases h
      · cases h
        rw [Store.get_put]
        rfl

/-- C45: a record that is not accepted raises the authentication error when the message does not
authenticate, and the scope error when only the scope is wrong.  (The store is only changed on
success: there is no new store in these cases.) -/
theorem registration_rejected (H : Mac) (conf : MsConf) (pfx : Net) (s : Store)
    (m : MapRegister) (source : IP) (now : Int) (record : Record) (p : Net)
    (hp : record.eid = .net p) :
    (m.verify H conf.key = .ok false →
      handleRegisterRecord H conf pfx s m source now record = .error .msAuth) ∧
    (m.verify H conf.key = .ok true → ¬ InScope conf pfx p →
      handleRegisterRecord H conf pfx s m source now record = .error .msScope) ∧
    (∀ e, m.verify H conf.key = .error e →
      handleRegisterRecord H conf pfx s m source now record = .error e) := by
  rw [handleRegisterRecord_net H conf pfx s m source now record p hp, scope_tests]
  refine ⟨fun h => by rw [h], fun h hns => ?_, fun e h => by rw [h]⟩
  rw [h]
  show (if _ then _ else _) = _
  by_cases h1 : p.overlaps pfx = false ∨ p.plen < pfx.plen
  · rw [if_pos h1]
  · rw [if_neg h1]
    by_cases h2 : p.plen > pfx.plen ∧ conf.allowMoreSpecifics = false
    · rw [if_pos h2]
    · exact absurd ⟨h1, h2⟩ hns

theorem received_record {d : Bytes} {m : MapRegister} (hm : MapRegister.fromBytes d = .ok m)
    {r : Record} (hr : r ∈ m.records) : r.sanitize = .ok r ∧ ∃ b, encRecord r = .ok b := by
  obtain ⟨rest, hrd⟩ := runOn_iff.mp hm
  obtain ⟨raw, h1, h2⟩ := readMapRegister_ok hrd
  obtain ⟨a1, a2, a3, rs, a4, rfl⟩ := MapRegister.sanitize_ok.mp h2
  simp only [readMapRegisterRaw, Rd.bind_ok, Rd.pure_ok_iff] at h1
  obtain ⟨_, _, _, _, _, _, _, _, _, _, _, _, _, _, _, _, _, _, _, _, _, cnt, _, hc, _, _, _, _, _, _,
    len, _, hl, au, _, hau, _, _, hrec, _, _, _, rfl, _⟩ := h1
  have hfix : ∀ r ∈ rs, r.sanitize = .ok r := by
    have a4' := a4
    rw [sanitizeAll_fix (fun r hr => by
      obtain ⟨_, _, h1⟩ := readN_mem hrec r hr
      exact readRecord_fix h1)] at a4'
    cases a4'
    intro r hr
    obtain ⟨_, _, h1⟩ := readN_mem hrec r hr
    exact readRecord_fix h1
  exact ⟨hfix r hr, (readRecords_writable hrec a4).2 r hr⟩

/-- C45: every record of a received Map-Register has a network as its EID. -/
theorem received_record_eid (d : Bytes) (m : MapRegister) (hm : MapRegister.fromBytes d = .ok m)
    (r : Record) (hr : r ∈ m.records) : ∃ p, r.eid = .net p := by
  obtain ⟨h, _⟩ := received_record hm hr
  obtain ⟨_, _, _, ⟨n, hn⟩, _⟩ := Record.sanitize_ok.mp h
  exact ⟨n, hn⟩

/-- a message that passes for one from somebody who has the key: it has no authentication data and key
id 0, or, serialised again, it carries the MAC that the key gives it -/
def Genuine (H : Mac) (key : Bytes) (m : MapRegister) : Prop :=
  (m.keyId = 0 ∧ m.authData = []) ∨ ∃ d, m.toBytes = .ok d ∧ Authentic H key d

theorem genuine_iff (H : Mac) (key d : Bytes) (m : MapRegister) (hm : MapRegister.fromBytes d = .ok m) :
    m.verify H key = .ok true ↔ Genuine H key m := by
  obtain ⟨h1, h2⟩ := register_verify_any H m key d hm
  by_cases ha : m.authData = []
  · rw [h2 ha, Genuine]
    simp only [Except.ok.injEq, decide_eq_true_eq, ha, and_true]
    refine ⟨.inl, fun h => h.elim id fun ⟨d', hd', _⟩ => ?_⟩
    exact absurd ha ((map_register_reserialises_iff d m hm).mp ⟨d', hd'⟩)
  · obtain ⟨d', hd', _, hv⟩ := h1 ha
    rw [hv, Genuine]
    refine ⟨fun h => .inr ⟨d', hd', h⟩, fun h => ?_⟩
    rcases h with ⟨_, h⟩ | ⟨d'', hd'', h⟩
    · exact absurd h ha
    · rw [hd'] at hd''; cases hd''; exact h

theorem received_verify {d : Bytes} {m : MapRegister} (hm : MapRegister.fromBytes d = .ok m) (H : Mac)
    (key : Bytes) : ∃ b, m.verify H key = .ok b := by
  obtain ⟨rest, hrd⟩ := runOn_iff.mp hm
  obtain ⟨d', hd'⟩ := map_register_writable_with d m hm [0] (by simp) (by simp)
  exact register_verify_total H m key _ d' hd' (readMapRegister_nonce hrd)

/-- C45: for a message that arrived as bytes, the authentication error, the scope error or
acceptance are the only outcomes; acceptance means that the message, serialised again, carries the
MAC that the site's key gives it (for key id 0: no authentication data at all), and that its EID is
in scope. -/
theorem registration_received (H : Mac) (conf : MsConf) (pfx : Net) (s : Store) (d : Bytes)
    (m : MapRegister) (hm : MapRegister.fromBytes d = .ok m) (source : IP) (now : Int)
    (record : Record) (hr : record ∈ m.records) :
    ∃ p, record.eid = .net p ∧
      ((∃ s', handleRegisterRecord H conf pfx s m source now record = .ok s') ↔
        Genuine H conf.key m ∧ InScope conf pfx p) ∧
      (¬ Genuine H conf.key m →
        handleRegisterRecord H conf pfx s m source now record = .error .msAuth) ∧
      (Genuine H conf.key m → ¬ InScope conf pfx p →
        handleRegisterRecord H conf pfx s m source now record = .error .msScope) := by
  obtain ⟨p, hp⟩ := received_record_eid d m hm record hr
  have hv := genuine_iff H conf.key d m hm
  obtain ⟨b, hb⟩ := received_verify hm H conf.key
  obtain ⟨e1, e2, e3⟩ := registration_rejected H conf pfx s m source now record p hp
  refine ⟨p, hp, ?_, ?_, ?_⟩
  · rw [registration_accepted_iff H conf pfx s m source now record p hp, hv]
  · intro hna
    refine e1 ?_
    cases b with
    | false => exact hb
    | true => exact absurd (hv.mp hb) hna
  · intro ha hns
    exact e2 (hv.mpr ha) hns

/-- C45: the site's key protects nothing against messages with key id 0: a Map-Register without
authentication data is accepted by every site, whatever its key. -/
theorem registration_unauthenticated (H : Mac) (conf : MsConf) (pfx : Net) (s : Store)
    (m : MapRegister) (hk : m.keyId = 0) (ha : m.authData = []) (source : IP) (now : Int)
    (record : Record) (p : Net) (hp : record.eid = .net p) (hs : InScope conf pfx p) :
    ∃ s', handleRegisterRecord H conf pfx s m source now record = .ok s' :=
  (registration_accepted_iff H conf pfx s m source now record p hp).mpr
    ⟨register_unauthenticated_verifies H m hk ha conf.key, hs⟩

/-! ### C46 -/

/-- `r` is the latest registration of the EID and sender in the history, and no cleanup pass since
then worked with a time after its deadline -/
def Live (evs : List MsEvent) (p : Net) (src : Source) (r : Registration) : Prop :=
  ∃ before after, evs = before ++ .register p src r :: after ∧
    (∀ r', .register p src r' ∉ after) ∧ ∀ t, .pass t ∈ after → t ≤ r.deadline

theorem foldl_view (evs : List MsEvent) : ∀ (v : MsView) (p : Net) (src : Source) (r : Registration),
    evs.foldl MsView.apply v p src = some r ↔
      Live evs p src r ∨ ((∀ r', .register p src r' ∉ evs) ∧ (∀ t, .pass t ∈ evs → t ≤ r.deadline) ∧
        v p src = some r) := by
  induction evs with
  | nil =>
    intro v p src r
    simp only [List.foldl_nil]
    constructor
    · intro h; exact .inr ⟨by simp, by simp, h⟩
    · rintro (⟨b, a, h, _⟩ | h)
      · simp at h
      · exact h.2.2
  | cons e evs ih =>
    intro v p src r
    rw [List.foldl_cons, ih]
    have hlive : Live (e :: evs) p src r ↔ Live evs p src r ∨ (e = .register p src r ∧
        (∀ r', .register p src r' ∉ evs) ∧ ∀ t, .pass t ∈ evs → t ≤ r.deadline) := by
      constructor
      · rintro ⟨b, a, h, h1, h2⟩
        cases b with
        | nil => simp at h; obtain ⟨rfl, rfl⟩ := h; exact .inr ⟨rfl, h1, h2⟩
        | cons e' b => simp at h; obtain ⟨rfl, rfl⟩ := h; exact .inl ⟨b, a, rfl, h1, h2⟩
      · rintro (⟨b, a, rfl, h1, h2⟩ | ⟨rfl, h1, h2⟩)
        · exact ⟨e :: b, a, rfl, h1, h2⟩
        · exact ⟨[], evs, rfl, h1, h2⟩
    rw [hlive]
    cases e with
    | register q s' r' =>
      simp only [MsView.apply]
      by_cases hq : p = q ∧ src = s'
      · obtain ⟨rfl, rfl⟩ := hq
        simp only [and_self, if_true]
        constructor
        · rintro (h | ⟨h1, h2, h3⟩)
          · exact .inl (.inl h)
          · cases h3; exact .inl (.inr ⟨rfl, h1, h2⟩)
        · rintro ((h | ⟨h1, h2, h3⟩) | ⟨h1, _⟩)
          · exact .inl h
          · cases h1; exact .inr ⟨h2, h3, rfl⟩
          · exact absurd List.mem_cons_self (h1 r')
      · simp only [if_neg hq]
        have hne : ∀ x, MsEvent.register q s' r' ≠ .register p src x := by
          intro x h; cases h; exact hq ⟨rfl, rfl⟩
        constructor
        · rintro (h | ⟨h1, h2, h3⟩)
          · exact .inl (.inl h)
          · refine .inr ⟨?_, ?_, h3⟩
            · intro x hx
              rcases List.mem_cons.mp hx with h | h
              · exact hne x h.symm
              · exact h1 x h
            · intro t ht
              rcases List.mem_cons.mp ht with h | h
              · cases h
              · exact h2 t h
        · rintro ((h | ⟨h1, _⟩) | ⟨h1, h2, h3⟩)
          · exact .inl h
          · exact absurd h1 (hne r)
          · exact .inr ⟨fun x hx => h1 x (List.mem_cons_of_mem _ hx),
              fun t ht => h2 t (List.mem_cons_of_mem _ ht), h3⟩
    | pass u =>
      simp only [MsView.apply]
      have hf : (v p src).filter (fun r => decide (u ≤ r.deadline)) = some r ↔
          v p src = some r ∧ u ≤ r.deadline := by
        rw [Option.filter_eq_some_iff]; simp
      rw [hf]
      constructor
      · rintro (h | ⟨h1, h2, h3, h4⟩)
        · exact .inl (.inl h)
        · refine .inr ⟨?_, ?_, h3⟩
          · intro x hx
            rcases List.mem_cons.mp hx with h | h
            · cases h
            · exact h1 x h
          · intro t ht
            rcases List.mem_cons.mp ht with h | h
            · cases h; exact h4
            · exact h2 t h
      · rintro ((h | ⟨h1, _⟩) | ⟨h1, h2, h3⟩)
        · exact .inl h
        · cases h1
        · exact .inr ⟨fun x hx => h1 x (List.mem_cons_of_mem _ hx),
            fun t ht => h2 t (List.mem_cons_of_mem _ ht), h3, h2 u List.mem_cons_self⟩

theorem view_iff (evs : List MsEvent) (p : Net) (src : Source) (r : Registration) :
    MsView.after evs p src = some r ↔ Live evs p src r := by
  unfold MsView.after
  rw [foldl_view]
  constructor
  · rintro (h | ⟨_, _, h⟩)
    · exact h
    · cases h
  · exact .inl

/-- C46: in every interleaving of the two threads, whenever nobody holds the lock the store contains
exactly the live registrations. -/
theorem store_exact (clock : Int) (evs : List MsEvent) (s : MsState)
    (h : MsRun (MsState.init clock) evs s) (hf : s.owner = .nobody) (p : Net) (src : Source)
    (r : Registration) : s.store.get p src = some r ↔ Live evs p src r := by
  have ctl := (MsInv.run h).ctl
  rw [hf] at ctl
  generalize s.reg = re at ctl
  generalize s.clean = cl at ctl
  cases ctl with
  | free _ _ hs _ => rw [hs, view_iff]

/-- C46: a registration event happens when the handler writes it, and sets the deadline 180 s after
the clock at that moment. -/
theorem registration_deadline (s s' : MsState) (p : Net) (src : Source) (r : Registration)
    (h : MsStep s (some (.register p src r)) s') : r.deadline = s.clock + 180000000 := by
  cases h; rfl

/-- executions in which the clock never goes back -/
inductive MonoRun : MsState → List MsEvent → MsState → Prop
  | nil (s : MsState) : MonoRun s [] s
  | snoc {s s' s'' : MsState} {evs : List MsEvent} {e : Option MsEvent} (h : MonoRun s evs s')
      (hs : MsStep s' e s'') (hm : s'.clock ≤ s''.clock) : MonoRun s (evs ++ e.toList) s''

theorem MonoRun.run {s s' : MsState} {evs : List MsEvent} (h : MonoRun s evs s') : MsRun s evs s' := by
  induction h with
  | nil => exact .nil _
  | snoc _ hs _ ih => exact .snoc ih hs

/-- C46: with a clock that never goes back, the latest registration of an EID and sender stays in the
store at least until its deadline, however the threads interleave. -/
theorem not_deleted_early (clock : Int) (before after : List MsEvent) (s : MsState) (p : Net)
    (src : Source) (r : Registration)
    (h : MonoRun (MsState.init clock) (before ++ .register p src r :: after) s)
    (hl : ∀ r', .register p src r' ∉ after) (hf : s.owner = .nobody) (ht : s.clock ≤ r.deadline) :
    s.store.get p src = some r := by
  refine (store_exact clock _ s h.run hf p src r).mpr ⟨before, after, rfl, hl, fun t hp => ?_⟩
  have htimes : MsTimes (before ++ .register p src r :: after) s := by
    clear hf ht hl
    generalize before ++ MsEvent.register p src r :: after = evs at h
    induction h with
    | nil => exact ⟨(fun t ht => by cases ht), (fun t ht => by cases ht)⟩
    | snoc _ hs hm ih => exact ih.step hs hm
  exact Int.le_trans (htimes.past t (by simp [hp])) ht

/-- C46: after a pass that worked with time `t`, what is in the store was registered since or has a
deadline not before `t`. -/
theorem expired_gone (clock : Int) (before after : List MsEvent) (t : Int) (s : MsState)
    (h : MsRun (MsState.init clock) (before ++ .pass t :: after) s) (hf : s.owner = .nobody)
    (p : Net) (src : Source) (r : Registration) (hg : s.store.get p src = some r) :
    .register p src r ∈ after ∨ t ≤ r.deadline := by
  obtain ⟨b, a, he, h1, h2⟩ := (store_exact clock _ s h hf p src r).mp hg
  rcases List.append_eq_append_iff.mp he with ⟨x, hx1, hx2⟩ | ⟨x, hx1, hx2⟩
  · cases x with
    | nil => simp at hx2
    | cons e x =>
      simp at hx2
      obtain ⟨_, hx2⟩ := hx2
      left; rw [hx2]; simp
  · cases x with
    | nil => simp at hx2
    | cons e x =>
      simp at hx2
      obtain ⟨_, hx2⟩ := hx2
      right; refine h2 t ?_; rw [hx2]; simp

/-- C46: whenever nobody holds the lock, no EID has an empty entry. -/
theorem no_empty_entry (clock : Int) (evs : List MsEvent) (s : MsState)
    (h : MsRun (MsState.init clock) evs s) (hf : s.owner = .nobody) (p : Net)
    (m : List (Source × Registration)) (hm : dictGet s.store p = some m) : m ≠ [] := by
  have ctl := (MsInv.run h).ctl
  rw [hf] at ctl
  generalize s.reg = re at ctl
  generalize s.clean = cl at ctl
  cases ctl with
  | free _ _ _ hn => exact hn p m hm

/-- C46: neither thread ever looks up a key that is not there (no KeyError): the cleanup thread finds
every prefix and source it visits, the handler the entry it has just made. -/
theorem no_key_error (clock : Int) (evs : List MsEvent) (s : MsState)
    (h : MsRun (MsState.init clock) evs s) :
    (∀ now p todo, s.clean = .outer now (p :: todo) → ∃ m, dictGet s.store p = some m) ∧
    (∀ now p src ss todo, s.clean = .inner now p (src :: ss) todo → ∃ r, s.store.get p src = some r) ∧
    (∀ now p ss todo, s.clean = .inner now p ss todo → ∃ m, dictGet s.store p = some m) ∧
    (∀ p src rec proxy, s.reg = .ensured p src rec proxy → ∃ m, dictGet s.store p = some m) := by
  have ctl := (MsInv.run h).ctl
  generalize s.owner = ow at ctl
  refine ⟨?_, ?_, ?_, ?_⟩
  · intro now p todo hc
    rw [hc] at ctl
    generalize s.reg = re at ctl
    cases ctl with
    | outer _ _ _ _ hk => exact mem_keys.mp (hk p (by simp))
    | free _ hc => exact hc.elim
    | locked _ _ _ _ _ hc => exact hc.elim
    | ensured _ _ _ _ _ hc => exact hc.elim
    | stored _ hc => exact hc.elim
  · intro now p src ss todo hc
    rw [hc] at ctl
    generalize s.reg = re at ctl
    cases ctl with
    | inner _ _ _ _ _ _ _ hs =>
      exact Option.ne_none_iff_exists'.mp (hs src (by simp))
    | free _ hc => exact hc.elim
    | locked _ _ _ _ _ hc => exact hc.elim
    | ensured _ _ _ _ _ hc => exact hc.elim
    | stored _ hc => exact hc.elim
  · intro now p ss todo hc
    rw [hc] at ctl
    generalize s.reg = re at ctl
    cases ctl with
    | inner _ _ _ _ _ _ _ _ hk => exact mem_keys.mp (hk p (by simp))
    | free _ hc => exact hc.elim
    | locked _ _ _ _ _ hc => exact hc.elim
    | ensured _ _ _ _ _ hc => exact hc.elim
    | stored _ hc => exact hc.elim
  · intro p src rec proxy hr
    rw [hr] at ctl
    generalize s.clean = cl at ctl
    cases ctl with
    | ensured _ _ _ _ _ _ _ hp => exact mem_keys.mp hp

theorem dictSet_set [DecidableEq κ] (d : List (κ × υ)) (k : κ) (v w : υ) :
    dictSet (dictSet d k v) k w = dictSet d k w := by
  induction d with
  | nil => simp [dictSet]
  | cons e d ih =>
    obtain ⟨k1, v1⟩ := e
    by_cases h : k1 = k
    · subst h; simp [dictSet]
    · simp [dictSet, h, ih]

/-- C46: the handler's steps, from taking the lock to writing, change the store like the single
update of `handle_map_register_record` in C45. -/
theorem register_steps (s s1 s2 : MsState) (p : Net) (src : Source) (rec : Record) (proxy : Bool)
    (e1 e2 : Option MsEvent) (h0 : s.reg = .locked p src rec proxy) (h1 : MsStep s e1 s1)
    (hr1 : s1.reg = .ensured p src rec proxy) (h2 : MsStep s1 e2 s2) (hr2 : s2.reg = .stored) :
    s2.store = s.store.put p src (newRegistration s1.clock rec proxy) := by
  have hs1 : s1.store = if (dictGet s.store p).isNone = true then dictSet s.store p [] else s.store := by
    cases h1 <;> simp_all
  have hs2 : ∃ m, dictGet s1.store p = some m ∧
      s2.store = dictSet s1.store p (dictSet m src (newRegistration s1.clock rec proxy)) := by
    cases h2 <;> simp_all
  obtain ⟨m, hm, hs2⟩ := hs2
  rw [hs2, hs1]
  rw [hs1] at hm
  unfold Store.put
  cases hg : dictGet s.store p with
  | none =>
    rw [hg] at hm
    simp only [Option.isNone_none, if_true] at hm ⊢
    rw [dictGet_set] at hm
    simp at hm; subst hm
    simp [dictSet_set]
  | some m' =>
    rw [hg] at hm
    simp at hm
    rw [hg] at hm; cases hm
    simp

/-! ### C47 -/

/-- the address tree of instance 0 gives the Map-Server site with identity `i` and prefix `pfx` as
the answer for `p` (see C42 for what that answer is) -/
def SiteFor (cfg : Config) (p : Net) (i : Nat) (pfx : Net) : Prop :=
  ∃ root rest, cfg 0 (familyNumber p.ver) = some root ∧
    root.resolvePath p = .ok (.leaf .mapServer i pfx :: rest)

/-- the site that accepts the record: found in the tree, authenticated with its key, in its scope -/
def AcceptedBy (H : Mac) (cfg : Config) (conf : Nat → MsConf) (m : MapRegister) (r : Record)
    (i : Nat) : Prop :=
  ∃ p pfx, r.eid = .net p ∧ SiteFor cfg p i pfx ∧ m.verify H (conf i).key = .ok true ∧
    InScope (conf i) pfx p

/-- the lookup of the record's EID raises no exception: its instance and AFI are not configured, or
the search of the tree gives an answer -/
def Resolvable (cfg : Config) (r : Record) : Prop :=
  ∃ p, r.eid = .net p ∧
    (cfg 0 (familyNumber p.ver) = none ∨ ∃ root l, cfg 0 (familyNumber p.ver) = some root ∧ root.resolvePath p = .ok l)

theorem resolveIn_net (cfg : Config) (p : Net) : resolveIn cfg (determine (.net p)) =
    match cfg 0 (familyNumber p.ver) with
    | none => .ok none
    | some root =>
      match root.resolvePath p with
      | .error e => .error e
      | .ok l => .ok l.head? := by
  rw [determine_net, resolveIn, resolvePathIn]
  match cfg 0 (familyNumber p.ver) with
  | none => rfl
  | some root =>
    simp only [Target.toNet]
    cases root.resolvePath p with
    | error e => rfl
    | ok l => rfl

theorem siteFor_iff {cfg : Config} {p : Net} {i : Nat} {pfx : Net} : SiteFor cfg p i pfx ↔
    resolveIn cfg (determine (.net p)) = .ok (some (.leaf .mapServer i pfx)) := by
  rw [resolveIn_net]
  unfold SiteFor
  match cfg 0 (familyNumber p.ver) with
  | none => exact ⟨(fun ⟨_, _, h, _⟩ => by cases h), (fun h => by cases h)⟩
  | some root =>
    match hr : root.resolvePath p with
    | .error e =>
      simp only [hr]
      exact ⟨(fun ⟨_, _, h, h'⟩ => by cases h; rw [hr] at h'; cases h'), (fun h => by cases h)⟩
    | .ok l =>
      simp only [hr]
      constructor
      · rintro ⟨_, rest, h, h'⟩
        cases h; rw [hr] at h'; cases h'; rfl
      · intro h
        match l, h, hr with
        | [], h, hr => cases h
        | x :: rest, h, hr =>
          cases h
          exact ⟨root, rest, rfl, hr⟩

theorem acceptedBy_unique {H : Mac} {cfg : Config} {conf : Nat → MsConf} {m : MapRegister}
    {r : Record} {i j : Nat} (h1 : AcceptedBy H cfg conf m r i) (h2 : AcceptedBy H cfg conf m r j) :
    i = j := by
  obtain ⟨p, pfx, e1, s1, _⟩ := h1
  obtain ⟨p', pfx', e2, s2, _⟩ := h2
  rw [e1] at e2; cases e2
  rw [siteFor_iff] at s1 s2
  rw [s1] at s2; cases s2; rfl

open Classical in
/-- the records that some site accepts, in order -/
noncomputable def accepted (H : Mac) (cfg : Config) (conf : Nat → MsConf) (m : MapRegister)
    (rs : List Record) : List Record := rs.filter fun r => decide (∃ i, AcceptedBy H cfg conf m r i)

open Classical in
/-- the last of the records that site `i` accepts for EID `q` -/
noncomputable def lastFor (H : Mac) (cfg : Config) (conf : Nat → MsConf) (m : MapRegister)
    (rs : List Record) (i : Nat) (q : Net) : Option Record :=
  (rs.filter fun r => decide (AcceptedBy H cfg conf m r i ∧ r.eid = .net q)).getLast?

/-- the registration that an accepted record becomes -/
def asRegistration (m : MapRegister) (now : Int) (r : Record) : Registration :=
  { record := r, proxy := m.proxyMapReply, deadline := now + 180000000 }

/-- who sent the message: the xTR with its ids, or else the source address -/
def sender (m : MapRegister) (source : IP) : Source :=
  if m.xtrId = 0 then .addr source else .xtr m.siteId m.xtrId

/-- one record of the loop -/
theorem loop_step (H : Mac) (cfg : Config) (conf : Nat → MsConf) (m : MapRegister) (source : IP)
    (now : Int) (st : Nat → Store) (done : List Record) (key : Bytes) (r : Record)
    (hr : Resolvable cfg r) (hv : ∀ key, ∃ b, m.verify H key = .ok b) :
    (∃ i p s', AcceptedBy H cfg conf m r i ∧ r.eid = .net p ∧
      (∀ q src, Store.get s' q src = if q = p ∧ src = sender m source then
        some (asRegistration m now r) else (st i).get q src) ∧
      ∀ rs, registerLoop H cfg conf m source now st done key (r :: rs) =
        registerLoop H cfg conf m source now (fun j => if j = i then s' else st j)
          (done ++ [r]) (conf i).key rs) ∨
    ((¬ ∃ i, AcceptedBy H cfg conf m r i) ∧ ∀ rs,
      registerLoop H cfg conf m source now st done key (r :: rs) =
        registerLoop H cfg conf m source now st done key rs) := by
  obtain ⟨p, hp, hres⟩ := hr
  have hok : ∃ n, resolveIn cfg (determine r.eid) = .ok n := by
    rw [hp, resolveIn_net]
    rcases hres with h | ⟨root, l, h, h'⟩
    · rw [h]; exact ⟨_, rfl⟩
    · rw [h]; simp only [h']; exact ⟨_, rfl⟩
  obtain ⟨n, hn⟩ := hok
  have hno : (∀ i pfx, n ≠ some (.leaf .mapServer i pfx)) →
      (¬ ∃ i, AcceptedBy H cfg conf m r i) := by
    rintro hne ⟨i, p', pfx, e, hs, _⟩
    rw [siteFor_iff, ← e, hn] at hs
    exact hne i pfx (Except.ok.inj hs)
  by_cases hms : ∃ i pfx, n = some (.leaf .mapServer i pfx)
  · obtain ⟨i, pfx, rfl⟩ := hms
    have hsite : SiteFor cfg p i pfx := by rw [siteFor_iff, ← hp]; exact hn
    have hacc : AcceptedBy H cfg conf m r i ↔
        m.verify H (conf i).key = .ok true ∧ InScope (conf i) pfx p := by
      constructor
      · rintro ⟨p', pfx', e, hs, h1, h2⟩
        rw [hp] at e; cases e
        rw [siteFor_iff, ← hp, hn] at hs; cases hs
        exact ⟨h1, h2⟩
      · rintro ⟨h1, h2⟩; exact ⟨p, pfx, hp, hsite, h1, h2⟩
    have hnacc : ¬ AcceptedBy H cfg conf m r i → ¬ ∃ j, AcceptedBy H cfg conf m r j := by
      rintro hna ⟨j, hj⟩
      have hj' := hj
      obtain ⟨p', pfx', e, hs, _⟩ := hj
      rw [siteFor_iff, ← e, hn] at hs; cases hs
      exact hna hj'
    obtain ⟨e1, e2, _⟩ := registration_rejected H (conf i) pfx (st i) m source now r p hp
    by_cases ha : AcceptedBy H cfg conf m r i
    · left
      obtain ⟨s', hs'⟩ :=
        (registration_accepted_iff H (conf i) pfx (st i) m source now r p hp).mpr (hacc.mp ha)
      refine ⟨i, p, s', ha, hp,
        registration_stored H (conf i) pfx (st i) s' m source now r p hp hs', fun rs => ?_⟩
      rw [registerLoop, hn]
      simp only [hs']
    · right
      refine ⟨hnacc ha, fun rs => ?_⟩
      rw [registerLoop, hn]
      obtain ⟨b, hb⟩ := hv (conf i).key
      cases b with
      | false => simp only [e1 hb]
      | true =>
        have := e2 hb (fun h => ha (hacc.mpr ⟨hb, h⟩))
        simp only [this]
  · right
    have hne : ∀ i pfx, n ≠ some (.leaf .mapServer i pfx) := fun i pfx h => hms ⟨i, pfx, h⟩
    refine ⟨hno hne, fun rs => ?_⟩
    rw [registerLoop, hn]
    split
    · rename_i h; cases h
    · rename_i i pfx h; cases h; exact absurd rfl (hne _ _)
    · rfl

theorem registerLoop_spec (H : Mac) (cfg : Config) (conf : Nat → MsConf) (m : MapRegister)
    (source : IP) (now : Int) (hv : ∀ key, ∃ b, m.verify H key = .ok b) (rs : List Record) :
    ∀ (st : Nat → Store) (done : List Record) (key : Bytes), (∀ r ∈ rs, Resolvable cfg r) →
    ∃ st' key', (∀ rest, registerLoop H cfg conf m source now st done key (rs ++ rest) =
        registerLoop H cfg conf m source now st' (done ++ accepted H cfg conf m rs) key' rest) ∧
      (accepted H cfg conf m rs = [] → key' = key) ∧
      (∀ r, (accepted H cfg conf m rs).getLast? = some r →
        ∃ i, AcceptedBy H cfg conf m r i ∧ key' = (conf i).key) ∧
      ∀ j q src, (st' j).get q src =
        match lastFor H cfg conf m rs j q with
        | some r => if src = sender m source then some (asRegistration m now r)
            else (st j).get q src
        | none => (st j).get q src := by
  induction rs with
  | nil =>
    intro st done key _
    exact ⟨st, key, by simp [accepted], fun _ => rfl, by simp [accepted],
      by simp [lastFor]⟩
  | cons r rs ih =>
    intro st done key hres
    have hres' : ∀ r ∈ rs, Resolvable cfg r := fun x hx => hres x (List.mem_cons_of_mem _ hx)
    rcases loop_step H cfg conf m source now st done key r (hres r (by simp)) hv with
      ⟨i, p, s', ha, hp, hs', hstep⟩ | ⟨hna, hstep⟩
    · have hacc : accepted H cfg conf m (r :: rs) = r :: accepted H cfg conf m rs := by
        unfold accepted
        rw [List.filter_cons_of_pos]
        simpa using ⟨i, ha⟩
      obtain ⟨st', key', h1, h2, h3, h4⟩ := ih (fun j => if j = i then s' else st j) (done ++ [r])
        (conf i).key hres'
      refine ⟨st', key', ?_, ?_, ?_, ?_⟩
      · intro rest; rw [List.cons_append, hstep, h1, hacc]; simp
      · rw [hacc]; intro h; cases h
      · rw [hacc]
        intro x hx
        by_cases he : accepted H cfg conf m rs = []
        · rw [he] at hx; simp at hx; subst hx
          exact ⟨i, ha, h2 he⟩
        · obtain ⟨y, hy⟩ : ∃ y, (accepted H cfg conf m rs).getLast? = some y := by
            match hl : (accepted H cfg conf m rs).getLast? with
            | some y => exact ⟨y, rfl⟩
            | none => exact absurd (List.getLast?_eq_none_iff.mp hl) he
          rw [List.getLast?_cons, hy] at hx
          simp at hx; subst hx
          exact h3 y hy
      · intro j q src
        rw [h4]
        have hcons : lastFor H cfg conf m (r :: rs) j q =
            match lastFor H cfg conf m rs j q with
            | some x => some x
            | none => if j = i ∧ q = p then some r else none := by
          unfold lastFor
          by_cases hc : AcceptedBy H cfg conf m r j ∧ r.eid = .net q
          · have hj := acceptedBy_unique hc.1 ha
            have hq : q = p := by have := hc.2; rw [hp] at this; cases this; rfl
            rw [List.filter_cons_of_pos (by simpa using hc), List.getLast?_cons]
            cases List.getLast? _ with
            | none => simp [hj, hq]
            | some x => rfl
          · rw [List.filter_cons_of_neg (by simpa using hc)]
            have hc' : ¬ (j = i ∧ q = p) := by
              rintro ⟨rfl, rfl⟩; exact hc ⟨ha, hp⟩
            rw [if_neg hc']
            cases List.getLast? _ <;> rfl
        rw [hcons]
        cases hlf : lastFor H cfg conf m rs j q with
        | some x =>
          simp only []
          by_cases hsrc : src = sender m source
          · rw [if_pos hsrc, if_pos hsrc]
          · rw [if_neg hsrc, if_neg hsrc]
            by_cases hj : j = i
            · subst hj; simp only [if_true]; rw [hs', if_neg (fun h => hsrc h.2)]
            · simp only [if_neg hj]
        | none =>
          simp only []
          by_cases hj : j = i
          · subst hj
            simp only [if_true, true_and]
            rw [hs']
            by_cases hq : q = p
            · subst hq; simp
            · simp [hq]
          · simp [hj]
    · have hacc : accepted H cfg conf m (r :: rs) = accepted H cfg conf m rs := by
        unfold accepted
        rw [List.filter_cons_of_neg (by simpa using hna)]
      have hlf : ∀ j q, lastFor H cfg conf m (r :: rs) j q = lastFor H cfg conf m rs j q := by
        intro j q
        unfold lastFor
        rw [List.filter_cons_of_neg]
        simp only [decide_eq_true_eq]
        exact fun h => hna ⟨j, h.1⟩
      obtain ⟨st', key', h1, h2, h3, h4⟩ := ih st done key hres'
      refine ⟨st', key', fun rest => by rw [List.cons_append, hstep, h1, hacc],
        by rw [hacc]; exact h2, by rw [hacc]; exact h3, ?_⟩
      intro j q src
      rw [hlf]; exact h4 j q src

/-- C45/C47: what a Map-Register does to the registrations of every site, whenever no lookup raises an
exception: each site keeps, for the sender of the message, the last record of the message that it
accepted for an EID, with 180 s to live; everything else stays as it was. -/
theorem map_register_stores (H : Mac) (cfg : Config) (conf : Nat → MsConf) (st : Nat → Store)
    (m : MapRegister) (source : IP) (now : Int) (hv : ∀ key, ∃ b, m.verify H key = .ok b)
    (hr : ∀ r ∈ m.records, Resolvable cfg r) (j : Nat) (q : Net) (src : Source) :
    ((handleMapRegister H cfg conf st m source now).1 j).get q src =
      match lastFor H cfg conf m m.records j q with
      | some r => if src = sender m source then some (asRegistration m now r) else (st j).get q src
      | none => (st j).get q src := by
  obtain ⟨st', key', h1, _, _, h4⟩ := registerLoop_spec H cfg conf m source now hv m.records st [] [] hr
  have h1 := h1 []
  rw [List.append_nil] at h1
  rw [← h4]
  unfold handleMapRegister
  rw [h1]
  simp only [registerLoop]
  split
  · cases MapNotify.insert H (notifyFor m ([] ++ accepted H cfg conf m m.records)) key' <;> rfl
  · rfl

/-- C47: the answer to a Map-Register whenever no lookup raises an exception: a Map-Notify is sent
exactly when one was asked for and some record was accepted; it goes to the source address at port
4342; before its authentication data is filled in, it is a fresh Map-Notify with the nonce, key id,
xTR-ID and site-ID of the Map-Register and exactly the accepted records in order; and the key used
is that of the site that accepted the last of these. -/
theorem map_register_answer (H : Mac) (cfg : Config) (conf : Nat → MsConf) (st : Nat → Store)
    (m : MapRegister) (source : IP) (now : Int) (hv : ∀ key, ∃ b, m.verify H key = .ok b)
    (hr : ∀ r ∈ m.records, Resolvable cfg r) :
    (m.wantMapNotify = false ∨ accepted H cfg conf m m.records = [] →
      (handleMapRegister H cfg conf st m source now).2 = .ok none) ∧
    (m.wantMapNotify = true → ∀ last, (accepted H cfg conf m m.records).getLast? = some last →
      ∃ i, AcceptedBy H cfg conf m last i ∧
        (handleMapRegister H cfg conf st m source now).2 =
          match MapNotify.insert H
            { nonce := m.nonce, keyId := m.keyId, authData := [],
              records := accepted H cfg conf m m.records, xtrId := m.xtrId, siteId := m.siteId,
              reserved1 := 0 } (conf i).key with
          | .error e => .error e
          | .ok n => .ok (some { message := n, destinations := [.ip source], port := 4342 })) := by
  obtain ⟨st', key', h1, h2, h3, _⟩ := registerLoop_spec H cfg conf m source now hv m.records st [] [] hr
  have h1 := h1 []
  rw [List.append_nil, List.nil_append, registerLoop] at h1
  unfold handleMapRegister
  rw [h1]
  simp only []
  constructor
  · intro h
    rw [if_neg]
    rintro ⟨hw, hne⟩
    rcases h with h | h
    · rw [hw] at h; cases h
    · exact hne h
  · intro hw last hl
    obtain ⟨i, ha, hk⟩ := h3 last hl
    refine ⟨i, ha, ?_⟩
    have hne : accepted H cfg conf m m.records ≠ [] := by
      intro h; rw [h] at hl; cases hl
    rw [if_pos ⟨hw, hne⟩, hk]
    simp only [notifyFor]
    cases MapNotify.insert H 
      { nonce := m.nonce, keyId := m.keyId, records := accepted H cfg conf m m.records,
        xtrId := m.xtrId, siteId := m.siteId } (conf i).key <;> rfl

theorem received_facts {d : Bytes} {m : MapRegister} (hm : MapRegister.fromBytes d = .ok m) :
    m.nonce.length = 8 ∧ m.records.length ≤ 255 ∧ (0 ≤ m.xtrId ∧ m.xtrId < 2 ^ 128) ∧
      (0 ≤ m.siteId ∧ m.siteId < 2 ^ 64) ∧ keyIdOk m.keyId := by
  obtain ⟨d', hd'⟩ := map_register_writable_with d m hm [0] (by simp) (by simp)
  obtain ⟨rest, hrd⟩ := runOn_iff.mp hm
  obtain ⟨w1, w2, w3, _, w4, _⟩ := (map_register_writable_iff _).mp ⟨d', hd'⟩
  exact ⟨readMapRegister_nonce hrd, w4, w1, w2, w3⟩

/-- C47/C86: the answer to a Map-Register that arrived as bytes, whenever no lookup raises an exception.
If a Map-Notify was asked for and some record accepted, exactly one is to be sent, to the source
address at port 4342: it has the nonce, key id, xTR-ID and site-ID of the Map-Register, exactly the
accepted records in order, and it verifies with the key of the site that accepted the last of them.
It can be serialised unless the key id is 0: then it has no authentication data, and to serialise it
raises ValueError.  Otherwise nothing is sent. -/
theorem map_register_received (H : Mac) (cfg : Config) (conf : Nat → MsConf) (st : Nat → Store)
    (d : Bytes) (m : MapRegister) (hm : MapRegister.fromBytes d = .ok m) (source : IP) (now : Int)
    (hr : ∀ r ∈ m.records, Resolvable cfg r) :
    (m.wantMapNotify = false ∨ accepted H cfg conf m m.records = [] →
      (handleMapRegister H cfg conf st m source now).2 = .ok none) ∧
    (m.wantMapNotify = true → accepted H cfg conf m m.records ≠ [] →
      ∃ n last i, (handleMapRegister H cfg conf st m source now).2 =
          .ok (some { message := n, destinations := [.ip source], port := 4342 }) ∧
        n.nonce = m.nonce ∧ n.keyId = m.keyId ∧ n.xtrId = m.xtrId ∧ n.siteId = m.siteId ∧
        n.records = accepted H cfg conf m m.records ∧
        (m.keyId ≠ 0 → ∃ d', n.toBytes = .ok d') ∧ (m.keyId = 0 → n.toBytes = .error .value) ∧
        n.records.getLast? = some last ∧ AcceptedBy H cfg conf m last i ∧
        n.verify H (conf i).key = .ok true) := by
  obtain ⟨hn, hlen, hx, hs, hk⟩ := received_facts hm
  have hv : ∀ key, ∃ b, m.verify H key = .ok b := received_verify hm H
  obtain ⟨a1, a2⟩ := map_register_answer H cfg conf st m source now hv hr
  refine ⟨a1, fun hw hne => ?_⟩
  obtain ⟨last, hlast⟩ : ∃ y, (accepted H cfg conf m m.records).getLast? = some y := by
    match hl : (accepted H cfg conf m m.records).getLast? with
    | some y => exact ⟨y, rfl⟩
    | none => exact absurd (List.getLast?_eq_none_iff.mp hl) hne
  obtain ⟨i, hi, hres⟩ := a2 hw last hlast
  have hsub : ∀ r ∈ accepted H cfg conf m m.records, r ∈ m.records := by
    intro r h; unfold accepted at h; exact (List.mem_filter.mp h).1
  have hsan : ∀ r ∈ accepted H cfg conf m m.records, r.sanitize = .ok r :=
    fun r h => (received_record hm (hsub r h)).1
  have hlen' : (accepted H cfg conf m m.records).length ≤ 255 := by
    refine Nat.le_trans ?_ hlen
    unfold accepted; exact List.length_filter_le _ _
  obtain ⟨dn, hdn⟩ := (map_notify_writable_iff
    { nonce := m.nonce, keyId := m.keyId, authData := [0],
      records := accepted H cfg conf m m.records, xtrId := m.xtrId, siteId := m.siteId,
      reserved1 := 0 }).mpr ⟨hx, hs, hn, hk, by simp, hlen',
        fun r h => (received_record hm (hsub r h)).2⟩
  obtain ⟨n, hins, hd1, hd2⟩ := notify_insert_defined H
    { nonce := m.nonce, keyId := m.keyId, authData := [],
      records := accepted H cfg conf m m.records, xtrId := m.xtrId, siteId := m.siteId,
      reserved1 := 0 } (conf i).key [0] dn hdn
  rw [hins] at hres
  have hfields : n.nonce = m.nonce ∧ n.keyId = m.keyId ∧ n.xtrId = m.xtrId ∧ n.siteId = m.siteId ∧
      n.records = accepted H cfg conf m m.records := by
    have h := hins
    simp only [MapNotify.insert, MapNotify.touched, exBind_ok, exPure, Except.ok.injEq] at h
    obtain ⟨a, ha, m2, hm2, rfl⟩ := h
    split at hm2
    · cases hm2; exact ⟨rfl, rfl, rfl, rfl, rfl⟩
    · obtain ⟨_, _, _, _, rs, hrs, rfl⟩ := MapNotify.sanitize_ok.mp hm2
      rw [sanitizeAll_fix hsan] at hrs
      cases hrs
      exact ⟨rfl, rfl, rfl, rfl, rfl⟩
  obtain ⟨f1, f2, f3, f4, f5⟩ := hfields
  exact ⟨n, last, i, hres, f1, f2, f3, f4, f5, hd1, fun h => (hd2 h).2, by rw [f5]; exact hlast, hi,
    notify_insert_verifies H _ n (conf i).key hins⟩

/-- C47: when the lookup of a record raises an exception (say, because the EID covers several nodes of
the tree), the records before it have been registered but no Map-Notify is sent, whatever comes
after. -/
theorem map_register_lookup_error (H : Mac) (cfg : Config) (conf : Nat → MsConf) (st : Nat → Store)
    (m : MapRegister) (source : IP) (now : Int) (hv : ∀ key, ∃ b, m.verify H key = .ok b)
    (before after : List Record) (r : Record) (hm : m.records = before ++ r :: after)
    (hb : ∀ r ∈ before, Resolvable cfg r) (p : Net) (hp : r.eid = .net p) (root : Node)
    (hroot : cfg 0 (familyNumber p.ver) = some root) (e : Err) (he : root.resolvePath p = .error e) :
    (handleMapRegister H cfg conf st m source now).2 = .error e ∧
    ∀ j q src, ((handleMapRegister H cfg conf st m source now).1 j).get q src =
      match lastFor H cfg conf m before j q with
      | some r => if src = sender m source then some (asRegistration m now r) else (st j).get q src
      | none => (st j).get q src := by
  obtain ⟨st', key', h1, _, _, h4⟩ := registerLoop_spec H cfg conf m source now hv before st [] [] hb
  have hl : registerLoop H cfg conf m source now st [] [] m.records = (st', .error e) := by
    rw [hm, h1, registerLoop, hp, resolveIn_net, hroot]
    simp only [he]
  unfold handleMapRegister
  rw [hl]
  exact ⟨rfl, h4⟩

/-! ### The hypotheses are met -/

/-- a site for 192.0.2.0/24, under the root 0.0.0.0/0 -/
def exMsTree : Node := .cont none 0 exRoot [.leaf .mapServer 7 exNet]
def exMsCfg : Config := fun iid afi => if iid = 0 ∧ afi = 1 then some exMsTree else none
def exMsConf : Nat → MsConf := fun _ => ⟨exKey, true⟩

theorem exMs_site : SiteFor exMsCfg exNet 7 exNet := by
  refine ⟨exMsTree, [exMsTree], rfl, ?_⟩
  unfold exMsTree
  rw [resolvePath_cont]
  have : findOne exRoot [.leaf .mapServer 7 exNet] exNet = .ok (some (.leaf .mapServer 7 exNet)) := by
    unfold findOne findAll
    rw [if_pos (by decide +kernel)]
    simp only [List.filter_cons, List.filter_nil, Node.pfx]
    rw [if_pos (by decide +kernel)]
    exact if_pos ⟨Nat.le_refl _, Nat.le_refl _⟩
  rw [this]
  simp only [Node.resolvePath]
  rfl

theorem exMs_scope : InScope (exMsConf 7) exNet exNet := ⟨fun _ h => h, .inl rfl⟩

/-- an authenticated register is accepted by the site, one with a wrong MAC is not -/
example : ∃ m, exRegister.insert toyMac exKey = .ok m ∧ AcceptedBy toyMac exMsCfg exMsConf m exRec 7 := by
  obtain ⟨d, hd⟩ := show ∃ d, exRegister.toBytes = .ok d from isOk_iff.mp (by decide +kernel)
  obtain ⟨m, hm, _⟩ := register_insert_defined toyMac exRegister exKey _ d hd rfl
  exact ⟨m, hm, exNet, exNet, rfl, exMs_site, register_insert_verifies toyMac _ m exKey hm, exMs_scope⟩

example : ¬ ∃ i, AcceptedBy toyMac exMsCfg exMsConf exRegister exRec i := by
  rintro ⟨i, p, pfx, _, _, h, _⟩
  have h' : exRegister.verify toyMac exKey = .ok false := by decide +kernel
  have h : exRegister.verify toyMac exKey = .ok true := h
  rw [h'] at h; cases h

example : Resolvable exMsCfg exRec := by
  obtain ⟨root, rest, h1, h2⟩ := exMs_site
  exact ⟨exNet, rfl, .inr ⟨root, _, h1, h2⟩⟩

/-- a registration, then a pass, both complete: the registration survives the pass -/
example : ∃ s, MonoRun (MsState.init 0)
      [.register exNet (.xtr 9 4660) (newRegistration 5 exRec false), .pass 6] s ∧
    s.owner = .nobody ∧ s.clock = 6 ∧
    s.store.get exNet (.xtr 9 4660) = some (newRegistration 5 exRec false) := by
  refine ⟨_, (((((((((((MonoRun.nil (MsState.init 0)).snoc (.tick _ 5) (by decide)).snoc
    (.regLock _ exNet (.xtr 9 4660) exRec false rfl rfl) (by decide)).snoc
    (.regEnsure _ exNet (.xtr 9 4660) exRec false rfl) (by decide)).snoc
    (.regStore _ exNet (.xtr 9 4660) exRec false [] rfl rfl) (by decide)).snoc
    (.regUnlock _ rfl) (by decide)).snoc
    (.tick _ 6) (by decide)).snoc
    (.cleanRead _ rfl) (by decide)).snoc
    (.cleanLock _ 6 rfl rfl) (by decide)).snoc
    (.cleanPrefix _ 6 exNet [] _ rfl rfl) (by decide)).snoc
    (.cleanSource _ 6 exNet (.xtr 9 4660) [] [] _ _ rfl rfl rfl) (by decide)).snoc
    (.cleanEmpty _ 6 exNet [] _ rfl rfl) (by decide) |>.snoc
    (.cleanUnlock _ 6 rfl) (by decide), rfl, rfl, rfl⟩

end PyLisp.Props
