import Verif.Props.Handshake
/-
C85: looking up the locators of an ETR, datagram by datagram: a Map-Request arriving at a running lispd, and its answer
arriving at the one who asked.
-/
namespace PyLisp.Props
open PyLisp

theorem denotes_unique {a : Addr} {n n' : Net} (h : Denotes a n) (h' : Denotes a n') : n = n' := by
  have e := ((denotes_iff a n).mp h).symm.trans ((denotes_iff a n').mp h')
  exact Except.ok.inj e

/-- what becomes of the answer of `handle_map_request` -/
def requestHandled (s : Setup) (w : World) (sendto : Nat → Except Err Nat) :
    Except Err (Option (SendCall MapReply)) → Handled
  | .error e => { world := w, swallowed := some e }
  | .ok none => { world := w }
  | .ok (some c) =>
    { world := w, sent := some ⟨true, c.map .reply⟩,
      calls := (sendMessage c.message.toBytes s.sockets sendto 0 c.destinations).1,
      swallowed := errOf (sendMessage c.message.toBytes s.sockets sendto 0 c.destinations).2 }

/-- what lispd makes of the datagram of a Map-Request -/
theorem request_handled (s : Setup) (w : World) (o : Origin) (maxint counter : Nat) (sendto : Nat → Except Err Nat)
    (m : MapRequest) (d : Bytes) (hd : m.toBytes = .ok d) :
    ∃ m' : MapRequest, m'.nonce = m.nonce ∧ m'.probe = m.probe ∧ m'.itrRlocs = m.itrRlocs ∧
      m'.eidPrefixes.length = m.eidPrefixes.length ∧
      (∀ i (h : i < m.eidPrefixes.length) (h' : i < m'.eidPrefixes.length),
        ∃ n, Denotes m.eidPrefixes[i] n ∧ m'.eidPrefixes[i] = .net n) ∧
      (controlDatagram s w o maxint counter d sendto).2 =
        requestHandled s w sendto
          (handleMapRequest s.cfg w.etrs (s.sockets.map (·.name)) m' o.dest o.port) := by
  obtain ⟨r, ns, _, ⟨hl, hns⟩, hp⟩ := map_request_round_trip m d hd
  refine ⟨{ m with sourceEid := m.sourceEid.strip, eidPrefixes := ns.map .net, mapReply := r },
    rfl, rfl, rfl, ?_, ?_, ?_⟩
  · simp [hl]
  · intro i h h'
    have h2 : i < ns.length := by omega
    exact ⟨ns[i], hns i h h2, by simp⟩
  · have h2 : Pkt.fromBytes .control d = .ok (.ctrl (.request
        { m with sourceEid := m.sourceEid.strip, eidPrefixes := ns.map .net, mapReply := r })) :=
      control_dispatch_iff.mpr ⟨written_type (m := .request m) hd, hp⟩
    generalize hm' : ({ m with sourceEid := m.sourceEid.strip, eidPrefixes := ns.map .net, mapReply := r } :
      MapRequest) = m' at h2 ⊢
    have hrecv : (receive maxint counter none (.ctrl (.request m'))).2 =
        .ok ⟨(takeNr maxint counter none).1, .ctrl (.request m'), none, none⟩ :=
      (receive_iff _ _ _ _ _).mpr ⟨rfl, rfl, .inl ⟨_, rfl, rfl, rfl⟩⟩
    simp only [controlDatagram, h2, controlMessage]
    cases hrc : receive maxint counter none (.ctrl (.request m')) with
    | mk c res =>
      rw [hrc] at hrecv
      simp only at hrecv
      subst hrecv
      simp only [handleMessage, dispatch]
      cases handleMapRequest s.cfg w.etrs (s.sockets.map (·.name)) m' o.dest o.port with
      | error e => rfl
      | ok c => cases c <;> rfl

/-- the answer, when there is one EID -/
theorem one_eid {m m' : MapRequest} (hl : m'.eidPrefixes.length = m.eidPrefixes.length)
    (hns : ∀ i (h : i < m.eidPrefixes.length) (h' : i < m'.eidPrefixes.length),
        ∃ n, Denotes m.eidPrefixes[i] n ∧ m'.eidPrefixes[i] = .net n)
    {e : Addr} (he : m.eidPrefixes = [e]) : ∃ n, Denotes e n ∧ m'.eidPrefixes = [.net n] := by
  rw [he] at hl
  obtain ⟨x, hx⟩ := List.length_eq_one_iff.mp hl
  obtain ⟨n, h1, h2⟩ := hns 0 (by simp [he]) (by simp [hx])
  refine ⟨n, ?_, ?_⟩
  · simpa [he] using h1
  · simp only [hx, List.getElem_cons_zero] at h2
    rw [hx, h2]

theorem one_eid' {m m' : MapRequest} (hl : m'.eidPrefixes.length = m.eidPrefixes.length)
    (hns : ∀ i (h : i < m.eidPrefixes.length) (h' : i < m'.eidPrefixes.length),
        ∃ n, Denotes m.eidPrefixes[i] n ∧ m'.eidPrefixes[i] = .net n)
    {e' : Addr} (he : m'.eidPrefixes = [e']) : ∃ e n, m.eidPrefixes = [e] ∧ Denotes e n ∧ e' = .net n := by
  rw [he] at hl
  obtain ⟨x, hx⟩ := List.length_eq_one_iff.mp hl.symm
  obtain ⟨n, h1, h2⟩ := hns 0 (by simp [hx]) (by simp [he])
  refine ⟨x, n, hx, ?_, ?_⟩
  · simpa [hx] using h1
  · simpa [he] using h2

/-- C85: a Map-Request that arrives at a running lispd is answered exactly when it asks for one EID for which the tree
has one of its ETRs and the locators of that ETR can be determined; nothing else changes in any case. -/
theorem lookup_answered_iff (s : Setup) (w : World) (o : Origin) (maxint counter : Nat)
    (sendto : Nat → Except Err Nat) (m : MapRequest) (d : Bytes) (hd : m.toBytes = .ok d) :
    (controlDatagram s w o maxint counter d sendto).2.world = w ∧
    ((∃ g, (controlDatagram s w o maxint counter d sendto).2.sent = some g) ↔
      ∃ e n i pfx ls, m.eidPrefixes = [e] ∧ Denotes e n ∧ EtrFor s.cfg (.net n) i pfx ∧
        getEtrLocators (w.etrs i) (s.sockets.map (·.name)) [] = .ok ls) := by
  obtain ⟨m', _, _, _, hl, hns, hc⟩ := request_handled s w o maxint counter sendto m d hd
  rw [hc]
  have key := map_request_answered_iff s.cfg w.etrs (s.sockets.map (·.name)) m' o.dest o.port
  constructor
  · cases handleMapRequest s.cfg w.etrs (s.sockets.map (·.name)) m' o.dest o.port with
    | error e => rfl
    | ok c => cases c <;> rfl
  · have h1 : (∃ g, (requestHandled s w sendto
          (handleMapRequest s.cfg w.etrs (s.sockets.map (·.name)) m' o.dest o.port)).sent = some g) ↔
        ∃ c, handleMapRequest s.cfg w.etrs (s.sockets.map (·.name)) m' o.dest o.port = .ok (some c) := by
      cases handleMapRequest s.cfg w.etrs (s.sockets.map (·.name)) m' o.dest o.port with
      | error e => simp [requestHandled]
      | ok c => cases c <;> simp [requestHandled]
    rw [h1, key]
    constructor
    · rintro ⟨e', i, pfx, ls, h2, h3, h4⟩
      obtain ⟨e, n, h5, h6, rfl⟩ := one_eid' hl hns h2
      exact ⟨e, n, i, pfx, ls, h5, h6, h3, h4⟩
    · rintro ⟨e, n, i, pfx, ls, h5, h6, h3, h4⟩
      obtain ⟨n', h7, h8⟩ := one_eid hl hns h5
      rw [denotes_unique h7 h6] at h8
      exact ⟨.net n, i, pfx, ls, h8, h3, h4⟩

/-- Specification: the record for the prefix of an ETR that has the given locators: TTL 1440, authoritative, the
locators as they are, except that one is marked as probed exactly when the request is a probe that came in on
its address; or natively-forward without locators. -/
def lookedUp (pfx : Net) (ls : List Locator) (probe : Bool) (dest : IP) : Record :=
  { ttl := 1440, action := if ls = [] then 1 else 0, authoritative := true, mapVersion := 0, eid := .net pfx,
    locators := ls.map fun l => { l with probed := probe && decide (l.address = .ip dest) } }

theorem replyRecord_lookedUp (pfx : Net) (ls : List Locator) (probe : Bool) (dest : IP)
    (hr : ∀ l ∈ ls, l.reachable = true) : replyRecord pfx ls probe dest = lookedUp pfx ls probe dest := by
  unfold replyRecord lookedUp
  by_cases hl : ls = []
  · subst hl; rfl
  · rw [if_pos (show ls ≠ [] from hl), if_neg hl]
    have : (ls.map fun l => { l with reachable := true, probed := probe && decide (l.address = Addr.ip dest) }) =
        ls.map fun l => { l with probed := probe && decide (l.address = Addr.ip dest) } := by
      apply List.map_congr_left
      intro l h
      have := hr l h
      cases l
      simp only at this
      subst this
      rfl
    rw [this]

/-- Specification: the locators can all be put into one record: at most 255 of them, each with an IP address that may
be a locator, and priorities and weights that fit in a byte. -/
def Transmissible (ls : List Locator) : Prop :=
  ls.length ≤ 255 ∧ ∀ l ∈ ls, (FitsByte l.priority ∧ FitsByte l.weight ∧ FitsByte l.mPriority ∧ FitsByte l.mWeight) ∧
    ∃ a, l.address = .ip a ∧ UsableLocator a

theorem transmissible_iff (ls : List Locator) : Transmissible ls ↔
    ls.length ≤ 255 ∧ ∀ l ∈ ls, l.sanitize = .ok () ∧ ∃ a, l.address = .ip a := by
  unfold Transmissible
  refine and_congr_right fun _ => forall_congr' fun l => forall_congr' fun _ => ?_
  constructor
  · rintro ⟨⟨h1, h2, h3, h4⟩, a, ha, hu⟩
    exact ⟨(locator_accepted_iff l a ha).mpr ⟨h1, h2, h3, h4, hu⟩, a, ha⟩
  · rintro ⟨h, a, ha⟩
    obtain ⟨h1, h2, h3, h4, hu⟩ := (locator_accepted_iff l a ha).mp h
    exact ⟨⟨h1, h2, h3, h4⟩, a, ha, hu⟩

theorem probed_sanitize (l : Locator) (b : Bool) : ({ l with probed := b } : Locator).sanitize = l.sanitize := rfl

theorem lookedUp_sanitize (pfx : Net) (ls : List Locator) (probe : Bool) (dest : IP)
    (h : ∀ l ∈ ls, l.sanitize = .ok () ∧ ∃ a, l.address = .ip a) :
    (lookedUp pfx ls probe dest).sanitize = .ok { lookedUp pfx ls probe dest with
      locators := sortBy Locator.key (lookedUp pfx ls probe dest).locators } := by
  refine Record.sanitize_ok.mpr ⟨(by decide : (0 : Int) ≤ 1440 ∧ (1440 : Int) ≤ 0xffffffff), ?_,
    (by decide : (0 : Int) ≤ 0 ∧ (0 : Int) < 2 ^ 12), ⟨pfx, rfl⟩, ?_, ?_⟩
  · intro _
    unfold lookedUp
    dsimp only
    split <;> decide
  · intro l hl
    simp only [lookedUp, List.mem_map] at hl
    obtain ⟨x, hx, rfl⟩ := hl
    exact h x hx
  · by_cases hl : ls = []
    · subst hl; rfl
    · unfold lookedUp
      simp [hl]

/-- C85: the answer can be serialised exactly when the locators of the ETR can be put into one record; otherwise
nothing is transmitted. -/
theorem lookup_writable_iff (pfx : Net) (ls : List Locator) (probe : Bool) (dest : IP) (nonce : Bytes)
    (hn : nonce.length = 8) :
    (∃ a, MapReply.toBytes { probe := probe, nonce := nonce, records := [lookedUp pfx ls probe dest] } = .ok a) ↔
      Transmissible ls := by
  rw [map_reply_writable_iff, transmissible_iff]
  have hlen : (lookedUp pfx ls probe dest).locators.length = ls.length := by simp [lookedUp]
  constructor
  · rintro ⟨_, _, _, hr⟩
    obtain ⟨b, hb⟩ := hr _ (List.mem_singleton.mpr rfl)
    obtain ⟨_, _, _, _, h5, h6⟩ := (record_writable_iff _).mp ⟨b, hb⟩
    refine ⟨?_, fun l hl => ?_⟩
    · rw [← hlen]
      exact h6
    · exact h5 { l with probed := probe && decide (l.address = .ip dest) } (List.mem_map.mpr ⟨l, hl, rfl⟩)
  · rintro ⟨h1, h2⟩
    refine ⟨rfl, .inr hn, (by decide : (1 : Nat) ≤ 255), fun r hr => ?_⟩
    rw [List.mem_singleton] at hr
    subst hr
    exact record_writable _ _ (lookedUp_sanitize pfx ls probe dest h2) (by rw [hlen]; exact h1)

/-- C85: the whole lookup.  A Map-Request for one EID arrives at a running lispd with an ETR for it, whose locators can
be determined and put into one record: lispd calls `send_message`, over all its control plane sockets, with a
Map-Reply to the ITR-RLOCs of the request at the port it came from, and the bytes of that message are read
by the one who asked as a Map-Reply with the nonce and the probe flag of the request and one record: the prefix of
the ETR with its locators in ascending order, or natively-forward when it has none. -/
theorem lookup_round_trip (s : Setup) (w : World) (o : Origin) (maxint counter : Nat)
    (sendto : Nat → Except Err Nat) (m : MapRequest) (d : Bytes) (hd : m.toBytes = .ok d) (e : Addr)
    (he : m.eidPrefixes = [e]) (n : Net) (hden : Denotes e n) (i : Nat) (pfx : Net)
    (hetr : EtrFor s.cfg (.net n) i pfx) (ls : List Locator)
    (hls : getEtrLocators (w.etrs i) (s.sockets.map (·.name)) [] = .ok ls) :
    ∃ reply, (controlDatagram s w o maxint counter d sendto).2.sent =
        some ⟨true, ⟨.reply reply, m.itrRlocs, o.port⟩⟩ ∧
      (Transmissible ls → ∃ a ls', (Ctrl.reply reply).toBytes = .ok a ∧
        StableSort (lookedUp pfx ls m.probe o.dest).locators ls' ∧
        Pkt.fromBytes .control a = .ok (.ctrl (.reply {
          probe := m.probe, nonce := m.nonce,
          records := [{ (lookedUp pfx ls m.probe o.dest) with locators := ls' }] }))) ∧
      (¬ Transmissible ls → (controlDatagram s w o maxint counter d sendto).2.calls = []) := by
  have hn : m.nonce.length = 8 := ((map_request_writable_iff m).mp ⟨d, hd⟩).2.2.1
  obtain ⟨m', h1, h2, h3, hl, hns, hc⟩ := request_handled s w o maxint counter sendto m d hd
  obtain ⟨n', h7, h8⟩ := one_eid hl hns he
  rw [denotes_unique h7 hden] at h8
  have hans : handleMapRequest s.cfg w.etrs (s.sockets.map (·.name)) m' o.dest o.port =
      .ok (some ⟨{ probe := m.probe, nonce := m.nonce, records := [lookedUp pfx ls m.probe o.dest] },
        m.itrRlocs, o.port⟩) := by
    obtain ⟨rest, hp⟩ := etrFor_iff.mp hetr
    simp only [handleMapRequest, h8, hp, etrMapRequest, hls, h1, h2, h3]
    rw [replyRecord_lookedUp _ _ _ _ fun l hl => (etr_locators_reachable _ _ _ _ hls l hl).1]
  rw [hans] at hc
  rw [hc]
  refine ⟨_, rfl, ?_, ?_⟩
  · intro ht
    obtain ⟨a, ha⟩ := (lookup_writable_iff pfx ls m.probe o.dest m.nonce hn).mpr ht
    refine ⟨a, _, ha, stableSort_iff.mpr rfl, ?_⟩
    have ht' := written_type (m := .reply _) ha
    refine control_dispatch_iff.mpr ⟨ht', ?_⟩
    obtain ⟨rs, hs, hf⟩ := map_reply_round_trip _ a ha
    rw [sanitised_iff] at hs
    simp only [sanitizeAll, exBind_ok, exPure, Except.ok.injEq,
      lookedUp_sanitize pfx ls m.probe o.dest ((transmissible_iff ls).mp ht).2] at hs
    obtain ⟨_, rfl, _, rfl, rfl⟩ := hs
    show MapReply.fromBytes a = _
    rw [hf]
    simp [hn]
  · intro ht
    have : ∃ e, MapReply.toBytes {
        probe := m.probe, nonce := m.nonce, records := [lookedUp pfx ls m.probe o.dest] } = .error e := by
      cases hx : MapReply.toBytes {
        probe := m.probe, nonce := m.nonce, records := [lookedUp pfx ls m.probe o.dest] } with
      | error e => exact ⟨e, rfl⟩
      | ok a => exact absurd ((lookup_writable_iff pfx ls m.probe o.dest m.nonce hn).mp ⟨a, hx⟩) ht
    obtain ⟨x, hx⟩ := this
    show (sendMessage (MapReply.toBytes _) s.sockets sendto 0 m.itrRlocs).1 = []
    rw [hx]
    exact sendMessage_unserialisable_calls x s.sockets sendto _ _

/-! ### A case that meets the hypotheses -/

def exLookupSetup : Setup := ⟨toyMac, exEtrCfg, fun _ => ⟨[], false⟩, [⟨0, .v4, ⟨.v4, 0xc0000201, by decide⟩⟩]⟩
def exLookupRequest : MapRequest :=
  { probe := true, nonce := [1, 2, 3, 4, 5, 6, 7, 8], itrRlocs := [.ip exHost], eidPrefixes := [.net exNet] }
def exLookupLocators : List Locator :=
  [{ priority := 1, weight := 100, isLocal := false, reachable := true, address := .ip ⟨.v4, 0xcb007101, by decide⟩ },
   { priority := 2, weight := 50, reachable := true, address := .ip ⟨.v4, 0xc6336401, by decide⟩ }]

/-- the ETR has an RTR and a remote locator, and they can be sent: the request is answered and the answer is read -/
example : (∃ d, exLookupRequest.toBytes = .ok d) ∧ exLookupRequest.eidPrefixes = [.net exNet] ∧
    Denotes (.net exNet) exNet ∧ EtrFor exLookupSetup.cfg (.net exNet) 5 exNet ∧
    getEtrLocators (exWorld.etrs 5) (exLookupSetup.sockets.map (·.name)) [] = .ok exLookupLocators ∧
    Transmissible exLookupLocators := by
  refine ⟨isOk_iff.mp (by decide +kernel), rfl, (denotes_iff _ _).mpr (by decide +kernel), exEtr_for,
    by decide +kernel, (transmissible_iff _).mpr ⟨by decide, ?_⟩⟩
  intro l hl
  simp only [exLookupLocators, List.mem_cons, List.not_mem_nil, or_false] at hl
  rcases hl with rfl | rfl
  · exact ⟨by decide +kernel, _, rfl⟩
  · exact ⟨by decide +kernel, _, rfl⟩

/-- 256 locators, or one at a multicast address, cannot be sent -/
example : ¬ Transmissible (List.replicate 256 {}) ∧
    ¬ Transmissible [{ address := .ip ⟨.v4, 0xe0000001, by decide⟩ }] := by
  refine ⟨fun h => absurd h.1 (by rw [List.length_replicate]; decide), fun h => ?_⟩
  have := (((transmissible_iff _).mp h).2 _ (List.mem_singleton.mpr rfl)).1
  exact absurd this (by decide +kernel)

/-- the specification of the answer, evaluated: the second locator was probed -/
example : lookedUp exNet exLookupLocators true ⟨.v4, 0xc6336401, by decide⟩ =
    { ttl := 1440, action := 0, authoritative := true, eid := .net exNet, locators := [
      { priority := 1, weight := 100, isLocal := false, reachable := true, address := .ip ⟨.v4, 0xcb007101, by decide⟩ },
      { priority := 2, weight := 50, probed := true, reachable := true,
        address := .ip ⟨.v4, 0xc6336401, by decide⟩ }] } := by decide +kernel

end PyLisp.Props
