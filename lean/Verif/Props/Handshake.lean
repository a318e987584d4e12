import Verif.Props.Canonical
import Verif.Props.Scripts
import Verif.Props.Accepted
/-
C81: a registration from one running lispd to another, datagram by datagram.
-/
namespace PyLisp.Props
open PyLisp

/-- Specification: the record an ETR registers for its prefix, with the locators in the order given. -/
def registered (pfx : Net) (ls : List Locator) : Record :=
  { ttl := 1440, action := 0, authoritative := true, mapVersion := 0, eid := .net pfx, locators := ls }

/-- the message before it is serialised -/
theorem register_made (H : Mac) (r : EtrReg) (pfx : Net) (ls : List Locator) (nat : Option NatInfo) (want : Bool)
    (nonce : Bytes) (xtrId siteId : Int) (reg : MapRegister)
    (hreg : (mkRegister r pfx ls nat want nonce xtrId siteId).insertWith H r.key = .ok reg) :
    reg.nonce = nonce ∧ reg.xtrId = xtrId ∧ reg.siteId = siteId ∧ reg.proxyMapReply = r.proxyMapReply ∧
      reg.wantMapNotify = (mkRegister r pfx ls nat want nonce xtrId siteId).wantMapNotify ∧
      ∃ l, reg.records = [registered pfx l] ∧ (l = ls ∨ l = sortBy Locator.key ls) := by
  obtain ⟨k, hreg⟩ : ∃ k, (mkRegister r pfx ls nat want nonce xtrId siteId).insert H k = .ok reg := by
    rcases withKey_ok.mp hreg with ⟨k, _, h⟩ | ⟨_, _, h⟩
    · exact ⟨k, h⟩
    · exact ⟨_, h⟩
  simp only [MapRegister.insert, MapRegister.touched, exBind_ok, exPure, Except.ok.injEq] at hreg
  obtain ⟨a, ha, m2, hm, rfl⟩ := hreg
  split at hm
  · cases hm
    exact ⟨rfl, rfl, rfl, rfl, rfl, ls, rfl, .inl rfl⟩
  · obtain ⟨_, _, _, rs, hrs, rfl⟩ := MapRegister.sanitize_ok.mp hm
    refine ⟨rfl, rfl, rfl, rfl, rfl, ?_⟩
    simp only [mkRegister, sanitizeAll, exBind_ok, exPure, Except.ok.injEq] at hrs
    obtain ⟨r', hr', _, rfl, rfl⟩ := hrs
    obtain ⟨_, _, _, _, _, rfl⟩ := Record.sanitize_ok.mp hr'
    exact ⟨_, by simp [registered], .inr rfl⟩

/-- what is on the wire -/
theorem register_arrives (H : Mac) (r : EtrReg) (pfx : Net) (ls : List Locator) (nat : Option NatInfo) (want : Bool)
    (nonce : Bytes) (xtrId siteId : Int) (reg : MapRegister) (d : Bytes) (hn : nonce.length = 8)
    (hreg : (mkRegister r pfx ls nat want nonce xtrId siteId).insertWith H r.key = .ok reg)
    (hd : reg.toBytes = .ok d) :
    ∃ m ls', MapRegister.fromBytes d = .ok m ∧ StableSort ls ls' ∧ m.records = [registered pfx ls'] ∧
      m.nonce = nonce ∧ m.xtrId = xtrId ∧ m.siteId = siteId ∧ m.proxyMapReply = r.proxyMapReply ∧
      m.wantMapNotify = (mkRegister r pfx ls nat want nonce xtrId siteId).wantMapNotify ∧
      ∃ k, r.key = some k ∧ m.verify H k = .ok true := by
  have hcont := register_made H r pfx ls nat want nonce xtrId siteId reg hreg
  obtain ⟨hnonce, hx, hs, hp, hw, l, hrec, hl⟩ := hcont
  obtain ⟨rs, hsan, hm⟩ := map_register_round_trip reg d hd (by rw [hnonce]; exact hn)
  rw [hrec, sanitised_iff] at hsan
  simp only [sanitizeAll, exBind_ok, exPure, Except.ok.injEq] at hsan
  obtain ⟨r1, hr1, _, rfl, rfl⟩ := hsan
  obtain ⟨_, _, _, _, _, rfl⟩ := Record.sanitize_ok.mp hr1
  obtain ⟨k, hk, hins⟩ : ∃ k, r.key = some k ∧
      (mkRegister r pfx ls nat want nonce xtrId siteId).insert H k = .ok reg := by
    rcases withKey_ok.mp hreg with h | ⟨_, h0, h⟩
    · exact h
    · refine absurd ?_ (register_sent_key h hd)
      simp only [MapRegister.insert, MapRegister.touched, exBind_ok, exPure, Except.ok.injEq] at h
      obtain ⟨a, _, m2, hm2, rfl⟩ := h
      rw [if_pos h0] at hm2
      cases hm2
      exact h0
  obtain ⟨m0, hm0, hmv⟩ := register_sent_verifies H _ reg k d [] hins hd hn
  rw [List.append_nil, hm] at hm0
  cases hm0
  refine ⟨_, sortBy Locator.key ls, hm, stableSort_iff.mpr rfl, ?_, hnonce, hx, hs, hp, hw, k, hk, hmv⟩
  have e : (if (registered pfx l).locators ≠ [] then (0 : Int) else (registered pfx l).action) = 0 := by
    split <;> rfl
  dsimp only
  rw [e]
  show [registered pfx (sortBy Locator.key l)] = _
  rcases hl with rfl | rfl
  · rfl
  · rw [sortBy_idem]

open Classical in
/-- C81: the Map-Register of an ETR, arriving at another lispd that has a site for the prefix with the same
key and the prefix in its scope: the site then has exactly this registration more: for this prefix and this sender
(its xTR and site IDs, or else its address), with the locators the ETR registered (in ascending order), for 180 s.
Nothing is swallowed, and every other registration of every site is as it was. -/
theorem register_stored_remotely (s : Setup) (w : World) (o : Origin) (maxint counter : Nat)
    (sendto : Nat → Except Err Nat) (r : EtrReg) (pfx : Net) (ls : List Locator) (nat : Option NatInfo) (want : Bool)
    (nonce : Bytes) (xtrId siteId : Int) (reg : MapRegister) (d : Bytes) (hn : nonce.length = 8)
    (hreg : (mkRegister r pfx ls nat want nonce xtrId siteId).insertWith s.mac r.key = .ok reg)
    (hd : reg.toBytes = .ok d) (i : Nat) (sitePfx : Net) (hsite : SiteFor s.cfg pfx i sitePfx)
    (hscope : InScope (s.conf i) sitePfx pfx) (hkey : r.key = some (s.conf i).key) :
    ∃ ls', StableSort ls ls' ∧
      (∀ j, (controlDatagram s w o maxint counter d sendto).2.world.etrs j = w.etrs j) ∧
      ∀ j q src, ((controlDatagram s w o maxint counter d sendto).2.world.stores j).get q src =
        if j = i ∧ q = pfx ∧ src = (if xtrId = 0 then .addr o.source else .xtr siteId xtrId) then
          some { record := registered pfx ls', proxy := r.proxyMapReply, deadline := o.now + 180000000 }
        else (w.stores j).get q src := by
  obtain ⟨m, ls', h3, hsort, hrec, hno, hx, hs, hp, hw, k, hk, hver⟩ :=
    register_arrives s.mac r pfx ls nat want nonce xtrId siteId reg d hn hreg hd
  refine ⟨ls', hsort, ?_⟩
  have h2 : Pkt.fromBytes .control d = .ok (.ctrl (.register m)) :=
    control_dispatch_iff.mpr ⟨written_type (m := .register reg) hd, h3⟩
  have hrecv : (receive maxint counter none (.ctrl (.register m))).2 =
      .ok ⟨(takeNr maxint counter none).1, .ctrl (.register m), none, none⟩ :=
    (receive_iff _ _ _ _ _).mpr ⟨rfl, rfl, .inl ⟨_, rfl, rfl, rfl⟩⟩
  have hr : ∀ x ∈ m.records, Resolvable s.cfg x := by
    intro x hx
    rw [hrec, List.mem_singleton] at hx
    subst hx
    obtain ⟨root, rest, e1, e2⟩ := hsite
    exact ⟨pfx, rfl, .inr ⟨root, _, e1, e2⟩⟩
  rw [hkey] at hk
  cases hk
  have hacc : AcceptedBy s.mac s.cfg s.conf m (registered pfx ls') i :=
    ⟨pfx, sitePfx, rfl, hsite, hver, hscope⟩
  have hst := map_register_stores s.mac s.cfg s.conf w.stores m o.source o.now
    (received_verify h3 s.mac) hr
  have hworld : (controlDatagram s w o maxint counter d sendto).2.world =
      { w with stores := (handleMapRegister s.mac s.cfg s.conf w.stores m o.source o.now).1 } := by
    simp only [controlDatagram, h2, controlMessage]
    cases hrc : receive maxint counter none (.ctrl (.register m)) with
    | mk c res =>
      rw [hrc] at hrecv
      simp only at hrecv
      subst hrecv
      simp only [handleMessage, dispatch]
      cases handleMapRegister s.mac s.cfg s.conf w.stores m o.source o.now with
      | mk stores out =>
        cases out with
        | error e => rfl
        | ok c => cases c <;> rfl
  rw [hworld]
  refine ⟨fun j => rfl, fun j q src => ?_⟩
  dsimp only
  rw [hst j q src]
  have hsend : sender m o.source = if xtrId = 0 then .addr o.source else .xtr siteId xtrId := by
    simp only [sender, hx, hs]
  by_cases hj : j = i ∧ q = pfx
  · obtain ⟨rfl, rfl⟩ := hj
    have : lastFor s.mac s.cfg s.conf m m.records j q = some (registered q ls') := by
      simp only [lastFor, hrec]
      rw [List.filter_cons_of_pos (by exact decide_eq_true ⟨hacc, rfl⟩)]
      rfl
    rw [this]
    simp only [hsend, asRegistration, hp, true_and]
  · have : lastFor s.mac s.cfg s.conf m m.records j q = none := by
      simp only [lastFor, hrec]
      have hno : ¬ (AcceptedBy s.mac s.cfg s.conf m (registered pfx ls') j ∧ (registered pfx ls').eid = .net q) := by
        rintro ⟨h5, h6⟩
        refine hj ⟨acceptedBy_unique h5 hacc, ?_⟩
        cases h6; rfl
      rw [List.filter_cons_of_neg (by intro h; exact hno (of_decide_eq_true h))]
      rfl
    rw [this]
    rw [if_neg (fun h => hj ⟨h.1, h.2.1⟩)]

/-- C81: the whole round trip between two running lispds.  An ETR registers its prefix and asks for a Map-Notify;
the Map-Register arrives at a lispd with a site for the prefix, with the same key and the prefix in its scope.
That lispd calls `send_message` with a Map-Notify back to the source at port 4342, over the socket the Map-Register
came in on; its bytes, arriving at the ETR's lispd from the address of the Map-Server, are stored with the pending
registration and nowhere else; and with that `register` reports success (if the thread is not told to stop
meanwhile and no `send` fails). -/
theorem registration_round_trip (s : Setup) (w : World) (o : Origin) (maxint counter : Nat)
    (sendto : Nat → Except Err Nat) (r : EtrReg) (pfx : Net) (ls : List Locator) (nat : Option NatInfo)
    (nonce : Bytes) (xtrId siteId : Int) (reg : MapRegister) (d : Bytes) (hn : nonce.length = 8)
    (hreg : (mkRegister r pfx ls nat true nonce xtrId siteId).insertWith s.mac r.key = .ok reg)
    (hd : reg.toBytes = .ok d) (i : Nat) (sitePfx : Net) (hsite : SiteFor s.cfg pfx i sitePfx)
    (hscope : InScope (s.conf i) sitePfx pfx) (hkey : r.key = some (s.conf i).key)
    -- the lispd with the ETR
    (s' : Setup) (w' : World) (o' : Origin) (maxint' counter' : Nat) (sendto' : Nat → Except Err Nat)
    (k : Nat) (etrPfx : Net) (hetr : EtrFor s'.cfg (.net pfx) k etrPfx) (pre post : List OutReg)
    (hpend : (w'.etrs k).outRegs = pre ++ { mapServer := r.mapServer, nonce := nonce } :: post)
    (hpre : ∀ q ∈ pre, ¬ (q.mapServer = r.mapServer ∧ q.nonce = nonce)) (hfrom : o'.source = r.mapServer) :
    ∃ n d' n', (controlDatagram s w o maxint counter d sendto).2.sent =
        some ⟨false, ⟨.notify n, [.ip o.source], 4342⟩⟩ ∧
      (Ctrl.notify n).toBytes = .ok d' ∧
      (controlDatagram s' w' o' maxint' counter' d' sendto').2.swallowed = none ∧
      (controlDatagram s' w' o' maxint' counter' d' sendto').2.sent = none ∧
      (∀ j, (controlDatagram s' w' o' maxint' counter' d' sendto').2.world.etrs j =
        if j = k then
          { w'.etrs k with
            outRegs := pre ++ { mapServer := r.mapServer, nonce := nonce, notify := some n' } :: post }
        else w'.etrs j) ∧
      (∀ j, (controlDatagram s' w' o' maxint' counter' d' sendto').2.world.stores j = w'.stores j) ∧
      ∀ a0 a1 a2, Undisturbed [a0, a1, a2] →
        (registerRun s.mac r.key true reg a0 a1 a2 (some n')).2 = .ok (some true) := by
  obtain ⟨m, n, d', n', h3, hans, hd', hn', hok⟩ := registration_handshake s.mac r pfx ls nat true nonce xtrId siteId
    reg d hn rfl hreg hd s.cfg s.conf w.stores o.source o.now i sitePfx hsite hscope hkey
  refine ⟨n, d', n', ?_, hd', ?_⟩
  · have h2 : Pkt.fromBytes .control d = .ok (.ctrl (.register m)) :=
      control_dispatch_iff.mpr ⟨written_type (m := .register reg) hd, h3⟩
    have hrecv : (receive maxint counter none (.ctrl (.register m))).2 =
        .ok ⟨(takeNr maxint counter none).1, .ctrl (.register m), none, none⟩ :=
      (receive_iff _ _ _ _ _).mpr ⟨rfl, rfl, .inl ⟨_, rfl, rfl, rfl⟩⟩
    simp only [controlDatagram, h2, controlMessage]
    cases hrc : receive maxint counter none (.ctrl (.register m)) with
    | mk c res =>
      rw [hrc] at hrecv
      simp only at hrecv
      subst hrecv
      simp only [handleMessage, dispatch]
      cases hm : handleMapRegister s.mac s.cfg s.conf w.stores m o.source o.now with
      | mk stores out =>
        rw [hm] at hans
        simp only at hans
        subst hans
        rfl
  · -- the ETR's side
    have h2 : Pkt.fromBytes .control d' = .ok (.ctrl (.notify n')) :=
      control_dispatch_iff.mpr ⟨written_type (m := .notify n) hd', hn'⟩
    have hrecv : (receive maxint' counter' none (.ctrl (.notify n'))).2 =
        .ok ⟨(takeNr maxint' counter' none).1, .ctrl (.notify n'), none, none⟩ :=
      (receive_iff _ _ _ _ _).mpr ⟨rfl, rfl, .inl ⟨_, rfl, rfl, rfl⟩⟩
    have hacc := (notify_accepted_iff s.mac r.key reg n').mp hok
    obtain ⟨hnonce, _, _, _, _, l, hrec, _⟩ := register_made s.mac r pfx ls nat true nonce xtrId siteId reg hreg
    obtain ⟨-, e1, -, -, -, e2, e3⟩ := hacc
    rw [hrec] at e2 e3
    obtain ⟨x, hx, hc⟩ := e3 (registered pfx l) (by simp)
    have hrecs : n'.records = [x] := by
      match hl : n'.records with
      | [] => rw [hl] at e2; cases e2
      | [y] => rw [hl, List.mem_singleton] at hx; rw [hx]
      | _ :: _ :: _ => rw [hl] at e2; cases e2
    have heid : x.eid = .net pfx := hc.1
    obtain ⟨rest, hpath⟩ := etrFor_iff.mp hetr
    have hhandle : handleMapNotify s'.cfg o'.source n' w'.etrs n'.records =
        (fun j => if j = k then (w'.etrs k).mapNotify o'.source n' else w'.etrs j, .ok ()) := by
      rw [hrecs]
      simp only [handleMapNotify, heid, resolveIn, hpath, List.head?_cons]
    have hstored := notify_stored (w'.etrs k) o'.source n' pre post _ hpend
      ⟨hfrom.symm, by rw [e1, hnonce]⟩ (by rw [hfrom, e1, hnonce]; exact hpre)
    have hres : (controlDatagram s' w' o' maxint' counter' d' sendto').2 =
        { world := { w' with etrs := fun j => if j = k then (w'.etrs k).mapNotify o'.source n' else w'.etrs j } } := by
      simp only [controlDatagram, h2, controlMessage]
      cases hrc : receive maxint' counter' none (.ctrl (.notify n')) with
      | mk c res =>
        rw [hrc] at hrecv
        simp only at hrecv
        subst hrecv
        simp only [handleMessage, dispatch, hhandle]
    rw [hres]
    refine ⟨rfl, rfl, fun j => ?_, fun j => rfl, fun a0 a1 a2 hu => ?_⟩
    · dsimp only
      by_cases hj : j = k
      · rw [if_pos hj, if_pos hj, hstored]
      · rw [if_neg hj, if_neg hj]
    · exact (register_success_iff s.mac r.key true reg a0 a1 a2 (some n')).mpr (.inr ⟨rfl, hu, n', rfl, hok⟩)

-- the hypotheses of `registration_round_trip` are met: the Map-Server of `exMs_site`, and the ETR of `exEtr_for`
-- with two pending registrations
example : ∃ (s s' : Setup) (w' : World) (reg : MapRegister) (d : Bytes) (pre post : List OutReg),
    exOwnRegister.insertWith s.mac exEtrReg.key = .ok reg ∧ reg.toBytes = .ok d ∧ SiteFor s.cfg exNet 7 exNet ∧
    InScope (s.conf 7) exNet exNet ∧ exEtrReg.key = some (s.conf 7).key ∧ EtrFor s'.cfg (.net exNet) 5 exNet ∧
    (w'.etrs 5).outRegs = pre ++ { mapServer := exEtrReg.mapServer, nonce := [1, 2, 3, 4, 5, 6, 7, 8] } :: post ∧
    pre ≠ [] ∧ ∀ q ∈ pre, ¬ (q.mapServer = exEtrReg.mapServer ∧ q.nonce = [1, 2, 3, 4, 5, 6, 7, 8]) := by
  obtain ⟨d, hd⟩ := show ∃ d, ({ exOwnRegister with authData := [0] } : MapRegister).toBytes = .ok d from isOk_iff.mp (by decide +kernel)
  obtain ⟨reg, h1, h2, _⟩ := register_insert_defined toyMac exOwnRegister exKey [0] d hd rfl
  obtain ⟨d', h2⟩ := h2 (by decide)
  exact ⟨⟨toyMac, exMsCfg, exMsConf, []⟩, ⟨toyMac, exEtrCfg, exMsConf, []⟩,
    ⟨fun _ => [], fun _ => { outRegs := [⟨exHost, [0, 0, 0, 0, 0, 0, 0, 0], none⟩] ++ [⟨exHost, [1, 2, 3, 4, 5, 6, 7, 8], none⟩] }⟩,
    reg, d', [⟨exHost, [0, 0, 0, 0, 0, 0, 0, 0], none⟩], [], h1, h2, exMs_site, exMs_scope, rfl, exEtr_for, rfl, by simp,
    (by decide +kernel)⟩

/-! ### What an ETR can send at all -/

/-- C63/C36: the Info-Request of an ETR with key id 1 or 2 can always be made and sent, whatever its key; its receiver
sees a request for the prefix of the ETR with TTL 1440 and the nonce, and authentication data that verifies with the
key. -/
theorem info_request_arrives (H : Mac) (r : EtrReg) (pfx : Net) (nonce : Bytes) (hn : nonce.length = 8)
    (hk : r.keyId = 1 ∨ r.keyId = 2) (key : Bytes) (hkey : r.key = some key) :
    ∃ m d, (mkInfo r pfx nonce).insertWith H r.key = .ok m ∧ m.toBytes = .ok d ∧
      Pkt.fromBytes .control d = .ok (.ctrl (.info m)) ∧ m.isReply = false ∧ m.reply = .none ∧ m.nonce = nonce ∧
      m.keyId = r.keyId ∧ m.ttl = 1440 ∧ m.eidPrefix = .net pfx ∧ m.verify H key = .ok true := by
  rw [hkey]
  obtain ⟨d0, hd0⟩ := (info_writable_iff { mkInfo r pfx nonce with authData := [0] }).mpr
    ⟨hn, .inr hk, ⟨by simp, by simp⟩, ⟨(by decide : (0 : Int) ≤ 1440), (by decide : (1440 : Int) < 2 ^ 32)⟩,
      ⟨pfx, rfl⟩, .inl ⟨rfl, rfl⟩⟩
  obtain ⟨m, hm, h1, _⟩ := info_insert_defined H (mkInfo r pfx nonce) key [0] d0 hd0
  obtain ⟨d, hd⟩ := h1 (by show r.keyId ≠ 0; omega)
  have hv := info_insert_verifies H _ _ _ hm
  obtain ⟨a, rfl⟩ := info_insert_content H _ _ _ hm
  have hp := info_round_trip _ _ hd
  exact ⟨_, d, hm, hd, control_dispatch_iff.mpr ⟨written_type (m := .info _) hd, hp⟩, rfl, rfl, rfl, rfl, rfl, rfl, hv⟩

/-- C62/C86: an ETR registration with key id 0 (the default): the Info-Request and the Map-Register can be made, but
neither can be serialised; `send` transmits nothing, over whichever sockets, with or without NAT. -/
theorem unauthenticated_never_sent (H : Mac) (r : EtrReg) (hk : r.keyId = 0) (pfx : Net) (ls : List Locator)
    (nat : Option NatInfo) (want : Bool) (nonce : Bytes) (xtrId siteId : Int) (socks : List Sock)
    (sendto : Nat → Except Err Nat) :
    (∃ m, (mkInfo r pfx nonce).insertWith H r.key = .ok m ∧
      (sendMessage m.toBytes socks sendto 0 [.ip r.mapServer]).1 = []) ∧
    ∃ reg, (mkRegister r pfx ls nat want nonce xtrId siteId).insertWith H r.key = .ok reg ∧
      ((∃ c, registerSend r nat reg = .ok (.plain c) ∧
          (sendMessage c.message.toBytes socks sendto 0 c.destinations).1 = []) ∨
        registerSend r nat reg = .ok .nothing ∨ ∃ e, registerSend r nat reg = .error e) := by
  have silent : ∀ (x : Except Err Bytes) (ds : List Addr), (∀ d, x ≠ .ok d) →
      (sendMessage x socks sendto 0 ds).1 = [] := by
    intro x ds hx
    cases x with
    | ok d => exact absurd rfl (hx d)
    | error e => exact sendMessage_unserialisable_calls e socks sendto ds 0
  refine ⟨⟨{ mkInfo r pfx nonce with authData := [] }, ?_, silent _ _ fun d hd => ?_⟩,
    ⟨{ mkRegister r pfx ls nat want nonce xtrId siteId with authData := [] }, ?_, ?_⟩⟩
  · have hi : ∀ k, (mkInfo r pfx nonce).insert H k = .ok { mkInfo r pfx nonce with authData := [] } := by
      intro k
      have ha : (mkInfo r pfx nonce).calculate H k = .ok [] := calcAuth_ok.mpr (.inl ⟨hk, rfl⟩)
      simp only [Info.insert, ha, exBind_okl]; rfl
    refine withKey_ok.mpr ?_
    cases hr : r.key with
    | none => exact .inr ⟨rfl, hk, hi []⟩
    | some k => exact .inl ⟨k, rfl, hi k⟩
  · exact ((info_writable_iff _).mp ⟨d, hd⟩).2.2.1.1 rfl
  · have hi : ∀ k, (mkRegister r pfx ls nat want nonce xtrId siteId).insert H k =
        .ok { mkRegister r pfx ls nat want nonce xtrId siteId with authData := [] } := by
      intro k
      have ha : (mkRegister r pfx ls nat want nonce xtrId siteId).calculate H k = .ok [] :=
        calcAuth_ok.mpr (.inl ⟨hk, rfl⟩)
      simp only [MapRegister.insert, ha, exBind_okl, MapRegister.touched,
        if_pos (show (mkRegister r pfx ls nat want nonce xtrId siteId).keyId = 0 from hk)]; rfl
    refine withKey_ok.mpr ?_
    cases hr : r.key with
    | none => exact .inr ⟨rfl, hk, hi []⟩
    | some k => exact .inl ⟨k, rfl, hi k⟩
  · generalize hreg : ({ mkRegister r pfx ls nat want nonce xtrId siteId with authData := [] } : MapRegister) = reg
    have hno : ∀ d, reg.toBytes ≠ .ok d := by
      intro d hd
      exact ((map_register_writable_iff reg).mp ⟨d, hd⟩).2.2.2.1.1 (by rw [← hreg])
    cases nat with
    | none => exact .inl ⟨_, rfl, silent _ _ hno⟩
    | some n =>
      simp only [registerSend]
      split
      · exact .inr (.inl rfl)
      · refine .inr (.inr ?_)
        have hp : ∃ e, (Pkt.ctrl (.register reg)).toBytes = .error e := by
          cases he : reg.toBytes with
          | ok d => exact absurd he (hno d)
          | error e => exact ⟨e, he⟩
        obtain ⟨e, he⟩ := hp
        have : natEcm r.mapServer n.privateEtr reg = .error e := by
          simp only [natEcm, udpChecksum, he]; rfl
        rw [this]
        exact ⟨e, rfl⟩

/-- C86: what was received without authentication data raises ValueError when it is serialised, whatever it says. -/
theorem unauthenticated_unwritable (d : Bytes) :
    (∀ m, MapRegister.fromBytes d = .ok m → m.authData = [] → m.toBytes = .error .value) ∧
    (∀ m, MapNotify.fromBytes d = .ok m → m.authData = [] → m.toBytes = .error .value) ∧
    (∀ m, Info.fromBytes d = .ok m → m.authData = [] → m.toBytes = .error .value) := by
  refine ⟨fun m h ha => ?_, fun m h ha => ?_, fun m h ha => ?_⟩
  · obtain ⟨_, hz⟩ := map_register_writable_with d m h [0] (by simp) (by simp)
    have := register_no_auth hz
    rwa [show ({ m with authData := [] } : MapRegister) = m by rw [← ha]] at this
  · obtain ⟨_, hz⟩ := map_notify_writable_with d m h [0] (by simp) (by simp)
    have := notify_no_auth hz
    rwa [show ({ m with authData := [] } : MapNotify) = m by rw [← ha]] at this
  · obtain ⟨_, hz⟩ := info_writable_with d m h [0] (by simp) (by simp)
    have := info_no_auth hz
    rwa [show ({ m with authData := [] } : Info) = m by rw [← ha]] at this

/-- such messages are accepted, and verify: a Map-Register with one record for 192.0.2.0/24 -/
example : (match MapRegister.fromBytes ([0x30, 0, 1, 1] ++ List.replicate 8 7 ++ [0, 0, 0, 0] ++
      [0, 0, 5, 0xa0, 0, 24, 0x10, 0, 0, 0, 0, 1, 192, 0, 2, 0]) with
    | .ok m => decide (m.authData = [] ∧ m.keyId = 0 ∧ m.wantMapNotify = true ∧ m.records.length = 1 ∧
        m.verify toyMac exKey = .ok true ∧ m.toBytes = .error .value)
    | .error _ => false) = true := by
  decide +kernel

/-- C62/C86: an ETR registration with a key id but without a key (only a warning when it is made): neither the
Info-Request nor the Map-Register can be made; the exception is TypeError for every Info-Request with key id 1 or 2,
and for every Map-Register that could be serialised with some authentication data. -/
theorem keyless_never_sent (H : Mac) (r : EtrReg) (hk : r.keyId ≠ 0) (hkey : r.key = none) (pfx : Net)
    (ls : List Locator) (nat : Option NatInfo) (want : Bool) (nonce : Bytes) (hn : nonce.length = 8)
    (xtrId siteId : Int) :
    (∀ m, (mkInfo r pfx nonce).insertWith H r.key ≠ .ok m) ∧
    (∀ reg, (mkRegister r pfx ls nat want nonce xtrId siteId).insertWith H r.key ≠ .ok reg) ∧
    (r.keyId = 1 ∨ r.keyId = 2 → (mkInfo r pfx nonce).insertWith H r.key = .error .type) ∧
    (∀ z d, ({ mkRegister r pfx ls nat want nonce xtrId siteId with authData := z } : MapRegister).toBytes = .ok d →
      (mkRegister r pfx ls nat want nonce xtrId siteId).insertWith H r.key = .error .type) := by
  rw [hkey]
  refine ⟨fun m h => ?_, fun reg h => ?_, fun h => ?_, fun z d h => ?_⟩
  · rcases withKey_ok.mp h with ⟨k, h, _⟩ | ⟨_, h, _⟩
    · cases h
    · exact hk h
  · rcases withKey_ok.mp h with ⟨k, h, _⟩ | ⟨_, h, _⟩
    · cases h
    · exact hk h
  · obtain ⟨m, d, h1, _⟩ := info_request_arrives H { r with key := some [] } pfx nonce hn h [] rfl
    replace h1 : (mkInfo r pfx nonce).insert H [] = .ok m := h1
    simp only [Info.insertWith, withKey, h1]
    exact if_neg hk
  · obtain ⟨m, h1, _⟩ := register_insert_defined H (mkRegister r pfx ls nat want nonce xtrId siteId) [] z d h hn
    simp only [MapRegister.insertWith, withKey, h1]
    exact if_neg hk

-- the hypotheses of `keyless_never_sent` are met
example : ∃ (r : EtrReg) (d : Bytes), r.keyId = 1 ∧ r.key = none ∧
    ({ mkRegister r exNet [exLoc1] none true [1, 2, 3, 4, 5, 6, 7, 8] 5 6 with authData := [0] } :
      MapRegister).toBytes = .ok d := by
  obtain ⟨d, hd⟩ := show ∃ d, ({ exOwnRegister with authData := [0] } : MapRegister).toBytes = .ok d from isOk_iff.mp (by decide +kernel)
  exact ⟨{ id := 1, mapServer := exHost, keyId := 1 }, d, rfl, rfl, hd⟩

-- an ETR registration made with a map-server only has key id 0
example : ({ id := 1, mapServer := exHost } : EtrReg).keyId = 0 := rfl

end PyLisp.Props
