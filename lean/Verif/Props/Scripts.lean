import Verif.Scripts
import Verif.Props.Lispd
import Verif.Props.Layout
/-
C67: the command line tools.
-/
namespace PyLisp.Props
open PyLisp

/-! ### Specification vocabulary -/

/-- the network that contains only the address -/
def hostNet (q : IP) : Net :=
  ⟨q.ver, q.val, q.ver.width, Nat.le_refl _, q.lt, by simp [Nat.mod_one]⟩

/-- the unspecified address of a family: 0.0.0.0 or :: -/
def unspecified (v : Ver) : IP := ⟨v, 0, Nat.two_pow_pos _⟩

/-- the Map-Request that asks for the mapping of an address, as its receiver sees it -/
def asks (q rloc : IP) (nonce : Bytes) : MapRequest :=
  { nonce := nonce, sourceEid := .ip (unspecified q.ver), itrRlocs := [.ip rloc],
    eidPrefixes := [.net (hostNet q)] }

theorem querySource_eq (q : IP) : querySource q = unspecified q.ver := by
  obtain ⟨v, x, hx⟩ := q
  cases v <;> rfl

theorem wIP_length_le (a : IP) : (wIP a).length ≤ 18 := by
  obtain ⟨v, x, hx⟩ := a
  cases v <;> simp [wIP]

theorem denotes_host {q : IP} {n : Net} (h : Denotes (.ip q) n) : n = hostNet q := by
  cases h with
  | ip _ _ hv hb hp => exact Net.ext' hv hb hp

theorem query_request_bytes (q rloc : IP) (nonce : Bytes) (hn : nonce.length = 8) :
    ∃ d, (queryRequest q rloc nonce).toBytes = .ok d ∧ d.length ≤ 100 ∧
      MapRequest.fromBytes d = .ok (asks q rloc nonce) ∧ (asks q rloc nonce).toBytes = .ok d := by
  obtain ⟨d, hd⟩ := (map_request_writable_iff (queryRequest q rloc nonce)).mpr
    ⟨⟨by simp [queryRequest], by simp [queryRequest], by simp [queryRequest]⟩,
      ⟨by simp [queryRequest], by simp [queryRequest], by
        intro a ha
        simp only [queryRequest, List.mem_singleton] at ha
        subst ha
        exact ⟨hostNet q, .ip _ _ rfl rfl rfl⟩⟩, hn,
      ⟨.inr ⟨_, .ip _⟩, _, rfl⟩, (fun r h => by cases h)⟩
  obtain ⟨d2, hd2⟩ := (map_request_writable_iff (asks q rloc nonce)).mpr
    ⟨⟨by simp [asks], by simp [asks], by simp [asks]⟩,
      ⟨by simp [asks], by simp [asks], by
        intro a ha
        simp only [asks, List.mem_singleton] at ha
        subst ha
        exact ⟨hostNet q, .net _⟩⟩, hn,
      ⟨.inr ⟨_, .ip _⟩, _, rfl⟩, (fun r h => by cases h)⟩
  obtain ⟨r, ns, hr, ⟨hl, hi⟩, hw⟩ := map_request_bytes _ _ hd
  obtain ⟨r2, ns2, hr2, ⟨hl2, hi2⟩, hw2⟩ := map_request_bytes _ _ hd2
  cases hr
  cases hr2
  have hl : ns.length = 1 := hl
  have hl2 : ns2.length = 1 := hl2
  obtain ⟨n, rfl⟩ := List.length_eq_one_iff.mp hl
  obtain ⟨n2, rfl⟩ := List.length_eq_one_iff.mp hl2
  have e1 := denotes_host (hi 0 (by simp [queryRequest]) (by simp))
  have e2 : n2 = hostNet q := by
    have := hi2 0 (by simp [asks]) (by simp)
    simp only [asks, List.getElem_cons_zero] at this
    cases this; rfl
  simp only [List.getElem_cons_zero] at e1
  subst e1 e2
  have hdd : d2 = d := by
    rw [hw, hw2]
    simp only [wMapRequest, asks, queryRequest, querySource_eq]
  subst hdd
  refine ⟨d2, hd, ?_, ?_, hd2⟩
  · rw [hw]
    have h1 := wIP_length_le (querySource q)
    have h2 := wIP_length_le rloc
    have h3 := wIP_length_le (hostNet q).first
    simp only [wMapRequest, queryRequest, List.length_append, be32_length, hn, wAddr, List.flatMap_cons,
      List.flatMap_nil, List.append_nil, wEid, List.length_cons, List.length_nil, wOptRecord]
    omega
  · exact map_request_round_trip_exact _ _ hd2 rfl (by simp [asks]) (fun r h => by cases h)

/-- C67: the query tools can ask for every address: whatever the address queried, the address of the
host and the port, the ECM can be built and serialised; and the receiver opens it to exactly one Map-Request
for the host prefix of the address, with the nonce and the host's address as the only ITR-RLOC, in UDP
with a valid checksum, from the unspecified address to the queried address, with a TTL of 64. -/
theorem query_arrives (ddt : Bool) (q rloc : IP) (sport : Int) (nonce : Bytes) (hn : nonce.length = 8)
    (hp : 0 ≤ sport ∧ sport < 65536) (h41 : sport ≠ 4341) :
    ∃ d p ck, queryDatagram ddt q rloc sport nonce = .ok d ∧ Pkt.fromBytes .control d = .ok p ∧
      (∀ maxint counter, ∃ rc, (receive maxint counter none p).2 = .ok rc ∧ rc.message = p ∧
        rc.innerMessage = some (.ctrl (.request (asks q rloc nonce))) ∧
        rc.udpLayer = some { sport := sport, dport := 4342, cksum := ck }) ∧
      udpVerify { sport := sport, dport := 4342, cksum := ck } (.ctrl (.request (asks q rloc nonce)))
        (some (unspecified q.ver)) (some q) = .ok true ∧ ck ≠ 0 ∧
      ∃ e x, p = .ecm e x ∧ e.ddtOriginated = ddt ∧ e.security = false ∧
        ((q.ver = .v4 ∧ ∃ h y, x = .ipv4 h y ∧ h.src = some (unspecified .v4) ∧ h.dst = some q ∧ h.ttl = 64) ∨
         (q.ver = .v6 ∧ ∃ h y, x = .ipv6 h y ∧ h.src = some (unspecified .v6) ∧ h.dst = some q ∧
            h.hopLimit = 64)) := by
  obtain ⟨pb, hpb, hpl, hf, hbytes⟩ := query_request_bytes q rloc nonce hn
  have hpkt : (Pkt.ctrl (.request (queryRequest q rloc nonce))).toBytes = .ok pb := by
    simpa [Pkt.toBytes, Ctrl.toBytes] using hpb
  have hud : ∀ ck : Int, 0 ≤ ck ∧ ck < 65536 → ∃ d, (Pkt.udp { sport := sport, dport := 4342, cksum := ck }
      (.ctrl (.request (queryRequest q rloc nonce)))).toBytes = .ok d ∧ d.length ≤ 108 := by
    intro ck hck
    have hl : (rfc768 { sport := sport, dport := 4342, cksum := ck } pb).length ≤ 108 := by
      simp only [rfc768, List.length_append, be16_length]; omega
    exact ⟨_, udp_written_iff.mpr ⟨pb, hpkt, ⟨rfl, by omega, hp, by simp, hck⟩⟩, hl⟩
  obtain ⟨ck, hck⟩ := (udp_checksum_defined_iff (h := { sport := sport, dport := 4342 })
      (p := .ctrl (.request (queryRequest q rloc nonce))) (s := some (querySource q)) (d := some q)).mpr
    ⟨by obtain ⟨d, hd, _⟩ := hud 0 (by omega); exact ⟨d, hd⟩,
      _, _, rfl, rfl, by rw [querySource_eq]; rfl⟩
  obtain ⟨k1, k2, k3⟩ := udp_checksum_verifies hck
  obtain ⟨ub, hub, hul⟩ := hud ck (by omega)
  have hver : udpVerify { sport := sport, dport := 4342, cksum := ck }
      (.ctrl (.request (asks q rloc nonce))) (some (unspecified q.ver)) (some q) = .ok true := by
    have : ∀ (h : UdpHdr), udpChecksum h (.ctrl (.request (asks q rloc nonce)))
        (some (unspecified q.ver)) (some q) = udpChecksum h (.ctrl (.request (queryRequest q rloc nonce)))
        (some (querySource q)) (some q) := by
      intro h
      unfold udpChecksum
      simp only [Pkt.toBytes, Ctrl.toBytes]
      rw [hbytes, hpb, querySource_eq]
    rw [udpVerify, this]
    exact k3
  have hctrl : CtrlArrives (.request (queryRequest q rloc nonce)) (.request (asks q rloc nonce)) := by
    intro d hd
    rw [hpb] at hd; cases hd
    exact hf
  have harr : Arrives (.proto 17)
      (.udp { sport := sport, dport := 4342, cksum := ck } (.ctrl (.request (queryRequest q rloc nonce))))
      (.udp { sport := sport, dport := 4342, cksum := ck } (.ctrl (.request (asks q rloc nonce)))) :=
    .udp (.ctrl ⟨h41, by simp⟩ (.inr rfl) hctrl)
  have aux : ∀ e ip u x, CarriesUdp ip u x → u.dport = 4342 → u.sport ≠ 4341 → (∃ c, x = .ctrl c) →
      ∀ maxint counter, ∃ rc, (receive maxint counter none (.ecm e ip)).2 = .ok rc ∧ rc.message = .ecm e ip ∧
        rc.innerMessage = some x ∧ rc.udpLayer = some u := by
    intro e ip u x h1 h2 h3 h4 maxint counter
    exact ⟨⟨_, _, some u, some x⟩, (receive_iff _ _ _ _ _).mpr
      ⟨rfl, rfl, .inr ⟨e, ip, u, x, rfl, h1, h2, h3, .inl h4, rfl, rfl⟩⟩, rfl, rfl, rfl⟩
  have hck0 : (ck : Int) ≠ 0 := by omega
  match hv : q.ver with
  | .v4 =>
    obtain ⟨d4, hd4⟩ := (ipv4_writable_iff (h := { ttl := 64, src := some (querySource q), dst := some q, nextHeader := 17 })
      (p := .udp { sport := sport, dport := 4342, cksum := ck }
        (.ctrl (.request (queryRequest q rloc nonce)))) rfl).mpr
      ⟨ub, _, hub, ⟨rfl, by simp, by
        simp only [List.length_append, rfc791_length, List.length_nil]; omega, by simp, by simp, by simp,
        by simp, by simp [fixNextHeader, Pkt.headerType], ⟨_, rfl, by rw [querySource_eq, hv]; rfl⟩, ⟨_, rfl, hv⟩, (fun h => by cases h)⟩⟩
    obtain ⟨d, hd⟩ : ∃ d, (Pkt.ecm { ddtOriginated := ddt } (.ipv4 { ttl := 64, src := some (querySource q), dst := some q, nextHeader := 17 }
        (.udp { sport := sport, dport := 4342, cksum := ck }
          (.ctrl (.request (queryRequest q rloc nonce)))))).toBytes = .ok d := by
      obtain ⟨x, hx, _⟩ := bitsToBytes_ok_of_length (k := 4) (b := encEcmRaw { ddtOriginated := ddt })
        (by simp [encEcmRaw])
      refine ⟨x ++ d4, ecm_written_iff.mpr ⟨rfl, d4, hd4, ?_⟩⟩
      rw [bytesToBits_append, bytesToBits_of_bitsToBytes hx]
      rfl
    refine ⟨d, _, ck, ?_, ecm_round_trip (.ipv4 (slot := .version) (nh := 17) (.inr rfl) rfl
          (fun t ht => by cases ht; rfl) (fun ht => by cases ht) harr) hd, ?_, by rw [← hv]; exact hver, hck0,
      _, _, rfl, rfl, rfl, .inl ⟨rfl, _, _, rfl, by rw [querySource_eq, hv], rfl, rfl⟩⟩
    · simp only [queryDatagram, queryEcm, hck, hv]
      exact hd
    · exact aux _ _ _ _ (.v4 _ _ _ rfl rfl rfl) rfl h41 ⟨_, rfl⟩
  | .v6 =>
    obtain ⟨d4, hd4⟩ := (ipv6_writable_iff (h := { hopLimit := 64, src := some (querySource q), dst := some q, nextHeader := 17 })
      (p := .udp { sport := sport, dport := 4342, cksum := ck }
        (.ctrl (.request (queryRequest q rloc nonce))))).mpr
      ⟨ub, _, hub, ⟨rfl, by omega, by simp, by simp,
        by simp [fixNextHeader, Pkt.headerType], by simp, ⟨_, rfl, by rw [querySource_eq, hv]; rfl⟩, ⟨_, rfl, hv⟩⟩⟩
    obtain ⟨d, hd⟩ : ∃ d, (Pkt.ecm { ddtOriginated := ddt } (.ipv6 { hopLimit := 64, src := some (querySource q), dst := some q, nextHeader := 17 }
        (.udp { sport := sport, dport := 4342, cksum := ck }
          (.ctrl (.request (queryRequest q rloc nonce)))))).toBytes = .ok d := by
      obtain ⟨x, hx, _⟩ := bitsToBytes_ok_of_length (k := 4) (b := encEcmRaw { ddtOriginated := ddt })
        (by simp [encEcmRaw])
      refine ⟨x ++ d4, ecm_written_iff.mpr ⟨rfl, d4, hd4, ?_⟩⟩
      rw [bytesToBits_append, bytesToBits_of_bitsToBytes hx]
      rfl
    refine ⟨d, _, ck, ?_, ecm_round_trip (.ipv6 (slot := .version) (nh := 17) (.inr rfl)
          (fun t ht => by cases ht; rfl) (fun ht => by cases ht) harr) hd, ?_, by rw [← hv]; exact hver, hck0,
      _, _, rfl, rfl, rfl, .inr ⟨rfl, _, _, rfl, by rw [querySource_eq, hv], rfl, rfl⟩⟩
    · simp only [queryDatagram, queryEcm, hck, hv]
      exact hd
    · exact aux _ _ _ _ (.v6 _ [] _ _ (fun _ h => by cases h) rfl) rfl h41 ⟨_, rfl⟩

-- the hypotheses are met, and the datagram is what one would write by hand
def exQuery : IP := ⟨.v4, 0x0a010203, by decide⟩
def exRloc : IP := ⟨.v4, 0xc0000201, by decide⟩
example : ∃ d, queryDatagram false exQuery exRloc 30000 exNonce = .ok d ∧ d.take 6 = [0x80, 0, 0, 0, 0x45, 0] := by
  refine ⟨_, rfl, ?_⟩
  decide +kernel

/-! ### At a lispd -/

/-- C67: a lispd ignores the requests of `map_resolve`: nothing is sent, nothing changes. -/
theorem map_resolve_ignored (q rloc : IP) (sport : Int) (nonce : Bytes) (hn : nonce.length = 8)
    (hp : 0 ≤ sport ∧ sport < 65536) (h41 : sport ≠ 4341) (s : Setup) (w : World) (o : Origin)
    (maxint counter : Nat) (sendto : Nat → Except Err Nat) (d : Bytes)
    (hd : queryDatagram false q rloc sport nonce = .ok d) :
    (controlDatagram s w o maxint counter d sendto).2 = { world := w } := by
  obtain ⟨d', p, ck, h1, h2, h3, _, _, e, x, rfl, he, _⟩ := query_arrives false q rloc sport nonce hn hp h41
  rw [hd] at h1; cases h1
  obtain ⟨rc, r1, r2, r3, _⟩ := h3 maxint counter
  simp only [controlDatagram, h2, controlMessage]
  cases hrc : receive maxint counter none (.ecm e x) with
  | mk c res =>
    rw [hrc] at r1
    simp only at r1
    subst r1
    simp only [handleMessage, dispatch, r2, r3, he, Bool.false_eq_true, if_false]

/-- C67: a lispd answers `ddt_query`: when its tree has a node for the address that is neither a delegation nor a
Map-Server, it sends one Map-Referral, over the socket the query came in on, to the address and port
the query came from; and what arrives there is a Map-Referral with the nonce of the query and one record:
NOT-AUTHORITATIVE for the host prefix of the address. -/
theorem ddt_query_answered (q rloc : IP) (nonce : Bytes) (hn : nonce.length = 8) (s : Setup) (w : World)
    (o : Origin) (maxint counter : Nat) (sendto : Nat → Except Err Nat) (d : Bytes)
    (hd : queryDatagram true q rloc 4342 nonce = .ok d) (n : Node)
    (hnode : NodeFor s.cfg (.net (hostNet q)) n) (hdel : ¬ Delegated n) :
    ∃ g a, (controlDatagram s w o maxint counter d sendto).2.sent = some g ∧ g.viaAll = false ∧
      (controlDatagram s w o maxint counter d sendto).2.world = w ∧
      g.call.destinations = [.ip o.source] ∧ g.call.port = o.port ∧ g.call.message.toBytes = .ok a ∧
      Pkt.fromBytes .control a = .ok (.ctrl (.referral
        { nonce := nonce, records := [{ ttl := 0, action := 5, incomplete := true, eid := .inst 0 (.net (hostNet q)) 32 }] })) := by
  obtain ⟨d', p, ck, h1, h2, h3, _, _, e, x, rfl, he, hs, _⟩ :=
    query_arrives true q rloc 4342 nonce hn (by decide) (by decide)
  rw [hd] at h1; cases h1
  obtain ⟨rc, r1, r2, r3, _⟩ := h3 maxint counter
  obtain ⟨a, ha, hpar⟩ := ddt_answer_received (asks q rloc nonce) o.source o.port (.net (hostNet q)) hn (.net _)
  have hh := ddt_not_delegated s.cfg e (asks q rloc nonce) o.source o.port hs _ [] rfl n hnode hdel
  refine ⟨⟨false, (notAuthAnswer nonce (.net (hostNet q)) o.source o.port).map .referral⟩, a, ?_, rfl, ?_, rfl, rfl,
    ha, ?_⟩
  · simp only [controlDatagram, h2, controlMessage]
    cases hrc : receive maxint counter none (.ecm e x) with
    | mk c res =>
      rw [hrc] at r1
      simp only at r1
      subst r1
      simp only [handleMessage, dispatch, r2, r3, he, if_true, hh, outgoing]
      rfl
  · simp only [controlDatagram, h2, controlMessage]
    cases hrc : receive maxint counter none (.ecm e x) with
    | mk c res =>
      rw [hrc] at r1
      simp only at r1
      subst r1
      simp only [handleMessage, dispatch, r2, r3, he, if_true, hh, outgoing]
  · exact control_dispatch_iff.mpr ⟨written_type (m := .referral _) ha, hpar⟩

/-- C67: otherwise (a delegation, a Map-Server, or no tree for the address) a lispd transmits nothing in
answer to `ddt_query`. -/
theorem ddt_query_unanswered (q rloc : IP) (nonce : Bytes) (hn : nonce.length = 8) (s : Setup) (w : World)
    (o : Origin) (maxint counter : Nat) (sendto : Nat → Except Err Nat) (d : Bytes)
    (hd : queryDatagram true q rloc 4342 nonce = .ok d)
    (hdel : ∀ n, NodeFor s.cfg (.net (hostNet q)) n → Delegated n) :
    (controlDatagram s w o maxint counter d sendto).2.calls = [] := by
  obtain ⟨d', p, ck, h1, h2, h3, _, _, e, x, rfl, he, hs, _⟩ :=
    query_arrives true q rloc 4342 nonce hn (by decide) (by decide)
  rw [hd] at h1; cases h1
  obtain ⟨rc, r1, r2, r3, _⟩ := h3 maxint counter
  simp only [controlDatagram, h2, controlMessage]
  cases hrc : receive maxint counter none (.ecm e x) with
  | mk c res =>
    rw [hrc] at r1
    simp only at r1
    subst r1
    simp only [handleMessage, dispatch, r2, r3, he, if_true]
    match hh : handleDdtMapRequest s.cfg e (asks q rloc nonce) o.source o.port with
    | .error y => rfl
    | .ok none => rfl
    | .ok (some y) =>
      have hdest : y.destinations = [.ip o.source] := by
        unfold handleDdtMapRequest at hh
        rw [if_neg (by rw [hs]; simp)] at hh
        simp only [asks] at hh
        split at hh
        · cases hh
        · cases hh
        · split at hh
          · cases hh
          · cases hh; rfl
      simp only [outgoing, SendCall.map, Ctrl.toBytes, hdest]
      match hb : y.message.toBytes with
      | .ok b =>
        obtain ⟨e', es, n, he', hnode, hnd, _⟩ := ddt_on_the_wire _ _ _ _ _ _ hh b hb
        simp only [asks, List.cons.injEq] at he'
        obtain ⟨rfl, _⟩ := he'
        exact absurd (hdel n hnode) hnd
      | .error z =>
        have := send_unserialisable z (Outgoing.sockets ⟨false, y.map .referral⟩ s o) sendto [o.source] 0
        simp only [List.map_cons, List.map_nil, SendCall.map, hdest] at this
        rw [this]
        split <;> rfl

-- the hypotheses of `ddt_query_answered` and `ddt_query_unanswered` are met
example : NodeFor exDdtCfg (.net (hostNet ⟨.v4, 12 * 2 ^ 24, by decide⟩)) exDdtTree := by
  refine ⟨hostNet ⟨.v4, 12 * 2 ^ 24, by decide⟩, exDdtTree, [], treeFor_net.mpr ⟨rfl, rfl⟩, ?_⟩
  unfold exDdtTree
  rw [resolvePath_cont]
  rfl

/-! ### `map_register` -/

/-- what the tool registers: 37.77.62.0/24, for a day, authoritative, at 127.0.0.1 with priority 1 and
weight 100 (not for multicast), our own and reachable -/
def announcedRecord : Record :=
  { ttl := 1440, authoritative := true,
    eid := .net ⟨.v4, 37 * 2 ^ 24 + 77 * 2 ^ 16 + 62 * 2 ^ 8, 24, by decide, by decide, by decide⟩,
    locators := [{ priority := 1, weight := 100, mPriority := 255, mWeight := 0, isLocal := true,
                   probed := false, reachable := true, address := .ip ⟨.v4, 127 * 2 ^ 24 + 1, by decide⟩ }] }

/-- the Map-Register: a proxy reply is asked for, a Map-Notify is not; HMAC-SHA-1 (key id 1) -/
def announcement (nonce auth : Bytes) : MapRegister :=
  { proxyMapReply := true, wantMapNotify := false, nonce := nonce, keyId := 1, authData := auth,
    records := [announcedRecord], xtrId := 0, siteId := 0 }

theorem announced_eq : toolRecord = announcedRecord := by decide +kernel

theorem announcement_eq (nonce a : Bytes) : { toolRegister nonce with authData := a } = announcement nonce a := by
  rw [announcement, ← announced_eq]; rfl

theorem tool_fix {nonce : Bytes} (h : toolRecord.sanitize = .ok toolRecord) :
    ∀ r ∈ (toolRegister nonce).records, r.sanitize = .ok r := by
  intro r hr
  simp only [toolRegister, List.mem_singleton] at hr
  subst hr; exact h

theorem tool_sanitize : toolRecord.sanitize = .ok toolRecord := by decide +kernel

theorem tool_writable (nonce : Bytes) : ∃ d, ({ toolRegister nonce with authData := [0] } : MapRegister).toBytes = .ok d := by
  have henc : ∃ b, encRecord toolRecord = .ok b := isOk_iff.mp (by decide +kernel)
  have h1 : (0 : Int) < 2 ^ 128 := by decide
  have h2 : (0 : Int) < 2 ^ 64 := by decide
  have h3 : 1 < 2 ^ 16 := by decide
  exact (map_register_writable_iff _).mpr
    ⟨⟨Int.le_refl _, h1⟩, ⟨Int.le_refl _, h2⟩, .inr (.inl rfl), ⟨by simp, h3⟩, Nat.le_of_ble_eq_true rfl,
      (fun r hr => by
        simp only [toolRegister, List.mem_singleton] at hr
        subst hr; exact henc)⟩

/-- the key, as the ASCII text "testje" -/
def testje : Bytes := "testje".toList.map fun c => BitVec.ofNat 8 c.toNat

theorem testje_eq : testje = toolKey := by decide +kernel

/-- C67: the message of `map_register` can always be made and sent; its receiver sees the one record, the
nonce, and authentication data that verifies with the key. -/
theorem register_tool_arrives (H : Mac) (nonce : Bytes) (hn : nonce.length = 8) :
    ∃ d a, registerDatagram H nonce = .ok d ∧
      Pkt.fromBytes .control d = .ok (.ctrl (.register (announcement nonce a))) ∧
      MapRegister.fromBytes d = .ok (announcement nonce a) ∧
      (announcement nonce a).verify H testje = .ok true := by
  rw [testje_eq]
  have hsan := tool_sanitize
  obtain ⟨d0, hd0⟩ := tool_writable nonce
  obtain ⟨m, hm, hmd, _⟩ := register_insert_defined H (toolRegister nonce) toolKey [0] d0 hd0 hn
  obtain ⟨d, hd⟩ := hmd (show (1 : Int) ≠ 0 by decide)
  have hform : ∃ a, m = { toolRegister nonce with authData := a } := by
    have hm' := hm
    simp only [MapRegister.insert, exBind_ok, exPure, Except.ok.injEq] at hm'
    obtain ⟨a, _, m2, ht, rfl⟩ := hm'
    refine ⟨a, ?_⟩
    rw [MapRegister.touched, if_neg (by simp [toolRegister])] at ht
    obtain ⟨_, _, _, rs, hrs, rfl⟩ := MapRegister.sanitize_ok.mp ht
    rw [sanitizeAll_fix (tool_fix hsan)] at hrs
    have hrs := Except.ok.inj hrs
    subst hrs
    rfl
  obtain ⟨a, rfl⟩ := hform
  have hpar : MapRegister.fromBytes d = .ok { toolRegister nonce with authData := a } :=
    map_register_round_trip_exact _ _ hd hn (tool_fix (nonce := nonce) hsan)
  have hver := register_insert_verifies H _ _ _ hm
  rw [announcement_eq] at hd hver
  rw [announcement_eq] at hpar
  refine ⟨d, a, ?_, control_dispatch_iff.mpr ⟨written_type (m := .register _) hd, hpar⟩, hpar, hver⟩
  unfold registerDatagram
  rw [hm]
  rw [← announcement_eq] at hd
  exact hd

open Classical in
/-- C67: a lispd with a Map-Server site for 37.77.62.0/24 with the key of the tool stores the registration,
under the source address, for 180 s; no other registration changes anywhere, and no answer is sent. -/
theorem register_tool_stored (s : Setup) (w : World) (o : Origin) (maxint counter : Nat)
    (sendto : Nat → Except Err Nat) (nonce : Bytes) (hn : nonce.length = 8) (d : Bytes)
    (hd : registerDatagram s.mac nonce = .ok d) (p : Net) (hp : announcedRecord.eid = .net p) (i : Nat) (pfx : Net)
    (hsite : SiteFor s.cfg p i pfx) (hkey : (s.conf i).key = testje) (hscope : InScope (s.conf i) pfx p) :
    (controlDatagram s w o maxint counter d sendto).2.sent = none ∧
    (controlDatagram s w o maxint counter d sendto).2.swallowed = none ∧
    ∀ j q src, ((controlDatagram s w o maxint counter d sendto).2.world.stores j).get q src =
      if j = i ∧ q = p ∧ src = .addr o.source then
        some { record := announcedRecord, proxy := true, deadline := o.now + 180000000 }
      else (w.stores j).get q src := by
  obtain ⟨d', a, h1, h2, h3, h4⟩ := register_tool_arrives s.mac nonce hn
  rw [hd] at h1; cases h1
  have hrecv : (receive maxint counter none (.ctrl (.register (announcement nonce a)))).2 =
      .ok ⟨(takeNr maxint counter none).1, .ctrl (.register (announcement nonce a)), none, none⟩ :=
    (receive_iff _ _ _ _ _).mpr ⟨rfl, rfl, .inl ⟨_, rfl, rfl, rfl⟩⟩
  obtain ⟨root, rest, hc, hres⟩ := hsite
  have hr : ∀ r ∈ (announcement nonce a).records, Resolvable s.cfg r := by
    intro r hr
    simp only [announcement, List.mem_singleton] at hr
    subst hr
    exact ⟨p, hp, .inr ⟨root, _, hc, hres⟩⟩
  have hacc : AcceptedBy s.mac s.cfg s.conf (announcement nonce a) announcedRecord i :=
    ⟨p, pfx, hp, ⟨root, rest, hc, hres⟩, by rw [hkey]; exact h4, hscope⟩
  have hans := (map_register_received s.mac s.cfg s.conf w.stores d _ h3 o.source o.now hr).1 (.inl rfl)
  have hst := map_register_stores s.mac s.cfg s.conf w.stores _ o.source o.now
    (received_verify h3 s.mac) hr
  simp only [controlDatagram, h2, controlMessage]
  cases hrc : receive maxint counter none (.ctrl (.register (announcement nonce a))) with
  | mk c res =>
    rw [hrc] at hrecv
    simp only at hrecv
    subst hrecv
    simp only [handleMessage, dispatch]
    cases hm : handleMapRegister s.mac s.cfg s.conf w.stores (announcement nonce a) o.source o.now with
    | mk stores out =>
      rw [hm] at hans hst
      simp only at hans
      subst hans
      refine ⟨rfl, rfl, fun j q src => ?_⟩
      have := hst j q src
      simp only [outgoing]
      rw [this]
      by_cases hj : j = i ∧ q = p
      · obtain ⟨rfl, rfl⟩ := hj
        have : lastFor s.mac s.cfg s.conf (announcement nonce a)
            (announcement nonce a).records j q = some announcedRecord := by
          simp only [lastFor, announcement]
          rw [List.filter_cons_of_pos (by exact decide_eq_true ⟨hacc, hp⟩)]
          rfl
        rw [this]
        simp only [sender, announcement, asRegistration, if_true, true_and]
      · have : lastFor s.mac s.cfg s.conf (announcement nonce a)
            (announcement nonce a).records j q = none := by
          simp only [lastFor, announcement]
          have hno : ¬ (AcceptedBy s.mac s.cfg s.conf (announcement nonce a) announcedRecord j ∧
              announcedRecord.eid = .net q) := by
            rintro ⟨h5, h6⟩
            refine hj ⟨acceptedBy_unique h5 hacc, ?_⟩
            rw [hp] at h6; cases h6; rfl
          rw [List.filter_cons_of_neg (by intro h; exact hno (of_decide_eq_true h))]
          rfl
        rw [this]
        rw [if_neg (fun h => hj ⟨h.1, h.2.1⟩)]

-- the hypotheses of `register_tool_stored` are met: a site with this key
def exToolNet : Net := ⟨.v4, 0x254d3e00, 24, by decide, by decide, by decide⟩
def exToolTree : Node := .cont none 0 exRoot [.leaf .mapServer 7 exToolNet]
def exToolCfg : Config := fun iid afi => if iid = 0 ∧ afi = 1 then some exToolTree else none
def exToolSetup : Setup := ⟨toyMac, exToolCfg, fun _ => ⟨toolKey, false⟩, [⟨0, .v4, exHost⟩]⟩
example : ∃ p pfx, announcedRecord.eid = .net p ∧ SiteFor exToolSetup.cfg p 7 pfx ∧
    (exToolSetup.conf 7).key = toolKey ∧ InScope (exToolSetup.conf 7) pfx p := by
  refine ⟨exToolNet, exToolNet, by decide +kernel, ⟨exToolTree, [exToolTree], rfl, ?_⟩, rfl, fun _ h => h, .inl rfl⟩
  unfold exToolTree
  rw [resolvePath_cont]
  simp only [show findOne exRoot [.leaf .mapServer 7 exToolNet] exToolNet =
    .ok (some (.leaf .mapServer 7 exToolNet)) from rfl, Node.resolvePath]
  rfl

/-! ### The loops -/

/-- an answer that ends the tool: one that cannot be parsed, or (for the two tools that look at the nonce)
an encapsulated message -/
def EndsTool (after : Pkt → Except Err Unit) : TryOutcome → Prop
  | .unsent => False
  | .noAnswer => False
  | .answer d => ∀ p, Pkt.fromBytes .control d = .ok p → ∃ e, after p = .error e

/-- the exception the answer ends the tool with -/
def EndsIn (after : Pkt → Except Err Unit) (o : TryOutcome) (e : Err) : Prop :=
  match o with
  | .answer d => Pkt.fromBytes .control d = .error e ∨ ∃ p, Pkt.fromBytes .control d = .ok p ∧ after p = .error e
  | _ => False

/-- something was sent -/
def WasSent : TryOutcome → Bool
  | .unsent => false
  | _ => true

/-- the answer as a message, if there is one that can be parsed -/
def shownOf (o : TryOutcome) : Option Pkt :=
  match o with
  | .answer d =>
    match Pkt.fromBytes .control d with
    | .ok p => some p
    | .error _ => none
  | _ => none

theorem tool_step {build : IP → Except Err Bytes} {after : Pkt → Except Err Unit} {outcome : IP × IP → TryOutcome}
    (data : IP → Bytes) (hb : ∀ s, build s = .ok (data s)) (t : IP × IP) (ts : List (IP × IP))
    (hne : ¬ EndsTool after (outcome t)) :
    toolLoop build after outcome (t :: ts) =
      { sent := (if WasSent (outcome t) = true then [(data t.2, t)] else []) ++ (toolLoop build after outcome ts).sent,
        shown := (shownOf (outcome t)).toList ++ (toolLoop build after outcome ts).shown,
        ended := (toolLoop build after outcome ts).ended } := by
  rw [toolLoop, hb]
  match ho : outcome t with
  | .unsent => rfl
  | .noAnswer => rfl
  | .answer d =>
    rw [ho] at hne
    simp only [EndsTool] at hne
    simp only []
    match hp : Pkt.fromBytes .control d with
    | .error e => exact absurd (fun p h => by rw [hp] at h; cases h) hne
    | .ok p =>
      simp only []
      match ha : after p with
      | .error e =>
        refine absurd (fun p' h => ?_) hne
        rw [hp] at h; cases h
        exact ⟨e, ha⟩
      | .ok () =>
        simp only [WasSent, shownOf, hp, if_true, Option.toList, List.cons_append, List.nil_append]

/-- C67: as long as no answer ends the tool, it tries every pair of addresses: it sends the datagram for every
source address from which that is possible, to every address of the server, in order, whatever went wrong
before, shows every answer, and ends normally. -/
theorem tool_tries_all (build : IP → Except Err Bytes) (after : Pkt → Except Err Unit)
    (outcome : IP × IP → TryOutcome) (data : IP → Bytes) (hb : ∀ s, build s = .ok (data s))
    (ts : List (IP × IP)) (h : ∀ t ∈ ts, ¬ EndsTool after (outcome t)) :
    (toolLoop build after outcome ts).sent =
        (ts.filter fun t => WasSent (outcome t)).map (fun t => (data t.2, t)) ∧
    (toolLoop build after outcome ts).shown = ts.filterMap (fun t => shownOf (outcome t)) ∧
    (toolLoop build after outcome ts).ended = none := by
  induction ts with
  | nil => exact ⟨rfl, rfl, rfl⟩
  | cons t ts ih =>
    obtain ⟨i1, i2, i3⟩ := ih (fun x hx => h x (by simp [hx]))
    rw [tool_step data hb t ts (h t (by simp))]
    refine ⟨?_, ?_, i3⟩
    · simp only [i1]
      cases hw : WasSent (outcome t) with
      | true => rw [List.filter_cons_of_pos (p := fun t => WasSent (outcome t)) hw]; rfl
      | false => rw [List.filter_cons_of_neg (p := fun t => WasSent (outcome t)) (by rw [hw]; simp)]; rfl
    · simp only [i2]
      rw [List.filterMap_cons]
      cases shownOf (outcome t) <;> rfl

/-- C67: an answer that ends the tool does so at once, with an exception: nothing more is sent. -/
theorem tool_ends (build : IP → Except Err Bytes) (after : Pkt → Except Err Unit)
    (outcome : IP × IP → TryOutcome) (data : IP → Bytes) (hb : ∀ s, build s = .ok (data s))
    (pre : List (IP × IP)) (t : IP × IP) (post : List (IP × IP))
    (h : ∀ x ∈ pre, ¬ EndsTool after (outcome x)) (ht : EndsTool after (outcome t)) :
    (∃ e, (toolLoop build after outcome (pre ++ t :: post)).ended = some e ∧ EndsIn after (outcome t) e) ∧
    (toolLoop build after outcome (pre ++ t :: post)).sent =
        ((pre ++ [t]).filter fun t => WasSent (outcome t)).map (fun t => (data t.2, t)) ∧
    (toolLoop build after outcome (pre ++ t :: post)).shown =
        (pre ++ [t]).filterMap (fun t => shownOf (outcome t)) := by
  induction pre with
  | nil =>
    simp only [List.nil_append]
    match ho : outcome t with
    | .unsent => rw [ho] at ht; exact ht.elim
    | .noAnswer => rw [ho] at ht; exact ht.elim
    | .answer d =>
      rw [ho] at ht
      have hw : WasSent (outcome t) = true := by rw [ho]; rfl
      rw [List.filter_cons_of_pos (p := fun t => WasSent (outcome t)) hw, List.filterMap_cons, ho]
      rw [toolLoop, hb, ho]
      simp only []
      match hp : Pkt.fromBytes .control d with
      | .error e =>
        simp only [shownOf, hp]
        exact ⟨⟨_, rfl, .inl hp⟩, rfl, rfl⟩
      | .ok p =>
        obtain ⟨e, he⟩ := ht p hp
        simp only [shownOf, hp, he]
        exact ⟨⟨_, rfl, .inr ⟨p, hp, he⟩⟩, rfl, rfl⟩
  | cons x pre ih =>
    obtain ⟨⟨e, i1⟩, i2, i3⟩ := ih (fun y hy => h y (by simp [hy]))
    rw [List.cons_append, tool_step data hb x _ (h x (by simp))]
    refine ⟨⟨e, i1⟩, ?_, ?_⟩
    · simp only [i2]
      rw [List.cons_append]
      cases hw : WasSent (outcome x) with
      | true => rw [List.filter_cons_of_pos (p := fun t => WasSent (outcome t)) hw]; rfl
      | false => rw [List.filter_cons_of_neg (p := fun t => WasSent (outcome t)) (by rw [hw]; simp)]; rfl
    · simp only [i3]
      rw [List.cons_append, List.filterMap_cons]
      cases shownOf (outcome x) <;> rfl

/-- an answer that ends the tool with an exception: one that cannot be parsed, or, for a tool that looks at
the nonce, an encapsulated message -/
def Fatal (looksAtNonce : Bool) : TryOutcome → Prop
  | .answer d => (∀ p, Pkt.fromBytes .control d ≠ .ok p) ∨
      (looksAtNonce = true ∧ ∃ h p, Pkt.fromBytes .control d = .ok (.ecm h p))
  | _ => False

theorem fatal_iff (looksAtNonce : Bool) (after : Pkt → Except Err Unit) (o : TryOutcome)
    (h : after = if looksAtNonce = true then nonceOf else fun _ => .ok ()) :
    EndsTool after o ↔ Fatal looksAtNonce o := by
  cases o with
  | unsent => exact Iff.rfl
  | noAnswer => exact Iff.rfl
  | answer d =>
    simp only [EndsTool, Fatal]
    match hp : Pkt.fromBytes .control d with
    | .error e => simp
    | .ok p =>
      cases looksAtNonce with
      | false => simp [h]
      | true =>
        rw [if_pos rfl] at h
        subst h
        cases p <;> simp [nonceOf]

/-- the exception: that of the parser, or AttributeError for an encapsulated message -/
def FatalWith (looksAtNonce : Bool) (o : TryOutcome) (e : Err) : Prop :=
  match o with
  | .answer d => Pkt.fromBytes .control d = .error e ∨
      (looksAtNonce = true ∧ e = .attr ∧ ∃ h p, Pkt.fromBytes .control d = .ok (.ecm h p))
  | _ => False

theorem endsIn_fatal (looksAtNonce : Bool) (after : Pkt → Except Err Unit) (o : TryOutcome) (e : Err)
    (h : after = if looksAtNonce = true then nonceOf else fun _ => .ok ()) (he : EndsIn after o e) :
    FatalWith looksAtNonce o e := by
  cases o with
  | unsent => exact he
  | noAnswer => exact he
  | answer d =>
    rcases he with he | ⟨p, hp, he⟩
    · exact .inl he
    · subst h
      cases looksAtNonce with
      | false => cases he
      | true =>
        rw [if_pos rfl] at he
        cases p with
        | ecm x y => cases he; exact .inr ⟨rfl, rfl, x, y, hp⟩
        | _ => cases he

/-- what a tool does that goes through the pairs of addresses `ts` with the datagrams `data`: it goes on to the end, or up
to and including the first pair with an answer that ends it -/
def RunSpec (looksAtNonce : Bool) (data : IP → Bytes) (outcome : IP × IP → TryOutcome)
    (ts : List (IP × IP)) (run : ToolRun) : Prop :=
  ((∀ t ∈ ts, ¬ Fatal looksAtNonce (outcome t)) →
    run.sent = (ts.filter fun t => WasSent (outcome t)).map (fun t => (data t.2, t)) ∧
    run.shown = ts.filterMap (fun t => shownOf (outcome t)) ∧ run.ended = none) ∧
  (∀ pre t post, ts = pre ++ t :: post → (∀ x ∈ pre, ¬ Fatal looksAtNonce (outcome x)) →
    Fatal looksAtNonce (outcome t) →
    run.sent = ((pre ++ [t]).filter fun t => WasSent (outcome t)).map (fun t => (data t.2, t)) ∧
    run.shown = (pre ++ [t]).filterMap (fun t => shownOf (outcome t)) ∧
    ∃ e, run.ended = some e ∧ FatalWith looksAtNonce (outcome t) e)

theorem toolLoop_spec (looksAtNonce : Bool) (build : IP → Except Err Bytes) (after : Pkt → Except Err Unit)
    (h : after = if looksAtNonce = true then nonceOf else fun _ => .ok ())
    (outcome : IP × IP → TryOutcome) (data : IP → Bytes) (hb : ∀ s, build s = .ok (data s))
    (ts : List (IP × IP)) : RunSpec looksAtNonce data outcome ts (toolLoop build after outcome ts) := by
  constructor
  · intro hf
    exact tool_tries_all build after outcome data hb ts (fun t ht => mt (fatal_iff _ _ _ h).mp (hf t ht))
  · rintro pre t post rfl hpre ht
    obtain ⟨h1, h2, h3⟩ := tool_ends build after outcome data hb pre t post
      (fun x hx => mt (fatal_iff _ _ _ h).mp (hpre x hx)) ((fatal_iff _ _ _ h).mpr ht)
    obtain ⟨e, h1, h4⟩ := h1
    exact ⟨h2, h3, e, h1, endsIn_fatal _ _ _ _ h h4⟩

/-- C67: the three tools: the pairs tried are all combinations of an address of the server and a source
address for it, the datagrams always exist, and each tool goes through all pairs, whatever goes wrong with the
sockets, until an answer that cannot be parsed or (`map_resolve` and `map_register`) an encapsulated one
ends it, with the exception of the parser or AttributeError. -/
theorem tools_run (dests : List IP) (sources : IP → List IP) (outcome : IP × IP → TryOutcome) (q : IP)
    (sport : Int) (hp : 30000 ≤ sport ∧ sport < 40000) (nonce : Bytes) (hn : nonce.length = 8) (H : Mac) :
    (∀ d s, (d, s) ∈ tries dests sources ↔ d ∈ dests ∧ s ∈ sources d) ∧
    (∃ data : IP → Bytes, (∀ s, queryDatagram false q s sport nonce = .ok (data s)) ∧
      RunSpec true data outcome (tries dests sources) (mapResolve q sport nonce dests sources outcome)) ∧
    (∃ data : IP → Bytes, (∀ s, queryDatagram true q s 4342 nonce = .ok (data s)) ∧
      RunSpec false data outcome (tries dests sources) (ddtQuery q nonce dests sources outcome)) ∧
    (∃ data : Bytes, registerDatagram H nonce = .ok data ∧
      RunSpec true (fun _ => data) outcome (tries dests sources)
        (mapRegisterTool H nonce dests sources outcome)) := by
  have hq : ∀ ddt (p : Int), (0 ≤ p ∧ p < 65536) → p ≠ 4341 → ∃ data : IP → Bytes,
      ∀ s, queryDatagram ddt q s p nonce = .ok (data s) := by
    intro ddt p hp h41
    have : ∀ s, ∃ d, queryDatagram ddt q s p nonce = .ok d := by
      intro s
      obtain ⟨d, _, _, h, _⟩ := query_arrives ddt q s p nonce hn hp h41
      exact ⟨d, h⟩
    exact ⟨fun s => (this s).choose, fun s => (this s).choose_spec⟩
  refine ⟨?_, ?_, ?_, ?_⟩
  · intro d s
    simp only [tries, List.mem_flatMap, List.mem_map, Prod.mk.injEq]
    constructor
    · rintro ⟨x, hx, y, hy, rfl, rfl⟩; exact ⟨hx, hy⟩
    · rintro ⟨h1, h2⟩; exact ⟨d, h1, s, h2, rfl, rfl⟩
  · obtain ⟨data, hd⟩ := hq false sport (by omega) (by omega)
    exact ⟨data, hd, toolLoop_spec true _ _ rfl outcome data hd _⟩
  · obtain ⟨data, hd⟩ := hq true 4342 (by decide) (by decide)
    exact ⟨data, hd, toolLoop_spec false _ _ rfl outcome data hd _⟩
  · obtain ⟨d, _, hd, _⟩ := register_tool_arrives H nonce hn
    exact ⟨d, hd, toolLoop_spec true _ _ rfl outcome (fun _ => d) (fun _ => hd) _⟩

-- an outcome that ends no tool, and one that ends them all
example : ¬ Fatal true (.noAnswer) := fun h => h
example : Fatal false (.answer []) := by
  refine .inl (fun p hp => ?_)
  exact absurd hp (by simp [show Pkt.fromBytes .control [] = .error .read from by decide +kernel])

end PyLisp.Props
