import Verif.Lispd
import Verif.Props.Etr
import Verif.Props.NetIO
import Verif.Props.Received
/-
C49: what a DDT node answers.
-/
namespace PyLisp.Props
open PyLisp

/-- the most specific node for the EID `e`: the first node of the path the lookup in the tree of its
instance and address family gives (C42 says which that is) -/
def NodeFor (cfg : Config) (e : Addr) (n : Node) : Prop :=
  ∃ p root rest, TreeFor cfg e p root ∧ root.resolvePath p = .ok (n :: rest)

/-- a delegation to other DDT nodes, or a Map-Server -/
inductive Delegated : Node → Prop
  | referral (ns i p) : Delegated (.leaf (.ddtReferral ns) i p)
  | mapServer (i p) : Delegated (.leaf .mapServer i p)

/-- the answer of a node that is not authoritative: one record for the EID asked for, to the address
and port the request came from -/
def notAuthAnswer (nonce : Bytes) (e : Addr) (source : IP) (port : Int) : SendCall MapReferral :=
  ⟨{ nonce := nonce, records := [{ ttl := 0, action := 5, incomplete := true, eid := e, locators := [] }] },
    [.ip source], port⟩

/-- the shape of a path: containers, and at its beginning (the most specific node) anything -/
theorem path_shape (root : Node) (p : Net) (l : List Node) (h : root.resolvePath p = .ok l) :
    ∃ n rest, l = n :: rest ∧ ∀ x ∈ rest, ∃ a i q cs, x = .cont a i q cs := by
  match root, h with
  | .leaf k i q, h =>
    rw [Node.resolvePath] at h
    cases h
    exact ⟨_, [], rfl, by simp⟩
  | .cont a i q cs, h =>
    rw [resolvePath_cont] at h
    match hf : findOne q cs p, h with
    | .error e, h => cases h
    | .ok none, h => cases h; exact ⟨_, [], rfl, by simp⟩
    | .ok (some m), h =>
      simp only at h
      match hm : m.resolvePath p, h with
      | .error e, h => cases h
      | .ok l', h =>
        cases h
        obtain ⟨n, rest, rfl, hr⟩ := path_shape m p l' hm
        refine ⟨n, rest ++ [.cont a i q cs], rfl, ?_⟩
        intro x hx
        rcases List.mem_append.mp hx with hx | hx
        · exact hr x hx
        · exact ⟨a, i, q, cs, List.mem_singleton.mp hx⟩
termination_by sizeOf root
decreasing_by
  have := List.sizeOf_lt_of_mem (findOne_mem hf)
  simp at this ⊢
  omega

/-- the loop passes over containers -/
theorem ddtScan_conts : ∀ (l : List Node) (auth : Option Node),
    (∀ x ∈ l, ∃ a i q cs, x = .cont a i q cs) → ∀ n, ∃ auth', ddtScan auth (l ++ [n]) = ddtScan auth' [n] ∧
      (ddtScan auth l).2 = none := by
  intro l
  induction l with
  | nil => intro auth _ n; exact ⟨auth, rfl, rfl⟩
  | cons x l ih =>
    intro auth h n
    obtain ⟨a, i, q, cs, rfl⟩ := h x (by simp)
    have h' : ∀ y ∈ l, ∃ a i q cs, y = .cont a i q cs := fun y hy => h y (by simp [hy])
    cases a with
    | none => exact ih auth h' n
    | some ns => exact ih (some _) h' n

/-- the outcome of the loop over the path, by the most specific node -/
theorem ddtScan_path (root : Node) (p : Net) (l : List Node) (h : root.resolvePath p = .ok l) :
    ∃ n rest, l = n :: rest ∧ ∃ auth, ddtScan none l.reverse = ddtScan auth [n] := by
  obtain ⟨n, rest, rfl, hr⟩ := path_shape root p l h
  refine ⟨n, rest, rfl, ?_⟩
  obtain ⟨auth, ha, _⟩ := ddtScan_conts rest.reverse none (by simpa using hr) n
  exact ⟨auth, by simpa using ha⟩

theorem nodeFor_path {cfg : Config} {e : Addr} {nodes : List Node}
    (h : resolvePathIn cfg (determine e) = .ok (some nodes)) :
    ∃ n rest, nodes = n :: rest ∧ NodeFor cfg e n ∧ ∃ auth, ddtScan none nodes.reverse = ddtScan auth [n] := by
  obtain ⟨p, root, ht, hr⟩ := lookup_path_iff.mp h
  obtain ⟨n, rest, rfl, ha⟩ := ddtScan_path root _ _ hr
  exact ⟨n, rest, rfl, ⟨p, root, rest, ht, hr⟩, ha⟩

theorem path_of_nodeFor {cfg : Config} {e : Addr} {n : Node} (h : NodeFor cfg e n) :
    ∃ rest, resolvePathIn cfg (determine e) = .ok (some (n :: rest)) := by
  obtain ⟨p, root, rest, h1, h2⟩ := h
  exact ⟨rest, lookup_path_iff.mpr ⟨p, root, h1, h2⟩⟩

theorem nodeFor_unique {cfg : Config} {e : Addr} {n n' : Node} (h : NodeFor cfg e n) (h' : NodeFor cfg e n') :
    n = n' := by
  obtain ⟨r, h⟩ := path_of_nodeFor h
  obtain ⟨r', h'⟩ := path_of_nodeFor h'
  rw [h] at h'
  cases h'
  rfl

/-- the handler, by the most specific node -/
theorem ddt_by_node (cfg : Config) (h : EcmHdr) (m : MapRequest) (source : IP) (port : Int)
    (hs : h.security = false) (e : Addr) (es : List Addr) (he : m.eidPrefixes = e :: es) (n : Node)
    (hn : NodeFor cfg e n) : ∃ auth, handleDdtMapRequest cfg h m source port =
      match ddtRecord e (ddtScan auth [n]) with
      | .error x => .error x
      | .ok r => .ok (some ⟨{ nonce := m.nonce, records := [r] }, [.ip source], port⟩) := by
  obtain ⟨rest, hp⟩ := path_of_nodeFor hn
  obtain ⟨n', rest', h1, _, auth, ha⟩ := nodeFor_path hp
  cases h1
  refine ⟨auth, ?_⟩
  unfold handleDdtMapRequest
  rw [hs, he]
  simp only [Bool.false_eq_true, if_false, hp, ha]
  cases ddtRecord e (ddtScan auth [n]) <;> rfl

/-- C49: a request whose most specific node is neither a delegation nor a Map-Server is answered with
NOT-AUTHORITATIVE, for the first EID asked for, with the request's nonce, to where it came from.  This is
so wherever the node is in the tree: below an authoritative container as well as elsewhere. -/
theorem ddt_not_delegated (cfg : Config) (h : EcmHdr) (m : MapRequest) (source : IP) (port : Int)
    (hs : h.security = false) (e : Addr) (es : List Addr) (he : m.eidPrefixes = e :: es) (n : Node)
    (hn : NodeFor cfg e n) (hd : ¬ Delegated n) :
    handleDdtMapRequest cfg h m source port = .ok (some (notAuthAnswer m.nonce e source port)) := by
  obtain ⟨auth, ha⟩ := ddt_by_node cfg h m source port hs e es he n hn
  rw [ha]
  match n, hd with
  | .leaf (.ddtReferral ns) i p, hd => exact absurd (.referral ns i p) hd
  | .leaf .mapServer i p, hd => exact absurd (.mapServer i p) hd
  | .leaf .etr i p, _ => rfl
  | .leaf .drop i p, _ => rfl
  | .leaf .nativelyForward i p, _ => rfl
  | .cont none i p cs, _ => rfl
  | .cont (some ns) i p cs, _ => rfl

/-- C49: a request for a delegated prefix gets no referral: with DDT nodes to refer to, building the
record raises TypeError; without, the record made is one that cannot be serialised (see
`ddt_on_the_wire`). -/
theorem ddt_delegated (cfg : Config) (h : EcmHdr) (m : MapRequest) (source : IP) (port : Int)
    (hs : h.security = false) (e : Addr) (es : List Addr) (he : m.eidPrefixes = e :: es) (ns : List IP)
    (i : Nat) (p : Net) (hn : NodeFor cfg e (.leaf (.ddtReferral ns) i p)) :
    (ns ≠ [] → handleDdtMapRequest cfg h m source port = .error .type) ∧
    (ns = [] → ∃ r, r.action = 0 ∧ r.incomplete = false ∧ r.locators = [] ∧ handleDdtMapRequest cfg h m source port =
      .ok (some ⟨{ nonce := m.nonce, records := [r] }, [.ip source], port⟩)) := by
  obtain ⟨auth, ha⟩ := ddt_by_node cfg h m source port hs e es he _ hn
  rw [ha]
  constructor
  · intro hne
    cases ns with
    | nil => exact absurd rfl hne
    | cons a ns => rfl
  · rintro rfl
    exact ⟨_, rfl, rfl, rfl, rfl⟩

/-- C49: a request for a prefix of a Map-Server raises AttributeError and is not answered. -/
theorem ddt_map_server (cfg : Config) (h : EcmHdr) (m : MapRequest) (source : IP) (port : Int)
    (hs : h.security = false) (e : Addr) (es : List Addr) (he : m.eidPrefixes = e :: es)
    (i : Nat) (p : Net) (hn : NodeFor cfg e (.leaf .mapServer i p)) :
    handleDdtMapRequest cfg h m source port = .error .attr := by
  obtain ⟨auth, ha⟩ := ddt_by_node cfg h m source port hs e es he _ hn
  rw [ha]
  rfl

/-- C49: requests that are not answered at all: with the security flag (ignored), without an EID
(IndexError), for an EID of an unknown instance or family (TypeError), or one whose lookup fails. -/
theorem ddt_unanswered (cfg : Config) (h : EcmHdr) (m : MapRequest) (source : IP) (port : Int) :
    (h.security = true → handleDdtMapRequest cfg h m source port = .ok none) ∧
    (h.security = false → m.eidPrefixes = [] → handleDdtMapRequest cfg h m source port = .error .index) ∧
    (h.security = false → ∀ e es, m.eidPrefixes = e :: es →
      (∀ p root, ¬ TreeFor cfg e p root) →
      handleDdtMapRequest cfg h m source port = .error .type) ∧
    (h.security = false → ∀ e es p root x, m.eidPrefixes = e :: es → TreeFor cfg e p root →
      root.resolvePath p = .error x →
      handleDdtMapRequest cfg h m source port = .error x) := by
  refine ⟨?_, ?_, ?_, ?_⟩
  · intro hs; simp [handleDdtMapRequest, hs]
  · intro hs he; simp [handleDdtMapRequest, hs, he]
  · intro hs e es he hc
    have : resolvePathIn cfg (determine e) = .ok none := lookup_none hc
    simp only [handleDdtMapRequest, hs, he, this, Bool.false_eq_true, if_false]
  · intro hs e es p root x he ht hx
    have : resolvePathIn cfg (determine e) = .error x := lookup_error_iff.mpr ⟨p, root, ht, hx⟩
    simp only [handleDdtMapRequest, hs, he, this, Bool.false_eq_true, if_false]

/-- the EIDs for which an answer can be transmitted: networks, and networks with an instance id that
fit their fields -/
inductive SendableEid : Addr → Prop
  | net (n : Net) : SendableEid (.net n)
  | inst (i : Int) (n : Net) (k : Int) (hi : 0 ≤ i ∧ i < 2 ^ 32) (hk : 0 ≤ k ∧ k < 256) :
      SendableEid (.inst i (.net n) k)

/-- the EID as the receiver of a Map-Referral sees it: networks with instance id 0 (mask length 32) -/
def referralEidSeen : Addr → Addr
  | .net n => .inst 0 (.net n) 32
  | e => e

theorem encIP_length_le (a : IP) : (encIP a).length ≤ 144 := by
  unfold encIP
  split <;> simp [natToBits_length]

theorem encAddr_inst_net (i : Int) (n : Net) (k : Int) (hi : 0 ≤ i ∧ i < 2 ^ 32) (hk : 0 ≤ k ∧ k < 256) :
    ∃ b, encAddr (.inst i (.net n) k) = .ok b := by
  have hl : (natToBits 32 i.toNat ++ encIP n.first).length ≤ 176 := by
    have := encIP_length_le n.first
    rw [List.length_append, natToBits_length]
    omega
  have e1 : encUint 8 k = .ok (natToBits 8 k.toNat) := encUint_eq_ok hk.1 (by omega)
  have e2 : encUint 32 i = .ok (natToBits 32 i.toNat) := encUint_eq_ok hi.1 hi.2
  obtain ⟨y, hy⟩ : ∃ y, encLcaf 2 (natToBits 8 k.toNat) (natToBits 32 i.toNat ++ encIP n.first) = .ok y := by
    generalize natToBits 32 i.toNat ++ encIP n.first = y at hl
    unfold encLcaf
    rw [encUint_eq_ok (by omega) (by omega)]
    exact ⟨_, rfl⟩
  rw [encAddr, e1, exBind_okl, e2, exBind_okl, encAddr, exBind_okl, hy, exBind_okl]
  exact ⟨_, rfl⟩

/-- C49: what is transmitted.  A NOT-AUTHORITATIVE answer can always be serialised, and its receiver
parses exactly one record: NOT-AUTHORITATIVE, TTL 0, incomplete, no locators, for the EID asked for,
under the nonce of the request. -/
theorem ddt_answer_received (m : MapRequest) (source : IP) (port : Int) (e : Addr) (hn : m.nonce.length = 8)
    (he : SendableEid e) : ∃ d, (notAuthAnswer m.nonce e source port).message.toBytes = .ok d ∧
      MapReferral.fromBytes d = .ok
        { nonce := m.nonce, records := [{ ttl := 0, action := 5, incomplete := true, eid := referralEidSeen e }] } := by
  have hre : ReferralEid e := by cases he <;> constructor
  have hsan : RefRecord.sanitize { ttl := 0, action := 5, incomplete := true, eid := e } =
      .ok { ttl := 0, action := 5, incomplete := true, eid := referralEidSeen e } := by
    cases he <;> rfl
  have henc : ∃ b, encRefRecord { ttl := 0, action := 5, incomplete := true, eid := e } = .ok b := by
    have hw : ∃ i n k, referralEidSeen e = .inst i (.net n) k ∧ (0 ≤ i ∧ i < 2 ^ 32) ∧ (0 ≤ k ∧ k < 256) := by
      cases he with
      | net n => exact ⟨0, n, 32, rfl, by omega, by omega⟩
      | inst i n k hi hk => exact ⟨i, n, k, rfl, hi, hk⟩
    obtain ⟨i, n, k, hw, hi, hk⟩ := hw
    obtain ⟨b, hb⟩ := encAddr_inst_net i n k hi hk
    simp only [encRefRecord, hsan, exBind_okl, encRefRecordRaw, hw, hb, Addr.prefixlen, encAll]
    rw [encUint_eq_ok (by omega) (by omega), encUint_eq_ok (by simp) (by simp),
      encUint_eq_ok (by omega) (by have := n.plen_lt_256; omega), encUint_eq_ok (by omega) (by omega),
      encUint_eq_ok (by omega) (by omega), encUint_eq_ok (by omega) (by omega)]
    exact ⟨_, rfl⟩
  obtain ⟨d, hd⟩ := (map_referral_writable_iff (notAuthAnswer m.nonce e source port).message).mpr
    ⟨hn, by simp [notAuthAnswer], by simpa [notAuthAnswer] using henc⟩
  refine ⟨d, hd, ?_⟩
  obtain ⟨rs, h1, h2⟩ := map_referral_round_trip _ d hd (by simpa [notAuthAnswer] using hre)
  simp only [notAuthAnswer, sanitizeAll, hsan, exBind_okl, exPure, Except.ok.injEq] at h1
  subst h1
  rw [h2]
  rfl

/-- C49: whatever a DDT node transmits is a NOT-AUTHORITATIVE answer: NODE-REFERRAL, MS-REFERRAL,
MS-ACK, MS-NOT-REGISTERED and DELEGATION-HOLE answers do not occur, whatever the tree. -/
theorem ddt_on_the_wire (cfg : Config) (h : EcmHdr) (m : MapRequest) (source : IP) (port : Int)
    (c : SendCall MapReferral) (hc : handleDdtMapRequest cfg h m source port = .ok (some c)) (d : Bytes)
    (hd : c.message.toBytes = .ok d) :
    ∃ e es n, m.eidPrefixes = e :: es ∧ NodeFor cfg e n ∧ ¬ Delegated n ∧
      c = notAuthAnswer m.nonce e source port := by
  have hs : h.security = false := by
    cases hs : h.security with
    | false => rfl
    | true => rw [(ddt_unanswered cfg h m source port).1 hs] at hc; cases hc
  match hm : m.eidPrefixes with
  | [] => rw [(ddt_unanswered cfg h m source port).2.1 hs hm] at hc; cases hc
  | e :: es =>
    match hp : resolvePathIn cfg (determine e) with
    | .error x => simp [handleDdtMapRequest, hs, hm, hp] at hc
    | .ok none => simp [handleDdtMapRequest, hs, hm, hp] at hc
    | .ok (some nodes) =>
      obtain ⟨n, rest, rfl, hn, _⟩ := nodeFor_path hp
      refine ⟨e, es, n, rfl, hn, ?_, ?_⟩
      · intro hdel
        cases hdel with
        | referral ns i p =>
          obtain ⟨h1, h2⟩ := ddt_delegated cfg h m source port hs e es hm ns i p hn
          cases ns with
          | cons a ns => rw [h1 (by simp)] at hc; cases hc
          | nil =>
            obtain ⟨r, ha, hi, hl, h2⟩ := h2 rfl
            rw [h2] at hc
            cases hc
            obtain ⟨_, _, hw⟩ := (map_referral_writable_iff _).mp ⟨d, hd⟩
            obtain ⟨b, hb⟩ := hw r (by simp)
            obtain ⟨hrow, _, _⟩ := referral_written_valid r b hb
            rw [ha, hi, hl] at hrow
            cases hrow
        | mapServer i p => rw [ddt_map_server cfg h m source port hs e es hm i p hn] at hc; cases hc
      · have hnd : ¬ Delegated n := by
          intro hdel
          cases hdel with
          | referral ns i p =>
            obtain ⟨h1, h2⟩ := ddt_delegated cfg h m source port hs e es hm ns i p hn
            cases ns with
            | cons a ns => rw [h1 (by simp)] at hc; cases hc
            | nil =>
              obtain ⟨r, ha, hi, hl, h2⟩ := h2 rfl
              rw [h2] at hc
              cases hc
              obtain ⟨_, _, hw⟩ := (map_referral_writable_iff _).mp ⟨d, hd⟩
              obtain ⟨b, hb⟩ := hw r (by simp)
              obtain ⟨hrow, _, _⟩ := referral_written_valid r b hb
              rw [ha, hi, hl] at hrow
              cases hrow
          | mapServer i p => rw [ddt_map_server cfg h m source port hs e es hm i p hn] at hc; cases hc
        rw [ddt_not_delegated cfg h m source port hs e es hm n hn hnd] at hc
        cases hc
        rfl

/-! ### The hypotheses are met -/

/-- an authoritative root with a delegation, a Map-Server and a hole -/
def exDdtTree : Node := .cont (some [exHost]) 0 exRoot
  [.leaf (.ddtReferral [exHost]) 1 exTen, .leaf .mapServer 2 exNet, .leaf (.ddtReferral []) 3 exEleven]
def exDdtCfg : Config := fun iid afi => if iid = 0 ∧ afi = 1 then some exDdtTree else none
def exNonce : Bytes := [1, 2, 3, 4, 5, 6, 7, 8]

-- a hole in an authoritative prefix
example : handleDdtMapRequest exDdtCfg { ddtOriginated := true }
    { nonce := exNonce, eidPrefixes := [.ip ⟨.v4, 12 * 2 ^ 24, by decide⟩] } exHost 5555 =
    .ok (some (notAuthAnswer exNonce (.ip ⟨.v4, 12 * 2 ^ 24, by decide⟩) exHost 5555)) := by
  refine ddt_not_delegated _ _ _ _ _ rfl _ [] rfl exDdtTree
    ⟨IP.toNet ⟨.v4, 12 * 2 ^ 24, by decide⟩, exDdtTree, [], ⟨0, .inr ⟨rfl, fun _ _ _ h => by cases h⟩,
      .inr ⟨_, .ip _, rfl, rfl, rfl⟩, rfl⟩, ?_⟩ (by intro h; cases h)
  unfold exDdtTree
  rw [resolvePath_cont]
  rfl

-- delegated, and registered at a Map-Server
example : NodeFor exDdtCfg (.net exTenOne) (.leaf (.ddtReferral [exHost]) 1 exTen) := by
  refine ⟨exTenOne, exDdtTree, [exDdtTree], treeFor_net.mpr ⟨rfl, rfl⟩, ?_⟩
  unfold exDdtTree
  rw [resolvePath_cont]
  simp only [show findOne exRoot [.leaf (.ddtReferral [exHost]) 1 exTen, .leaf .mapServer 2 exNet,
    .leaf (.ddtReferral []) 3 exEleven] exTenOne =
    .ok (some (.leaf (.ddtReferral [exHost]) 1 exTen)) from rfl, Node.resolvePath]
  rfl

example : NodeFor exDdtCfg (.net exNet) (.leaf .mapServer 2 exNet) := by
  refine ⟨exNet, exDdtTree, [exDdtTree], treeFor_net.mpr ⟨rfl, rfl⟩, ?_⟩
  unfold exDdtTree
  rw [resolvePath_cont]
  simp only [show findOne exRoot [.leaf (.ddtReferral [exHost]) 1 exTen, .leaf .mapServer 2 exNet,
    .leaf (.ddtReferral []) 3 exEleven] exNet =
    .ok (some (.leaf .mapServer 2 exNet)) from rfl, Node.resolvePath]
  rfl

example : ∃ d, (notAuthAnswer exNonce (.net exNet) exHost 5555).message.toBytes = .ok d ∧
    MapReferral.fromBytes d = .ok
      { nonce := exNonce, records := [{ ttl := 0, action := 5, incomplete := true, eid := .inst 0 (.net exNet) 32 }] } :=
  ddt_answer_received { nonce := exNonce } exHost 5555 _ rfl (.net _)

end PyLisp.Props
