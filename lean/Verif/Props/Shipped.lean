import Verif.Shipped
import Verif.Props.Tree
import Verif.Props.Settings
import Verif.Props.AddrText

/-!
# C99: the configuration files that come with the program
-/

namespace PyLisp.Props
open PyLisp

/-! ### The xTR files do not load -/

/-- C99: evaluating etc/lispd/settings_xtr.py or etc/lispd/settings_global.py raises TypeError: they give the ETR node
`map_servers`, which its constructor (it says `registrations`) does not take. -/
theorem xtr_raises : runCalls xtrCalls = .error .type ∧ runCalls globalCalls = .error .type := by
  constructor <;> rfl

/-- the name of that one argument is all that is wrong with these calls -/
example : runCalls (xtrCalls.map fun c => { c with kws := c.kws.map fun k => if k = "map_servers" then "registrations" else k }) =
      .ok () ∧
    runCalls (globalCalls.map fun c => { c with kws := c.kws.map fun k => if k = "map_servers" then "registrations" else k }) =
      .ok () := by
  constructor <;> decide +kernel

/-- C99: so lispd does not start with either of them among its configuration files, whatever the defaults are, whatever
the other files say, before or after it. -/
theorem shipped_xtr_never_loads (defaults : Settings) (attrs : String → Option PyVal) (pre post : List ConfigFile) :
    loadSettings defaults (pre ++ shippedXtr attrs :: post) = none ∧
    loadSettings defaults (pre ++ shippedGlobal attrs :: post) = none := by
  have h : ∀ f, f = ConfigFile.broken → loadSettings defaults (pre ++ f :: post) = none := by
    rintro f rfl
    cases hl : loadSettings defaults (pre ++ .broken :: post) with
    | none => rfl
    | some s => exact absurd (by simp) ((load_settings_iff defaults s _).mp hl).1
  exact ⟨h _ rfl, h _ rfl⟩

/-! ### The Map-Server file loads -/

theorem cov4 : auth4.covers ms4a = true ∧ auth4.covers ms4b = true ∧ auth4.covers ms4c = true ∧
    rootNet4.covers auth4 = true ∧ ms4b.overlaps ms4a = false ∧ ms4c.overlaps ms4a = false ∧ ms4c.overlaps ms4b = false := by
  decide +kernel

theorem cov6 : auth6.covers ms6a = true ∧ auth6.covers ms6b = true ∧ rootNet6.covers auth6 = true ∧
    ms6b.overlaps ms6a = false := by
  decide +kernel

theorem tree4_ok (ddt : List IP) : serverTree4 ddt = .ok (.cont none 5 rootNet4 [.cont (some ddt) 4 auth4
    [.leaf .mapServer 3 ms4c, .leaf .mapServer 2 ms4b, .leaf .mapServer 1 ms4a]]) := by
  obtain ⟨h1, h2, h3, h4, h5, h6, h7⟩ := cov4
  simp [serverTree4, mkCont, newChildren, updateChildren, addChild, findExact, findAll, setAdd, Node.pfx, Node.id, h1, h2,
    h3, h4, h5, h6, h7]

theorem tree6_ok (ddt : List IP) : serverTree6 ddt = .ok (.cont none 9 rootNet6 [.cont (some ddt) 8 auth6
    [.leaf .mapServer 7 ms6b, .leaf .mapServer 6 ms6a]]) := by
  obtain ⟨h1, h2, h3, h4⟩ := cov6
  simp [serverTree6, mkCont, newChildren, updateChildren, addChild, findExact, findAll, setAdd, Node.pfx, Node.id, h1, h2,
    h3, h4]

theorem lastValue_append (defaults : Settings) (pre : List ConfigFile) (attrs : String → Option PyVal) (n : String) :
    lastValue defaults (pre ++ [.module attrs]) n =
      if n = n.toUpper then (attrs n).getD (lastValue defaults pre n) else lastValue defaults pre n := by
  unfold lastValue
  rw [List.filterMap_append]
  by_cases hn : n = n.toUpper
  · cases ha : attrs n with
    | none => simp [← hn, ha]
    | some v => simp [← hn, ha]
  · simp [hn]

/-- C99: etc/lispd/settings.py loads, whatever its two addresses are, whatever files that load are read before it, if the
settings it does not define (from those files, or the defaults) have the right types.  LISTEN_ON is the two addresses, no
data is processed, instance 0 has both trees, and everything else is left as it was. -/
theorem shipped_server_loads (defaults : Settings) (pre : List ConfigFile) (a b : IP) (hp : .broken ∉ pre)
    (ht : TypesOk (lastValue defaults pre)) :
    ∃ s, loadSettings defaults (pre ++ [shippedServer a b]) = some s ∧ s "LISTEN_ON" = .listen [.addr a, .addr b] ∧
      s "PROCESS_DATA" = .bool false ∧
      s "INSTANCES" = .instances [(.int 0, .dict [(1, .container everyV4), (2, .container everyV6)])] ∧
      ∀ n, n ∉ ["LISTEN_ON", "PROCESS_DATA", "INSTANCES"] → s n = lastValue defaults pre n := by
  have hm : shippedServer a b = .module (serverAttrs a b
      (.cont none 5 rootNet4 [.cont (some [a, b]) 4 auth4 [.leaf .mapServer 3 ms4c, .leaf .mapServer 2 ms4b, .leaf .mapServer 1 ms4a]])
      (.cont none 9 rootNet6 [.cont (some [a, b]) 8 auth6 [.leaf .mapServer 7 ms6b, .leaf .mapServer 6 ms6a]])) := by
    unfold shippedServer
    rw [tree4_ok, tree6_ok, show runCalls serverCalls = .ok () from rfl]
  rw [hm]
  generalize hattrs : serverAttrs a b _ _ = attrs
  have u : ∀ n ∈ ["LISTEN_ON", "PROCESS_DATA", "INSTANCES"], n = n.toUpper := by decide +kernel
  have a1 : attrs "LISTEN_ON" = some (.listen [.addr a, .addr b]) := by rw [← hattrs]; rfl
  have a2 : attrs "PROCESS_DATA" = some (.bool false) := by rw [← hattrs]; rfl
  have a3 : attrs "INSTANCES" = some (.instances [(.int 0, .dict [(1, .container everyV4), (2, .container everyV6)])]) := by
    rw [← hattrs]; rfl
  have a4 : ∀ n, n ∉ ["LISTEN_ON", "PROCESS_DATA", "INSTANCES"] → attrs n = none := by
    intro n hn
    simp only [List.mem_cons, List.not_mem_nil, or_false, not_or] at hn
    rw [← hattrs, serverAttrs, if_neg hn.1, if_neg hn.2.1, if_neg hn.2.2]
  have hv : ∀ n, n ∉ ["LISTEN_ON", "PROCESS_DATA", "INSTANCES"] →
      lastValue defaults (pre ++ [.module attrs]) n = lastValue defaults pre n := by
    intro n hn
    rw [lastValue_append, a4 n hn]
    simp
  have v1 : lastValue defaults (pre ++ [.module attrs]) "LISTEN_ON" = .listen [.addr a, .addr b] := by
    rw [lastValue_append, if_pos (u _ (by simp)), a1]; rfl
  have v2 : lastValue defaults (pre ++ [.module attrs]) "PROCESS_DATA" = .bool false := by
    rw [lastValue_append, if_pos (u _ (by simp)), a2]; rfl
  have v3 : lastValue defaults (pre ++ [.module attrs]) "INSTANCES" =
      .instances [(.int 0, .dict [(1, .container everyV4), (2, .container everyV6)])] := by
    rw [lastValue_append, if_pos (u _ (by simp)), a3]; rfl
  refine ⟨lastValue defaults (pre ++ [.module attrs]), (load_settings_iff _ _ _).mpr ⟨by simpa using hp, _, _, _, v1, ?_, v3, ?_,
    ?_, v1, fun n _ => rfl⟩, v1, v2, v3, hv⟩
  · exact ⟨⟨a, .inl rfl, rfl⟩, ⟨b, .inl rfl, rfl⟩, trivial⟩
  · intro k v hkv
    rw [List.mem_singleton] at hkv
    cases hkv
    exact ⟨0, _, rfl, rfl, rfl, rfl⟩
  · unfold TypesOk
    rw [hv "PETR" (by decide), hv "NATT" (by decide), hv "NFQUEUE_IPV4" (by decide), hv "NFQUEUE_IPV6" (by decide)]
    exact ht

/-! ### and what its trees answer -/

theorem shipped_leaf {k : LeafKind} {i : Nat} {p : Net} {m : Node} (h : InTree (.leaf k i p) m) : m = .leaf k i p := by
  cases h; rfl

theorem wellFormed4 (ddt : List IP) : WellFormed (.cont none 5 rootNet4 [.cont (some ddt) 4 auth4
    [.leaf .mapServer 3 ms4c, .leaf .mapServer 2 ms4b, .leaf .mapServer 1 ms4a]]) := by
  obtain ⟨h1, h2, h3, h4, h5, h6, h7⟩ := cov4
  refine .cont _ _ _ _ ?_ (by simp) ?_
  · intro c hc; rw [List.mem_singleton.mp hc]; exact inside_iff.mpr h4
  · intro c hc
    rw [List.mem_singleton.mp hc]
    refine .cont _ _ _ _ ?_ ?_ ?_
    · intro c hc
      simp only [List.mem_cons, List.not_mem_nil, or_false] at hc
      rcases hc with rfl | rfl | rfl
      · exact inside_iff.mpr h3
      · exact inside_iff.mpr h2
      · exact inside_iff.mpr h1
    · simp [apart_iff, Node.pfx, h5, h6, h7]
    · intro c hc
      simp only [List.mem_cons, List.not_mem_nil, or_false] at hc
      rcases hc with rfl | rfl | rfl <;> exact .leaf _ _ _

theorem wellFormed6 (ddt : List IP) : WellFormed (.cont none 9 rootNet6 [.cont (some ddt) 8 auth6
    [.leaf .mapServer 7 ms6b, .leaf .mapServer 6 ms6a]]) := by
  obtain ⟨h1, h2, h3, h4⟩ := cov6
  refine .cont _ _ _ _ ?_ (by simp) ?_
  · intro c hc; rw [List.mem_singleton.mp hc]; exact inside_iff.mpr h3
  · intro c hc
    rw [List.mem_singleton.mp hc]
    refine .cont _ _ _ _ ?_ ?_ ?_
    · intro c hc
      simp only [List.mem_cons, List.not_mem_nil, or_false] at hc
      rcases hc with rfl | rfl
      · exact inside_iff.mpr h2
      · exact inside_iff.mpr h1
    · simp [apart_iff, Node.pfx, h4]
    · intro c hc
      simp only [List.mem_cons, List.not_mem_nil, or_false] at hc
      rcases hc with rfl | rfl <;> exact .leaf _ _ _

/-- the addresses from `lo` to `hi` -/
theorem contains_range (n : Net) (x : IP) (lo hi : Nat) (hv : n.ver = x.ver) (h1 : n.base = lo) (h2 : n.base + n.size = hi + 1) :
    n.containsIP x = true ↔ lo ≤ x.val ∧ x.val ≤ hi := by
  unfold Net.containsIP
  rw [h2, h1]
  simp [hv]
  omega

/-- C99: with etc/lispd/settings.py every IPv4 address has an answer: 37.77.56.32–33, 37.77.56.64–127 and 37.77.57.56–59
are the three Map-Servers, the rest of 37.77.56.0–37.77.63.255 the authoritative container, everything else the root. -/
theorem shipped_server_ipv4 (ddt : List IP) (x : IP) (hx : x.ver = .v4) :
    ∃ t n, serverTree4 ddt = .ok t ∧ t.resolve x.toNet = .ok n ∧
      (0x254d3820 ≤ x.val ∧ x.val ≤ 0x254d3821 → n = .leaf .mapServer 1 ms4a) ∧
      (0x254d3840 ≤ x.val ∧ x.val ≤ 0x254d387f → n = .leaf .mapServer 2 ms4b) ∧
      (0x254d3938 ≤ x.val ∧ x.val ≤ 0x254d393b → n = .leaf .mapServer 3 ms4c) ∧
      (¬ (0x254d3820 ≤ x.val ∧ x.val ≤ 0x254d3821) → ¬ (0x254d3840 ≤ x.val ∧ x.val ≤ 0x254d387f) →
        ¬ (0x254d3938 ≤ x.val ∧ x.val ≤ 0x254d393b) → 0x254d3800 ≤ x.val ∧ x.val ≤ 0x254d3fff →
        ∃ cs, n = .cont (some ddt) 4 auth4 cs) ∧
      (¬ (0x254d3800 ≤ x.val ∧ x.val ≤ 0x254d3fff) → n = t) := by
  have ra := contains_range ms4a x 0x254d3820 0x254d3821 hx.symm rfl (by decide +kernel)
  have rb := contains_range ms4b x 0x254d3840 0x254d387f hx.symm rfl (by decide +kernel)
  have rc := contains_range ms4c x 0x254d3938 0x254d393b hx.symm rfl (by decide +kernel)
  have rd := contains_range auth4 x 0x254d3800 0x254d3fff hx.symm rfl (by decide +kernel)
  have rr := contains_range rootNet4 x 0 (2 ^ 32 - 1) hx.symm rfl (by decide +kernel)
  have hlt : x.val < 2 ^ 32 := by have := x.lt; rw [hx] at this; exact this
  obtain ⟨m, rest, hpath, hres, hin, _, hbest⟩ := resolve_address none 5 rootNet4 _ (wellFormed4 ddt) x (rr.mpr (by omega))
  refine ⟨_, m, tree4_ok ddt, hres, ?_, ?_, ?_, ?_, ?_⟩
  · intro h
    exact shipped_leaf (hbest (.leaf .mapServer 1 ms4a) (.child List.mem_cons_self (.child (by simp) (.self _))) (ra.mpr h)).2
  · intro h
    exact shipped_leaf (hbest (.leaf .mapServer 2 ms4b) (.child List.mem_cons_self (.child (by simp) (.self _))) (rb.mpr h)).2
  · intro h
    exact shipped_leaf (hbest (.leaf .mapServer 3 ms4c) (.child List.mem_cons_self (.child (by simp) (.self _))) (rc.mpr h)).2
  · intro h1 h2 h3 h4
    have hb := (hbest (.cont (some ddt) 4 auth4 _) (.child List.mem_cons_self (.self _)) (rd.mpr h4)).2
    have hm := ((hin m).mp List.mem_cons_self).2
    cases hb with
    | self => exact ⟨_, rfl⟩
    | child hc h =>
      simp only [List.mem_cons, List.not_mem_nil, or_false] at hc
      rcases hc with rfl | rfl | rfl <;> (rw [shipped_leaf h] at hm; simp only [Node.pfx] at hm)
      · exact absurd (rc.mp hm) h3
      · exact absurd (rb.mp hm) h2
      · exact absurd (ra.mp hm) h1
  · intro h4
    obtain ⟨hm1, hm2⟩ := (hin m).mp List.mem_cons_self
    cases hm1 with
    | self => rfl
    | child hc h =>
      rw [List.mem_singleton.mp hc] at h
      have : auth4.containsIP x = true := by
        cases h with
        | self => exact hm2
        | child hc h =>
          simp only [List.mem_cons, List.not_mem_nil, or_false] at hc
          rcases hc with rfl | rfl | rfl <;> (rw [shipped_leaf h] at hm2; simp only [Node.pfx] at hm2)
          · have := rc.mp hm2; exact rd.mpr (by omega)
          · have := rb.mp hm2; exact rd.mpr (by omega)
          · have := ra.mp hm2; exact rd.mpr (by omega)
      exact absurd (rd.mp this) h4

/-- C99: and every IPv6 address: 2a00:8640:1::/48 and 2a00:8640:1009::/48 are the two Map-Servers, the rest of
2a00:8640::/32 the authoritative container, everything else the root. -/
theorem shipped_server_ipv6 (ddt : List IP) (x : IP) (hx : x.ver = .v6) :
    ∃ t n, serverTree6 ddt = .ok t ∧ t.resolve x.toNet = .ok n ∧
      (x.val / 2 ^ 80 = 0x2a0086400001 → n = .leaf .mapServer 6 ms6a) ∧
      (x.val / 2 ^ 80 = 0x2a0086401009 → n = .leaf .mapServer 7 ms6b) ∧
      (x.val / 2 ^ 80 ≠ 0x2a0086400001 → x.val / 2 ^ 80 ≠ 0x2a0086401009 → x.val / 2 ^ 96 = 0x2a008640 →
        ∃ cs, n = .cont (some ddt) 8 auth6 cs) ∧
      (x.val / 2 ^ 96 ≠ 0x2a008640 → n = t) := by
  have ra := contains_range ms6a x (0x2a0086400001 * 2 ^ 80) (0x2a0086400001 * 2 ^ 80 + 2 ^ 80 - 1) hx.symm (by decide +kernel) (by decide +kernel)
  have rb := contains_range ms6b x (0x2a0086401009 * 2 ^ 80) (0x2a0086401009 * 2 ^ 80 + 2 ^ 80 - 1) hx.symm (by decide +kernel) (by decide +kernel)
  have rd := contains_range auth6 x (0x2a008640 * 2 ^ 96) (0x2a008640 * 2 ^ 96 + 2 ^ 96 - 1) hx.symm (by decide +kernel) (by decide +kernel)
  have rr := contains_range rootNet6 x 0 (2 ^ 128 - 1) hx.symm rfl (by decide +kernel)
  have hlt : x.val < 2 ^ 128 := by have := x.lt; rw [hx] at this; exact this
  obtain ⟨m, rest, hpath, hres, hin, _, hbest⟩ := resolve_address none 9 rootNet6 _ (wellFormed6 ddt) x (rr.mpr (by omega))
  refine ⟨_, m, tree6_ok ddt, hres, ?_, ?_, ?_, ?_⟩
  · intro h
    exact shipped_leaf (hbest (.leaf .mapServer 6 ms6a) (.child List.mem_cons_self (.child (by simp) (.self _))) (ra.mpr (by omega))).2
  · intro h
    exact shipped_leaf (hbest (.leaf .mapServer 7 ms6b) (.child List.mem_cons_self (.child (by simp) (.self _))) (rb.mpr (by omega))).2
  · intro h1 h2 h4
    have hb := (hbest (.cont (some ddt) 8 auth6 _) (.child List.mem_cons_self (.self _)) (rd.mpr (by omega))).2
    have hm := ((hin m).mp List.mem_cons_self).2
    cases hb with
    | self => exact ⟨_, rfl⟩
    | child hc h =>
      simp only [List.mem_cons, List.not_mem_nil, or_false] at hc
      rcases hc with rfl | rfl <;> (rw [shipped_leaf h] at hm; simp only [Node.pfx] at hm)
      · have := rb.mp hm; omega
      · have := ra.mp hm; omega
  · intro h4
    obtain ⟨hm1, hm2⟩ := (hin m).mp List.mem_cons_self
    cases hm1 with
    | self => rfl
    | child hc h =>
      rw [List.mem_singleton.mp hc] at h
      have : auth6.containsIP x = true := by
        cases h with
        | self => exact hm2
        | child hc h =>
          simp only [List.mem_cons, List.not_mem_nil, or_false] at hc
          rcases hc with rfl | rfl <;> (rw [shipped_leaf h] at hm2; simp only [Node.pfx] at hm2)
          · have := rb.mp hm2; exact rd.mpr (by omega)
          · have := ra.mp hm2; exact rd.mpr (by omega)
      have := rd.mp this
      omega

/-! ### The hypotheses are met -/

/-- the prefixes are those of the files -/
example : [ms4a, ms4b, ms4c, auth4, ms6a, ms6b, auth6].map (fun n => String.ofList (IPText.netText n)) =
    ["37.77.56.32/31", "37.77.56.64/26", "37.77.57.56/30", "37.77.56.0/21", "2a00:8640:1::/48", "2a00:8640:1009::/48",
      "2a00:8640::/32"] := by decide +kernel
/-- the types of the program's own defaults (application/lispd/settings.py:38-46) are right -/
example : TypesOk (lastValue (fun n => if n = "NATT" then .bool true else .none) [.ioError]) := by
  refine ⟨.inl ?_, ⟨true, ?_⟩, .inl ?_, .inl ?_⟩ <;> decide +kernel
/-- calls as they should be bind; the two ways to get it wrong -/
example : CfgCall.bind ⟨"ETRNode", 1, ["locators", "registrations"]⟩ = .ok () ∧
    CfgCall.bind ⟨"ETRNode", 1, ["prefix"]⟩ = .error .type ∧ CfgCall.bind ⟨"MapServerNode", 1, []⟩ = .error .type := by
  refine ⟨rfl, rfl, rfl⟩

end PyLisp.Props
