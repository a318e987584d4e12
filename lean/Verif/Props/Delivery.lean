import Verif.Delivery
import Verif.Props.Leftover
/-
Property C88: which datagrams reach lispd: the sockets on automatic addresses over time, and the socket left over from
loading lispd.
-/
namespace PyLisp.Props
open PyLisp

/-- what netifaces lists for a family are addresses of this family -/
def ListedFor (ver : Ver) (interface : Option (List (Option IP))) : Prop :=
  ∀ l, interface = some l → ∀ a, some a ∈ l → a.ver = ver

/-- The last change of the chosen address in a history (of what was found on the interface and what came of binding,
oldest first) was to `v` and the binding then succeeded: from some point on every choice was `v`, the choice before
that (if any) was another one, and at that point the operating system did bind the socket. -/
def BoundOnChange (hist : List (Option (List (Option IP)) × BindOutcome)) (v : Nat) : Prop :=
  ∃ pre i post, hist = pre ++ (i, BindOutcome.bound) :: post ∧ chooseAddress i = v ∧
    (∀ q ∈ post, chooseAddress q.1 = v) ∧ (∀ q, pre.getLast? = some q → chooseAddress q.1 ≠ v)

theorem pick_cases (l : List (Option IP)) :
    pickAddress l = 0 ∨ ∃ a, some a ∈ l ∧ autoSuitable a = true ∧ pickAddress l = a.val := by
  induction l with
  | nil => exact .inl rfl
  | cons x l ih =>
    cases x with
    | none => exact .inl rfl
    | some a =>
      by_cases h : autoSuitable a = true
      · exact .inr ⟨a, .head _, h, by simp [pickAddress, h]⟩
      · have : pickAddress (some a :: l) = pickAddress l := by simp [pickAddress, h]
        rw [this]
        rcases ih with h0 | ⟨b, hb, h1, h2⟩
        · exact .inl h0
        · exact .inr ⟨b, .tail _ hb, h1, h2⟩

theorem choose_cases {ver : Ver} {i : Option (List (Option IP))} (h : ListedFor ver i) :
    chooseAddress i = 0 ∨ ∃ a : IP, a.ver = ver ∧ MayBind a ∧ chooseAddress i = a.val := by
  cases i with
  | none => exact .inl rfl
  | some l =>
    rcases pick_cases l with h0 | ⟨a, ha, hs, he⟩
    · exact .inl h0
    · refine .inr ⟨a, h l rfl a ha, (bindable_iff a).mp ?_, he⟩
      simp only [autoSuitable, bindable, Bool.not_eq_true', Bool.or_eq_false_iff] at hs ⊢
      exact ⟨⟨⟨hs.1.1.1.2, hs.1.1.1.1⟩, hs.1.1.2⟩, hs.2⟩

theorem choose_lt {ver : Ver} {i : Option (List (Option IP))} (h : ListedFor ver i) :
    chooseAddress i < 2 ^ ver.width := by
  rcases choose_cases h with h0 | ⟨a, rfl, _, he⟩
  · rw [h0]; exact Nat.two_pow_pos _
  · rw [he]; exact a.lt

theorem bound_step (hist : List (Option (List (Option IP)) × BindOutcome)) (p : Option (List (Option IP)) × BindOutcome)
    (last : Option (List (Option IP)) × BindOutcome) (hl : hist.getLast? = some last) :
    BoundOnChange (hist ++ [p]) (chooseAddress p.1) ↔
      if chooseAddress last.1 = chooseAddress p.1 then BoundOnChange hist (chooseAddress p.1) else p.2 = .bound := by
  have hd : hist.dropLast ++ [last] = hist := by
    rw [List.getLast?_eq_some_iff] at hl
    obtain ⟨ys, rfl⟩ := hl
    simp
  split
  · rename_i he
    constructor
    · rintro ⟨pre, i, post, hh, hi, hpost, hpre⟩
      rcases List.eq_nil_or_concat post with rfl | ⟨post', z, rfl⟩
      · have := List.append_inj' hh rfl
        refine absurd he (hpre last ?_)
        rw [← this.1]; exact hl
      · rw [List.concat_eq_append] at hh hpost
        rw [show pre ++ (i, BindOutcome.bound) :: (post' ++ [z]) = (pre ++ (i, BindOutcome.bound) :: post') ++ [z] by simp]
          at hh
        have := List.append_inj' hh rfl
        exact ⟨pre, i, post', this.1, hi, fun q hq => hpost q (List.mem_append_left _ hq), hpre⟩
    · rintro ⟨pre, i, post, rfl, hi, hpost, hpre⟩
      refine ⟨pre, i, post ++ [p], by simp, hi, ?_, hpre⟩
      intro q hq
      rcases List.mem_append.mp hq with hq | hq
      · exact hpost q hq
      · rw [List.mem_singleton.mp hq]
  · rename_i he
    constructor
    · rintro ⟨pre, i, post, hh, hi, hpost, hpre⟩
      rcases List.eq_nil_or_concat post with rfl | ⟨post', z, rfl⟩
      · have := List.append_inj' hh rfl
        have h2 := List.cons.inj this.2
        rw [h2.1]
      · rw [List.concat_eq_append] at hh hpost
        rw [show pre ++ (i, BindOutcome.bound) :: (post' ++ [z]) = (pre ++ (i, BindOutcome.bound) :: post') ++ [z] by simp]
          at hh
        have := (List.append_inj' hh rfl).1
        refine absurd ?_ he
        rw [this, List.getLast?_append] at hl
        cases hp : post'.getLast? with
        | none =>
          have : post' = [] := by simpa using hp
          subst this
          simp at hl
          rw [← hl]; exact hi
        | some w =>
          have hw : ((i, BindOutcome.bound) :: post').getLast? = some w := by rw [List.getLast?_cons, hp]; rfl
          rw [hw] at hl
          simp at hl
          subst hl
          exact hpost w (List.mem_append_left _ (List.mem_of_getLast? hp))
    · intro hb
      refine ⟨hist, p.1, [], by rw [← hb], rfl, (fun q hq => by cases hq), ?_⟩
      intro q hq
      rw [hl] at hq
      cases hq
      exact he

/-- the invariant of a socket on an automatic address: `hist` is what happened so far -/
structure OnAuto (ver : Ver) (hist : List (Option (List (Option IP)) × BindOutcome)) (s : AutoSock) : Prop where
  sound : SockOk s
  fam : s.family = ver
  fam' : s.address.ver = ver
  cur : ∃ last, hist.getLast? = some last ∧ s.address.val = chooseAddress last.1
  opened : s.sock ≠ none ↔ s.address.val ≠ 0 ∧ BoundOnChange hist s.address.val
  here : s.sock ≠ none → s.sockAddress = s.address.val

theorem rebind_family (s : AutoSock) (o : BindOutcome) : (s.rebind o).1.family = s.family := by
  obtain ⟨f, ad, so, sa, ha, nx⟩ := s
  unfold AutoSock.rebind
  split
  · rfl
  · split
    · cases o <;> cases so <;> rfl
    · cases so <;> rfl

theorem onAuto_new (ver : Ver) (p : Option (List (Option IP)) × BindOutcome) (h : ListedFor ver p.1) :
    OnAuto ver [p] (AutoSock.newOn ver p.1 p.2) := by
  have hlt := choose_lt h
  have hv : autoValue ver p.1 = ⟨ver, chooseAddress p.1, hlt⟩ := dif_pos hlt
  unfold AutoSock.newOn
  rw [hv]
  obtain ⟨n1, n2, n3, n4⟩ := auto_socket_new ⟨ver, chooseAddress p.1, hlt⟩ p.2
  refine ⟨auto_socket_invariant _ _ [], n4, by rw [n3], ⟨p, rfl, by rw [n3]⟩, ?_, ?_⟩
  · rw [n1, n3]
    dsimp only
    constructor
    · rintro ⟨hm, hb⟩
      refine ⟨?_, [], p.1, [], by rw [← hb]; rfl, rfl, (fun q hq => by cases hq), (fun q hq => by cases hq)⟩
      cases ver <;> exact hm.1
    · rintro ⟨hz, pre, i, post, hh, hi, -, -⟩
      rcases choose_cases h with h0 | ⟨a, rfl, hm, he⟩
      · exact absurd h0 hz
      · refine ⟨?_, ?_⟩
        · have : (⟨a.ver, chooseAddress p.1, hlt⟩ : IP) = a := by cases a; simp at he ⊢; exact he
          rw [this]; exact hm
        · cases pre with
          | nil =>
            have := (List.cons.inj hh).1
            rw [this]
          | cons x pre => exact absurd (congrArg List.length hh) (by simp)
  · intro hs
    rw [n2 hs, n3]

theorem onAuto_step {ver : Ver} {hist : List (Option (List (Option IP)) × BindOutcome)} {s : AutoSock}
    (inv : OnAuto ver hist s) (p : Option (List (Option IP)) × BindOutcome) (h : ListedFor ver p.1) :
    OnAuto ver (hist ++ [p]) (s.update p.1 p.2) := by
  obtain ⟨last, hl, hc⟩ := inv.cur
  have hlt := choose_lt h
  have hst := bound_step hist p last hl
  unfold AutoSock.update
  split
  · rename_i he
    rw [← hc, if_pos he] at hst
    refine ⟨inv.sound, inv.fam, inv.fam', ⟨p, by simp, he⟩, ?_, inv.here⟩
    rw [inv.opened, he, hst]
  · rename_i he
    rw [← hc, if_neg he] at hst
    have hch : s.step (.change (chooseAddress p.1)) =
        { s with address := ⟨s.family, chooseAddress p.1, by rw [inv.fam]; exact hlt⟩ } :=
      dif_pos (show chooseAddress p.1 < 2 ^ s.family.width by rw [inv.fam]; exact hlt)
    rw [hch]
    have hok : SockOk { s with address := ⟨s.family, chooseAddress p.1, by rw [inv.fam]; exact hlt⟩ } := inv.sound
    obtain ⟨-, r2, r3, r4⟩ := auto_socket_rebind _ hok p.2
    refine ⟨rebind_ok hok p.2, ?_, ?_, ⟨p, by simp, by rw [r4]⟩, ?_, ?_⟩
    · rw [rebind_family]; exact inv.fam
    · rw [r4]; exact inv.fam
    · rw [r3, r4]
      dsimp only
      rw [hst]
      refine and_congr_right fun hz => ?_
      have hns : chooseAddress p.1 ≠ s.sockAddress := by
        intro hq
        have h1 : s.sock ≠ none := by
          rcases inv.sound with ⟨h1, h2, _⟩ | ⟨x, h1, h2, _⟩
          · exact absurd (hq.trans h2) hz
          · rw [h1]; exact fun h => by cases h
        exact he ((inv.here h1).symm.trans hq.symm)
      rcases choose_cases h with h0 | ⟨a, ha, hm, hv⟩
      · exact absurd h0 hz
      · have : (⟨s.family, chooseAddress p.1, by rw [inv.fam]; exact hlt⟩ : IP) = a := by
          have := inv.fam.trans ha.symm
          cases a; simp at this hv ⊢; exact ⟨this, hv⟩
        rw [this]
        exact ⟨fun h => (h.resolve_left hns).2, fun h => .inr ⟨hm, h⟩⟩
    · intro hs
      rw [r2 hs, r4]

theorem onAuto_run {ver : Ver} (us : List (Option (List (Option IP)) × BindOutcome)) :
    ∀ (hist : List (Option (List (Option IP)) × BindOutcome)) (s : AutoSock), OnAuto ver hist s →
      (∀ p ∈ us, ListedFor ver p.1) →
      OnAuto ver (hist ++ us) (us.foldl (fun s p => s.update p.1 p.2) s) := by
  induction us with
  | nil => intro hist s inv _; rw [List.append_nil]; exact inv
  | cons p us ih =>
    intro hist s inv h
    rw [List.foldl_cons, show hist ++ p :: us = (hist ++ [p]) ++ us by simp]
    exact ih _ _ (onAuto_step inv p (h p (.head _))) fun q hq => h q (.tail _ hq)

/-- C88: an AutoUDPSocket on an automatic address, over every history of what is found on the interface and of what
comes of binding: after it, the address has the value last chosen, and the socket is open exactly if this value is not
0 and the operating system did bind the socket when the address last changed; it is then bound to this address.  In
particular a bind that failed is not tried again while the address stays the same. -/
theorem auto_socket_over_time (ver : Ver) (i : Option (List (Option IP))) (o : BindOutcome)
    (us : List (Option (List (Option IP)) × BindOutcome)) (h : ∀ p ∈ (i, o) :: us, ListedFor ver p.1) :
    (us.foldl (fun s p => s.update p.1 p.2) (AutoSock.newOn ver i o)).address.ver = ver ∧
    (∃ last, ((i, o) :: us).getLast? = some last ∧
      (us.foldl (fun s p => s.update p.1 p.2) (AutoSock.newOn ver i o)).address.val = chooseAddress last.1) ∧
    ((us.foldl (fun s p => s.update p.1 p.2) (AutoSock.newOn ver i o)).sock ≠ none ↔
      (us.foldl (fun s p => s.update p.1 p.2) (AutoSock.newOn ver i o)).address.val ≠ 0 ∧
      BoundOnChange ((i, o) :: us)
        (us.foldl (fun s p => s.update p.1 p.2) (AutoSock.newOn ver i o)).address.val) ∧
    ((us.foldl (fun s p => s.update p.1 p.2) (AutoSock.newOn ver i o)).sock ≠ none →
      (us.foldl (fun s p => s.update p.1 p.2) (AutoSock.newOn ver i o)).sockAddress =
        (us.foldl (fun s p => s.update p.1 p.2) (AutoSock.newOn ver i o)).address.val) := by
  have inv := onAuto_run us [(i, o)] _ (onAuto_new ver (i, o) (h _ (.head _))) fun p hp => h p (.tail _ hp)
  exact ⟨inv.fam', inv.cur, inv.opened, inv.here⟩

/-- what was found on the interface vlan2 when lispd was loaded and by each update since, with what came of binding -/
def vlanHistory (e1 : Interfaces) (o : BindOutcome) (evs : List (CacheEvent × BindOutcome)) :
    List (Option (List (Option IP)) × BindOutcome) :=
  (e1 "vlan2" .v4, o) :: evs.filterMap fun ev =>
    match ev.1 with
    | .updateAll env => some (env "vlan2" .v4, ev.2)
    | .get .. => none

theorem loaded_left (evs : List (CacheEvent × BindOutcome)) (st : Loaded) :
    (evs.foldl Loaded.step st).left = (evs.filterMap fun ev =>
      match ev.1 with
      | .updateAll env => some (env "vlan2" .v4, ev.2)
      | .get .. => none).foldl (fun s p => s.update p.1 p.2) st.left := by
  induction evs generalizing st with
  | nil => rfl
  | cons ev evs ih =>
    obtain ⟨ev, o⟩ := ev
    cases ev <;> exact ih _

theorem loaded_auto (evs : List (CacheEvent × BindOutcome)) (st : Loaded) :
    (evs.foldl Loaded.step st).auto = (evs.map Prod.fst).foldl cacheStep st.auto := by
  induction evs generalizing st with
  | nil => rfl
  | cons ev evs ih =>
    obtain ⟨ev, o⟩ := ev
    cases ev <;> exact ih _

theorem onAuto_bound {hist : List (Option (List (Option IP)) × BindOutcome)} {s : AutoSock} (inv : OnAuto .v4 hist s) (a : IP) :
    (s.sock ≠ none ∧ s.family = a.ver ∧ s.sockAddress = a.val) ↔
    a.ver = .v4 ∧ a.val ≠ 0 ∧ (∃ last, hist.getLast? = some last ∧ a.val = chooseAddress last.1) ∧
      BoundOnChange hist a.val := by
  constructor
  · rintro ⟨hs, hf, ha⟩
    have he := ha.symm.trans (inv.here hs)
    obtain ⟨hz, hb⟩ := inv.opened.mp hs
    rw [he]
    exact ⟨hf.symm.trans inv.fam, hz, inv.cur, hb⟩
  · rintro ⟨hf, hz, ⟨last, hl, hv⟩, hb⟩
    obtain ⟨last', hl', hv'⟩ := inv.cur
    rw [hl] at hl'
    cases hl'
    have he : s.address.val = a.val := hv'.trans hv.symm
    have hs : s.sock ≠ none := inv.opened.mpr ⟨by rw [he]; exact hz, by rw [he]; exact hb⟩
    exact ⟨hs, inv.fam.trans hf.symm, (inv.here hs).trans he⟩

/-- C88: the socket left over from loading lispd, over every history: it is open, bound to the address `a`, exactly if
`a` is the usable IPv4 address last found on vlan2 and binding succeeded when this address last changed. -/
theorem leftover_bound (e1 e2 : Interfaces) (o : BindOutcome) (evs : List (CacheEvent × BindOutcome))
    (h : ∀ p ∈ vlanHistory e1 o evs, ListedFor .v4 p.1) (a : IP) :
    ((evs.foldl Loaded.step (Loaded.new e1 e2 o)).left.sock ≠ none ∧
      (evs.foldl Loaded.step (Loaded.new e1 e2 o)).left.family = a.ver ∧
      (evs.foldl Loaded.step (Loaded.new e1 e2 o)).left.sockAddress = a.val) ↔
    a.ver = .v4 ∧ a.val ≠ 0 ∧ (∃ last, (vlanHistory e1 o evs).getLast? = some last ∧ a.val = chooseAddress last.1) ∧
      BoundOnChange (vlanHistory e1 o evs) a.val := by
  have inv := onAuto_run _ [(e1 "vlan2" .v4, o)] _ (onAuto_new .v4 (e1 "vlan2" .v4, o) (h _ (.head _)))
    fun p hp => h p (.tail _ hp)
  rw [loaded_left]
  refine Iff.trans ?_ (onAuto_bound inv a)
  exact Iff.rfl

/-- C88: the left-over socket and the first automatic address made on loading (C83) agree: the address of the socket is
the value of this address object, after every history. -/
theorem leftover_address (e1 e2 : Interfaces) (o : BindOutcome) (evs : List (CacheEvent × BindOutcome))
    (h : ∀ p ∈ vlanHistory e1 o evs, ListedFor .v4 p.1) :
    ∃ p, (evs.foldl Loaded.step (Loaded.new e1 e2 o)).auto.objs[0]? = some p ∧ p.ifName = "vlan2" ∧ p.ver = .v4 ∧
      p.ip = (evs.foldl Loaded.step (Loaded.new e1 e2 o)).left.address.val := by
  have inv := onAuto_run _ [(e1 "vlan2" .v4, o)] _ (onAuto_new .v4 (e1 "vlan2" .v4, o) (h _ (.head _)))
    fun p hp => h p (.tail _ hp)
  have i0 : (loaded e1 e2).objs[0]? = some ⟨0, "vlan2", .v4, chooseAddress (e1 "vlan2" .v4), true⟩ := by
    simp [loaded, autoStep, AutoObj.refresh, AutoObj.admitted]
  obtain ⟨p, p1, p2, p3, p4, p5⟩ := first_objects (evs.map Prod.fst) i0 e1 rfl
  refine ⟨p, by rw [loaded_auto]; exact p1, p2, p3, ?_⟩
  rw [p5 rfl, loaded_left]
  obtain ⟨last, hl, hv⟩ := inv.cur
  refine Eq.trans ?_ hv.symm
  have : ∀ (e : Interfaces) (o : BindOutcome) (evs : List (CacheEvent × BindOutcome)) last,
      (vlanHistory e o evs).getLast? = some last →
      chooseAddress (lastFound e (evs.map Prod.fst) "vlan2" .v4) = chooseAddress last.1 := by
    intro e o evs
    induction evs generalizing e o with
    | nil => intro last hl; simp [vlanHistory] at hl; rw [← hl]; rfl
    | cons ev evs ih =>
      intro last hl
      obtain ⟨ev, o'⟩ := ev
      cases ev with
      | get n v env => exact ih e o last hl
      | updateAll env =>
        refine ih env o' last ?_
        simpa [vlanHistory] using hl
  exact this e1 o evs last hl

/-- `pick` is a way in which the operating system may hand out datagrams: one for an address and port goes to some open
socket bound to them, if there is one (all sockets have SO_REUSEADDR and SO_REUSEPORT) -/
def HandsOut (socks : List Bound) (pick : IP → Nat → Option Bound) : Prop :=
  ∀ a port,
    (∀ b, pick a port = some b → b ∈ socks ∧ b.ver = a.ver ∧ b.num = a.val ∧ b.port = port) ∧
    (pick a port = none → ∀ b ∈ socks, ¬ (b.ver = a.ver ∧ b.num = a.val ∧ b.port = port))

theorem mem_boundTo (read : Bool) (s : AutoSock) (port : Nat) (b : Bound) :
    b ∈ boundTo read s port ↔ s.sock ≠ none ∧ b = ⟨read, s.family, s.sockAddress, port⟩ := by
  unfold boundTo
  split <;> rename_i h <;> simp [h]

/-- a way to hand out datagrams that prefers the sockets of `first` -/
theorem hands_out_exists (socks : List Bound) (f : Bound → Bool) :
    ∃ pick, HandsOut socks pick ∧ ∀ a port, (∃ b ∈ socks, f b = true ∧ b.ver = a.ver ∧ b.num = a.val ∧ b.port = port) →
      ∃ b, pick a port = some b ∧ f b = true := by
  refine ⟨fun a port =>
    ((socks.filter f) ++ socks).find? fun b => decide (b.ver = a.ver ∧ b.num = a.val ∧ b.port = port), ?_, ?_⟩
  · intro a port
    constructor
    · intro b hb
      have h1 := List.find?_some hb
      have h2 := List.mem_of_find?_eq_some hb
      refine ⟨?_, of_decide_eq_true h1⟩
      rcases List.mem_append.mp h2 with h | h
      · exact (List.mem_filter.mp h).1
      · exact h
    · intro hn b hb hc
      have := List.find?_eq_none.mp hn b (List.mem_append_right _ hb)
      exact this (decide_eq_true hc)
  · rintro a port ⟨b, hb, hf, hc⟩
    dsimp only
    rw [List.find?_append]
    cases hq : (socks.filter f).find? fun b => decide (b.ver = a.ver ∧ b.num = a.val ∧ b.port = port) with
    | none => exact absurd (decide_eq_true hc) (List.find?_eq_none.mp hq b (List.mem_filter.mpr ⟨hb, hf⟩))
    | some c => exact ⟨c, rfl, (List.mem_filter.mp (List.mem_of_find?_eq_some hq)).2⟩

/-- C88: a datagram for an address and port is certain to be read by lispd, however the operating system hands out
datagrams, exactly if one of lispd's own sockets is open and bound to them and the left-over socket is not. -/
theorem certainly_read (own : List (AutoSock × Nat)) (left : AutoSock) (a : IP) (port : Nat) :
    (∀ pick, HandsOut (openSockets own left) pick → ∃ b, pick a port = some b ∧ b.read = true) ↔
    (∃ p ∈ own, p.1.sock ≠ none ∧ p.1.family = a.ver ∧ p.1.sockAddress = a.val ∧ p.2 = port) ∧
      ¬ (left.sock ≠ none ∧ left.family = a.ver ∧ left.sockAddress = a.val ∧ port = 4342) := by
  have hm : ∀ b, b ∈ openSockets own left ↔
      (∃ p ∈ own, p.1.sock ≠ none ∧ b = ⟨true, p.1.family, p.1.sockAddress, p.2⟩) ∨
      (left.sock ≠ none ∧ b = ⟨false, left.family, left.sockAddress, 4342⟩) := by
    intro b
    simp only [openSockets, List.mem_append, List.mem_flatMap, mem_boundTo]
  constructor
  · intro h
    refine ⟨?_, ?_⟩
    · obtain ⟨pick, hp, -⟩ := hands_out_exists (openSockets own left) (fun _ => true)
      obtain ⟨b, hb, hr⟩ := h pick hp
      obtain ⟨hbm, h1, h2, h3⟩ := (hp a port).1 b hb
      rcases (hm b).mp hbm with ⟨p, hpo, hs, rfl⟩ | ⟨hs, rfl⟩
      · exact ⟨p, hpo, hs, h1, h2, h3⟩
      · cases hr
    · rintro ⟨hs, h1, h2, h3⟩
      obtain ⟨pick, hp, hf⟩ := hands_out_exists (openSockets own left) (fun b => !b.read)
      obtain ⟨b, hb, hr⟩ := h pick hp
      obtain ⟨c, hc, hcr⟩ := hf a port ⟨_, (hm _).mpr (.inr ⟨hs, rfl⟩), rfl, h1, h2, h3.symm⟩
      rw [hb] at hc
      cases hc
      rw [hr] at hcr
      cases hcr
  · rintro ⟨⟨p, hpo, hs, h1, h2, h3⟩, hn⟩ pick hp
    cases hb : pick a port with
    | none => exact absurd ⟨h1, h2, h3⟩ ((hp a port).2 hb _ ((hm _).mpr (.inl ⟨p, hpo, hs, rfl⟩)))
    | some b =>
      refine ⟨b, rfl, ?_⟩
      obtain ⟨hbm, g1, g2, g3⟩ := (hp a port).1 b hb
      rcases (hm b).mp hbm with ⟨q, _, _, rfl⟩ | ⟨hls, rfl⟩
      · rfl
      · exact absurd ⟨hls, g1, g2, g3.symm⟩ hn

/-- C88: in lispd, after every history: a datagram for port 4342 of the address `a`, on which lispd listens, may be lost
to the left-over socket exactly if `a` is the usable IPv4 address last found on vlan2 (and binding to it succeeded when
the address last changed).  Datagrams for any other port are never lost to it. -/
theorem lispd_certainly_reads (e1 e2 : Interfaces) (o : BindOutcome) (evs : List (CacheEvent × BindOutcome))
    (h : ∀ p ∈ vlanHistory e1 o evs, ListedFor .v4 p.1) (own : List (AutoSock × Nat)) (a : IP) (port : Nat)
    (hown : ∃ p ∈ own, p.1.sock ≠ none ∧ p.1.family = a.ver ∧ p.1.sockAddress = a.val ∧ p.2 = port) :
    (∀ pick, HandsOut (openSockets own (evs.foldl Loaded.step (Loaded.new e1 e2 o)).left) pick →
      ∃ b, pick a port = some b ∧ b.read = true) ↔
    ¬ (port = 4342 ∧ a.ver = .v4 ∧ a.val ≠ 0 ∧
      (∃ last, (vlanHistory e1 o evs).getLast? = some last ∧ a.val = chooseAddress last.1) ∧
      BoundOnChange (vlanHistory e1 o evs) a.val) := by
  rw [certainly_read, ← leftover_bound e1 e2 o evs h a]
  constructor
  · rintro ⟨-, hn⟩ ⟨hp, h1, h2, h3⟩
    exact hn ⟨h1, h2, h3, hp⟩
  · intro hn
    exact ⟨hown, fun ⟨h1, h2, h3, hp⟩ => hn ⟨hp, h1, h2, h3⟩⟩

/-- a host with 192.0.2.1 on vlan2, and one without this interface -/
def exVlan : Interfaces := fun n v => if n = "vlan2" ∧ v = .v4 then some [some ⟨.v4, 0xc0000201, by decide⟩] else none
def exNoVlan : Interfaces := fun _ _ => none

/-- a socket of lispd on 192.0.2.1 -/
def exOwn : AutoSock := AutoSock.new ⟨.v4, 0xc0000201, by decide⟩ .bound

-- the interface comes up after lispd was loaded and SIGHUP is received: control messages may be lost
example : (∀ p ∈ vlanHistory exNoVlan .bound [(.updateAll exVlan, .bound)], ListedFor .v4 p.1) ∧
    (∃ p ∈ [(exOwn, 4342)], p.1.sock ≠ none ∧ p.1.family = Ver.v4 ∧ p.1.sockAddress = 0xc0000201 ∧ p.2 = 4342) ∧
    ([(CacheEvent.updateAll exVlan, BindOutcome.bound)].foldl Loaded.step
      (Loaded.new exNoVlan exNoVlan .bound)).left.sockAddress = 0xc0000201 ∧
    BoundOnChange (vlanHistory exNoVlan .bound [(.updateAll exVlan, .bound)]) 0xc0000201 := by
  have hh : vlanHistory exNoVlan .bound [(.updateAll exVlan, .bound)] =
      [(none, .bound), (some [some ⟨.v4, 0xc0000201, by decide⟩], .bound)] := rfl
  refine ⟨?_, ⟨_, .head _, by decide +kernel⟩, by decide +kernel, ?_⟩
  · rw [hh]
    intro p hp l hl a ha
    simp only [List.mem_cons, List.not_mem_nil, or_false] at hp
    rcases hp with rfl | rfl
    · cases hl
    · cases hl
      simp only [List.mem_cons, List.not_mem_nil, or_false, Option.some.injEq] at ha
      rw [ha]
  · rw [hh]
    refine ⟨[(none, .bound)], _, [], rfl, by decide +kernel, (fun q hq => by cases hq), ?_⟩
    intro q hq
    cases hq
    decide

-- a bind that failed is not tried again: the second update finds the same address
example : ([(some [some ⟨.v4, 0xc0000201, by decide⟩], BindOutcome.noBind),
      (some [some ⟨.v4, 0xc0000201, by decide⟩], BindOutcome.bound)].foldl
    (fun (s : AutoSock) p => s.update p.1 p.2) (AutoSock.newOn .v4 none .bound)).sock = none := by decide +kernel

end PyLisp.Props
