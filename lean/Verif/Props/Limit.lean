import Verif.Props.IP
import Verif.Props.Reserialise
/-
Property C84: nesting, and the recursion limit of the interpreter.

Python stops calls that are nested too deeply (and calls it has no memory for) with an exception.  Where exactly that
happens depends on the interpreter, on who calls and on the libraries; here it may happen in any call.
-/
namespace PyLisp.Props
open PyLisp

/-- Specification: what `from_bytes` may give when the interpreter can stop any call: `Err.fuel` stands for its
exception (RuntimeError, MemoryError), every nested call may or may not be stopped. -/
inductive Interrupted : Kind → Bits → Except Err Pkt → Prop
  | stopped (k : Kind) (s : Bits) : Interrupted k s (.error .fuel)
  | call (k : Kind) (s : Bits) (nested : Kind → Bits → Except Err Pkt)
      (h : ∀ k' s', Interrupted k' s' (nested k' s')) : Interrupted k s (decStep nested k s)

/-- the same result, or stopped -/
def OrStopped {α : Type} (x y : Except Err α) : Prop := x = .error .fuel ∨ x = y

theorem OrStopped.refl {α : Type} (x : Except Err α) : OrStopped x x := .inr rfl

theorem OrStopped.left {α β : Type} {x y : Except Err α} (h : OrStopped x y) (f : α → Except Err β) :
    OrStopped (x >>= f) (y >>= f) := by
  rcases h with rfl | rfl
  · exact .inl rfl
  · exact .inr rfl

theorem OrStopped.right {α β : Type} (x : Except Err α) {f g : α → Except Err β} (h : ∀ a, OrStopped (f a) (g a)) :
    OrStopped (x >>= f) (x >>= g) := by
  cases x with
  | error e => exact .inr rfl
  | ok a => exact h a

theorem payload_orStopped {r r' : Kind → Bits → Except Err Pkt} (h : ∀ k s, OrStopped (r k s) (r' k s))
    (decode : Bool) (nh : Nat) (pl : Bytes) : OrStopped (decPayload r decode nh pl) (decPayload r' decode nh pl) := by
  unfold decPayload
  split
  · split
    · exact h _ _
    · exact .refl _
  · exact .refl _

theorem version_orStopped {r r' : Kind → Bits → Except Err Pkt} (h : ∀ k s, OrStopped (r k s) (r' k s))
    (decode : Bool) (s : Bits) : OrStopped (decByVersion r decode s) (decByVersion r' decode s) := by
  unfold decByVersion
  split
  · exact .refl _
  · refine .right _ fun v => ?_
    split
    · exact h _ _
    · split
      · exact h _ _
      · exact .refl _

theorem udp_orStopped {r r' : Kind → Bits → Except Err Pkt} (h : ∀ k s, OrStopped (r k s) (r' k s))
    (u : UdpHdr) (pl : Bytes) : OrStopped (decUdpPayload r u pl) (decUdpPayload r' u pl) := by
  unfold decUdpPayload
  split
  · exact h _ _
  · split
    · exact h _ _
    · exact .refl _

theorem step_orStopped {r r' : Kind → Bits → Except Err Pkt} (h : ∀ k s, OrStopped (r k s) (r' k s)) (k : Kind)
    (s : Bits) : OrStopped (decStep r k s) (decStep r' k s) := by
  cases k with
  | ipv4 d => exact .right _ fun _ => (payload_orStopped h ..).left _
  | ipv6 d => exact .right _ fun _ => (payload_orStopped h ..).left _
  | hbh => exact .right _ fun _ => (payload_orStopped h ..).left _
  | dest => exact .right _ fun _ => (payload_orStopped h ..).left _
  | routing => exact .right _ fun _ => (payload_orStopped h ..).left _
  | fragment => exact .refl _
  | nonext => exact .refl _
  | udp => exact .right _ fun _ => (udp_orStopped h ..).left _
  | data d => exact .right _ fun _ => (version_orStopped h ..).left _
  | control =>
    refine .right _ fun t => ?_
    repeat' split
    all_goals first
      | exact .refl _
      | exact .right _ fun _ => (version_orStopped h ..).left _

/-- C84: wherever the interpreter stops nested calls, `from_bytes` gives what it gives without any limit, or raises
the interpreter's exception: never another packet, and never another exception. -/
theorem interrupted_parsing (k : Kind) (d : Bytes) (x : Except Err Pkt) (h : Interrupted k (bytesToBits d) x) :
    x = .error .fuel ∨ x = Pkt.fromBytes k d := by
  suffices ∀ s, Interrupted k s x → OrStopped x (dec k s) from this _ h
  clear h
  intro s h
  induction h with
  | stopped => exact .inl rfl
  | call k s nested _ ih =>
    rw [dec_eq]
    exact step_orStopped ih k s

/-- Specification: how many `from_bytes` calls are nested when the packet is parsed -/
def nesting : Pkt → Nat
  | .raw _ => 0
  | .ctrl _ => 1
  | .ipv4 _ p | .ipv6 _ p | .udp _ p | .hbh _ _ p | .dest _ _ p | .routing _ _ _ _ p | .fragment _ _ _ _ p
  | .nonext p | .data _ p | .ecm _ p => nesting p + 1

abbrev Nested := Kind → Bits → Except Err Pkt

/-- a part of the parser that makes one nested call, or none -/
def Shape (F : Nested → Except Err Pkt) (r : Nested) (q : Pkt) : Prop :=
  (nesting q = 0 ∧ ∀ r', F r' = .ok q) ∨ ∃ k s, r k s = .ok q ∧ ∀ r', F r' = r' k s

theorem payload_shape {r : Nested} {decode : Bool} {nh : Nat} {pl : Bytes} {q : Pkt}
    (h : decPayload r decode nh pl = .ok q) : Shape (fun r => decPayload r decode nh pl) r q := by
  unfold decPayload at h
  unfold Shape decPayload
  cases decode with
  | false =>
    simp only [Bool.false_eq_true, if_false] at h ⊢
    cases h
    exact .inl ⟨rfl, fun _ => rfl⟩
  | true =>
    simp only [if_true] at h ⊢
    cases hk : protoKind nh with
    | none =>
      rw [hk] at h
      cases h
      exact .inl ⟨rfl, fun _ => rfl⟩
    | some k =>
      rw [hk] at h
      exact .inr ⟨k, _, h, fun _ => rfl⟩

theorem version_shape {r : Nested} {decode : Bool} {s : Bits} {q : Pkt} (h : decByVersion r decode s = .ok q) :
    Shape (fun r => decByVersion r decode s) r q := by
  unfold decByVersion at h
  unfold Shape decByVersion
  by_cases hs : s = []
  · simp only [hs, if_true] at h ⊢
    cases h
    exact .inl ⟨rfl, fun _ => rfl⟩
  · simp only [hs, if_false] at h ⊢
    obtain ⟨v, hv, h⟩ := exBind_ok.mp h
    simp only [hv, exBind_okl]
    by_cases h4 : v = 4
    · simp only [h4, if_true] at h ⊢
      exact .inr ⟨_, _, h, fun _ => rfl⟩
    · by_cases h6 : v = 6
      · subst h6
        simp only [h4, if_false, if_true] at h ⊢
        exact .inr ⟨_, _, h, fun _ => rfl⟩
      · simp only [h4, h6, if_false] at h ⊢
        obtain ⟨b, _, hb⟩ := exBind_ok.mp h
        cases hb
        exact .inl ⟨rfl, fun _ => h⟩

theorem udp_shape {r : Nested} {u : UdpHdr} {pl : Bytes} {q : Pkt} (h : decUdpPayload r u pl = .ok q) :
    Shape (fun r => decUdpPayload r u pl) r q := by
  unfold decUdpPayload at h
  unfold Shape decUdpPayload
  by_cases h1 : u.sport = 4341 ∨ u.dport = 4341
  · simp only [h1, if_true] at h ⊢
    exact .inr ⟨_, _, h, fun _ => rfl⟩
  · by_cases h2 : u.sport = 4342 ∨ u.dport = 4342
    · simp only [h1, h2, if_false, if_true] at h ⊢
      exact .inr ⟨_, _, h, fun _ => rfl⟩
    · simp only [h1, h2, if_false] at h ⊢
      cases h
      exact .inl ⟨rfl, fun _ => rfl⟩

/-- one call: how it depends on the nested calls -/
def StepShape (k : Kind) (s : Bits) (r : Nested) (p : Pkt) : Prop :=
  (nesting p = 1 ∧ ∀ r', decStep r' k s = .ok p) ∨
  ∃ k' s' q, r k' s' = .ok q ∧ nesting p = nesting q + 1 ∧
    ∀ r', (r' k' s' = .ok q → decStep r' k s = .ok p) ∧ ∀ e, r' k' s' = .error e → decStep r' k s = .error e

theorem step_of_shape {k : Kind} {s : Bits} {r : Nested} {q p : Pkt} {F : Nested → Except Err Pkt}
    {G : Pkt → Except Err Pkt} (hF : Shape F r q) (hk : ∀ r', decStep r' k s = F r' >>= G) (hG : G q = .ok p)
    (hn : nesting p = nesting q + 1) : StepShape k s r p := by
  rcases hF with ⟨h0, h1⟩ | ⟨k', s', h1, h2⟩
  · exact .inl ⟨by omega, fun r' => by rw [hk, h1, exBind_okl, hG]⟩
  · exact .inr ⟨k', s', q, h1, hn, fun r' => ⟨fun h => by rw [hk, h2, h, exBind_okl, hG],
      fun e h => by rw [hk, h2, h]; rfl⟩⟩

theorem step_shape {k : Kind} {s : Bits} {r : Nested} {p : Pkt} (h : decStep r k s = .ok p) : StepShape k s r p := by
  cases k with
  | ipv4 d =>
    obtain ⟨hd, h1, h⟩ := exBind_ok.mp h
    obtain ⟨q, h2, h⟩ := exBind_ok.mp h
    refine step_of_shape (payload_shape h2) (fun r' => by simp only [decStep, decV4, h1, exBind_okl]; rfl) h ?_
    obtain ⟨_, _, h⟩ := exBind_ok.mp h
    obtain ⟨_, _, h⟩ := exBind_ok.mp h
    cases h; rfl
  | ipv6 d =>
    obtain ⟨hd, h1, h⟩ := exBind_ok.mp h
    obtain ⟨q, h2, h⟩ := exBind_ok.mp h
    refine step_of_shape (payload_shape h2) (fun r' => by simp only [decStep, decV6, h1, exBind_okl]; rfl) h ?_
    obtain ⟨_, _, h⟩ := exBind_ok.mp h
    obtain ⟨_, _, h⟩ := exBind_ok.mp h
    cases h; rfl
  | hbh =>
    obtain ⟨hd, h1, h⟩ := exBind_ok.mp h
    obtain ⟨q, h2, h⟩ := exBind_ok.mp h
    refine step_of_shape (payload_shape h2) (fun r' => by simp only [decStep, decOpts, h1, exBind_okl]; rfl) h ?_
    cases h; rfl
  | dest =>
    obtain ⟨hd, h1, h⟩ := exBind_ok.mp h
    obtain ⟨q, h2, h⟩ := exBind_ok.mp h
    refine step_of_shape (payload_shape h2) (fun r' => by simp only [decStep, decOpts, h1, exBind_okl]; rfl) h ?_
    cases h; rfl
  | routing =>
    obtain ⟨hd, h1, h⟩ := exBind_ok.mp h
    obtain ⟨q, h2, h⟩ := exBind_ok.mp h
    refine step_of_shape (payload_shape h2) (fun r' => by simp only [decStep, decRouting, h1, exBind_okl]; rfl) h ?_
    cases h; rfl
  | fragment =>
    refine .inl ⟨?_, fun _ => h⟩
    simp only [decStep, runOn_iff, readFragment, Rd.bind_ok, Rd.pure_ok_iff] at h
    obtain ⟨_, _, _, _, _, _, _, _, _, _, _, _, _, _, _, _, _, _, _, _, _, _, rfl, _⟩ := h
    rfl
  | nonext =>
    refine .inl ⟨?_, fun _ => h⟩
    obtain ⟨b, _, h⟩ := exBind_ok.mp h
    cases h; rfl
  | udp =>
    obtain ⟨hd, h1, h⟩ := exBind_ok.mp h
    obtain ⟨q, h2, h⟩ := exBind_ok.mp h
    refine step_of_shape (udp_shape h2) (fun r' => by simp only [decStep, decUdp, h1, exBind_okl]; rfl) h ?_
    obtain ⟨_, _, h⟩ := exBind_ok.mp h
    obtain ⟨_, _, h⟩ := exBind_ok.mp h
    cases h; rfl
  | data d =>
    obtain ⟨hd, h1, h⟩ := exBind_ok.mp h
    obtain ⟨q, h2, h⟩ := exBind_ok.mp h
    refine step_of_shape (version_shape h2) (fun r' => by simp only [decStep, decData, h1, exBind_okl]; rfl) h ?_
    obtain ⟨_, _, h⟩ := exBind_ok.mp h
    cases h; rfl
  | control =>
    simp only [decStep, decControl] at h
    obtain ⟨t, ht, h⟩ := exBind_ok.mp h
    by_cases h8 : t = 8
    · subst h8
      simp only [decEcm] at h
      obtain ⟨hd, h1, h⟩ := exBind_ok.mp h
      obtain ⟨q, h2, h⟩ := exBind_ok.mp h
      refine step_of_shape (version_shape h2)
        (fun r' => by simp only [decStep, decControl, decEcm, ht, h1, exBind_okl]; rfl) h ?_
      obtain ⟨_, _, h⟩ := exBind_ok.mp h
      cases h; rfl
    · refine .inl ?_
      simp only [decStep, decControl, ht, exBind_okl]
      simp only [h8, if_false] at h ⊢
      refine ⟨?_, fun _ => h⟩
      repeat' split at h
      all_goals first
        | (obtain ⟨_, _, h⟩ := exBind_ok.mp h; cases h; rfl)
        | cases h

/-- what is parsed has a header -/
theorem nesting_pos {k : Kind} {s : Bits} {p : Pkt} (h : dec k s = .ok p) : 0 < nesting p := by
  rw [dec_eq] at h
  rcases step_shape h with ⟨h, _⟩ | ⟨_, _, _, _, h, _⟩ <;> omega

/-- C84: with a limit of `n` nested calls exactly the packets with at most `n` nested headers are accepted, with the
same result; all others raise the interpreter's exception. -/
theorem nesting_limit (k : Kind) (d : Bytes) (p : Pkt) (h : Pkt.fromBytes k d = .ok p) (n : Nat) :
    decFuel n k (bytesToBits d) = if nesting p ≤ n then .ok p else .error .fuel := by
  suffices ∀ n k s p, dec k s = .ok p → decFuel n k s = if nesting p ≤ n then .ok p else .error .fuel from
    this n k _ p h
  clear h
  intro n
  induction n with
  | zero =>
    intro k s p h
    have := nesting_pos h
    rw [if_neg (by omega)]
    rfl
  | succ n ih =>
    intro k s p h
    rw [dec_eq] at h
    show decStep (decFuel n) k s = _
    rcases step_shape h with ⟨h1, h2⟩ | ⟨k', s', q, h1, h2, h3⟩
    · rw [if_pos (by omega), h2]
    · have := ih k' s' q h1
      by_cases hn : nesting q ≤ n
      · rw [if_pos hn] at this
        rw [if_pos (by omega), (h3 _).1 this]
      · rw [if_neg hn] at this
        rw [if_neg (by omega), (h3 _).2 _ this]

/-- C84: and what is not accepted without a limit is not accepted with one. -/
theorem nesting_limit_rejects (k : Kind) (d : Bytes) (e : Err) (h : Pkt.fromBytes k d = .error e) (n : Nat) :
    decFuel n k (bytesToBits d) = .error .fuel ∨ decFuel n k (bytesToBits d) = .error e := by
  have : ∀ n k s, Interrupted k s (decFuel n k s) := by
    intro n
    induction n with
    | zero => exact fun k s => .stopped k s
    | succ n ih => exact fun k s => .call k s _ fun k' s' => ih k' s'
  rcases interrupted_parsing k d _ (this n k _) with h1 | h1
  · exact .inl h1
  · exact .inr (h1.trans h)

/-! ### How deeply packets can be nested -/

theorem nested_payload {dd : Bool} {nh : Int} {pl : Bytes} {q : Pkt}
    (ih : ∀ k d, Pkt.fromBytes k d = .ok q → 8 * nesting q ≤ d.length + 8) (h : payloadParsed dd nh pl q) :
    8 * nesting q ≤ pl.length + 8 := by
  unfold payloadParsed at h
  split at h
  · split at h
    · exact ih _ _ h
    · subst h; simp only [nesting]; omega
  · subst h; simp only [nesting]; omega

theorem nested_version {dd : Bool} {pl : Bytes} {q : Pkt}
    (ih : ∀ k d, Pkt.fromBytes k d = .ok q → 8 * nesting q ≤ d.length + 8 ∧
      ((∃ b, k = .ipv4 b ∨ k = .ipv6 b) → 8 * nesting q + 4 ≤ d.length)) (h : versionPayloadParsed dd pl q) :
    8 * nesting q ≤ pl.length := by
  unfold versionPayloadParsed at h
  split at h
  · have := (ih _ _ h).2 ⟨_, .inl rfl⟩; omega
  · have := (ih _ _ h).2 ⟨_, .inr rfl⟩; omega
  · subst h; simp only [nesting]; omega

/-- an IPv6 packet's worth of hop-by-hop headers: the protocol number and the packet -/
def hops : Nat → Nat × Pkt
  | 0 => (59, .nonext (.raw []))
  | n + 1 => (0, .hbh (hops n).1 [1, 4, 0, 0, 0, 0] (hops n).2)

theorem hops_nesting (n : Nat) : nesting (hops n).2 = n + 1 := by
  induction n with
  | zero => rfl
  | succ n ih => simp only [hops, nesting, ih]

theorem hops_number (n : Nat) : (hops n).1 < 2 ^ 8 := by
  cases n with
  | zero => decide
  | succ n => exact (by decide : 0 < 2 ^ 8)

theorem hops_written (n : Nat) : ∃ b, (hops n).2.toBytes = .ok b ∧ b.length = 8 * n := by
  induction n with
  | zero => exact ⟨[], rfl, rfl⟩
  | succ n ih =>
    obtain ⟨b, h1, h2⟩ := ih
    obtain ⟨d, h3, h4⟩ := opts_toBytes (len := 0) (o := [1, 4, 0, 0, 0, 0]) (pl' := b) (hops_number n) (by decide) rfl
    refine ⟨d, ?_, ?_⟩
    · simp only [hops]
      unfold Pkt.toBytes
      rw [h1]
      exact h3
    · have := congrArg List.length h4
      simp only [List.length_append, bytesToBits_length, natToBits_length, List.length_cons, List.length_nil] at this
      omega

theorem hops_arrive (n : Nat) : Arrives (.proto (hops n).1) (hops n).2 (hops n).2 := by
  induction n with
  | zero => exact .nonext rfl
  | succ n ih => exact Arrives.hbh (o := [1, 4, 0, 0, 0, 0]) ih

theorem hops_type (n : Nat) : (hops n).2.headerType = some (hops n).1 := by
  cases n <;> rfl

/-- C84: packets can be nested as deeply as their length allows: for every `n` below 8192 there is an IPv6 packet of
40 + 8 `n` bytes, accepted without a limit, with `n` + 2 nested headers.  So with any limit of fewer nested calls a
single datagram runs into it. -/
theorem deeply_nested (n : Nat) (hn : n < 8192) :
    ∃ d p, d.length = 40 + 8 * n ∧ Pkt.fromBytes (.ipv6 true) d = .ok p ∧ nesting p = n + 2 ∧
      ∀ m, m < n + 2 → decFuel m (.ipv6 true) (bytesToBits d) = .error .fuel := by
  obtain ⟨b, h1, h2⟩ := hops_written n
  have hfix : fixNextHeader (hops n).2 exHdr6.nextHeader = (hops n).1 := by
    unfold fixNextHeader
    rw [hops_type]
  have hw : IsIPv6 (rfc8200 { exHdr6 with nextHeader := (hops n).1 } b) { exHdr6 with nextHeader := (hops n).1 } b := by
    have := hops_number n
    refine ⟨rfl, by omega, (by decide : 0 ≤ exHdr6.trafficClass ∧ exHdr6.trafficClass < 256),
      (by decide : 0 ≤ exHdr6.flowLabel ∧ exHdr6.flowLabel < 2 ^ 20), ⟨by simp only; omega, by simp only; omega⟩,
      (by decide : 0 ≤ exHdr6.hopLimit ∧ exHdr6.hopLimit < 256), ⟨_, rfl, rfl⟩, ⟨_, rfl, rfl⟩⟩
  obtain ⟨d, hd⟩ := (ipv6_writable_iff (h := exHdr6) (p := (hops n).2)).mpr ⟨b, _, h1, by rw [hfix]; exact hw⟩
  obtain ⟨b', h3, h4⟩ := ipv6_written hd
  rw [h1] at h3
  cases h3
  have hp := ipv6_round_trip (h := exHdr6) (nh := (hops n).1) (fun t ht => by rw [hops_type] at ht; cases ht; rfl)
    (fun h => by rw [hops_type] at h; cases h) (hops_arrive n) hd
  have hnest : nesting (.ipv6 { exHdr6 with nextHeader := (hops n).1 } (hops n).2) = n + 2 := by
    simp only [nesting, hops_nesting]
  refine ⟨d, _, ?_, hp, hnest, fun m hm => ?_⟩
  · have := (isIPv6_iff.mp h4).2.2
    have := congrArg List.length this
    simp only [List.length_append, bytesToBits_length, v6Bits_length] at this
    omega
  · rw [nesting_limit _ _ _ hp, hnest, if_neg (by omega)]

/-- C84: no deeper: an accepted packet has at most one nested header for every 8 bytes, and one more. -/
theorem nesting_bounded (p : Pkt) : ∀ (k : Kind) (d : Bytes), Pkt.fromBytes k d = .ok p →
    8 * nesting p ≤ d.length + 8 := by
  suffices ∀ (k : Kind) (d : Bytes), Pkt.fromBytes k d = .ok p → 8 * nesting p ≤ d.length + 8 ∧
      ((∃ b, k = .ipv4 b ∨ k = .ipv6 b) → 8 * nesting p + 4 ≤ d.length) from fun k d h => (this k d h).1
  induction p with
  | raw b =>
    intro k d hd
    have hc := parsed_class hd
    cases k <;> (cases hc; done)
  | ctrl m =>
    intro k d hd
    have hc := parsed_class hd
    cases k <;> first | (cases hc; done) | skip
    exact ⟨by simp only [nesting]; omega, by rintro ⟨_, h | h⟩ <;> cases h⟩
  | ipv4 h q ih =>
    intro k d hd
    have hc := parsed_class hd
    cases k <;> first | (cases hc; done) | skip
    rename_i dd
    obtain ⟨h0, pl, q0, hw, hq, he⟩ := (ipv4_accepted_iff dd d _).mp hd
    cases he
    have hl := congrArg List.length hw.layout
    simp only [List.length_append, rfc791_length] at hl
    have : 8 * nesting q ≤ pl.length + 8 := nested_payload (fun k d h => (ih k d h).1) hq
    exact ⟨by simp only [nesting]; omega, fun _ => by simp only [nesting]; omega⟩
  | ipv6 h q ih =>
    intro k d hd
    have hc := parsed_class hd
    cases k <;> first | (cases hc; done) | skip
    rename_i dd
    obtain ⟨h0, pl, q0, hw, hq, he⟩ := (ipv6_accepted_iff dd d _).mp hd
    cases he
    have hl := congrArg List.length (isIPv6_iff.mp hw).2.2
    simp only [List.length_append, bytesToBits_length, v6Bits_length] at hl
    have : 8 * nesting q ≤ pl.length + 8 := nested_payload (fun k d h => (ih k d h).1) hq
    exact ⟨by simp only [nesting]; omega, fun _ => by simp only [nesting]; omega⟩
  | udp h q ih =>
    intro k d hd
    have hc := parsed_class hd
    cases k <;> first | (cases hc; done) | skip
    obtain ⟨h0, pl, q0, hw, hq, he⟩ := (udp_accepted_iff d _).mp hd
    cases he
    have hl := congrArg (List.length ∘ bytesToBits) hw.layout
    simp only [Function.comp, rfc768_bits, List.length_append, bytesToBits_length, natToBits_length] at hl
    have : 8 * nesting q ≤ pl.length + 8 := by
      unfold udpPayloadParsed at hq
      split at hq
      · exact (ih _ _ hq).1
      · split at hq
        · exact (ih _ _ hq).1
        · subst hq; simp only [nesting]; omega
    exact ⟨by simp only [nesting]; omega, by rintro ⟨_, h | h⟩ <;> cases h⟩
  | data h q ih =>
    intro k d hd
    have hc := parsed_class hd
    cases k <;> first | (cases hc; done) | skip
    rename_i dd
    obtain ⟨f, n1, n2, n3, w4, w5, w6, w7, pl, q0, rfl, hq, he⟩ := (data_accepted_iff dd d _).mp hd
    cases he
    have := nested_version (fun k d h => ih k d h) hq
    simp only [List.length_append, List.length_cons, List.length_nil]
    exact ⟨by simp only [nesting]; omega, by rintro ⟨_, h | h⟩ <;> cases h⟩
  | ecm h q ih =>
    intro k d hd
    have hc := parsed_class hd
    cases k <;> first | (cases hc; done) | skip
    obtain ⟨_, _, _, pl, hq, hb⟩ := ecm_accepted_iff.mp hd
    have := nested_version (fun k d h => ih k d h) hq
    have hl := congrArg List.length hb
    simp only [List.length_append, bytesToBits_length, natToBits_length, List.length_cons, List.length_nil] at hl
    exact ⟨by simp only [nesting]; omega, by rintro ⟨_, h | h⟩ <;> cases h⟩
  | hbh nh o q ih =>
    intro k d hd
    have hc := parsed_class hd
    cases k <;> first | (cases hc; done) | skip
    rw [Pkt.fromBytes, dec_eq] at hd
    obtain ⟨⟨⟨nh, o, pl⟩, rest⟩, hr, hd⟩ := exBind_ok.mp hd
    obtain ⟨q, hq, hd⟩ := exBind_ok.mp hd
    cases hd
    obtain ⟨_, _, len, _, hol, hs⟩ := readOpts_inv hr
    have hq : payloadParsed true (nh : Int) pl q := payloadParsed_iff.mpr (by simpa using hq)
    have := nested_payload (fun k d h => (ih k d h).1) hq
    have hl := congrArg List.length hs
    simp only [List.length_append, bytesToBits_length, natToBits_length] at hl
    exact ⟨by simp only [nesting]; omega, by rintro ⟨_, h | h⟩ <;> cases h⟩
  | dest nh o q ih =>
    intro k d hd
    have hc := parsed_class hd
    cases k <;> first | (cases hc; done) | skip
    rw [Pkt.fromBytes, dec_eq] at hd
    obtain ⟨⟨⟨nh, o, pl⟩, rest⟩, hr, hd⟩ := exBind_ok.mp hd
    obtain ⟨q, hq, hd⟩ := exBind_ok.mp hd
    cases hd
    obtain ⟨_, _, len, _, hol, hs⟩ := readOpts_inv hr
    have hq : payloadParsed true (nh : Int) pl q := payloadParsed_iff.mpr (by simpa using hq)
    have := nested_payload (fun k d h => (ih k d h).1) hq
    have hl := congrArg List.length hs
    simp only [List.length_append, bytesToBits_length, natToBits_length] at hl
    exact ⟨by simp only [nesting]; omega, by rintro ⟨_, h | h⟩ <;> cases h⟩
  | routing nh rt sl o q ih =>
    intro k d hd
    have hc := parsed_class hd
    cases k <;> first | (cases hc; done) | skip
    rw [Pkt.fromBytes, dec_eq] at hd
    obtain ⟨⟨⟨nh, rt, sl, o, pl⟩, rest⟩, hr, hd⟩ := exBind_ok.mp hd
    obtain ⟨q, hq, hd⟩ := exBind_ok.mp hd
    cases hd
    obtain ⟨_, _, _, _, len, _, hol, hs⟩ := readRouting_inv hr
    have hq : payloadParsed true (nh : Int) pl q := payloadParsed_iff.mpr (by simpa using hq)
    have := nested_payload (fun k d h => (ih k d h).1) hq
    have hl := congrArg List.length hs
    simp only [List.length_append, bytesToBits_length, natToBits_length] at hl
    exact ⟨by simp only [nesting]; omega, by rintro ⟨_, h | h⟩ <;> cases h⟩
  | fragment nh off mf i q ih =>
    intro k d hd
    have hc := parsed_class hd
    cases k <;> first | (cases hc; done) | skip
    have h1 : nesting (.fragment nh off mf i q) = 1 := by
      rw [Pkt.fromBytes, dec_eq] at hd
      simp only [decStep, runOn_iff, readFragment, Rd.bind_ok, Rd.pure_ok_iff] at hd
      obtain ⟨_, _, _, _, _, _, _, _, _, _, _, _, _, _, _, _, _, _, _, _, _, _, he, _⟩ := hd
      cases he
      rfl
    exact ⟨by omega, by rintro ⟨_, h | h⟩ <;> cases h⟩
  | nonext q ih =>
    intro k d hd
    have hc := parsed_class hd
    have h := fromBytes_kind hd
    cases k <;> first
      | (cases hc; done)
      | (cases h; exact ⟨by simp only [nesting]; omega, by rintro ⟨_, h | h⟩ <;> cases h⟩)

/-! ### The hypotheses are met -/

/-- IPv6, a hop-by-hop header and a no-next-header: three nested calls; stopping the innermost one, or the one around
it, stops all of them -/
def exHops : Bytes :=
  rfc8200 { exHdr6 with nextHeader := 0 } [59, 0, 1, 4, 0, 0, 0, 0]

example : Pkt.fromBytes (.ipv6 true) exHops =
    .ok (.ipv6 { exHdr6 with nextHeader := 0 } (hops 1).2) ∧ nesting (.ipv6 exHdr6 (hops 1).2) = 3 ∧
    decFuel 3 (.ipv6 true) (bytesToBits exHops) = .ok (.ipv6 { exHdr6 with nextHeader := 0 } (hops 1).2) ∧
    decFuel 2 (.ipv6 true) (bytesToBits exHops) = .error .fuel ∧
    decFuel 1 (.ipv6 true) (bytesToBits exHops) = .error .fuel := by
  decide +kernel

end PyLisp.Props
