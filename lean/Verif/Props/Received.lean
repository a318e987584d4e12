import Verif.Received
import Verif.Props.IP
/-
C57: numbering and decapsulation of received messages.
-/
namespace PyLisp.Props
open PyLisp

/-- the numbers given to a sequence of messages that come without a number, and the counter at the
end; some of the messages may be rejected -/
def numbers (maxint counter : Nat) : List Pkt → List Nat × Nat
  | [] => ([], counter)
  | m :: ms =>
    let r := receive maxint counter none m
    (r.1 :: (numbers maxint r.1 ms).1, (numbers maxint r.1 ms).2)

theorem nextNr_mod (maxint counter : Nat) (hm : 0 < maxint) (hc : counter ≤ maxint) :
    nextNr maxint counter = counter % maxint + 1 := by
  unfold nextNr
  split
  · rename_i h; subst h; simp
  · rw [Nat.mod_eq_of_lt (by omega)]

theorem numbers_from (maxint : Nat) (hm : 0 < maxint) (ms : List Pkt) :
    ∀ c, c ≤ maxint → (numbers maxint c ms).1 = (List.range ms.length).map fun i => (c + i) % maxint + 1 := by
  induction ms with
  | nil => intro c _; rfl
  | cons m ms ih =>
    intro c hc
    have hn : (receive maxint c none m).1 = c % maxint + 1 := nextNr_mod maxint c hm hc
    simp only [numbers, hn]
    rw [ih (c % maxint + 1) (Nat.mod_lt _ hm)]
    rw [List.length_cons, List.range_succ_eq_map, List.map_cons, List.map_map]
    congr 1
    refine List.map_congr_left fun i _ => ?_
    show (c % maxint + 1 + i) % maxint + 1 = (c + (i + 1)) % maxint + 1
    congr 1
    rw [Nat.add_assoc, Nat.add_comm 1 i, Nat.add_mod, Nat.mod_mod, ← Nat.add_mod]

/-- C57: the k-th received message (from 0) gets the number `k mod maxint + 1`: 1, 2, 3, … up to the
maximum, then 1 again; rejected messages use up their number too. -/
theorem message_numbers (maxint : Nat) (hm : 0 < maxint) (ms : List Pkt) (k : Nat) (hk : k < ms.length) :
    (numbers maxint 0 ms).1[k]? = some (k % maxint + 1) := by
  rw [numbers_from maxint hm ms 0 (Nat.zero_le _)]
  simp [hk]

/-- C57: so two messages have the same number only if a multiple of the maximum lies between them. -/
theorem numbers_distinct (maxint : Nat) (hm : 0 < maxint) (ms : List Pkt) (i j : Nat)
    (hj : j < ms.length) (hij : i < j) (hd : j - i < maxint) :
    (numbers maxint 0 ms).1[i]? ≠ (numbers maxint 0 ms).1[j]? := by
  rw [message_numbers maxint hm ms i (by omega), message_numbers maxint hm ms j hj]
  intro h
  have h : i % maxint = j % maxint := by simpa using h
  have : (j - i) % maxint = 0 := Nat.sub_mod_eq_zero_of_mod_eq h.symm
  rw [Nat.mod_eq_of_lt hd] at this
  omega

/-- C57: a message made with a number of its own (not 0) has it and leaves the counter alone. -/
theorem explicit_number (maxint counter n : Nat) (hn : n ≠ 0) (m : Pkt) :
    (receive maxint counter (some n) m).1 = counter ∧
    ∀ r, (receive maxint counter (some n) m).2 = .ok r → r.nr = n := by
  cases n with
  | zero => exact absurd rfl hn
  | succ n =>
    refine ⟨rfl, ?_⟩
    intro r h
    simp only [receive, takeNr, examine] at h
    split at h
    · split at h
      · split at h
        · cases h
        · split at h
          · cases h
          · cases h; rfl
      · cases h
    · cases h; rfl
    · cases h

/-- `p` is an unfragmented IP packet that carries (for IPv6: after any number of extension headers)
the UDP message with header `u` and payload `q` -/
inductive CarriesUdp : Pkt → UdpHdr → Pkt → Prop
  | v4 (h : V4Hdr) (u : UdpHdr) (q : Pkt) (hf : h.mf = false) (ho : h.fragOff = 0)
      (hn : h.nextHeader = 17) : CarriesUdp (.ipv4 h (.udp u q)) u q
  | v6 (h : V6Hdr) (es : List (Ext × Int)) (u : UdpHdr) (q : Pkt)
      (hf : ∀ e ∈ es, e.1.isFragment = false)
      (hn : (es.getLast?.map Prod.snd).getD h.nextHeader = 17) :
      CarriesUdp (.ipv6 h (stack es (.udp u q))) u q

theorem getUdp_iff (p x : Pkt) :
    getUdp p = .ok x ↔ ∃ u q, x = .udp u q ∧ CarriesUdp p u q := by
  cases p with
  | ipv4 h p =>
    unfold getUdp
    simp only [Pkt.isFragmented, Pkt.getFinalPayload]
    constructor
    · intro hx
      split at hx
      · cases hx
      · rename_i hf
        split at hx
        · cases hx
        · rename_i hn
          split at hx
          · cases hx
            simp only [Bool.or_eq_true, decide_eq_true_eq, not_or, Bool.not_eq_true] at hf
            exact ⟨_, _, rfl, .v4 h _ _ hf.1 (by simpa using hf.2) (by simpa using hn)⟩
          · cases hx
    · rintro ⟨u, q, rfl, hc⟩
      cases hc with
      | v4 _ _ _ hf ho hn => simp [hf, ho, hn]
  | ipv6 h p =>
    obtain ⟨es, r, hr, rfl⟩ := every_payload_is_a_stack p
    have hfin := final_payload_of_chain h es r hr
    have hfrag := is_fragmented_of_chain h es r hr
    unfold getUdp
    rw [hfin, hfrag]
    simp only []
    constructor
    · intro hx
      split at hx
      · cases hx
      · rename_i hf
        split at hx
        · cases hx
        · rename_i hn
          split at hx
          · cases hx
            refine ⟨_, _, rfl, .v6 h es _ _ ?_ (by simpa using hn)⟩
            intro e he
            cases hb : e.1.isFragment with
            | false => rfl
            | true => exact absurd (List.any_eq_true.mpr ⟨e, he, hb⟩) hf
          · cases hx
    · rintro ⟨u, q, rfl, hc⟩
      generalize hP : stack es r = P at hc
      cases hc with
      | v6 _ es' _ _ hf hn =>
        have h1 := final_payload_of_chain h es' (.udp u q) rfl
        have h2 := is_fragmented_of_chain h es' (.udp u q) rfl
        rw [← hP, hfin] at h1
        rw [← hP, hfrag] at h2
        have hfa : (es'.any fun e => e.1.isFragment) = false := by
          rw [List.any_eq_false]; intro e he; rw [hf e he]; simp
        rw [hfa] at h2
        rw [Option.some.injEq] at h2
        rw [hn, Option.some.injEq, Prod.mk.injEq] at h1
        rw [h2, h1.1, h1.2]
        simp
  | _ =>
    constructor
    · intro h; cases h
    · rintro ⟨u, q, _, hc⟩; cases hc

/-- C57: a message is accepted exactly when it is a control message and, if it is an encapsulated one,
its payload is an unfragmented IP packet that carries UDP to port 4342, not from port 4341, whose
payload is again a control message.  One level of encapsulation is opened: the UDP header and the
control message in it are presented as they are (even if that is an encapsulated message itself). -/
theorem receive_iff (maxint counter : Nat) (nr : Option Nat) (m : Pkt) (r : Received) :
    (receive maxint counter nr m).2 = .ok r ↔
      r.nr = (takeNr maxint counter nr).1 ∧ r.message = m ∧
      ((∃ c, m = .ctrl c ∧ r.udpLayer = none ∧ r.innerMessage = none) ∨
       ∃ h p u q, m = .ecm h p ∧ CarriesUdp p u q ∧ u.dport = 4342 ∧ u.sport ≠ 4341 ∧
         ((∃ c, q = .ctrl c) ∨ ∃ h' p', q = .ecm h' p') ∧
         r.udpLayer = some u ∧ r.innerMessage = some q) := by
  simp only [receive]
  generalize (takeNr maxint counter nr).1 = n
  obtain ⟨rn, rm, ru, ri⟩ := r
  cases m with
  | ecm h p =>
    simp only [examine]
    constructor
    · intro hx
      split at hx
      · rename_i u q hu
        obtain ⟨u', q', he, hc⟩ := (getUdp_iff _ _).mp hu
        cases he
        split at hx
        · cases hx
        · rename_i inner hi
          split at hx
          · cases hx
          · rename_i hd
            simp only [ne_eq, Decidable.not_not] at hd
            cases hx
            refine ⟨rfl, rfl, .inr ⟨h, p, u, q, rfl, hc, hd, ?_⟩⟩
            simp only [getLispControlMessage, getLispMessage] at hi
            have hs : u.sport ≠ 4341 := by
              intro hs; simp [hs, hd] at hi
            simp only [hs, hd] at hi
            refine ⟨hs, ?_⟩
            cases q <;> simp at hi <;> subst hi <;> simp
      · cases hx
    · rintro ⟨h1, h2, h3 | ⟨h', p', u, q, he, hc, hd, hs, hq, h4, h5⟩⟩
      · obtain ⟨c, hc, _⟩ := h3; cases hc
      · cases he
        subst h1 h2 h4 h5
        rw [(getUdp_iff p (.udp u q)).mpr ⟨u, q, rfl, hc⟩]
        have hi : getLispControlMessage u q = .ok q := by
          rcases hq with ⟨c, rfl⟩ | ⟨h', p', rfl⟩ <;> simp [getLispControlMessage, getLispMessage, hs, hd]
        simp only [hi]
        rw [if_neg (by simp [hd])]
  | ctrl c =>
    simp only [examine, Except.ok.injEq, Received.mk.injEq]
    constructor
    · rintro ⟨rfl, rfl, rfl, rfl⟩; exact ⟨rfl, rfl, .inl ⟨c, rfl, rfl, rfl⟩⟩
    · rintro ⟨h1, h2, ⟨c', _, h3, h4⟩ | ⟨_, _, _, _, h, _⟩⟩
      · exact ⟨h1.symm, h2.symm, h3.symm, h4.symm⟩
      · cases h
  | _ =>
    constructor
    · intro h; cases h
    · rintro ⟨_, _, ⟨c, h, _⟩ | ⟨_, _, _, _, h, _⟩⟩ <;> cases h

/-- C57: rejection is a ValueError, nothing else. -/
theorem receive_error (maxint counter : Nat) (nr : Option Nat) (m : Pkt) (e : Err)
    (h : (receive maxint counter nr m).2 = .error e) : e = .value := by
  simp only [receive, examine] at h
  split at h
  · split at h
    · split at h
      · cases h; rfl
      · split at h
        · cases h; rfl
        · cases h
    · cases h; rfl
  · cases h
  · cases h; rfl

/-! ### The hypotheses are met -/

/-- an ECM with a message in UDP in IPv6, after a hop-by-hop and a destination options header -/
def exEcm : Pkt := .ecm { ddtOriginated := true }
  (.ipv6 exHdr6 (stack [(.hbh [], 60), (.dest [], 17)]
    (.udp { sport := 4342, dport := 4342 } (.ctrl (.referral { nonce := [] })))))

example : (receive 9 3 none exEcm).2 = .ok ⟨4, exEcm, some { sport := 4342, dport := 4342 },
    some (.ctrl (.referral { nonce := [] }))⟩ := by decide +kernel
example : (numbers 3 0 [exEcm, .raw [], exEcm, exEcm, exEcm]).1 = [1, 2, 3, 1, 2] := by decide +kernel

end PyLisp.Props
