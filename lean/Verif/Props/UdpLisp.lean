import Verif.Props.IP
import Verif.Props.LispData
import Verif.Received
/-
C80: the LISP content of a UDP message.
-/
namespace PyLisp.Props
open PyLisp

/-- Specification: one of the two ports of the message is `n`. -/
def OnPort (n : Int) (h : UdpHdr) : Prop := h.sport = n ∨ h.dport = n

/-- Specification: a LISP data packet object. -/
def IsLispData (p : Pkt) : Prop := ∃ h q, p = .data h q

/-- Specification: a LISP control message object (encapsulated control messages included). -/
def IsLispControl (p : Pkt) : Prop := (∃ m, p = .ctrl m) ∨ ∃ h q, p = .ecm h q

instance (n : Int) (h : UdpHdr) : Decidable (OnPort n h) := inferInstanceAs (Decidable (_ ∨ _))

theorem getLispMessage_iff (h : UdpHdr) (p q : Pkt) (a b : Bool) :
    getLispMessage h p a b = .ok q ↔ q = p ∧
      ((¬ (OnPort 4341 h ∧ OnPort 4342 h) ∧ (OnPort 4341 h ∨ a = true) ∧ IsLispData p) ∨
       (¬ OnPort 4341 h ∧ a = false ∧ (OnPort 4342 h ∨ b = true) ∧ IsLispControl p)) := by
  unfold getLispMessage
  simp only [decide_eq_true_eq]
  by_cases hD : OnPort 4341 h <;> by_cases hC : OnPort 4342 h <;>
    (unfold OnPort at hD hC; cases a <;> cases b <;> cases p <;>
      simp [OnPort, IsLispData, IsLispControl, hD, hC, eq_comm])

/-- C80: `get_lisp_message()` of a UDP message returns its payload, and does so exactly when the
ports and the class of the payload agree: a LISP data packet while port 4341 is used and 4342 is
not, or a LISP control message while port 4342 is used and 4341 is not. -/
theorem lisp_message_iff (h : UdpHdr) (p q : Pkt) :
    getLispMessage h p false false = .ok q ↔ q = p ∧
      ((OnPort 4341 h ∧ ¬ OnPort 4342 h ∧ IsLispData p) ∨
       (OnPort 4342 h ∧ ¬ OnPort 4341 h ∧ IsLispControl p)) := by
  rw [getLispMessage_iff]
  by_cases hD : OnPort 4341 h <;> by_cases hC : OnPort 4342 h <;> simp [hD, hC]

/-- C80: `get_lisp_data_packet()` returns the payload exactly when it is a LISP data packet — on
any ports, unless both LISP ports are used. -/
theorem lisp_data_packet_iff (h : UdpHdr) (p q : Pkt) :
    getLispDataPacket h p = .ok q ↔
      q = p ∧ IsLispData p ∧ ¬ (OnPort 4341 h ∧ OnPort 4342 h) := by
  rw [getLispDataPacket, getLispMessage_iff]
  by_cases hD : OnPort 4341 h <;> by_cases hC : OnPort 4342 h <;> simp [hD, hC]

/-- C80: `get_lisp_control_message()` returns the payload exactly when it is a LISP control message
and port 4341 is not used — or (what its name does not say) when it is a LISP data packet and port
4341 is used and 4342 is not. -/
theorem lisp_control_message_iff (h : UdpHdr) (p q : Pkt) :
    getLispControlMessage h p = .ok q ↔ q = p ∧
      ((¬ OnPort 4341 h ∧ IsLispControl p) ∨
       (OnPort 4341 h ∧ ¬ OnPort 4342 h ∧ IsLispData p)) := by
  rw [getLispControlMessage, getLispMessage_iff]
  by_cases hD : OnPort 4341 h <;> by_cases hC : OnPort 4342 h <;> simp [hD, hC]

/-- C80: whenever any of the three returns nothing, it raises ValueError. -/
theorem lisp_message_raises (h : UdpHdr) (p : Pkt) (a b : Bool) (e : Err)
    (hr : getLispMessage h p a b = .error e) : e = .value := by
  unfold getLispMessage at hr
  simp only [decide_eq_true_eq] at hr
  repeat' split at hr
  all_goals simp_all

/-- C80: so neither does any other exception escape from `get_lisp_data_packet()` or
`get_lisp_control_message()`. -/
theorem lisp_content_raises (h : UdpHdr) (p : Pkt) (e : Err)
    (hr : getLispDataPacket h p = .error e ∨ getLispControlMessage h p = .error e) : e = .value := by
  rcases hr with hr | hr
  · exact lisp_message_raises h p _ _ e hr
  · exact lisp_message_raises h p _ _ e hr

/-- the payload that the parser makes on LISP data ports is a data packet -/
theorem data_class {b : Bytes} {q : Pkt} (h : Pkt.fromBytes (.data true) b = .ok q) : IsLispData q := by
  obtain ⟨_, _, _, _, _, _, _, _, _, _, -, -, rfl⟩ := (data_accepted_iff true b q).1 h
  exact ⟨_, _, rfl⟩

/-- the payload that the parser makes on LISP control ports is a control message -/
theorem control_class {b : Bytes} {q : Pkt} (h : Pkt.fromBytes .control b = .ok q) : IsLispControl q := by
  rcases control_result h with h | ⟨h, -⟩
  · exact .inl h
  · exact .inr h

/-- C80: of a UDP message that was accepted from the network, `get_lisp_message()` returns the
payload exactly when one of the LISP ports is used and the other is not; nothing else about the
message matters. -/
theorem accepted_lisp_message_iff (d : Bytes) (h : UdpHdr) (p q : Pkt)
    (hd : Pkt.fromBytes .udp d = .ok (.udp h p)) :
    getLispMessage h p false false = .ok q ↔
      q = p ∧ ¬ (OnPort 4341 h ↔ OnPort 4342 h) := by
  obtain ⟨h', pl, q', -, hp, he⟩ := (udp_accepted_iff d _).1 hd
  cases he
  rw [lisp_message_iff]
  unfold udpPayloadParsed at hp
  by_cases hD : OnPort 4341 h
  · rw [if_pos (show h.sport = 4341 ∨ h.dport = 4341 from hD)] at hp
    have := data_class hp
    by_cases hC : OnPort 4342 h <;> simp [hD, hC, this]
  · rw [if_neg (show ¬ (h.sport = 4341 ∨ h.dport = 4341) from hD)] at hp
    by_cases hC : OnPort 4342 h
    · rw [if_pos (show h.sport = 4342 ∨ h.dport = 4342 from hC)] at hp
      have : IsLispControl p := by
        exact control_class hp
      simp [hD, hC, this]
    · simp [hD, hC]

/-- a LISP data packet with the nonce bit, with an empty payload -/
def exLispData : Bytes := [0x80#8, 1#8, 2#8, 3#8, 0#8, 0#8, 0#8, 0#8]

/-- the UDP message carrying it: ports 4341 and `d1 d2`, no checksum -/
def exDataUdp (d1 d2 : Byte) : Bytes := [0x10#8, 0xf5#8, d1, d2, 0#8, 16#8, 0#8, 0#8] ++ exLispData

/-- is the message accepted as a UDP message around a LISP data packet, and which of the three
functions return something? -/
def exContent (d : Bytes) : Option (Bool × Bool × Bool) :=
  match Pkt.fromBytes .udp d with
  | .ok (.udp h (.data h' q)) => some (isOk (getLispMessage h (.data h' q) false false),
      isOk (getLispDataPacket h (.data h' q)), isOk (getLispControlMessage h (.data h' q)))
  | _ => none

/-- an accepted message that meets the hypothesis of `accepted_lisp_message_iff`; note the data
packet returned by `get_lisp_control_message()` -/
example : exContent (exDataUdp 0x30 0x39) = some (true, true, true) := by decide +kernel

/-- both LISP ports: accepted from the network as data, but without any LISP content -/
example : exContent (exDataUdp 0x10 0xf6) = some (false, false, false) := by decide +kernel

/-- no LISP port: the two specific functions look at the payload only -/
example (m : Ctrl) (hd : DataHdr) (q : Pkt) :
    getLispControlMessage { sport := 1, dport := 2, cksum := 0 } (.ctrl m) = .ok (.ctrl m) ∧
    getLispDataPacket { sport := 1, dport := 2, cksum := 0 } (.data hd q) = .ok (.data hd q) ∧
    getLispMessage { sport := 1, dport := 2, cksum := 0 } (.ctrl m) false false = .error .value ∧
    getLispControlMessage { sport := 1, dport := 2, cksum := 0 } (.data hd q) = .error .value :=
  ⟨rfl, rfl, rfl, rfl⟩

end PyLisp.Props
