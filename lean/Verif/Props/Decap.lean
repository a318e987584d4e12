import Verif.Props.Lispd
import Verif.Props.Rewrite

/-! C64/C66: decapsulation of packets that have LISP messages or IPv4 options in them -/

namespace PyLisp.Props

/-- an IP packet of this version, parsed with everything in it -/
def ipKind : Ver → Kind
  | .v4 => .ipv4 true
  | .v6 => .ipv6 true

theorem raw_payload (nh : Int) (pl : Bytes) : payloadParsed false nh pl (.raw pl) := by
  simp only [payloadParsed]
  split <;> simp

/-- C64: which packets are forwarded, whatever they contain: an accepted packet is forwarded exactly when the control
message in it (if there is one) is not a Map-Request with an EID that is no network. There must be room for what is
added to a Map-Register for RTRs and to a Map-Referral. -/
theorem data_forwarded_content_iff (s : Setup) (w : World) (o : Origin) (maxint counter : Nat) (payload : Bytes)
    (sendto : Nat → Except Err Nat) (x n1 n2 n3 w4 w5 w6 w7 : Byte)
    (hi : (lispHeader x n1 n2 n3 w4 w5 w6 w7).iid ≠ some 0xffffff) (v : Ver) (p : Pkt)
    (hp : Pkt.fromBytes (ipKind v) payload = .ok p)
    (hroom : packetGrowth p = 0 ∨ payload.length + packetGrowth p < 65536) :
    (∃ f, (dataDatagram s w o maxint counter ([x, n1, n2, n3, w4, w5, w6, w7] ++ payload) sendto).2.2 = some f) ↔
      ∀ m, core p = some m → Rewritable m := by
  rw [← packet_writable_iff _ payload p hp hroom]
  constructor
  · rintro ⟨f, hf⟩
    obtain ⟨y, m1, m2, m3, v4, v5, v6, v7, pl, he, _, hfw⟩ := (data_forwarded_iff ..).mp hf
    have he : payload = pl := by
      have := congrArg (List.drop 8) he
      simpa using this
    subst he
    cases hfw with
    | v4 h q h1 h2 =>
      cases v with
      | v4 => simp only [ipKind] at hp; rw [h1] at hp; cases hp; exact ⟨_, h2⟩
      | v6 =>
        have a := nibble_of_ipv6 hp
        have b := nibble_of_ipv4 h1
        rw [a] at b
        cases b
    | v6 h q h1 h2 =>
      cases v with
      | v6 => simp only [ipKind] at hp; rw [h1] at hp; cases hp; exact ⟨_, h2⟩
      | v4 =>
        have a := nibble_of_ipv4 hp
        have b := nibble_of_ipv6 h1
        rw [a] at b
        cases b
  · rintro ⟨d', hd'⟩
    cases v with
    | v4 =>
      obtain ⟨h, _, q, _, _, rfl⟩ := (ipv4_accepted_iff true payload p).mp hp
      exact ⟨⟨.v4, d', h.dst⟩, (data_forwarded_iff ..).mpr ⟨x, n1, n2, n3, w4, w5, w6, w7, payload, rfl, hi,
        .v4 h q hp hd' rfl rfl⟩⟩
    | v6 =>
      obtain ⟨h, _, q, _, _, rfl⟩ := (ipv6_accepted_iff true payload p).mp hp
      exact ⟨⟨.v6, d', h.dst⟩, (data_forwarded_iff ..).mpr ⟨x, n1, n2, n3, w4, w5, w6, w7, payload, rfl, hi,
        .v6 h q hp hd' rfl rfl⟩⟩

/-- C64: what is forwarded has the IP version that arrived, at most as many bytes (apart from the additions to a
Map-Register for RTRs and to a Map-Referral) and, without IPv4 options, is the same packet, the EIDs of a Map-Request
being networks. -/
theorem data_forwarded_same (payload : Bytes) (f : RawSend) (hf : Forwards payload f) (p : Pkt)
    (hp : Pkt.fromBytes (ipKind f.ver) payload = .ok p)
    (hroom : packetGrowth p = 0 ∨ payload.length + packetGrowth p < 65536) :
    f.data.length ≤ payload.length + packetGrowth p ∧
      (NoOptions p → ∃ p', SamePacket p p' ∧
        Pkt.fromBytes (ipKind f.ver) f.data = .ok p') := by
  cases hf with
  | v4 h q h1 h2 hv hd =>
    rw [hv] at hp ⊢
    simp only [ipKind] at hp ⊢
    rw [h1] at hp
    cases hp
    exact packet_written_again _ payload f.data _ h1 hroom h2
  | v6 h q h1 h2 hv hd =>
    rw [hv] at hp ⊢
    simp only [ipKind] at hp ⊢
    rw [h1] at hp
    cases hp
    exact packet_written_again _ payload f.data _ h1 hroom h2

/-- C64: IPv4 options are not forwarded correctly: when a packet with options is forwarded, no receiver finds a
well-formed IPv4 packet in what is sent. -/
theorem data_options_corrupted (payload : Bytes) (f : RawSend) (hf : Forwards payload f) (h : V4Hdr) (pl : Bytes)
    (hw : IsIPv4 payload h pl) (ho : h.options ≠ []) :
    ∀ h' pl', ¬ IsIPv4 f.data h' pl' := by
  intro h' pl' hw'
  cases hf with
  | v4 h0 q h1 h2 hv hd =>
    obtain ⟨h3, pl3, q3, hw3, _, he⟩ := (ipv4_accepted_iff _ _ _).mp h1
    cases he
    have hh : h0 = h := by
      have a := (ipv4_accepted_iff false payload _).mpr ⟨h0, pl3, .raw pl3, hw3, raw_payload _ _, rfl⟩
      have b := (ipv4_accepted_iff false payload _).mpr ⟨h, pl, .raw pl, hw, raw_payload _ _, rfl⟩
      rw [a] at b
      cases b
      rfl
    subst hh
    exact ipv4_options_never_accepted ho h2 false _ ((ipv4_accepted_iff false f.data _).mpr
      ⟨h', pl', .raw pl', hw', raw_payload _ _, rfl⟩)
  | v6 h0 q h1 h2 hv hd =>
    have a := nibble_of_ipv6 h1
    have b := nibble_of_ipv4 ((ipv4_accepted_iff false payload _).mpr ⟨h, pl, .raw pl, hw, raw_payload _ _, rfl⟩)
    rw [a] at b
    cases b

/-- C66: the tunnel, whatever the packet contains: what a sender encapsulates for an accepted packet arrives at a
receiver running this program, which forwards it exactly when the control message in the packet (if there is one) is
not a Map-Request with an EID that is no network, in at most as many bytes and, without IPv4 options, as the same
packet, the EIDs of a Map-Request being networks, to the packet's destination. -/
theorem tunnel_content (a : IP) (d : Bytes) (v : Ver) (p : Pkt)
    (hp : Pkt.fromBytes (ipKind v) d = .ok p)
    (hroom : packetGrowth p = 0 ∨ d.length + packetGrowth p < 65536) :
    ∃ c b, nfqueueCallback (some a) d = .ok (some c) ∧ c.destinations = [.ip a] ∧ c.port = 4341 ∧
      c.message.toBytes = .ok b ∧
      ∀ (s : Setup) (w : World) (o : Origin) (maxint counter : Nat) (sendto : Nat → Except Err Nat),
        ((∃ f, (dataDatagram s w o maxint counter b sendto).2.2 = some f) ↔ ∀ m, core p = some m → Rewritable m) ∧
        ∀ f, (dataDatagram s w o maxint counter b sendto).2.2 = some f →
          f.ver = v ∧ f.data.length ≤ d.length + packetGrowth p ∧ (∃ dest, f.dest = some dest ∧ DestinationOf v d dest) ∧
          (NoOptions p → ∃ p', SamePacket p p' ∧
            Pkt.fromBytes (ipKind v) f.data = .ok p') := by
  have hwf : (∃ h pl, IsIPv4 d h pl) ∨ (∃ h pl, IsIPv6 d h pl) := by
    cases v with
    | v4 =>
      obtain ⟨h, pl, _, hw, _, _⟩ := (ipv4_accepted_iff true d p).mp hp
      exact .inl ⟨h, pl, hw⟩
    | v6 =>
      obtain ⟨h, pl, _, hw, _, _⟩ := (ipv6_accepted_iff true d p).mp hp
      exact .inr ⟨h, pl, hw⟩
  have hb : (Pkt.data {} (.raw d)).toBytes = .ok ([0, 0, 0, 0, 0, 0, 0, 0] ++ d) := encap_bytes d
  refine ⟨_, _, (encapsulated_iff (some a) d _).mpr ⟨a, rfl, hwf, rfl⟩, rfl, rfl, hb, ?_⟩
  intro s w o maxint counter sendto
  have hi : (lispHeader 0 0 0 0 0 0 0 0).iid ≠ some 0xffffff := by decide
  refine ⟨data_forwarded_content_iff s w o maxint counter d sendto 0 0 0 0 0 0 0 0 hi v p hp hroom, ?_⟩
  intro f hf
  obtain ⟨y, m1, m2, m3, v4, v5, v6, v7, pl, he, _, hfw⟩ := (data_forwarded_iff ..).mp hf
  have he : d = pl := by
    have := congrArg (List.drop 8) he
    simpa using this
  subst he
  have hv : f.ver = v := by
    cases hfw with
    | v4 h q h1 h2 h3 =>
      cases v with
      | v4 => exact h3
      | v6 =>
        have a := nibble_of_ipv6 hp
        have b := nibble_of_ipv4 h1
        rw [a] at b
        cases b
    | v6 h q h1 h2 h3 =>
      cases v with
      | v6 => exact h3
      | v4 =>
        have a := nibble_of_ipv4 hp
        have b := nibble_of_ipv6 h1
        rw [a] at b
        cases b
  subst hv
  obtain ⟨h1, h2⟩ := data_forwarded_same d f hfw p hp hroom
  exact ⟨rfl, h1, data_forwarded_destination d f hfw, h2⟩

/-! ### The hypotheses are met -/

/-- a Map-Register in UDP in IPv4 is accepted, needs no additions and is forwarded -/
example : ∃ d, Pkt.fromBytes (ipKind .v4) d = .ok exRegisterPkt ∧ NoOptions exRegisterPkt ∧
    packetGrowth exRegisterPkt = 0 ∧ ∀ m, core exRegisterPkt = some m → Rewritable m := by
  have h : (exRegisterPkt.toBytes >>= fun d => Pkt.fromBytes (.ipv4 true) d) = .ok exRegisterPkt := by decide +kernel
  obtain ⟨d, _, hd⟩ := exBind_ok.mp h
  exact ⟨d, hd, .ipv4 _ _ rfl (.udp _ _ (.ctrl _)), by decide +kernel, by intro m h; cases h; exact (by decide : exRegister.authData ≠ [])⟩

/-- a Map-Request with instance id 5 in its EID, in UDP in IPv4: accepted but not forwarded -/
def exInstanceMessage : Bytes :=
  [0x10, 0, 0, 1] ++ List.replicate 8 7 ++ [0, 0] ++ [0, 1, 192, 0, 2, 1] ++
    [0, 24] ++ [0x40, 3, 0, 0, 2, 0, 0, 10, 0, 0, 0, 5, 0, 1, 10, 1, 2, 0]

def exInstanceDatagram : Except Err Bytes :=
  (Pkt.ipv4 { exHdr4 with nextHeader := 17 }
    (.udp { sport := 4342, dport := 4342, cksum := 0 } (.raw exInstanceMessage))).toBytes

example : (match exInstanceDatagram with
    | .ok d => (Pkt.fromBytes (ipKind .v4) d).isOk &&
        (dataDatagram exSetup exWorld exOrigin 255 3 (List.replicate 8 0 ++ d) (fun n => .ok n)).2.2.isNone
    | .error _ => false) = true := by
  decide +kernel

/-- a packet with four bytes of options, in RFC 791 layout: accepted, forwarded, and then 4 bytes longer than its
total length says -/
def exOptionsHdr : V4Hdr := { exHdr4 with options := [1, 1, 1, 1] }
def exOptionsPkt : Bytes :=
  rfc791 exOptionsHdr 3 (onesComplement (rfc791 exOptionsHdr 3 0)) ++ [1, 2, 3]

example : (Pkt.fromBytes (ipKind .v4) exOptionsPkt).isOk = true ∧ exOptionsPkt.length = 27 ∧
    (dataDatagram exSetup exWorld exOrigin 255 3 (List.replicate 8 0 ++ exOptionsPkt) (fun n => .ok n)).2.2.map
      (fun f => (f.data.length, f.data.drop 2 |>.take 2)) = some (27, [0, 23]) := by
  decide +kernel

end PyLisp.Props
