import Verif.PktObjects
import Verif.Props.Objects
/-
C79: packets as objects.
-/
namespace PyLisp
namespace Props

attribute [local irreducible] natToBits

/-! ### Specification: packets as values -/

/-- a packet: the attributes of one layer around a payload -/
def Layer.around (l : Layer) (q : Pkt) : Pkt :=
  match l with
  | .ipv4 h => .ipv4 h q
  | .ipv6 h => .ipv6 h q
  | .hbh nh o => .hbh nh o q
  | .dest nh o => .dest nh o q
  | .routing nh rt sl d => .routing nh rt sl d q
  | .fragment nh off mf ident => .fragment nh off mf ident q
  | .nonext => .nonext q
  | .udp h => .udp h q
  | .data h => .data h q
  | .ecm h => .ecm h q

/-- messages and packets as values: nothing changes unless `PWorld.after` says so -/
structure PWorld where
  msg : Nat → Ctrl
  obj : Nat → PObj

/-- a payload has a smaller number than the packet around it -/
def Acyclic (w : PWorld) : Prop := ∀ i l p, w.obj i = .layer l p → p < i

/-- the packet an object stands for, at most `n` layers of it -/
def PWorld.valueF (w : PWorld) : Nat → Nat → Pkt
  | 0, _ => .raw []
  | n + 1, i =>
    match w.obj i with
    | .raw b => .raw b
    | .msg m => .ctrl (w.msg m)
    | .layer l p => Layer.around l (w.valueF n p)

/-- the packet an object stands for -/
def PWorld.value (w : PWorld) (i : Nat) : Pkt := w.valueF (i + 1) i

/-- `sanitize` of a packet value: whether it raises -/
def pktSanitize : Pkt → Except Err Unit
  | .raw _ => .error .attr
  | .ipv4 h p => (h.sanitize p).map fun _ => ()
  | .ipv6 h p => (h.sanitize p).map fun _ => ()
  | .udp h _ => h.sanitize
  | .data h _ => h.sanitize.map fun _ => ()
  | .ecm h _ => h.sanitize
  | .ctrl m => (ctrlSanitize m).map fun _ => ()
  | _ => .ok ()

/-- `calculate_checksum` of a packet value -/
def pktChecksum (src dst : Option IP) : Pkt → Except Err Nat
  | .udp h p => udpChecksum h p src dst
  | _ => .error .attr

/-- `verify_checksum` of a packet value -/
def pktVerify (src dst : Option IP) : Pkt → Except Err Bool
  | .udp h p => udpVerify h p src dst
  | _ => .error .attr

/-- what a call answers if messages and packets are these -/
def PWorld.answer (H : Mac) (w : PWorld) : PCall → Except Err PReturned
  | .sanitize i => (pktSanitize (w.value i)).map fun _ => .ret .nothing
  | .toBytes i => (w.value i).toBytes.map fun b => .ret (.bytes b)
  | .checksum i s d => (pktChecksum s d (w.value i)).map .number
  | .verifyChecksum i s d => (pktVerify s d (w.value i)).map fun b => .ret (.bool b)
  | .msg c => (Props.answer H (w.msg (target c)) c).map .ret

/-- a UDP message for which `calculate_checksum` gets past the pseudo-header but cannot write the message: the payload
can be written, the addresses are of one family, and a port is out of range or the message is too long (which only
IPv6 lets pass) -/
def Unwritable (u : UdpHdr) (payload : Pkt) (src dst : Option IP) : Prop :=
  ∃ pb, payload.toBytes = .ok pb ∧
    ((isVer .v4 src = true ∧ isVer .v4 dst = true ∧ 8 + pb.length < 2 ^ 16) ∨
      (isVer .v6 src = true ∧ isVer .v6 dst = true ∧ 8 + pb.length < 2 ^ 32)) ∧
    (u.sport < 0 ∨ u.sport ≥ 2 ^ 16 ∨ u.dport < 0 ∨ u.dport ≥ 2 ^ 16 ∨ 8 + pb.length ≥ 2 ^ 16)

/-- the object `i` with checksum 0, if it is a UDP message that cannot be written -/
noncomputable def PWorld.spoil (w : PWorld) (i : Nat) (src dst : Option IP) : PWorld :=
  open Classical in
  match w.obj i with
  | .layer (.udp u) p =>
    if Unwritable u (w.value p) src dst then
      { w with obj := Heap.put w.obj i (.layer (.udp { u with cksum := 0 }) p) }
    else w
  | _ => w

/-- what a call changes: authentication data (see C78) and checksums of UDP messages that cannot be written -/
noncomputable def PWorld.after (H : Mac) (w : PWorld) : PCall → PWorld
  | .sanitize _ => w
  | .toBytes _ => w
  | .checksum i s d => w.spoil i s d
  | .verifyChecksum i s d => w.spoil i s d
  | .msg c => { w with msg := valCall H w.msg c }

/-- a sequence of calls on values -/
noncomputable def PWorld.answers (H : Mac) : PWorld → List PCall → List (Except Err PReturned)
  | _, [] => []
  | w, c :: cs => w.answer H c :: (w.after H c).answers H cs

/-- what the objects of a heap stand for -/
def world (h : PHeap) : PWorld := ⟨fun i => h.ctl.value (h.ctl.msg i), h.obj⟩

/-! ### What a layer looks like after `sanitize` -/

/-- the attributes after a `sanitize` that returned, for a payload of this header type -/
def Layer.fixed (t : Option Nat) : Layer → Layer
  | .ipv4 h => .ipv4 { h with nextHeader := nextHeaderFor t h.nextHeader }
  | .ipv6 h => .ipv6 { h with nextHeader := nextHeaderFor t h.nextHeader }
  | .data h => .data { h with echoNonce := h.echoNonce && h.nonce.isSome }
  | l => l

theorem nextHeaderFor_idem (t : Option Nat) (nh : Int) :
    nextHeaderFor t (nextHeaderFor t nh) = nextHeaderFor t nh := by cases t <;> rfl

theorem Layer.fixed_headerType (t : Option Nat) (l : Layer) : (Layer.fixed t l).headerType = l.headerType := by
  cases l <;> rfl

theorem Layer.fixed_fixed (t : Option Nat) (l : Layer) : Layer.fixed t (Layer.fixed t l) = Layer.fixed t l := by
  cases l <;> simp [Layer.fixed, nextHeaderFor_idem]

theorem dataClear (h : DataHdr) : ({ h with echoNonce := h.echoNonce && h.nonce.isSome } : DataHdr) =
    if h.echoNonce = true ∧ h.nonce = none then { h with echoNonce := false } else h := by
  rcases h with ⟨e, n, s, d, l, i⟩
  cases e <;> cases n <;> simp

theorem sanitizeInPlace_eq (h : DataHdr) : h.sanitizeInPlace.2 = h.sanitize.map (fun _ => ()) ∧
    (h.sanitizeInPlace.1 = h ∨ h.sanitizeInPlace.1 = { h with echoNonce := h.echoNonce && h.nonce.isSome }) ∧
    (h.sanitizeInPlace.2 = .ok () → h.sanitizeInPlace.1 = { h with echoNonce := h.echoNonce && h.nonce.isSome }) := by
  rw [dataClear]
  unfold DataHdr.sanitizeInPlace DataHdr.sanitize DataHdr.lateChecks
  dsimp only
  split
  · exact ⟨rfl, .inl rfl, fun h => by cases h⟩
  split
  · exact ⟨rfl, .inl rfl, fun h => by cases h⟩
  split
  · exact ⟨rfl, .inl rfl, fun h => by cases h⟩
  split
  · refine ⟨?_, .inr rfl, fun _ => rfl⟩
    dsimp only
    repeat' split
    all_goals rfl
  · refine ⟨?_, .inl rfl, fun _ => rfl⟩
    dsimp only
    repeat' split
    all_goals rfl

theorem sanitize_fixed_data (h : DataHdr) :
    ({ h with echoNonce := h.echoNonce && h.nonce.isSome } : DataHdr).sanitizeInPlace =
      ({ h with echoNonce := h.echoNonce && h.nonce.isSome }, h.sanitizeInPlace.2) := by
  rcases h with ⟨e, n, s, d, l, i⟩
  cases e <;> cases n <;>
    simp only [DataHdr.sanitizeInPlace, DataHdr.lateChecks, Option.isSome, Bool.and_false, Bool.and_true,
      Bool.false_eq_true, false_and, if_false, true_and, if_true, reduceCtorEq, and_false]
  all_goals (repeat' split)
  all_goals first | rfl | simp_all

theorem Layer.sanitize_fixed (t : Option Nat) (l : Layer) :
    (Layer.fixed t l).sanitize t = (Layer.fixed t l, (l.sanitize t).2) := by
  cases l with
  | ipv4 h => simp only [Layer.fixed, PyLisp.Layer.sanitize, nextHeaderFor_idem]
  | ipv6 h => simp only [Layer.fixed, PyLisp.Layer.sanitize, nextHeaderFor_idem]
  | data h => simp only [Layer.fixed, PyLisp.Layer.sanitize, sanitize_fixed_data]
  | _ => rfl

theorem Layer.sanitize_cases (t : Option Nat) (l : Layer) :
    (l.sanitize t).1 = l ∨ (l.sanitize t).1 = Layer.fixed t l := by
  cases l with
  | ipv4 h => exact .inr rfl
  | ipv6 h => exact .inr rfl
  | data h =>
    rcases (sanitizeInPlace_eq h).2.1 with e | e
    · exact .inl (congrArg Layer.data e)
    · exact .inr (congrArg Layer.data e)
  | _ => exact .inl rfl

theorem Layer.sanitize_ok {t : Option Nat} {l : Layer} (h : (l.sanitize t).2 = .ok ()) :
    (l.sanitize t).1 = Layer.fixed t l := by
  cases l with
  | ipv4 h => rfl
  | ipv6 h => rfl
  | data d => exact congrArg Layer.data ((sanitizeInPlace_eq d).2.2 h)
  | _ => rfl

theorem v4_check (h : V4Hdr) (q : Pkt) : h.sanitize q =
    ((({ h with nextHeader := nextHeaderFor q.headerType h.nextHeader } : V4Hdr).sanitize (.raw [])).map fun _ =>
      { h with nextHeader := nextHeaderFor q.headerType h.nextHeader }) := by
  have e : fixNextHeader q h.nextHeader = nextHeaderFor q.headerType h.nextHeader := rfl
  have e' : ∀ nh, fixNextHeader (.raw []) nh = nh := fun _ => rfl
  unfold V4Hdr.sanitize
  simp only [e, e']
  repeat' split
  all_goals rfl

theorem v6_check (h : V6Hdr) (q : Pkt) : h.sanitize q =
    ((({ h with nextHeader := nextHeaderFor q.headerType h.nextHeader } : V6Hdr).sanitize (.raw [])).map fun _ =>
      { h with nextHeader := nextHeaderFor q.headerType h.nextHeader }) := by
  have e : fixNextHeader q h.nextHeader = nextHeaderFor q.headerType h.nextHeader := rfl
  have e' : ∀ nh, fixNextHeader (.raw []) nh = nh := fun _ => rfl
  unfold V6Hdr.sanitize
  simp only [e, e']
  repeat' split
  all_goals rfl

theorem map_bind_unit {α β γ : Type} (x : Except Err α) (v : β) (f : β → Except Err γ) :
    (x.map (fun _ => v) >>= f) = (x.map (fun _ => ()) >>= fun _ => f v) := by cases x <;> rfl

theorem data_check (h : DataHdr) : h.sanitize =
    (h.sanitize.map fun _ => ({ h with echoNonce := h.echoNonce && h.nonce.isSome } : DataHdr)) := by
  unfold DataHdr.sanitize
  repeat' split
  all_goals rfl

/-- `to_bytes` of a packet value, step by step -/
theorem toBytes_around (l : Layer) (q : Pkt) : (Layer.around l q).toBytes =
    ((l.sanitize q.headerType).2 >>= fun _ => (Layer.fixed q.headerType l).head >>= fun b =>
      q.toBytes >>= fun pb => (Layer.fixed q.headerType l).finish b pb) := by
  cases l with
  | ipv4 h =>
    simp only [Layer.around, Pkt.toBytes, PyLisp.Layer.sanitize, Layer.fixed, Layer.head, Layer.finish]
    rw [v4_check, map_bind_unit]
  | ipv6 h =>
    simp only [Layer.around, Pkt.toBytes, PyLisp.Layer.sanitize, Layer.fixed, Layer.head, Layer.finish, exBind_okl]
    rw [v6_check, map_bind_unit]
  | data h =>
    simp only [Layer.around, Pkt.toBytes, PyLisp.Layer.sanitize, Layer.fixed, Layer.head, Layer.finish]
    rw [data_check, map_bind_unit, (sanitizeInPlace_eq h).1]
  | nonext =>
    simp only [Layer.around, Pkt.toBytes, PyLisp.Layer.sanitize, Layer.fixed, Layer.head, Layer.finish, exBind_okl]
    cases q.toBytes <;> rfl
  | _ =>
    simp only [Layer.around, Pkt.toBytes, PyLisp.Layer.sanitize, Layer.fixed, Layer.head, Layer.finish, exBind_okl]

theorem around_headerType (l : Layer) (q : Pkt) : (Layer.around l q).headerType = l.headerType := by cases l <;> rfl

/-! ### Values of objects -/

theorem valueF_fuel {w : PWorld} (ha : Acyclic w) (i : Nat) :
    ∀ n m, i < n → i < m → w.valueF n i = w.valueF m i := by
  induction i using Nat.strongRecOn with
  | _ i ih =>
    intro n m hn hm
    cases n with
    | zero => omega
    | succ n =>
      cases m with
      | zero => omega
      | succ m =>
        unfold PWorld.valueF
        cases ho : w.obj i with
        | raw b => rfl
        | msg m => rfl
        | layer l p =>
          have hp := ha i l p ho
          show Layer.around l _ = Layer.around l _
          rw [ih p hp n m (by omega) (by omega)]

theorem value_raw {w : PWorld} {i : Nat} {b : Bytes} (h : w.obj i = .raw b) : w.value i = .raw b := by
  unfold PWorld.value PWorld.valueF; rw [h]

theorem value_msg {w : PWorld} {i m : Nat} (h : w.obj i = .msg m) : w.value i = .ctrl (w.msg m) := by
  unfold PWorld.value PWorld.valueF; rw [h]

theorem value_layer {w : PWorld} (ha : Acyclic w) {i p : Nat} {l : Layer} (h : w.obj i = .layer l p) :
    w.value i = Layer.around l (w.value p) := by
  have hp := ha i l p h
  unfold PWorld.value
  rw [PWorld.valueF, h]
  show Layer.around l _ = Layer.around l _
  rw [valueF_fuel ha p i (p + 1) hp (by omega)]

theorem value_headerType {w : PWorld} (ha : Acyclic w) (i : Nat) : (w.value i).headerType = (w.obj i).headerType := by
  cases ho : w.obj i with
  | raw b => rw [value_raw ho]; rfl
  | msg m => rw [value_msg ho]; rfl
  | layer l p => rw [value_layer ha ho, around_headerType]; rfl

/-- the value of an object depends on the objects with smaller numbers only -/
theorem value_put {w : PWorld} {i : Nat} (o : PObj) (ha : Acyclic w)
    (ha' : Acyclic { w with obj := Heap.put w.obj i o }) (j : Nat) (hj : j < i) :
    PWorld.value { w with obj := Heap.put w.obj i o } j = w.value j := by
  induction j using Nat.strongRecOn with
  | _ j ih =>
    have he : ({ w with obj := Heap.put w.obj i o } : PWorld).obj j = w.obj j := put_other _ (by omega) _
    cases ho : w.obj j with
    | raw b => rw [value_raw ho, value_raw (he.trans ho)]
    | msg m => rw [value_msg ho, value_msg (he.trans ho)]
    | layer l p =>
      have hp := ha j l p ho
      rw [value_layer ha ho, value_layer ha' (he.trans ho), ih p hp (by omega)]

/-! ### Objects and values side by side -/

/-- `h` is `w` up to what `sanitize` does: the messages say the same, and a packet is as it was or as `sanitize` leaves
it -/
structure Sim (h0 : Heap) (w : PWorld) (h : PHeap) : Prop where
  ctl : Upto h0 h.ctl
  msg : w.msg = fun i => h0.value (h.ctl.msg i)
  obj : ∀ i, h.obj i = w.obj i ∨
    ∃ l p, w.obj i = .layer l p ∧ h.obj i = .layer (Layer.fixed (w.obj p).headerType l) p

theorem Sim.refl (h : PHeap) : Sim h.ctl (world h) h := ⟨.refl _, rfl, fun _ => .inl rfl⟩

theorem Sim.headerType {h0 : Heap} {w : PWorld} {h : PHeap} (s : Sim h0 w h) (i : Nat) :
    (h.obj i).headerType = (w.obj i).headerType := by
  rcases s.obj i with e | ⟨l, p, e1, e2⟩
  · rw [e]
  · rw [e1, e2]; exact Layer.fixed_headerType _ _

theorem Sim.layer {h0 : Heap} {w : PWorld} {h : PHeap} (s : Sim h0 w h) {i p : Nat} {l : Layer}
    (hi : w.obj i = .layer l p) : ∃ l', h.obj i = .layer l' p ∧ (l' = l ∨ l' = Layer.fixed (w.obj p).headerType l) := by
  rcases s.obj i with e | ⟨l', p', e1, e2⟩
  · exact ⟨l, e.trans hi, .inl rfl⟩
  · rw [hi] at e1
    cases e1
    exact ⟨_, e2, .inr rfl⟩

theorem Sim.layer_inv {h0 : Heap} {w : PWorld} {h : PHeap} (s : Sim h0 w h) {i p : Nat} {l' : Layer}
    (hi : h.obj i = .layer l' p) :
    ∃ l, w.obj i = .layer l p ∧ (l' = l ∨ l' = Layer.fixed (w.obj p).headerType l) := by
  rcases s.obj i with e | ⟨l, p', e1, e2⟩
  · exact ⟨l', e.symm.trans hi, .inl rfl⟩
  · rw [hi] at e2
    cases e2
    exact ⟨l, e1, .inr rfl⟩

theorem Sim.other {h0 : Heap} {w : PWorld} {h : PHeap} (s : Sim h0 w h) {i : Nat}
    (hi : ∀ l p, w.obj i ≠ .layer l p) : h.obj i = w.obj i := by
  rcases s.obj i with e | ⟨l, p, e1, _⟩
  · exact e
  · exact absurd e1 (hi l p)

theorem Sim.setLayer {h0 : Heap} {w : PWorld} {h : PHeap} (s : Sim h0 w h) {i p : Nat} {l l1 : Layer}
    (hi : w.obj i = .layer l p) (hl : l1 = l ∨ l1 = Layer.fixed (w.obj p).headerType l) :
    Sim h0 w (h.setLayer i l1 p) := by
  refine ⟨s.ctl, s.msg, fun j => ?_⟩
  by_cases hj : j = i
  · subst hj
    have e : (h.setLayer j l1 p).obj j = .layer l1 p := put_same _ _ _
    rcases hl with rfl | rfl
    · exact .inl (e.trans hi.symm)
    · exact .inr ⟨l, p, hi, e⟩
  · have e : (h.setLayer i l1 p).obj j = h.obj j := put_other _ hj _
    rw [e]; exact s.obj j

/-- `sanitize` of a layer that has possibly been fixed already -/
theorem sanitize_sim {t : Option Nat} {l l' : Layer} (hl : l' = l ∨ l' = Layer.fixed t l) :
    (l'.sanitize t).2 = (l.sanitize t).2 ∧ ((l'.sanitize t).1 = l ∨ (l'.sanitize t).1 = Layer.fixed t l) ∧
    ((l.sanitize t).2 = .ok () → (l'.sanitize t).1 = Layer.fixed t l) := by
  rcases hl with rfl | rfl
  · exact ⟨rfl, Layer.sanitize_cases t l', Layer.sanitize_ok⟩
  · rw [Layer.sanitize_fixed]; exact ⟨rfl, .inr rfl, fun _ => rfl⟩

theorem toBytesF_sim {h0 : Heap} {w : PWorld} (ha : Acyclic w) : ∀ n i (h : PHeap), Sim h0 w h → i < n →
    Sim h0 w (PHeap.toBytesF n h i).1 ∧ (PHeap.toBytesF n h i).2 = (w.value i).toBytes := by
  intro n
  induction n with
  | zero => intro i h _ hi; omega
  | succ n ih =>
    intro i h s hi
    unfold PHeap.toBytesF
    cases ho : w.obj i with
    | raw b =>
      rw [s.other (by rw [ho]; exact fun _ _ e => by cases e), ho, value_raw ho]
      exact ⟨s, rfl⟩
    | msg m =>
      rw [s.other (by rw [ho]; exact fun _ _ e => by cases e), ho, value_msg ho]
      obtain ⟨r1, r2, r3⟩ := toBytes_result h.ctl m
      refine ⟨⟨s.ctl.trans r1, ?_, s.obj⟩, ?_⟩
      · show w.msg = fun i => h0.value ((h.ctl.toBytes m).1.msg i)
        rw [r2]; exact s.msg
      · show (h.ctl.toBytes m).2 = (w.msg m).toBytes
        rw [r3, toBytes_same s.ctl, s.msg]
    | layer l p =>
      obtain ⟨l', e1, e2⟩ := s.layer ho
      rw [e1, value_layer ha ho, toBytes_around, value_headerType ha]
      dsimp only
      rw [s.headerType p]
      obtain ⟨k1, k2, k3⟩ := sanitize_sim e2
      have hp := ha i l p ho
      generalize hl : (w.obj p).headerType = t at *
      cases hs : l'.sanitize t with
      | mk l1 res =>
        rw [hs] at k1 k2 k3
        dsimp only at k1 k2 k3
        have s1 : Sim h0 w (h.setLayer i l1 p) := s.setLayer ho (by rw [hl]; exact k2)
        cases res with
        | error e => rw [← k1]; exact ⟨s1, rfl⟩
        | ok u =>
          rw [← k1]
          have k4 := k3 k1.symm
          subst k4
          dsimp only
          rw [exBind_okl]
          cases hh : (Layer.fixed t l).head with
          | error e => exact ⟨s1, rfl⟩
          | ok b =>
            obtain ⟨i1, i2⟩ := ih p _ s1 (by omega)
            dsimp only
            rw [exBind_okl, ← i2]
            cases hf : PHeap.toBytesF n (h.setLayer i (Layer.fixed t l) p) p with
            | mk h2 res =>
              rw [hf] at i1
              cases res with
              | error e => exact ⟨i1, rfl⟩
              | ok pb => exact ⟨i1, rfl⟩

theorem toBytes_sim {h0 : Heap} {w : PWorld} {h : PHeap} (ha : Acyclic w) (s : Sim h0 w h) (i : Nat) :
    Sim h0 w (h.toBytes i).1 ∧ (h.toBytes i).2 = (w.value i).toBytes := toBytesF_sim ha _ _ _ s (by omega)

theorem sanitize_around (l : Layer) (q : Pkt) : pktSanitize (Layer.around l q) = (l.sanitize q.headerType).2 := by
  cases l with
  | ipv4 h =>
    simp only [Layer.around, pktSanitize, PyLisp.Layer.sanitize]
    rw [v4_check]
    cases V4Hdr.sanitize _ _ <;> rfl
  | ipv6 h =>
    simp only [Layer.around, pktSanitize, PyLisp.Layer.sanitize]
    rw [v6_check]
    cases V6Hdr.sanitize _ _ <;> rfl
  | data h => exact (sanitizeInPlace_eq h).1.symm
  | _ => rfl

theorem pSanitize_sim {h0 : Heap} {w : PWorld} {h : PHeap} (ha : Acyclic w) (s : Sim h0 w h) (i : Nat) :
    Sim h0 w (h.sanitize i).1 ∧ (h.sanitize i).2 = pktSanitize (w.value i) := by
  unfold PHeap.sanitize
  cases ho : w.obj i with
  | raw b =>
    rw [s.other (by rw [ho]; exact fun _ _ e => by cases e), ho, value_raw ho]
    exact ⟨s, rfl⟩
  | msg m =>
    rw [s.other (by rw [ho]; exact fun _ _ e => by cases e), ho, value_msg ho]
    obtain ⟨r1, r2, r3, _⟩ := sanitizeMsg_result h.ctl (h.ctl.msg m)
    refine ⟨⟨s.ctl.trans r1, ?_, s.obj⟩, ?_⟩
    · show w.msg = fun i => h0.value ((h.ctl.sanitizeMsg (h.ctl.msg m)).1.msg i)
      rw [r2]; exact s.msg
    · show (h.ctl.sanitizeMsg (h.ctl.msg m)).2 = (ctrlSanitize (w.msg m)).map fun _ => ()
      rw [r3, ctrlSanitize_same s.ctl, s.msg]
  | layer l p =>
    obtain ⟨l', e1, e2⟩ := s.layer ho
    rw [e1, value_layer ha ho, sanitize_around, value_headerType ha]
    dsimp only
    rw [s.headerType p]
    obtain ⟨k1, k2, k3⟩ := sanitize_sim e2
    exact ⟨s.setLayer ho k2, k1⟩

/-! ### Checksums -/

theorem pseudo_defined_iff {src dst : Option IP} {n : Nat} : (∃ ph, pseudoHeader src dst n = .ok ph) ↔
    (isVer .v4 src = true ∧ isVer .v4 dst = true ∧ n < 2 ^ 16) ∨
      (isVer .v6 src = true ∧ isVer .v6 dst = true ∧ n < 2 ^ 32) := by
  unfold pseudoHeader
  cases src with
  | none => simp [isVer]
  | some a =>
    cases dst with
    | none => simp [isVer]
    | some b =>
      simp only [isVer, decide_eq_true_eq]
      split
      · next hv =>
        constructor
        · rintro ⟨ph, h⟩
          obtain ⟨l, hl, _⟩ := exBind_ok.mp h
          have := (encUint_iff.mp hl).2.1
          exact .inl ⟨hv.1, hv.2, by omega⟩
        · rintro (⟨_, _, h⟩ | ⟨h, _⟩)
          · have hl := encUint_eq_ok (n := 16) (v := (n : Int)) (by omega) (by omega)
            rw [hl, exBind_okl]
            obtain ⟨o, ho, _⟩ := bitsToBytes_ok_of_length (k := 12)
              (b := natToBits 32 a.val ++ natToBits 32 b.val ++ natToBits 16 17 ++ natToBits 16 (n : Int).toNat) (by simp)
            exact ⟨o, ho⟩
          · rw [hv.1] at h; cases h
      · next hv =>
        split
        · next hv6 =>
          constructor
          · rintro ⟨ph, h⟩
            obtain ⟨l, hl, _⟩ := exBind_ok.mp h
            have := (encUint_iff.mp hl).2.1
            exact .inr ⟨hv6.1, hv6.2, by omega⟩
          · rintro (⟨h, _⟩ | ⟨_, _, h⟩)
            · rw [hv6.1] at h; cases h
            · have hl := encUint_eq_ok (n := 32) (v := (n : Int)) (by omega) (by omega)
              rw [hl, exBind_okl]
              obtain ⟨o, ho, _⟩ := bitsToBytes_ok_of_length (k := 40)
                (b := natToBits 128 a.val ++ natToBits 128 b.val ++ natToBits 32 (n : Int).toNat ++ natToBits 32 17)
                (by simp)
              exact ⟨o, ho⟩
        · next hv6 =>
          constructor
          · rintro ⟨ph, h⟩; cases h
          · rintro (⟨h1, h2, _⟩ | ⟨h1, h2, _⟩)
            · exact absurd ⟨h1, h2⟩ hv
            · exact absurd ⟨h1, h2⟩ hv6

/-- a UDP message with checksum 0 can be written unless a port is out of range or it is too long -/
theorem udp_zero_iff {u : UdpHdr} {q : Pkt} {pb : Bytes} (hq : q.toBytes = .ok pb) :
    (∃ m, (Pkt.udp { u with cksum := 0 } q).toBytes = .ok m) ↔
      ¬ (u.sport < 0 ∨ u.sport ≥ 2 ^ 16 ∨ u.dport < 0 ∨ u.dport ≥ 2 ^ 16 ∨ 8 + pb.length ≥ 2 ^ 16) := by
  simp only [Pkt.toBytes, UdpHdr.sanitize, hq]
  constructor
  · rintro ⟨m, h⟩
    obtain ⟨_, h1, h⟩ := exBind_ok.mp h
    rw [exBind_okl] at h
    obtain ⟨b, h2, _⟩ := exBind_ok.mp h
    simp only [encUdpRaw, exBind_ok, encUint_iff] at h2
    obtain ⟨_, ⟨a1, a2, _⟩, _, ⟨b1, b2, _⟩, _, ⟨c1, c2, _⟩, _⟩ := h2
    omega
  · intro h
    rw [if_neg (by omega), if_neg (by omega), exBind_okl, exBind_okl]
    have : encUdpRaw { u with cksum := 0 } pb.length = .ok (natToBits 16 u.sport.toNat ++ natToBits 16 u.dport.toNat ++
        natToBits 16 ((pb.length + 8 : Nat) : Int).toNat ++ natToBits 16 (0 : Int).toNat) := by
      unfold encUdpRaw
      dsimp only
      rw [encUint_eq_ok (by omega) (by omega), exBind_okl, encUint_eq_ok (by omega) (by omega), exBind_okl,
        encUint_eq_ok (by omega) (by omega), exBind_okl, encUint_eq_ok (by decide) (by decide), exBind_okl, exPure]
    rw [this, exBind_okl]
    obtain ⟨o, ho, _⟩ := bitsToBytes_ok_of_length (k := 8)
      (b := natToBits 16 u.sport.toNat ++ natToBits 16 u.dport.toNat ++
        natToBits 16 ((pb.length + 8 : Nat) : Int).toNat ++ natToBits 16 (0 : Int).toNat) (by simp)
    unfold withPayload
    rw [ho, exBind_okl]
    exact ⟨_, rfl⟩

/-- `w` with other attributes for the UDP message `i` -/
def PWorld.setUdp (w : PWorld) (i : Nat) (u : UdpHdr) (p : Nat) : PWorld :=
  { w with obj := Heap.put w.obj i (.layer (.udp u) p) }

theorem setUdp_acyclic {w : PWorld} (ha : Acyclic w) {i p : Nat} {u u' : UdpHdr} (hi : w.obj i = .layer (.udp u) p) :
    Acyclic (w.setUdp i u' p) := by
  intro j l q hj
  by_cases h : j = i
  · subst h
    have e : (w.setUdp j u' p).obj j = .layer (.udp u') p := put_same _ _ _
    rw [e] at hj
    cases hj
    exact ha _ _ _ hi
  · have e : (w.setUdp i u' p).obj j = w.obj j := put_other _ h _
    rw [e] at hj
    exact ha _ _ _ hj

theorem setUdp_headerType {w : PWorld} {i p : Nat} {u u' : UdpHdr} (hi : w.obj i = .layer (.udp u) p) (j : Nat) :
    ((w.setUdp i u' p).obj j).headerType = (w.obj j).headerType := by
  by_cases h : j = i
  · subst h
    have e : (w.setUdp j u' p).obj j = .layer (.udp u') p := put_same _ _ _
    rw [e, hi]; rfl
  · have e : (w.setUdp i u' p).obj j = w.obj j := put_other _ h _
    rw [e]

theorem Sim.setUdp {h0 : Heap} {w : PWorld} {h : PHeap} (s : Sim h0 w h) {i p : Nat} {u : UdpHdr} (u' : UdpHdr)
    (hi : w.obj i = .layer (.udp u) p) : Sim h0 (w.setUdp i u' p) (h.setLayer i (.udp u') p) := by
  refine ⟨s.ctl, s.msg, fun j => ?_⟩
  by_cases hj : j = i
  · subst hj
    exact .inl ((put_same _ _ _ : (h.setLayer j (.udp u') p).obj j = .layer (.udp u') p).trans
      (put_same _ _ _ : (w.setUdp j u' p).obj j = .layer (.udp u') p).symm)
  · have e : (h.setLayer i (.udp u') p).obj j = h.obj j := put_other _ hj _
    have e' : (w.setUdp i u' p).obj j = w.obj j := put_other _ hj _
    rw [e, e']
    rcases s.obj j with k | ⟨l, q, k1, k2⟩
    · exact .inl k
    · exact .inr ⟨l, q, k1, by rw [setUdp_headerType hi]; exact k2⟩

theorem setUdp_setUdp (w : PWorld) (i p : Nat) (u u' : UdpHdr) : (w.setUdp i u p).setUdp i u' p = w.setUdp i u' p := by
  unfold PWorld.setUdp
  rw [put_put]

theorem setUdp_same {w : PWorld} {i p : Nat} {u : UdpHdr} (hi : w.obj i = .layer (.udp u) p) : w.setUdp i u p = w := by
  unfold PWorld.setUdp
  rw [← hi, put_id]

theorem spoil_eq {w : PWorld} {i p : Nat} {u : UdpHdr} (hi : w.obj i = .layer (.udp u) p) (src dst : Option IP) :
    (Unwritable u (w.value p) src dst → w.spoil i src dst = w.setUdp i { u with cksum := 0 } p) ∧
    (¬ Unwritable u (w.value p) src dst → w.spoil i src dst = w) := by
  unfold PWorld.spoil
  rw [hi]
  exact ⟨fun h => if_pos h, fun h => if_neg h⟩

theorem spoil_other {w : PWorld} {i : Nat} (hi : ∀ u p, w.obj i ≠ .layer (.udp u) p) (src dst : Option IP) :
    w.spoil i src dst = w := by
  unfold PWorld.spoil
  split
  · next u p e => exact absurd e (hi u p)
  · rfl

theorem checksum_sim {h0 : Heap} {w : PWorld} {h : PHeap} (ha : Acyclic w) (s : Sim h0 w h) (i : Nat)
    (src dst : Option IP) :
    Sim h0 (w.spoil i src dst) (h.checksum i src dst).1 ∧
    (h.checksum i src dst).2 = pktChecksum src dst (w.value i) := by
  by_cases hu : ∃ u p, w.obj i = .layer (.udp u) p
  · obtain ⟨u, p, ho⟩ := hu
    obtain ⟨l', e1, e2⟩ := s.layer ho
    have e3 : l' = .udp u := by rcases e2 with e | e <;> exact e
    subst e3
    have hp := ha i _ p ho
    obtain ⟨sp1, sp2⟩ := spoil_eq ho src dst
    unfold PHeap.checksum
    rw [e1, value_layer ha ho]
    show Sim h0 _ _ ∧ _ = udpChecksum u (w.value p) src dst
    obtain ⟨t1, t2⟩ := toBytes_sim ha s p
    unfold udpChecksum
    dsimp only
    cases ht : h.toBytes p with
    | mk h1 res =>
      rw [ht] at t1 t2
      dsimp only at t1 t2
      rw [← t2]
      cases res with
      | error e =>
        rw [sp2 (by rintro ⟨pb, hpb, _⟩; rw [← t2] at hpb; cases hpb)]
        exact ⟨t1, rfl⟩
      | ok pb =>
        rw [exBind_okl]
        dsimp only
        cases hph : pseudoHeader src dst (8 + pb.length) with
        | error e =>
          rw [sp2 (by
            rintro ⟨pb', hpb, hv, _⟩
            rw [← t2] at hpb; cases hpb
            obtain ⟨ph, hph'⟩ := pseudo_defined_iff.mpr hv
            rw [hph] at hph'; cases hph')]
          exact ⟨t1, rfl⟩
        | ok ph =>
          rw [exBind_okl]
          dsimp only
          have hv := pseudo_defined_iff.mp ⟨ph, hph⟩
          have ha' := setUdp_acyclic ha ho (u' := { u with cksum := 0 })
          have ho' : (w.setUdp i { u with cksum := 0 } p).obj i = .layer (.udp { u with cksum := 0 }) p := put_same _ _ _
          obtain ⟨b1, b2⟩ := toBytes_sim ha' (t1.setUdp { u with cksum := 0 } ho) i
          have hval : (w.setUdp i { u with cksum := 0 } p).value i = .udp { u with cksum := 0 } (w.value p) := by
            rw [value_layer ha' ho']
            show Pkt.udp _ _ = _
            exact congrArg (Pkt.udp _) (value_put _ ha ha' p hp)
          rw [hval] at b2
          unfold PHeap.checksumOver
          cases hm : (h1.setLayer i (.udp { u with cksum := 0 }) p).toBytes i with
          | mk h2 res =>
            rw [hm] at b1 b2
            dsimp only at b1 b2
            rw [← b2]
            cases res with
            | error e =>
              rw [sp1 ⟨pb, t2.symm, hv, by
                refine Classical.not_not.mp fun hn => ?_
                obtain ⟨m, hm'⟩ := (udp_zero_iff (u := u) t2.symm).mpr hn
                rw [hm'] at b2; cases b2⟩]
              exact ⟨b1, rfl⟩
            | ok m =>
              rw [sp2 (by
                rintro ⟨pb', hpb, _, hn⟩
                rw [← t2] at hpb; cases hpb
                exact (udp_zero_iff (u := u) t2.symm).mp ⟨m, b2.symm⟩ hn)]
              refine ⟨?_, rfl⟩
              have := b1.setUdp u ho'
              rwa [setUdp_setUdp, setUdp_same ho] at this
  · have hno : ∀ u p, w.obj i ≠ .layer (.udp u) p := fun u p e => hu ⟨u, p, e⟩
    rw [spoil_other hno]
    have hh : h.checksum i src dst = (h, .error .attr) := by
      unfold PHeap.checksum
      split
      · next u p e =>
        obtain ⟨l, k1, k2⟩ := s.layer_inv e
        rcases k2 with rfl | k2
        · exact absurd k1 (hno u p)
        · cases l <;> simp [Layer.fixed] at k2
          subst k2
          exact absurd k1 (hno _ _)
      · rfl
    rw [hh]
    refine ⟨s, ?_⟩
    show Except.error Err.attr = pktChecksum src dst (w.value i)
    cases ho : w.obj i with
    | raw b => rw [value_raw ho]; rfl
    | msg m => rw [value_msg ho]; rfl
    | layer l p =>
      rw [value_layer ha ho]
      cases l with
      | udp u => exact absurd ho (hno u p)
      | _ => rfl

theorem verify_sim {h0 : Heap} {w : PWorld} {h : PHeap} (ha : Acyclic w) (s : Sim h0 w h) (i : Nat)
    (src dst : Option IP) :
    Sim h0 (w.spoil i src dst) (h.verifyChecksum i src dst).1 ∧
    (h.verifyChecksum i src dst).2 = pktVerify src dst (w.value i) := by
  by_cases hu : ∃ u p, w.obj i = .layer (.udp u) p
  · obtain ⟨u, p, ho⟩ := hu
    obtain ⟨l', e1, e2⟩ := s.layer ho
    have e3 : l' = .udp u := by rcases e2 with e | e <;> exact e
    subst e3
    obtain ⟨c1, c2⟩ := checksum_sim ha s i src dst
    unfold PHeap.verifyChecksum
    rw [e1]
    rw [value_layer ha ho] at c2 ⊢
    have c2 : (h.checksum i src dst).2 = udpChecksum u (w.value p) src dst := c2
    show Sim h0 _ _ ∧ _ = udpVerify u (w.value p) src dst
    unfold udpVerify
    dsimp only
    by_cases hz : u.cksum = 0
    · rw [if_pos hz, if_pos hz]
      refine ⟨?_, rfl⟩
      have : w.spoil i src dst = w := by
        obtain ⟨sp1, sp2⟩ := spoil_eq ho src dst
        by_cases hw : Unwritable u (w.value p) src dst
        · rw [sp1 hw]
          have : ({ u with cksum := 0 } : UdpHdr) = u := by rw [← hz]
          rw [this, setUdp_same ho]
        · exact sp2 hw
      rw [this]; exact s
    · rw [if_neg hz, if_neg hz, ← c2]
      refine ⟨c1, ?_⟩
      cases (h.checksum i src dst).2 <;> rfl
  · have hno : ∀ u p, w.obj i ≠ .layer (.udp u) p := fun u p e => hu ⟨u, p, e⟩
    rw [spoil_other hno]
    have hh : h.verifyChecksum i src dst = (h, .error .attr) := by
      unfold PHeap.verifyChecksum
      split
      · next u p e =>
        obtain ⟨l, k1, k2⟩ := s.layer_inv e
        rcases k2 with rfl | k2
        · exact absurd k1 (hno u p)
        · cases l <;> simp [Layer.fixed] at k2
          subst k2
          exact absurd k1 (hno _ _)
      · rfl
    rw [hh]
    refine ⟨s, ?_⟩
    show Except.error Err.attr = pktVerify src dst (w.value i)
    cases ho : w.obj i with
    | raw b => rw [value_raw ho]; rfl
    | msg m => rw [value_msg ho]; rfl
    | layer l p =>
      rw [value_layer ha ho]
      cases l with
      | udp u => exact absurd ho (hno u p)
      | _ => rfl

/-! ### Calls -/

theorem spoil_acyclic {w : PWorld} (ha : Acyclic w) (i : Nat) (src dst : Option IP) : Acyclic (w.spoil i src dst) := by
  by_cases hu : ∃ u p, w.obj i = .layer (.udp u) p
  · obtain ⟨u, p, ho⟩ := hu
    obtain ⟨sp1, sp2⟩ := spoil_eq ho src dst
    by_cases hw : Unwritable u (w.value p) src dst
    · rw [sp1 hw]; exact setUdp_acyclic ha ho
    · rw [sp2 hw]; exact ha
  · rw [spoil_other fun u p e => hu ⟨u, p, e⟩]; exact ha

theorem after_acyclic {w : PWorld} (H : Mac) (ha : Acyclic w) (c : PCall) : Acyclic (w.after H c) := by
  cases c with
  | checksum i s d => exact spoil_acyclic ha i s d
  | verifyChecksum i s d => exact spoil_acyclic ha i s d
  | _ => exact ha

theorem pcall_sim {H : Mac} {h0 : Heap} {w : PWorld} {h : PHeap} (ha : Acyclic w) (s : Sim h0 w h) (c : PCall) :
    Sim h0 (w.after H c) (h.call H c).1 ∧ (h.call H c).2 = w.answer H c := by
  cases c with
  | sanitize i =>
    obtain ⟨r1, r2⟩ := pSanitize_sim ha s i
    refine ⟨r1, ?_⟩
    show (h.sanitize i).2.map _ = _
    rw [r2]; rfl
  | toBytes i =>
    obtain ⟨r1, r2⟩ := toBytes_sim ha s i
    refine ⟨r1, ?_⟩
    show (h.toBytes i).2.map _ = _
    rw [r2]; rfl
  | checksum i a d =>
    obtain ⟨r1, r2⟩ := checksum_sim ha s i a d
    refine ⟨r1, ?_⟩
    show (h.checksum i a d).2.map _ = _
    rw [r2]; rfl
  | verifyChecksum i a d =>
    obtain ⟨r1, r2⟩ := verify_sim ha s i a d
    refine ⟨r1, ?_⟩
    show (h.verifyChecksum i a d).2.map _ = _
    rw [r2]; rfl
  | msg c =>
    obtain ⟨c1, c2, c3⟩ := call_result H h.ctl c
    rw [answer_same s.ctl] at c2
    rw [authAfter_same s.ctl] at c3
    have e : w.msg (target c) = h0.value (h.ctl.msg (target c)) := congrFun s.msg _
    refine ⟨⟨s.ctl.trans c1, ?_, s.obj⟩, ?_⟩
    · show valCall H w.msg c = fun i => h0.value ((h.ctl.call H c).1.msg i)
      rw [s.msg]
      funext j
      rw [c3]
      unfold valCall Heap.put
      split
      · exact (value_setAuth h0 _ _).symm
      · rfl
    · show (h.ctl.call H c).2.map _ = (Props.answer H (w.msg (target c)) c).map _
      rw [c2, e]

/-- the values after a sequence of calls -/
noncomputable def PWorld.afterAll (H : Mac) : PWorld → List PCall → PWorld
  | w, [] => w
  | w, c :: cs => (w.after H c).afterAll H cs

theorem pcalls_sim {H : Mac} {h0 : Heap} (cs : List PCall) : ∀ {w : PWorld} {h : PHeap}, Acyclic w → Sim h0 w h →
    Sim h0 (w.afterAll H cs) (h.calls H cs).1 ∧ (h.calls H cs).2 = w.answers H cs := by
  induction cs with
  | nil => intro w h _ s; exact ⟨s, rfl⟩
  | cons c cs ih =>
    intro w h ha s
    obtain ⟨c1, c2⟩ := pcall_sim (H := H) ha s c
    obtain ⟨i1, i2⟩ := ih (after_acyclic H ha c) c1
    refine ⟨i1, ?_⟩
    show (h.call H c).2 :: _ = _ :: _
    rw [c2, i2]

/-! ### C79 -/

/-- C79: whatever calls a user makes on packets and on the control messages in them, in any order, going on after
exceptions, and however many packets share a payload: each call answers (value or exception) exactly as if packets and
messages were immutable values, of which only two things ever change: authentication data, as in C78, and the checksum
of a UDP message that cannot be written, which is 0 after its checksum has been calculated or verified in vain.  That
`sanitize` corrects next headers and clears echo-nonce-request flags in place is never seen in an answer. -/
theorem packets_as_values (H : Mac) (h : PHeap) (ha : Acyclic (world h)) (cs : List PCall) :
    (h.calls H cs).2 = (world h).answers H cs := (pcalls_sim cs ha (Sim.refl h)).2

theorem after_objs (H : Mac) (w : PWorld) (c : PCall) (i : Nat) : (w.after H c).obj i = w.obj i ∨
    ∃ u p, w.obj i = .layer (.udp u) p ∧ (w.after H c).obj i = .layer (.udp { u with cksum := 0 }) p ∧
      ∃ s d, c = .checksum i s d ∨ c = .verifyChecksum i s d := by
  have key : ∀ j s d, (w.spoil j s d).obj i = w.obj i ∨
      ∃ u p, w.obj i = .layer (.udp u) p ∧ (w.spoil j s d).obj i = .layer (.udp { u with cksum := 0 }) p ∧ j = i := by
    intro j s d
    by_cases hu : ∃ u p, w.obj j = .layer (.udp u) p
    · obtain ⟨u, p, ho⟩ := hu
      obtain ⟨sp1, sp2⟩ := spoil_eq ho s d
      by_cases hw : Unwritable u (w.value p) s d
      · rw [sp1 hw]
        by_cases hij : i = j
        · subst hij
          exact .inr ⟨u, p, ho, put_same _ _ _, rfl⟩
        · exact .inl (put_other _ hij _)
      · rw [sp2 hw]; exact .inl rfl
    · rw [spoil_other fun u p e => hu ⟨u, p, e⟩]; exact .inl rfl
  cases c with
  | checksum j s d =>
    rcases key j s d with e | ⟨u, p, e1, e2, e3⟩
    · exact .inl e
    · subst e3; exact .inr ⟨u, p, e1, e2, s, d, .inl rfl⟩
  | verifyChecksum j s d =>
    rcases key j s d with e | ⟨u, p, e1, e2, e3⟩
    · exact .inl e
    · subst e3; exact .inr ⟨u, p, e1, e2, s, d, .inr rfl⟩
  | _ => exact .inl rfl

theorem afterAll_objs (H : Mac) (cs : List PCall) : ∀ (w : PWorld) (i : Nat), (w.afterAll H cs).obj i = w.obj i ∨
    ∃ u p, w.obj i = .layer (.udp u) p ∧ (w.afterAll H cs).obj i = .layer (.udp { u with cksum := 0 }) p ∧
      ∃ s d, .checksum i s d ∈ cs ∨ .verifyChecksum i s d ∈ cs := by
  induction cs with
  | nil => intro w i; exact .inl rfl
  | cons c cs ih =>
    intro w i
    show ((w.after H c).afterAll H cs).obj i = _ ∨ ∃ u p, _ ∧ ((w.after H c).afterAll H cs).obj i = _ ∧ _
    rcases after_objs H w c i with e | ⟨u, p, e1, e2, s, d, e3⟩
    · rcases ih (w.after H c) i with k | ⟨u, p, k1, k2, s, d, k3⟩
      · exact .inl (k.trans e)
      · exact .inr ⟨u, p, e.symm.trans k1, k2, s, d, k3.imp (List.mem_cons_of_mem _) (List.mem_cons_of_mem _)⟩
    · refine .inr ⟨u, p, e1, ?_, s, d, e3.imp (fun e => ?_) (fun e => ?_)⟩
      · rcases ih (w.after H c) i with k | ⟨u', p', k1, k2, _⟩
        · exact k.trans e2
        · rw [e2] at k1; cases k1; exact k2
      · rw [e]; exact List.mem_cons_self
      · rw [e]; exact List.mem_cons_self

/-- C79: what the packets are after any calls.  A payload is still the same object, and the attributes are as they
were, except that
* the next header of an IPv4 or IPv6 packet may have become the type of its payload,
* the echo-nonce-request flag of a LISP data packet without nonce may have been cleared,
* the checksum of a UDP message may have become 0, if its checksum was calculated or verified.
Control messages are changed as C78 says. -/
theorem packet_objects_after (H : Mac) (h : PHeap) (ha : Acyclic (world h)) (cs : List PCall) :
    Upto h.ctl (h.calls H cs).1.ctl ∧
    ∀ i, (h.calls H cs).1.obj i = h.obj i ∨
      (∃ v p t, h.obj i = .layer (.ipv4 v) p ∧ (h.obj p).headerType = some t ∧
        (h.calls H cs).1.obj i = .layer (.ipv4 { v with nextHeader := t }) p) ∨
      (∃ v p t, h.obj i = .layer (.ipv6 v) p ∧ (h.obj p).headerType = some t ∧
        (h.calls H cs).1.obj i = .layer (.ipv6 { v with nextHeader := t }) p) ∨
      (∃ d p, h.obj i = .layer (.data d) p ∧ d.nonce = none ∧
        (h.calls H cs).1.obj i = .layer (.data { d with echoNonce := false }) p) ∨
      (∃ u p, h.obj i = .layer (.udp u) p ∧ (∃ s d, .checksum i s d ∈ cs ∨ .verifyChecksum i s d ∈ cs) ∧
        (h.calls H cs).1.obj i = .layer (.udp { u with cksum := 0 }) p) := by
  have s := (pcalls_sim (H := H) cs ha (Sim.refl h)).1
  refine ⟨s.ctl, fun i => ?_⟩
  have ht : ∀ p, (((world h).afterAll H cs).obj p).headerType = (h.obj p).headerType := by
    intro p
    rcases afterAll_objs H cs (world h) p with e | ⟨u, q, e1, e2, _⟩
    · rw [e]; rfl
    · have e1 : h.obj p = .layer (.udp u) q := e1
      rw [e2, e1]; rfl
  rcases afterAll_objs H cs (world h) i with e | ⟨u, p, e1, e2, s', d, e3⟩
  · have e : ((world h).afterAll H cs).obj i = h.obj i := e
    rcases s.obj i with k | ⟨l, p, k1, k2⟩
    · exact .inl (k.trans e)
    · rw [e] at k1
      rw [ht] at k2
      rw [k2, k1]
      cases l with
      | ipv4 v =>
        cases hh : (h.obj p).headerType with
        | none => exact .inl rfl
        | some t => exact .inr (.inl ⟨v, p, t, rfl, hh, rfl⟩)
      | ipv6 v =>
        cases hh : (h.obj p).headerType with
        | none => exact .inl rfl
        | some t => exact .inr (.inr (.inl ⟨v, p, t, rfl, hh, rfl⟩))
      | data d =>
        simp only [Layer.fixed]
        rw [dataClear]
        split
        · next hd => exact .inr (.inr (.inr (.inl ⟨d, p, rfl, hd.2, rfl⟩)))
        · exact .inl rfl
      | _ => exact .inl rfl
  · have e1 : h.obj i = .layer (.udp u) p := e1
    refine .inr (.inr (.inr (.inr ⟨u, p, e1, ⟨s', d, e3⟩, ?_⟩)))
    rcases s.obj i with k | ⟨l, q, k1, k2⟩
    · exact k.trans e2
    · rw [e2] at k1; cases k1; exact k2

theorem world_answer (H : Mac) (h : PHeap) (ha : Acyclic (world h)) (c : PCall) :
    (h.call H c).2 = (world h).answer H c := (pcall_sim ha (Sim.refl h) c).2

/-- calls that change nothing a later call could see: all but `insert_authentication_data`, those that calculate
authentication data or a checksum only if they return -/
def QuietCall (H : Mac) (h : PHeap) (c : PCall) : Prop :=
  match c with
  | .sanitize _ => True
  | .toBytes _ => True
  | .msg (.sanitize _) => True
  | .msg (.toBytes _) => True
  | .msg (.insert _ _) => False
  | c => ∃ r, (h.call H c).2 = .ok r

theorem spoil_returned {w : PWorld} (ha : Acyclic w) {i : Nat} {src dst : Option IP}
    (h : (∃ c, pktChecksum src dst (w.value i) = .ok c) ∨ ∃ b, pktVerify src dst (w.value i) = .ok b) :
    w.spoil i src dst = w := by
  by_cases hu : ∃ u p, w.obj i = .layer (.udp u) p
  · obtain ⟨u, p, ho⟩ := hu
    obtain ⟨sp1, sp2⟩ := spoil_eq ho src dst
    by_cases hw : Unwritable u (w.value p) src dst
    · rw [value_layer ha ho] at h
      have h : (∃ c, udpChecksum u (w.value p) src dst = .ok c) ∨ ∃ b, udpVerify u (w.value p) src dst = .ok b := h
      have no : ∀ c, udpChecksum u (w.value p) src dst ≠ .ok c := by
        obtain ⟨pb, hpb, _, hn⟩ := hw
        intro c hc
        unfold udpChecksum at hc
        rw [hpb, exBind_okl] at hc
        obtain ⟨_, _, hc⟩ := exBind_ok.mp hc
        obtain ⟨m, hm, _⟩ := exBind_ok.mp hc
        exact (udp_zero_iff hpb).mp ⟨m, hm⟩ hn
      by_cases hz : u.cksum = 0
      · rw [sp1 hw]
        have : ({ u with cksum := 0 } : UdpHdr) = u := by rw [← hz]
        rw [this, setUdp_same ho]
      · rcases h with ⟨c, hc⟩ | ⟨b, hb⟩
        · exact absurd hc (no c)
        · unfold udpVerify at hb
          rw [if_neg hz] at hb
          obtain ⟨c, hc, _⟩ := exBind_ok.mp hb
          exact absurd hc (no c)
    · exact sp2 hw
  · exact spoil_other (fun u p e => hu ⟨u, p, e⟩) _ _

theorem quiet_after {H : Mac} {h : PHeap} (ha : Acyclic (world h)) {c : PCall} (hq : QuietCall H h c) :
    (world h).after H c = world h := by
  have ret : ∀ {α : Type} {x : Except Err α} {f : α → PReturned} {r : PReturned},
      x.map f = .ok r → ∃ a, x = .ok a := by
    intro α x f r e
    cases x with
    | ok a => exact ⟨a, rfl⟩
    | error e' => cases e
  cases c with
  | sanitize i => rfl
  | toBytes i => rfl
  | checksum i s d =>
    obtain ⟨r, hr⟩ := hq
    rw [world_answer H h ha] at hr
    exact spoil_returned ha (.inl (ret hr))
  | verifyChecksum i s d =>
    obtain ⟨r, hr⟩ := hq
    rw [world_answer H h ha] at hr
    exact spoil_returned ha (.inr (ret hr))
  | msg c =>
    have same : ∀ i, Heap.put (world h).msg i (withAuth (ctrlAuth ((world h).msg i)) ((world h).msg i)) = (world h).msg := by
      intro i; rw [withAuth_same, put_id]
    show ({ world h with msg := valCall H (world h).msg c } : PWorld) = world h
    have : valCall H (world h).msg c = (world h).msg := by
      cases c with
      | sanitize i => exact same i
      | toBytes i => exact same i
      | insert i key => exact hq.elim
      | verify i key =>
        obtain ⟨r, hr⟩ := hq
        rw [world_answer H h ha] at hr
        obtain ⟨a, hr⟩ := ret hr
        simp only [Props.answer, target] at hr
        simp only [valCall, authAfter, target]
        cases hm : ctrlMac H key ((world h).msg i) with
        | error e => rw [hm] at hr; cases hr
        | ok a => exact same i
    rw [this]

/-- C79: in a sequence of calls none of which is `insert_authentication_data`, and in which those that calculate
authentication data or a checksum return, every call answers as if it were the only one made -/
theorem calls_alone (H : Mac) (h : PHeap) (ha : Acyclic (world h)) (cs : List PCall) (hc : ∀ c ∈ cs, QuietCall H h c) :
    (h.calls H cs).2 = cs.map fun c => (h.call H c).2 := by
  rw [packets_as_values H h ha]
  induction cs with
  | nil => rfl
  | cons c cs ih =>
    show (world h).answer H c :: ((world h).after H c).answers H cs = _ :: _
    rw [quiet_after ha (hc c List.mem_cons_self), ih fun c' h' => hc c' (List.mem_cons_of_mem _ h')]
    exact congrArg (· :: _) (world_answer H h ha c).symm

/-- C79: `to_bytes` of a packet gives the same bytes, or the same exception, before and after any calls other than
calculations of checksums and of authentication data -/
theorem packet_bytes_stable (H : Mac) (h : PHeap) (ha : Acyclic (world h)) (cs : List PCall) (i : Nat)
    (hc : ∀ c ∈ cs, (∃ j, c = .sanitize j) ∨ (∃ j, c = .toBytes j) ∨ (∃ j, c = .msg (.sanitize j)) ∨
      ∃ j, c = .msg (.toBytes j)) :
    ((h.calls H cs).1.toBytes i).2 = (h.toBytes i).2 := by
  have s := (pcalls_sim (H := H) cs ha (Sim.refl h)).1
  have hw : (world h).afterAll H cs = world h := by
    induction cs with
    | nil => rfl
    | cons c cs ih =>
      show ((world h).after H c).afterAll H cs = _
      rw [quiet_after ha (by
        rcases hc c List.mem_cons_self with ⟨j, rfl⟩ | ⟨j, rfl⟩ | ⟨j, rfl⟩ | ⟨j, rfl⟩ <;> trivial)]
      refine ih (fun c' h' => hc c' (List.mem_cons_of_mem _ h')) ?_
      exact (pcalls_sim (H := H) cs ha (Sim.refl h)).1
  rw [hw] at s
  rw [(toBytes_sim ha s i).2, (toBytes_sim ha (Sim.refl h) i).2]

/-- C79: what `calculate_checksum` and `verify_checksum` do to the UDP message they are called on: nothing, unless it
cannot be written; then its checksum is 0 -/
theorem checksum_lost (h : PHeap) (ha : Acyclic (world h)) {i p : Nat} {u : UdpHdr}
    (hi : h.obj i = .layer (.udp u) p) (src dst : Option IP) :
    (Unwritable u ((world h).value p) src dst →
      (h.checksum i src dst).1.obj i = .layer (.udp { u with cksum := 0 }) p ∧
      (h.verifyChecksum i src dst).1.obj i = .layer (.udp { u with cksum := 0 }) p ∧
      (h.checksum i src dst).2 = .error .value) ∧
    (¬ Unwritable u ((world h).value p) src dst →
      (h.checksum i src dst).1.obj i = h.obj i ∧ (h.verifyChecksum i src dst).1.obj i = h.obj i) := by
  have hi' : (world h).obj i = .layer (.udp u) p := hi
  obtain ⟨sp1, sp2⟩ := spoil_eq hi' src dst
  obtain ⟨c1, c2⟩ := checksum_sim ha (Sim.refl h) i src dst
  obtain ⟨v1, _⟩ := verify_sim ha (Sim.refl h) i src dst
  have key : ∀ {w : PWorld} {h' : PHeap} {u' : UdpHdr}, Sim h.ctl w h' → w.obj i = .layer (.udp u') p →
      h'.obj i = .layer (.udp u') p := by
    intro w h' u' s e
    obtain ⟨l', e1, e2⟩ := s.layer e
    rcases e2 with rfl | rfl <;> exact e1
  constructor
  · intro hw
    rw [sp1 hw] at c1 v1
    refine ⟨key c1 (put_same _ _ _), key v1 (put_same _ _ _), ?_⟩
    rw [c2, value_layer ha hi']
    obtain ⟨pb, hpb, hv, hn⟩ := hw
    show udpChecksum u ((world h).value p) src dst = _
    unfold udpChecksum
    obtain ⟨ph, hph⟩ := pseudo_defined_iff.mpr hv
    rw [hpb, exBind_okl, hph, exBind_okl]
    simp only [Pkt.toBytes, hpb, UdpHdr.sanitize]
    by_cases h1 : u.sport < 0 ∨ u.sport ≥ 2 ^ 16
    · rw [if_pos h1]; rfl
    · rw [if_neg h1]
      by_cases h2 : u.dport < 0 ∨ u.dport ≥ 2 ^ 16
      · rw [if_pos h2]; rfl
      · rw [if_neg h2, exBind_okl, exBind_okl]
        have : encUdpRaw { u with cksum := 0 } pb.length = .error .value := by
          unfold encUdpRaw
          dsimp only
          rw [encUint_eq_ok (by omega) (by omega), exBind_okl, encUint_eq_ok (by omega) (by omega), exBind_okl]
          have : encUint 16 ((pb.length + 8 : Nat) : Int) = .error .value := by
            unfold encUint
            rw [if_neg (by omega)]
          rw [this]; rfl
        rw [this]; rfl
  · intro hw
    rw [sp2 hw] at c1 v1
    exact ⟨(key c1 hi').trans hi.symm, (key v1 hi').trans hi.symm⟩

/-- C79: a UDP message that cannot be written and has a checksum: the first `verify_checksum` raises, and every later
one, for whatever addresses, says that the checksum is right -/
theorem verify_raises_once (h : PHeap) (ha : Acyclic (world h)) {i p : Nat} {u : UdpHdr}
    (hi : h.obj i = .layer (.udp u) p) (hz : u.cksum ≠ 0) {src dst : Option IP}
    (hw : Unwritable u ((world h).value p) src dst) :
    (h.verifyChecksum i src dst).2 = .error .value ∧
    ∀ src' dst', ((h.verifyChecksum i src dst).1.verifyChecksum i src' dst').2 = .ok true := by
  obtain ⟨k1, k2, k3⟩ := (checksum_lost h ha hi src dst).1 hw
  constructor
  · unfold PHeap.verifyChecksum
    rw [hi]
    dsimp only
    rw [if_neg hz, k3]; rfl
  · intro src' dst'
    rw [PHeap.verifyChecksum, k2]
    rfl

/-- C79: once `sanitize` of a packet has returned, calling it again changes nothing at all and returns -/
theorem packet_sanitize_again (h h1 : PHeap) (ha : Acyclic (world h)) (i : Nat) (hs : h.sanitize i = (h1, .ok ())) :
    h1.sanitize i = (h1, .ok ()) := by
  unfold PHeap.sanitize at hs
  cases ho : h.obj i with
  | raw b => rw [ho] at hs; cases hs
  | msg m =>
    rw [ho] at hs
    dsimp only at hs
    have e1 : h1 = { h with ctl := (h.ctl.sanitizeMsg (h.ctl.msg m)).1 } := (congrArg Prod.fst hs).symm
    have e2 : (h.ctl.sanitizeMsg (h.ctl.msg m)).2 = .ok () := congrArg Prod.snd hs
    have hm := (sanitizeMsg_result h.ctl (h.ctl.msg m)).2.1
    have ag := (sanitize_again h.ctl _ (h.ctl.msg m) (Prod.ext rfl e2)).1
    unfold PHeap.sanitize
    rw [e1]
    dsimp only
    rw [ho]
    dsimp only
    rw [hm, ag]
  | layer l p =>
    rw [ho] at hs
    dsimp only at hs
    have hp : p ≠ i := by have := ha i l p ho; omega
    have e1 : h1 = h.setLayer i (l.sanitize (h.obj p).headerType).1 p := (congrArg Prod.fst hs).symm
    have e2 : (l.sanitize (h.obj p).headerType).2 = .ok () := congrArg Prod.snd hs
    rw [Layer.sanitize_ok e2] at e1
    have o1 : h1.obj i = .layer (Layer.fixed (h.obj p).headerType l) p := by rw [e1]; exact put_same _ _ _
    have o2 : h1.obj p = h.obj p := by rw [e1]; exact put_other _ hp _
    unfold PHeap.sanitize
    rw [o1]
    dsimp only
    rw [o2, Layer.sanitize_fixed, e2]
    refine congrArg (·, Except.ok ()) ?_
    unfold PHeap.setLayer
    rw [← o1, put_id]

/-! ### A heap with sharing -/

/-- 192.0.2.1 and 192.0.2.2 -/
def exV4a : Option IP := some ⟨.v4, 3221225985, by decide⟩
def exV4b : Option IP := some ⟨.v4, 3221225986, by decide⟩

/-- 0: a byte string; 1: a UDP message around it; 2: an IPv4 packet around that, with a wrong next header; 3: a LISP data
packet around 2, without nonce but with the echo-nonce-request flag; 4: an encapsulated control message around the same
2; 5: a UDP message around 0 with an impossible port and a checksum; everything else: control messages -/
def exPHeap : PHeap where
  ctl := exHeap
  obj i :=
    match i with
    | 0 => .raw [1, 2, 3]
    | 1 => .layer (.udp { sport := 1000, dport := 2000, cksum := 0 }) 0
    | 2 => .layer (.ipv4 { nextHeader := 99, ttl := 64, src := exV4a, dst := exV4b }) 1
    | 3 => .layer (.data { echoNonce := true }) 2
    | 4 => .layer (.ecm {}) 2
    | 5 => .layer (.udp { sport := 70000, dport := 2000, cksum := 7 }) 0
    | n => .msg n

theorem exPHeap_acyclic : Acyclic (world exPHeap) := by
  intro i l p h
  have h : exPHeap.obj i = .layer l p := h
  match i, h with
  | 1, h => cases h; decide
  | 2, h => cases h; decide
  | 3, h => cases h; decide
  | 4, h => cases h; decide
  | 5, h => cases h; decide
  | 0, h => cases h
  | n + 6, h => cases h

-- the objects are changed in place, also the shared one
example : (exPHeap.toBytes 3).1.obj 2 =
      .layer (.ipv4 { nextHeader := 17, ttl := 64, src := exV4a, dst := exV4b }) 1 ∧
    (exPHeap.toBytes 3).1.obj 3 = .layer (.data {}) 2 := by decide +kernel

-- and the packets can be written
example : (exPHeap.toBytes 3).2.isOk = true ∧ (exPHeap.toBytes 4).2.isOk = true ∧
    (exPHeap.checksum 1 exV4a exV4b).2.isOk = true := by decide +kernel

-- the UDP message with the impossible port
theorem exUnwritable :
    Unwritable { sport := 70000, dport := 2000, cksum := 7 } ((world exPHeap).value 0) exV4a exV4b :=
  ⟨[1, 2, 3], rfl, .inl ⟨rfl, rfl, by decide⟩, .inr (.inl (by decide))⟩

example : (exPHeap.verifyChecksum 5 exV4a exV4b).2 = .error .value ∧
    ((exPHeap.verifyChecksum 5 exV4a exV4b).1.verifyChecksum 5 exV4a exV4a).2 = .ok true :=
  have h := verify_raises_once exPHeap exPHeap_acyclic (i := 5) rfl (by decide) exUnwritable
  ⟨h.1, h.2 _ _⟩

-- quiet calls on shared objects
example (H : Mac) : (exPHeap.calls H [.toBytes 3, .sanitize 2, .toBytes 4, .checksum 1 exV4a exV4b]).2 =
    [(exPHeap.call H (.toBytes 3)).2, (exPHeap.call H (.sanitize 2)).2, (exPHeap.call H (.toBytes 4)).2,
      (exPHeap.call H (.checksum 1 exV4a exV4b)).2] :=
  calls_alone H exPHeap exPHeap_acyclic _ (by
    intro c hc
    simp only [List.mem_cons, List.not_mem_nil, or_false] at hc
    rcases hc with rfl | rfl | rfl | rfl
    · trivial
    · trivial
    · trivial
    · have e : (exPHeap.checksum 1 exV4a exV4b).2.isOk = true := by decide +kernel
      show ∃ r, (exPHeap.checksum 1 exV4a exV4b).2.map PReturned.number = .ok r
      cases hx : (exPHeap.checksum 1 exV4a exV4b).2 with
      | ok n => exact ⟨_, rfl⟩
      | error e' => rw [hx] at e; cases e)

example : ∃ h1, exPHeap.sanitize 3 = (h1, .ok ()) ∧ h1.obj 3 ≠ exPHeap.obj 3 :=
  ⟨_, rfl, by decide +kernel⟩

end Props
end PyLisp
