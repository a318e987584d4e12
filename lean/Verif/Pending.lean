import Verif.Etr
/-
Model of the requests an ETR node waits for an answer to, as the threads that make them and the main
thread that handles the answers see them:
  pylisp/application/lispd/address_tree/etr_node.py  52-92, 116-132, 179-195 (the request objects),
    302-332 and 364-409 (the registration threads), 606-616 and 659-670 (the handling of an answer)
The threads run concurrently without locks.  A step is what the global interpreter lock makes atomic:
one access to the shared list or to a field of a request that more than one thread uses.  The list is
iterated over by index while other threads append to it and remove from it.  There are two such
lists, of Map-Registers that want a Map-Notify (`Requests.notify`) and of Info-Requests (`Requests.info`); they
share nothing, so a state is about one of them.
-/
namespace PyLisp.Pending

/-- which of the two lists (etr_node.py:476-477) -/
inductive Requests
  | notify | info
  deriving DecidableEq

/-- an answer as it comes in: what the handler gets (etr_node.py:606, 659).  `body` is the message
object. -/
structure Delivery (α : Type) where
  source : IP
  nonce : Bytes
  body : α
  deriving DecidableEq

/-- where the thread that made a request is (etr_node.py:306-332, 379-409) -/
inductive Pc (α : Type)
  /-- about to send, or sending (308, 381) -/
  | sending
  /-- waiting for the answer (311, 384) -/
  | waiting
  /-- about to take the request off the list (323, 396) -/
  | leaving
  /-- about to look whether there was an answer (325, 398; the check in the content test, 193, sees the
  same, as the event is never cleared) -/
  | judging
  /-- a Map-Notify was authenticated (197), its contents are to be compared (201-269) -/
  | comparing (m : Delivery α)
  /-- the answer that was authenticated and the one whose contents were compared; for an Info-Reply
  there is only one (332), with its `private_etr_rloc` if that was filled in -/
  | answered (m m' : Delivery α) (priv : Option IP)
  /-- no answer (325-330, 407-409) -/
  | unanswered
  /-- told to stop (313-314, 386-387), or sending raised an exception (308, 381): the request is left -/
  | abandoned
  deriving DecidableEq

/-- etr_node.py:52-92 `InfoRequest`, 95-132 `MapRegister`: the fields used by more than one thread, and
where its thread is.  `answer`: `notify`/`info_reply`, with the `private_etr_rloc` filled in at 90;
`event`: `notify_received`/`reply_received`; `left`: the attempts left after this one. -/
structure Waiting (α : Type) where
  server : IP
  nonce : Bytes
  left : Nat := 2
  pc : Pc α := .sending
  sentFrom : Option IP := none
  answer : Option (Delivery α × Option IP) := none
  event : Bool := false

/-- where the main thread is in the handling of an answer (etr_node.py:610-613, 664-667) -/
inductive Handler (α : Type)
  | idle
  /-- the next iteration of the loop, which looks at index `i` of the list -/
  | next (m : Delivery α) (i : Nat)
  /-- request `r` came out of the list; to be tested -/
  | holding (m : Delivery α) (i r : Nat)
  /-- the answer is stored with `r` (89, 188) -/
  | stored (m : Delivery α) (r : Nat)
  /-- `private_etr_rloc` is filled in (90) -/
  | filled (m : Delivery α) (r : Nat)
  deriving DecidableEq

/-- how the handling of an answer ended -/
inductive Handled (α : Type)
  /-- request `r` took it -/
  | taken (m : Delivery α) (r : Nat)
  /-- no request matched (615, 669) -/
  | unexpected (m : Delivery α)
  /-- TypeError (90) -/
  | raised (m : Delivery α) (r : Nat)
  deriving DecidableEq

/-- the shared state: the request objects made so far (numbers below `count`), the list, the main
thread, and how the answers were handled -/
structure Shared (α : Type) where
  kind : Requests
  count : Nat := 0
  reqs : Nat → Waiting α
  list : List Nat := []
  handler : Handler α := .idle
  log : List (Handled α) := []

/-- a step of a thread -/
inductive Act (α : Type)
  /-- a thread makes a request and appends it (302-304, 363-377) -/
  | start (server : IP) (nonce : Bytes)
  /-- `send` returned; `src` is what becomes `sent_from` (77-80, 137-140); sockets are represented by
  their address -/
  | sent (r : Nat) (src : Option IP)
  /-- `send` raised an exception -/
  | fails (r : Nat)
  /-- the wait returned, with or without the event being set (311-320, 384-393); `stop`: the thread was
  told to stop -/
  | wakes (r : Nat) (stop : Bool)
  /-- the request is taken off the list (323, 396) -/
  | leaves (r : Nat)
  /-- was there an answer (325, 332, 398-400)? -/
  | judges (r : Nat)
  /-- the contents of the Map-Notify are compared (201-269).  Simplified: the reads of `notify` in these
  lines are one step, after the one of 197. -/
  | compares (r : Nat)
  /-- the main thread starts to handle an answer -/
  | receives (m : Delivery α)
  /-- the main thread makes its next step -/
  | proceeds

/-- assignment to fields of request `r` -/
def Shared.set {α : Type} (s : Shared α) (r : Nat) (f : Waiting α → Waiting α) : Shared α :=
  { s with reqs := fun j => if j = r then f (s.reqs r) else s.reqs j }

/-- a request is made and appended to the list (etr_node.py:302-304, 363-377) -/
def Shared.add {α : Type} (s : Shared α) (server : IP) (nonce : Bytes) : Shared α :=
  { s with
    reqs := fun j => if j = s.count then { server := server, nonce := nonce } else s.reqs j
    count := s.count + 1
    list := s.list ++ [s.count] }

/-- a request is taken off the list (etr_node.py:323, 396) -/
def Shared.remove {α : Type} (s : Shared α) (r : Nat) : Shared α :=
  { s with
    reqs := fun j => if j = r then { s.reqs r with pc := .judging } else s.reqs j
    list := s.list.erase r }

/-- the next step of the main thread (etr_node.py:82-92, 179-190, 610-616, 664-670).  A list iterator
ends when its index is not less than the length the list has then. -/
def Shared.proceed {α : Type} (s : Shared α) : Option (Shared α) :=
  match s.handler with
  | .idle => none
  | .next m i =>
    match s.list[i]? with
    | none => some { s with handler := .idle, log := s.log ++ [.unexpected m] }
    | some r => some { s with handler := .holding m (i + 1) r }
  | .holding m i r =>
    if m.source ≠ (s.reqs r).server ∨ m.nonce ≠ (s.reqs r).nonce then
      some { s with handler := .next m i }
    else
      some { s.set r (fun q => { q with answer := some (m, none) }) with handler := .stored m r }
  | .stored m r =>
    match s.kind with
    | .notify =>
      some { s.set r (fun q => { q with event := true }) with
        handler := .idle, log := s.log ++ [.taken m r] }
    | .info =>
      match (s.reqs r).sentFrom with
      | none => some { s with handler := .idle, log := s.log ++ [.raised m r] }
      | some a =>
        some { s.set r (fun q => { q with answer := some (m, some a) }) with handler := .filled m r }
  | .filled m r =>
    some { s.set r (fun q => { q with event := true }) with
      handler := .idle, log := s.log ++ [.taken m r] }

/-- one step; `none` when the thread is not there, or when the step would raise an exception that is
not part of the model (ValueError of `remove`, AttributeError of an answer that is None) -/
def Shared.step {α : Type} (s : Shared α) : Act α → Option (Shared α)
  | .start server nonce =>
    some (s.add server nonce)
  | .sent r src =>
    match (s.reqs r).pc with
    | .sending =>
      if r < s.count then
        some (s.set r fun q => { q with pc := .waiting, sentFrom := src })
      else none
    | _ => none
  | .fails r =>
    match (s.reqs r).pc with
    | .sending => if r < s.count then some (s.set r fun q => { q with pc := .abandoned }) else none
    | _ => none
  | .wakes r stop =>
    match (s.reqs r).pc with
    | .waiting =>
      some (s.set r fun q =>
        if stop = true then { q with pc := .abandoned }
        else if q.event = true then { q with pc := .leaving }
        else if q.left = 0 then { q with pc := .leaving }
        else { q with pc := .sending, left := q.left - 1 })
    | _ => none
  | .leaves r =>
    match (s.reqs r).pc with
    | .leaving =>
      if r ∈ s.list then some (s.remove r) else none
    | _ => none
  | .judges r =>
    match (s.reqs r).pc with
    | .judging =>
      if (s.reqs r).event = true then
        match (s.reqs r).answer with
        | none => none
        | some (m, priv) =>
          match s.kind with
          | .notify => some (s.set r fun q => { q with pc := .comparing m })
          | .info => some (s.set r fun q => { q with pc := .answered m m priv })
      else some (s.set r fun q => { q with pc := .unanswered })
    | _ => none
  | .compares r =>
    match (s.reqs r).pc with
    | .comparing m =>
      match (s.reqs r).answer with
      | none => none
      | some (m', priv) => some (s.set r fun q => { q with pc := .answered m m' priv })
    | _ => none
  | .receives m =>
    match s.handler with
    | .idle => some { s with handler := .next m 0 }
    | _ => none
  | .proceeds => s.proceed

/-- a schedule: the steps of all threads, one after the other -/
def Shared.run {α : Type} : Shared α → List (Act α) → Option (Shared α)
  | s, [] => some s
  | s, a :: as => (s.step a).bind fun s' => s'.run as

/-- a new node (etr_node.py:476-477) -/
def Shared.new {α : Type} (k : Requests) : Shared α :=
  { kind := k, reqs := fun _ => { server := ⟨.v4, 0, by decide⟩, nonce := [] } }

end PyLisp.Pending
