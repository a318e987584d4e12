import Verif.Etr
/-
The registration threads of one ETR node together (etr_node.py:413-460 `MSRThread.run`, 546-561 `set_rtrs`, `get_rtrs`,
519-523 `_locators_have_changed`): they share the RTR sets of the node and set each other's flags, without a lock.  A step
is one access to what is shared; a schedule is any sequence of steps of the threads.  What a single thread does in a pass
is `runPass` (Etr.lean).  The threads of the node stay the same here, and its locators are not looked at (EtrRace.lean).
-/
namespace PyLisp

/-- where a thread is in `run` -/
inductive MsrPc
  /-- between two passes (etr_node.py:420, 456) -/
  | sleep
  /-- in `get_nat_info` (430) -/
  | asking (now : Int)
  /-- before 435 -/
  | check (now : Int)
  /-- before 439 -/
  | reset (now : Int)
  /-- in `register`, before the RTRs are read (565) -/
  | read (now : Int)
  /-- in `register`, the locators determined with these RTRs (361-410) -/
  | sending (now : Int) (used : List Addr)
  /-- before 547 -/
  | setOld
  /-- before 548 -/
  | setNew (old : Option (List Addr))
  /-- before 551 -/
  | compare (old : Option (List Addr))
  /-- in the loop of 522-523, these are left -/
  | signal (todo : List Nat)
  /-- `run` has returned (421) -/
  | ended

/-- the local variables of `run` (413-415, 430) -/
structure MsrLoc where
  pc : MsrPc := .sleep
  lastNat : Int := 0
  lastReg : Int := 0
  ok : Bool := false
  nat : Option NatInfo := none

/-- the node, with the RTR sets (etr_node.py:474) and the flags of its threads (291), its threads, and the registrations
made so far: by which thread, with which RTRs (those during which something was raised do not count) -/
structure RtrSys where
  node : EtrState
  loc : Nat → MsrLoc := fun _ => {}
  log : List (Nat × List Addr) := []

/-- what a step of a thread meets: whether it is told to stop, the time, what `get_nat_info` comes to, and what sending
the Map-Register and waiting for the answer come to -/
structure MsrIn where
  stop : Bool := false
  now : Int
  nat : Except Err (Option NatInfo)
  reg : Except Err (Option Bool)

/-- `etrr_thread.need_new_registration` (etr_node.py:291, 436) -/
def EtrState.flag (s : EtrState) (t : Nat) : Bool := dictGet s.threads t == some true

/-- `etrr_thread.need_new_registration = b` (etr_node.py:439, 523) -/
def EtrState.setFlag (s : EtrState) (t : Nat) (b : Bool) : EtrState :=
  { s with threads := s.threads.map fun p => if p.1 = t then (p.1, b) else p }

/-- a thread moves on (etr_node.py:412-460) -/
def RtrSys.setLoc (s : RtrSys) (t : Nat) (l : MsrLoc) : RtrSys := { s with loc := fun j => if j = t then l else s.loc j }

/-- a thread goes to another place (etr_node.py:412-460) -/
def RtrSys.goto (s : RtrSys) (t : Nat) (p : MsrPc) : RtrSys := s.setLoc t { s.loc t with pc := p }

/-- etr_node.py:412-460, 357-360, 546-552, 519-523: one step of thread `t`.  Exceptions end the pass (452-453). -/
def RtrSys.step (s : RtrSys) (t : Nat) (i : MsrIn) : RtrSys :=
  match (s.loc t).pc with
  | .sleep =>
    if i.stop = true then s.goto t .ended
    else if (!(s.loc t).ok || decide ((s.loc t).lastNat + natInterval < i.now)) = true then s.goto t (.asking i.now)
    else s.goto t (.check i.now)
  | .asking now =>
    match i.nat with
    | .error _ => s.goto t .sleep
    | .ok n => s.setLoc t { s.loc t with pc := .check now, nat := n, lastNat := now, ok := false }
  | .check now =>
    if (!(s.loc t).ok || s.node.flag t || decide ((s.loc t).lastReg + regInterval < now)) = true then
      s.goto t (.reset now)
    else s.goto t .sleep
  | .reset now => { s with node := s.node.setFlag t false }.goto t (.read now)
  | .read now =>
    match getRtrs s.node with
    | .error _ => s.goto t .sleep
    | .ok rs => s.goto t (.sending now ((natRtrs (s.loc t).nat).foldl addNew (rs.map Addr.ip)))
  | .sending now used =>
    match i.reg with
    | .error _ => s.goto t .sleep
    | .ok r => { s with log := s.log ++ [(t, used)] }.setLoc t
        { s.loc t with pc := .setOld, ok := r == some true, lastReg := now }
  | .setOld => s.goto t (.setNew (dictGet s.node.rtrs t))
  | .setNew old =>
    { s with node := { s.node with
        rtrs := dictSet s.node.rtrs t ((natRtrs (s.loc t).nat).foldl addNew []) } }.goto t (.compare old)
  | .compare old =>
    if rtrsChanged old ((dictGet s.node.rtrs t).getD []) = true then s.goto t (.signal (dictKeys s.node.threads))
    else s.goto t .sleep
  | .signal [] => s.goto t .sleep
  | .signal (j :: js) => { s with node := s.node.setFlag j true }.goto t (.signal js)
  | .ended => s

/-- the steps of the threads in the order of a schedule (etr_node.py:412-460) -/
def RtrSys.run (s : RtrSys) (l : List (Nat × MsrIn)) : RtrSys := l.foldl (fun s e => s.step e.1 e.2) s

end PyLisp
