import Verif.Lispd
/-
Signals (scripts/lispd:41-65, 266-270, 316-326): the handler writes the number of a signal into a pipe; every pass of the
main loop in which the pipe is readable takes one signal out of it.
-/
namespace PyLisp

/-- the signals that lispd handles (scripts/lispd:268-270) -/
inductive Sig
  | hup | int | term
  deriving DecidableEq

/-- scripts/lispd:317-326: what the main loop does for a signal; `ok` is false if updating the addresses raises -/
def Sig.event (ok : Bool) : Sig → LispdEvent
  | .hup => .hup ok
  | _ => .stop

/-- the main loop and the signal pipe.  `over` tells that a signal has found the pipe full: `os.write` (63) then raises
OSError wherever the main thread is; what happens after that is not modelled.  `handled` are the signals taken out of
the pipe so far. -/
structure SigState where
  lisp : LispdState
  pipe : List Sig := []
  handled : List Sig := []
  over : Bool := false

/-- scripts/lispd:57-65 `signalfd_handler`, for signals that arrive one after the other; `cap` is the size of the pipe -/
def SigState.arrive (cap : Nat) (st : SigState) : List Sig → SigState
  | [] => st
  | s :: l =>
    if st.pipe.length < cap then SigState.arrive cap { st with pipe := st.pipe ++ [s] } l
    else SigState.arrive cap { st with over := true } l

/-- one pass of the main loop: signals that arrive before `select`, whether `select` works (it may be interrupted by a
signal, for one thing), the other sockets that are ready and what happens with them, signals that arrive meanwhile, and
whether updating the addresses works -/
structure SigPass where
  before : List Sig := []
  selectOk : Bool := true
  ready : List LispdEvent := []
  during : List Sig := []
  hupOk : Bool := true

/-- `os.read(fd_sock, 1)` (scripts/lispd:318) -/
def SigState.take (st : SigState) : SigState := { st with pipe := st.pipe.drop 1, handled := st.handled ++ st.pipe.take 1 }

/-- the rest of the state of lispd after a pass (scripts/lispd:274-329) -/
def SigState.setLisp (st : SigState) (l : LispdState) : SigState := { st with lisp := l }

/-- scripts/lispd:274-329: one pass.  The pipe is the last in the list given to `select` (283), so it is looked at after
the sockets. -/
def sigPass (s : Setup) (petr : Option IP) (maxint cap : Nat) (st : SigState) (p : SigPass) : SigState :=
  if st.lisp.running = true then
    if p.selectOk = true then
      match (st.arrive cap p.before).pipe with
      | [] => ((st.arrive cap p.before).setLisp (lispdBatch s petr maxint st.lisp p.ready).1).arrive cap p.during
      | sig :: _ =>
        ((st.arrive cap p.before).setLisp
          (lispdBatch s petr maxint st.lisp (p.ready ++ [sig.event p.hupOk])).1).arrive cap p.during |>.take
    else (st.arrive cap p.before).arrive cap p.during
  else (st.arrive cap p.before).arrive cap p.during

/-- passes one after the other (scripts/lispd:274-329) -/
def sigRun (s : Setup) (petr : Option IP) (maxint cap : Nat) (st : SigState) (l : List SigPass) : SigState :=
  l.foldl (sigPass s petr maxint cap) st

end PyLisp
