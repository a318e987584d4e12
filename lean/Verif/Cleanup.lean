import Verif.MapServer
/-
The life of the cleanup thread of a Map-Server (map_server_node.py:49-107, 110-127); what a pass does to the store is in
MapServer.lean (`MsStep`).
-/
namespace PyLisp

/-- what happens to the cleanup thread: somebody calls its `stop` (105-107), the Map-Server node is discarded (nothing
refers to it any more, so `__del__`, 124-127, runs), or the thread goes through its loop once (70-100), reads the clock
as `now`, and gets through the pass or not (`ok`; whatever is raised is swallowed, 96-97) -/
inductive CleanEvent
  | stop
  | discard
  | turn (now : Int) (ok : Bool)

/-- `gone`: the weak reference of line 63 is dead; `asked`: the event of line 66 is set; `ended`: `run` has returned;
`passes`: the times the complete passes worked with -/
structure CleanState where
  gone : Bool := false
  asked : Bool := false
  ended : Bool := false
  passes : List Int := []

/-- map_server_node.py:68-107, 124-127.  With the node gone, line 81 raises ReferenceError, which is swallowed at 96 like
any other exception (so line 102 is never reached). -/
def CleanState.step (s : CleanState) : CleanEvent → CleanState
  | .stop => { s with asked := true }
  | .discard => { s with gone := true, asked := true }
  | .turn now ok =>
    if s.ended = true then s
    else if s.asked = true then { s with ended := true }
    else if s.gone = true ∨ ok = false then s
    else { s with passes := s.passes ++ [now] }

/-- the events in turn: the loop of map_server_node.py:70-100 -/
def CleanState.run (s : CleanState) (l : List CleanEvent) : CleanState := l.foldl CleanState.step s

end PyLisp
