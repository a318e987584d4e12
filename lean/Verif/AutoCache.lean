import Verif.NetIO
import Verif.Dict
/-
The caches of automatic addresses (utils/auto_addresses.py:141-171).
-/
namespace PyLisp

/-- the automatic addresses of the process and the two caches (auto_addresses.py:142-143), here as one
dictionary with the family in the key; a cache keeps its objects alive -/
structure AutoCache where
  objs : List AutoObj := []
  cache : List ((String × Ver) × Nat) := []

/-- auto_addresses.py:146-157 `get_ipv4_address` and 160-171 `get_ipv6_address`: the object from the cache,
or a new one (with the next number as its identity), which is put into the cache -/
def getAddress (st : AutoCache) (name : String) (ver : Ver) (env : Interfaces) : AutoCache × Nat :=
  match dictGet st.cache (name, ver) with
  | some id => (st, id)
  | none =>
    ({ objs := autoStep st.objs (.create st.objs.length name ver env),
       cache := dictSet st.cache (name, ver) st.objs.length }, st.objs.length)

/-- what a program does that gets its automatic addresses by these functions only -/
inductive CacheEvent
  | get (name : String) (ver : Ver) (env : Interfaces)
  | updateAll (env : Interfaces)

/-- utils/auto_addresses.py:24-32, 146-171 as the reaction to one event -/
def cacheStep (st : AutoCache) : CacheEvent → AutoCache
  | .get name ver env => (getAddress st name ver env).1
  | .updateAll env => { st with objs := autoStep st.objs (.updateAll env) }

/-- application/lispd/address_tree/map_server_node.py:182-183, run when lispd is loaded: a sample message is made
with two automatic IPv4 addresses of the interface vlan2, not taken from the cache, and kept for ever (as `x`).  They
find `e1` and `e2` on the interfaces. -/
def loaded (e1 e2 : Interfaces) : AutoCache :=
  { objs := autoStep (autoStep [] (.create 0 "vlan2" .v4 e1)) (.create 1 "vlan2" .v4 e2) }

end PyLisp
