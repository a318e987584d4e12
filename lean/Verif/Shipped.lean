import Verif.Settings
import Verif.Tree
/-
The configuration files that come with the program: etc/lispd/settings.py, settings_xtr.py and settings_global.py, as far
as loading them (pylisp/application/lispd/settings.py:92-112) goes: the calls of constructors in them, and what they
define.
-/
namespace PyLisp

/-- a call in a configuration file: the class, the number of positional arguments, and the names of the others -/
structure CfgCall where
  cls : String
  pos : Nat
  kws : List String
  deriving DecidableEq

/-- the parameters of the constructors, without self, and whether they are required: container_node.py:16,
authoritative_container_node.py:20, map_server_node.py:111, etr_node.py:467, etr_registration.py:16, locator_record.py:26-28,
auto_addresses.py:124, 136, 146, 160 -/
def initParams (cls : String) : List (String × Bool) :=
  if cls = "ContainerNode" then [("prefix", true), ("children", false)]
  else if cls = "AuthContainerNode" then [("prefix", true), ("children", false), ("ddt_nodes", false)]
  else if cls = "MapServerNode" then [("prefix", true), ("key", true), ("allow_more_specifics", false)]
  else if cls = "ETRNode" then [("prefix", true), ("locators", false), ("registrations", false)]
  else if cls = "ETRRegistration" then [("map_server", true), ("key_id", false), ("key", false),
    ("proxy_map_reply", false), ("use_rtr", false)]
  else if cls = "LocatorRecord" then [("priority", false), ("weight", false), ("m_priority", false), ("m_weight", false),
    ("local", false), ("probed_locator", false), ("reachable", false), ("address", false)]
  else [("if_name", true)]

/-- Python's binding of arguments: TypeError for too many positional ones, unknown names, parameters given twice, and
missing ones (etc/lispd/settings.py:11-23, settings_xtr.py:8-34, settings_global.py:11-38) -/
def CfgCall.bind (c : CfgCall) : Except Err Unit :=
  let ps := initParams c.cls
  if c.pos > ps.length then .error .type
  else if !c.kws.all fun k => (ps.map Prod.fst).contains k then .error .type
  else if c.kws.any fun k => ((ps.take c.pos).map Prod.fst).contains k then .error .type
  else if (ps.drop c.pos).any fun p => p.2 && !c.kws.contains p.1 then .error .type
  else .ok ()

/-- the calls in the order of evaluation (etc/lispd/settings.py:11-23, settings_xtr.py:8-34, settings_global.py:11-38) -/
def runCalls : List CfgCall → Except Err Unit
  | [] => .ok ()
  | c :: cs =>
    match c.bind with
    | .error e => .error e
    | .ok _ => runCalls cs

/-- etc/lispd/settings_xtr.py:8-34: the addresses, the locators, the registrations, then the trees -/
def xtrCalls : List CfgCall :=
  [⟨"get_ipv4_address", 1, []⟩, ⟨"get_ipv6_address", 1, []⟩,
   ⟨"get_ipv4_address", 1, []⟩, ⟨"LocatorRecord", 0, ["priority", "weight", "address"]⟩,
   ⟨"get_ipv6_address", 1, []⟩, ⟨"LocatorRecord", 0, ["priority", "weight", "address"]⟩,
   ⟨"ETRRegistration", 1, ["key_id", "key", "proxy_map_reply", "use_rtr"]⟩,
   ⟨"ETRRegistration", 1, ["key_id", "key", "proxy_map_reply", "use_rtr"]⟩,
   ⟨"ETRNode", 1, ["locators", "map_servers"]⟩, ⟨"ContainerNode", 2, []⟩,
   ⟨"ETRNode", 1, ["locators", "map_servers"]⟩, ⟨"ContainerNode", 2, []⟩]

/-- etc/lispd/settings_global.py:11-38 -/
def globalCalls : List CfgCall :=
  [⟨"AutoIPv4Address", 1, []⟩, ⟨"AutoIPv6Address", 1, []⟩,
   ⟨"LocatorRecord", 0, ["priority", "weight", "address"]⟩, ⟨"LocatorRecord", 0, ["priority", "weight", "address"]⟩,
   ⟨"ETRRegistration", 1, ["key_id", "key", "proxy_map_reply"]⟩, ⟨"ETRRegistration", 1, ["key_id", "key", "proxy_map_reply"]⟩,
   ⟨"ETRNode", 1, ["locators", "map_servers"]⟩, ⟨"ContainerNode", 2, []⟩,
   ⟨"ETRNode", 1, ["locators", "map_servers"]⟩, ⟨"ContainerNode", 2, []⟩]

/-- etc/lispd/settings.py:6-23 -/
def serverCalls : List CfgCall :=
  [⟨"get_ipv4_address", 1, []⟩, ⟨"get_ipv6_address", 1, []⟩,
   ⟨"MapServerNode", 0, ["prefix", "key"]⟩, ⟨"MapServerNode", 0, ["prefix", "key"]⟩, ⟨"MapServerNode", 0, ["prefix", "key"]⟩,
   ⟨"AuthContainerNode", 0, ["prefix", "children", "ddt_nodes"]⟩, ⟨"ContainerNode", 0, ["prefix", "children"]⟩,
   ⟨"MapServerNode", 0, ["prefix", "key"]⟩, ⟨"MapServerNode", 0, ["prefix", "key"]⟩,
   ⟨"AuthContainerNode", 0, ["prefix", "children", "ddt_nodes"]⟩, ⟨"ContainerNode", 0, ["prefix", "children"]⟩]

/-- `ContainerNode(prefix, children)`, `AuthContainerNode(prefix, children, ddt_nodes)`: container_node.py:16-21,
authoritative_container_node.py:20-30 -/
def mkCont (auth : Option (List IP)) (id : Nat) (pfx : Net) (children : List Node) : Except Err Node :=
  match newChildren pfx children with
  | (_, some e) => .error e
  | (cs, none) => .ok (.cont auth id pfx cs)

/-- the prefixes of etc/lispd/settings.py:12-21: 37.77.56.0/21 -/
def auth4 : Net := ⟨.v4, 0x254d3800, 21, by decide, by decide, by decide⟩
/-- etc/lispd/settings.py:14: 37.77.56.32/31 -/
def ms4a : Net := ⟨.v4, 0x254d3820, 31, by decide, by decide, by decide⟩
/-- etc/lispd/settings.py:15: 37.77.56.64/26 -/
def ms4b : Net := ⟨.v4, 0x254d3840, 26, by decide, by decide, by decide⟩
/-- etc/lispd/settings.py:16: 37.77.57.56/30 -/
def ms4c : Net := ⟨.v4, 0x254d3938, 30, by decide, by decide, by decide⟩
/-- etc/lispd/settings.py:19: 2A00:8640::/32 -/
def auth6 : Net := ⟨.v6, 0x2a008640000000000000000000000000, 32, by decide, by decide, by decide⟩
/-- etc/lispd/settings.py:20: 2A00:8640:1::/48 -/
def ms6a : Net := ⟨.v6, 0x2a008640000100000000000000000000, 48, by decide, by decide, by decide⟩
/-- etc/lispd/settings.py:21: 2A00:8640:1009::/48 -/
def ms6b : Net := ⟨.v6, 0x2a008640100900000000000000000000, 48, by decide, by decide, by decide⟩

/-- etc/lispd/settings.py:12-17: the IPv4 tree; `ddt` are the addresses in LISTEN_ON -/
def serverTree4 (ddt : List IP) : Except Err Node :=
  match mkCont (some ddt) 4 auth4 [.leaf .mapServer 1 ms4a, .leaf .mapServer 2 ms4b, .leaf .mapServer 3 ms4c] with
  | .error e => .error e
  | .ok a => mkCont none 5 rootNet4 [a]

/-- etc/lispd/settings.py:18-22: the IPv6 tree -/
def serverTree6 (ddt : List IP) : Except Err Node :=
  match mkCont (some ddt) 8 auth6 [.leaf .mapServer 6 ms6a, .leaf .mapServer 7 ms6b] with
  | .error e => .error e
  | .ok a => mkCont none 9 rootNet6 [a]

/-- etc/lispd/settings.py:6-24: what the file defines (names in upper case) when its addresses are `a` and `b` -/
def serverAttrs (a b : IP) (t4 t6 : Node) (n : String) : Option PyVal :=
  if n = "LISTEN_ON" then some (.listen [.addr a, .addr b])
  else if n = "PROCESS_DATA" then some (.bool false)
  else if n = "INSTANCES" then
    some (.instances [(.int 0, .dict [(1, .container t4.pfx), (2, .container t6.pfx)])])
  else none

/-- loading etc/lispd/settings_xtr.py (application/lispd/settings.py:95, 108-112).  What it would define does not matter,
see `xtr_raises`. -/
def shippedXtr (attrs : String → Option PyVal) : ConfigFile :=
  match runCalls xtrCalls with
  | .error _ => .broken
  | .ok _ => .module attrs

/-- loading etc/lispd/settings_global.py (application/lispd/settings.py:95, 108-112) -/
def shippedGlobal (attrs : String → Option PyVal) : ConfigFile :=
  match runCalls globalCalls with
  | .error _ => .broken
  | .ok _ => .module attrs

/-- loading etc/lispd/settings.py (application/lispd/settings.py:95-112) -/
def shippedServer (a b : IP) : ConfigFile :=
  match runCalls serverCalls, serverTree4 [a, b], serverTree6 [a, b] with
  | .ok _, .ok t4, .ok t6 => .module (serverAttrs a b t4 t6)
  | _, _, _ => .broken

end PyLisp
