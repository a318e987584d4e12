import Verif.Tree
import Verif.Represent
import Verif.Etr
/-
`__repr__` of the nodes of the address tree, of received messages, sockets and ETR registrations: what logs and
exceptions of lispd show of them.  Sets are lists here, in the order in which Python iterates over them.
-/
namespace PyLisp.Rep

/-- `repr` of a set of Python 2: `set([a, b])` -/
def reprSet (l : List (List Char)) : List Char := 's' :: 'e' :: 't' :: '(' :: '[' :: commas l ++ [']', ')']

/-- the names of the classes of leaf nodes: ddt_referral_node.py:22, map_server_node.py:110, etr_node.py:466,
drop_node.py:14, natively_forward_node.py:14 -/
def leafClass : LeafKind → String
  | .ddtReferral _ => "DDTReferralNode"
  | .mapServer => "MapServerNode"
  | .etr => "ETRNode"
  | .drop => "DropNode"
  | .nativelyForward => "NativelyForwardNode"

/-- the names of the classes of containers: container_node.py:15, authoritative_container_node.py:15 -/
def contClass : Option (List IP) → String
  | none => "ContainerNode"
  | some _ => "AuthContainerNode"

/-- what follows the prefix of a leaf: ddt_referral_node.py:30-31 shows the addresses, the others (base.py:29-30)
nothing -/
def leafRest (L : IpLib) : LeafKind → List Char
  | .ddtReferral l => ',' :: ' ' :: reprSet (l.map fun a => reprOf L (.ip a))
  | _ => []

mutual
/-- `repr(node)`: base.py:29-30, ddt_referral_node.py:30-31, container_node.py:29-31 (AuthContainerNode inherits it and
does not show its `ddt_nodes`) -/
def nodeRepr (L : IpLib) : Node → List Char
  | .leaf k _ p => (leafClass k).toList ++ '(' :: (reprOf L (.net p) ++ (leafRest L k ++ [')']))
  | .cont auth _ p cs =>
    (contClass auth).toList ++ '(' :: (reprOf L (.net p) ++ (',' :: ' ' :: reprSet (nodeReprs L cs) ++ [')']))
/-- `repr` of the children, one by one (container_node.py:29-31) -/
def nodeReprs (L : IpLib) : List Node → List (List Char)
  | [] => []
  | c :: cs => nodeRepr L c :: nodeReprs L cs
end

/-- received_message.py:61-63: `repr` of a ReceivedMessage with the given instance dictionary (with the `repr` of its
values, in iteration order) -/
def receivedRepr (dict : List (String × List Char)) : List Char :=
  represent "ReceivedMessage" dict ["udp_layer", "inner_message"]

/-- auto_socket.py:30-31: `repr` of a socket at the address with the given `repr` -/
def sockRepr (address : List Char) (port : Nat) : List Char :=
  reprCall "AutoUDPSocket" (address ++ ',' :: ' ' :: digits port)

/-- etr_registration.py:30-31: `repr` of an ETRRegistration: the Map-Server only -/
def etrRegRepr (L : IpLib) (r : EtrReg) : List Char := reprCall "ETRRegistration" (reprOf L (.ip r.mapServer))

end PyLisp.Rep
