# Formal model of steffann/pylisp in Lean 4 — design

The code (Python 2, /repo) is read as text and never run.  The model is a shallow embedding: each
Python function becomes one total Lean function with the same branch structure; exceptions are
values (`Except Err α`, one constructor of `Err` per exception class that matters); mutation
returns the new value; the effects of the operating system are arguments.

## Trusted base

* **Lean 4.33.0 kernel.**  Every theorem depends at most on `propext`, `Classical.choice` and
  `Quot.sound` (`vcheck` prints the axioms of each).  No axiom is added, no compiled evaluation is used; concrete
  examples are evaluated by the kernel (`decide +kernel`).  No Mathlib module is imported.
* **The reading of the code.**  The comment above every definition cites the file and lines it models and
  says where it simplifies.  No tool ties model and code together: this correspondence is by inspection.
* **Library behaviour that is modelled, not verified:**
  * `bitstring`: `uint:n=v` raises ValueError unless `0 ≤ v < 2^n`; reading past the end raises ReadError;
    bits are MSB first; `.bytes` is the inverse of `bytes=` for whole bytes (`Bits.lean`); a format token `hex=` with
    nothing after the equals sign (an empty byte string formatted with `.encode('hex')`) raises ValueError, as in
    bitstring 3.x, whose token parser takes an empty value for a missing one (`encHex` in `Control.lean`).
  * `ipaddress`: construction from integers, `ip_network(x)`, `supernet(new_prefix=)`, `in`, `overlaps`,
    `prefixlen`, ordering, the `is_*` predicates (`IPAddr.lean`, `NetIO.lean`).  A network object always has
    zero host bits and a prefix length within the width (the library's constructors enforce it), so these
    are invariants of the model's `Net`.
  * `hmac`/`hashlib`: a MAC is an arbitrary structure `Mac` (two functions key → message → bytes with 20 and 32
    bytes of output).  Nothing about unforgeability is assumed: soundness theorems say "the data is the MAC of
    this message" or "here is a collision".
  * Python's `list.sort(key=)` is a stable sort; `dict`/`set` iteration order is arbitrary (either a
    parameter, or a list whose order theorems do not depend on: `Dict.lean`).
  * `select`, sockets, `time.time()`, `netifaces`, `struct`/`fcntl` ioctls: oracles (arbitrary functions or
    event lists the theorems quantify over).

## What is modelled and what is not

| code | model (lean/Verif) | property theorems (lean/Verif/Props) |
|---|---|---|
| bitstring (library), integers on the wire | Bits | – |
| utils/checksum.py | Checksum | Checksum |
| ipaddress (library) | IPAddr | – |
| utils/afi.py, utils/lcaf/*.py | Addr (lemmas AddrLemmas), Geo | Addr, Geo |
| packet/lisp/control/locator_record.py, map_reply_record.py, map_register_record.py, map_referral_record.py | Records (Sort, RecordLemmas) | Records |
| packet/lisp/control/map_request.py, map_reply.py, map_register.py, map_notify.py, map_referral.py, info_message.py | Control (ControlLemmas) | Control |
| – (independent wire layouts, byte by byte, after the RFCs and drafts) | Rfc, Wire, LispWire, LispLang (lemmas LangLemmas) | Layout, Accepted, Control, Addr, Records, IP |
| packet/ip/*.py, packet/ip/ipv6/*.py, packet/lisp/data.py, control/base.py, encapsulated_control_message.py | Pkt (PktLemmas, PktRound) | IP, UdpCksum, LispData, Packets, Reserialise, Stable, Limit, Decap, Rewrite, UdpLisp |
| `calculate/verify/insert_authentication_data` of map_register.py, map_notify.py, info_message.py | Auth | Auth |
| the three type registries | Registry | Registry |
| lispd/address_tree/container_node.py, authoritative_container_node.py | Tree (TreeLemmas) | Tree |
| lispd/utils/ddt_root_loader.py | DdtRoot, DdtText | DdtRoot, DdtText |
| lispd/settings.py | Settings, ConfigPaths | Settings, ConfigPaths |
| lispd/utils/id_generators.py | XtrId | XtrId |
| lispd/utils/prefix.py, address_tree/map_server_node.py, `handle_map_register` of message_handler.py | MapServer (Dict, MsInv) | MapServer |
| lispd/send_message.py, utils/auto_addresses.py, utils/auto_socket.py | NetIO | NetIO |
| lispd/address_tree/etr_node.py, etr_registration.py, `handle_map_request/notify/info_message` of message_handler.py | Etr | Etr |
| lispd/received_message.py | Received | Received |
| address_tree/ddt_referral_node.py, message_handler.py, scripts/lispd | Lispd, DdtAnswers | Ddt, DdtAnswers, Lispd, Handshake, LookupTrip, Texts |
| `copy` of container_node.py; ddt_referral_node.py as a set | TreeCopy | TreeCopy |
| the caches of utils/auto_addresses.py, the automatic addresses of map_server_node.py:182-183 | AutoCache | AutoCache, Leftover |
| the locator set of etr_node.py with `__eq__`/`__hash__` of locators and automatic addresses | LocatorSet | LocatorSet |
| the lists of pending requests of etr_node.py under concurrent threads | Pending | Pending |
| exceptions raised by the parsers (no further code; the exception classes of afi.py, lcaf and records) | ErrLemmas, LcafWitness | Raised |
| control messages, records and locator lists as shared objects (`sanitize`, `to_bytes`, authentication, in place) | Objects | Objects |
| packets as shared objects (`sanitize`, `to_bytes`, checksums, in place) | PktObjects | PktObjects |
| unittests/*.py, the doctests, an excerpt of etc/lispd/ddt_root, the sample tree of etc/lispd/settings.py | Conformance (the repository's own tests and files evaluated on the model by the kernel: a test of the model's fidelity; no property rests on it) | – |
| the message, record, locator and header classes with attributes of arbitrary values | Dyn | Dyn |
| attributes that no check looks at (LCAF addresses, IPv6 extension headers, UDP checksum), with arbitrary values | DynRaw | DynRaw |
| sockets, automatic addresses and the debugging leftover together: where datagrams to lispd end up | Delivery | Delivery |
| AutoUDPSocket used by several threads | SockRace | SockRace |
| scripts/lispd: signal handler and pipe | Signals | Signals |
| `get_etr_locators` in a registration thread while addresses change | EtrRace | EtrRace |
| life of `MSCleanupThread`, `MapServerNode.__del__` | Cleanup | Cleanup |
| utils/represent.py, `__repr__` of packets, messages, records, locators and addresses, and their constructors called from a text | Represent | Represent |
| `__unicode__` of utils/lcaf/*.py; the texts of the ipaddress library (not in /repo) | IPText, AddrText (lemmas: IPTextLemmas) | AddrText |
| all `MSRThread`s of a node, `set_rtrs`, `get_rtrs`, `_locators_have_changed` | RtrRace | RtrRace |
| – (specification of where an EID is looked up) | – | Lookup |
| – (re-serialisation and readability of control messages) | – | Canonical |
| scripts/lispd (start-up, exit status), `set_sockets`, the threads of etr_node.py | Startup | Startup |
| scripts/map_resolve, scripts/ddt_query, scripts/map_register | Scripts | Scripts |

The modules of the model import only each other; the theorems of `Props` are about them, each next to an
`example` that shows a concrete, non-trivial case meeting its hypotheses.

**Simplifications and idealisations**

* *Types.*  In most modules attributes have their documented types: `isinstance(x, bool)` and similar checks are discharged by
  typing a field `Bool`; optional attributes (`None`) and numbers out of range are modelled.  Dyn lifts this for `sanitize` and
  `to_bytes` of the control messages and `sanitize` of the headers (C87): there attributes hold arbitrary values.  The lists of
  records, locators, RLOCs and EID prefixes are still lists, and objects with special methods of their own (`__eq__`,
  `__len__`, `__str__`, `__index__`) other than the ones named are left out.  What `str()` and `BitArray(bytes=…)` make of values that are no
  byte strings is a parameter.
* *Recursion limit, memory* are modelled for packet parsing only (C84: any nested `from_bytes` call may be stopped by the interpreter; inside a control message this stops the whole message); *interpreter shutdown* is not modelled.
* *Nested parsing* uses a fuel argument; C07 proves that it never runs out and never matters.
* *Clock*: readings are inputs, integers; where a theorem needs it, they are non-decreasing (stated as a hypothesis).
* *Threads*: the registration store of the Map-Server is a small-step transition system (C46) whose steps
  are those of map_server_node.py between two lock operations; blocks under `registrations_lock`
  are mutually exclusive because the lock state is part of the model, not because they were made atomic.  The
  registration thread of an ETR is a sequence of passes; what the rest of the program does between two
  passes (signals, notifies) is arbitrary.  Its lists of pending requests are a small-step system too (C76).
* *Operating system*: whether a `sendto`, `bind`, or ioctl succeeds is an argument (any pattern of failures).
* *DDT root file*: the text parsers of the ipaddress library are arbitrary functions (`Props/DdtFile.lean` puts in those of `IPText.lean`); reading from disk is not modelled.
* *Floats* (decimal coordinates, C72) are exact fractions.
* *Configuration values* are modelled by what `fix_config` can observe about them.
* *Keys*: the key of an ETR registration may be None (C50, C86); that of a Map-Server (a required argument of its constructor) is a byte string.
* *Sockets*: `SO_REUSEPORT` is assumed to exist (auto_socket.py falls over at construction on systems without it).
* *MAC addresses*: for texts other than two hexadecimal digits per part (blanks, signs, `0x`, which `int(…, 16)` also takes) the model raises ValueError.

**Not modelled**: logging and its texts (except that a format string with wrong keys raises: C50);
`__repr__` of MapServerRegistration (that of packets, messages, records and addresses is in Represent, C95; of nodes, received messages, sockets and ETR registrations in NodeRepr, C98); the texts of floats in `__unicode__` (C97); parsing of command lines and the printing of the configuration in scripts/lispd; the text the tools print; setup.py; pylisp/version; of the debugging leftover at module level of
map_server_node.py (lines 182–262: a sample ReceivedMessage, built at import and never used) everything but its two automatic addresses (C83) and its AutoUDPSocket (C88); on the Map-Server: `handle_map_request` (the code is `pass`).

## Per property: how it is modelled and proved

* **C01, C02 Checksum.**  `ones_complement` as a fold over 16-bit words; invariant: congruent to the sum mod 65535 and zero
  only if all words are.  Stated with an independent `byteSum` (bytes at even positions count 256-fold): closed form, from which
  self-verification, detection and invariance under permuting words follow.
* **C03–C06 Addresses.**  Reader and writer over bit lists.  Mutual structural induction on the address for the round trip;
  induction on fuel for extension stability and no-truncation; prefix acceptance by bit arithmetic.
* **C07 Totality.**  With fuel above the input length the out-of-fuel error never occurs and more fuel changes nothing (strong
  induction on input length: every nested parser consumes input); unfolding equations without fuel.
* **C08–C18 IP, UDP, data.**  One mutually recursive parser over the packet type.  For each layer an `accepted_iff`
  theorem: accepted exactly when the bytes have the layout stated in `IsIPv4/IsIPv6/IsUDP/lispHeader` (written independently, as
  field lists); round trips, corruption (via C02) and the exact writability conditions follow.  Induction over chains of
  extension headers.  C09 states what the code does (options are written with a wrong total length), for every such packet.
* **C19–C24 Records.**  Exact acceptance characterisations, sortedness and permutation of merge sort, round trip by induction over the locator list.
* **C25–C35 Messages.**  Encoders/decoders over bits; round trip, writability, truncation (from extension-stability), stability of
  re-serialisation, dispatch by nibble.  C35: whatever is written equals, byte for byte, the picture of the address, record or message in
  `LispWire` (written after the RFCs with `be16/be32`, packed flag words and concatenation only).
* **C36–C39 Authentication.**  Parametric in `Mac`; forging two different messages with one MAC value exhibits a collision.
  C38/C39 also state what is *not* covered (trailing bytes, all-zero ids, key id 0).
* **C40 Registries.**  State machine, induction over the call list.
* **C41–C44 Tree, DDT root.**  Inductive tree; invariants by induction over operation lists; longest-prefix match against the
  declarative `PathSpec`; independence of child order; loader by induction over the lines.
* **C45–C47 Map-Server.**  `handle_map_register_record` as a function; the concurrent store as a transition system with an
  inductive invariant and a history variable ("latest unexpired registration per key"); message handler by induction over records.
* **C48–C53, C62, C63 ETR.**  Pure functions and a step function of the registration thread; event histories; the handshake theorem runs
  ETR and Map-Server models against each other through the wire format.
* **C54–C57, C61 Sockets, automatic addresses, received messages.**  State machines with oracles, induction over event lists.
* **C58 Handler and main loop.**  Case analysis of the dispatcher and induction over batches; containment of every exception.
* **C59, C60 Settings, xTR-ID.**  Direct characterisations (`iff`) by induction over files/interfaces.
* **C49 DDT node.**  Path through the tree (C42) combined with the referral writer (C23): what reaches the wire.
* **C64–C66 Data plane.**  Decapsulation = parse and re-serialise; `plain_rewritten` (induction over the packet) shows that this
  preserves packets; encapsulation composed with decapsulation is the identity (`tunnel`); `Decap` does the same for packets with LISP messages or IPv4 options inside, from `packet_writable_iff` (C34).

* **C67 Tools.**  The messages built by the scripts composed with the receiver (`receive`, C57) and with the handlers of lispd (C45, C49, C58);
  the loops by induction over the tries with arbitrary socket outcomes.
* **C68 Start-up.**  Trees by mutual structural induction; histories of a node by induction from their end, against a specification
  (`Current`, `Online`, `Awake`) in terms of the history only.
* **C69 Input language.**  A grammar of byte strings (LispLang, Props/Accepted: inductive predicates built from the byte pictures of LispWire)
  and, for every parser, an equivalence between `returns this value` and `starts with a denotation of it`; addresses by mutual
  structural induction one way and by induction on the reader's fuel the other, locator order through uniqueness of stable sorts.
* **C70 Keep-alive.**  The thread of the ETR (C53) composed with the small-step store of the Map-Server (C46): induction over the passes
  (a satisfied thread remembers the time of a registration), monotonicity of deadlines along executions, and `store_exact`.
* **C71 DDT root text.**  Characters, lines, comments and the regular expression (as greedy runs of character classes) against a
  declarative reading of the text; `ip_address` and `ip_network` are arbitrary functions.
* **C72 Geo coordinates.**  Exact fractions instead of floats; integer division lemmas, composed with the LCAF round trip (C04).
* **C73 Copies.**  An invariant (at most two children per prefix) over all sequences of tree calls makes `copy` succeed for every iteration
  order of the set of children; lookups agree by order independence (C42).  Referral nodes: sequences of set calls against a list without
  duplicates, with text arguments as parsed or unparsable.
* **C74 Cached automatic addresses.**  An invariant relating the cache, the objects and the registry of C61, over all sequences of calls.
* **C75 Locator objects in the set of an ETR.**  Objects with identity, a Python set as the list of (hash at insertion, object) in iteration order, hash functions as parameters, reordering as an event; invariants over all histories.  (The Etr model of C51–C53 has the values that the objects have at the moment; `locator_follows` connects the two.  `add_locator` of something that is no LocatorRecord is not modelled.)
* **C76 Pending requests under concurrency.**  Small-step semantics of the main thread and any number of registration threads; a step is one access to the shared list or to a shared field of a request (what CPython's global lock makes atomic); the list is iterated by index; invariants over all schedules, with the windows shown by concrete schedules.  (The reads of `notify` at etr_node.py:201-269 are one step.)
* **C77 Which exceptions the parsers raise.**  A predicate "raises only exceptions of class P" is proved compositionally for every reader and sanitizer, and for nested packets by induction on the depth; TypeError is traced to the bytes 40 03 of an LCAF address in the input; the exact conditions for NotImplementedError are by inversion of the reader in question.  `Err.read` stands for bitstring's ReadError and for the plain IndexError some versions of bitstring raise for a flag read at the end of the data.
* **C78 In-place changes.**  A heap of locator, list, record and message objects with arbitrary sharing; the methods as heap transformers that also say what the heap is after an exception.  Proved by a relation "the same heap up to sorted sane lists, cleared actions and wrapped EIDs" that is transitive, is kept by every call, and that `sanitize` of values cannot see; then by induction on the sequence of calls against a reference machine in which messages are values.  Assignments to attributes by other code between the calls are not in the model.
* **C79 Packets as objects.**  The heap of C78 extended with packet objects whose payload is a reference; `to_bytes` recurses with fuel, which suffices on acyclic heaps (payloads have smaller numbers; a packet that contains itself is outside the theorems). Proved by a simulation between the heap and immutable values (`Sim`): `sanitize` leaves a layer as it was or `fixed`, fixing is idempotent and invisible to `sanitize` and `to_bytes`; a checksum calculation that raises after the pseudo-header is matched by setting the checksum to 0 on the value side.
* **C80 LISP content of a UDP message.**  Case analysis over ports and payload classes against a three-line specification (`OnPort`, `IsLispData`, `IsLispControl`); for accepted messages together with the accepted-iff theorems of C14/C17/C19.
* **C81 registration between two lispds.**  Composition at the level of datagrams: the round trip of Map-Register (C27), authentication (C36/C37), the Map-Server store (C45/C47), the pending list and the outcome of `register` (C50/C62).  The two daemons share only the bytes on the wire and the authentication function.  Delivery itself (UDP) is not modelled: the theorem starts where a datagram arrives.
* **C82 configuration files.**  `posixpath.join/dirname/expanduser` modelled on character lists, `realpath` a parameter (and, for the second theorem, its meaning in a file system without symbolic links); induction over path components; the precedence follows from C59.  An absolute path (for which the method returns a string instead of a list) is never asked for; the model has that case too.

* **C83 Automatic addresses in lispd.**  The cache of C74 started from the state that loading map_server_node.py leaves (`loaded`); invariant `LoadedOk`
  over the history, and the values of the two leftover objects (`first_objects`) decide whether a third one is registered (`loaded_vlan2`).

* **C84 Recursion limit.**  The parser of the model is written with open recursion (`decStep`), so that a relation `Interrupted` can stop any nested call;
  every step passes exceptions of nested calls on (`step_orStopped`), and makes at most one nested call (`step_shape`). Depth by induction over the packet.
* **C85 Lookup, end to end.**  The datagram of a Map-Request goes through the model of lispd (parser, `handle_message`, ETR, `send_message`); the bytes it sends go through the parser of the one who asked.  `lookedUp` (the record) and `Transmissible` (which locators fit) are the specification; composed from the round trips C21/C25/C26, `map_request_answered_iff` (C48) and the exact writability of records.

* **C86 Messages without authentication data.**  `encHex` refuses the empty string; the exact writability theorems, insertion (`*_insert_defined`), the Map-Server's answer (`map_register_received`) and the ETR (`unauthenticated_never_sent`) carry that through.
* **C87 Attributes of the wrong type.**  Dyn models `sanitize` and `to_bytes` over values of any type, in the order of the checks.  The specification (`RecordDen`, `RegisterDen` …) relates such an object to the typed message it stands for; proved by showing that both `sanitize`s succeed with related results or raise the same exception (`Agree`), that the writes are then the same, and that whatever passes `sanitize` stands for something.
* **C88 Left-over socket.**  Delivery composes the automatic address (C56) with the socket that observes it (C55); invariant `OnAuto` by induction over the history, with the specification `BoundOnChange` (the binding at the last change of the chosen address succeeded).  The state after loading lispd (`Loaded`) has one more such socket.  The operating system is an arbitrary function from destinations to sockets bound to them (`HandsOut`); `certainly_read` quantifies over all of them.
* **C89 Attributes that no check looks at.**  DynRaw models the conversion `%d` for values of any kind and the writers of LCAF addresses, IPv6 extension headers and UDP checksums over them.  The specification (`CountsAs`, `CountsAlone`, `AddrDen`) relates an object to the address it is written as; proved by mutual induction on the nesting of the address: related objects are written alike, whatever is written stands for something (uniquely), and reading back composes with the round trip of C04.  Trusted: the semantics of `%d` in Python 2 (floats cut off, `__int__` used, TypeError for nan and the infinities, a lone tuple is the argument list).  Assumed: the attributes holding lists of addresses hold lists, options and data are byte strings.
* **C90 Sending while the address changes.**  SockRace is a small-step system: the main thread in `rebind` (one step per access to shared state), any number of threads in `sendto` (test, read `_sock`, read its `sendto`, call).  Inductive invariant `RaceInv` over all schedules (`PcOk` per program point); `race_quiet_rebind` ties it to the sequential model of C55; `race_can_lose` gives the losing schedule from every state, `race_only_loss` (invariant `KeepInv`) shows that there is no other.  Trusted: a `sendto` through an unbound UDP socket binds it to a free port, binding a bound socket fails (Linux: EINVAL), and Python 2's socket objects hand out the `sendto` of the underlying socket until they are closed and one that raises socket.error afterwards.
* **C91 Signals.**  Signals models the handler (append to the pipe) and the pass of the main loop (take the head of the pipe if `select` found it readable, after the sockets); signals may arrive before `select` or at any point after it (within a pass only their order counts).  One lemma describes a pass (`pass_step`); induction over the passes gives the conservation law, the shape of what was acted on, and the bound on the passes until a stop.  What happens after a write to a full pipe is not modelled (hypothesis `over = false`, discharged by `pipe_large_enough`).  Trusted: a pipe keeps its bytes in order, and `select` reports a pipe with bytes in it.
* **C92 Registering while addresses change.**  The registration thread only reads addresses and the main thread only stores new numbers in them, so a schedule is a function giving the automatic addresses at each read (EtrRace; any number of stores between two reads).  One induction over the configured locators (`loopAt_spec`) gives what is collected, in terms of what was seen at which reads (`SeenAs`); for constant addresses the loop is that of C51.  Two theorems exhibit the schedules that go wrong.
* **C93 The cleanup thread.**  `Cleanup.lean` models the life of `MSCleanupThread` as a fold over stop / discard / turn events; the theorems range over every such list.  What a pass does to the store is the small-step system of `MapServer.lean` (C46), and `gone_in_time`/`silent_forgotten` combine `store_exact` with the monotone clock.  The 30 s of `Event.wait` and the time a pass takes are not modelled: they enter as the hypothesis `Regular gap …` (never longer than `gap` without a pass).  A turn is one event, so a stop during a pass counts as coming after it.  Line 102 of map_server_node.py (the outer handler of ReferenceError) is dead code: the inner handler swallows the exception, and the thread ends because `__del__` sets the event.
* **C94 The registration threads of a node together.**  `RtrRace.lean` is a small-step system of any number of `MSRThread`s sharing `_rtrs` and the flags `need_new_registration`; a step is one access to something shared (reading the flag, resetting it, reading all RTR sets by `dict.values()`, reading and storing the own set, comparing, setting the flag of one thread).  `rtr_change_not_lost` is proved by an invariant (a thread is up to date, or told, or somebody is going to tell it, or it has reset its flag and not yet read the RTRs) over all schedules; `pass_alone` proves that a pass of an undisturbed thread is `runPass` of C53.  Hypotheses: no registration raises, and RTRs are IP addresses (otherwise `get_rtrs` raises in every thread); `rtr_change_can_be_lost` shows that the first is needed.  The set of threads is fixed, and the locators are left out (C92).  `tellings_bounded` is proved with a potential: a thread can find its own entry of `_rtrs` changed once for the NAT information it still holds and once for the one it gets, and every round of telling uses one of these up.
* **C95 What repr() shows evaluates back.**  `Represent.lean` writes Python values (with instance dictionaries in any order and with any private attributes) as `repr` and `represent` do, character by character, and has a reader of Python expressions (numbers, byte strings with escapes, unicode texts, names, list displays, calls with positional and keyword arguments) that evaluates a text with the constructors of the 26 classes.  The ipaddress library is a parameter with its laws (it reads what it writes).  Theorem by mutual induction on the value: the text of a value is read up to its end and evaluates to a value that is the same up to private attributes, or raises the exception of the first UDP message or automatic address in it; `Known`, `fault` and `Same` are the specification.  All packets, messages, records and addresses of the other modules (`pktVal`, `ctrlVal`, …) are known values.  Simplification: the reader covers the expressions that `repr` writes, not all of Python.
* **C96 What the functions that send one kind of Map-Referral transmit.**  `DdtAnswers.lean` has the five functions of ddt_referral_node.py, down to the `sendto` calls; `AnswerTells` lists the records their receivers read.  Proved by cases on the function from the round trip of Map-Referrals (C29) and the DDT table (C23).
* **C97 The texts of addresses, and reading them back.**  `IPText.lean` writes and reads the texts of addresses and networks as the ipaddress library does (abbreviation of zeros, IPv4 suffixes), character by character; `AddrText.lean` has `__unicode__` of every class.  The round trip goes by the parts between the colons; the rest by the characters that texts that can be read consist of.  The theorems connect this to `Addr.asIP` and `Addr.toNetwork`, which the other modules use, and give `Represent` (C95) a library with the real texts.  `Props/AddrCanon.lean` adds that the writer's form is that of RFC 5952 (longest run, first of several, lower case, no leading zeros); the 256 patterns of zero groups are a complete case split, the groups themselves are arbitrary.
* **C98 What logs show of nodes, messages, sockets and registrations.**  `NodeRepr.lean` has the `__repr__` methods of the application. The texts form a prefix code: mutual structural induction over trees shows that equal texts, followed by anything, come from nodes that are `Alike` (an inductive relation that forgets exactly what is not shown). The order of iteration over sets is that of the model's lists, hence arbitrary.
* **C99 The configuration files that come with the program.**  `Shipped.lean` has the calls of constructors in the three files (with Python's binding of arguments to the parameters of the constructors) and the trees of settings.py, built with the model of `ContainerNode` (C41–C43).  That the xTR files never load is C59 for a file that raises; the lookup theorems combine C42 with arithmetic on the address.
* **C100 Updating the address of a locator.**  `LocUpdate.lean` adds the texts of netifaces and the log to the model of automatic addresses (C56) and of locator objects (C75).  The value is by induction over the entries of the interface; the log is inverted by splitting at spaces, which the text of an address does not have (C97).  Nothing in lispd calls `LocatorRecord.update_address`, `default_listen_on` or `find_matching_addresses`; they are modelled as the public functions they are.  Lines that observers log during the update are left out.

No property of the list had to be declared inexpressible; all are proved (`MANIFEST.json`).

## Deviations of the code from its evident intent, found while modelling (each is stated as a theorem)

* IPv4 options are written with a total length that ignores them; the result is never accepted (C09).
* Verification of received messages covers the canonical re-serialisation, not the bytes received; key id 0 verifies with every key (C38, C39, C45).
* `sanitize` checks nonces by `len(bytes(nonce))`, that is, by the length of their text: a Map-Reply with nonce `12345678` (or `123`) is sent with these digits as its nonce, other messages pass `sanitize` and fall over (or worse: `[10, 20]` has a text of eight characters) in `to_bytes` (C87).  A tuple as source EID or EID prefix of a Map-Request gives TypeError instead of ValueError, because the error message is formatted with `%`.
* Map-Register, Map-Notify and Info messages without authentication data are accepted (and, with key id 0, verify) but can never be serialised: an ETR registration with the default key id 0 sends nothing at all, and the Map-Notify for a Map-Register with key id 0 is never sent although the registration is stored (C86).
* Adding a second node for an existing prefix makes the prefix unusable; `remove` raises KeyError exactly when it removed something (C43).
* A DDT node transmits only NOT-AUTHORITATIVE answers; every other branch raises (C49).
* `update_addresses` misses automatic addresses created while an equal one had no address (C61).
* The shipped settings_xtr.py and settings_global.py cannot be loaded: they pass `map_servers` to ETRNode, which takes `registrations` (C99).
* Default address-family trees are stored under the wrong key, so a one-family instance is rejected (C59).
* A wrong xTR-ID or site-ID in a Map-Notify ends in KeyError; locators in it are not compared (C50).
* A locator that is given another address while an ETR has it can no longer be removed; equal locators with an automatic and a plain address are both kept (C75).
* A Map-Notify or Info-Reply can be reported as unexpected although its request is pending, when an earlier request leaves the list meanwhile; the contents of another Map-Notify than the authenticated one can be compared; an Info-Reply that is faster than the assignment to `sent_from` raises TypeError; abandoned requests stay on the list (C76).
* A change of a locator's address triggers nothing; RTRs of removed registrations stay (C52); a signal can be lost (C53).
* Info-Replies are never authenticated; behind NAT without RTRs the Map-Register goes nowhere (C63); IPv6 NAT encapsulation has hop limit 0 (C62).
* Fragments of UDP over IPv4 are dropped and TTL is not decremented at decapsulation (C64).
* The copy of an authoritative container has no DDT nodes; `in` and `discard` of a referral node do not take text although `add` does (C73).
* A node added to a tree after start-up never gets sockets, so it never registers (C68).
* When `to_bytes` raises inside verify or insert, the authentication data of the message stay overwritten with zeros (C78); a record loses its action when it is serialised with locators, and does not get it back when the locators are taken away (C78).
* When `to_bytes` raises inside `calculate_checksum` (a port out of range, or a message too long for the length field, which only the IPv6 pseudo-header lets pass), the checksum of the UDP message stays 0; `verify_checksum` of such a message raises ValueError once and answers True ever after (C79).
* `repr` of a UDP message, so of every packet that contains one, raises TypeError when evaluated; that of an automatic address raises NameError; reserved bits are not shown (C95).
* `send_referral` and `send_ms_ack` (both unused by the daemon) cannot send anything: a wrong keyword argument, and the action of another answer (C96).
* MAC addresses longer than 8 bytes overflow the xTR-ID (C60).

## Testing the theorems (seeded/LOG.jsonl)

For each definition of the model, realistic bugs were planted in a scratch copy (wrong boundary, missed case, swapped argument, dropped
update), everything downstream was recompiled, and the property theorems that no longer hold (their proof or a proof they depend on fails)
were compared with the properties whose English claim the bug breaks.  Surviving bugs led to stronger theorems.
