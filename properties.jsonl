{"id": "C01", "title": "Internet checksum is self-verifying", "statement": "ones_complement always returns a value in 0..65535, and storing the checksum computed over a message with a zeroed 16-bit aligned field back into that field gives a message whose ones_complement is 0.", "quantifier": "every byte string (odd and even length), every aligned field position", "why_tests_cant": "The claim ranges over all byte strings of any length; tests sample a few packets.", "anchors": ["pylisp/utils/checksum.py:ones_complement"]}
{"id": "C02", "title": "Internet checksum detects every single-word corruption", "statement": "Replacing one aligned 16-bit word of a message by a different word changes ones_complement, except for the 0x0000/0xffff pair (the two representations of zero); permuting whole 16-bit words never changes it.", "quantifier": "every message, every word position, every pair of different words, every permutation of words", "why_tests_cant": "2^32 word pairs at every position of every message cannot be enumerated.", "anchors": ["pylisp/utils/checksum.py:ones_complement"]}
{"id": "C03", "title": "AFI address round trip", "statement": "Writing an IPv4/IPv6 address or no address with get_bitstream_for_afi_address and reading it back with read_afi_address_from_bitstream gives the same address and leaves following bits unread; writing a network and reading it back with its prefix length gives the same network.", "quantifier": "every IPv4 and IPv6 address, every network of every prefix length, every continuation of the stream", "why_tests_cant": "2^128 addresses times arbitrary continuations.", "anchors": ["pylisp/utils/afi.py:read_afi_address_from_bitstream", "pylisp/utils/afi.py:get_bitstream_for_afi_address"]}
{"id": "C04", "title": "LCAF address round trip at any nesting", "statement": "Every LCAF address (null, AFI list, instance id, AS number, geo, NAT traversal), nested to any depth, that can be serialised is read back as the same structure, apart from contained networks which come back as their first address (LCAF carries no inner prefix length).", "quantifier": "every LCAF value of every nesting depth and width that to_bytes accepts", "why_tests_cant": "The nesting is unbounded; tests use depth one or two.", "anchors": ["pylisp/utils/lcaf/base.py:LCAFAddress.from_bytes", "pylisp/utils/lcaf/base.py:LCAFAddress.to_bytes", "pylisp/utils/lcaf/afi_list_address.py", "pylisp/utils/lcaf/instance_address.py", "pylisp/utils/lcaf/autonomous_system_address.py", "pylisp/utils/lcaf/geo_address.py", "pylisp/utils/lcaf/nat_traversal_address.py", "pylisp/utils/lcaf/null_address.py"]}
{"id": "C05", "title": "A prefix is accepted exactly when its host bits are zero", "statement": "Reading an IPv4/IPv6 AFI address with a prefix length succeeds if and only if the prefix length is at most the address width and every bit after the prefix is zero; the result is exactly that network.", "quantifier": "every address value and every prefix length", "why_tests_cant": "All address/prefix-length combinations.", "anchors": ["pylisp/utils/afi.py:read_afi_address_from_bitstream"]}
{"id": "C06", "title": "The AFI reader consumes exactly its address", "statement": "When an AFI address is read successfully, the same result is obtained whatever bits follow it, and those following bits are left untouched; no strict prefix of the consumed bits is readable as an address.", "quantifier": "every bit string the reader accepts, every continuation, every truncation point", "why_tests_cant": "All accepted bit strings and all truncation points.", "anchors": ["pylisp/utils/afi.py:read_afi_address_from_bitstream", "pylisp/utils/lcaf/base.py:LCAFAddress.from_bytes"]}
{"id": "C07", "title": "Parsers are total", "statement": "Parsing any byte string as an AFI address, control message, data packet, UDP datagram or IP packet terminates, with either a message or an error: nesting of LCAF addresses, IP-in-IP, extension headers and encapsulated control messages always consumes input, so the recursion depth is bounded by the input length.", "quantifier": "every byte string", "why_tests_cant": "Termination on all inputs (including adversarial nesting) cannot be tested.", "anchors": ["pylisp/utils/afi.py", "pylisp/utils/lcaf/base.py", "pylisp/packet/ip/ipv4.py:IPv4Packet.from_bytes", "pylisp/packet/ip/ipv6/base.py:IPv6Packet.from_bytes", "pylisp/packet/ip/udp.py:UDPMessage.from_bytes", "pylisp/packet/lisp/control/base.py:ControlMessage.from_bytes", "pylisp/packet/lisp/data.py:DataPacket.from_bytes"]}
{"id": "C08", "title": "IPv4 round trip", "statement": "An IPv4 packet without options that to_bytes serialises is parsed by from_bytes into an equal packet (with next_header taken from the payload when the payload is a protocol element).", "quantifier": "every field value and every payload, including nested protocol payloads", "why_tests_cant": "All field combinations and payloads of all sizes and nesting depths.", "anchors": ["pylisp/packet/ip/ipv4.py:IPv4Packet.to_bytes", "pylisp/packet/ip/ipv4.py:IPv4Packet.from_bytes"]}
{"id": "C09", "title": "IPv4 options: received unchanged, but never accepted as written", "statement": "The options of every well-formed IPv4 packet (RFC 791 layout) are returned unchanged by from_bytes. An IPv4 packet with non-empty options written by to_bytes carries a total length that ignores the options, and no such byte string is ever accepted by from_bytes, with or without payload decoding.", "quantifier": "every non-empty options value, every payload", "why_tests_cant": "All packets with options; the test-suite has none.", "anchors": ["pylisp/packet/ip/ipv4.py:IPv4Packet.to_bytes", "pylisp/packet/ip/ipv4.py:IPv4Packet.from_bytes"]}
{"id": "C10", "title": "A corrupted IPv4 header is never accepted", "statement": "If a byte string is accepted as an IPv4 packet, then changing any one 16-bit word of its header (not between 0x0000 and 0xffff, and not touching the header-length nibble) makes it rejected.", "quantifier": "every accepted packet, every header word, every replacement value", "why_tests_cant": "All accepted packets times all corruptions.", "anchors": ["pylisp/packet/ip/ipv4.py:IPv4Packet.from_bytes", "pylisp/utils/checksum.py"]}
{"id": "C11", "title": "What an accepted IPv4 packet guarantees", "statement": "A byte string accepted as an IPv4 packet has version 4, header length of at least 5 words, a cleared reserved flag, a correct header checksum, a total length equal to the length of the string, and its fields are in range with no fragment offset on a don't-fragment packet.", "quantifier": "every accepted byte string", "why_tests_cant": "All byte strings.", "anchors": ["pylisp/packet/ip/ipv4.py:IPv4Packet.from_bytes", "pylisp/packet/ip/ipv4.py:IPv4Packet.sanitize"]}
{"id": "C12", "title": "IPv6 round trip through extension headers", "statement": "An IPv6 packet with any chain of hop-by-hop, destination options and routing extension headers that to_bytes serialises is parsed back into an equal packet (option blobs zero padded to the 8-byte boundary); a fragment header or no-next-header may end the chain, and what follows one of those comes back as its bytes.", "quantifier": "every field value, every chain length and order of extension headers, every payload", "why_tests_cant": "Chains of any length.", "anchors": ["pylisp/packet/ip/ipv6/base.py", "pylisp/packet/ip/ipv6/hop_by_hop_options_header.py", "pylisp/packet/ip/ipv6/destination_options_header.py", "pylisp/packet/ip/ipv6/routing_header.py", "pylisp/packet/ip/ipv6/fragment_header.py", "pylisp/packet/ip/ipv6/no_next_header.py"]}
{"id": "C13", "title": "Final payload lookup follows the whole header chain", "statement": "get_final_payload returns the next-header number and payload of the last IP header in the chain; is_fragmented is true exactly when the chain contains a fragment header (IPv6) or the more-fragments flag or a non-zero offset (IPv4).", "quantifier": "every chain of extension headers of every length", "why_tests_cant": "Chains of any length.", "anchors": ["pylisp/packet/ip/ipv6/base.py:IPv6Packet.get_final_payload", "pylisp/packet/ip/ipv6/base.py:IPv6Packet.is_fragmented", "pylisp/packet/ip/ipv4.py:IPv4Packet.is_fragmented"]}
{"id": "C14", "title": "UDP round trip", "statement": "A UDP message that to_bytes serialises is parsed back into an equal message, with the payload decoded as a LISP data packet when a port is 4341 and as a LISP control message when a port is 4342.", "quantifier": "every port pair, checksum and payload", "why_tests_cant": "All ports and payloads.", "anchors": ["pylisp/packet/ip/udp.py:UDPMessage.to_bytes", "pylisp/packet/ip/udp.py:UDPMessage.from_bytes"]}
{"id": "C15", "title": "UDP checksum verifies after calculation", "statement": "After checksum = calculate_checksum(src, dst) a UDP message passes verify_checksum(src, dst) and its checksum is in 1..65535; a checksum of 0 is always accepted.", "quantifier": "every message, every source/destination address pair of either family", "why_tests_cant": "All messages and addresses.", "anchors": ["pylisp/packet/ip/udp.py:UDPMessage.calculate_checksum", "pylisp/packet/ip/udp.py:UDPMessage.verify_checksum"]}
{"id": "C16", "title": "UDP checksum binds ports and addresses", "statement": "If a message with a non-zero checksum verifies for one source/destination, then changing one 16-bit word of the pseudo header or of the UDP message (not between 0x0000 and 0xffff) makes verification fail.", "quantifier": "every verifying message, every word position and value", "why_tests_cant": "All messages times all corruptions.", "anchors": ["pylisp/packet/ip/udp.py:UDPMessage.verify_checksum"]}
{"id": "C17", "title": "LISP data packet round trip", "statement": "A LISP data packet that to_bytes serialises is parsed back into an equal packet: nonce, map-versions, instance id, locator status bits and payload; the echo-nonce flag is dropped exactly when there is no nonce.", "quantifier": "every combination of header features and every payload", "why_tests_cant": "All header variants and payloads.", "anchors": ["pylisp/packet/lisp/data.py:DataPacket.to_bytes", "pylisp/packet/lisp/data.py:DataPacket.from_bytes"]}
{"id": "C18", "title": "LISP data packet field validation is exact", "statement": "Serialising a LISP data packet succeeds exactly when the fields describe a representable header: nonce a 3-byte string or absent, versions both present or both absent with each in 0..4095 and not together with a nonce, instance id in 0..2^24-1 or absent, status bits 8 long with an instance id and 32 long without.", "quantifier": "every field combination", "why_tests_cant": "All field combinations.", "anchors": ["pylisp/packet/lisp/data.py:DataPacket.sanitize"]}
{"id": "C19", "title": "Locator record round trip", "statement": "A locator record that to_bytes serialises is parsed back from the stream into an equal record, leaving the following bits unread (an LCAF inside an LCAF locator without addresses comes back flattened).", "quantifier": "every locator record and every continuation", "why_tests_cant": "All field values.", "anchors": ["pylisp/packet/lisp/control/locator_record.py:LocatorRecord.to_bytes", "pylisp/packet/lisp/control/locator_record.py:LocatorRecord.from_bytes"]}
{"id": "C20", "title": "Locator record validation is exact", "statement": "A locator record is accepted exactly when priorities and weights are in 0..255 and the locator is an IPv4 or IPv6 address that is not the broadcast address, not in 224.0.0.0/24 and not in ff02::/16 or ff12::/16, or an LCAF that carries no address at all; no locator, networks, and LCAFs that carry an address are always rejected.", "quantifier": "every locator record", "why_tests_cant": "All addresses (arbitrarily nested) and field values.", "anchors": ["pylisp/packet/lisp/control/locator_record.py:LocatorRecord.sanitize", "pylisp/utils/lcaf"]}
{"id": "C21", "title": "Map-Reply / Map-Register record round trip", "statement": "A mapping record that to_bytes serialises is parsed back into the sanitised record (locators sorted, action cleared when there are locators), leaving the following bits unread. Exactly the records that sanitize accepts and that have at most 255 locators can be serialised; for all others to_bytes raises.", "quantifier": "every record with any number of locators, every continuation", "why_tests_cant": "All records.", "anchors": ["pylisp/packet/lisp/control/map_reply_record.py", "pylisp/packet/lisp/control/map_register_record.py"]}
{"id": "C22", "title": "Locators are sorted and their input order is irrelevant", "statement": "In every serialised mapping record the locators are in ascending numerical address order and are a permutation of the given locators; two records that differ only in the order of locators with distinct addresses serialise to the same bytes.", "quantifier": "every locator list and every permutation", "why_tests_cant": "n! permutations for every n.", "anchors": ["pylisp/packet/lisp/control/map_reply_record.py:MapReplyRecord.sanitize", "pylisp/packet/lisp/control/locator_record.py:LocatorRecord.sort_key"]}
{"id": "C23", "title": "Map-Referral records obey the action table", "statement": "A Map-Referral record is accepted exactly when its action, incomplete flag, TTL and presence of locators agree with the DDT table (NODE/MS-REFERRAL: complete, has locators, 1440; MS-ACK: 1440; MS-NOT-REGISTERED: 1; DELEGATION-HOLE: complete, no locators, 15; NOT-AUTHORITATIVE: incomplete, no locators, 0), no locator is probed and there are no signatures.", "quantifier": "every referral record", "why_tests_cant": "All field combinations.", "anchors": ["pylisp/packet/lisp/control/map_referral_record.py:MapReferralRecord.sanitize"]}
{"id": "C24", "title": "Map-Referral record round trip", "statement": "A Map-Referral record that to_bytes serialises is parsed back into the sanitised record (locators sorted, plain network EIDs wrapped in instance id 0), leaving the following bits unread, exactly when its EID is a network with or without an instance id; records with any other writable EID (an instance id around a null, AS-number or geo address) are never accepted by the parser. Which records can be written is characterised exactly.", "quantifier": "every record, every continuation", "why_tests_cant": "All records.", "anchors": ["pylisp/packet/lisp/control/map_referral_record.py"]}
{"id": "C25", "title": "Map-Request round trip", "statement": "A Map-Request that to_bytes serialises is parsed back into an equal message: same flags, nonce and ITR-RLOCs, the source EID flattened, the EID prefixes as the networks they denote and the record sanitised. Exactly which Map-Requests serialise is characterised.", "quantifier": "every flag combination, nonce, source EID, ITR-RLOC list, EID prefix list and optional record", "why_tests_cant": "All messages.", "anchors": ["pylisp/packet/lisp/control/map_request.py"]}
{"id": "C26", "title": "Map-Reply round trip", "statement": "A Map-Reply that to_bytes serialises is parsed back into an equal message (3-byte nonces left padded to 8 bytes, records sanitised).", "quantifier": "every flag combination, nonce and record list", "why_tests_cant": "All messages.", "anchors": ["pylisp/packet/lisp/control/map_reply.py"]}
{"id": "C27", "title": "Map-Register round trip", "statement": "A Map-Register with an 8-byte nonce that to_bytes serialises is parsed back into an equal message (records sanitised). Which ones serialise is characterised exactly; in particular none without authentication data does (C86).", "quantifier": "every flag combination, nonce, authentication data, record list, xTR-ID and site-ID", "why_tests_cant": "All messages.", "anchors": ["pylisp/packet/lisp/control/map_register.py"]}
{"id": "C28", "title": "Map-Notify round trip", "statement": "A Map-Notify that to_bytes serialises is parsed back into an equal message (records sanitised). Which ones serialise is characterised exactly; in particular none without authentication data does (C86).", "quantifier": "every nonce, authentication data, record list, xTR-ID and site-ID", "why_tests_cant": "All messages.", "anchors": ["pylisp/packet/lisp/control/map_notify.py"]}
{"id": "C29", "title": "Map-Referral round trip", "statement": "A Map-Referral message that to_bytes serialises is parsed back into an equal message (records sanitised) exactly when the EIDs of all its records are networks, with or without an instance id; otherwise its serialisation is rejected.", "quantifier": "every nonce and record list", "why_tests_cant": "All messages.", "anchors": ["pylisp/packet/lisp/control/map_referral.py"]}
{"id": "C30", "title": "Info message round trip", "statement": "An Info-Request or Info-Reply that to_bytes serialises is parsed back into an equal message; a reply carries a NAT-traversal address, a request never does. Which ones serialise is characterised exactly; in particular none without authentication data does (C86).", "quantifier": "every field value", "why_tests_cant": "All messages.", "anchors": ["pylisp/packet/lisp/control/info_message.py"]}
{"id": "C31", "title": "Encapsulated control message round trip", "statement": "An encapsulated control message that to_bytes serialises is parsed back with the same DDT-originated flag and the same inner IP packet.", "quantifier": "every inner packet of any nesting", "why_tests_cant": "All inner packets.", "anchors": ["pylisp/packet/lisp/control/encapsulated_control_message.py"]}
{"id": "C32", "title": "Control message dispatch is by type nibble", "statement": "Every byte string whose first nibble is a registered control type is parsed by that type's parser and by no other; every unregistered type, and the empty string, is rejected.", "quantifier": "every byte string", "why_tests_cant": "All byte strings.", "anchors": ["pylisp/packet/lisp/control/base.py:ControlMessage.from_bytes", "pylisp/packet/lisp/control/type_registry.py"]}
{"id": "C33", "title": "No truncated message is accepted", "statement": "Cutting any number of bytes off the end of the serialisation of a fixed-layout control message (Map-Request, Map-Reply, Map-Register, Map-Notify, Map-Referral, Info) makes it unparseable (for a Map-Register: one with an 8-byte nonce, as the length of the nonce is not checked).", "quantifier": "every message, every cut point", "why_tests_cant": "All messages times all cut points.", "anchors": ["pylisp/packet/lisp/control/*.py:from_bytes"]}
{"id": "C34", "title": "Re-serialising an accepted message or packet is stable", "statement": "If a received control message is accepted and can be serialised again, then parsing that serialisation gives the same message again. The same holds for every accepted packet, whatever is nested in it (IP, UDP, LISP data packets, encapsulated control messages, control messages), as long as no IPv4 header in it has options: what was accepted and can be written is accepted again and is the same packet, the EIDs of Map-Requests being the networks they denote. Every accepted packet without control messages and IPv4 options can be written again, in as many bytes. An accepted packet, whatever is in it, can be written again exactly when the control message in it (if there is one) is not a Map-Request with an EID that denotes no network and not a Map-Register, Map-Notify or Info message without authentication data, and then takes at most as many bytes as were received; only a Map-Register with the RTR flag and without IDs grows (by its 24 bytes of IDs) and a Map-Referral (by up to 12 bytes per record), and only then can a length field be too small. Every accepted Map-Reply and Map-Referral and every accepted address can be serialised again; an accepted Map-Register, Map-Notify or Info message can exactly when it has authentication data; an accepted Map-Request can exactly when all its EIDs denote networks (EIDs with an instance id other than 0 are accepted but cannot be written); otherwise serialising it raises TypeError if the first EID that denotes no network has no text, and ValueError if it has.", "quantifier": "every accepted byte string, every class of packet, every nesting", "why_tests_cant": "All byte strings.", "anchors": ["pylisp/packet/lisp/control/*.py", "pylisp/packet/lisp/data.py", "pylisp/packet/ip/*.py", "pylisp/packet/ip/ipv6/*.py"]}
{"id": "C35", "title": "Wire layout of LISP messages", "statement": "Whatever is serialised is, byte for byte, the picture drawn by the specifications: AFI and LCAF addresses (every registered LCAF type, nested to any depth), locator records, Map-Reply/Map-Register and Map-Referral records, and all seven control messages carry each field, flag, count and length at its specified bit offset, in network byte order, with records and locators in their sanitised form.", "quantifier": "every address, record and message that serialises", "why_tests_cant": "All messages; symmetric encode/decode mistakes (swapped fields, wrong widths on both sides) are invisible to round-trip tests.", "anchors": ["pylisp/utils/afi.py:get_bitstream_for_afi_address", "pylisp/utils/lcaf/*.py:_to_data_bytes", "pylisp/packet/lisp/control/*.py:to_bytes", "pylisp/packet/lisp/control/*_record.py:to_bitstream", "pylisp/packet/lisp/data.py:DataPacket.to_bytes"]}
{"id": "C36", "title": "Authenticated messages verify at the receiver", "statement": "A Map-Register (with an 8-byte nonce), Map-Notify or Info message to which insert_authentication_data(key) was applied verifies with the same key, both directly and after being sent and parsed by a receiver; insertion works for every such message that serialises with some authentication data (it need not have any yet) and changes nothing but the authentication data (and the order of locators).", "quantifier": "every message that serialises, every key, both MAC algorithms", "why_tests_cant": "All messages and keys.", "anchors": ["pylisp/packet/lisp/control/map_register.py:insert_authentication_data", "pylisp/packet/lisp/control/map_register.py:verify_authentication_data", "pylisp/packet/lisp/control/map_notify.py"]}
{"id": "C37", "title": "Verification is sound up to MAC collisions", "statement": "If a message with key id SHA-1-96 or SHA-256-128 verifies with a key, its authentication data is the MAC under that key of its own serialisation with zeroed authentication data; two messages that verify with the same authentication data either serialise identically or exhibit a collision of the MAC function (Map-Registers with an 8-byte nonce; the length of the nonce is not checked by the code).", "quantifier": "every message, every key, every tampering", "why_tests_cant": "All tamperings.", "anchors": ["pylisp/packet/lisp/control/map_register.py:verify_authentication_data", "pylisp/packet/lisp/control/map_notify.py:verify_authentication_data"]}
{"id": "C38", "title": "What verification of a received message covers", "statement": "verify_authentication_data on a received Map-Register, Map-Notify or Info message that this code produced (a Map-Register: with an 8-byte nonce) succeeds exactly when the MAC of the received bytes with the authentication field zeroed equals the authentication field; bytes after the message are not covered. For bytes from other senders the verdict is about the canonical re-serialisation of the parsed message: in particular a Map-Register sent with the I flag and all-zero ids is judged as if the ids were absent.", "quantifier": "every received byte string", "why_tests_cant": "All received byte strings.", "anchors": ["pylisp/packet/lisp/control/map_register.py:verify_authentication_data", "pylisp/packet/lisp/control/map_register.py:from_bytes"]}
{"id": "C39", "title": "What verification accepts", "statement": "Verification accepts exactly: with key id 0 (none) a message without authentication data, whatever the key (so a configured key does not force senders to authenticate); with key ids 1 and 2 only a message whose authentication data is the MAC, under that key, of the message with zeroed authentication data.", "quantifier": "every Map-Register, Map-Notify and Info message, every key", "why_tests_cant": "All messages.", "anchors": ["pylisp/packet/lisp/control/map_register.py:verify_authentication_data", "pylisp/application/lispd/address_tree/map_server_node.py"]}
{"id": "C40", "title": "Type registries are write-once", "statement": "After any sequence of registrations, each number maps to the first class validly registered for it; registering the bound class again is harmless, every other re-registration or invalid class raises ValueError and changes nothing, lookups outside the valid range give nothing, and classes with distinct numbers are all found whatever the order of registration.", "quantifier": "every sequence of registration calls", "why_tests_cant": "All sequences.", "anchors": ["pylisp/packet/lisp/control/type_registry.py", "pylisp/utils/lcaf/type_registry.py", "pylisp/packet/ip/protocol_registry.py"]}
{"id": "C41", "title": "Address tree: children stay inside their parent and never overlap", "statement": "After any sequence of add, discard, remove and update calls, every child prefix of a container lies inside the container's prefix and children with different prefixes are disjoint.", "quantifier": "every operation sequence", "why_tests_cant": "All histories.", "anchors": ["pylisp/application/lispd/address_tree/container_node.py"]}
{"id": "C42", "title": "Address lookup is longest-prefix match", "statement": "In a tree in which no container holds two children with the same prefix: resolving an address inside the root always succeeds, the path consists of exactly the nodes of the tree whose prefix contains the address, each below the ones after it, and the result is the most specific of them. Resolving a prefix gives exactly the nodes that contain all of it, or MoreSpecificsFoundError when a container on the way has several children inside it. Anything outside the root raises NotAuthoritativeError. The outcome never depends on the order in which children were added or are iterated.", "quantifier": "every tree, every address, every iteration order", "why_tests_cant": "All trees and addresses.", "anchors": ["pylisp/application/lispd/address_tree/container_node.py:resolve_path", "pylisp/application/lispd/address_tree/container_node.py:find_one", "pylisp/application/lispd/utils/prefix.py:resolve_path"]}
{"id": "C43", "title": "Address tree as a map from prefixes: add, discard and remove", "statement": "add accepts a child inside the container that overlaps no other child, and it is then found by prefix and by every lookup inside it; an overlapping child raises ValueError and one outside raises NotAuthoritativeError, changing nothing. Adding a second node with the prefix of an existing child is accepted without replacing it, and makes that prefix unusable (lookups raise MoreSpecificsFoundError, find_exact and discard by prefix no longer see it, a third add raises ValueError). discard(prefix) removes exactly the child with that prefix. remove(child) does the same but raises KeyError exactly when it did remove something. Given an address object or a text instead of a network object, find_one still finds the node, but in, discard and remove find nothing even if a child has exactly that prefix (no exception inside the container, NotAuthoritativeError outside it).", "quantifier": "every tree and node", "why_tests_cant": "All trees.", "anchors": ["pylisp/application/lispd/address_tree/container_node.py:add", "pylisp/application/lispd/address_tree/container_node.py:remove"]}
{"id": "C44", "title": "DDT root file loading", "statement": "A DDT root description loads exactly when every line is readable, every prefix is of the family of its AFI (AFI 0 stands for everything in both families), and prefixes of the same instance and AFI are equal or disjoint. After loading, everything inside a listed prefix resolves to the referral for it, listing exactly the addresses the file gives for that prefix in any of its lines; an AFI 0 line covers every IPv4 and IPv6 address of the instance; everything else resolves to the root, and instances and AFIs not listed have no tree. A file that does not load raises an exception that says what is wrong with its first bad line: ValueError for an unreadable line, an unknown AFI or a prefix that overlaps with one other prefix, MoreSpecificsFoundError for one that overlaps with several, NotAuthoritativeError for a prefix of another family than the AFI.", "quantifier": "every list of delegation lines", "why_tests_cant": "All files.", "anchors": ["pylisp/application/lispd/utils/ddt_root_loader.py"]}
{"id": "C45", "title": "Map-Server accepts exactly authenticated in-scope registrations", "statement": "A registration is stored exactly when the message verifies with the site's key, its EID lies inside the site's prefix, and it equals the site's prefix unless more-specifics are allowed; it is then stored for its EID and sender (the xTR-ID with the site-ID, or else the source address) for 180 s, and nothing else in the store changes. Otherwise the store is unchanged and the authentication or the scope error is raised. (Caveat, also proved: a message with key id 0 and no authentication data verifies with every key, so any such registration in scope is accepted.)", "quantifier": "every Map-Register, record, site configuration and store state", "why_tests_cant": "All states and messages.", "anchors": ["pylisp/application/lispd/address_tree/map_server_node.py:handle_map_register_record"]}
{"id": "C46", "title": "Registration store: every interleaving of registrations and cleanup is consistent", "statement": "After any interleaving of registrations from any sources with cleanup passes, the store holds exactly the latest registration per (EID, source) that has not been expired by a cleanup pass since; a refreshed registration is never deleted before its lifetime ends; an expired one is gone after the next pass; no empty EID entry survives a pass.", "quantifier": "every schedule of registrations and cleanups with any clock readings", "why_tests_cant": "All schedules.", "anchors": ["pylisp/application/lispd/address_tree/map_server_node.py:MSCleanupThread", "pylisp/application/lispd/address_tree/map_server_node.py:handle_map_register_record"]}
{"id": "C47", "title": "Map-Notify answers confirm exactly the processed records", "statement": "When a Map-Register asks for a notification and at least one record was accepted, one Map-Notify is sent to the source of the register at port 4342, with the same nonce, key id, xTR-ID and site-ID, containing exactly the accepted records in order, authenticated with the key of the site that accepted the last of them; otherwise none is sent. (With key id 0 the Map-Notify is made but cannot be serialised, C86.) If the lookup of a record raises an exception (its EID covers several nodes) the records before it are registered but no Map-Notify is sent.", "quantifier": "every Map-Register and every tree", "why_tests_cant": "All messages and trees.", "anchors": ["pylisp/application/lispd/message_handler.py:handle_map_register"]}
{"id": "C48", "title": "ETR answers Map-Requests faithfully", "statement": "An ETR answers a Map-Request exactly when it asks for one EID prefix that resolves to one of its ETR nodes in the tree of its instance and address family and the node's locators can be determined. The answer has the request's nonce and probe flag, is addressed to the request's ITR-RLOCs and source port, and has one authoritative record with the ETR's own prefix and TTL 1440 that lists its current locators (marked probed exactly when the probe came in on that address), or says natively-forward when there is none; an ITR that receives it reads exactly that.", "quantifier": "every Map-Request, every ETR configuration, every set of learned RTRs and local sockets", "why_tests_cant": "All requests and configurations.", "anchors": ["pylisp/application/lispd/address_tree/etr_node.py:ETRNode.handle_map_request"]}
{"id": "C49", "title": "What a DDT node answers", "statement": "A DDT Map-Request without the security flag is answered by the most specific node for its first EID in the tree of its instance and address family. If that node is neither a delegation nor a Map-Server, the answer is a Map-Referral to the sender with the nonce of the request and one NOT-AUTHORITATIVE record (TTL 0, incomplete, no locators) for the EID asked for, which the receiver parses so; this also happens in holes of authoritative prefixes. For a delegation with DDT nodes a TypeError is raised, for one without the record cannot be serialised, for a Map-Server an AttributeError is raised: so whatever a DDT node transmits is such a NOT-AUTHORITATIVE answer, and NODE-REFERRAL, MS-REFERRAL, MS-ACK, MS-NOT-REGISTERED and DELEGATION-HOLE never occur. Requests with the security flag, without EID, or for an unknown instance or family are not answered.", "quantifier": "every request, every tree, every sender", "why_tests_cant": "All requests and trees.", "anchors": ["pylisp/application/lispd/address_tree/ddt_referral_node.py:handle_ddt_map_request", "pylisp/packet/lisp/control/locator_record.py:LocatorRecord.__init__"]}
{"id": "C50", "title": "An ETR accepts a Map-Notify only if it confirms its own registration", "statement": "A received Map-Notify is given to the ETRs that the tree has for the EIDs of its records and to no other. In every history a Map-Notify is stored as the answer to a pending registration only if it came from the map-server address registered with and carries the nonce of the Map-Register. Its content is accepted exactly when its MAC verifies with the shared key, nonce, key id and number of records are those of the Map-Register, its xTR-ID and site-ID are 0 or equal, and every registered record occurs in it with the same EID, TTL, action, version and number of locators (the locators themselves are not compared). A wrong xTR-ID or site-ID ends in a KeyError instead of a refusal, and a Map-Notify with a key id, received by a registration without a key, in a TypeError. A registration succeeds exactly when no notify was wanted and the message was sent, or the thread was not stopped, no sending failed and the notify that arrived was accepted; the exchange with a Map-Server of this implementation succeeds.", "quantifier": "every register/notify pair, every history of pending registrations and received Map-Notifies", "why_tests_cant": "All pairs and histories.", "anchors": ["pylisp/application/lispd/address_tree/etr_node.py:MapRegister.set_notify_if_matches", "pylisp/application/lispd/address_tree/etr_node.py:MapRegister.notify_content_ok", "pylisp/application/lispd/address_tree/etr_node.py:MSRThread.register"]}
{"id": "C51", "title": "Locators registered by an ETR", "statement": "The locators of an ETR can be determined exactly when every configured locator and every learned RTR has an IP address. Then they are, each once, reachable and unprobed: every configured locator with a set address, marked local exactly when it is the address of one of the sockets; except that with RTRs in use the local ones are left out and instead every RTR is listed with the priorities and weights of the first local one. An unset address is announced only if an RTR is itself the unset address.", "quantifier": "every locator configuration, every set of learned RTRs, every set of local sockets", "why_tests_cant": "All configurations.", "anchors": ["pylisp/application/lispd/address_tree/etr_node.py:ETRNode.get_etr_locators"]}
{"id": "C52", "title": "What triggers a new registration", "statement": "Setting the RTRs of a registration to a different set, or for the first time, stores them and tells every registration thread of the node to register again; setting an unchanged set tells nobody. A change of a locator's address and adding or removing a locator tell nobody (the observer meant for it never does), so they are announced only with the next periodic registration. Removing a registration stops its thread, but the RTRs it learned stay in use.", "quantifier": "every state of the node and every change", "why_tests_cant": "All histories.", "anchors": ["pylisp/application/lispd/address_tree/etr_node.py:ETRNode.set_rtrs", "pylisp/application/lispd/address_tree/etr_node.py:ETRNode.on_locator_change", "pylisp/packet/lisp/control/locator_record.py"]}
{"id": "C53", "title": "Registration schedule", "statement": "A registration thread ends exactly when told to stop. A pass asks for NAT information exactly when the last registration was not acknowledged or the last inquiry is more than 15 minutes old. It registers exactly when it asks for NAT information (and that raised nothing), was told to, or the last registration is more than 60 seconds old, and demands a Map-Notify exactly when it asked for NAT information. After a successful registration that changed nothing, nothing is sent for 60 seconds and the first pass after that registers; after a failure the next pass registers; the first registration is always followed by a second one in the next pass; a signal is seen by the next pass, except that one is lost if registering raises after an earlier success; at most three messages are sent per attempt.", "quantifier": "every thread state, clock reading, sequence of passes, and outcome of every attempt including exceptions", "why_tests_cant": "All histories.", "anchors": ["pylisp/application/lispd/address_tree/etr_node.py:MSRThread.run", "pylisp/application/lispd/address_tree/etr_node.py:MSRThread.register", "pylisp/application/lispd/address_tree/etr_node.py:MSRThread.get_nat_info"]}
{"id": "C54", "title": "Message sending tries destinations in order and stops at the first success", "statement": "send_message tries the sockets of each destination's address family, destination by destination, in order. It reports a source socket and destination exactly when that pair is the first whose sendto took the whole message (then nothing more is sent), it reports failure exactly when every pair was tried and took fewer bytes, and an exception of sendto, of serialising the message or of a destination that is not an IP address ends it at that point: ValueError for a destination whose text is not that of an address, TypeError for one that has no text (a nonempty AFI list, or something around one).", "quantifier": "every destination list, socket list, message and pattern of sendto results and exceptions", "why_tests_cant": "All lists and failure patterns.", "anchors": ["pylisp/application/lispd/send_message.py"]}
{"id": "C55", "title": "AutoUDPSocket is usable exactly while it has an address", "statement": "After any sequence of address changes and rebinds, with any failures of the operating system, an AutoUDPSocket is open exactly when its bound address is non-zero, with exactly one OS socket open then and none otherwise; when open it is bound to an address of its own family that is no loopback, link-local, multicast or wild-card address; rebind reports whether it is open and then it is bound to the current address; without an open socket sends report 0 bytes, receives are empty and there is no file number. A datagram of a sender whose address the system reports with a zone (IPv6 link-local) cannot be received: recvfrom raises ValueError.", "quantifier": "every address, every sequence of address changes and rebinds, every operating system outcome", "why_tests_cant": "All histories.", "anchors": ["pylisp/utils/auto_socket.py"]}
{"id": "C56", "title": "Automatic addresses notify observers exactly on change", "statement": "Updating an automatic address takes the first suitable address of the interface (no link-local, loopback, multicast, reserved or unspecified one) provided all entries before it are readable, and 0 otherwise; every observer is called exactly once for each change of the value and never otherwise, and asking for notifications twice does not double them.", "quantifier": "every history of interface address lists", "why_tests_cant": "All histories.", "anchors": ["pylisp/utils/auto_addresses.py", "pylisp/utils/notification.py"]}
{"id": "C57", "title": "Received message numbering and decapsulation", "statement": "The k-th message received since start gets number k mod maxint + 1, so numbers are pairwise different for maxint consecutive messages. A received control message is exposed as it is; of an encapsulated control message exactly one level is opened, and the UDP header (with its ports) and the inner message exposed are those of the inner UDP packet. Construction succeeds exactly when the message is a control message and, for an encapsulated one, the inner packet is an unfragmented IP packet that carries, behind its header chain, UDP to port 4342 not from port 4341 with a control message; otherwise ValueError is raised.", "quantifier": "all messages, all addresses and ports, all IP header chains, all numbers of messages received before", "why_tests_cant": "All sequences.", "anchors": ["pylisp/application/lispd/received_message.py"]}
{"id": "C58", "title": "Handling a message: one answer at most, limited effects, and the program goes on", "statement": "Handling a received message sends at most one message, of which at most one complete copy leaves; only Map-Requests (Map-Reply to the ITR addresses), Map-Registers that want it (Map-Notify to the sender, port 4342) and DDT Map-Requests (Map-Referral to the sender) are answered, always with the nonce of the request. Answers are never answered by their receiver. Map-Registers change only registrations, Map-Notifies and Info messages only the state of ETRs, other messages and unreadable datagrams nothing. Exceptions are contained: whatever is received, the main loop handles every event of every batch and goes on until SIGINT or SIGTERM.", "quantifier": "every received message or datagram, every configuration and state, every behaviour of the sockets, every sequence of events", "why_tests_cant": "All messages, states and event sequences.", "anchors": ["pylisp/application/lispd/message_handler.py:handle_message", "scripts/lispd:main"]}
{"id": "C59", "title": "Configuration loading makes both address families mandatory", "statement": "Loading the configuration succeeds exactly when no existing file is broken, LISTEN_ON is parseable, every configured instance gives itself the tree 0.0.0.0/0 under AFI 1 and ::/0 under AFI 2 and every value has the right type; so after loading every instance has both trees. The fix-up meant to supply a missing family never does so (it stores them under another key): a configuration with one family for an instance is rejected. Of several files the last value wins.", "quantifier": "all lists of configuration files, all contents, all sets of instances and trees", "why_tests_cant": "All configurations.", "anchors": ["pylisp/application/lispd/settings.py:fix_config"]}
{"id": "C60", "title": "xTR-ID carries the watermark and the MAC address", "statement": "A generated xTR-ID has the fixed watermark as upper 64 bits and as lower 64 bits the first usable (unicast, non-zero) MAC address in interface order, or 0 when there is none; it is then below 2^128 and different MAC addresses of the same length give different ids. The addresses are read from the text the operating system gives, two hexadecimal digits per byte in either case separated by colons, and the generated id depends on the bytes they denote only. This holds for MAC addresses of up to 8 bytes; a longer one (InfiniBand) is shifted into the watermark and can exceed 128 bits, which no Map-Register can carry. Texts that are not of this form raise ValueError at most, no other exception.", "quantifier": "all lists of interfaces and their MAC addresses", "why_tests_cant": "All interface sets.", "anchors": ["pylisp/application/lispd/utils/id_generators.py"]}
{"id": "C61", "title": "update_addresses refreshes registered automatic addresses", "statement": "update_addresses gives every registered automatic address the value picked from its own interface and family and changes no other one. A new automatic address is registered exactly when no registered one for the same interface and family is without an address at that moment (otherwise it is silently left out and its value never changes again); once registered it stays so as long as it lives and follows its interface. It lives until the last reference to it is dropped, and is gone then.", "quantifier": "every history of object creations, object deaths and updates, every sequence of interface states", "why_tests_cant": "All histories of creation, destruction and interface changes.", "anchors": ["pylisp/utils/auto_addresses.py: AutoAddress.__init__, update_addresses"]}
{"id": "C62", "title": "What an ETR registers and how it is sent", "statement": "A Map-Register of an ETR has one authoritative record for its own prefix with TTL 1440, action 0 and the given locators, the nonce, key id, proxy flag, xTR-ID and site-ID of the registration, the for-RTR flag exactly when there are RTRs, and asks for a Map-Notify when demanded or when there are RTRs. Without NAT it is sent to the Map-Server's port 4342; behind NAT it is sent encapsulated to the RTRs, and the receiver that opens it finds the same Map-Register in UDP 4342 to 4342 with a verifying checksum, from our own address to the Map-Server (IPv4 TTL 63, IPv6 hop limit 0); when the two addresses differ in family nothing is sent.", "quantifier": "every registration, prefix, locator list, NAT information", "why_tests_cant": "All configurations.", "anchors": ["pylisp/application/lispd/address_tree/etr_node.py:MapRegister.__init__", "pylisp/application/lispd/address_tree/etr_node.py:MapRegister.send"]}
{"id": "C63", "title": "NAT detection of an ETR", "statement": "The Info-Request of an ETR with a key (key id 1 or 2) always serialises, asks for its prefix with TTL 1440 and verifies with the key at the receiver. An Info-Reply is given to the ETR that the tree has for its EID and to no other. There it is stored with the first pending Info-Request that was sent to the address it came from with its nonce, and any other changes nothing; its authentication data is never looked at. Unless RTRs are switched off, if no sending failed NAT is assumed exactly when there was a reply that shows an address or port different from our own or the use of RTRs is forced; when no socket could send and nothing was answered an exception is raised; behind NAT with no RTRs listed the Map-Register is sent nowhere.", "quantifier": "every reply, every history of attempts, every registration", "why_tests_cant": "All replies and outcomes.", "anchors": ["pylisp/application/lispd/address_tree/etr_node.py:InfoRequest.set_reply_if_matches", "pylisp/application/lispd/address_tree/etr_node.py:MSRThread.get_nat_info", "pylisp/application/lispd/address_tree/etr_node.py:ETRNode.handle_info_message_reply"]}
{"id": "C64", "title": "Decapsulation of data packets", "statement": "A datagram on a data plane socket is forwarded exactly when it has an 8-byte LISP header with an instance id other than 0xffffff (or none) and its payload is an IPv4 or IPv6 packet that is accepted with all it contains and can be written again; it goes to the destination address in it. A packet of IPv4 without options, IPv6, extension headers, UDP and other protocols (no LISP inside) is forwarded with the same length and meaning, and without fragment headers byte for byte, TTL included. An accepted packet with anything else in it is forwarded exactly when the control message in it (if there is one) is not a Map-Request with an EID that denotes no network and not a Map-Register, Map-Notify or Info message without authentication data (and there is room for what is added to a Map-Register for RTRs and a Map-Referral), in at most as many bytes and, without IPv4 options, as the same packet; an IPv4 packet with options is forwarded with a wrong total length, so that no receiver finds a well-formed packet in it. Fragments of UDP over IPv4 that are not complete UDP messages are dropped. No data packet with another instance id than 0xffffff changes the state of any node or is answered.", "quantifier": "every datagram, every nesting of headers, every state", "why_tests_cant": "All packets.", "anchors": ["scripts/lispd:handle_data_message", "pylisp/packet/lisp/data.py", "pylisp/packet/ip/ipv4.py", "pylisp/packet/ip/ipv6/base.py"]}
{"id": "C65", "title": "Control messages over the data plane", "statement": "A data packet with instance id 0xffffff is never forwarded. If it carries, behind its IP header chain, UDP to port 4342 not from port 4341, the UDP payload is handled exactly like a datagram on a control plane socket from the same source; otherwise nothing changes and nothing is answered.", "quantifier": "every data packet, header chain and state", "why_tests_cant": "All packets and states.", "anchors": ["scripts/lispd:handle_data_message"]}
{"id": "C66", "title": "Encapsulation to the proxy ETR", "statement": "A packet taken from the kernel queue is sent on exactly when a proxy ETR is configured and the packet is well-formed IPv4 or IPv6: unchanged behind an 8-byte zero LISP header, to port 4341 of the proxy ETR. A receiver running this program forwards packets of IPv4 without options, IPv6, extension headers other than fragment headers, UDP and other protocols (no LISP inside) as exactly the same bytes to their destination. It forwards any other packet it accepts under the condition in C64, as the same packet unless IPv4 options are in it.", "quantifier": "every packet, every state of the receiver", "why_tests_cant": "All packets.", "anchors": ["scripts/lispd:nfqueue_callback", "scripts/lispd:handle_data_message"]}
{"id": "C67", "title": "The command line tools ask what they are told to, everywhere, and lispd understands them", "statement": "map_resolve and ddt_query can be asked about every IPv4 and IPv6 address: for every address, local address, port and nonce the encapsulated Map-Request can be built, and its receiver opens it to one Map-Request with that nonce for exactly the host prefix of the address, with the local address as the only ITR-RLOC, in UDP with a valid checksum from the unspecified address to the address asked about (TTL 64; the DDT flag set by ddt_query only). A lispd answers ddt_query with one Map-Referral with the same nonce (NOT-AUTHORITATIVE for the host prefix) to the address and port it came from exactly when its tree has a node for the address that is neither a delegation nor a Map-Server; otherwise it transmits nothing, and it ignores map_resolve. The message of map_register is stored for 180 s, under the source address, by a lispd with a site for 37.77.62.0/24 with the key, and not answered. Each tool tries every combination of a server address and a source address whatever goes wrong with the sockets, until an answer that cannot be parsed (or, for map_resolve and map_register, an encapsulated answer) ends it with an exception.", "quantifier": "every address asked about, local address, port, nonce, MAC, configuration, list of server and source addresses, and outcome of every send and receive", "why_tests_cant": "The tools use random nonces and ports and run against an external server; the address space and the combinations of socket failures cannot be enumerated.", "anchors": ["scripts/map_resolve", "scripts/ddt_query", "scripts/map_register", "pylisp/application/lispd/message_handler.py:handle_message"]}
{"id": "C68", "title": "Start of lispd and life of its registration threads", "statement": "lispd reaches its main loop exactly if its configuration loads, it was not only asked to show it, LISTEN_ON names at least one address, the packet queues are configured as required (a proxy ETR needs both queue numbers) and can be opened, and INSTANCES holds only address tree nodes; it then has, in order, one control socket on port 4342 per LISTEN_ON address, one data socket on port 4341 per address iff PROCESS_DATA is set, and one queue per configured queue number. At that point every node of every tree of every instance has these sockets, and every registration of every ETR node has a thread that was started exactly once. For every later history of add_etr_registration and remove_etr_registration, exactly the configured registrations have a thread, it is running and was started once, and no call raises; threads of removed registrations have been asked to stop, and a thread ends only when asked to. A node that is never given sockets (one added to a tree after start-up) never starts a registration. The exit status is 1 for a configuration error, 2 for any other failure to start, and 0 after SIGINT/SIGTERM.", "quantifier": "every configuration (files, values, trees of any shape and depth), every availability of queues, every history of socket assignments, registrations added and removed and threads ending, every sequence of main-loop events", "why_tests_cant": "Whether a thread is started depends on the order of an unbounded history of add, remove and set_sockets calls, and the sockets must reach every node of arbitrarily deep trees; starting a thread twice raises only for particular histories.", "anchors": ["scripts/lispd: create_sockets, main", "pylisp/application/lispd/address_tree/base.py: AbstractNode.set_sockets", "pylisp/application/lispd/address_tree/container_node.py: ContainerNode.set_sockets", "pylisp/application/lispd/address_tree/etr_node.py: ETRNode.set_sockets, add_etr_registration, remove_etr_registration, __del__, MSRThread.stop"]}
{"id": "C69", "title": "Exact input language of the LISP control-plane parsers", "statement": "Every control-plane parser (addresses with and without prefix length, locator records, mapping records, Map-Referral records, Map-Request, Map-Reply, Map-Register, Map-Notify, Map-Referral and Info messages, and ControlMessage.from_bytes for all of them) returns a given value exactly for the byte strings that start with a denotation of that value in a separately specified grammar, consumes exactly that denotation and ignores what follows a message; the grammar says which freedom a receiver grants: reserved bits and LCAF flags are free, instance-ID, AS-number and geo LCAFs may carry junk after their address, locators may come in any order (and are received in stable ascending order), the action of a record with locators is ignored, EID host bits must be zero, signatures are refused. The grammar is unambiguous: no byte string starts with denotations of two messages.", "quantifier": "every byte string and every value (addresses nested arbitrarily deep)", "why_tests_cant": "It is an equivalence over all byte strings; tests see a few accepted and a few refused ones.", "anchors": ["pylisp/utils/afi.py:read_afi_address_from_bitstream", "pylisp/utils/lcaf", "pylisp/packet/lisp/control/locator_record.py:LocatorRecord.from_bytes", "pylisp/packet/lisp/control/map_reply_record.py", "pylisp/packet/lisp/control/map_referral_record.py", "pylisp/packet/lisp/control/base.py:ControlMessage.from_bytes", "pylisp/packet/lisp/control/map_request.py", "pylisp/packet/lisp/control/map_reply.py", "pylisp/packet/lisp/control/map_register.py", "pylisp/packet/lisp/control/map_notify.py", "pylisp/packet/lisp/control/map_referral.py", "pylisp/packet/lisp/control/info_message.py"]}
{"id": "C70", "title": "An ETR that keeps running keeps its registration; one that stops is forgotten", "statement": "At every pass of a registration thread that is not told to stop and does not fail in asking for NAT information, the last registration was at most 60 seconds ago, whatever its outcome. If the passes are at most g apart, every registration is accepted by the Map-Server within a delay l, and g + l is at most two minutes, then from l after the first pass on and as long as the thread goes on, the Map-Server has an unexpired registration of that EID and sender at every moment its lock is free, for every interleaving with its cleanup thread. Conversely, once the cleanup thread has made a pass more than 180 seconds after the last registration arrived, the Map-Server has none.", "quantifier": "every sequence of passes with arbitrary outcomes, every interleaving of the Map-Server threads with a clock that does not go back, all delays", "why_tests_cant": "It is about unbounded executions of two concurrent programs and their timing.", "anchors": ["pylisp/application/lispd/address_tree/etr_node.py:MSRThread.run", "pylisp/application/lispd/address_tree/map_server_node.py:MSCleanupThread.run", "pylisp/application/lispd/address_tree/map_server_node.py:MapServerNode.handle_map_register_record"]}
{"id": "C71", "title": "Text of a DDT root file", "statement": "load_ddt_root gives a result for a file exactly when every line is empty (whitespace and perhaps a # comment) or consists of an instance number, an AFI number, a prefix and an address separated by whitespace, with optional whitespace and comment around, and the delegations these lines state load (C44); it then gives exactly what these delegations give. Every text has one reading; comments, whitespace, empty lines, carriage returns, a missing final newline and leading zeroes do not matter. A text that does not load raises ValueError if its first bad line is neither empty nor has the four fields, and else what the delegation in it raises (C44). In particular, with the text parsers of the ipaddress library, a file that lists delegations one per line, with the texts of their prefixes and addresses, loads (or raises) exactly like these delegations.", "quantifier": "every text, and every behaviour of the address and network parsers of the ipaddress library; every list of delegations", "why_tests_cant": "All texts; a test compares a few files.", "anchors": ["pylisp/application/lispd/utils/ddt_root_loader.py:ddt_line", "pylisp/application/lispd/utils/ddt_root_loader.py:load_ddt_root"]}
{"id": "C72", "title": "Geo coordinates in decimal degrees", "statement": "Setting the latitude or longitude of a geo address to a value that is not negative stores whole degrees, minutes below 60 and seconds up to 60, and reading it back gives the value to within half a second; with values below 32768 degrees the address can be sent and is received unchanged. A negative value that is not a whole number of degrees is read back one degree too large, and an address with a value of at most minus one degree cannot be sent.", "quantifier": "every rational coordinate (arithmetic taken as exact)", "why_tests_cant": "All coordinates; rounding errors show up only at particular values.", "anchors": ["pylisp/utils/lcaf/geo_address.py:LCAFGeoAddress"]}
{"id": "C73", "title": "Copies of tree nodes, and DDT referral nodes as sets", "statement": "Copying a container never fails, whatever calls were made on it before and in whatever order its set of children is iterated: the copy has the same child nodes, and every lookup that gives a node below the container gives the same node in the copy (the copy of an authoritative container has no DDT nodes). A container never has more than two children with the same prefix. A DDT referral node behaves as a set of addresses: each is in it once, adding an address (object or text) that is there changes nothing, an update that meets an unusable text keeps what came before it and raises; text can be added but is never found or removed by text; copying gives the same set.", "quantifier": "every sequence of calls on containers and referral nodes, every iteration order of their sets", "why_tests_cant": "All histories of calls; the iteration order of a set differs between runs.", "anchors": ["pylisp/application/lispd/address_tree/container_node.py:ContainerNode.copy", "pylisp/application/lispd/address_tree/ddt_referral_node.py:DDTReferralNode"]}
{"id": "C74", "title": "Cached automatic addresses are shared and follow their interface", "statement": "Asking for the automatic address of an interface and family again gives the same object, whatever happened in between; for another interface or family it gives a different one, and no two objects are ever made for the same interface and family. After every update of the addresses the object has the value picked from what the interface has then (so the defect of C61 does not show in programs that only use these functions; for lispd itself see C83).", "quantifier": "every sequence of requests and updates, every state of the interfaces at each of them", "why_tests_cant": "All histories of calls and interface changes.", "anchors": ["pylisp/utils/auto_addresses.py:get_ipv4_address", "pylisp/utils/auto_addresses.py:get_ipv6_address", "pylisp/utils/auto_addresses.py:update_addresses"]}
{"id": "C75", "title": "Locator objects in the set of an ETR", "statement": "Adding a locator to an ETR files it unless the same object, or one that is equal at that moment, is filed under the same hash. As long as its address attribute is not assigned to, it stays in the set and can be found there, whatever happens to its other attributes, to the interface its automatic address follows and to the order of the set, until a locator is removed that is the same object or equal at that moment; and when its address is set and not local the ETR announces it with the address its interface got last and the attributes assigned to it last. In a program that never assigns to the address of a locator, a locator is in the set at most once and removing it removes it and nothing else, unless another one in the set is equal to it at that moment. But a locator that gets another address while in the set can no longer be removed, and adding it files it a second time (unless it or an equal one is filed under the new hash); and a locator with an automatic address and an equal one with a plain address are both kept.", "quantifier": "every history of additions, removals, interface changes, assignments to attributes and reorderings of the set; every hash function", "why_tests_cant": "All histories of mutable objects in a hash set, for every hash function and iteration order.", "anchors": ["pylisp/application/lispd/address_tree/etr_node.py:ETRNode.add_locator", "pylisp/application/lispd/address_tree/etr_node.py:ETRNode.remove_locator", "pylisp/packet/lisp/control/locator_record.py:LocatorRecord.__eq__", "pylisp/packet/lisp/control/locator_record.py:LocatorRecord.__hash__", "pylisp/utils/auto_addresses.py:AutoAddress.__hash__"]}
{"id": "C76", "title": "Answers find their request in every schedule of the threads", "statement": "The threads that register with Map-Servers put their pending requests on a list without locks, and the main thread looks up the request an incoming Map-Notify or Info-Reply answers by going through that list. In every interleaving of their steps: an answer used by a thread was received from the Map-Server asked, with the nonce of the request; the list has each request that was not taken off exactly once, so taking it off never raises ValueError, and a request whose event is set has an answer; an answer received once is stored with one request at most; the first request on the list that an answer is for takes it unless that request or one before it is taken off the list while the answer is handled (then it can be reported as unexpected although its request is there); an answer taken counts even after the last timeout; the Map-Notify whose contents are compared is the one that was authenticated, unless a further one was being stored while the request was taken off (then it can be another one); a Map-Notify never makes the main thread raise, an Info-Reply does exactly when the request has not yet noted which socket it was sent from; a request whose thread is stopped or cannot send stays on the list for ever. A request is sent three times at most; it is abandoned exactly if sending it raised or its thread was told to stop; that there is no answer is concluded only after three attempts; and when a wait is over the thread abandons the request if told to stop, else goes on to take it off the list if there is an answer or this was the third attempt, else sends it again.", "quantifier": "every number of requests, every interleaving of the steps of the main thread and all registration threads, every sequence of incoming answers", "why_tests_cant": "The outcome depends on the schedule; tests run one schedule, and the windows are a few bytecodes wide.", "anchors": ["pylisp/application/lispd/address_tree/etr_node.py: InfoRequest.set_reply_if_matches, MapRegister.set_notify_if_matches, MapRegister.notify_content_ok, MSRThread.get_nat_info, MSRThread.register, ETRNode.handle_map_notify_record, ETRNode.handle_info_message_reply"]}
{"id": "C77", "title": "Which exceptions the parsers raise, and when", "statement": "Parsing bytes either succeeds or raises ValueError, ReadError (bytes are missing), TypeError or NotImplementedError, never anything else: addresses, locators, and packets whose payload is not decoded raise only the first two; TypeError is raised only for packets that contain an LCAF address, and by a record with sane fields exactly when one of its locators is an LCAF address without any address in it; NotImplementedError is raised by a Map-Reply exactly when its security flag is set and the message without the flag is accepted, by a Map-Referral record exactly when it announces signatures and its EID and locators can be read, and by an Encapsulated Control Message whenever its security flag is set and its four byte header is there. A control message parser decides by the bytes it has read: its verdict on some bytes, other than that bytes are missing, is its verdict on the same bytes with any others after them.", "quantifier": "every byte string and every parser, at every nesting depth; every record; every continuation", "why_tests_cant": "A test shows one exception for one input; that no input of any length or nesting raises another class, and exactly which inputs raise a class, ranges over all byte strings.", "anchors": ["pylisp/packet/lisp/control/base.py: ControlMessage.from_bytes", "pylisp/packet/lisp/control/map_reply.py: from_bytes", "pylisp/packet/lisp/control/map_referral_record.py: from_bytes", "pylisp/packet/lisp/control/encapsulated_control_message.py: from_bytes", "pylisp/packet/lisp/control/map_reply_record.py: sanitize", "pylisp/packet/lisp/control/locator_record.py: sort_key", "pylisp/utils/lcaf: from_bytes", "pylisp/utils/afi.py: read_afi_address_from_bitstream"]}
{"id": "C78", "title": "sanitize, to_bytes and the authentication methods change objects in place, but never what messages say", "statement": "Control messages, records and lists of locators are objects that can be shared, and sanitize, to_bytes, verify_authentication_data and insert_authentication_data sort lists, clear actions, wrap EIDs and overwrite authentication data in place, also when they end in an exception. (1) Every sequence of such calls on any messages answers, call by call and exception by exception, as if messages were immutable values of which only the authentication data change. (2) After any calls locators are untouched, a list of locators is the old one or the old one stably sorted by address (and then all its locators are sane IP locators), a record is the old one or the old one with action 0 (and then it has locators), a Map-Referral record is the old one or has its EID wrapped in instance id 0. (3) to_bytes gives the same result before and after calls that do not calculate authentication data of that very message; sanitize after a successful sanitize changes nothing. (4) verify_authentication_data that returns changes no message; verify or insert that raises leaves 20 or 32 zeros as authentication data if the key id is 1 or 2 and changes no message otherwise. (5) A message authenticated with a key verifies with this key after any calls on other messages and any calls other than insert on itself.", "quantifier": "all heaps of message, record, list and locator objects with arbitrary sharing, all sequences of calls on any of the messages, all keys and all MAC functions", "why_tests_cant": "Whether an in-place change made by one call is visible to a later one depends on the sharing pattern, the order of the calls and the point at which an exception interrupted a call; all combinations are infinitely many.", "anchors": ["pylisp/packet/lisp/control/map_reply_record.py:MapReplyRecord.sanitize", "pylisp/packet/lisp/control/map_referral_record.py:MapReferralRecord.sanitize", "pylisp/packet/lisp/control/map_register.py:calculate_authentication_data", "pylisp/packet/lisp/control/map_notify.py:calculate_authentication_data", "pylisp/packet/lisp/control/info_message.py:calculate_authentication_data"]}
{"id": "C79", "title": "Packets change in place when they are serialised or checked, but never what they say", "statement": "IPv4, IPv6, extension-header, UDP, LISP data and Encapsulated Control Message packets are objects whose payloads can be shared, and sanitize, to_bytes, calculate_checksum and verify_checksum change them in place, also when they end in an exception. (1) Every sequence of such calls, mixed with the calls of C78 on the control messages inside, answers, call by call and exception by exception, as if packets and messages were immutable values of which only authentication data and UDP checksums ever change, the latter only to 0 and only when the checksum of a UDP message that cannot be written (port out of range, or too long) is calculated or verified. (2) After any calls every packet has the payload it had and the attributes it had, except that the next header of an IP packet may have become the type of its payload, the echo-nonce-request flag of a data packet without nonce may have been cleared, and a UDP checksum may be 0. (3) As long as no call inserts authentication data and those that calculate authentication data or checksums return, every call answers as if it were the only one. (4) calculate_checksum and verify_checksum change the UDP message exactly when it cannot be written; after such a verify_checksum, which raises ValueError, every later one answers True. (5) sanitize after a sanitize that returned changes nothing.", "quantifier": "all acyclic heaps of packet, payload and control message objects with arbitrary sharing, all sequences of calls on any of them, all addresses, keys and MAC functions", "why_tests_cant": "The in-place changes are meant to be invisible; whether an earlier call on another packet that shares a payload, or one that ended in an exception, can change a later answer depends on the whole history of calls and on the sharing, of which tests see a few.", "anchors": ["pylisp/packet/ip/protocol.py:Protocol.sanitize", "pylisp/packet/ip/ipv4.py:IPv4Packet.sanitize", "pylisp/packet/ip/ipv4.py:IPv4Packet.to_bytes", "pylisp/packet/ip/ipv6/base.py:IPv6Packet.sanitize", "pylisp/packet/ip/udp.py:UDPMessage.calculate_checksum", "pylisp/packet/ip/udp.py:UDPMessage.verify_checksum", "pylisp/packet/lisp/data.py:DataPacket.sanitize", "pylisp/packet/lisp/control/encapsulated_control_message.py:EncapsulatedControlMessage.to_bytes"]}
{"id": "C80", "title": "The LISP content of a UDP message", "statement": "get_lisp_message() of a UDP message returns its payload, and does so exactly when ports and payload agree: a LISP data packet while port 4341 is used and 4342 is not, or a LISP control message (also an encapsulated one) while port 4342 is used and 4341 is not. get_lisp_data_packet() returns the payload exactly when it is a LISP data packet, whatever the ports are unless both LISP ports are used. get_lisp_control_message() returns the payload exactly when it is a control message and port 4341 is not used, or when it is a data packet, port 4341 is used and 4342 is not (so the result is not always a control message). In every other case ValueError is raised. For a UDP message accepted from the network get_lisp_message() returns the payload exactly when one of the two LISP ports is used and the other is not.", "quantifier": "every pair of ports, every payload object, every accepted byte string", "why_tests_cant": "All combinations of port numbers and payload classes, and all byte strings a UDP message can be parsed from; a test fixes one of each.", "anchors": ["pylisp/packet/ip/udp.py: UDPMessage.get_lisp_message, get_lisp_data_packet, get_lisp_control_message, from_bytes", "pylisp/application/lispd/received_message.py"]}
{"id": "C81", "title": "A registration between two running lispds, datagram by datagram", "statement": "The bytes of the Map-Register an ETR makes for its prefix, arriving as a control-plane datagram at another lispd whose address tree has a Map-Server site for the prefix with the same key and the prefix in the scope of its EID prefixes, make that site hold exactly this registration more: for this prefix and this sender (its xTR and site IDs, or, when the xTR ID is zero, its address), with the locators the ETR registered in ascending order and its proxy flag, for 180 seconds; every other registration of every site and every ETR state is as before. If the ETR asked for a Map-Notify, the receiving lispd calls send_message with a Map-Notify to the source address at port 4342 over the socket the datagram came in on; the bytes of that message, arriving at the ETR's lispd from the address of the Map-Server while the request is pending, are stored with the pending request and nowhere else, and register() reports success.", "quantifier": "every key, prefix, locator list, nonce, xTR/site ID, NAT state, address tree and registration store of the receiving lispd, source address and time, every state of the sending lispd with the request pending, and every message authentication function.", "why_tests_cant": "It composes a writer, the two receivers, the address-tree lookup, the scope check, the authentication in both directions and the pending list, each with an unbounded input space; a test fixes one configuration and one message.", "anchors": ["pylisp/application/lispd/address_tree/etr_node.py: ETRNode.register/send/handle_map_notify_record", "pylisp/application/lispd/message_handler.py: handle_map_register, handle_map_notify", "pylisp/application/lispd/address_tree/map_server_node.py: MapServerNode.handle_map_register_record", "pylisp/packet/lisp/control/map_register.py, map_notify.py", "scripts/lispd"]}
{"id": "C82", "title": "Which configuration files are read, and which of them wins", "statement": "lispd looks for its configuration in exactly three files, in this order: /etc/lispd/settings.py, etc/lispd/settings.py in the parent of the directory the program is in (links resolved), and .pylisp/lispd/settings.py in the home directory of the user. Without symbolic links, for a program <top>/<bin>/<prog>, called by whatever name, the second one is <top>/etc/lispd/settings.py. When the settings can be loaded none of these files is broken (missing ones are skipped), and every setting has the value of the last of the three files that defines it, or its default. Slashes at the end of the home directory do not matter. An absolute file name is taken apart into its characters, each looked for as a file of its own.", "quantifier": "every program name and working directory, every home directory, every directory depth and file name, every content of the three files, every setting.", "why_tests_cant": "The paths range over all installations and home directories, the values over all contents of three files that may each be missing, broken or define any subset of the settings.", "anchors": ["pylisp/application/lispd/settings.py: get_config_paths, get_potential_config_files, apply_config_files"]}
{"id": "C83", "title": "Automatic addresses in lispd follow their interfaces, except IPv4 on vlan2", "statement": "Loading lispd makes two automatic IPv4 addresses of the interface vlan2 for a sample message that is never used. The automatic address got for any other interface or family still follows its interface: after every update it has the value picked from what the interface has then. The one for IPv4 on vlan2 follows its interface exactly when, at the time it is first asked for, the first of the two objects made on loading has an address, and so has the second if the first had an address at once; otherwise it keeps the value it found first for ever. So with the shipped configuration, which listens on vlan2, lispd never gets an IPv4 address to listen on if vlan2 had no usable IPv4 address when lispd was loaded and when the configuration was read, whatever addresses vlan2 gets later.", "quantifier": "every sequence of requests and updates after loading, every state of the interfaces at each of them", "why_tests_cant": "All histories of interface states relative to loading; a test loads the module once, in one environment.", "anchors": ["pylisp/application/lispd/address_tree/map_server_node.py (module level, x)", "pylisp/utils/auto_addresses.py: AutoAddress.__init__, get_ipv4_address, get_ipv6_address, update_addresses", "etc/lispd/settings.py: LISTEN_ON"]}
{"id": "C84", "title": "The recursion limit of the interpreter never changes what is parsed", "statement": "Wherever the interpreter stops a nested from_bytes call (recursion limit, out of memory), parsing a packet gives exactly what it gives without a limit, or raises the interpreter's exception: never another packet and never another exception of the library. With a limit of n nested calls exactly the accepted packets with at most n nested headers are accepted, all others raise. An accepted packet has at most one nested header for every 8 bytes and one more; and packets that deep exist: for every n below 8192 there is an accepted IPv6 packet of 40 + 8n bytes with n + 2 nested headers, so a single datagram exceeds the interpreter's default limit of 1000.", "quantifier": "every byte string, every nesting, every set of nested calls that are stopped, every limit", "why_tests_cant": "All nestings and all points at which the interpreter can stop; a test fixes one stack depth.", "anchors": ["pylisp/packet/ip/ipv4.py: from_bytes", "pylisp/packet/ip/ipv6/base.py: from_bytes", "pylisp/packet/ip/ipv6/hop_by_hop_options_header.py: from_bytes", "pylisp/packet/ip/udp.py: from_bytes", "pylisp/packet/lisp/data.py: from_bytes", "pylisp/packet/lisp/control/base.py: from_bytes", "pylisp/packet/lisp/control/encapsulated_control_message.py: from_bytes"]}
{"id": "C85", "title": "Looking up the locators of an ETR, datagram by datagram", "statement": "When the bytes of a Map-Request arrive at a running lispd, it calls send_message exactly when the request asks for one EID for which the tree has one of its ETRs and the locators of that ETR can be determined; nothing else changes. The message is a Map-Reply, sent over all its control plane sockets to the ITR-RLOCs of the request at the port the request came from. If the locators can be put into one record (at most 255, IP addresses that may be locators, priorities and weights that fit in a byte), the bytes sent are read by the one who asked as a Map-Reply with the nonce and the probe flag of the request and exactly one record: TTL 1440, authoritative, the prefix of the ETR, its locators in ascending order, each marked as probed exactly when the request is a probe that came in on its address, or natively-forward when there are none. If they cannot, nothing is transmitted.", "quantifier": "every Map-Request that can be serialised, every configuration and state of lispd, every origin, every ETR and every set of locators, every outcome of sendto", "why_tests_cant": "All requests, configurations and locator sets, across the writer and the reader on both sides; a test fixes one request.", "anchors": ["pylisp/application/lispd/address_tree/etr_node.py: handle_map_request, get_locators", "pylisp/application/lispd/message_handler.py: handle_message", "pylisp/packet/lisp/control/map_request.py: to_bytes, from_bytes", "pylisp/packet/lisp/control/map_reply.py: to_bytes, from_bytes", "pylisp/application/lispd/send_message.py: send_message"]}
{"id": "C86", "title": "Messages without authentication data can be received but never sent", "statement": "Map-Register, Map-Notify and Info messages without authentication data are accepted by the parsers and, with key id 0, verify with every key, but to_bytes raises ValueError for each of them: an accepted one can be serialised again exactly when it has authentication data. insert_authentication_data with key id 0 removes the data, so what it leaves cannot be sent, while with key id 1 or 2 it can. Hence a Map-Server that accepts and stores a Map-Register with key id 0 cannot send the Map-Notify asked for, and an ETR registration with key id 0 (the default) transmits neither Info-Requests nor Map-Registers, over whichever sockets, with or without NAT. One with a key id but without a key (which is only warned about) cannot make them either: TypeError.", "quantifier": "every Map-Register, Map-Notify and Info message, every key and message authentication function, every accepted byte string, every registration, prefix, locator list and NAT information", "why_tests_cant": "That no message of the kind is ever written, whatever else is in it, and that no schedule of sockets and attempts transmits one, is a statement about all messages and all executions; a test sees one message at a time.", "anchors": ["pylisp/packet/lisp/control/map_register.py: MapRegisterMessage.to_bytes, insert_authentication_data", "pylisp/packet/lisp/control/map_notify.py: MapNotifyMessage.to_bytes", "pylisp/packet/lisp/control/info_message.py: InfoMessage.to_bytes", "pylisp/application/lispd/message_handler.py: MessageHandler.handle_map_register", "pylisp/application/lispd/address_tree/etr_node.py: InfoRequest, MapRegister.send", "pylisp/application/lispd/etr_registration.py: ETRRegistration"]}
{"id": "C87", "title": "Attributes of the wrong type are refused, or count for what they equal", "statement": "Whatever Python values the attributes of a Map-Request, Map-Reply, Map-Register, Map-Notify, Map-Referral or Info object, of its records and of their locators hold, to_bytes writes exactly the message the object stands for, with the same exceptions, and raises ValueError or TypeError if it stands for none (a Map-Reply with the security flag also NotImplementedError, or what str() of its nonce raises). An object stands for a message if its flags are booleans, its numbers ints, longs or booleans, its key id and actions equal to a whole number (1.0 and True count as 1; the action of a record with locators does not matter), its authentication data a byte string, its addresses address objects and its records and locators objects of the right class (a plain Map-Reply record is none in a Map-Register or Map-Notify). The nonce has to be a byte string for this, except in a Map-Reply, where the text of any value is used (nonce 12345678 is sent as these eight digits). sanitize of records, locators, data, IPv4, IPv6 and UDP headers that stand for nothing raises ValueError, that of an encapsulated control message ValueError or, if its security flag is True, NotImplementedError.", "quantifier": "all assignments of Python values (None, booleans, integers, floats, byte and unicode strings, addresses, lists, tuples, other objects) to all attributes, and all contents of the record and locator lists", "why_tests_cant": "Tests try a few wrong values for a few attributes; this is about every value of every attribute in every combination.", "anchors": ["pylisp/packet/lisp/control/map_request.py: MapRequestMessage.sanitize, to_bytes", "pylisp/packet/lisp/control/map_reply.py: MapReplyMessage.sanitize, to_bytes", "pylisp/packet/lisp/control/map_register.py: MapRegisterMessage.sanitize, to_bytes", "pylisp/packet/lisp/control/map_notify.py: MapNotifyMessage.sanitize, to_bytes", "pylisp/packet/lisp/control/map_referral.py: MapReferralMessage.sanitize, to_bytes", "pylisp/packet/lisp/control/info_message.py: InfoMessage.sanitize, to_bytes", "pylisp/packet/lisp/control/map_reply_record.py: MapReplyRecord.sanitize", "pylisp/packet/lisp/control/map_referral_record.py: MapReferralRecord.sanitize", "pylisp/packet/lisp/control/locator_record.py: LocatorRecord.sanitize", "pylisp/packet/lisp/control/encapsulated_control_message.py: EncapsulatedControlMessage.sanitize", "pylisp/packet/lisp/data.py: DataPacket.sanitize", "pylisp/packet/ip/ipv4.py: IPv4Packet.sanitize", "pylisp/packet/ip/ipv6/base.py: IPv6Packet.sanitize", "pylisp/packet/ip/udp.py: UDPMessage.sanitize"]}
{"id": "C88", "title": "Sockets on automatic addresses, and control messages lost to a left-over socket", "statement": "An AutoUDPSocket on an automatic address is, after every history of address updates, open exactly if the address last chosen for the interface is not zero and the operating system did bind the socket when the chosen address last changed; it is then bound to this address. (A failed bind is not tried again while the address stays the same.) Loading lispd opens one such socket for port 4342 on the IPv4 address of vlan2 that nothing ever reads and that shares the port (SO_REUSEPORT). Hence a datagram for an address and port on which lispd listens is certain to be read by lispd, however the operating system distributes datagrams among the sockets bound to them, except for port 4342 of the usable IPv4 address last found on vlan2 (if binding to it succeeded when it last changed): datagrams for these may be lost to the left-over socket.", "quantifier": "every history of what netifaces finds on the interfaces at start and at each update, every outcome of every bind, every set of sockets lispd listens on, every address and port, every way of the operating system to pick a socket among those bound to the destination", "why_tests_cant": "Whether a socket is open depends on the whole history of addresses and binds, and which of two sockets sharing a port gets a datagram is up to the operating system; tests on a host without a vlan2 interface never see the second socket.", "anchors": ["pylisp/utils/auto_socket.py AutoUDPSocket.__init__, on_address_change, rebind", "pylisp/utils/auto_addresses.py update_address, _send_notifications, update_addresses", "pylisp/application/lispd/address_tree/map_server_node.py x (line 182)", "scripts/lispd create_sockets, main"]}
{"id": "C89", "title": "Attributes that no check looks at", "statement": "The attributes of LCAF addresses (instance IDs, AS numbers, coordinates, ports, ...), of IPv6 extension headers and the checksum of a UDP message are never checked: whatever was assigned to them is formatted as a number when the object is written. Integers and booleans count as themselves, floats as their whole part, IP addresses as their number, and, for attributes that are formatted on their own, a tuple of one value as this value. An object with such attributes is written exactly as the object with these numbers is, and refused with the same exception if that one is; whatever is written for an address is read back as the address with these numbers. If some attribute stands for no number (or a flag for a number other than 0 and 1), or an inner address is no address, writing the object raises TypeError or ValueError; TypeError only if some attribute is no number. Thus an instance ID of 7.9 is silently sent as 7.", "quantifier": "every LCAF address object with any nesting and any values of its attributes, every options, routing and fragment header and UDP message with any values of these attributes", "why_tests_cant": "The attributes can hold any Python value, and addresses nest to any depth; tests assign a handful of well-typed values.", "anchors": ["pylisp/utils/lcaf/instance_address.py:LCAFInstanceAddress.to_bytes", "pylisp/utils/lcaf/geo_address.py:LCAFGeoAddress.to_bytes", "pylisp/utils/lcaf/nat_traversal_address.py:LCAFNATTraversalAddress.to_bytes", "pylisp/utils/lcaf/autonomous_system_address.py", "pylisp/utils/lcaf/afi_list_address.py", "pylisp/packet/ip/ipv6/", "pylisp/packet/ip/udp.py"]}
{"id": "C90", "title": "Sending while the address of a socket changes", "statement": "The registration threads of an ETR send through AutoUDPSockets that the main thread may be rebinding at the same moment (after a HUP signal), without any lock. In every schedule of the threads: when rebinding is over, the AutoUDPSocket is closed (and reports the zero address), or open and bound to the current address (and reports it); every datagram went out from an address that the automatic address had at some moment, or from a port that the operating system chose; while no rebinding is under way, sendto does what it does alone (0 without a socket, otherwise what the operating system returns or raises, from the current address), so that its AttributeError and the socket.error of a closed socket can only come from a rebinding in progress; both do occur, in some schedule, whenever the address of an open socket changes. A datagram sent through the new socket before it is bound goes out from a port of the operating system's choice and makes the binding fail: the AutoUDPSocket is then closed until the address changes again, although the operating system refused nothing. Every change to an address that may be bound to can end this way, and if the operating system refuses nothing this is the only way to lose the socket.", "quantifier": "every first address, every history of address changes, every number of sending threads and calls, every interleaving of their steps with those of rebind, every outcome of every socket, bind and sendto call", "why_tests_cant": "The windows between closing, creating and binding a socket are a few instructions wide; a test meets them by chance at best, and the property quantifies over all schedules.", "anchors": ["pylisp/utils/auto_socket.py:AutoUDPSocket.rebind", "pylisp/utils/auto_socket.py:AutoUDPSocket.sendto", "pylisp/utils/auto_addresses.py:AutoAddress.update_address", "pylisp/application/lispd/address_tree/etr_node.py:MSRThread", "scripts/lispd:main"]}
{"id": "C91", "title": "Signals to lispd are neither lost nor reordered, and a stop signal is obeyed", "statement": "SIGHUP, SIGINT and SIGTERM may reach a running lispd at any moment: while it waits for sockets, while its wait is interrupted by the very signal, or while it handles datagrams. As long as the pipe its handler writes to is not full (it cannot be before 65536 signals were sent on Linux), the signals lispd has acted on followed by those still waiting are exactly the signals sent, in order. Lispd runs until it acts on SIGINT or SIGTERM: a running lispd has acted on SIGHUPs only, and a stopped one has acted on SIGHUPs followed by exactly one SIGINT or SIGTERM. A SIGINT or SIGTERM among the first k signals sent has stopped it after at most k further passes of the main loop in which waiting succeeds, whatever datagrams and packets arrive and whether or not updating the addresses for the SIGHUPs before it works.", "quantifier": "every sequence of passes of the main loop: signals before and during each, datagrams and packets ready in it, failures of select and of the address update; every configuration and starting state", "why_tests_cant": "A test sends a few signals at quiet moments; the claim is about every moment a signal can arrive and every mixture with traffic and failures.", "anchors": ["scripts/lispd:handle_signal", "scripts/lispd:main"]}
{"id": "C92", "title": "Registering while addresses change", "statement": "A registration thread reads the addresses of the configured locators and of the sockets one by one, while the main thread may give automatic addresses new values at any moment. Whatever the schedule: collecting the locators succeeds or raises as without changes; no locator is collected twice; each has the priorities and weights of a configured locator and an address that this locator had during the registration, or the address of an RTR in use; it is marked local only if the locator had the address of a socket in between (and then no RTR is in use). A configured locator that keeps its address is collected correctly whatever happens to the others: not local if no socket ever has its address, local (or replaced by all RTRs in use) if a socket has it all the time. If no address changes during the registration, the outcome is exactly that of C51. There are schedules in which the unset address 0.0.0.0 is registered (the address is lost after it was found to be set; this is the only way) and in which an ETR behind a NAT registers its own address instead of the RTRs (the address changes between the two reads of one comparison).", "quantifier": "every set of configured locators and sockets with fixed or automatic addresses, every set of RTRs, and every sequence of changes of the automatic addresses between any two reads", "why_tests_cant": "The effects need an address change between two particular reads of a thread; no test can try all schedules, and the guarantees are for all of them.", "anchors": ["pylisp/application/lispd/address_tree/etr_node.py:ETRNode.get_etr_locators", "pylisp/application/lispd/address_tree/etr_node.py:MSRThread.register", "pylisp/utils/auto_addresses.py:AutoAddress.update_address"]}
{"id": "C93", "title": "Expired registrations go in time, and the life of the cleanup thread", "statement": "The cleanup thread of a Map-Server goes on as long as nobody calls its stop() and the Map-Server node is still referred to, whatever is raised in a pass, and makes a pass in every turn that does not fail. Once stop() is called or the node is discarded it makes no further pass and ends at its next turn. As long as it is never more than some time G without a pass, a registration is gone G after its deadline (180 s after it was received) at the latest unless the same ETR registers the prefix again, in every interleaving with the threads that store registrations; so an ETR that falls silent is forgotten after 180 s + G.", "quantifier": "all sequences of stop, discard and (failing or succeeding) turns; all interleavings of registrations and passes with a clock that does not go back; all prefixes, sources and gaps", "why_tests_cant": "whether a registration survives depends on when the passes and the registrations interleave and on which passes fail; a test can only try a few timings", "anchors": ["pylisp/application/lispd/address_tree/map_server_node.py:MSCleanupThread.run", "pylisp/application/lispd/address_tree/map_server_node.py:MSCleanupThread.stop", "pylisp/application/lispd/address_tree/map_server_node.py:MapServerNode.__del__"]}
{"id": "C94", "title": "Registration threads tell each other about changed RTRs", "statement": "An ETR node with several Map-Server registrations runs one thread for each; a thread that learns other RTRs than before makes all threads register again. No such change is lost: in every interleaving of the threads, a thread that is asleep and has not been told to register again made its last registration with exactly the RTRs in use now, unless some thread has just changed its RTRs and is still telling the others. So when all threads are asleep and untold, all Map-Servers that got a registration got it with the same RTRs. Once each thread has stored its RTRs and NAT inquiries bring the same ones (or fail), nobody is told to register again, whatever else fails, and the RTRs in use stay the same. As long as NAT inquiries bring each thread the same RTRs every time, the threads tell each other to register again at most twice per thread, from any moment when all of them sleep, in every interleaving and whatever fails. The exception: a registration that raises forgets what it was told, and then the Map-Server keeps the old RTRs until the next periodic registration.", "quantifier": "every number of registrations and threads, every interleaving of their single accesses to the shared RTR sets and flags, every clock, every result of NAT inquiries and registrations", "why_tests_cant": "a lost update needs one particular interleaving of unlocked reads and writes of several threads; a test sees a few schedules only", "anchors": ["pylisp/application/lispd/address_tree/etr_node.py:MSRThread.run", "pylisp/application/lispd/address_tree/etr_node.py:ETRNode.set_rtrs", "pylisp/application/lispd/address_tree/etr_node.py:ETRNode.get_rtrs", "pylisp/application/lispd/address_tree/etr_node.py:ETRNode._locators_have_changed"]}
{"id": "C95", "title": "repr() of packets, messages, records and addresses evaluates back", "statement": "The text that repr() gives of a packet, a control message, a record, a locator or an LCAF address is a Python expression: evaluated with the classes of the package in scope it makes an object of the same class with the same public attributes, at every level of nesting, whatever order the attributes have in the instance dictionary, whether numbers are ints or longs, and whatever bytes (quotes, backslashes, control characters) strings contain. So two objects with the same text are equal up to private attributes (reserved bits), which are never shown. Two exceptions: a UDP message is shown with next_header=None, which its constructor does not take, so the text of every packet with a UDP message in it (so of every encapsulated control message a node sends) raises TypeError; and an automatic address is shown with its interface name unquoted, which raises NameError.", "quantifier": "all packets, control messages, records, locators and addresses of any nesting and content, all orders of instance dictionaries, all private attributes, all texts the ipaddress library may use for addresses", "why_tests_cant": "The objects are nested without bound and strings hold arbitrary bytes; the order of a dictionary is an accident of hashing.", "anchors": ["pylisp/utils/represent.py:represent", "pylisp/packet/ip/protocol.py:ProtocolElement.__repr__", "pylisp/packet/ip/udp.py:UDPMessage.__init__", "pylisp/packet/lisp/control/locator_record.py:LocatorRecord.__repr__", "pylisp/packet/lisp/control/map_reply_record.py:MapReplyRecord.__repr__", "pylisp/packet/lisp/control/map_referral_record.py:MapReferralRecord.__repr__", "pylisp/utils/auto_addresses.py:AutoAddress.__repr__"]}
{"id": "C96", "title": "What the functions that send one kind of Map-Referral transmit", "statement": "send_delegation_hole, send_not_authoritative and send_ms_not_registered (without other Map-Servers) make exactly one sendto call, over the socket the request came in on, to the address and port it came from; the receiver parses the nonce of the request and exactly one record, with the action in the name of the function, the TTL the DDT draft demands for it (15, 0, 1), the incomplete bit (no, yes, yes), no locators, and the EID of the request (or the prefix given), plain networks being wrapped in instance id 0. send_referral and send_ms_ack never transmit anything, and neither does send_ms_not_registered when other Map-Servers are given: naming any node raises TypeError, send_ms_ack makes a record with the action of MS-NOT-REGISTERED and a TTL of 1440, which is refused with ValueError, and a referral to no nodes is refused with ValueError. Functions that use the EID raise IndexError for a request without one.", "quantifier": "every request, every set of nodes, every prefix, every sender, port and socket, every outcome of sendto", "why_tests_cant": "a test sends a few answers; that a function never transmits anything, and that what the others transmit is read back as intended, is about every request and argument", "anchors": ["pylisp/application/lispd/address_tree/ddt_referral_node.py: send_answer, send_referral, send_delegation_hole, send_not_authoritative, send_ms_ack, send_ms_not_registered", "pylisp/packet/lisp/control/map_referral_record.py: MapReferralRecord.sanitize"]}
{"id": "C97", "title": "The texts of addresses, and reading them back", "statement": "The text of an IPv4 or IPv6 address, read with ip_address, gives that address, however its zeros are abbreviated, and the text of a network, read with ip_network, gives that network; so different addresses have different texts. IPv6 addresses are written in the form of RFC 5952: lower case, no leading zeros, the longest run of at least two zero groups (the first if several) as two colons. unicode() of an address of any kind is defined unless a non-empty AFI list is in it where its text is shown, in which case TypeError is raised. Wherever the code goes through the text of an object (the destination of a message, RTRs, locators, EID prefixes), ip_address(unicode(x)) gives an address exactly when x is that address inside any number of instance addresses with instance id 0, and ip_network(unicode(x)) a network exactly when x is so wrapped and is that network or its only address; in all other cases (other instance ids, None, NULL, AS numbers, places, NAT traversal addresses, AFI lists, and networks for ip_address) ValueError is raised, or TypeError if there is no text.", "quantifier": "every IPv4 and IPv6 address, every network, every address of any kind and depth of nesting, every way to write floats", "why_tests_cant": "there are 2^128 addresses with many patterns of zeros, and address objects nest without bound; tests try a few", "anchors": ["pylisp/utils/lcaf/instance_address.py: __unicode__", "pylisp/utils/lcaf/autonomous_system_address.py: __unicode__", "pylisp/utils/lcaf/geo_address.py: __unicode__", "pylisp/utils/lcaf/nat_traversal_address.py: __unicode__", "pylisp/utils/lcaf/null_address.py: __unicode__", "pylisp/utils/lcaf/afi_list_address.py: __unicode__", "pylisp/application/lispd/send_message.py: send_message", "pylisp/packet/lisp/control/map_request.py: to_bytes"]}
{"id": "C98", "title": "What logs show of nodes, messages, sockets and registrations", "statement": "repr() of two nodes of the address tree is the same text exactly when they have the same class, the same prefix, the same addresses (referrals) and the same children in the order of iteration (containers), at every depth: a log tells these apart, whatever the sizes; it does not show the state of Map-Servers and ETRs nor the DDT nodes of authoritative containers. repr() of a ReceivedMessage shows number, source, destination, message and socket, and nothing else. repr() of an ETR registration shows its Map-Server only, so keys never get into logs; that of a socket shows exactly its address and port.", "quantifier": "every pair of trees of any depth and width, every order of iteration, every registration, socket and received message", "why_tests_cant": "trees nest without bound, and that no two different trees look the same is a statement about all pairs", "anchors": ["pylisp/application/lispd/address_tree/base.py: AbstractNode.__repr__", "pylisp/application/lispd/address_tree/container_node.py: ContainerNode.__repr__", "pylisp/application/lispd/address_tree/ddt_referral_node.py: DDTReferralNode.__repr__", "pylisp/application/lispd/received_message.py: ReceivedMessage.__repr__", "pylisp/application/lispd/etr_registration.py: ETRRegistration.__repr__", "pylisp/utils/auto_socket.py: AutoUDPSocket.__repr__"]}
{"id": "C99", "title": "The configuration files that come with the program", "statement": "etc/lispd/settings_xtr.py and etc/lispd/settings_global.py, used as a configuration file, raise TypeError (ETRNode is given map_servers, its constructor takes registrations), so loading the settings ends in ConfigurationError whatever the defaults and the other files are. etc/lispd/settings.py loads after any files that load, as long as the settings it does not define have their types; with it, every IPv4 and every IPv6 address is resolved: to one of the five Map-Servers exactly in their prefixes, to the authoritative container in the rest of 37.77.56.0/21 and 2a00:8640::/32, and to the root container elsewhere.", "quantifier": "all defaults, all other configuration files before and after, all addresses of the interfaces, every IPv4 and IPv6 address looked up", "why_tests_cant": "2^32 and 2^128 addresses, and arbitrary other configuration files", "anchors": ["etc/lispd/settings.py", "etc/lispd/settings_xtr.py", "etc/lispd/settings_global.py", "pylisp/application/lispd/address_tree/etr_node.py: ETRNode.__init__", "pylisp/application/lispd/settings.py: apply_config_files"]}
{"id": "C100", "title": "Updating the address of a locator, and what the log says about it", "statement": "LocatorRecord.update_address() on a locator with an automatic address makes the first suitable address of the interface (a scope like %eth0 in the text that netifaces gives is ignored) the address of every locator with that automatic address, or the zero address if the interface has none; every other locator keeps its address, and no other attribute changes. For any other locator it does nothing and logs nothing. The log says nothing about the locator if the address is the same, that it is activated with the new address if it had none, that it is de-activated if it lost it, and both addresses if it changed; from that line the address before and after can be read back without ambiguity. The log of the automatic address names the addresses looked at, in order, up to the first suitable one or the first entry that is no address, and ends with the outcome. Settings.default_listen_on() gives the addresses of the host name in order without scopes; find_matching_addresses() gives the addresses of the sockets of the family of the destination in order, and raises ValueError if one of these has a scope.", "quantifier": "all sets of locators (also several with one automatic address), all old addresses, all that netifaces, getaddrinfo and getsockname can give: any number of entries, with and without scope, entries that are no address", "why_tests_cant": "the order of addresses, the scopes and the unreadable entries depend on the host; reading the log back without ambiguity is a claim about all pairs of updates", "anchors": ["pylisp/packet/lisp/control/locator_record.py: LocatorRecord.update_address", "pylisp/utils/auto_addresses.py: AutoAddress.update_address", "pylisp/application/lispd/settings.py: Settings.default_listen_on", "pylisp/application/lispd/send_message.py: find_matching_addresses"]}
