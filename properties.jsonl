{"id": "C01", "title": "Decoding never panics", "statement": "Packet::decode returns Ok or Err, never panics, on any byte string and any secret, in builds with and without overflow checks.", "quantifier": "every byte string of every length, every secret", "why_tests_cant": "The decoder indexes and slices with attacker-controlled lengths; a test only tries some byte strings.", "anchors": ["radius/src/core/packet.rs: Packet::decode", "radius/src/core/attributes.rs: Attributes::decode"]}
{"id": "C02", "title": "Decode accepts exactly the RFC 2865 wire language", "statement": "Packet::decode succeeds on a byte string exactly when it is code, identifier, big-endian length L, 16 authenticator bytes, then type/length/value attributes filling L bytes exactly (each value at most 253 bytes, 20<=L<=4096), followed by arbitrary ignored trailing bytes; on success the packet contains exactly those fields (unknown codes become Invalid) and the supplied secret.", "quantifier": "every byte string, every secret", "why_tests_cant": "Both directions of an if-and-only-if over all inputs, including adversarial nested lengths.", "anchors": ["radius/src/core/packet.rs: Packet::decode", "radius/src/core/attributes.rs: Attributes::decode", "radius/src/core/code.rs: Code::from"]}
{"id": "C03", "title": "Decode errors report the first violated constraint", "statement": "When decode rejects, the error variant and the numbers in it identify the first violated constraint in the documented order: short buffer, header length < 20, header length > 4096, buffer shorter than header length, malformed attribute list (short buffer or invalid attribute length).", "quantifier": "every rejected byte string", "why_tests_cant": "There are unboundedly many rejected inputs and overlapping violations; tests pick five.", "anchors": ["radius/src/core/packet.rs: Packet::decode", "radius/src/core/packet.rs: PacketError", "radius/src/core/attributes.rs: Attributes::decode"]}
{"id": "C04", "title": "Encode then decode returns the same packet", "statement": "For any packet built with the public API whose encode() succeeds and whose attributes take less than 65516 bytes (64 KiB minus the header), decoding the bytes with the same secret gives back the same packet; for Access-Request and Status-Server including the authenticator, for every other encodable code with the authenticator replaced by the 16 bytes on the wire.", "quantifier": "every packet obtainable by the API, every digest function", "why_tests_cant": "Round trip over every attribute list.", "anchors": ["radius/src/core/packet.rs: Packet::encode", "radius/src/core/packet.rs: Packet::marshal_binary", "radius/src/core/packet.rs: Packet::decode"]}
{"id": "C05", "title": "Decode then encode is byte exact for requests that carry their own authenticator", "statement": "If a datagram decodes to an Access-Request or Status-Server packet, encoding that packet reproduces exactly the first L bytes of the datagram (L = header length).", "quantifier": "every datagram", "why_tests_cant": "Needs canonical form of the wire language for all inputs.", "anchors": ["radius/src/core/packet.rs: Packet::decode", "radius/src/core/packet.rs: Packet::encode"]}
{"id": "C06", "title": "Encoded packets carry their true length and never exceed 4096 bytes", "statement": "Whenever encode() returns bytes, the length field equals the number of bytes, and this number is between 20 and 4096.", "quantifier": "every packet obtainable by the API, both overflow-check modes", "why_tests_cant": "A counterexample only appears with more than 64 KiB of attributes (u16 truncation), beyond what tests try.", "anchors": ["radius/src/core/packet.rs: Packet::marshal_binary"]}
{"id": "C07", "title": "Encode succeeds exactly when representable", "statement": "encode() fails with 'attribute is too large' iff some attribute value exceeds 253 bytes; else with 'packet is too large' iff the encoded size exceeds 4096 (as computed in 16 bits); else with UnknownCodeError iff the code is Status-Client, Reserved or Invalid; otherwise it succeeds.", "quantifier": "every packet obtainable by the API", "why_tests_cant": "Exact failure boundary over all packets.", "anchors": ["radius/src/core/packet.rs: Packet::encode", "radius/src/core/packet.rs: Packet::marshal_binary", "radius/src/core/attributes.rs: Attributes::encode"]}
{"id": "C08", "title": "Every packet has a 16-byte authenticator and encode never panics", "statement": "Any packet reachable by any sequence of public constructors and mutators has an authenticator of exactly 16 bytes, and encode() on it never panics in a build without overflow checks, nor in a build with them if its attributes take less than 65516 bytes.", "quantifier": "every sequence of API calls", "why_tests_cant": "An invariant over unbounded histories.", "anchors": ["radius/src/core/packet.rs: Packet::new", "radius/src/core/packet.rs: Packet::make_response_packet", "radius/src/core/packet.rs: Packet::encode", "radius/src/core/packet.rs: Packet::add"]}
{"id": "C09", "title": "Wire authenticators follow the RFC formulas", "statement": "In the encoded bytes the authenticator field is: the packet's authenticator for Access-Request/Status-Server; MD5(code+id+length+16 zero bytes+attributes+secret) for Accounting-, Disconnect- and CoA-Request; MD5(code+id+length+packet authenticator+attributes+secret) for every response code.", "quantifier": "every encodable packet, every digest function", "why_tests_cant": "Must hold for each code and every attribute list.", "anchors": ["radius/src/core/packet.rs: Packet::encode"]}
{"id": "C10", "title": "Requests we encode pass our own authenticity check", "statement": "For every packet with a request code (Access-Request, Status-Server, Accounting-, Disconnect-, CoA-Request) and a non-empty secret, is_authentic_request(encode(p), secret) is true.", "quantifier": "every encodable request packet", "why_tests_cant": "Relates encoder and verifier for all packets.", "anchors": ["radius/src/core/packet.rs: Packet::encode", "radius/src/core/packet.rs: Packet::is_authentic_request"]}
{"id": "C11", "title": "Responses made from a received request pass the requester's check", "statement": "For every request datagram that decodes, every response code, every later edit of the response attributes, the encoded response satisfies is_authentic_response(response, request datagram, secret) and repeats the request identifier.", "quantifier": "every decodable datagram, every attribute-edit history, every response code", "why_tests_cant": "Composition of decode, make_response_packet, edits, encode and verify.", "anchors": ["radius/src/core/packet.rs: Packet::make_response_packet", "radius/src/core/packet.rs: Packet::encode", "radius/src/core/packet.rs: Packet::is_authentic_response"]}
{"id": "C12", "title": "Request authenticity check is exact", "statement": "is_authentic_request never panics and returns true exactly when the datagram has at least 20 bytes, the secret is non-empty and either the code byte is 1 or 12, or it is 4, 40 or 43 and bytes 4..20 equal the digest of the datagram with those bytes zeroed followed by the secret.", "quantifier": "every byte string, every secret, every digest function", "why_tests_cant": "If-and-only-if over all inputs.", "anchors": ["radius/src/core/packet.rs: Packet::is_authentic_request"]}
{"id": "C13", "title": "Response authenticity check is exact", "statement": "is_authentic_response never panics and returns true exactly when both datagrams have at least 20 bytes, the secret is non-empty and response bytes 4..20 equal the digest of response with its authenticator replaced by the request's, followed by the secret.", "quantifier": "every pair of byte strings, every secret", "why_tests_cant": "If-and-only-if over all inputs.", "anchors": ["radius/src/core/packet.rs: Packet::is_authentic_response"]}
{"id": "C14", "title": "Undetected tampering yields a digest collision", "statement": "If two different datagrams with the same authenticator bytes both pass the digest check under the same secret (requests: digest-protected codes; responses: same request), then two explicit, different byte strings with the same digest can be computed from them.", "quantifier": "every pair of datagrams, every digest function", "why_tests_cant": "A reduction over all adversaries.", "anchors": ["radius/src/core/packet.rs: Packet::is_authentic_request", "radius/src/core/packet.rs: Packet::is_authentic_response"]}
{"id": "C15", "title": "The attribute list behaves like one ordered sequence per type", "statement": "After any sequence of add, extend and delete calls, lookup_all(t) returns exactly the values of type t added since the last delete(t), in order, lookup(t) returns the first of them or None.", "quantifier": "every history of attribute operations, every type", "why_tests_cant": "Unbounded histories.", "anchors": ["radius/src/core/packet.rs: Packet::add", "radius/src/core/packet.rs: Packet::extend", "radius/src/core/packet.rs: Packet::delete", "radius/src/core/packet.rs: Packet::lookup", "radius/src/core/packet.rs: Packet::lookup_all"]}
{"id": "C16", "title": "Edits do not leak into other fields; responses inherit exactly what they should", "statement": "add/extend/delete change no field other than the attributes, set_identifier changes only the identifier, make_response_packet copies identifier, authenticator and secret, sets the code and starts with no attributes.", "quantifier": "every packet and history", "why_tests_cant": "Frame conditions over all packets.", "anchors": ["radius/src/core/packet.rs: Packet"]}
{"id": "C17", "title": "Integer attributes are a bijection", "statement": "encode_u32(from_u32(v)) = v and encode_u16(from_u16(v)) = v; conversely decoding succeeds only for exactly 4 (2) bytes, and then from_uN of the result is the same AVP; other lengths give InvalidAttributeLengthError with the actual length.", "quantifier": "every value and every AVP", "why_tests_cant": "2^32 values and all byte strings.", "anchors": ["radius/src/core/avp.rs: AVP::from_u32", "radius/src/core/avp.rs: AVP::encode_u32", "radius/src/core/avp.rs: AVP::from_u16", "radius/src/core/avp.rs: AVP::encode_u16"]}
{"id": "C18", "title": "IP address attributes are a bijection", "statement": "from_ipv4/encode_ipv4 and from_ipv6/encode_ipv6 are mutually inverse between addresses and 4-/16-byte AVPs and any other length is rejected.", "quantifier": "every address and every AVP", "why_tests_cant": "All addresses, all byte strings.", "anchors": ["radius/src/core/avp.rs: AVP::from_ipv4", "radius/src/core/avp.rs: AVP::encode_ipv4", "radius/src/core/avp.rs: AVP::from_ipv6", "radius/src/core/avp.rs: AVP::encode_ipv6"]}
{"id": "C19", "title": "IP prefix attributes round trip", "statement": "from_ipv4_prefix accepts exactly 4 bytes, from_ipv6_prefix exactly at most 16; the stored form is a zero byte, a length byte (for IPv6: number of prefix bits) and the prefix; decoding returns the same prefix; decoding rejects anything but 6 (at least 2) bytes.", "quantifier": "every byte string", "why_tests_cant": "All lengths and values.", "anchors": ["radius/src/core/avp.rs: AVP::from_ipv4_prefix", "radius/src/core/avp.rs: AVP::encode_ipv4_prefix", "radius/src/core/avp.rs: AVP::from_ipv6_prefix", "radius/src/core/avp.rs: AVP::encode_ipv6_prefix"]}
{"id": "C20", "title": "Text attributes round trip and reject exactly invalid UTF-8", "statement": "encode_string(from_string(s)) = s for every string; encode_string succeeds on an AVP iff its bytes are valid UTF-8.", "quantifier": "every Unicode string, every byte string", "why_tests_cant": "All strings.", "anchors": ["radius/src/core/avp.rs: AVP::from_string", "radius/src/core/avp.rs: AVP::encode_string"]}
{"id": "C21", "title": "Tagged text attributes", "statement": "With a tag in 1..=0x1f every string (also empty) is returned with that tag; without a tag a non-empty string whose first byte is above 0x1f is returned untagged; the reader's result on every byte string is determined by the RFC 2868 first-byte rule.", "quantifier": "every tag byte, every string, every byte string", "why_tests_cant": "Exhaustive case split on the first byte and all strings, including the ambiguous ones.", "anchors": ["radius/src/core/avp.rs: AVP::from_tagged_string", "radius/src/core/avp.rs: AVP::encode_tagged_string", "radius/src/core/tag.rs: Tag::is_valid_value"]}
{"id": "C22", "title": "Tagged integer attributes", "statement": "For a tag of 0..=0x1f (None meaning 0) value and tag round trip for every u32; a larger tag is rejected on reading; any total length other than 5 is rejected.", "quantifier": "every tag byte, every u32, every byte string", "why_tests_cant": "All values.", "anchors": ["radius/src/core/avp.rs: AVP::from_tagged_u32", "radius/src/core/avp.rs: AVP::encode_tagged_u32"]}
{"id": "C23", "title": "Date attributes", "statement": "encode_date(from_date(d)) equals d truncated to seconds for every date from 1970 to 2106-02-07T06:28:15Z; outside this range the result is the timestamp modulo 2^32; decoding never panics and accepts exactly 4-byte values.", "quantifier": "every representable date, every byte string", "why_tests_cant": "All dates including wrap-around.", "anchors": ["radius/src/core/avp.rs: AVP::from_date", "radius/src/core/avp.rs: AVP::encode_date"]}
{"id": "C24", "title": "Concatenated octets (EAP-Message, PKM certs) split and reassemble", "statement": "Adding a byte string to a packet without that attribute splits it into chunks of 1..=253 bytes and looking it up returns exactly the same bytes (None for the empty string), also after the packet has gone over the wire; adding again appends.", "quantifier": "every byte string of every length, every packet", "why_tests_cant": "All lengths around multiples of 253.", "anchors": ["radius/src/core/rfc2869.rs: add_eap_message, lookup_eap_message", "radius/src/core/rfc5904.rs", "code-generator/src/main.rs: generate_concat_octets_attribute_code"]}
{"id": "C25", "title": "Fixed-length octets reject wrong sizes and leave the packet unchanged", "statement": "add_* of a fixed-length attribute succeeds iff the length is exactly the declared one and otherwise returns InvalidAttributeLengthError without touching the packet.", "quantifier": "every byte string, every packet", "why_tests_cant": "All lengths.", "anchors": ["code-generator/src/main.rs: generate_fixed_length_octets_attribute_code", "radius/src/core/rfc2869.rs: add_arap_password"]}
{"id": "C26", "title": "User-Password hiding follows RFC 2865 section 5.2", "statement": "For every password of at most 128 bytes, non-empty secret and 16-byte authenticator the AVP value has 16*max(1,ceil(n/16)) bytes, and block i is the zero-padded password block XOR digest(secret + previous cipher block, or authenticator for i=0). Otherwise the documented error is returned.", "quantifier": "every password, secret, authenticator, digest function", "why_tests_cant": "All block counts and contents.", "anchors": ["radius/src/core/avp.rs: AVP::from_user_password"]}
{"id": "C27", "title": "User-Password reveal inverts hiding", "statement": "encode_user_password(from_user_password(p)) with the same secret and authenticator returns p for every password of at most 128 bytes without a zero byte (and p up to its first zero byte in general).", "quantifier": "every password, secret, authenticator", "why_tests_cant": "All passwords of all lengths.", "anchors": ["radius/src/core/avp.rs: AVP::from_user_password", "radius/src/core/avp.rs: AVP::encode_user_password"]}
{"id": "C28", "title": "A password put in an Access-Request is read by the receiver", "statement": "If add_user_password succeeds on an Access-Request that had no such attribute, then after encode, transport and decode with the same secret lookup_user_password returns the password (up to its first zero byte).", "quantifier": "every Access-Request packet, every password", "why_tests_cant": "Composition across packet codec and password codec.", "anchors": ["radius/src/core/rfc2865.rs: add_user_password, lookup_user_password", "radius/src/core/packet.rs: Packet::encode"]}
{"id": "C29", "title": "Tunnel-Password hiding and reveal", "statement": "For every tag, password of at most 240 bytes, non-empty secret, 16-byte authenticator and every random salt: the salt's top bit is set, the AVP has tag, salt and 16-byte blocks chained as in RFC 2868, and encode_tunnel_password returns the tag and the password up to its first zero byte; longer passwords yield an AVP that the reader rejects.", "quantifier": "every password, tag, secret, authenticator, random salt", "why_tests_cant": "All random choices and lengths.", "anchors": ["radius/src/core/avp.rs: AVP::from_tunnel_password", "radius/src/core/avp.rs: AVP::encode_tunnel_password"]}
{"id": "C30", "title": "A tunnel password put in a response is read by the requester", "statement": "If the server adds a tunnel password to an Access-Accept made from the request, the client that decodes the response reads the same password with lookup_tunnel_password.", "quantifier": "every request, response, password, salt", "why_tests_cant": "End-to-end composition; depends on which authenticator the reader uses.", "anchors": ["radius/src/core/rfc2868.rs: add_tunnel_password, lookup_tunnel_password", "radius/src/client.rs: Client::send_packet"]}
{"id": "C31", "title": "Typed accessors of different attributes never interfere", "statement": "The type codes of all generated attributes are pairwise distinct, so adding or deleting one attribute never changes what lookup or lookup_all of another returns; add then lookup on a packet without that attribute returns what was added.", "quantifier": "every pair of the generated attributes, every packet, every value", "why_tests_cant": "All pairs and all packets.", "anchors": ["radius/src/core/rfc2865.rs", "radius/src/core/rfc7155.rs"]}
{"id": "C32", "title": "lookup is the first of lookup_all", "statement": "For every attribute kind lookup returns None iff there is no attribute, otherwise the decoding of the first one; lookup_all returns decoded values in order, or the error of the first undecodable one.", "quantifier": "every packet, every attribute kind", "why_tests_cant": "All packets.", "anchors": ["radius/src/core/rfc2865.rs: lookup_user_name, lookup_all_user_name", "code-generator/src/main.rs"]}
{"id": "C33", "title": "Vendor-specific attributes are well formed on the wire", "statement": "message() is vendor id (4 bytes big-endian), vendor type, vendor length, optional tag and the value; in every packet that encodes successfully the vendor length byte equals the number of bytes of the sub-attribute.", "quantifier": "every vendor id, type, tag, string and packet", "why_tests_cant": "The length byte is truncated to 8 bits; must hold for all lengths that can be sent.", "anchors": ["radius/src/core/vsa.rs: StringVSA::new", "radius/src/core/vsa.rs: TaggedStringVSA::new", "radius/src/core/rfc2865.rs: add_vsa_attribute"]}
{"id": "C34", "title": "The md5 and openssl builds are wire compatible", "statement": "When the OpenSSL digest does not fail, every operation (packet encode, both authenticity checks, user and tunnel password hiding and reveal) gives the same result in both builds; when it fails the openssl build reports HashComputationFailed (or panics in the boolean checks) rather than wrong bytes.", "quantifier": "every input of every hashing operation", "why_tests_cant": "Equality of two implementations on all inputs.", "anchors": ["radius/src/core/packet.rs", "radius/src/core/avp.rs"]}
{"id": "C35", "title": "Debug output never depends on the secret", "statement": "Two packets that differ only in the shared secret have the same Debug output.", "quantifier": "every pair of packets", "why_tests_cant": "Non-interference over all secrets.", "anchors": ["radius/src/core/packet.rs: impl Debug for Packet"]}
{"id": "C36", "title": "One running handler per client address and identifier", "statement": "In every interleaving, at any time at most one request handler is running for a given remote address and packet identifier.", "quantifier": "every schedule of any number of tasks and datagrams", "why_tests_cant": "Concurrency: all interleavings.", "anchors": ["radius/src/server.rs: Server::process_request", "radius/src/server.rs: RequestKey"]}
{"id": "C37", "title": "Handlers only see validated requests", "statement": "Every handler invocation gets the packet decoded from a received datagram under the non-empty secret returned by the provider for that remote address, and unless validation is disabled that datagram is authentic.", "quantifier": "every schedule, every datagram, every provider answer", "why_tests_cant": "All histories.", "anchors": ["radius/src/server.rs: Server::process_request"]}
{"id": "C38", "title": "A valid request is dropped only as a duplicate", "statement": "A validated request is dropped without a handler call only if at that moment the key (address, identifier) is held by an earlier request that has not been released; requests with other keys never prevent it.", "quantifier": "every schedule", "why_tests_cant": "All interleavings.", "anchors": ["radius/src/server.rs: Server::process_request"]}
{"id": "C39", "title": "Identifiers become reusable after handling", "statement": "After a handler returns (Ok or Err) and its task finishes, the key is free again, and the next valid request with the same key is handled.", "quantifier": "every schedule", "why_tests_cant": "All histories.", "anchors": ["radius/src/server.rs: Server::process_request"]}
{"id": "C40", "title": "However a handler ends, its key is released", "statement": "A request key never stays blocked after the handler for it is finished, including when the handler panics.", "quantifier": "every schedule and every handler outcome", "why_tests_cant": "Panic points inside user code, all continuations.", "anchors": ["radius/src/server.rs: Server::process_request"]}
{"id": "C41", "title": "The in-flight lock never deadlocks or is poisoned", "statement": "In every reachable state the lock is unpoisoned, and if some task is unfinished and not inside its handler then some task can take a step.", "quantifier": "every schedule", "why_tests_cant": "All interleavings.", "anchors": ["radius/src/server.rs: undergoing_requests_lock_arc"]}
{"id": "C42", "title": "Each datagram is handled at most once", "statement": "For every schedule each received datagram causes at most one handler invocation, and handler invocations correspond one-to-one to distinct received datagrams.", "quantifier": "every schedule", "why_tests_cant": "All histories.", "anchors": ["radius/src/server.rs: Server::run_loop"]}
{"id": "C43", "title": "Receive buffer size", "statement": "A request datagram not longer than the buffer is processed on exactly its bytes; a longer one is cut to the buffer size and is never handled if its header length exceeds the buffer size.", "quantifier": "every datagram and buffer size", "why_tests_cant": "All sizes.", "anchors": ["radius/src/server.rs: Server::set_buffer_size", "radius/src/server.rs: Server::run_loop"]}
{"id": "C44", "title": "The client sends exactly the encoded request, once", "statement": "send_packet transmits at most one datagram, it equals encode() of the request, it is sent to the given address, and nothing is sent when binding, connecting or encoding fails.", "quantifier": "every packet, address and network behaviour", "why_tests_cant": "All environment behaviours.", "anchors": ["radius/src/client.rs: Client::send_packet", "radius/src/client.rs: Client::request"]}
{"id": "C45", "title": "Client errors identify the failing stage; timeouts only if configured", "statement": "The error variant of send_packet identifies the first failing stage; with no timeout configured the timeout errors are never returned; Ok is returned only if a datagram was received and decoded.", "quantifier": "every network behaviour", "why_tests_cant": "All environment behaviours.", "anchors": ["radius/src/client.rs: Client::send_packet", "radius/src/client.rs: ClientError"]}
{"id": "C46", "title": "The client returns only authentic matching responses", "statement": "A packet returned by send_packet passes is_authentic_response for the sent request and has the request's identifier.", "quantifier": "every datagram the network may deliver", "why_tests_cant": "Adversarial network.", "anchors": ["radius/src/client.rs: Client::send_packet"]}
{"id": "C47", "title": "Packet codes map both ways", "statement": "Code::from(c as u8) = c for all codes, every other byte maps to Invalid, and the names are pairwise distinct.", "quantifier": "every byte, every code", "why_tests_cant": "Finite but complete table.", "anchors": ["radius/src/core/code.rs: Code"]}
{"id": "C48", "title": "Tags classify bytes as in RFC 2868", "statement": "Every byte is exactly one of: unused (0), valid tag (1..=0x1f), or neither (above 0x1f).", "quantifier": "every byte", "why_tests_cant": "Complete classification.", "anchors": ["radius/src/core/tag.rs: Tag"]}
{"id": "C49", "title": "The dictionary parser reads every line by the documented format", "statement": "Blank and comment lines are skipped; ATTRIBUTE lines give name, number, type and options (encrypt, has_tag, concat); VALUE lines are grouped by attribute in order; any other line is an error.", "quantifier": "every text", "why_tests_cant": "All dictionary texts.", "anchors": ["code-generator/src/main.rs: parse_dict_file"]}
{"id": "C50", "title": "The shipped typed modules match the dictionaries", "statement": "Parsing the shipped dictionary files with the generator's parser and dispatch gives exactly the attribute numbers, accessor kinds and value constants in the shipped rfcXXXX.rs modules.", "quantifier": "every line of every shipped dictionary", "why_tests_cant": "Hundreds of generated items, no test compares them.", "anchors": ["dicts/dictionary.rfc2865", "radius/src/core/rfc2865.rs", "code-generator/src/main.rs: generate_attribute_code"]}
{"id": "C51", "title": "The generator rejects exactly unsupported tag combinations", "statement": "Generation aborts exactly for has_tag on types other than string, integer and tunnel password (vsa ignores it) or tunnel password without has_tag; otherwise each attribute gets exactly one accessor family.", "quantifier": "every parsed attribute", "why_tests_cant": "All combinations.", "anchors": ["code-generator/src/main.rs: generate_attribute_code"]}
{"id": "C52", "title": "End to end: example client and server", "statement": "For every Access-Request carrying a user name and password built by the client, the example handler answers Access-Accept iff they are admin / p@ssw0rd and Access-Reject otherwise, the client decodes an authentic response with the same identifier.", "quantifier": "every user name, password, identifier, authenticator", "why_tests_cant": "All inputs of the composed system.", "anchors": ["examples/server.rs", "examples/client.rs", "e2e-test/src/test.rs"]}
{"id": "C53", "title": "Shutdown stops intake only", "statement": "After the shutdown trigger wins, run returns Ok and no further datagram is received, while handlers already started keep their keys until they finish; an I/O error from the socket ends the loop with this error.", "quantifier": "every schedule", "why_tests_cant": "All interleavings with shutdown.", "anchors": ["radius/src/server.rs: Server::run", "radius/src/server.rs: Server::run_loop"]}
{"id": "C54", "title": "Request keys tell clients apart", "statement": "The text of a socket address used in the duplicate-detection key determines the endpoint: two addresses have the same text exactly when family, IP address, port and IPv6 scope agree (the IPv6 flow label is ignored). Hence a request is dropped as a duplicate only because of an unreleased request from the same endpoint with the same identifier.", "quantifier": "every pair of socket addresses; every execution of the server", "why_tests_cant": "The text form compresses zero runs, writes mapped addresses in dotted form and adds scopes; a collision between two of the 2^128 addresses would silently drop another client's request and no test enumerates pairs.", "anchors": ["radius/src/server.rs: RequestKey", "radius/src/server.rs: process_request"]}
{"id": "C55", "title": "Attributes travel in the order they were put in", "statement": "After any sequence of add, extend and delete (directly or through the typed accessors), the encoded packet carries exactly the attributes not deleted afterwards, in the order in which they were put in and after those the packet started with; the receiver gets that list.", "quantifier": "every reachable packet, every finite sequence of edits", "why_tests_cant": "Order between different attribute types after arbitrary interleavings of edits; tests check a few fixed lists.", "anchors": ["radius/src/core/attributes.rs: Attributes::add", "radius/src/core/attributes.rs: Attributes::extend", "radius/src/core/attributes.rs: Attributes::del", "radius/src/core/packet.rs: Packet::encode"]}
{"id": "C56", "title": "Typed accessors never panic", "statement": "On any packet, including one decoded from hostile bytes, every lookup_* and lookup_all_* returns a value, an error or None, and every add_* returns for every argument and leaves the packet unchanged when it returns an error.", "quantifier": "every packet, every attribute type, every accessor family, every argument", "why_tests_cant": "A handler runs accessors on attacker-controlled values; an index out of bounds or an unwrap on one malformed value kills the request task.", "anchors": ["radius/src/core/avp.rs: encode_*", "radius/src/core/avp.rs: from_*", "code-generator/src/main.rs: generate_attribute_code"]}
{"id": "C57", "title": "Encoding is injective", "statement": "Two packets with the same encoded bytes have the same code, identifier and attribute list, and the same authenticator when the code carries it as it is.", "quantifier": "every pair of reachable packets, every digest function", "why_tests_cant": "Quantifies over pairs of packets, including those longer than the 16-bit length field.", "anchors": ["radius/src/core/packet.rs: Packet::encode", "radius/src/core/packet.rs: Packet::marshal_binary"]}
{"id": "C58", "title": "Padding is ignored and truncation is always detected", "statement": "If a datagram decodes, then every extension of it and every prefix of at least the announced length decodes to the same packet, and every shorter prefix is rejected with the error that names the missing length.", "quantifier": "every datagram that decodes, every suffix, every cut position", "why_tests_cant": "Every cut position of every packet.", "anchors": ["radius/src/core/packet.rs: Packet::decode"]}
{"id": "C59", "title": "Authenticity checks separate secrets and requests", "statement": "A digest-carrying request accepted under two secrets, or a response accepted under two secrets or for two requests with different authenticators, gives an explicit digest collision; an Access-Request or Status-Server carries no digest and passes the check under every non-empty secret.", "quantifier": "every datagram, every pair of secrets and requests, every digest function", "why_tests_cant": "A statement about all pairs of secrets, reduced to collisions of the digest.", "anchors": ["radius/src/core/packet.rs: is_authentic_request", "radius/src/core/packet.rs: is_authentic_response"]}
{"id": "C60", "title": "Typed reads give the receiver what the sender reads", "statement": "For every attribute type and accessor family, lookup_* and lookup_all_* on the decoded packet return the same result as on the packet that was encoded; for password families when the code carries the authenticator as it is.", "quantifier": "every reachable packet below 65516 attribute bytes, every attribute type, every family", "why_tests_cant": "Composition of typed encoding, list encoding, wire decoding and typed decoding for all values.", "anchors": ["radius/src/core/packet.rs: Packet::encode", "radius/src/core/packet.rs: Packet::decode", "code-generator/src/main.rs: generate_attribute_code"]}
{"id": "C61", "title": "What the example handlers do with any request", "statement": "The handlers of the example server and of the end-to-end test, given any request the server can hand them: if the user name and password can be read as text, the answer goes to the sender, is authentic for the request, repeats its identifier and is Access-Accept exactly for admin / p@ssw0rd; otherwise the handler panics. Hence a sender who does not know the secret can, with a 20-byte Access-Request, make the handler panic and block that address and identifier for ever.", "quantifier": "every datagram, every secret, every digest function, every server execution", "why_tests_cant": "The tests send one well-formed request; the claim covers every request and the state of the server afterwards.", "anchors": ["examples/server.rs: handle_radius_request", "e2e-test/src/test.rs", "radius/src/server.rs: Server::process_request"]}
{"id": "C62", "title": "Typed additions accumulate", "statement": "A successful add_* of any accessor family that has lookup_all_* appends its value, as read back, to what lookup_all_* of that type returned before; any sequence of additions is read back after the old values in the order of the calls, and lookup_* returns the first of them; delete_* removes them all. (Other types and failed additions: C31, C25.)", "quantifier": "every packet, every attribute type and family, every argument, every sequence of additions", "why_tests_cant": "Arbitrary sequences of arbitrary arguments on arbitrary packets.", "anchors": ["code-generator/src/main.rs: generate_attribute_code", "radius/src/core/rfc2865.rs"]}
{"id": "C63", "title": "Dictionary errors name the first bad line", "statement": "Parsing a dictionary file either reads all lines or stops at the first line that cannot be read, with the message that belongs to the cause (unknown line kind, bad number, unknown type, encryption flag, ...), or with a panic for a bracketed length that is no number; nothing after that line matters.", "quantifier": "every text", "why_tests_cant": "Every malformed text, every position of the first bad line.", "anchors": ["code-generator/src/main.rs: parse_dict_file"]}
{"id": "C64", "title": "The shared secret leaves the process only inside a digest", "statement": "Encoding, decoding, the authenticity checks, every add_* and every lookup_* see the secret only through digests of the secret followed by a chaining block of at most 18 bytes or of at least 20 bytes followed by the secret (and whether it is empty): if two digest functions and secrets agree on those, every sequence of operations on a packet that was created, received or is given reads and emits the same. Any two non-empty secrets are related in this way by a suitable digest function. Access-Request and Status-Server are encoded without digest or secret, and decode only stores the secret.", "quantifier": "every digest function, every pair of secrets, every packet, every sequence of typed operations", "why_tests_cant": "A relation between pairs of runs with different secrets and digest functions.", "anchors": ["radius/src/core/packet.rs: Packet::encode", "radius/src/core/packet.rs: is_authentic_response", "radius/src/core/avp.rs: from_user_password", "radius/src/core/avp.rs: encode_tunnel_password"]}
{"id": "C65", "title": "What the generator leaves on disk", "statement": "Given existing dictionary files, the generator handles them in the order of their paths, whatever the order on the command line. If all are readable dictionaries with supported attributes it writes one module for each, with the documented header, an import for each earlier module, the code of each attribute in order, and the values, whose type is declared unless an earlier dictionary defines the attribute. Otherwise it panics at the first bad one: earlier modules are complete, the bad one is missing or cut short at its first unsupported attribute, later ones are not written. With the help flag, without output directory or with a missing file nothing is written.", "quantifier": "every set of files with any contents, every command line, every set of creatable files", "why_tests_cant": "There are no tests for the generator; the claim is over all dictionaries and all ways of failing.", "anchors": ["code-generator/src/main.rs: main", "code-generator/src/main.rs: generate_header", "code-generator/src/main.rs: generate_values_code", "code-generator/src/main.rs: generate_attributes_code"]}
{"id": "C66", "title": "Type names in generated modules resolve", "statement": "If every attribute with named values gets them in the dictionary that first defines it (values in later dictionaries extend these), every type named in a generated accessor signature or constant is declared in the module itself or in the imported module it is qualified with. The shipped dictionaries meet the condition. It is needed: a value added later to an attribute without values, or an attribute defined again with values, gives a module that names an undeclared type, without complaint from the generator.", "quantifier": "every list of dictionaries; all 24 shipped dictionaries", "why_tests_cant": "Compiling the shipped modules covers one list of dictionaries; the claim is about all lists and gives the exact gap.", "anchors": ["code-generator/src/main.rs: generate_values_for_attribute_code", "code-generator/src/main.rs: generate_attribute_code", "dicts/"]}
{"id": "C67", "title": "Running the generator on the shipped dictionaries reproduces the shipped modules", "statement": "The generator, run on the 24 shipped dictionary files in any directory and in any order on the command line, with an output directory in which files can be created, ends without a panic and creates exactly one file per dictionary, named after its RFC, in the order of the names, each with exactly the tokens of the shipped module of that name (rfc2865.rs without the hand-written add_vsa_attribute).", "quantifier": "for all directories, all orders of the arguments, all other files in the file system", "why_tests_cant": "the order of the arguments has 24! possibilities, and the result depends on state carried from one dictionary to the next", "anchors": ["code-generator/src/main.rs:97", "code-generator/src/main.rs:162", "scripts/generate-code.sh", "dicts/", "radius/src/core/rfc2865.rs"]}
{"id": "C68", "title": "Clients get the answer to their own request over an unreliable network", "statement": "Any number of clients talk to the example server over a network that may lose, repeat, delay and reorder datagrams but neither changes nor invents datagrams to clients, while other hosts send anything to the server. Every packet a client call returns is the handler's answer (identifier, verdict, attributes) to a datagram sent from that call's address, and each call returns at most once. If every call has an address of its own that nobody else sends from, it is the answer to that call's own request: for the example client, Access-Accept exactly for admin / p@ssw0rd (password up to its first zero byte), with the identifier of the request. Without own addresses this is false: a late Access-Accept for an earlier request is returned for a later request with a wrong password and another identifier.", "quantifier": "all reachable states of the composed system: any number of calls, any scheduling, loss, repetition, delay and order, any datagrams of other hosts, every digest", "why_tests_cant": "tests run one client over the loopback interface; the claim is about all interleavings of many clients, server tasks and network faults", "anchors": ["radius/src/client.rs: send_packet", "radius/src/server.rs: run", "examples/server.rs", "examples/client.rs"]}
{"id": "C69", "title": "No history can keep a client with its own endpoint from being answered", "statement": "In every state that clients, other hosts, the network, the scheduler and panicking handlers can bring about, as long as the example server is running: a new call of the example client (any user name up to 253 bytes, any password up to 128 bytes that is UTF-8 up to its first zero byte), made from an endpoint that no earlier call and no other host uses, can still be answered; the rest of the run then returns the verdict on that request with its identifier. In particular requests that make handlers panic block only the endpoint they came from.", "quantifier": "every reachable state of clients, network and server; every request of the example client; every digest", "why_tests_cant": "The claim is about what remains possible after every history, including hostile ones of any length.", "anchors": ["radius/src/server.rs: process_request", "radius/src/client.rs: send_packet", "examples/server.rs"]}
{"id": "C70", "title": "Copies of a request are handled alike", "statement": "When copies of one datagram are handled with the same secret, at different times, after changes of the receive buffer size, from whatever addresses, the handlers see the same packet. The example server therefore answers all copies with the same bytes, each to the address the copy came from, or panics on all of them.", "quantifier": "every execution of the server, every pair of handled copies, every digest", "why_tests_cant": "A relation between any two points of any execution, with settings changed in between.", "anchors": ["radius/src/server.rs: run_loop", "radius/src/server.rs: process_request", "examples/server.rs: handle_radius_request"]}
{"id": "C71", "title": "Error texts tell errors apart", "statement": "Different `PacketError`s and different `AVPError`s have different `Display` texts. Two calls of `send_packet` that fail with the same text returned the same `ClientError`: they failed at the same stage; if the text names an address both calls were to the same endpoint and the operating system gave the same message; if it reports a packet that could not be encoded or decoded, encoding or decoding failed in both with the same `PacketError`, including the lengths in it. (For arbitrary values of `ClientError` this is false, as an address with a semicolon makes the text ambiguous.)", "quantifier": "every pair of errors; every pair of calls of send_packet, with any packets, remotes, environments and digests", "why_tests_cant": "Injectivity over all payload strings and numbers; texts are concatenations, and several templates share a beginning.", "anchors": ["radius/src/client.rs: ClientError", "radius/src/core/avp.rs: AVPError", "radius/src/core/packet.rs: PacketError"]}
{"id": "C72", "title": "A handler that only rejects answers everything and leaves nothing behind", "statement": "The slow handler of the time-out test answers every request the server can give it, of any code and with any attributes, with an authentic 20-byte Access-Reject that repeats the identifier, and never panics. A client still waiting gets this rejection; a client with a socket timeout gets SocketTimeoutError if nothing arrives in time, and one without waits forever. A server with this handler cannot be blocked: once the handlers that were called have returned and the scheduler has nothing left to do, no request is marked as in progress, the lock is free, and the next acceptable request from any address with any identifier can be handled, whatever was sent before.", "quantifier": "every request, every execution of the server, every client and environment, every digest", "why_tests_cant": "The repository's test checks one time-out; that no history leaves a key behind is a statement about all executions.", "anchors": ["e2e-test/src/test.rs: LongTimeTakingHandler", "radius/src/server.rs: process_request", "radius/src/client.rs: send_packet"]}
{"id": "C73", "title": "Replayed requests are handled again, without limit, one at a time", "statement": "The server has no protection against replays beyond its check for requests in progress. From every state in which it runs, the lock is free and no request with the sender's endpoint and the identifier is in progress, for every n, sending an acceptable datagram n times from the same address (which takes no knowledge of the secret) can make the handler be called exactly n times, with the same request each time. Between two such calls the first must have returned: of copies of a datagram from one endpoint at most one is being handled at any time.", "quantifier": "every n, every reachable state of the server, every datagram, secret, address and digest", "why_tests_cant": "Every number of replays after every history.", "anchors": ["radius/src/server.rs: process_request", "radius/src/server.rs: undergoing_requests_lock"]}
