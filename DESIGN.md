# Formal model of moznion/radius-rs in Lean 4

## Layout

| Path | Contents |
|---|---|
| `lean/Verif/Basic.lean` | bytes, the result type `Out` (ok / err / panic), checked slice/index/arithmetic primitives |
| `lean/Verif/Model/*.lean` | the model of the code, one file per Rust file; every definition cites file and lines |
| `lean/Verif/Model/Shipped/*.lean` | the shipped dictionaries and generated modules as text, written by `tools/embed.py` |
| `lean/Verif/Spec/*.lean` | small independent specifications (wire format, RFC formulas, dictionary format, ...), no reference to the model's helpers |
| `lean/Verif/Lemmas/*.lean` | helper lemmas |
| `lean/Verif/Props/*.lean` | the property theorems (`C01_...`), each followed by an `example` that its hypotheses are satisfiable |
| `properties.jsonl`, `MANIFEST.json` | the properties, and the theorems that prove them |
| `AXIOMS.md` | the axioms of every theorem of the manifest, as printed by Lean (`tools/axioms.py`) |
| `seeded/LOG.jsonl` | wrong versions of the model and the theorems each of them breaks |

## Modelling decisions

### Values

* `u8/u16/u32` are `UInt8/UInt16/UInt32`; `as` casts are `ofNat` (they wrap). `usize` is `Nat`: slice lengths
  in Rust are at most `isize::MAX`, so the additions the code does on them cannot wrap.
* `Vec<u8>`/`&[u8]` is `List UInt8`. `&mut self` methods return the new value.
* A Rust function that can return an error or panic returns `Out ε α` with constructors `ok`, `err`, `panic`.
  Indexing, slicing, `splice`, `unwrap`, `expect` are modelled by primitives that yield `panic` exactly when Rust panics.
* Narrow additions that can overflow (`attributes.rs:65`, `packet.rs:291`) take a flag `ck` = "overflow checks on"
  (debug profile: panic; release profile: wrap). Theorems are stated for both.
* The digest (crates `md5` / `openssl`) is a parameter `H : Bytes → Digest` (16 bytes) of every definition; theorems
  hold for every digest function. A concrete MD5 (`Model/Md5.lean`, from RFC 1321) instantiates it
  in the non-vacuity examples and in the kernel-evaluated replays of the repository's own test vectors.
* The openssl build (`Model/OpenSsl.lean`) has a fallible digest `Bytes → Except String Digest`.
* Random numbers (`rand::thread_rng`) are an arbitrary byte stream argument.
* Rust `String`/`&str` is Lean `String`; `String::from_utf8` is `String.fromUTF8?` of Lean core.
* `chrono::DateTime<Utc>` is (seconds, nanoseconds); `timestamp_opt(s,0)` succeeds on chrono's range.
* `SocketAddr` is IPv4 (4 bytes, port) or IPv6 (16 bytes, port, flow info, scope id). Its `Display`, used in the
  duplicate key and in error texts, is modelled character by character after Rust's `core::net` (`Model/Net.lean`): longest
  run of zero segments compressed, IPv4-mapped form, scope id.
* `thiserror` texts of `PacketError` (`Model/Client.lean`, as the client puts it into `ClientError`), `ClientError` and
  `AVPError` (`Model/ErrorText.lean`) are modelled.

### Server (`Model/Server.lean`)

A deterministic function `step : State → Action → Option (State × List Event)`; an execution is any sequence of possible
actions. Everything not determined by the code is chosen by the action: datagrams, socket errors, answers of the secret
provider (secret, error, panic), handler outcomes (ok, error, panic), the shutdown trigger, dropping the future of `run`,
and which task goes next. A task goes through `process_request` in the pieces between the points where another task can
interfere: `secret` (lines 168-205), `lock` (208), `check` (209-211), `insert` (212-213), `invoke` (215), `handlerEnds`
(220-226), `lockAgain` (228), `remove` (229). The `RwLock` is explicit state with owner and poisoning; `check` and `insert`
are separate steps although the guard is held, so that mutual exclusion is a theorem and not an assumption.
Events carry the addresses and datagrams an observer sees.

* A panic of `println!` in the error branch (line 224) is counted as a panic of the handler.
* The threads of the tokio runtime, its shutdown (tasks dropped at an await point) and fairness are not modelled; progress
  theorems say which steps are possible and that every schedule of enabled steps ends.
* `listen` is modelled when `bind` succeeds; if it fails the constructor returns the error and there is no server.

### Client (`Model/Client.lean`)

One call of `send_packet` against an arbitrary environment that answers each socket operation with success, error or
"not in time" (`pending`). The result is the trace of socket operations and the return value, or `pending` if the call never
returns. Times are not modelled: a configured timeout turns `pending` into the timeout error.

### Accessors (`Model/Accessors.lean`)

The generated functions of one attribute depend on its type code and its accessor family (`Kind`) only; `add`, `delete`,
`lookup`, `lookupAll` are modelled once per family from the templates in `code-generator/src/main.rs`. C50 shows that the
shipped modules have exactly the tokens that these templates produce for the shipped dictionaries. The meaning of the Rust
text of a template (that `packet.add(AVP::from_string(T, value))` is `Gen.addString`) is read by hand, as for the rest.

### Generator (`Model/Generator.lean`, `Model/GeneratorMain.lean`, `Model/Inflector.lean`)

* Text is a list of code points (`Gen.Str`). Literals are written `c!"…"`, an elaborator in `Model/Text.lean` that produces
  the list; it is trusted only to produce the intended list, what it produces is an ordinary term checked by the kernel.
* The regular expressions of `parse_dict_file` are modelled by functions; the Unicode part of `\d` is a parameter.
* `BTreeMap`, `HashMap` are association lists in key order or newest first; `format!` templates are copied and interpreted.
* The crate `Inflector` (`to_snake_case`, `to_screaming_snake_case`, `to_pascal_case`) is modelled from its source.
* `main`: paths are lists of components as `Path::cmp` sees them, `sort` is a stable sort. The arguments are what `getopts`
  has found. A dictionary that exists can be read, twice with the same text, and is UTF-8. Files are created in a directory
  where each creation may fail; a `BufWriter` is flushed when dropped, also by a panic.

### Example programs (`Model/Example.lean`)

The handlers of `examples/server.rs` and `e2e-test/src/test.rs` up to the call of `send_to`, their secret provider, and the
request built by `examples/client.rs`.

### Composition (`Model/Network.lean`)

Not code of the repository but how its parts are put together: any number of `send_packet` calls, the server loop with the
example provider and handler, and a network. The network may lose, repeat, delay and reorder datagrams. It does not change
them, and only the server sends to clients (C46 shows what happens otherwise). Hosts other than the clients may send
anything to the server; the parameter `Others` says what and from which addresses. Addresses of client sockets are chosen
freely, so reuse of an address is covered.

## Code that is modelled

| File | Modelled | Not modelled |
|---|---|---|
| `radius/src/core/packet.rs` | everything outside tests | – |
| `radius/src/core/attributes.rs`, `avp.rs`, `code.rs`, `tag.rs`, `vsa.rs`, `request.rs` | everything outside tests | – |
| `radius/src/core/rfc*.rs` | all functions, by accessor family; text by C50 | – |
| `radius/src/server.rs` | `listen`, `run`, `run_loop`, `process_request`, setters | `get_listen_address`, log output |
| `radius/src/client.rs` | everything | log output |
| `code-generator/src/main.rs` | everything else | `getopts` parsing, `print_usage` text, reading files |
| `examples/*.rs`, `e2e-test/src/test.rs` | handlers, providers, request | `main`, the test functions |

## Properties: what is modelled and how it is proved

| Id | Model | Proof plan |
|---|---|---|
| C01 | `Packet.decode`, `Attributes.decode` with panicking slices | induction on remaining length |
| C02 | same | equivalence with `Spec.Wire` grammar, both directions by induction |
| C03 | same, error payloads kept | case analysis + induction against a declarative `firstError` spec |
| C04, C05 | `encode`, `marshalBinary`, `decode` | via C02 characterisation |
| C06 | same | arithmetic on `UInt16`; the full claim is false (u16 truncation): proved `_partial` + kernel-checked refutation |
| C07, C08, C09 | same, API history `Reachable` | induction on histories, case split on code |
| C10–C14 | `isAuthenticRequest/Response` | unfold + append algebra; C14 is an explicit reduction to a collision |
| C15, C16 | `add/extend/del/lookup/lookupAll` | refinement to `AvpType → List value`, induction on op list |
| C17–C23 | `AVP.from_*`/`encode_*` | algebra over `UIntN`, lists, UTF-8 from core |
| C24, C25 | generated accessors, template per kind | induction on chunks |
| C26–C29 | password codecs | induction on blocks vs. index-wise RFC spec |
| C30 | accessors + encode + decode | false: reader uses the response authenticator. Refuted by a concrete MD5 run; partial theorem for the reader given the request authenticator |
| C31, C32 | all generated accessors, table of all attributes | decide over the complete finite table, lifted by lemma |
| C33 | VSA | arithmetic; combined with encode success |
| C34 | both builds | pointwise equality when digest succeeds |
| C35 | `Debug` | rewriting |
| C36–C43, C53 | server transition system | invariants by induction over steps |
| C40 | same | false for panicking handlers: proved that the key then stays blocked forever; partial for Ok/Err |
| C44–C46 | client | case analysis over environment. C46 false: refuted by forged datagram; partial: what is guaranteed |
| C47, C48 | `Code`, `Tag` | complete case analysis |
| C49–C51 | generator parser and dispatch | list lemmas; C50 kernel evaluation of the parser on the embedded complete dictionary texts |
| C52 | example handler + client + server codec | composition of the above |
| C54 | `SocketAddr.display` | the text is decoded by a spec grammar; injectivity by cases on the compressed run |
| C55 | `Attributes.encode`, histories | list of surviving additions, induction on the history |
| C56 | accessors | case analysis per family, no panic primitive reachable |
| C57, C58 | encode / decode | via the wire grammar |
| C59 | authenticity checks | explicit colliding inputs |
| C60 | accessors after decode of encode | C04 plus independence of the read from the other fields |
| C61 | example handlers in the server | exact outcome by cases; the blocking run is a concrete execution |
| C62 | accessors | `add` appends one attribute that reads back; induction on the sequence |
| C63 | `parseDict` | every line is read or stopped by exactly one cause (spec `Stops`) |
| C64 | packets, accessors, checks | relational: two digest functions that answer alike on the queries made |
| C65 | `Gen.main` | spec `Modules`/`PartialText` of the text of a module, `InOrder` of the paths |
| C66 | same | occurrences of declarations in the specified text; two counterexamples by kernel evaluation |
| C67 | `Gen.main` on the shipped dictionaries | C65 for the order, kernel evaluation of each module of C50 |
| C68 | `Network.Reaches`: many clients, network, example server | induction over reachable worlds; C37, C61, C45, C64; the late answer is a concrete run with MD5 |
| C69 | same | drain internal steps, C39, C54 for the free key, C52 for the answer |
| C70 | server, example handler | C37 with C58: decoding depends only on the datagram |
| C71 | error texts, client | beginnings compared by the kernel; numbers and addresses end at a character they cannot contain; C45, C54 |
| C72 | slow handler, server, client | C04, C07, C11; phases of a task in a quiescent state; C39, C45 |
| C73 | server | the steps of one copy, C39, repeated by induction; C54, C70 |

Theorems with suffix `_partial` belong to claims that are false of the code as stated in full (C06, C30, C40, C46, C52); a
`_counterexample`, or for C40 the theorem `C40_panic_blocks_key`, shows that the rest cannot be proved.


## Trusted base

* The Lean 4.33.0 kernel. `decide +kernel` evaluates in the kernel; no `native_decide`, `bv_decide`, no own axioms.
* Axioms: `propext`, `Classical.choice`, `Quot.sound` at most. `AXIOMS.md` lists them for each theorem of the manifest.
* Faithfulness of the model to the Rust text (cited line by line), read by hand.
* `tools/embed.py`, which copies the dictionaries and modules from `/repo` into Lean text (`tools/check_embed.py` reads them back and compares them with `/repo`;
  nothing is computed there besides quoting and the table of C50, and the table is checked by `C50_contents`).
* External code is modelled by its documented contract: Rust std (slices, `Vec`, UTF-8, `Path`, `sort`, `RwLock`, `HashSet`),
  `rand` (arbitrary bytes), `md5`/`openssl` (arbitrary 16-byte function; may fail in the openssl build), `chrono`, `tokio` (UDP
  socket outcomes, task interleaving), `num_enum`, `Inflector`, `regex`.

## Not modelled

* Memory allocation failure, time, log output, process exit, real I/O, the tokio runtime, operating system sockets.
* The items in the last column of the table above.
