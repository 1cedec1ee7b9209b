# Formal model of http-ntlm in Lean 4

## 1. What is modelled

The model is a function-by-function transcription of `/repo/src` into total,
computable Lean functions. Nothing of `/repo` is executed; the tie between the
model and the code is the citation (file and lines) on every definition.

| Lean module | Rust code |
| --- | --- |
| `Verif/Model/Basic.lean` | panics, build configuration, the `Write`-into-`Vec` monad, the `nom` 7 combinators used, `utils.rs`, trait `Wire` |
| `Verif/Model/Text.lean` | Rust `str`: UTF-16, UTF-8, `split_once`, `lines`, `trim`, `to_uppercase`; `unicode_string.rs` |
| `Verif/Model/Flags.lean` | `messages/flags.rs` (its `Debug` is in `Model/Debug.lean`) |
| `Verif/Model/Structures.lean` | `messages/structures/*.rs`, `messages/structures.rs` |
| `Verif/Model/Field.lean` | `messages/field.rs` |
| `Verif/Model/Messages.lean` | `negotiate.rs`, `challenge.rs`, `authenticate.rs`, setters and builders |
| `Verif/Model/Crypto.lean` | `crypto.rs`, `crypto/*.rs` over abstract primitives |
| `Verif/Model/Client.lean` | `client.rs` as a state machine over API calls |
| `Verif/Model/Win.lean` | `win.rs`, with the Windows calls as environment input |
| `Verif/Model/Writer.lean` | the encoders over an arbitrary `io::Write`, with the default `write_all` of `std` |
| `Verif/Model/Trace.lean` | the decoders with a generic error type (`NomError`, messages.rs), with `VerboseError`, `Error` and `()` |
| `Verif/Model/Debug.lean` | the hand-written `Debug` of `Flags` (`flags.rs`) and of the fixed-size buffers (`structures.rs`) |
| `Verif/Model/DebugText.lean` | the derived `Debug` of all public types, on `core::fmt::builders` and `Debug for str` |
| `Verif/Model/PanicText.lean` | the panic messages of client creation and of its calls, with `core::str::slice_error_fail` (Rust 1.73 on) |
| `Verif/Model/AbortText.lean` | the texts of the panic messages of the decoders |
| `Verif/Model/Log.lean` | the decoders and `compute_mic` with `log::warn!` |
| `Verif/Model/Output.lean` | the client with `dbg!` and `log::warn!` |
| `Verif/Model/Level.lean` | the client with a level type whose answer may differ each time it is asked |
| `Verif/Model/Failing.lean` | the client on a machine whose random number source or standard error fails |
| `Verif/Model/Threads.lean` | the client as a program that draws from a random number source shared by any number of clients; all interleavings |
| `Verif/Model/Cost.lean` | the decoders with the number of steps they take: one for each `nom` combinator called and each byte looked at, copied or appended (amortised); error values and log lines, of bounded size, are not counted |
| `Verif/Model/Calls.lean` | the client with the list of the calls it makes of MD4, MD5, HMAC-MD5, DES and RC4, with the lengths of their inputs |
| `Verif/Model/AnyWriter.lean` | the encoders of `Model/Writer.lean` run with a writer that has a `write_all` of its own, with any code |
| `Verif/Model/Slice.lean` | a slice of bytes as a writer |
| `Verif/Model/Memory.lean` | the `unsafe` byte views of `crypto/nt.rs` and `structures/avid.rs` over a model of memory |
| `Verif/Model/Target.lean` | the code that depends on the word size or the byte order |

Around the model:

| Lean modules | content |
| --- | --- |
| `Verif/Spec/*` | what the properties talk about, written from the protocol documents (MS-NLMP, RFC 1320, 1321, 2104, 2781) or as declarative predicates on bytes and call histories; they use no function of the model other than its data types |
| `Verif/Props/*` | the property theorems (`Ntlm.Props.Cxx_...`), each followed by examples showing that its hypotheses are met |
| `Verif/Lemmas/*` | the proofs' intermediate results |
| `Verif/Prims/*` | MD4, MD5, HMAC-MD5, DES and RC4 in Lean (`Prims.std`), used where a property is refuted, so that the counterexample is one of the real protocol, and in `Check` |
| `Verif/Check/Vectors.lean` | the unit tests of `/repo` replayed on the model with `Prims.std`, plus the RFC test vectors: validation of the transcription, not part of any proof |

Conventions:

* A Rust `Result`/`Option` stays data. A panic is an explicit error value
  (`Panic`), so "never panics" is expressible; each panic site has its own constructor.
* `nom::Err` is `error` or `incomplete` (`Failure` is never produced by the
  combinators used: there is no `cut`). The payload of the generic error type `E`
  is left out of the main model, where `context(..)` is the identity; `Model/Trace.lean` has the decoders again with
  the error type as a parameter, and C78 ties the two together.
* `debug_assert!` is governed by `Cfg.debug`; the Cargo feature `strict` by
  `Cfg.strict`; the range of `SystemTime` by `Cfg.platform`.
* `&mut W` writers are `Vec<u8>` (the only writer used in the crate: `Wire` is
  crate private), modelled as a state monad over `List UInt8`. `Model/Writer.lean` has the encoders again as
  programs calling an unknown writer; on a `Vec` the two agree (`C69_on_vec`).
* `log::warn!` has no effect on results: the decoders are written without it, and again with it in
  `Model/Log.lean`; results agree (`C71_same_result`).
* Fixed-size byte arrays are `Bytes n` (lists with a length proof); `u8/u16/u32/u64`
  are `UInt8/16/32/64`; `usize` is `Nat` (64-bit target; no `usize`
  computation in the crate can overflow there).
* Rust `String` is `List Char` (Lean's `Char` is exactly a Unicode scalar value).
* Cryptographic primitives (MD4, MD5, HMAC-MD5, one DES block, the RC4 keystream) are a
  structure parameter `Prims`: theorems hold for every choice. The Unicode
  upper-casing table is a parameter `CaseMap` whose only assumed fact is ASCII behaviour; each character is
  mapped on its own (true of `str::to_uppercase`, which has no context-dependent rule).
* Randomness and the clock are arguments of the operation that consumes them. `V::version()` is an argument of
  the client's methods and constant over a history.
* After a panic the object that was being changed is unusable: histories end there (`&mut self` methods that
  unwind leave the client in a state the caller can only reach with `catch_unwind`; the model keeps the fields
  assigned before the panic, see `Model/Client.lean`).
* `win.rs`: memory the code passes uninitialised is absent (`none`); using it is the outcome `undefined`.

## 2. Properties and how each is proved

| id | modelled by | proof |
| --- | --- | --- |
| C01 | `Negotiate` encode/decode | byte-layout lemma, then decode field by field; both directions (iff) |
| C02 | `Challenge` encode/decode | same, plus induction on the AV-pair list |
| C03 | `Authenticate` encode/decode | same |
| C04 | writer monad, all `serialize_into` | per-type lemma `serializeInto x w = (bytes appended)`; induction for `Vec` |
| C05 | same | from the layout lemma, `drop`/`take` arithmetic |
| C06 | panic constructors | exact iff from the layout lemma |
| C07 | parser result `panic` | false: witness; exact characterisation of panicking inputs (partial) |
| C08 | header parsers | case analysis on the header |
| C09 | `UnicodeString` | induction on the string / on the input |
| C10 | `OEMString` | core UTF-8 codec lemmas |
| C11 | `Vec<AvPair>` | induction on the list |
| C12 | `AvPair`, `many0` | per-identifier case analysis; fuel-free equation for `many0` |
| C13 | `Challenge.deserialize` | case analysis |
| C14 | builder calls | induction on the call list, against a declarative spec |
| C15 | `Flags` ops | bit extensionality |
| C16 | `Flags.validate`, cfg | all-accepting theorem; negation of the strict half (partial) |
| C17 | setters | induction on the call list |
| C18 | `FileTime` | `Nat` arithmetic |
| C19 | `Version` | byte-level case analysis, iff |
| C20 | `NtChallenge`, `LmChallenge` | length arguments |
| C21 | fixed-size types | round-trip lemma per type |
| C22 | `Client.new` | `split_once` specification |
| C23 | `get_workstation_name` | exact result; negation on the empty file (partial) |
| C24 | `lmowfv1` | exact panic condition; ASCII totality (partial) |
| C25 | `des_56bits_to_64bits` | bit-level specification |
| C26 | `ntowfv1/2` | rewriting to the spec; invariances |
| C27 | `ntlmv1.compute_response` | equality with a transcription of MS-NLMP 3.3.1 |
| C28 | `ntlmv2.compute_response` | equality with a transcription of MS-NLMP 3.3.2 |
| C29 | client step | false: independence from the password proved (partial) |
| C30 | `kxkey`, client step | exact agreement condition (partial) |
| C31 | `encrypt_random_session_key`, server-side spec | XOR involution; exact mismatch condition (partial) |
| C32 | `compute_mic`, client step | true for `compute_mic`; what the client signs vs sends (partial) |
| C33-C35, C37 | client transition system | induction over histories against a declarative history spec |
| C36 | `send_negociate` | computation of the flags, decode theorem |
| C38-C40, C42, C45 | `send_authenticate` | computation |
| C41 | `send_authenticate`, histories | two-run (relational) induction |
| C43, C44 | client transition system | step lemma and induction |
| C46 | client step | exact threshold (partial) |
| C47 | decoders | relational lemma on slices |
| C48 | decode then encode | negation by witness, normal-form theorem (partial) |
| C49 | `win.rs` over an arbitrary operating system | induction over histories; negation for failures (partial) |
| C50 | `FileTime` | false for every time; `Nat` arithmetic for what a peer reads (partial) |
| C51 | the three decoders | both directions, against a predicate on byte positions |
| C52 | the three decoders | exact set of aborting inputs (the theorems of C07) |
| C53 | client transition system | induction over histories, declarative "first answer since the last negotiate" |
| C54 | `Debug` of flags and buffers | the 32-entry name table against the printed string; injectivity by splitting at the separators |
| C55 | the three decoders | from C51: the contents predicate is monotone in the input |
| C56, C57 | `send_authenticate`, server-side spec | decode what was sent, recompute the responses and keys from the hash |
| C58, C59 | client | exact conditions (both directions) replacing the false totality claims C46, C24 |
| C60 | builder calls on fresh and received challenges | induction on the calls, then C02's exact condition |
| C61 | decode then encode | contents theorem (C51), then C01 and C03 |
| C62 | client, server-side spec | composition of C36, C02, C56 and C57 over an arbitrary history |
| C63 to C67 | pairs of runs of a client | closed form of each message (as in C29 to C32), then congruence in the parts that may differ; C63 and C66 by simulation over the history |
| C69, C70 | encoders as programs over a writer given by its answers, one per call of `write` | induction on the program: what was received is a prefix; no `write` in message encoders; refinement of the `Vec` encoders |
| C71, C72 | the decoders again, with the warnings they log | refinement of the silent decoders; the log of an accepted message by byte positions; every warning of any run is one of a fixed set |
| C73, C74 | the parts of the code that depend on the word size or the byte order, with the machine as a parameter | equality with the 64-bit little-endian model where it holds; closed form of what a big-endian machine sends |
| C75, C76 | nothing new: the encoders, `compute_mic` and the NTLMv2 response | injectivity of each layout on the values that fit, by splitting at known lengths; the first two messages end where the signature of the next begins |
| C77 | nothing new | lengths of the layouts, and C51 for received messages |
| C78 | the decoders with a generic error type | simulation of the decoders without error values, with an invariant on error values; maps that respect the operations of error types commute with every decoder, so one recording of the calls fixes the error value of every type |
| C79 | the reports (`VerboseError`) of rejected messages | tables of checks, composed along the combinators |
| C80, C81 | the texts of `Debug`, both layouts | each text is self-delimiting under any padding, composed along structures, variants and lists; set of characters of each part |
| C82 | the client with its output | equality with the silent client call by call; the domain and the version block are constant over a history |
| C83 | memory as a partial function, `from_raw_parts` with its safety conditions | induction over the elements of the vector |
| C84 | the client, each call with the answers given during it | each call equals the call at one fixed level; the negotiation and challenge held are an invariant over mixed histories; a level function that panics does so before anything is changed |
| C85 | responses as in C56; DES as in `Prims/Cipher.lean` | each Feistel round and permutation is invertible, so DES is injective per key (`Lemmas/Des.lean`); the verifiers of `Spec/Server.lean` then accept one challenge only |
| C86 | `Spec/Public.lean`: the messages a program outside the crate can reach, as inductive closures of constructors, calls and field assignments | both directions: the builder theorem C60 for one call at a time; for the converse, one call per pair, then the fields |
| C87 | responses as in C56 | the three DES blocks of a response have keys from disjoint parts of the hash; enumeration of the two-byte keys; LM hash of a padded password |
| C88 | `Model/PanicText.lean`: the message each panic of client creation and of the calls prints | the two slicings at bytes 14 and 7 fail exactly inside a character and quote the text; all other messages are fixed texts or a byte count; false as stated (`C88_refuted`) |
| C89 | the flag words of the negotiate and the authenticate message, read from their bytes | from C36, C38, C51 and C56; false below level 3 (`C89_refuted`), exact condition at each level |
| C90 | the attribute pairs in the NT response, read back from the message bytes | the pairs are exactly those of the challenge (C42 and injectivity of the pair encoding); hence exactly when each duty is met (`C90_exact_partial`), and an answer that meets none (`C90_refuted`) |
| C91 | the client calls with draws and prints that may fail | case analysis of one call against the call on a working machine; induction over histories |
| C92 | the calls of any number of clients, interleaved at their draws from one shared source | invariants over all schedules: each thread is at a known point of a call of the sequential model; all draws are apart |
| C93 | the calls of `Model/Win.lean` in any sequence | refuted: the handle a call passes on is characterised for every history by induction; what holds is the first exchange |
| C94 | `Model/Trace.lean` with what each panic message is made from, `Model/AbortText.lean` with the texts | the first descriptor out of range, in reading order, or the first value with bytes left over (`AvLeft`); each message by following the decoder, the converse by uniqueness and C52 |
| C95 | `Model/Cost.lean`, whose results are those of the model (`C95_same_result`) | bounds that compose: `Lin` (constant and a factor for each byte consumed), `Work`; a repetition is paid for by the bytes each round consumes; descriptors of at most 65535 bytes |
| C96 | `Model/AnyWriter.lean`: any state machine with `write` and `write_all` | the encoders only call `write_all` (`Careful`); their pieces have fixed sizes (`Sizes`) and add up to the encoding |
| C97 | `Model/Calls.lean`: a monad that records each call of a primitive | `message_eq`: the calls of an answer in closed form, for every outcome; two clients that differ in secrets and random values are related by a simulation (`Sim`). Steps outside the primitives (such as the parity bits of a DES key, which the code computes with a branch) are not counted |
| C98 | `Model/Slice.lean`: `&mut [u8]` as a writer (`sliceWriter`, one of the writers of C96) | messages: the pieces of C96, `offer_slice` by induction over them; lists of pairs: `loop_slice` by induction over the list, with the text at its end as the one part that may be cut off silently |
| C68 | `compute_mic` on any message | closed form of the encoding, with the MIC at 64 or 72 |

No property of the list is outside the model; what is *not* modelled is listed below.

Properties that are false of the code (status `partial`): the theorem `..._refuted` is the negation, the other
theorems of the claim say exactly how far the property holds. What was found:

* A descriptor pointing outside the message aborts decoding (C07, C52); a debug build also aborts on over-long
  AV values.
* `cfg(features = "strict")` is never true, so strict mode checks nothing (C16).
* An empty `/etc/hostname` aborts client construction (C23); so do passwords whose seventh or fourteenth byte
  after upper-casing is inside a character (C24, C59).
* The NTLMv2 NT response lacks the proof and the trailing four zero bytes: servers following the protocol refuse
  it and derive another key (C29, C31).
* The NTLMv1 client always uses the extended-session-security key-exchange key (C30), and always sets KEY_EXCH,
  so a server decrypts a zero session key where no exchange was negotiated (C31).
* The MIC is computed before the last changes to the message (C32).
* NTLMv1 answers to challenges with the VERSION flag cannot be decoded (C39).
* NTLMv2 clients abort on challenges with more than 65507 bytes of target info (C46, C58).
* Re-encoding a received challenge is not byte-faithful (C48).
* The Windows client ignores failure codes and can read uninitialised memory (C49).
* Time stamps are microseconds since 1970, not FILETIME values (C50).
* The target given to `Client::new` is never used (C63).
* `encode_string` hands a text to `write` once and ignores how much was taken (C70).
* "Flag for .. is set but field is empty" is logged whenever the field is empty, whatever the flag (C72).
* On a big-endian machine names in attribute pairs and the input of the NT hashes have their bytes swapped (C74).
* The debugging text of an authenticate message shows the exported session key (C80), and every `send_negociate`
  prints two `dbg!` lines on standard error (C82).
* If byte 14 of a password is inside a character, the panic in `&password[..14]` (crypto/lm.rs:11) prints the password, up to 256
  bytes of it, on standard error; `split_at(7)` (:21) prints its upper-case form likewise (C88).
* The wire trait is private (`pub(super)`, messages.rs:65): a program that uses the crate cannot decode the challenge it received
  and must rebuild it with the builder, which cannot build all of them (C86).
* Answers below level 3 claim flags the client did not offer, and the server switches extended session security off although the
  client offered it (C89).
- An NTLMv2 answer never adds attribute pairs: its MIC is not announced (a server that follows MS-NLMP does not check it, so whoever
  relays the message can change its flags), the service name is not in it and the LM response is sent although the challenge has a time
  stamp (C90).
* `mod win` is private and nothing in the crate uses it (lib.rs:10): the Windows client cannot be reached from outside.  It asks for
  the package `Negotiate`, not `NTLM` (win.rs:34), and has no `Drop`: credentials and context handles are never released.
* A second answer in one exchange is sent but not recorded (C53).
* `send_authenticate` asks for the level twice: a level type that answers 1 and then 0 sends the LM response (C84).
* A Windows client can be used for one exchange only: `negotiate` never asks for a new security context again (C93).
* A standard error that cannot be written makes every `send_negociate` panic (`dbg!`), after the client has taken the message for sent (C91).
* Two unit tests of the repository fail according to the model (`Check/Vectors.lean`): authenticate.rs
  decode/encode (an LMv2 response is expected, but the flag word makes the decoder choose NTLMv1) and
  client.rs `ntlmv1` (key-exchange key and MIC offset).

## 3. Trusted base

* Lean's kernel (4.33.0). No Mathlib module is imported. No axiom, `sorry`, `native_decide` or `bv_decide`.
* Axioms, from `#print axioms` on every theorem named in `MANIFEST.json`:
  * none: `C19_ofTriple`, `C96_reports`
  * `propext`: `C04_append_only_vec`, `C26_case_insensitive`, `C96_pieces`
  * `propext`, `Quot.sound`: `C04_serialize`, `C15_debug_bound`, `C18_value`, `C20_lm`, `C21_buffers`,
    `C23_refuted`, `C25_expansion`, `C27_determined`, `C50_reading_refuted`, `C69_completes`, `C73_fields`,
    `C73_slice`, `C74_ascii`, `C83_confined`, `C83_exists`, `C83_functions`, `C83_view`,
    `C86_messages`, `C95_counted`, `C96_stock`
  * `propext`, `Classical.choice`, `Quot.sound`: all the others
* The reading of the Rust code, of the `nom` 7 combinators and of the standard library functions used
  (documented at each definition); the specifications under `Verif/Spec`.
* Modelled: everything under `/repo/src` that is compiled and not test code, except the following.
* Not modelled: write errors of a formatter and the format flags other than `#`; the private `Debug` of the client's state;
  the texts of panic messages of `win.rs`; aliasing (C83);
  allocation failure; the overflow of a byte count when a writer says it has taken about 2^64 bytes;
  the behaviour of the Windows calls behind `win.rs` (any result they may give is covered); machines with pointers
  of fewer than 32 bits (all but `Model/Target.lean` is for a 64-bit little-endian machine; C73 and C74 say what
  changes elsewhere: only field ranges, `encode_string` and the NT hashes depend on the machine);
  `messages/structures/encrypted_random_session_key.rs` (not part of the crate: no `mod` declares it) and the second
  arm of `generate_setter_getter!` (never expanded).
* The primitives of `Verif/Prims` matter only to the refutations stated with `Prims.std` (C29 to C32), to `C85_des` and to `Check`.
