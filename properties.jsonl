{"id": "C01", "title": "NEGOTIATE messages survive encode/decode", "statement": "Decoding the bytes produced by encoding a NEGOTIATE message returns exactly that message if and only if it is well formed: a version is present exactly when the VERSION flag is set, its revision is 15, and no name is present-but-empty. No flag value, domain or workstation (any Unicode text that fits the 16-bit length) is altered otherwise.", "quantifier": "every Negotiate value: all 2^32 flag words, all optional domain/workstation strings of any length, all optional versions", "why_tests_cant": "The unit test round-trips one message; the space of flag words x strings x versions is unbounded and the corner cases (empty names, inconsistent VERSION flag, non-15 revisions) are not sampled.", "anchors": ["src/messages/negotiate.rs:Negotiate::serialize_into", "src/messages/negotiate.rs:Negotiate::deserialize", "src/messages/field.rs:Field::append", "src/messages/field.rs:Field::get_data_if"]}
{"id": "C02", "title": "CHALLENGE messages survive encode/decode", "statement": "Decoding the bytes produced by encoding a CHALLENGE message returns exactly that message whenever the version agrees with the VERSION flag (revision 15), the target name is absent or non-empty text without NUL or supplementary-plane characters, and the target-info list is empty or ends with the terminator and contains only encodable pairs; this holds in debug and release builds and with or without the strict feature.", "quantifier": "every Challenge value: all flags, server challenges, target names, AV-pair lists of any length, versions, build configurations", "why_tests_cant": "Unbounded lists of AV pairs with unbounded strings; only one encode example exists.", "anchors": ["src/messages/challenge.rs:Challenge::serialize_into", "src/messages/challenge.rs:Challenge::deserialize", "src/messages/field.rs:Field::append_many", "src/messages/field.rs:Field::get_many_if"]}
{"id": "C03", "title": "AUTHENTICATE messages survive encode/decode", "statement": "Decoding the bytes produced by encoding an AUTHENTICATE message returns that message (apart from the locally kept exported session key, which is never transmitted) whenever version presence agrees with the VERSION flag, the LM response kind agrees with the NTLM flag, the session key is present exactly when decodable under KEY_EXCH, and names are absent or plain non-empty text.", "quantifier": "every Authenticate value: all flags, LM/NT response variants, names of any length, target infos of any length, MICs, versions", "why_tests_cant": "Six variable-length fields each of unbounded content; one example test.", "anchors": ["src/messages/authenticate.rs:Authenticate::serialize_into", "src/messages/authenticate.rs:Authenticate::deserialize"]}
{"id": "C04", "title": "Encoders only append and report the exact byte count", "statement": "Encoding any wire value into a buffer leaves the bytes already in the buffer unchanged, appends the encoding (independent of what was there), and returns exactly the number of bytes appended.", "quantifier": "every wire type, every value, every prior buffer content", "why_tests_cant": "serialize() checks the count only by a debug assertion on the values tests happen to encode; compute_mic relies on appending three messages to one buffer.", "anchors": ["src/messages.rs:Wire::serialize", "src/messages/utils.rs:write_integer", "src/messages/structures/avid.rs:AvPair::serialize_into", "src/messages/authenticate.rs:Authenticate::compute_mic"]}
{"id": "C05", "title": "Field descriptors point at the data they describe", "statement": "In every encoded message each 8-byte descriptor holds (len, len, offset) with offset+len within the message, the bytes at that range are the encoding of the corresponding value, absent values give an all-zero descriptor, and the payload regions are contiguous, in order and do not overlap each other or the header.", "quantifier": "every encodable Negotiate, Challenge and Authenticate value", "why_tests_cant": "Offsets depend on the lengths of all preceding variable-length fields; tests fix one length assignment.", "anchors": ["src/messages/field.rs:Field::append", "src/messages/field.rs:Field::append_many", "src/messages/negotiate.rs:serialize_into", "src/messages/challenge.rs:serialize_into", "src/messages/authenticate.rs:serialize_into"]}
{"id": "C06", "title": "Encoding fails only on a field longer than 65535 bytes", "statement": "Encoding a NEGOTIATE, CHALLENGE or AUTHENTICATE message aborts exactly when one of its variable-length fields encodes to more than 65535 bytes (or an AV-pair string does); the internal check that the payload offset fits 32 bits can never fail, and the header-size assertion never fires.", "quantifier": "every message value, field lengths unbounded", "why_tests_cant": "Needs messages around and beyond 64 KiB in every field and combination; absence of the other two panics is a universal claim.", "anchors": ["src/messages/field.rs:Field::append (try_into().expect)", "src/messages/field.rs:Field::append_many", "src/messages/structures/avid.rs:encode_string"]}
{"id": "C07", "title": "Decoding untrusted bytes never crashes the process", "statement": "Decoding arbitrary bytes as NEGOTIATE, CHALLENGE or AUTHENTICATE returns a message or an error and never panics.", "quantifier": "every byte string of every length", "why_tests_cant": "Tests only feed valid messages. (The code violates this: an out-of-range descriptor panics. The exact set of panicking inputs is characterised.)", "anchors": ["src/messages/field.rs:Field::get_data_if", "src/messages/field.rs:Field::get_many_if", "src/messages/field.rs:Field::get_range", "src/messages/structures/avid.rs:AvPair::deserialize"]}
{"id": "C08", "title": "Messages with a wrong signature, type or short header are rejected", "statement": "Decoding bytes that do not start with the NTLMSSP signature followed by the right message type, or that are shorter than the fixed header, returns a parse error: it neither yields a message nor panics.", "quantifier": "every byte string", "why_tests_cant": "All prefixes and all corruptions of header bytes.", "anchors": ["src/messages/negotiate.rs:deserialize", "src/messages/challenge.rs:deserialize", "src/messages/authenticate.rs:deserialize"]}
{"id": "C09", "title": "UTF-16 text fields: what is decoded is the longest plain prefix of what was encoded", "statement": "Decoding the UTF-16LE encoding of a string returns the longest prefix free of NUL and of supplementary-plane characters; hence text round-trips exactly when it contains neither. Decoding never fails, and never yields such characters.", "quantifier": "every string and, for totality, every byte string", "why_tests_cant": "All Unicode strings; tests are ASCII only.", "anchors": ["src/messages/unicode_string.rs:UnicodeString::serialize_into", "src/messages/unicode_string.rs:UnicodeString::deserialize"]}
{"id": "C10", "title": "OEM text fields round-trip and invalid UTF-8 is rejected", "statement": "Decoding the encoding of any string as an OEM string returns that string; decoding accepts a byte string exactly when it is the UTF-8 encoding of some string, consuming all of it, and otherwise reports an error.", "quantifier": "every string and every byte string", "why_tests_cant": "All strings, all invalid byte sequences.", "anchors": ["src/messages/unicode_string.rs:OEMString"]}
{"id": "C11", "title": "AV-pair lists survive encode/decode", "statement": "Decoding the encoding of any list of AV pairs yields the same list in the same order and consumes all the bytes, wherever terminators occur in it, exactly when every value survives: text without NUL and supplementary-plane characters, a time the platform can represent, single-host data with zero Z4. A list can be encoded exactly when every value fits its 16-bit length.", "quantifier": "every list of AV pairs of any length, all payloads", "why_tests_cant": "Unbounded lists; one two-element example is tested.", "anchors": ["src/messages/structures/avid.rs:AvPair", "src/messages.rs:Vec<T>::serialize_into", "src/messages.rs:Vec<T>::deserialize"]}
{"id": "C12", "title": "AV-pair framing: exactly 4+AvLen bytes are consumed, and list decoding always makes progress", "statement": "A successfully decoded AV pair consumes exactly 4 bytes plus its declared length whatever its content, so list decoding always terminates without the decoder's infinite-loop error; an unknown identifier ends the list silently, a declared length running past the data is a hard error.", "quantifier": "every byte string, every build configuration", "why_tests_cant": "Framing and termination over all inputs.", "anchors": ["src/messages/structures/avid.rs:AvPair::deserialize", "src/messages/field.rs:Field::get_many_if"]}
{"id": "C13", "title": "Accepted CHALLENGE messages have a terminated target-info list", "statement": "Whenever decoding a CHALLENGE succeeds, its target-info list is empty or its last element is the end-of-list terminator.", "quantifier": "every byte string", "why_tests_cant": "A guarantee about all accepted inputs.", "anchors": ["src/messages/challenge.rs:Challenge::deserialize"]}
{"id": "C14", "title": "Challenge builder keeps the target-info list well formed", "statement": "After any sequence of target-info builder calls on a fresh challenge, the list is empty with the TARGET_INFO flag clear if no call was made, and otherwise is the added pairs in call order followed by exactly one terminator, with the TARGET_INFO flag set; nothing else but the target-name calls' own flag changes.", "quantifier": "every sequence of builder calls with any arguments", "why_tests_cant": "All call sequences; the insert-before-last position depends on the whole history.", "anchors": ["src/messages/challenge.rs:add_target_info", "src/messages/challenge.rs:target_infos_add_*", "src/messages/challenge.rs:set_target_name", "src/messages/challenge.rs:fill_from_env"]}
{"id": "C15", "title": "Flag words behave as sets of bits", "statement": "Setting a flag makes exactly that flag present, clearing makes exactly that flag absent, other flags are untouched, both are idempotent, and operations on different flags commute.", "quantifier": "every 32-bit flag word and every flag index 0..31 (and, in release builds, every index)", "why_tests_cant": "2^32 words x 32 x 32 indices and sequences of operations.", "anchors": ["src/messages/flags.rs:Flags::has_flag", "src/messages/flags.rs:Flags::set_flag", "src/messages/flags.rs:Flags::clear_flag"]}
{"id": "C16", "title": "Strict mode rejects reserved or contradictory flag words", "statement": "With the strict feature enabled, decoding a flag word with a reserved bit set, with both target types, with no character set, or with both EXTENDED_SESSIONSECURITY and LM_KEY fails; without it every flag word is accepted unchanged.", "quantifier": "every 4-byte flag word, both feature settings", "why_tests_cant": "All 2^32 words in both configurations; tests never build with strict. (The code violates the first half: it tests the misspelt cfg key `features`.)", "anchors": ["src/messages/flags.rs:Flags::validate", "src/messages/flags.rs:Flags::deserialize", "src/messages/challenge.rs:parse_reserved", "Cargo.toml:[features]"]}
{"id": "C17", "title": "Setters keep presence flags and optional fields in step", "statement": "After any sequence of setter calls the OEM_DOMAIN_SUPPLIED, OEM_WORKSTATION_SUPPLIED, REQUEST_TARGET and KEY_EXCH flags are set exactly when the corresponding field last set is present, the getter returns the last value set, and no other flag or field changes.", "quantifier": "every sequence of setter calls from any starting message", "why_tests_cant": "All call sequences and starting flag words.", "anchors": ["src/messages/negotiate.rs:set_domain_name", "src/messages/negotiate.rs:set_workstation", "src/messages.rs:generate_setter_getter", "src/messages/authenticate.rs:set_encrypted_random_session_key"]}
{"id": "C18", "title": "FILETIME conversion and encoding", "statement": "Converting a system time to a file time and back truncates it to whole seconds; conversion fails exactly for times before 1970 or whose microsecond count overflows 64 bits; the 64-bit value is split and recombined losslessly, the 8-byte encoding round-trips, and on Unix every 8-byte value is accepted.", "quantifier": "every system time, every (low, high) pair, every byte string", "why_tests_cant": "Arithmetic over 64-bit ranges with overflow boundaries.", "anchors": ["src/messages/structures/filetime.rs:FileTime"]}
{"id": "C19", "title": "VERSION structures", "statement": "A version round-trips through its 8-byte encoding exactly when its revision is 15, versions built from (major, minor, build) always do, and decoding accepts an 8-byte block exactly when its reserved bytes are zero and its revision byte is 15.", "quantifier": "every version value and every byte string", "why_tests_cant": "All 2^40 values / 2^64 blocks.", "anchors": ["src/messages/structures/version.rs:Version"]}
{"id": "C20", "title": "LM/NT response variants are recognised correctly", "statement": "An NTLMv1 response (24 bytes) always decodes as NTLMv1 even if its bytes mimic an NTLMv2 header; an encoded NTLMv2 response decodes back to itself; an LM response of 24 bytes decodes without loss into the variant selected by the caller, and the self-detecting LM decoder always reports v2.", "quantifier": "every response value; every 24-byte string", "why_tests_cant": "Ambiguity between variants must be excluded for all byte patterns.", "anchors": ["src/messages/structures/nt_challenge.rs:NtChallenge::deserialize", "src/messages/structures/lm_challenge.rs:LmChallenge::deserialize"]}
{"id": "C21", "title": "Fixed-size structures round-trip", "statement": "Every fixed-size wire structure (challenges, keys, MIC, responses, descriptors, file times, single-host data with zero Z4, message signatures, AV flags, AV identifiers) decodes from its own encoding followed by arbitrary data to itself, leaving that data, and rejects inputs that are too short.", "quantifier": "every value and every suffix", "why_tests_cant": "All byte contents and suffixes.", "anchors": ["src/messages/structures.rs:buffer_aliases", "src/messages/structures/single_host_data.rs", "src/messages/structures/signature.rs", "src/messages/field.rs:Field", "src/messages/structures/avid.rs:MsvAvFlags", "src/messages/structures/avid.rs:AvId"]}
{"id": "C22", "title": "User names are split into domain and user as documented by convention", "statement": "Client::new splits at the first backslash into DOMAIN\\user if there is one, otherwise at the first @ into user@domain if there is one, otherwise uses an empty domain; joining the parts gives back the input, and the pieces never contain an earlier separator.", "quantifier": "every user name string", "why_tests_cant": "All strings with any number and order of separators.", "anchors": ["src/client.rs:Client::new", "src/client.rs:Client::new_with_domain"]}
{"id": "C23", "title": "Workstation name lookup", "statement": "The workstation name is COMPUTERNAME verbatim if set, otherwise the trimmed upper-cased first label of the first line of /etc/hostname, absent if the file is unreadable; lookup never crashes.", "quantifier": "every environment value and every file content", "why_tests_cant": "All file contents (empty file, CRLF, leading dots, whitespace). (The code violates totality on an empty file.)", "anchors": ["src/client.rs:get_workstation_name"]}
{"id": "C24", "title": "Client construction accepts every password, LM hashing is case-insensitive and uses 14 characters", "statement": "Creating a client never crashes, whatever the password; for ASCII passwords the LM hash depends only on the first 14 characters up to case.", "quantifier": "every password string", "why_tests_cant": "All Unicode strings. (The code violates totality for some non-ASCII passwords; the exact set is characterised.)", "anchors": ["src/crypto/lm.rs:prepare_password", "src/crypto/lm.rs:lmowfv1", "src/client.rs:new_with_domain"]}
{"id": "C25", "title": "DES key expansion keeps all 56 bits and sets odd parity", "statement": "Expanding a 7-byte key yields 8 bytes whose high 7 bits are, in order, the 56 key bits, and each of which has odd parity; so distinct keys give distinct expansions.", "quantifier": "all 2^56 keys", "why_tests_cant": "2^56 inputs.", "anchors": ["src/crypto/des.rs:des_56bits_to_64bits"]}
{"id": "C26", "title": "NT hashes are computed over the UTF-16LE text as specified", "statement": "The NT hash is MD4 of the UTF-16LE password; the NTLMv2 hash is HMAC-MD5 under the NT hash of the UTF-16LE of upper-cased user followed by the domain as given; it is insensitive to user-name case and depends on user and domain only through that concatenation.", "quantifier": "every password, user and domain string, any primitives", "why_tests_cant": "All strings; two fixed vectors are tested.", "anchors": ["src/crypto/nt.rs:ntowfv1", "src/crypto/nt.rs:ntowfv2"]}
{"id": "C27", "title": "NTLMv1 responses follow MS-NLMP 3.3.1", "statement": "For every flag word, keys and challenges, the NTLMv1 computation returns the NT response, LM response and session base key given by the specification (extended session security, no-LM-response, and plain variants), each LM/NT response being three DES blocks over the zero-padded key.", "quantifier": "every flag word, key pair, server and client challenge, LM policy, any primitives", "why_tests_cant": "Two vectors only; the case split must hold for all flag words.", "anchors": ["src/crypto/ntlmv1.rs:compute_response", "src/crypto.rs:desl"]}
{"id": "C28", "title": "NTLMv2 responses follow MS-NLMP 3.3.2", "statement": "The NTLMv2 computation returns NTProofStr = HMAC(key, server challenge, blob, 4 zero bytes), LMv2 = HMAC(key, server challenge, client challenge) with the client challenge, session base key = HMAC(key, NTProofStr), and the blob echoes the time, client challenge and target infos given.", "quantifier": "every key, challenge pair, time and AV-pair list, any primitives", "why_tests_cant": "Unbounded target-info lists; one vector.", "anchors": ["src/crypto/ntlmv2.rs:compute_response"]}
{"id": "C29", "title": "The NTLMv2 authenticate message carries the proof of knowledge of the password", "statement": "The NT response field sent by an NTLMv2 client is NTProofStr followed by the blob, so that a server knowing the NTLMv2 hash can verify it.", "quantifier": "every client, challenge and nonce", "why_tests_cant": "Must hold for all executions. (The code violates it: the proof is computed and dropped, so the field does not depend on the password at all.)", "anchors": ["src/client.rs:send_authenticate_ntlmv2", "src/messages/structures/nt_challenge.rs:Ntv2Challenge::serialize_into"]}
{"id": "C30", "title": "Key-exchange key follows KXKEY (MS-NLMP 3.4.5.1)", "statement": "The key-exchange key used by an NTLMv1 client is the HMAC variant under extended session security, otherwise the LM-key, non-NT or session-base-key variant according to the negotiated flags.", "quantifier": "every flag word, key and challenge", "why_tests_cant": "All flag words. (kxkey implements every variant but selects by an argument which the client always supplies, so the non-ESS cases deviate.)", "anchors": ["src/crypto.rs:kxkey", "src/client.rs:send_authenticate_ntlmv1"]}
{"id": "C31", "title": "Client and server end up with the same session key", "statement": "The server, knowing the key-exchange key, recovers from the authenticate message (its KEY_EXCH flag and encrypted session key field) exactly the session key the client exports.", "quantifier": "every flag word, key-exchange key and random session key", "why_tests_cant": "All keys/flags. (Holds when KEY_EXCH and SIGN or SEAL were negotiated; otherwise the client still advertises KEY_EXCH with a zero key.)", "anchors": ["src/crypto.rs:encrypt_random_session_key", "src/client.rs:send_authenticate_ntlmv1", "src/client.rs:send_authenticate_ntlmv2", "src/messages/authenticate.rs:set_encrypted_random_session_key"]}
{"id": "C32", "title": "The MIC authenticates the three messages actually exchanged", "statement": "The MIC in the authenticate message is the HMAC under the exported session key of the negotiate message sent, the challenge and the authenticate message as sent with a zero MIC.", "quantifier": "every NTLMv2 execution", "why_tests_cant": "All executions. (compute_mic satisfies it for the message it is applied to; the client then alters flags and workstation, so the message sent has a stale MIC.)", "anchors": ["src/messages/authenticate.rs:compute_mic", "src/client.rs:send_authenticate_ntlmv2", "src/client.rs:send_authenticate"]}
{"id": "C33", "title": "Authenticating requires a completed negotiate/challenge exchange", "statement": "In any history of API calls, send_authenticate gets past its state check exactly when some send_negociate was followed, with no later send_negociate, by a received challenge; otherwise it aborts and leaves the protocol state unchanged.", "quantifier": "every finite sequence of API calls", "why_tests_cant": "All histories.", "anchors": ["src/client.rs:ClientState", "src/client.rs:recv_challenge", "src/client.rs:get_challenge", "src/client.rs:send_authenticate"]}
{"id": "C34", "title": "The first challenge after a negotiate wins; unsolicited challenges are ignored", "statement": "In any history the challenge answered is the first one received after the latest send_negociate; challenges received before it, or after one was accepted, have no effect.", "quantifier": "every finite sequence of API calls", "why_tests_cant": "All histories and interleavings of stale challenges.", "anchors": ["src/client.rs:recv_challenge"]}
{"id": "C35", "title": "Re-negotiating restarts the handshake, and repeated authenticates answer the same challenge", "statement": "send_negociate from any state restarts the exchange and always produces the same bytes for a given client; send_authenticate may be repeated, each answering the same accepted challenge.", "quantifier": "every finite sequence of API calls", "why_tests_cant": "All histories.", "anchors": ["src/client.rs:send_negociate", "src/client.rs:send_authenticate", "src/client.rs:set_authenticated_state"]}
{"id": "C36", "title": "The negotiate message advertises exactly the documented flags", "statement": "For each protocol version 0-5 the negotiate message decodes to exactly the fixed base flags plus the version-specific ones, plus OEM_DOMAIN_SUPPLIED exactly when the domain is non-empty, in which case it carries that domain, and never a workstation.", "quantifier": "every domain string, every supported version", "why_tests_cant": "Unbounded domains x versions.", "anchors": ["src/client.rs:send_negociate"]}
{"id": "C37", "title": "Unsupported protocol versions are refused without side effects", "statement": "With a version above 5, send_negociate aborts and the client's protocol state is unchanged, so no challenge is ever accepted.", "quantifier": "every version above 5 and every history", "why_tests_cant": "All histories.", "anchors": ["src/client.rs:send_negociate"]}
{"id": "C38", "title": "Flags of the authenticate message", "statement": "The authenticate message sent always has KEY_EXCH, TARGET_INFO and REQUEST_TARGET set and OEM and TARGET_TYPE_SERVER clear; for NTLMv1 every other flag is the server's, for NTLMv2 the only other flag set is UNICODE.", "quantifier": "every client, challenge (all 2^32 flag words) and randomness", "why_tests_cant": "All flag words.", "anchors": ["src/client.rs:send_authenticate", "src/client.rs:send_authenticate_ntlmv1", "src/client.rs:send_authenticate_ntlmv2"]}
{"id": "C39", "title": "The peer can decode the authenticate message the client sends", "statement": "The bytes returned by send_authenticate decode to the authenticate message the client recorded.", "quantifier": "every client with plain-text names, every challenge and randomness", "why_tests_cant": "All executions. (Holds for NTLMv2; for NTLMv1 it fails exactly when the challenge has the VERSION flag.)", "anchors": ["src/client.rs:send_authenticate", "src/messages/authenticate.rs:deserialize"]}
{"id": "C40", "title": "The authenticate message carries the client's identity", "statement": "The domain, user and workstation fields in the bytes sent are the UTF-16LE of the client's domain, user and workstation, whatever the challenge.", "quantifier": "every client, challenge and randomness", "why_tests_cant": "All executions.", "anchors": ["src/client.rs:send_authenticate"]}
{"id": "C41", "title": "Versions 1-5 never use the LM hash", "statement": "For protocol versions 1 to 5 the messages sent do not depend on the client's LM hash, and for versions 3 to 5 they do not depend on the NT hash except through the NTLMv2 hash.", "quantifier": "every pair of clients differing only in those hashes, every history", "why_tests_cant": "Non-interference quantifies over pairs of executions.", "anchors": ["src/client.rs:send_authenticate_ntlmv1", "src/crypto/ntlmv1.rs:compute_response", "src/client.rs:send_authenticate_ntlmv2"]}
{"id": "C42", "title": "NTLMv2 uses the server's timestamp and echoes its target info", "statement": "The NTLMv2 blob contains the first timestamp of the challenge's target info, or the current time if there is none, and the target info of the challenge unchanged and in order.", "quantifier": "every challenge and clock value", "why_tests_cant": "Unbounded lists, position of the timestamp.", "anchors": ["src/client.rs:send_authenticate_ntlmv2"]}
{"id": "C43", "title": "Returned messages never contain stale bytes", "statement": "The bytes returned by send_negociate and send_authenticate are exactly the encoding of the new message, whatever earlier calls (including aborted ones) left in the client's buffer.", "quantifier": "every history and every buffer content", "why_tests_cant": "All histories.", "anchors": ["src/client.rs:send_negociate (buffer.clear)", "src/client.rs:send_authenticate (buffer.clear)"]}
{"id": "C44", "title": "Credentials are fixed at construction", "statement": "No sequence of API calls changes the user, domain, workstation, hashes or target of a client.", "quantifier": "every finite sequence of API calls", "why_tests_cant": "All histories.", "anchors": ["src/client.rs:Client"]}
{"id": "C45", "title": "Different client nonces give different authenticate messages", "statement": "For the same NTLMv2 (or NTLMv1 with extended session security) client and challenge, two authenticate messages computed with different client challenges differ in the bytes sent.", "quantifier": "every pair of nonces", "why_tests_cant": "2^64 nonces.", "anchors": ["src/client.rs:send_authenticate"]}
{"id": "C46", "title": "A hostile server cannot crash the client through the challenge contents", "statement": "For any challenge that was successfully decoded, send_authenticate with short names returns a message.", "quantifier": "every decodable challenge", "why_tests_cant": "Needs near-64KiB target infos. (The code violates it: an NTLMv2 client aborts exactly when the target info exceeds 65507 bytes.)", "anchors": ["src/client.rs:send_authenticate_ntlmv2", "src/messages/field.rs:Field::append"]}
{"id": "C47", "title": "Decoding depends only on the header and the referenced ranges", "statement": "Two inputs of equal length that agree on the header region and on every range a descriptor refers to decode to the same result; bytes elsewhere are ignored.", "quantifier": "every pair of byte strings", "why_tests_cant": "Relational property over pairs of inputs.", "anchors": ["src/messages/field.rs:Field::get_data_if", "src/messages/field.rs:Field::get_many_if", "src/messages/negotiate.rs:deserialize", "src/messages/challenge.rs:deserialize", "src/messages/authenticate.rs:deserialize"]}
{"id": "C48", "title": "Re-encoding a received challenge is faithful", "statement": "Re-encoding a decoded CHALLENGE (as the MIC computation does) gives back the bytes received; or at least bytes that decode to the same challenge.", "quantifier": "every decodable byte string", "why_tests_cant": "All inputs. (The byte-level claim is false; the second is characterised.)", "anchors": ["src/messages/challenge.rs", "src/messages/authenticate.rs:compute_mic"]}
{"id": "C49", "title": "The Windows client reports failures of the security package", "statement": "WinClient reports an error whenever InitializeSecurityContext or CompleteAuthToken fails, reports completion exactly when no further round is needed, and returns the token of the latest call.", "quantifier": "every sequence of security-package results", "why_tests_cant": "Depends on every return code of an external API. (The code violates the first part: failing status codes are reported as success.)", "anchors": ["src/win.rs:initialize_security_context", "src/win.rs:negotiate", "src/win.rs:challenge"]}
{"id": "C50", "title": "Timestamps on the wire are Windows FILETIME values", "statement": "A file time built from the system clock is the number of 100-nanosecond intervals since 1601-01-01, as the protocol requires.", "quantifier": "every system time", "why_tests_cant": "Ranges over all clock values. (The code violates it: it stores microseconds since 1970; no time at or after 1970 gets the right value.)", "anchors": ["src/messages/structures/filetime.rs:FileTime::try_from", "src/messages/structures/filetime.rs:FileTime::now"]}
{"id": "C51", "title": "Decoded messages contain exactly what the wire positions say", "statement": "A byte string is accepted as NEGOTIATE, CHALLENGE or AUTHENTICATE exactly when its header, version block and descriptors are valid, and every component of the result is the value found at the protocol's byte position or in the range its descriptor names.", "quantifier": "every byte string and every message", "why_tests_cant": "An exact description of the accepted language and of the meaning of each accepted input.", "anchors": ["src/messages/negotiate.rs:deserialize", "src/messages/challenge.rs:deserialize", "src/messages/authenticate.rs:deserialize", "src/messages/field.rs"]}
{"id": "C52", "title": "Exactly which inputs abort the decoders", "statement": "Decoding panics exactly when the fixed header is valid and a descriptor that is looked at names a non-empty range outside the input, or, in a debug build, an AV pair's value is longer than its content; in every other case it returns.", "quantifier": "every byte string, both build profiles", "why_tests_cant": "An iff over all inputs; tests can only sample.", "anchors": ["src/messages/field.rs:Field::get_data_if", "src/messages/field.rs:Field::get_many_if", "src/messages/structures/avid.rs:deserialize"]}
{"id": "C53", "title": "The client holds the first authenticate message of an exchange", "statement": "The challenge, authenticate message and session key a client holds after any history of calls are those of the first answer it produced since its last negotiate message; a later answer in the same exchange is returned to the caller but not recorded.", "quantifier": "every history of calls, every pair of answers in the same exchange", "why_tests_cant": "A property of all histories; the two answers only differ when random numbers or challenges do. (A user would expect the latest message; that is refuted.)", "anchors": ["src/client.rs:Client::authenticate", "src/client.rs:set_authenticated_state"]}
{"id": "C54", "title": "Debugging output names exactly the flags set and dumps buffers faithfully", "statement": "The Debug output of a flag word consists of the names of the flags set, highest first, separated by vertical bars, so that different words print differently; the Debug output of a fixed-size buffer is its hexadecimal dump, which determines it.", "quantifier": "every 32-bit flag word, every buffer", "why_tests_cant": "2^32 flag words and arbitrary buffers; a misnamed or forgotten flag shows only for words that have it.", "anchors": ["src/messages/flags.rs:Debug for Flags", "src/messages/structures.rs:buffer_aliases"]}
{"id": "C55", "title": "Bytes after a message are ignored and cut messages are not misread", "statement": "If a byte string decodes as NEGOTIATE, CHALLENGE or AUTHENTICATE, then so does any extension of it, to the same message; hence a cut message, if it decodes at all, decodes to the same message as the whole one.", "quantifier": "every byte string, every extension and every cut", "why_tests_cant": "Relational property over all inputs and all suffixes.", "anchors": ["src/messages/negotiate.rs:deserialize", "src/messages/challenge.rs:deserialize", "src/messages/authenticate.rs:deserialize", "src/messages/field.rs"]}
{"id": "C56", "title": "Servers that know the password accept the responses", "statement": "A server that knows the NT hash and checks the NT response by MS-NLMP 3.3.1 accepts every NTLMv1 message; the LM response of level 0 is accepted by a server that knows the LM hash; a server that knows the NTLMv2 hash and checks the LM response accepts every NTLMv2 message.", "quantifier": "every login, history, challenge, client nonce and level; any primitives", "why_tests_cant": "Ranges over all credentials and challenges; agreement of two independent computations.", "anchors": ["src/client.rs:send_authenticate", "src/crypto/ntlmv1.rs:compute_response", "src/crypto/ntlmv2.rs:compute_response"]}
{"id": "C57", "title": "With extended session security and key exchange both sides hold the same session key", "statement": "After an NTLMv1 exchange whose challenge negotiates extended session security and key exchange, a server that knows only the NT hash, its challenge and the message arrives at exactly the session key the client exports.", "quantifier": "every login, history, challenge with these flags, randomness and level 0 to 2", "why_tests_cant": "Ranges over all credentials, challenges and random keys.", "anchors": ["src/client.rs:send_authenticate", "src/client.rs:set_authenticated_state", "src/crypto.rs:kxkey", "src/crypto.rs:encrypt_random_session_key"]}
{"id": "C58", "title": "Exactly which challenges a client answers", "statement": "send_authenticate returns a message for an accepted challenge if and only if the level is one of 0 to 5, the client's names fit their length fields and, for NTLMv2, the challenge carries a time or the clock is not before 1970, the challenge's own fields fit, and its target info takes at most 65507 bytes.", "quantifier": "every login, history, challenge, clock value and level", "why_tests_cant": "An iff over all challenges, clocks and names.", "anchors": ["src/client.rs:send_authenticate", "src/crypto/ntlmv2.rs:compute_response", "src/messages/structures/nt_challenge.rs"]}
{"id": "C59", "title": "Exactly which credentials and machines a client can be created for", "statement": "Creating a client succeeds if and only if the upper-cased password splits into two seven-byte halves at character boundaries (after cutting or padding it to 14 bytes) and the host name file, if consulted, is not empty. The LM hash it then holds is the LM one-way function of these two halves.", "quantifier": "every user, domain, password, target and environment", "why_tests_cant": "An iff over all texts, including those whose upper case has another length.", "anchors": ["src/client.rs:Client::new_with_domain", "src/crypto/lm.rs:lmowfv1", "src/client.rs:get_workstation_name"]}
{"id": "C60", "title": "Builder calls on received challenges, and what they give on the wire", "statement": "The builder calls applied to any challenge, fresh or received, put the added pairs in call order in front of the terminator (starting a terminated list if there was none), set TARGET_INFO when they start one, make REQUEST_TARGET follow the last target name, and change nothing else. The result, once encoded, is decoded to the very same challenge exactly when its target name is absent or plain text and every added pair can be transmitted.", "quantifier": "every starting challenge, every sequence of builder calls, every environment", "why_tests_cant": "Ranges over call sequences and received messages; the position of insertion depends on what is already there.", "anchors": ["src/messages/challenge.rs:add_target_info", "src/messages/challenge.rs:fill_from_env", "src/messages/challenge.rs:set_target_name"]}
{"id": "C61", "title": "Received NEGOTIATE and AUTHENTICATE messages can be encoded again", "statement": "Whatever bytes are accepted as a NEGOTIATE message, the message read can be encoded and decodes to itself. For AUTHENTICATE the same holds, except that a domain, user or workstation that was present but read as empty becomes absent; a second round changes nothing.", "quantifier": "every byte string accepted by a decoder", "why_tests_cant": "Ranges over all accepted inputs, including ones no encoder of the crate would write.", "anchors": ["src/messages/negotiate.rs:deserialize", "src/messages/negotiate.rs:serialize_into", "src/messages/authenticate.rs:deserialize", "src/messages/authenticate.rs:serialize_into"]}
{"id": "C62", "title": "A whole exchange over the network goes through", "statement": "Whatever the client did before, an exchange with a server that sends a well-formed challenge goes through: the server decodes the negotiate message, the client decodes the challenge unchanged, and send_authenticate returns a message. At levels 0 to 2 its NT response passes the server's check, without the VERSION flag the server reads the user and domain, and with extended session security and key exchange both sides hold the same session key. At levels 3 to 5 (target info of at most 65507 bytes, representable times) the server decodes the message, reads the user and domain, and the LM response passes its check.", "quantifier": "every login whose names fit, every earlier history of calls, every well-formed challenge, randomness and level", "why_tests_cant": "Composes all three messages, two parties and arbitrary earlier histories.", "anchors": ["src/client.rs:send_negociate", "src/client.rs:recv_challenge", "src/client.rs:send_authenticate", "src/messages/challenge.rs", "src/messages/authenticate.rs"]}
{"id": "C63", "title": "The negotiate message gives away nothing but the domain; the target is never used", "statement": "The result of send_negociate depends only on the protocol level and the domain: two clients with the same domain return the same bytes whatever their users, passwords, targets, machines and earlier calls. The target given at creation has no effect: with any other target the client can be created too, and every call in every history returns the same.", "quantifier": "every pair of logins with the same domain, every two histories; every target, history and call", "why_tests_cant": "A statement about pairs of runs (non-interference), over all histories.", "anchors": ["src/client.rs:send_negociate", "src/client.rs:Client::new_with_domain"]}
{"id": "C64", "title": "What a server can influence in the answer", "statement": "At levels 0 to 2 the answer depends on the challenge only through its flags and server challenge. At levels 3 to 5 the responses, names and flags in the answer depend on it only through the server challenge and target info, so no flags of the server's weaken the responses; the encrypted session key depends also on whether key exchange is negotiated, and only the MIC on the rest.", "quantifier": "every login, every two histories and challenges that agree on the named fields, all randomness", "why_tests_cant": "A statement about pairs of runs with different challenges.", "anchors": ["src/client.rs:send_authenticate_ntlmv1", "src/client.rs:send_authenticate_ntlmv2"]}
{"id": "C65", "title": "The password enters an answer only through its hash", "statement": "At levels 1 and 2, and at level 0 when the challenge asks for extended session security, two passwords of the same user, domain and machine with the same NT hash give the same answer; at levels 3 to 5 two passwords that give the same NTLMv2 hash do. (The hash is as good as the password.)", "quantifier": "every pair of logins with equal hashes, every history, challenge and randomness", "why_tests_cant": "A statement about pairs of runs; no test can produce colliding passwords.", "anchors": ["src/client.rs:send_authenticate_ntlmv1", "src/client.rs:send_authenticate_ntlmv2", "src/client.rs:compute_ntlm_hashes"]}
{"id": "C66", "title": "Protocol levels that are the same", "statement": "Levels 3, 4 and 5 are indistinguishable: every call in every history returns the same at each. Levels 1 and 2 answer every challenge with the same bytes.", "quantifier": "every client, history and call; every login, challenge and randomness", "why_tests_cant": "Equivalence of programs over all histories.", "anchors": ["src/client.rs:send_negociate", "src/client.rs:send_authenticate"]}
{"id": "C67", "title": "Which randomness goes into an answer", "statement": "At levels 0 to 2 an answer depends on the client nonce only with extended session security, on the random session key only with key exchange, and never on the clock. At levels 3 to 5 it depends on the nonce, on the random session key only with key exchange, and on the clock only if the challenge carries no time.", "quantifier": "every login, history, challenge and pair of random inputs that agree where stated", "why_tests_cant": "A statement about pairs of runs with different randomness.", "anchors": ["src/client.rs:send_authenticate_ntlmv1", "src/client.rs:send_authenticate_ntlmv2"]}
{"id": "C68", "title": "compute_mic on any message", "statement": "On an authenticate message with a session key, compute_mic succeeds exactly when the three messages can be encoded, and gives HMAC-MD5 under that key over the encoded negotiate, challenge and authenticate messages, the last with the 16 bytes of its MIC zeroed (at 64, or at 72 after a version block). So it does not depend on the MIC already there, and computing it again gives the same. Without a session key it leaves the message unchanged; if one of the messages cannot be encoded it aborts and leaves the message with a zero MIC and otherwise as it was.", "quantifier": "every three messages, with or without version block, MIC and session key", "why_tests_cant": "The offset of the MIC depends on the message; holds for all messages.", "anchors": ["src/messages/authenticate.rs:compute_mic"]}
{"id": "C69", "title": "Messages into any writer", "statement": "Encoding a message into a writer that may take part of what it is offered, be interrupted, fail or stop answering at any call: success is reported with the length of the encoding and only when all of it has arrived; an error is reported only if the writer failed or took nothing, and then what has arrived is the encoding with its end missing; a writer that keeps taking bytes gets everything. A message that does not fit never succeeds, and only bytes of its fixed header go out.", "quantifier": "every message, every sequence of answers of the writer (every crash point), every content the writer already had", "why_tests_cant": "Every interleaving of short writes, interruptions and failures, over all messages.", "anchors": ["src/messages/negotiate.rs:serialize_into", "src/messages/challenge.rs:serialize_into", "src/messages/authenticate.rs:serialize_into", "src/messages/field.rs:append", "src/messages/utils.rs:write_u32"]}
{"id": "C70", "title": "Attribute pairs into any writer", "statement": "Encoding a list of attribute pairs, or an NTLMv2 response, directly into such a writer reports success only when all bytes have arrived. (Refuted: a text is handed to `write` once, so a short write loses the rest and success is reported. True without texts, and for writers that never take less than they are offered.)", "quantifier": "every list of pairs and response, every sequence of answers of the writer", "why_tests_cant": "Needs a writer with short writes; holds or fails for all pairs and answers.", "anchors": ["src/messages/structures/avid.rs:encode_string", "src/messages/structures/avid.rs:AvPair", "src/messages/structures/nt_challenge.rs:serialize_into"]}
{"id": "C71", "title": "What decoding logs", "statement": "Logging does not change results. For an accepted message the log consists of one line per reserved flag that is set and per senseless flag combination, then for each field in order a line if it is empty or if bytes of it were not used, with their number. Messages the library encoded itself and can read back give only lines about flags and absent fields. Whatever the input, no line carries any part of the message. compute_mic warns exactly when there is no session key.", "quantifier": "every input, accepted or not, and every encodable message", "why_tests_cant": "Log contents over all inputs; confidentiality of the log is a statement about every run.", "anchors": ["src/messages/flags.rs:validate", "src/messages/field.rs:get_data_if", "src/messages/field.rs:get_many_if", "src/messages/negotiate.rs:deserialize", "src/messages/challenge.rs:deserialize", "src/messages/authenticate.rs:deserialize", "src/messages/authenticate.rs:compute_mic"]}
{"id": "C72", "title": "The log tells the truth about flags", "statement": "The line \"Flag for X is set but field is empty\" is logged only if the flag for X is set. (Refuted: it is logged whenever the field is empty, whatever the flags; only for the session key does it tell the truth.)", "quantifier": "every accepted message", "why_tests_cant": "Ranges over all flag words and fields.", "anchors": ["src/messages/field.rs:get_data_if", "src/messages/negotiate.rs:deserialize", "src/messages/challenge.rs:deserialize", "src/messages/authenticate.rs:deserialize"]}
{"id": "C73", "title": "Word size", "statement": "On a machine whose pointers have at least 32 bits, compiled with or without overflow checks, every field of a message is located and decoded as on a 64-bit machine: a field that ends inside the input gives exactly its bytes, any other aborts, even if its end overflows.", "quantifier": "every field descriptor, every input that fits the address space, every word size from 32 bits, both overflow modes", "why_tests_cant": "Tests run on one machine; the overflow case needs a 32-bit one and holds for all descriptors.", "anchors": ["src/messages/field.rs:get_range", "src/messages/field.rs:get_data_if", "src/messages/field.rs:get_many_if"]}
{"id": "C74", "title": "Byte order", "statement": "Attribute pairs and NT hashes are the same on every machine: texts are UTF-16 with the low byte first. (Refuted: on a big-endian machine the bytes of each unit are swapped, so a name is read as another name and a password hashes as another password. True on little-endian machines; exact condition for the others.)", "quantifier": "every list of pairs, every user, domain and password, both byte orders", "why_tests_cant": "Tests run on one machine; a statement about all texts on all machines.", "anchors": ["src/messages/structures/avid.rs:encode_string", "src/crypto/nt.rs:ntowfv1", "src/crypto/nt.rs:ntowfv2"]}
{"id": "C75", "title": "An encoding says only one thing, and the MIC covers all of it", "statement": "Two encodable negotiate messages, or two challenge messages, with the same encoding are equal; two authenticate messages have the same encoding exactly when they agree in everything that is sent (all but the exported session key and which kind of LM response the 24 bytes are). The bytes a MIC is computed over determine all three messages: no change of any of them, and no shift of bytes from one into the next, leaves the MIC input unchanged; so equal MICs under one key for different messages are a collision of HMAC-MD5 on two given strings.", "quantifier": "every pair of encodable messages, every pair of triples of messages, every session key", "why_tests_cant": "Quantifies over pairs of messages; a collision of encodings cannot be searched for.", "anchors": ["src/messages/negotiate.rs:serialize_into", "src/messages/challenge.rs:serialize_into", "src/messages/authenticate.rs:serialize_into", "src/messages/authenticate.rs:compute_mic", "src/messages/structures/avid.rs:AvPair"]}
{"id": "C76", "title": "What the NTLMv2 proof covers", "statement": "The string hashed for the NTLMv2 proof determines the server challenge, the time, the client challenge and the list of attribute pairs: two responses under one key with the same proof to different challenges or with different contents are a collision of HMAC-MD5 on two given strings.", "quantifier": "every pair of server challenges, client challenges, times and lists of pairs that fit", "why_tests_cant": "Quantifies over pairs of inputs.", "anchors": ["src/crypto/ntlmv2.rs:compute_response", "src/messages/structures/nt_challenge.rs:serialize_into"]}
{"id": "C77", "title": "How large messages get", "statement": "What is sent is between 32 and 131110 bytes (negotiate), 48 and 131126 (challenge), 80 and 262268 (authenticate), whatever the server sent before. What a received message holds is bounded by the lengths its descriptors declare, 65535 each: encoded again, a negotiate message has exactly its header and version plus the two declared lengths, the others at most that; a target name has at most half as many characters and a target-info list at most a quarter as many pairs as bytes were declared. (Fields may overlap, so this can exceed the length of the input.)", "quantifier": "every encodable message, every history of client calls, every accepted input", "why_tests_cant": "Bounds over all inputs and histories.", "anchors": ["src/messages/field.rs:append", "src/messages/field.rs:get_data_if", "src/messages/field.rs:get_many_if", "src/client.rs:send_negociate", "src/client.rs:send_authenticate"]}
{"id": "C78", "title": "The error type has no influence", "statement": "Decoding is generic in the error type. Whatever type the caller chooses, the outcome (value and rest, error, request for more input, abort) is the same; error positions always are ranges of the caller's buffer, and a verbose report always starts with the parser error that caused it. The error value itself is what the same calls to the error type give, and nom's default error is the first entry of the verbose report.", "quantifier": "every input and every implementation of the error trait", "why_tests_cant": "Quantifies over all inputs and all error types.", "anchors": ["src/messages.rs:NomError", "src/messages/negotiate.rs:deserialize", "src/messages/challenge.rs:deserialize", "src/messages/authenticate.rs:deserialize", "src/messages/structures/signature.rs:deserialize"]}
{"id": "C79", "title": "What a rejection reports", "statement": "For every rejected message the verbose report is exactly the one of the first check that fails, in a fixed order: signature, type, each part of the fixed header, version block, then payload fields. In particular a wrong type is reported at byte 8 with nothing else looked at; LM responses, texts and attribute pairs are never the subject of a report, and a short NT response is always reported as a short NTLMv1 response.", "quantifier": "every input and build configuration", "why_tests_cant": "Each input has its own report; a table of all of them is a statement about all inputs.", "anchors": ["src/messages/negotiate.rs:deserialize", "src/messages/challenge.rs:deserialize", "src/messages/authenticate.rs:deserialize", "src/messages/field.rs:get_data_if", "src/messages/field.rs:get_many_if"]}
{"id": "C80", "title": "The debugging text of a message determines it, secrets included", "statement": "Formatting with {:?} or {:#?}: two messages (negotiate, challenge, authenticate, message signature) or parts of messages (attribute pairs and lists of them, responses, versions, times, names) with the same text are equal, so no two different messages look the same in a log, whatever names the peer chose. Nothing is redacted: the text of an authenticate message ends with the hexadecimal dump of the exported session key when there is one.", "quantifier": "every pair of values of each public message type, both layouts, every table of printable characters", "why_tests_cant": "Quantifies over pairs of messages with texts chosen by a peer; a collision cannot be searched for.", "anchors": ["src/messages/negotiate.rs:Negotiate", "src/messages/challenge.rs:Challenge", "src/messages/authenticate.rs:Authenticate", "src/messages/structures/avid.rs:AvPair", "src/messages/structures.rs:Debug", "src/messages/flags.rs:Debug"]}
{"id": "C81", "title": "Debugging texts contain no unprintable characters", "statement": "The {:?} text of a message is one line of printable characters whatever the message contains; with {:#?} the only unprintable character is the line break, and it never comes from a name. A peer cannot forge log lines or send terminal control sequences through names and attribute pairs.", "quantifier": "every value of each public message type, every table of printable characters", "why_tests_cant": "Quantifies over all texts a peer can send.", "anchors": ["src/messages/negotiate.rs:Negotiate", "src/messages/challenge.rs:Challenge", "src/messages/authenticate.rs:Authenticate", "src/messages/structures/avid.rs:AvPair", "src/messages/structures/unicode_string.rs:UnicodeString"]}
{"id": "C82", "title": "What a client prints", "statement": "Apart from panic messages (C88), a client call writes nothing to standard error except, for each negotiate message it returns, two lines with the length of that message, and logs nothing. Over any history the output is a function of the lengths of the negotiate messages, and it is the same for two clients that agree in domain and version block, whatever user, password hashes, challenges, random values and primitives: no secret is printed. Printing changes no result.", "quantifier": "every history of calls of every client", "why_tests_cant": "A statement about all histories and pairs of clients.", "anchors": ["src/client.rs:send_negociate", "src/client.rs:send_authenticate", "src/client.rs:recv_challenge", "src/messages/authenticate.rs:compute_mic"]}
{"id": "C83", "title": "The unsafe byte views are sound", "statement": "Viewing the UTF-16 units of a text as bytes (password, user and domain, texts of attribute pairs) is never undefined behaviour and never aborts, wherever the vector is in memory and whatever the machine: the view is exactly the bytes of the vector, all of them and none beyond it, the length computation does not overflow, and on little-endian machines the bytes are the UTF-16LE text.", "quantifier": "every text, every memory and place of the vector Rust allows, every word size and byte order, with or without overflow checks", "why_tests_cant": "Undefined behaviour depends on the contents and layout of memory; a test runs in one memory and may not notice.", "anchors": ["src/crypto/nt.rs:ntowfv1", "src/crypto/nt.rs:ntowfv2", "src/messages/structures/avid.rs:encode_string"]}
{"id": "C84", "title": "Level types that change their answer", "statement": "The level is the answer of a function the user writes, asked once per send_negociate and once or twice per send_authenticate. Whatever it answers each time, a call does exactly what it does at one fixed level: the one answered, except that an NTLMv1 answer is made at level 0 if the second answer is 0 and at level 1 otherwise. After any history send_authenticate returns what it returns directly after the latest negotiation at a level 0 to 5 and the first challenge received after it, and aborts without effect if there is none; the LM hash is used only in calls in which 0 to 2 and then 0 were answered; no call changes the credentials. If the function panics in a call, the call sends nothing and leaves the client as it was, so later calls do what they do without it. The second question is asked only once a challenge has been accepted; without one the call aborts as for any answer.", "quantifier": "every sequence of answers and every history of calls", "why_tests_cant": "Quantifies over all histories and all answers given during them.", "anchors": ["src/lib.rs:NtlmVersion", "src/client.rs:send_negociate", "src/client.rs:send_authenticate", "src/client.rs:send_authenticate_ntlmv1"]}
{"id": "C85", "title": "An answer fits the challenge it was made for", "statement": "A server that knows the hashes accepts an NTLMv1 message without extended session security for the challenge it answers and for no other: under one key DES encrypts no two blocks to the same. The LM response of level 0 likewise. With extended session security the message is accepted for exactly the challenges that, followed by the client's nonce, have the same first eight bytes of MD5; the LM response of an NTLMv2 message for exactly those with the same HMAC-MD5.", "quantifier": "every client, history, challenge answered and challenge it is replayed to", "why_tests_cant": "Quantifies over all pairs of challenges (2^128) and all passwords.", "anchors": ["src/crypto.rs:desl", "src/crypto/des.rs:des_encrypt", "src/crypto/ntlmv1.rs:compute_response", "src/crypto/ntlmv2.rs:compute_response", "src/client.rs:send_authenticate"]}
{"id": "C86", "title": "What a program that uses the crate can build", "statement": "A program that uses the crate (it has the constructors, builder methods and public fields, but no decoder: the wire trait is private) can get hold of exactly the challenges whose target infos are empty or pairs followed by one terminator, with any name, flags, challenge and version; of a decoded challenge the same holds exactly if its list does not go on behind a terminator and is not a lone terminator, and there are such that cannot be built. Every negotiate and authenticate message can be built. A challenge that is built arrives unchanged exactly when its version agrees with the flag, its name is plain and its pairs survive.", "quantifier": "every sequence of calls and field assignments, every challenge, every received byte string", "why_tests_cant": "Quantifies over all programs (sequences of calls) and all values.", "anchors": ["src/messages/challenge.rs:Challenge", "src/messages/challenge.rs:add_target_info", "src/messages/negotiate.rs:Negotiate", "src/messages/authenticate.rs:Authenticate", "src/messages.rs:Wire"]}
{"id": "C87", "title": "What an NTLMv1 answer gives away", "statement": "For a given challenge and nonce each third of the NT response depends on one part of the NT hash only (bytes 0 to 6, 7 to 13, 14 and 15), so the last third is one of 65536 blocks whatever the password and user. Without extended session security, the first third of the LM response of level 0 depends only on the first seven characters of the password, the last third only on the eighth to fourteenth, none of it on their case or on what follows; for all passwords of at most seven characters the last third is one block.", "quantifier": "every pair of users, passwords, histories and levels, for every challenge and nonce", "why_tests_cant": "Compares the answers for all pairs of passwords; the bound on the last third is over all passwords.", "anchors": ["src/crypto.rs:desl", "src/crypto/lm.rs:lmowfv1", "src/crypto/ntlmv1.rs:compute_response", "src/client.rs:send_authenticate_ntlmv1"]}
{"id": "C88", "title": "A crash message does not contain the password", "statement": "Creating a client either returns or panics; the message it panics with, which goes to standard error, does not contain the password or a part of it, and the message with which a call of a client panics, after any calls, does not depend on the login at all. (The first half is false: if byte 14 of the password is inside a character the message quotes up to 256 bytes of the password, and if byte 7 of its upper-case form is, that form.)", "quantifier": "every login, environment, upper-casing table, level, history of calls and call", "why_tests_cant": "Ranges over all passwords; the ones used in tests are ASCII, for which no message mentions the password.", "anchors": ["src/crypto/lm.rs:prepare_password", "src/crypto/lm.rs:lmowfv1", "src/crypto/des.rs:des_56bits_to_64bits", "src/client.rs:new_with_domain", "src/client.rs:send_authenticate", "src/client.rs:get_workstation_name"]}
{"id": "C89", "title": "The answer claims only what was offered", "statement": "Every flag set in an authenticate message was set in the negotiate message of the same client: the client does not claim features it did not offer, and offering extended session security protects it from answers to a challenge chosen by the server alone. (False below level 3: at levels 0 and 1 every answer claims target information, at level 1 also key exchange, which were not offered; at level 2 it holds exactly if the server sets only offered flags; at levels 1 and 2 the server switches extended session security off by leaving its flag out, and the NT response is then the encryption of the server's challenge alone. At levels 3 to 5 the first half holds whatever the server sends.)", "quantifier": "every login, level, history of calls, challenge and random values", "why_tests_cant": "The server chooses the flags; a test fixes one challenge.", "anchors": ["src/client.rs:send_negociate", "src/client.rs:send_authenticate", "src/client.rs:send_authenticate_ntlmv1", "src/client.rs:send_authenticate_ntlmv2"]}
{"id": "C90", "title": "What a time stamp in the challenge asks of the client", "statement": "An NTLMv2 answer to a challenge with a time stamp announces its MIC in the attribute pairs (servers check it only then), names the service the client was created for, carries channel bindings, and leaves out the LM response, as MS-NLMP 3.1.5.1.2 asks. (False: the pairs in the answer are those of the challenge, no more and no less, so none of this happens unless the server's own list says so, and the LM response is 24 zero bytes only if nonce and HMAC happen to be zero.)", "quantifier": "every NTLMv2 client, history, challenge and random values", "why_tests_cant": "Quantifies over all challenges and histories; that no pair is added is a statement about every answer.", "anchors": ["src/client.rs:send_authenticate_ntlmv2", "src/crypto/ntlmv2.rs:compute_response", "src/messages/structures/avid.rs:AvPair"]}
{"id": "C91", "title": "A machine that fails the client", "statement": "The random number source of the system and standard error can fail, and then calls panic. If the source fails in send_authenticate, nothing is sent and the client is what it was, so no message is ever made with a value that was not drawn; after any history a client is what it is after the calls in which the source did not fail. The source is what a call fails of exactly if the client challenge cannot be drawn (it is drawn first, in any state), or a challenge that asks for a session key (KEY_EXCH and SIGN or SEAL) is answered, everything before is in order, and the key cannot be drawn. If the two lines of send_negociate cannot be printed, the call returns no message but counts: the client is in every respect the one that has sent it, and answers the next challenge. All other results are those of a working machine.", "quantifier": "every history of calls of every client, every draw and every line of it succeeding or failing", "why_tests_cant": "Faults of the operating system at any point of any history; tests run on a machine that works.", "anchors": ["src/messages/structures.rs:random", "src/crypto.rs:encrypt_random_session_key", "src/client.rs:send_negociate", "src/client.rs:send_authenticate"]}
{"id": "C92", "title": "Several clients at once", "statement": "Clients used by different threads do not influence one another: however their calls overlap, every call returns what it would return to a client that has the machine for itself, after the calls of the same client that have ended before and with the random values it has drawn, and a client between calls is what its own calls have made of it. No byte of the system's random number source is given to two draws; send_authenticate draws a client challenge (8 bytes) and, exactly for an answer that carries one, a session key (16), and the other calls draw nothing. Two NTLMv2 answers are the same only if the source repeats itself. No client keeps another one waiting: a call has ended once its own thread has had two turns.", "quantifier": "every number of clients, their logins and levels, every schedule of their calls and draws, and every source", "why_tests_cant": "Ranges over all interleavings of any number of threads.", "anchors": ["src/messages/structures.rs:random", "src/crypto.rs:encrypt_random_session_key", "src/client.rs:send_negociate", "src/client.rs:recv_challenge", "src/client.rs:send_authenticate"]}
{"id": "C93", "title": "A Windows client that is used again", "statement": "Every negotiate() on a Windows client starts a new exchange: it asks the security package for a new security context, and the challenge() after it goes on with that one. (Refuted: only the first call of a client, be it negotiate or challenge, asks for a new context. Every later call passes on the handle stored by the call before, also after an exchange that finished, failed or was refused, so a client is good for one exchange. What a call passes on and returns depends on the calls before it through that handle only.)", "quantifier": "every target, buffer capacity, history of calls and answers of the operating system that keep its promises", "why_tests_cant": "Quantifies over all histories of calls and all answers of the operating system; the repository's test makes one exchange, and only on Windows.", "anchors": ["src/win.rs:initialize_security_context", "src/win.rs:negotiate", "src/win.rs:challenge"]}
{"id": "C94", "title": "What is printed when decoding aborts", "statement": "When decoding a message aborts, the message of the panic names a range of the input or a number of bytes and quotes nothing of the content. The range is that of the first descriptor, in the order in which the fields are read, that reaches beyond the input (its stop and the length of the input; with a newer standard library its start, if that is outside already). In debug builds it may instead be the number of bytes left over in the first AV pair whose value is longer than its content. A message signature never aborts.", "quantifier": "every byte string, build, platform and error type chosen by the caller", "why_tests_cant": "Ranges over all byte strings and all error types; tests see the text of single messages.", "anchors": ["src/messages/field.rs:get_data_if", "src/messages/field.rs:get_many_if", "src/messages/field.rs:get_range", "src/messages/structures/avid.rs:AvPair::deserialize", "src/messages/negotiate.rs:deserialize", "src/messages/challenge.rs:deserialize", "src/messages/authenticate.rs:deserialize"]}
{"id": "C95", "title": "Decoding takes time linear in the message, and bounded however long it is", "statement": "The number of steps needed to decode a NEGOTIATE, CHALLENGE or AUTHENTICATE message, whether it is accepted, refused or aborts, is at most a constant plus a constant for each byte given, and at most a fixed number however many bytes are given: a descriptor covers at most 65535 bytes, and no descriptor is followed more than once. No choice of bytes makes a decoder go over the same bytes again and again, and the decoders never loop. The parts of a message are decoded in a number of steps linear in the bytes given as well.", "quantifier": "every byte string, of any length, every build and platform", "why_tests_cant": "Ranges over all byte strings of all lengths; tests time single messages, and a hostile peer picks the worst one.", "anchors": ["src/messages/negotiate.rs:deserialize", "src/messages/challenge.rs:deserialize", "src/messages/authenticate.rs:deserialize", "src/messages/field.rs:get_data_if", "src/messages/field.rs:get_many_if", "src/messages/unicode_string.rs:deserialize", "src/messages/structures/avid.rs:AvPair::deserialize", "src/messages/structures/nt_challenge.rs:deserialize"]}
{"id": "C96", "title": "Messages into a writer with code of its own", "statement": "Encoding a message into a writer that implements `write_all` itself, and that may do anything in it (fail with any error, panic, never return, keep something else than it was given): the writer is called with the encoding cut into fixed pieces (signature, message type, each number of each descriptor, flags, .., and last the whole payload), in order, only through `write_all`, and never again after a call that did not succeed. The result is success with the length of the encoding if every call succeeded, and otherwise exactly what the last call gave. What the writer is given does not depend on what it answered. A message that does not fit never succeeds, and at most its header is given out. An attribute pair with a text, written directly, reports whatever number `write` returned.", "quantifier": "every message, every writer (its states, its errors and both its methods are arbitrary)", "why_tests_cant": "Ranges over all writers, whatever their code; a test brings a writer of its own.", "anchors": ["src/messages/negotiate.rs:serialize_into", "src/messages/challenge.rs:serialize_into", "src/messages/authenticate.rs:serialize_into", "src/messages/field.rs:append", "src/messages/field.rs:append_many", "src/messages/utils.rs:write_integer", "src/messages/structures/avid.rs:encode_string"]}
{"id": "C97", "title": "Which cryptographic operations run does not depend on secrets", "statement": "Creating a client takes two DES blocks, MD4 over the UTF-16 password and one HMAC-MD5 over the upper-case user and the domain, in this order; an aborted creation a beginning of that. `send_authenticate` takes at most nine operations, whose kinds, order and input lengths are given exactly by the protocol level, the challenge's flags and target infos and the lengths of the messages; `send_negociate` and `recv_challenge` take none. In particular two clients with the same user and domain but other passwords (of the same length for the creation), other random values, another server challenge and even other primitives perform the same operations on inputs of the same lengths, in every history of calls and whatever its outcome.", "quantifier": "every login, all passwords, every history of calls, all random values, all server challenges, all protocol levels, all primitives", "why_tests_cant": "Compares two runs for all secrets; a test sees one run, and does not see the operations.", "anchors": ["src/crypto.rs: md4, md5, hmac_md5, desl, kxkey, encrypt_random_session_key", "src/crypto/des.rs: des7_encrypt", "src/crypto/lm.rs: lmowfv1", "src/crypto/nt.rs: ntowfv1, ntowfv2", "src/crypto/ntlmv1.rs: compute_response", "src/crypto/ntlmv2.rs: compute_response", "src/messages/authenticate.rs: Authenticate::compute_mic", "src/client.rs: NtlmClient"]}
{"id": "C98", "title": "Messages into a buffer of fixed size", "statement": "Encoding a message that can be encoded into a slice of bytes (`&mut [u8]` as the writer): success is reported, with the length of the encoding, if and only if the slice is at least that long; then the slice begins with the encoding and the rest of it is unchanged. If it is shorter an error is reported and the slice holds the beginning of the encoding. A message that cannot be encoded never succeeds, however long the slice, and changes at most the bytes of its fixed header. A list of attribute pairs, or an NTLMv2 response, written directly: success is reported exactly if everything but a part of the text of the very last pair has found room, with the number of bytes that did; so a list with its terminator succeeds only if all of it has.", "quantifier": "every message, list of pairs and response, every length and content of the slice", "why_tests_cant": "a test tries a few sizes; the boundary lies at a different place for every message, and the one piece that goes through `write` instead of `write_all` matters only if the buffer ends inside a text", "anchors": ["src/messages/negotiate.rs: Wire::serialize_into", "src/messages/challenge.rs: Wire::serialize_into", "src/messages/authenticate.rs: Wire::serialize_into", "src/messages/structures/avid.rs: encode_string", "src/messages/structures/nt_challenge.rs: Wire::serialize_into"]}
