# Formal model of Seamooo/quic-sea in Lean 4

## 1. Layout

| path | role |
|---|---|
| `lean/Verif/Model/*.lean` | the model, one file per Rust source file; each definition cites file and lines |
| `lean/Verif/Spec/*.lean` | small independent specifications (RFC wire formats, big-endian value, RFC packet-number decoder, abstract delivery log), which do not call model functions |
| `lean/Verif/Proofs/*.lean` | helper lemmas |
| `lean/Verif/Props/*.lean` | the property theorems (named `C01_…`, `C02_…`), with non-vacuity examples beside them; `Props/Instances.lean` applies further theorems to concrete arguments; `Props/Every.lean` refutes the false claims for every instance of the algorithms |
| `MANIFEST.json` | property -> theorem names and status |
| `AXIOMS.md` | axioms of every claimed theorem, as printed by Lean |
| `seeded/LOG.jsonl` | mutation experiments |

Model files: `Basic` (results, panics, streams), `Utils` (utils.rs, quictls/utils.rs), `Frame`, `Crypto` (version.rs, quictls/*),
`Connection`, `Packet`, `TransportParameters`, `Routing` (routing.rs, interface.rs, error.rs codes), and four files that add only a
notion of execution: `ConnHistory` (sequences of calls on one connection), `ConnLife` (the same with datagrams decoded in between), `SockHistory` (sequences of socket calls by one caller),
`Concurrent` (interleavings of any number of threads at the granularity of lock operations). `Env` is the readers once more, with the width of a pointer and
the standard outputs as parameters; `Work` and `WorkOut` are the readers and the writers once more, counting their steps; `Output` and `Random` are the
interleaved executions once more, with outputs that cannot be written and with a random source that may fail, `Anywhere` with panics at any point.

## 2. How Rust is rendered

* `u8..u128` are `BitVec 8..BitVec 128`; bit operations are `BitVec` operations, so wrap-around and shifted-out bits behave as in Rust.
  `usize` is `Nat` (64-bit platform, other widths in `Model/Env.lean`; the only places where a `usize` computation can leave range are modelled explicitly, see below).
* `Result` and panics: `Out α = ok | err Error | panic String`. Every `unwrap`, `todo!`, `unreachable!`, `assert!`, slice-out-of-range
  and checked arithmetic that can fail is an explicit `panic`. Error messages are kept.
* `Iterator<Item = Result<u8>>` is `Stream = List (Except Error U8)`: finite, fused, may yield errors at any position.
  A reader taking `&mut T` is `Rd α = Stream → Out α × Stream`: the stream is returned also on error and panic.
* Build profile: `Profile.debug` (overflow checks) or `Profile.release` (wrapping). Theorems quantify over it.
* Loops are structural recursions. The two data-driven loops (`deserialize_frames`, `decode_packets`) use fuel equal to the stream
  length plus one, and a theorem shows the fuel never runs out and the loop equation of the source holds (this is their termination proof).
* Cryptographic primitives (HMAC/HKDF-SHA256, AES-128-ECB, AES-128-GCM) are a record `Prims` of arbitrary functions; the laws a theorem
  needs (`PrimLaws`) are explicit hypotheses and a concrete instance is shown to satisfy them.
  A false claim about packets is `CxxFor P` for given algorithms, `CxxStatement` for all that obey the laws. `Cxx_false` refutes it with computed packets
  (instance `toy`), `Cxx_false_any` for every lawful instance, so also for the algorithms the crate uses (`false_real`). C117 is refuted
  for `toy` and for `real` (`C117_false_real`) and cannot be for every instance: it holds when the mask does not depend on the keys (`C117_same_mask`).
* Where a theorem speaks of forgeries (C97, C104, C117) the nonce and the associated data are those which RFC 9001 derives from the bytes received: a claim
  "opens under some nonce and associated data" would be true of nearly all bytes, as AES-GCM has a valid tag for each ciphertext.
* `HashMap<U160, InternalQuicStream>` is a function `U160 → Option`; `mpsc` channel is a FIFO list; randomness is an
  arbitrary input sequence; received datagrams are an arbitrary input sequence; `RwLock`/`Mutex` critical sections are atomic steps of a
  thread-interleaving semantics, and separately a lock-level semantics is used for deadlock and poisoning.

## 3. Plan per property

| id | what is modelled | how it is proved |
|---|---|---|
| C01 | `encode_var_int`, `var_int_from_stream` | proved for every number below 2^62 and every continuation of the stream, from C03 and C04 through `Spec.IsVarInt` |
| C02 | `encode_var_int` | proved: ok below 2^62, an error from there on, never a panic; case distinction over the four ranges |
| C03 | `encode_var_int` | proved against `Spec.IsVarInt` (prefix k, 2^k bytes, big-endian); minimal by comparison with every valid encoding of the number |
| C04 | `var_int_from_stream`, `var_int_with_bytes_from_stream` | proved on every stream: a number and its bytes exactly if the stream begins with a valid encoding; induction over the loop against `Spec.beNat` |
| C05 | `decode_var_int` | false for 4/8-byte forms: witness + universal theorem; `_partial` for 1/2-byte forms; `C05_exact`: the slices on which the two decoders agree |
| C06 | `DecodeFromBytes`, `FromDatagram` of all widths | proved by induction on the bytes against `Spec.beNat`; streams and slices, and back from `to_be_bytes` |
| C07 | `U160::to_bytes`, `to_var_bytes`, `var_u160_from_stream` | proved for all lengths 0..20 with the value `idx0·2^128+idx1`; induction on the loops |
| C08 | `U160::to_var_bytes` | proved: a panic exactly for lengths above 20 |
| C09 | `var_bytes_from_stream`, `all_bytes_from_stream` | proved on every stream, also streams that give errors, by induction; the cases are shown to be exhaustive |
| C10 | `serialize_frames`, `deserialize_frames` | proved by induction over the list from one completeness theorem per frame; `C10_exact`: no other list of well-formed frames comes back |
| C11 | STREAM | false: universal counter-theorem; `_partial` for the length-less, offset-0 last frame; `C11_exact`: the lists of frames given back |
| C12 | CRYPTO | false for offset ≠ 0: universal counter-theorem; `_partial` for offset 0; `C12_exact` is both |
| C13 | `deserialize_frames` and all frame readers | proved: "never panics" as a predicate on readers closed under sequencing; the loop without fuel is `C13_loop` |
| C14 | `deserialize_frames` | proved: on success the payload is cut into one non-empty piece per frame; soundness theorem of C17 and induction |
| C15 | type dispatch | false (type masked to 8 bits): universal aliasing theorem; `_partial` for types above 0x1e modulo 256; `C15_exact`: these and no others are rejected |
| C16 | all frame encoders | proved against the grammar `Spec.FrameWire`, written from RFC 9000 section 19 without use of the encoders; one case per frame, lists by induction |
| C17 | all frame decoders | false for STREAM, CRYPTO at an offset, types of 256 and more (`C17_false`); both directions proved for the rest (`_partial`); `C17_parser_exact`: the language the parser accepts (`CodeFrames`), on every input |
| C18 | all frame encoders | proved: the exact condition on the fields under which serialization is an error, and under which it panics |
| C19 | all frame decoders | false only for the data length of CRYPTO at an offset; `_partial` for the rest; `C19_exact`: which ill-formed frames come out |
| C20 | `serialize_frames` | proved: composition by induction, injectivity from the unambiguity of the grammar (`C20_grammar_unambiguous`) |
| C21 | `FrameNewConnectionId::from_datagram` | proved: exact condition for acceptance (length 1..20 and all bytes there), and the rejections |
| C22 | `add_protection`, `remove_protection` of both headers, `xor_pn_protection` | proved bit by bit for all header bytes and masks, and for packet numbers of any length |
| C23 | `LongPacketHeader`, `ShortPacketHeader`: `to_bytes`, `from_stream` | proved: write then parse, parse then write, for every well-formed header |
| C24 | `LongPacketHeader::from_stream`, `next_header_from_stream` | proved on every stream: lengths above 20 are an error unless the version is 0 |
| C25 | `next_header_from_stream`, `packet_type`, `get_packet_type` | proved: classification against RFC 9000 section 17 for every first byte and version; the kind of every decoded packet |
| C26 | `get_next_pn` | proved: invariant over every history of operations of a new connection, per space |
| C27 | nonce of `Secrets::encrypt_payload` | proved: the nonce of RFC 9001 section 5.3, injective in the number since xor is; with C26 unique over any history |
| C28 | `truncate_pn`, `reconstruct_remote_pn` | false once an acknowledgement is recorded: witness and universal theorem (`C28_wrong`); `_partial` for every reachable connection, as none is ever recorded; `C28_exact_all`: for which numbers it works |
| C29 | `truncate_pn` against `Spec.rfcDecodePn` | false: witness and universal theorems (`C29_too_short`, `C29_decoder_fails`); `C29_exact`, `C29_decoder_exact`: for which numbers it works |
| C30 | `Secrets::from_initial`, `Connection::new` | proved: equality of the derived secrets for all ids of 0..20 bytes, kept by every history; the two directions have different labels |
| C31 | `PacketInitial` built, serialized and decoded | composition of builder, header protection, AEAD (`PrimLaws`) and frame codec for every history; false only for the frames of C11 and C12; `C31_exact`, `C31_envelope` |
| C32 | packet decode | false for 1..3-byte numbers: universal counter-theorem on the ciphertext position; `C32_exact`: four bytes and no other |
| C33 | `from_stream` of the four protected packets | proved: inversion of the success path, and its converse (`C33_initial_exact`, `C33_handshake_exact`, `C33_zero_rtt_exact`, `C33_one_rtt_exact`: the packets of each kind that are accepted, exactly) |
| C34 | `borrow_remote_tls_secrets`, `from_stream` of the protected packets | proved: an error on every stream; invariant over connection histories (only Initial keys are ever installed) |
| C35 | packet decode | false: witnesses of each panic; exact characterisation (for any keys in any space) and `_partial` |
| C36 | `decode_packets` | induction on the list of packets from C31 and C37; false only for the frames of C11 and C12; `C36_exact`, `C36_any_packets` without a condition on frames |
| C37 | `serialize` of Initial and Handshake packets | proved: the Length field counts number, ciphertext and tag; at most one packet begins at any position |
| C38 | `PacketVersionNegotiation::from_stream` | proved: equivalence with the layout of RFC 9000 section 17.2.1, and the streams rejected |
| C39 | `get_hkdf_label_info`, `hkdf_expand_label_sha256` | proved against the structure of RFC 8446 section 7.1: exact condition, layout, injectivity |
| C40 | `TransportParameter::serialize`, `identifier_val` | proved against a grammar of id, length and value: layout, exact failures, unique splitting, injectivity |
| C41 | `PreferredAddress::to_bytes` | false for every preferred address: universal theorems; `C41_exact`: which of them a peer can read; `_partial` for addresses and ports |
| C42 | `Error::to_error_byte` | proved for every error value against the table of RFC 9000 section 20.1 (`Spec.errorCodes`), by cases; different kinds have different codes; every code of the table is reached |
| C43 | `route_datagram`, socket table | false for Version Negotiation packets, which always go to id 0: universal theorems; `C43_exact`: the datagrams delivered to their connection and to no other |
| C44 | socket table, queues; threads interleaved at critical sections | proved: invariant over every schedule; `C44_accept`, `C44_history`: the same for calls one after the other in terms of the datagrams received |
| C45 | `accept` | proved over every schedule and every sequence of random ids; existing entries are kept, with longer queues |
| C46 | socket table | proved: invariant of every reachable state |
| C47 | `drop_connection` | proved for every table, id and order of drops |
| C48 | `accept` | false: `accept` registers the connection and then always reaches `todo!()` (`C48_never`, `C48_public_never`); `_partial` for the registration |
| C49 | `accept`, `recv_new_initial_datagram` | false (`unwrap`): universal theorems for malformed and unknown datagrams; `C49_exact` for all arrivals, by induction on them; `_partial` for known connections |
| C50 | `accept` | false: universal theorem for every repeated Initial; `C50_exact`: unless the random id equals the value of the original one |
| C51 | `U160` as key of the table | false for ids with zero bytes in front: universal theorem; `C51_exact`: which ids meet |
| C52 | `PacketInitial::new`, `PacketHandshake::new` | proved for every connection state: ids, version and the number that the truncated bytes stand for; without an own id an error |
| C53 | `PacketHandshake` with installed keys | as C31 for the four-byte numbers that the code writes before an acknowledgement; false for 1 to 3 bytes; `C53_exact`, `C53_wire_exact` |
| C54 | lock-level thread semantics | rank argument over all schedules |
| C55 | logging in the socket calls | proved: simulation between two sockets with the same table, for every step and history |
| C56 | `get_next_pn` at the end of the counter | false in release builds, where it wraps: `C56_wraps`; `C56_exact`: when asking for a number is an error |
| C57 | packet build/serialize | against `Spec.InitialWire`/`HandshakeWire`; exact condition for serialization |
| C58 | `accept`, then packets built on the accepted connection | false: they go to the id the client made up (`C58_sent_to_original`); `C58_exact`: right exactly for clients whose two ids are equal |
| C59 | `accept` | false for every version other than 0 (`C59_any_version_opens`); `_partial` for version 0 |
| C60 | `recv_datagram` | false above 4096 bytes (`C60_truncated`); `C60_exact`: intact exactly up to there |
| C61 | `accept` | false (`C61_any_size_opens`); `C61_exact`: a datagram opens a connection exactly if it begins with the header of an Initial packet for an unknown id |
| C62 | `accept`, `packets_from_datagram` | false: the opening datagram is dropped (`C62_opening_lost`); `C62_exact`; `_partial` for later datagrams, end to end |
| C63 | `decode_packets`, packet builders; table of permitted frames (`Spec/Rules.lean`) | false in both directions (`C63_any_frames_delivered`, `C63_any_frames_built`); `_partial`: only Initial packets deliver frames on a reachable connection |
| C64 | `decode_packets` | false (`C64_empty_delivered`); `C64_exact`: right exactly for payloads that are not empty |
| C65 | `decode_packets`, packet builders | false for every value of the bits (`C65_any_bits_delivered`); `_partial` for packets built by the code |
| C66 | `decode_packets` on repeated packets, also over a history | false (`C66_copies_delivered`, `C66_replay_delivered`); `_partial`: copies are delivered alike |
| C67 | `decode_packets` | false: the other packets are lost too (`C67_all_lost`); `C67_exact`: the outcome of every stream, by induction on its packets |
| C68 | frame readers; limits of RFC 9000 section 19 (`Spec/Rules.lean`) | false (`C68_invalid_delivered`); `C68_exact`: which invalid frames are delivered; `_partial` for the fields that are checked |
| C69 | `FloorLog2` | false: one more, for all numbers and widths (`C69_exact`) |
| C70 | frame constructors | well-formedness; false for NEW_CONNECTION_ID, exact condition, and for ACK |
| C71 | `decode_packets` | congruence in the parts of a connection that decoding reads |
| C72 | 0-RTT decoding with any keys installed | against `Spec.ZeroRttWire`; false for numbers of 1 to 3 bytes (`C72_short_never_decoded`); `C72_exact`: exactly those; `_partial` for 4 bytes |
| C73 | both build profiles | simulation between the two, reader by reader |
| C74 | 1-RTT decoding with any keys installed | against `Spec.OneRttWire`; false for numbers of 1 to 3 bytes (`C74_short_cut_off`); `C74_exact` for payloads in their shortest encoding; a 1-RTT packet takes the rest of the datagram (`C74_takes_the_rest`) |
| C75 | SHA-256, HMAC, HKDF, AES-128, GCM | definitions of the standards; laws by length and xor arguments |
| C76 | packet readers on genuine packets, any payload | reader calculus with a failing counterpart of `Reads` (`FailsAfter`, Proofs/Fate.lean) |
| C77 | frame list, packet list, counted loops | sizes by induction over the accepted language; loops by induction over the stream |
| C78 | version of received and built Initial packets | false (`C78_any_version_delivered`); `_partial` for version 0 and packets built by the code |
| C79 | destination ids in a datagram | false (`C79_any_ids_delivered`); `_partial` for the first packet of a datagram |
| C80 | tokens of received and built Initial packets | false in both directions (`C80_any_token_delivered`, `C80_any_token_built`); `_partial` for packets built without a token |
| C81 | locality of decoding: `Local` calculus in `Proofs/Local.lean` (a successful read depends only on the bytes it consumes) | proved for all packets with a Length field |
| C82 | the numbers given out, over all histories of operations | false: exact theorem, universal counter-theorem; `_partial` |
| C83 | sizes of client Initial packets | false: exact size (`C83_exact_size`), universal counter-theorem (`C83_small_packets`); `_partial` for frames of 1171 bytes and more |
| C84 | id lengths that open connections | false (`C84_short_ids_open`); `_partial` for the upper limit of 20 bytes |
| C85 | counting of labels in runs of the concurrent model (`Props/Resources.lean`) | proved |
| C86 | what opens connections | false: one datagram opens any number of connections, datagrams too short for any packet open them; `_partial` |
| C87 | `TransportParameter::serialize` | false: every forbidden value is encoded (`C87_encoded_anyway`, `C87_every_bad_value`); `_partial` for the limit of the encoding |
| C88 | serialisability: the calls of the events of a run, in order, on the sequential model | false: for any two ids a race; `_partial` for runs without that race |
| C89 | `Spec.OpenedFrom`: the inputs of the AEAD of an accepted packet; dependence of the decoder on each byte | false: universal counter-theorem; `_partial` for four-byte numbers; exactly the bytes after a shorter number are free (`C89_exact`) |
| C90 | raw allocation with undefined behaviour as an outcome (`Model/Alloc.lean`) | false: universal counter-theorems, exact theorem; `_partial` for zeroed buffers |
| C91 | infinite executions of the lock-level model | proved: a bound on the steps a call makes without receiving or drawing a taken id; the exception shown real |
| C92 | histories of internal and of public calls with the output of the log | false for the public switch (empty body): universal counter-theorem; `_partial` is the whole statement for the internal switch |
| C93 | the exact language of the parser (`CodeFrames`) is closed under writing | proved for every payload |
| C94 | RFC 9000 grammar of frames; minimality and uniqueness field by field | proved for every frame and payload |
| C95 | `Model/Concurrent.lean`, infinite executions; fair scheduling and starvation-free locks as hypotheses; releases by induction on lock rank and hold time | proved |
| C96 | public calls and the streams an application has; invariant over histories | false: refuted with a universal counter-theorem, partial for applications that have a stream |
| C97 | history of the sender with the AEAD call behind each packet sent (`SentIn`, `Made`), a forgery (`Forgery`) as an opening, with the nonce and associated data of the bytes received, which the sender never sealed; a genuine packet is none (`C97_genuine`); unique readability of the associated data | proved, as a reduction to the AEAD (its unforgeability is an assumption outside the model; Initial keys come from the public id, C30) |
| C98 | calculus of where errors come from (`Only`, `OnlyOut`) over every reader, writer and socket operation | false: every error made is INTERNAL_ERROR (universal counter-theorem); `_partial`: errors are passed on unchanged or have that code |
| C99 | the readers, encoders and socket calls with their output and with outputs that may not be writable (`Env`, `Pr`) | false: universal counter-theorems for frames and for `accept`; `_partial`: successes silent, at most one line on failure, otherwise the same behaviour (relation `Same`) |
| C100 | the same with the width of a pointer | false: universal counter-theorem for truncated lengths and an authentic packet; `_partial`: 64-bit successes are successes everywhere (relation `Grow`) |
| C101 | the interleavings with outputs that may not be writable (`Pc.FailsToPrint`, `StepE`, `RunE`) | false: universal counter-theorems (any datagram poisons the socket, nothing is received after that); `_partial`: logging off, writable outputs, and the datagrams accepted being independent of the outputs |
| C102 | the text of `{:?}` (`Dbg`, `Dbg.render`) of every type, including the socket and its locks | false: universal counter-theorems (the text of a socket determines every key); `_partial`: queues, locked tables |
| C103 | the same text for the lines of the log, headers, frames, packets and errors | unique readability of `Dbg.render` (`Dbg.render_inj`), injectivity for each type, error messages of the header parser are printable |
| C104 | any set of packets protected by any RFC sender (`Sent`, `CallsFor`), the header, number and frames of a decoded packet of any kind (`Describes`), forgeries as in C97 | proved, as a reduction to the AEAD like C97 (`C104_genuine`: the two cases exclude one another): equal associated data give equal first byte, hence equal length of the packet number, header and number; for packets of the crate the header fields by unique readability |
| C105 | types of the crate by their fields (`Model/Types.lean`), the rules of `Send` and `Sync` as documented by std (`Spec/AutoTraits.lean`) | false: universal counter-theorem, exact condition on the type of the receiver; `_partial` for all other parts |
| C106 | `reformat_bin` on lists of bytes and characters (`Model/Tools.lean`) | proved: a grammar of hexadecimal dumps with unique readability (`Spec.Shows`), recursion over pairs of groups |
| C107 | histories of a connection, packets serialized in the final state (`Props/Usage.lean`) | false of the code (`C107_exceeded`, `C107_false`); partial: 2^32 - 1 packets, a bound that `C107_exceeded` attains; `C107_exact` (`Props/ExactRest.lean`). Counter: induction on the number of packets built, no evaluation of the 2^23 + 1 builds |
| C108 | 1-RTT decoding with application keys installed (`Props/ShortRules.lean`) | false of the code (`C108_bit_ignored`, `C108_only_installed_keys`, `C108_false`); partial: the bit is readable |
| C109 | classification of short headers; `Spec.IsReset` (`Props/ShortRules.lean`) | false of the code (`C109_taken_for_one_rtt`, `C109_never_recognised`, `C109_false`); partial: refused with an error in reachable states |
| C110 | `Sock.run` histories and `Sys.Run` schedules, with the addresses of all datagrams replaced (`Props/Address.lean`) | proved: every replacement of addresses commutes with one step, hence with every history and every schedule; two histories with the same bytes by replacing all addresses by 0 |
| C111 | reachable states and traces of `Sys.Run`; arrivals at `recvNewInitialDatagram` (`Props/Network.lean`) | proved: a connection in the table keeps its state (C45), its queue is what was routed to it (C44), and decoding reads only that state (C71); for a client, with C32, C36 and C49 |
| C112 | wire formats of `Spec/Protect.lean` and histories of one connection (`Props/Unique.lean`) | proved: the sample for header protection lies behind the packet number, so equal bytes have equal masks, headers and number bytes; the AEAD opens to one plaintext; with C20 (frames) and C26 (numbers increase) for what the code sends |
| C113 | every reader once more with a count of its steps (`Model/Work.lean`) | proved: the counting readers agree with the readers; a potential argument (each byte pays for reading it, for the AEAD and for its frame) with C77 for the bytes a delivered packet takes |
| C114 | `PacketInitial::new` followed by `serialize`, and the same for Handshake packets; frames from the constructors or the parser (`Obtainable`) | partial: outcome computed by a small specification (`numberKind`, `idKind`, `framesKind`, `idLengthKind`) and proved equal to the model's; false for source ids longer than 20 bytes and at the end of the counter |
| C115 | histories of calls and schedules of threads | proved: from C44 (`C44_history`, `C44_queue`) two executions that agree on the datagrams for an id agree on its connection, queue and decoded packets |
| C116 | state after a failing call of the builders, `routeDatagram`, `packetsFromDatagram`, `accept` | false: an error of the builders uses up a packet number (`C116_error_uses_number`); exact state after building and accepting (`C116_build_exact`, `C116_accept_exact`); routing and decoding proved (`C116_calls_partial`) |
| C117 | `decodePackets` on datagrams of which nothing opens, for two connections with different keys | false: the error gives the packet number length under the mask (`C117_oracle`, `C117_mask_bits`); the same with the algorithms the crate uses, for two servers made through the API (`C117_false_real`); it holds if the mask is the same for all keys (`C117_same_mask`); exact outcome and exact condition (`C117_refusal`, `C117_exact`); short headers and covered Lengths proved (`C117_short_partial`, `C117_covered_partial`) |
| C118 | decoding of Version Negotiation and Retry packets against the bytes of RFC 9000 17.2.1 and 17.2.5 (`VnWire`, `RetryStart`) and what a client may act upon (`VnAcceptable`) | false: universal counter-theorems (all are delivered, all Retry packets panic); exact: the bytes alone decide; `_partial`: last in the datagram, no Retry delivered |
| C119 | the life of a connection: datagrams decoded between operations (`Connection.live`) | false: universal counter-theorem (nothing received changes anything); `_partial`: numbers are written in full whatever is acknowledged |
| C120 | every writer once more with a count of its steps (`Model/WorkOut.lean`) | proved: the counting writers agree with the writers; each buffer is copied a fixed number of times on the way to the packet, and every frame has at least one byte to pay for its own steps |
| C121 | interleaved calls (`Model/Concurrent.lean`): the events of a run say when a datagram was received and which connections were there | false: two universal counter-theorems (an id drawn, or dropped and drawn again, between receipt and delivery); exact condition; `_partial`: calls that do not overlap |
| C122 | `encrypt_payload`, `decrypt_payload` on keys of any length, with and without a vector and associated data (`Model/Crypto.lean`) | proved: both are the relation `Spec.SealedAs`, hence inverse to each other; error without vector or associated data; exact panics (`Props/Seal.lean`) |
| C123 | `from_secret`, `from_initial` and the functions of the cipher suite under them | proved: equivalences with `Spec.DerivedKeys` and `Spec.InitialKeys` for any secret and id; totality; no panic (`Props/Derive.lean`) |
| C124 | `get_header_protection_mask` on streams with errors | proved: equivalence with `Spec.IsMask`; all other outcomes (`Props/Derive.lean`) |
| C125 | `Connection::new`, its getters and all operations of a history (`Model/ConnHistory.lean`) | proved: what `new` returns, the state after every history and the set of reachable connections, each as an equivalence; which keys are used for what (`Props/Life.lean`) |
| C126 | `get_next_pn`, `PacketInitial::new` and `PacketHandshake::new` on every connection value, also with acknowledgements recorded (which no code does yet) | proved: the packet built, success, panic and error, each as an equivalence (`Props/Build.lean`) |
| C127 | `reconstruct_remote_pn` and all decoders on every connection value, also with acknowledgements recorded | proved: the packets accepted of each kind and the inputs that panic, as equivalences (`Props/Accepted.lean`, `Props/Acked.lean`); the numbers read are not those of RFC 9000, see C28 |
| C128 | `PacketInitial::serialize` and `PacketHandshake::serialize` on every packet value and every connection value, also packets no constructor makes | proved: the bytes written as equivalences, and whether it is an error or a panic otherwise, in order (`Props/Write.lean`); the latter within the sizes the AEAD accepts |
| C129 | building, writing and decoding packets with numbers recorded on both sides, on every connection value | false (`C129_false`, `C129_false_any`): exactly which packets arrive is `C129_initial_exact` and `C129_handshake_exact`; after a recorded acknowledgement none of the next 2^24 does, after a recorded receipt almost never the next; with nothing recorded all do (`Props/Later.lean`) |
| C130 | `connect` and `accept` of the public interface on every socket, over all sequences of network events and random ids | false (`C130_false`, `C130_false_any`): `connect` always panics (`C130_connect`); how `accept` ends is `C130_accept_exact`, by an inductive specification that names no function of the model; `C130_accept_dies`, `C130_only_faults`, `C130_taken_partial` (`Props/Ending.lean`) |
| C131 | building and writing packets of any frames on every connection value with keys, with anything acknowledged | false (`C131_false`, `C131_false_any`): small payloads are not padded, so there is no header protection sample (`C131_small_fails`); how sending ends is `C131_initial_exact` and `C131_handshake_exact`, from C126 and C128; `C131_initial_partial` is what holds (`Props/Small.lean`) |
| C132 | `accept` and the interleaved executions where drawing a random id may fail at any time (`Model/Random`), on every socket, for all sequences of results of the random source | `C132_delayed`: by simulation, a thread for which the source failed is to everybody else like one that is not scheduled again just before it draws an id; `C132_all` (poisoning, exclusion, ids, progress) follows; one call: `C132_ending_exact`, `C132_ids_exact`, `C132_connections` |
| C133 | the interleaved executions where a thread at a point of a given set may panic (`Model/Anywhere`); no assumption on why | invariant `InvK` (that of C54 without “nothing is poisoned”, with “nobody holds what is”), kept by every step and by every panic; poisoning by induction over the run, progress by the order of the locks |
| C134 | partial (the code lets it tell): the counting readers of `Model/Work` on pairs of runs; `Forged` as in C117; work, not time | before the mask two runs read the same, so the counts agree; after it the count is computed (`spent` for packets with a Length, the packet number length for short headers); `C134_exact` by cases over what the datagram starts with; the witnesses are those of C117 |
| C135 | infinite executions of `Model/Anywhere`; fairness as for C95 (the scheduler owes a step only to threads that can go on without panicking at will) | proved: the argument of C95 with the invariant `InvK`: locks in order of rank, each released after finitely many steps of its holder; who comes to a poisoned lock can always go on, and dies |
| C136 | two worlds: `Prims` that agree on the block cipher of header protection, connections equal but for the algorithms (`Twin`), two frame lists with serializations of one length and the same ciphertext; `emitInitial`, `emitHandshake`: build and write | proved: `new` never looks at the frames; in `serialize` they occur only as the length and as the argument of the AEAD. For every lawful world the world with two payloads exchanged (`swapped`) is lawful. In one world alone the claim would be empty, for the ciphertext determines the payload |
| C137 | pairs of connections that agree in a space (`AgreeIn`), histories of `Model/ConnLife` filtered to what concerns the space, results filtered to what is seen in it | partial: unwinding (an operation elsewhere changes nothing here and shows nothing here; an operation here depends on nothing elsewhere); false for datagrams that mix spaces, where one packet that fails takes the others with it, for all primitives |
| C138 | two sets of primitives, of which one answers only where the other does, in the same way (`FailsMore`; no laws are assumed of either); the same connection with either (`Replaced`) | partial: a simulation between the two through all readers and writers and through histories; false for panics, since header protection and `accept` unwrap, with the exact extent (`C138_block`, `C138_accept`) |
| C139 | as for C136 connections put into two worlds (`inWorld`), here with different numbers as well; the other world (`retold`) has an AEAD that exchanges two pairs of nonce and associated data and two payloads, and a block cipher that gives another mask for one sample | proved: the other world obeys the laws (`retold_laws`), and the sealed tail is the same in both (`sealTail_hidden`), hence the packet (`C139_all`). What is hidden is stated of the packet alone: the order in which packets arrive and their lengths still tell something |
| C140 | the three steps of a derivation as a structure of its own (`Steps`: secret of the id, secret of the side, bytes for the purpose); `Collide`: different inputs, same output, at the same step of two given derivations | proved: the labels separate sides and purposes, the lengths separate IVs from keys; the claim is relative to collisions on the way to the two keys compared, since collisions somewhere exist for every function with short outputs |
| C141 | key and nonce of a packet (`UsedFor`), for connections of a socket that has accepted twice | partial: false for every datagram that comes twice (`C141_repeated`), exact for connections for one id (`C141_same`), true but for collisions for different ids or sides (`C141_apart_partial`) |
| C142 | streams that give bytes and then an error (`brokenAt`); `PassesOn`: done before the error, for every continuation, or the error itself | partial: false for packets, since `decode_next_packet` unwraps the header (`C142_panics`, every state and every header broken off); proved for headers and frames by a property of readers closed under sequencing, one lemma per reader; for packets in all other cases (`C142_packets_partial`); nothing is delivered of such a stream (`C142_nothing`) |
| C143 | a packet written in the history of one connection (`SentIn`) at the beginning of a stream read by another one; `Collide` (C140) and `CrossOpened`: a key opens what another has sealed | proved, as a reduction: the one who takes it is the peer, or the two derivations collide, or the AEAD opens with another key (`C143_all`); `C143_own`: the case of a packet sent back; `C143_peer`: the peer does take it |
| C144 | two payloads one after the other; `afterFrames` puts frames before others or before a failure; `OpenEnded`: the payload has a STREAM frame without a Length field, which runs to the end | partial: false, since the code ignores the Length flag and every STREAM frame runs to the end (`C144_false`); exact: it holds if and only if the last frame is not a STREAM frame (`C144_iff`, and `C144_follow_partial` for any continuation, also one that fails); what a STREAM frame becomes (`C144_swallowed`) |
| C145 | a payload and a beginning of it; `CutOf`: the first frames of a list, the last perhaps a STREAM frame with less data | proved for every payload and cut, from the two cases of C144 and C13 |
| C146 | zero bytes between two parts of a payload; `others`: the frames that are not PADDING | partial: false after a STREAM frame with a Length field, where they become data (`C146_data`, `C146_false`); exact: true if and only if the frame before is not a STREAM frame (`C146_iff`, `C146_none_lost_partial`) |
| C147 | a datagram and a beginning of it, decoded by a reachable connection; `CutPackets`: the first packets, the last perhaps a Version Negotiation packet with fewer versions | proved by induction on the packets of the beginning: packets with a Length field are read from their own bytes (C81), Version Negotiation packets by C38, others are not decoded (C34); `C147_received` for the datagrams that `recv_datagram` cuts off (C60) |
| C148 | data of frames and tokens of packets; `Pieces ds a`: the byte strings `ds` lie in `a` whole, in order, without overlap | proved: the data end each frame read (`codeBody_data`) and written (`toBytes_data`), induction on the frames; tokens by C33 and induction on the packets; `C148_initial` with the opened plaintext in view |
| C149 | `serializeFrames`, `PacketInitial.new` and `serialize` after any history; `frameSize`, `payloadSize`, `initialSize`: sizes by the fields, integers in the shortest encoding | proved: inversion of every `to_bytes` (`frame_size`), of `serialize` (`initial_written_size`) with the four-byte packet number of reachable connections; `C149_fits` with C60 |
| C150 | a pair of connections after any histories, `PacketInitial.new` with PADDING frames appended, `serialize`, `decodeNextPacket` | proved: `fill` finds the number of PADDING frames from the sizes of C149, building by C31_builds, arrival by C31_exact |
| C151 | `deserializeFrames` on a payload and on the same payload with anything appended | proved: every reader is shown to give the same result when more follows, unless it failed for want of bytes (`Steady`; `Lasting` for the STREAM frame, which uses up everything), then by strong induction on the length; the converse (`C151_mended`, `C151_exact`) by showing for every reader that what is missing can be supplied (`Mends`, `Open`); `C151_where` says it without error messages, by the bytes: after some frames comes an unknown type or a NEW_CONNECTION_ID frame with a bad length |

## 4. Trusted base

### 4.1 Lean

* The Lean 4.33.0 kernel, including its GMP-backed `Nat` literals (used by `decide +kernel`, which is kernel evaluation; no
  `native_decide`, no `bv_decide`, no compiled code).
* Axioms: only `propext`, `Classical.choice` and `Quot.sound`. `AXIOMS.md` lists them per theorem. No axiom is declared in this project and no
  `sorry`/`admit` occurs.
* Mathlib is not imported.

### 4.2 Modelled code

| Rust file | modelled | not modelled |
|---|---|---|
| `utils.rs` | `encode_var_int`, `decode_var_int`, `var_int_from_stream`, `var_int_with_bytes_from_stream`, `FromDatagram`, `DecodeFromBytes`, `FloorLog2`, `U160` (conversions, `to_var_bytes`), `var_u160_from_stream`, `fixed_len_dcid_from_stream`, `var_bytes_from_stream`, `all_bytes_from_stream`, `make_result_stream`, `calloc_box_buffer`, `alloc_box_buffer` | memory addresses in `calloc_box_buffer`, `alloc_box_buffer` |
| `quictls/utils.rs` | `get_connection_id` as the next element of an arbitrary sequence of `u64`; in `Model/Random` also the failure of the random source (its `unwrap`) | that theorems other than those of C132 do not consider the failure; `C132_delayed` carries what they say of tables, queues and locks over |
| `frame.rs` | every frame type: constructor, `from_stream`, `to_bytes`; `deserialize_frames`, `serialize_frames` | `Clone` derives |
| `version.rs`, `quictls/cipher_suite.rs`, `quictls/secrets.rs` | all functions | the library functions themselves (4.3) |
| `connection.rs` | all functions, the text of `Debug` | |
| `packet.rs` | all functions, the text of `Debug` | |
| `transport_parameters.rs` | all | - |
| `error.rs` | all | - |
| `routing.rs`, `interface.rs` | socket table, `route_datagram`, `accept`, `connect`, drop, id generation, logging switch, channel to the connection, all lock acquisitions and releases | the UDP socket itself (an arbitrary sequence of received datagrams of at most 4096 bytes or receive errors), the OS random source (arbitrary sequence) |
| `main.rs` | - | binds a socket and ends, so it has no behaviour beyond `bind` |
| `tools/prettify_bin.py` | `reformat_bin` | command line, file names and error messages |

`Model/Env.lean` repeats every function that prints or converts a `u64` to `usize`, as a function of the pointer width and of whether the two outputs can be
written (`Env`), and `Proofs/Env.lean` relates it to the rest, which describes a 64-bit machine and leaves that output out (C99, C100).
`Model/Work.lean` repeats every reader with a count of its steps (C113): calls of `next`, looks at the end of a stream, bytes passed to the AEAD. Not counted: work on
values of fixed size, growing a `Vec` by `push`, copying a slice iterator (`clone`), and the block cipher call for the header protection mask.

`Model/Debug.lean` is the text that `{:?}` gives for every type with a derived or written `Debug`, and with it the text of each line printed (C102, C103). The format of
`core::fmt` and of `Debug` for `Vec`, `Option`, tuples, `HashMap`, `Mutex`, `RwLock`, `Sender` and `Receiver` is taken from the standard library and is part of the trusted base.

Simplifications, also stated at the definitions: in the files other than `Env`, `usize` is unbounded (64-bit platform; every subtraction that can underflow is
explicit) and the diagnostic output is left out;
memory never runs out; streams are finite and fused; a `HashMap` is a partial function; `Box`/`Arc`/`Rc` are values.
A receive error of the UDP socket carries no payload.

### 4.3 External functions

`Prims` is a record of arbitrary functions for HKDF-SHA256, AES-128-ECB and AES-128-GCM. Theorems that need anything of them take
`Spec.PrimLaws P`: HKDF-Extract returns 32 bytes; a 32-byte PRK is accepted; Expand returns exactly the requested length up to 255*32;
AES-ECB on a 16-byte key and sample succeeds with at least 5 bytes; GCM sealing succeeds for sizes below 2^30 (an idealised bound, below
the library limits), preserves length, has a 16-byte tag; opening inverts sealing; and anything that opens is what sealing
would have produced. The laws are proved, not assumed, for the algorithms themselves: `Spec/Sha256.lean` and `Spec/Gcm.lean` define SHA-256, HMAC, HKDF,
AES-128, ECB and GCM after their standards, `Spec.real` is the resulting instance and `Spec.real_laws` the proof (C75). What remains trusted is that the
crates `hkdf`, `sha2` and `openssl` compute these functions. `Spec.toy_laws` is a second, small instance used in examples that must be evaluated quickly. Cryptographic security
(unforgeability) is not stated or assumed: "authenticated" in C33 means "the AEAD accepted under the RFC 9001 key, nonce and
associated data".

### 4.4 Concurrency

`Model/Concurrent.lean` has one program counter per thread and one transition per lock acquire, lock release or access to shared
state; a panic while holding a guard poisons it. Any number of threads, any schedule. `InternalQuicSocket` is `!Sync` because of its
`mpsc::Receiver`, so safe Rust cannot even share it as freely as the model lets threads do (C105): the model over-approximates. Lock fairness and
progress of the OS are not part of the model (C54 states absence of deadlock); C95 has them as hypotheses (`Fair` in `Props/Fairness.lean`) and derives that
calls end.

### 4.5 Checks of the model against the crate's tests

`Props/Vectors.lean` runs the tests of `packet.rs`, `secrets.rs` and `cipher_suite.rs` on the model with the real algorithms, by kernel evaluation: the
keys, the payload and the complete 1200-byte sample packet of RFC 9001 appendix A.2, encoded and decoded. The tests of `frame.rs` and `utils.rs` are run as
examples in the model files. They check the transcription; no property rests on them.

## 5. Where the code departs from the properties

These are results about the code as it is, proved as `Cxx_false` (with a concrete witness) and as universal counter-theorems.

* C05: `decode_var_int` reads prefix + 1 bytes where RFC 9000 has 2^prefix, so 4- and 8-byte encodings are misread.
* C11: STREAM parsing tests `type & 4 == 1` and `type & 2 == 1`, so offset and length are never parsed.
* C12, C19, C31: CRYPTO parsing reads `length + offset` bytes.
* C15, C17: frame types are masked to 8 bits.
* C28, C29: packet number truncation and reconstruction are wrong once an acknowledgement is recorded (none is ever recorded by the code).
* C32, C53: parsing always takes four packet-number bytes, so packets with shorter numbers cannot be decoded.
* C35: Length smaller than the packet number, payload shorter than the tag, Retry packets and undecodable trailing bytes panic.
* C41: preferred_address has no id length byte and no stateless reset token.
* C43: Version Negotiation datagrams are routed to connection id 0.
* C48, C49, C50: `accept` registers the connection and then always panics in `todo!()`; stray datagrams panic through `unwrap`; a repeated Initial
  opens a second connection.
* C51: the table key drops the length of the id.
* C56: in release builds the packet number counter wraps at 2^64. `C56_exact` is the exact condition for an error.
* C58, C59, C61: `accept` takes the client's destination id as the peer's id, does not look at the version and has no minimum datagram size.
* C60: datagrams are cut at 4096 bytes.
* C62: the datagram that opens a connection is not delivered to it.
* C63-C66: no check of the frames permitted in a packet type, of empty payloads, of reserved and fixed bits, of duplicates.
* C67: an error in one packet of a datagram discards all of them. The outcome of every stream is in `C67_exact`.
* C68: no check of the RFC 9000 limits on frame fields.
* C69: `floor_log2` gives one more than the logarithm.
* C70: `FrameNewConnectionId::new` always says the id has 8 bytes.
* C78-C80: no check of the version, of the destination ids of coalesced packets, or of tokens from servers.
* C82: packet numbers start at 1, and a number is used up by every failed attempt to build a packet.
* C83, C84: Initial packets are not padded to 1200 bytes; destination ids of less than 8 bytes open connections.
* C86: `accept` registers a connection without decoding the packet; the same datagram opens a new connection each time.
* C87: transport parameter values outside the limits of RFC 9000 section 18.2 are encoded.
* C88: the lookup that finds an id free and the registration are separate critical sections, as are the lookup that finds it taken and the
  delivery: concurrent `accept` and `drop` calls reach tables and failures that no sequence of calls reaches.
* C89: the bytes between a packet number of less than four bytes and the ciphertext are not authenticated.
* C90: the (unused) allocation functions are unsound: zero-sized types, exhausted memory, uninitialised or invalid zero values.
* C92: `QuicSocket::set_log_traffic` has an empty body and nothing else reaches the internal switch: the public interface never logs.
* C96: `QuicSocket::connect` is `unimplemented!()` and `accept` ends in `todo!()`, so no application ever gets a `QuicStream`, and only dropping one
  releases a connection: every connection opened by a client stays until the process ends.
* C98: `FrameEncodingError` and the other error kinds are never used; every malformed payload is reported as InternalError (0x01).
* C99: `var_bytes_from_stream` prints `failed at: i` whenever bytes are missing, with logging off; 12 bytes from anyone make `accept` print three lines (and panic); where
  standard output cannot be written, every short packet or frame is a panic instead of an error.
* C100: `as usize` drops the upper half of a length on a 32-bit machine, which then accepts frames and packets a 64-bit machine refuses.
* C101: `recv_datagram` (src/routing.rs:60-73) prints while it holds the mutex of the socket: with logging on and standard output closed, the first datagram poisons it, and
  every later `accept` panics. With logging off a thread may still die of `println!`, but holding nothing for writing.
* C102: `Debug` is derived for `Secrets` (src/quictls/secrets.rs:12) and everything around it up to the public `QuicSocket`, so that formatting a socket prints all keys in
  plain text. `QuicTlsCipherSuite` has a hand-written `Debug` that prints nothing at all, hence `Secrets { cipher_suite: , hp: [..`.
* C105: a `QuicSocket` and its `QuicStream`s can be neither moved to another thread nor shared: `InternalQuicStream` holds an `mpsc::Receiver`, which is not `Sync`.
* C107: nothing counts how often a key is used, so the limit of RFC 9001 section 6.6 is not kept. An ordinary handshake does not come near it; only Initial keys exist in the crate.
* C108: the Key Phase bit is never looked at.
* C109: `PacketType::StatelessReset` exists, but no input is classified as one; tokens are parsed and dropped.
* C114: the packet number counter (debug builds, at 2^64 - 1) and a source id of more than 20 bytes make building or writing a packet panic.
* C116: a failed attempt to build a packet uses up a packet number; `accept` delivers datagrams, and may register a connection, before it fails.
* C117: the packet number length is read from the unmasked header before authentication, and some errors depend on it: a forged packet whose Length is a little more than the bytes left reveals two bits of the mask.
* C118: Version Negotiation packets are delivered unchecked; Retry packets panic.
* C119: received frames change nothing: acknowledgements of packets never sent are delivered, and packets are built after CONNECTION_CLOSE.
* C121: a datagram is looked up in the table some time after it was received: a connection registered in between receives what came before it.
* C129: were acknowledgements recorded, numbers would take fewer than four bytes, which are never decoded: none of the next 2^24 packets would arrive.
* C130: `connect` always panics, and `accept` panics at the first datagram that no connection takes, once an id is drawn for it if it opens a connection.
* C131: packets with fewer than four bytes of packet number and payload are not padded, so that writing them is an error.
* C36: as C31: frames that the frame codec returns wrongly are not decoded in coalesced packets either.
* C134: the work on a forged packet depends on the packet number length that the unmasked header shows.
* C137: `decode_packets` fails as a whole, so an Initial packet is lost with a coalesced Handshake packet for which there are no keys yet.
* C138: `hp_mask_aes_128_ecb` and `accept` unwrap, so a failure of the block cipher or of key derivation is a panic.
* C141: a repeated first datagram opens a second connection (C50) with the same keys, whose numbers begin at 1 again: key and nonce are used twice.
* C142: `decode_next_packet` unwraps the header (src/packet.rs:776), so an error of the stream within a header is a panic.
* C144: a STREAM frame with a Length field takes all that follows it (src/frame.rs, `FrameStream::from_datagram`), so the frames after it are lost.
* C146: for the same reason padding after such a frame becomes data of the stream.
* C72, C74: as C32, for 0-RTT and 1-RTT packets.
