{"id": "C01", "title": "Variable-length integer round trip", "statement": "Encoding any integer below 2^62 as a QUIC variable-length integer and decoding the result, followed by arbitrary further bytes, returns that integer and leaves exactly the further bytes unread.", "quantifier": "every u64 below 2^62 and every suffix stream (including streams that later yield errors)", "why_tests_cant": "2^62 values times arbitrary suffixes; the unit test tries two values and never decodes", "anchors": ["src/utils.rs: encode_var_int", "src/utils.rs: var_int_from_stream", "src/utils.rs: var_int_with_bytes_from_stream"]}
{"id": "C02", "title": "Variable-length integer encoding fails exactly on overflow", "statement": "Encoding succeeds exactly for values below 2^62; for every other value it returns an error; it never panics.", "quantifier": "every u64", "why_tests_cant": "needs every u64 at and around the boundary and no panic anywhere", "anchors": ["src/utils.rs: encode_var_int"]}
{"id": "C03", "title": "Variable-length integer encoding is the RFC 9000 encoding of minimal length", "statement": "The produced bytes are a valid RFC 9000 section 16 encoding of the value (two-bit length prefix, big-endian remainder) and no valid encoding of that value is shorter.", "quantifier": "every u64 below 2^62 and every competing byte string", "why_tests_cant": "minimality quantifies over all other encodings", "anchors": ["src/utils.rs: encode_var_int"]}
{"id": "C04", "title": "Stream decoding of variable-length integers conforms to RFC 9000 on every input", "statement": "On any byte stream, decoding succeeds exactly when the stream starts with a complete RFC 9000 variable-length integer, then returns its value (always below 2^62) having consumed exactly its bytes; otherwise it returns an error; it never panics. The variant that also returns the raw bytes returns exactly the consumed bytes.", "quantifier": "every finite byte stream", "why_tests_cant": "all byte strings, all lengths", "anchors": ["src/utils.rs: var_int_from_stream", "src/utils.rs: var_int_with_bytes_from_stream"]}
{"id": "C05", "title": "Slice decoding of variable-length integers agrees with stream decoding", "statement": "Decoding a variable-length integer from a byte slice gives the same value and length as decoding the same bytes as a stream.", "quantifier": "every byte slice", "why_tests_cant": "the difference only shows on 4- and 8-byte encodings; agreement is a claim over all slices", "anchors": ["src/utils.rs: decode_var_int"]}
{"id": "C06", "title": "Fixed-width integers decode as big-endian", "statement": "Decoding a u8/u16/u32/u64/u128 from a stream or slice returns the big-endian value of exactly the first 1/2/4/8/16 bytes, leaves the rest unread, and fails exactly when fewer bytes are available; encoding then decoding is the identity.", "quantifier": "every width, every value, every byte stream", "why_tests_cant": "2^128 values and arbitrary streams", "anchors": ["src/utils.rs: DecodeFromBytes", "src/utils.rs: FromDatagram"]}
{"id": "C07", "title": "Connection ids survive decode and encode", "statement": "For every length up to 20, reading a connection id of that length from a stream and writing it back with the same length yields the same bytes; writing and reading an id that fits the length yields the same id; the 20-byte form is the big-endian form of the 160-bit value.", "quantifier": "every length 0..20, every id, every byte stream", "why_tests_cant": "2^160 ids times 21 lengths", "anchors": ["src/utils.rs: U160::to_bytes", "src/utils.rs: U160::to_var_bytes", "src/utils.rs: var_u160_from_stream", "src/utils.rs: U160 FromDatagram"]}
{"id": "C08", "title": "Connection id writing panics exactly beyond 20 bytes", "statement": "Writing a connection id with a requested length panics exactly when the length exceeds 20, and otherwise returns exactly that many bytes.", "quantifier": "every id and every usize length", "why_tests_cant": "every usize length", "anchors": ["src/utils.rs: U160::to_var_bytes"]}
{"id": "C09", "title": "Byte readers are exact and propagate stream errors", "statement": "Reading n bytes returns the first n bytes and leaves the rest, fails exactly when fewer than n are available, and if the stream yields an error before that, that very error is returned. Reading all bytes returns everything. The amount of memory used is bounded by the bytes actually present, not by the requested length.", "quantifier": "every stream, every requested length, every error position", "why_tests_cant": "unbounded lengths and error positions", "anchors": ["src/utils.rs: var_bytes_from_stream", "src/utils.rs: all_bytes_from_stream"]}
{"id": "C10", "title": "Every frame list without STREAM frames round-trips", "statement": "For every list of well-formed frames other than STREAM (and CRYPTO frames as the constructor builds them, offset 0), serializing the list and deserializing the bytes returns the same list.", "quantifier": "every list of frames, every field value below 2^62, every payload", "why_tests_cant": "unbounded lists and payloads; the repository has no deserialization test", "anchors": ["src/frame.rs: serialize_frames", "src/frame.rs: deserialize_frames", "src/frame.rs: deserialize_frame"]}
{"id": "C11", "title": "STREAM frames round-trip", "statement": "Serializing a STREAM frame and deserializing it returns the same stream id, offset, data and fin flag.", "quantifier": "every STREAM frame, with and without length and offset, at every position in a payload", "why_tests_cant": "the flag bits matter only for particular combinations; the claim is over all frames", "anchors": ["src/frame.rs: FrameStream::from_datagram", "src/frame.rs: FrameStream::to_bytes"]}
{"id": "C12", "title": "CRYPTO frames carry exactly Length bytes of data", "statement": "A received CRYPTO frame yields exactly its Length field's number of data bytes, whatever its offset, and leaves the following bytes for the next frame.", "quantifier": "every offset, length, data and following bytes", "why_tests_cant": "only non-zero offsets reveal it; the unit tests only use offset 0", "anchors": ["src/frame.rs: FrameCrypto::from_datagram"]}
{"id": "C13", "title": "Frame parsing is total on hostile input", "statement": "Deserializing frames from any byte stream, including one that yields errors, terminates without panicking, returning frames or an error.", "quantifier": "every byte stream", "why_tests_cant": "all inputs an attacker could send", "anchors": ["src/frame.rs: deserialize_frames", "src/frame.rs: deserialize_frame"]}
{"id": "C14", "title": "Frame parsing consumes the whole payload or fails", "statement": "When deserializing a payload succeeds every byte of it was consumed by some frame, in order; the number of frames and the total decoded data never exceed the number of bytes.", "quantifier": "every payload", "why_tests_cant": "all payloads; resource bound on hostile length and count fields", "anchors": ["src/frame.rs: deserialize_frames", "src/utils.rs: var_bytes_from_stream"]}
{"id": "C15", "title": "Unknown frame types are rejected", "statement": "A frame whose type is not one of the RFC 9000 types 0x00..0x1e is rejected with an error.", "quantifier": "every variable-length frame type value", "why_tests_cant": "2^62 type values", "anchors": ["src/frame.rs: deserialize_frame"]}
{"id": "C16", "title": "Serialized frames follow the RFC 9000 wire format", "statement": "The bytes produced for every frame match the RFC 9000 section 19 layout for that frame: type byte, fields in order, each integer a valid variable-length integer of the field's value, data verbatim.", "quantifier": "every frame of all twenty kinds with consistent length fields", "why_tests_cant": "all frames; tests check one literal per kind", "anchors": ["src/frame.rs: Frame::to_bytes"]}
{"id": "C17", "title": "Frame parsing agrees with the RFC 9000 wire format", "statement": "Any bytes that are an RFC 9000 encoding of a frame (with any legal integer widths) are parsed as that frame, and whenever parsing a frame succeeds the bytes consumed are an RFC 9000 encoding of the frame returned.", "quantifier": "every frame, every legal encoding, every suffix", "why_tests_cant": "all encodings, not only those this crate produces", "anchors": ["src/frame.rs: deserialize_frame"]}
{"id": "C18", "title": "Frame serialization fails exactly when a field does not fit", "statement": "Serializing a frame whose connection id length is at most 20 fails exactly when one of its integer fields is 2^62 or more, always with an error and never a panic.", "quantifier": "every frame", "why_tests_cant": "every combination of field values", "anchors": ["src/frame.rs: Frame::to_bytes"]}
{"id": "C19", "title": "Parsed frames are well formed", "statement": "Every frame returned by parsing has all integer fields below 2^62, as many ACK ranges as its count says, length fields equal to the data lengths, and a connection id length of 1..20 with an id that fits; hence it can always be serialized again.", "quantifier": "every payload that parses", "why_tests_cant": "all inputs", "anchors": ["src/frame.rs: deserialize_frame"]}
{"id": "C20", "title": "Frame serialization is unambiguous and compositional", "statement": "Serializing the concatenation of two frame lists is the concatenation of their serializations, and two different well-formed lists (without STREAM) never serialize to the same bytes.", "quantifier": "every pair of frame lists", "why_tests_cant": "injectivity quantifies over pairs of unbounded lists", "anchors": ["src/frame.rs: serialize_frames"]}
{"id": "C21", "title": "NEW_CONNECTION_ID length validation", "statement": "A NEW_CONNECTION_ID frame is accepted exactly when its length byte is 1..20 and the id and 16-byte token follow in full; other lengths are rejected with an error.", "quantifier": "every payload starting with frame type 0x18", "why_tests_cant": "all payloads", "anchors": ["src/frame.rs: FrameNewConnectionId::from_datagram"]}
{"id": "C22", "title": "Header protection is reversible and touches only the protected bits", "statement": "Applying and then removing header protection with the same mask restores header and packet number; protection never changes the header form, fixed bit or long packet type; and the packet number length cannot be read while the header is protected.", "quantifier": "every header byte, mask and packet number", "why_tests_cant": "all masks", "anchors": ["src/packet.rs: LongPacketHeader::add_protection", "src/packet.rs: LongPacketHeader::remove_protection", "src/packet.rs: ShortPacketHeader", "src/packet.rs: xor_pn_protection"]}
{"id": "C23", "title": "Long header round trip", "statement": "Writing a long header with non-zero version and ids of at most 20 bytes and parsing it back gives the same header fields and consumes exactly those bytes; parsing and writing gives the same bytes.", "quantifier": "every long header and every suffix", "why_tests_cant": "all headers", "anchors": ["src/packet.rs: LongPacketHeader::from_stream", "src/packet.rs: LongPacketHeader::to_bytes"]}
{"id": "C24", "title": "Connection id length limits in headers", "statement": "A long header with a non-zero version and an id length above 20 is rejected; with version zero lengths up to 255 are accepted; parsing a header never panics.", "quantifier": "every byte stream", "why_tests_cant": "all inputs", "anchors": ["src/packet.rs: LongPacketHeader::from_stream", "src/packet.rs: next_header_from_stream"]}
{"id": "C25", "title": "Packet classification", "statement": "The kind of packet found by parsing a header is determined exactly by the header form bit, the version and the two type bits as in RFC 9000, and it can be determined before protection is removed.", "quantifier": "every byte stream", "why_tests_cant": "all inputs and all masks", "anchors": ["src/packet.rs: next_header_from_stream", "src/packet.rs: LongPacketHeader::packet_type", "src/packet.rs: PacketHeader::get_packet_type"]}
{"id": "C26", "title": "Packet numbers are never reused", "statement": "Packet numbers handed out for one packet number space of a connection are strictly increasing over any history of operations, and issuing numbers in one space does not affect another.", "quantifier": "every history of operations on a connection, up to the 2^64 counter limit", "why_tests_cant": "unbounded histories", "anchors": ["src/connection.rs: Connection::get_next_pn"]}
{"id": "C27", "title": "AEAD nonces are never reused", "statement": "Two packets with different packet numbers protected under the same secrets use different AEAD nonces, so no nonce repeats over a connection's lifetime in one space and direction.", "quantifier": "every IV of at least 8 bytes, every pair of packet numbers, every history", "why_tests_cant": "all pairs", "anchors": ["src/quictls/secrets.rs: Secrets::encrypt_payload", "src/connection.rs: Connection::get_next_pn"]}
{"id": "C28", "title": "Truncated packet numbers are reconstructed correctly", "statement": "A packet number truncated by the sender relative to its largest acknowledged number is reconstructed by the receiver to the same number whenever the receiver has seen that acknowledged number.", "quantifier": "every packet number and every largest acknowledged number", "why_tests_cant": "all pairs of 62-bit numbers; no test exists", "anchors": ["src/connection.rs: truncate_pn", "src/connection.rs: Connection::reconstruct_remote_pn"]}
{"id": "C29", "title": "Truncated packet numbers are long enough for RFC 9000 receivers", "statement": "The truncated packet number has at least as many bits as RFC 9000 requires (more than twice the distance to the largest acknowledged packet), so the RFC 9000 appendix A.3 decoder recovers the number.", "quantifier": "every packet number and largest acknowledged number", "why_tests_cant": "boundary distances only", "anchors": ["src/connection.rs: truncate_pn", "src/utils.rs: FloorLog2"]}
{"id": "C30", "title": "Client and server derive matching Initial keys", "statement": "A client and a server connection created with the same version and destination connection id agree: what one uses to send is what the other uses to receive, and the two directions are derived under different labels.", "quantifier": "every connection id of length 0..20", "why_tests_cant": "all ids; the test checks one", "anchors": ["src/connection.rs: Connection::new", "src/quictls/secrets.rs: Secrets::from_initial"]}
{"id": "C31", "title": "Initial packets round-trip end to end", "statement": "An Initial packet built and serialized by one peer is decoded by the other peer to the same token, packet number and frames, consuming exactly the packet's bytes, given a correct AEAD.", "quantifier": "every connection id, token, frame list and history of earlier packets; both directions", "why_tests_cant": "all payloads; the test checks RFC sample bytes only", "anchors": ["src/packet.rs: PacketInitial::new", "src/packet.rs: PacketInitial::serialize", "src/packet.rs: PacketInitial::from_stream", "src/packet.rs: decode_next_packet"]}
{"id": "C32", "title": "Initial packets with short packet numbers are decoded", "statement": "A correctly protected Initial packet whose packet number is encoded in 1, 2 or 3 bytes is decoded just as one with 4 bytes.", "quantifier": "every packet number length, payload and connection", "why_tests_cant": "the misalignment only appears for lengths below 4; the sample packet uses 4", "anchors": ["src/packet.rs: PacketInitial::from_stream"]}
{"id": "C33", "title": "Nothing is delivered from unauthenticated packets", "statement": "If decoding a protected packet succeeds, its frames come from a plaintext which the AEAD opened under the connection's receive keys, with the whole unprotected header as associated data; if the AEAD rejects, decoding returns an error.", "quantifier": "every byte stream, every connection", "why_tests_cant": "all forgeries", "anchors": ["src/packet.rs: PacketInitial::from_stream", "src/packet.rs: PacketHandshake::from_stream", "src/packet.rs: PacketZeroRtt::from_stream", "src/packet.rs: PacketOneRtt::from_stream"]}
{"id": "C34", "title": "Packets without installed keys are rejected", "statement": "Handshake, 0-RTT and 1-RTT packets are never decoded on a connection that has no keys for them, which is every connection reachable through the connection API; the outcome is an error.", "quantifier": "every byte stream, every reachable connection", "why_tests_cant": "all inputs and histories", "anchors": ["src/connection.rs: Connection::borrow_remote_tls_secrets", "src/packet.rs: PacketHandshake::from_stream"]}
{"id": "C35", "title": "Packet decoding does not panic on hostile input", "statement": "Decoding the packets of any datagram on a connection terminates and never panics.", "quantifier": "every datagram, every connection", "why_tests_cant": "all inputs an attacker could send", "anchors": ["src/packet.rs: decode_packets", "src/packet.rs: decode_next_packet", "src/quictls/cipher_suite.rs: internal_decrypt_aes_128_gcm"]}
{"id": "C36", "title": "Coalesced packets are all decoded", "statement": "A datagram made of several Initial packets serialized one after the other decodes to exactly those packets in order.", "quantifier": "every number of packets and payloads", "why_tests_cant": "unbounded number of packets", "anchors": ["src/packet.rs: decode_packets"]}
{"id": "C37", "title": "The Length field delimits the packet", "statement": "In a serialized Initial or Handshake packet the Length field equals the number of bytes that follow it, so packets are self-delimiting.", "quantifier": "every packet", "why_tests_cant": "all packets", "anchors": ["src/packet.rs: PacketInitial::serialize", "src/packet.rs: PacketHandshake::serialize"]}
{"id": "C38", "title": "Version Negotiation parsing", "statement": "A Version Negotiation packet parses exactly when its id fields are complete and a multiple of four bytes follows; it yields the versions in order, big-endian, and consumes the whole datagram.", "quantifier": "every byte stream with a version-0 long header", "why_tests_cant": "all inputs", "anchors": ["src/packet.rs: PacketVersionNegotiation::from_stream"]}
{"id": "C39", "title": "HKDF label encoding", "statement": "The key-derivation label encoding is the TLS 1.3 HkdfLabel structure (two-byte length, length-prefixed \"tls13 \" label, length-prefixed context), fails exactly when a part does not fit, and different inputs give different encodings.", "quantifier": "every length, label and context", "why_tests_cant": "injectivity over all inputs", "anchors": ["src/quictls/cipher_suite.rs: get_hkdf_label_info"]}
{"id": "C40", "title": "Transport parameter encoding", "statement": "Each transport parameter serializes to its RFC 9000 id, the length of the value and the value; serialization fails exactly when an integer or length does not fit; a sequence of serialized parameters can be split back uniquely, so different parameter lists never serialize alike.", "quantifier": "every parameter list", "why_tests_cant": "all values and lists; the repository has no test", "anchors": ["src/transport_parameters.rs: TransportParameter::serialize", "src/transport_parameters.rs: TransportParameter::identifier_val"]}
{"id": "C41", "title": "Preferred address transport parameter format", "statement": "The preferred_address parameter carries IPv4 address and port, IPv6 address and port, connection id length, connection id and the 16-byte stateless reset token.", "quantifier": "every preferred address", "why_tests_cant": "structure of all values", "anchors": ["src/transport_parameters.rs: PreferredAddress::to_bytes"]}
{"id": "C42", "title": "Transport error codes", "statement": "Every error maps to its RFC 9000 section 20.1 transport error code and different kinds of errors have different codes.", "quantifier": "every error value", "why_tests_cant": "covers all error values including every message", "anchors": ["src/error.rs: Error::to_error_byte"]}
{"id": "C43", "title": "Datagrams reach only their own connection", "statement": "Routing a datagram appends it to the queue of the connection whose id is the datagram's destination id and changes no other connection; if there is none it returns an error and changes nothing.", "quantifier": "every datagram, every table state", "why_tests_cant": "all states and histories", "anchors": ["src/routing.rs: InternalQuicSocket::route_datagram"]}
{"id": "C44", "title": "Per-connection delivery is FIFO and lossless", "statement": "Over any history of routing, accepting and dropping, the datagrams queued for a live connection are exactly those routed to it since it was created, in order, without loss or duplication.", "quantifier": "every history of operations", "why_tests_cant": "unbounded histories", "anchors": ["src/routing.rs: InternalQuicSocket::route_datagram", "src/routing.rs: InternalQuicSocket::drop_connection"]}
{"id": "C45", "title": "Accepting never hijacks an existing connection", "statement": "A newly accepted connection is registered under an id no live connection has, and all existing connections are left unchanged, under any interleaving of concurrent accepts, drops and routings.", "quantifier": "every schedule of any number of threads and every sequence of random ids", "why_tests_cant": "interleavings and random collisions", "anchors": ["src/routing.rs: InternalQuicSocket::accept"]}
{"id": "C46", "title": "Registered connections know their own id", "statement": "Every connection in the table has as its local (source) id the id it is registered under, with length 8 and value below 2^64, so that a peer's short-header reply is routed back to it.", "quantifier": "every reachable socket state", "why_tests_cant": "all histories and schedules", "anchors": ["src/routing.rs: InternalQuicSocket::accept", "src/connection.rs: Connection::set_scid"]}
{"id": "C47", "title": "Dropping a connection removes only that connection", "statement": "Dropping a stream removes its connection, after which datagrams for it are refused, and leaves all other connections and their queues unchanged; dropping twice is harmless.", "quantifier": "every state, every id", "why_tests_cant": "all states", "anchors": ["src/routing.rs: InternalQuicSocket::drop_connection", "src/interface.rs: Drop for QuicStream"]}
{"id": "C48", "title": "Accept returns a connection for a new Initial", "statement": "When a new client's Initial datagram arrives, accept returns the id of a new registered connection.", "quantifier": "every datagram sequence", "why_tests_cant": "all sequences", "anchors": ["src/routing.rs: InternalQuicSocket::accept"]}
{"id": "C49", "title": "Accept survives stray datagrams", "statement": "While waiting for a new connection, datagrams that are malformed or belong to no known connection are ignored and do not bring down the accepting thread.", "quantifier": "every sequence of received datagrams", "why_tests_cant": "all sequences an attacker can send", "anchors": ["src/routing.rs: InternalQuicSocket::recv_new_initial_datagram"]}
{"id": "C50", "title": "A repeated Initial does not open a second connection", "statement": "After a client's Initial has been accepted, a retransmission of the same Initial datagram is routed to that connection rather than accepted as a new one.", "quantifier": "every Initial datagram and every random id", "why_tests_cant": "all datagrams and histories", "anchors": ["src/routing.rs: InternalQuicSocket::recv_new_initial_datagram", "src/routing.rs: InternalQuicSocket::accept"]}
{"id": "C51", "title": "Connection ids of different lengths are different", "statement": "Datagrams whose destination ids differ in length are not routed to the same connection.", "quantifier": "every pair of datagrams", "why_tests_cant": "all pairs", "anchors": ["src/utils.rs: var_u160_from_stream", "src/routing.rs: InternalQuicSocket::route_datagram"]}
{"id": "C52", "title": "Headers built for a connection carry its identity", "statement": "A packet built for a connection carries the connection's version, destination and source ids with their lengths, the type bits of the packet kind, and a packet number length field equal to the bytes of the truncated number.", "quantifier": "every connection with ids of at most 20 bytes and every payload", "why_tests_cant": "all connections", "anchors": ["src/packet.rs: LongPacketHeader::from_connection", "src/packet.rs: PacketInitial::new", "src/packet.rs: PacketHandshake::new"]}
{"id": "C53", "title": "Handshake packets round-trip when keys are installed", "statement": "With matching Handshake keys installed on both sides, a serialized Handshake packet decodes to the same packet number and frames; the packet number reported is the one encoded, whatever its length.", "quantifier": "every payload, every packet number length", "why_tests_cant": "all packets", "anchors": ["src/packet.rs: PacketHandshake::serialize", "src/packet.rs: PacketHandshake::from_stream"]}
{"id": "C54", "title": "Socket locking cannot deadlock or poison", "statement": "For any number of threads using the socket under any schedule, no deadlock is reachable through the socket's locks, and no lock that later operations unwrap is ever poisoned by a panicking thread.", "quantifier": "every schedule of any number of threads", "why_tests_cant": "all interleavings", "anchors": ["src/routing.rs: InternalQuicSocket", "src/interface.rs: QuicSocket"]}
{"id": "C55", "title": "Traffic logging does not change behaviour", "statement": "Turning the traffic log on or off never changes what is received, routed, accepted or decoded.", "quantifier": "every state, every datagram", "why_tests_cant": "all states", "anchors": ["src/routing.rs: InternalQuicSocket::recv_datagram", "src/routing.rs: InternalQuicSocket::packets_from_datagram", "src/interface.rs: QuicSocket::set_log_traffic"]}
{"id": "C56", "title": "Packet number space exhaustion is an error, not a wrap", "statement": "When a connection runs out of packet numbers it can encode, building a packet returns an error; no packet is ever built with a packet number whose encoding does not determine it.", "quantifier": "every history of operations", "why_tests_cant": "needs 2^32 operations", "anchors": ["src/connection.rs: truncate_pn", "src/connection.rs: Connection::get_next_pn", "src/packet.rs: PacketInitial::new"]}
{"id": "C57", "title": "Packets sent conform to RFC 9000 and RFC 9001", "statement": "The bytes of every serialized Initial or Handshake packet are a packet of RFC 9000 section 17.2 protected as RFC 9001 section 5 prescribes under the sender's keys, with a payload that is the RFC 9000 encoding of the frames; a packet is serialized exactly when packet number and payload together have at least four bytes.", "quantifier": "every packet built at any point of any connection's history, every payload and token", "why_tests_cant": "conformance of all byte strings that can be sent; the tests compare one sample packet", "anchors": ["src/packet.rs: PacketInitial::serialize", "src/packet.rs: PacketHandshake::serialize", "src/packet.rs: PacketInitial::new"]}
{"id": "C58", "title": "A server answers to the client's source id", "statement": "All packets built for a connection accepted from a client's Initial carry the client's source connection id as destination id.", "quantifier": "every Initial datagram, every socket state, every later history of the connection", "why_tests_cant": "all ids and histories", "anchors": ["src/routing.rs: InternalQuicSocket::accept", "src/connection.rs: Connection::new"]}
{"id": "C59", "title": "Unknown versions open no connection", "statement": "An Initial packet of a version the crate does not implement opens no connection.", "quantifier": "every version and Initial datagram", "why_tests_cant": "all 2^32 versions", "anchors": ["src/routing.rs: InternalQuicSocket::recv_new_initial_datagram", "src/routing.rs: InternalQuicSocket::accept"]}
{"id": "C60", "title": "Received datagrams are complete", "statement": "A received UDP datagram is handed on with all its bytes and its sender.", "quantifier": "every datagram of up to 65507 bytes", "why_tests_cant": "all lengths", "anchors": ["src/routing.rs: InternalQuicSocket::recv_datagram"]}
{"id": "C61", "title": "Small Initial datagrams open no connection", "statement": "A datagram of less than 1200 bytes opens no connection (RFC 9000 section 14.1).", "quantifier": "every datagram", "why_tests_cant": "all datagrams", "anchors": ["src/routing.rs: InternalQuicSocket::recv_new_initial_datagram"]}
{"id": "C62", "title": "The datagram that opens a connection is delivered to it", "statement": "The Initial datagram that makes the server accept a connection is delivered to that connection, and so are later datagrams for it.", "quantifier": "every Initial datagram and socket state", "why_tests_cant": "all states", "anchors": ["src/routing.rs: InternalQuicSocket::accept", "src/routing.rs: InternalQuicSocket::route_datagram"]}
{"id": "C63", "title": "Only permitted frames are delivered and sent", "statement": "Frames that RFC 9000 section 12.4 does not permit in the type of packet they arrive in are not delivered.", "quantifier": "every datagram, every reachable connection", "why_tests_cant": "all frame lists in all packet types", "anchors": ["src/packet.rs: PacketInitial::from_stream", "src/packet.rs: PacketInitial::new", "src/frame.rs: deserialize_frames"]}
{"id": "C64", "title": "Packets without frames are rejected", "statement": "A packet whose payload holds no frame is not delivered (RFC 9000 section 12.4).", "quantifier": "every datagram, every reachable connection", "why_tests_cant": "all packets", "anchors": ["src/packet.rs: PacketInitial::from_stream", "src/frame.rs: deserialize_frames"]}
{"id": "C65", "title": "Reserved and fixed bits are checked", "statement": "A packet is delivered only if its fixed bit is 1 and its reserved bits are 0 (RFC 9000 section 17.2).", "quantifier": "every datagram, every reachable connection", "why_tests_cant": "all header bytes", "anchors": ["src/packet.rs: PacketInitial::from_stream", "src/packet.rs: next_header_from_stream", "src/packet.rs: PacketInitial::new"]}
{"id": "C66", "title": "Duplicate packets are discarded", "statement": "No packet number is delivered twice in one packet number space (RFC 9000 section 12.3).", "quantifier": "every datagram, every reachable connection, every history", "why_tests_cant": "unbounded histories", "anchors": ["src/packet.rs: decode_packets", "src/connection.rs: Connection::reconstruct_remote_pn"]}
{"id": "C67", "title": "A packet that cannot be decoded does not discard the others", "statement": "If one packet of a datagram cannot be decoded, the packets before it are still delivered (RFC 9000 section 12.2).", "quantifier": "every datagram of any number of packets", "why_tests_cant": "unbounded number of packets", "anchors": ["src/packet.rs: decode_packets"]}
{"id": "C68", "title": "Frame fields are within the limits of RFC 9000", "statement": "Every delivered frame satisfies the limits RFC 9000 section 19 sets on its fields: stream offsets and stream counts, ACK ranges, non-empty tokens, retire-prior-to, connection id length.", "quantifier": "every payload", "why_tests_cant": "all payloads", "anchors": ["src/frame.rs: deserialize_frame"]}
{"id": "C69", "title": "floor_log2 is the binary logarithm", "statement": "floor_log2 of a non-zero number is the largest n with 2^n not above it, and of zero an error.", "quantifier": "every number of every width", "why_tests_cant": "all 2^64 numbers", "anchors": ["src/utils.rs: FloorLog2"]}
{"id": "C70", "title": "Frame constructors give well-formed frames", "statement": "Frames made by the constructors hold what was given and are well formed (length fields match, values fit), hence can be serialized and parsed back.", "quantifier": "every argument that fits", "why_tests_cant": "all arguments", "anchors": ["src/frame.rs: FrameCrypto::new", "src/frame.rs: FrameNewToken::new", "src/frame.rs: FrameStream::new", "src/frame.rs: FrameConnectionClose::new_error", "src/frame.rs: FrameNewConnectionId::new"]}
{"id": "C71", "title": "Decoding does not depend on the receiver's history", "statement": "What is decoded from a datagram depends only on the side, version and destination id a connection was created with: not on what was sent, received or lost before.", "quantifier": "every datagram, every two histories", "why_tests_cant": "pairs of unbounded histories", "anchors": ["src/packet.rs: decode_packets", "src/connection.rs: Connection::reconstruct_remote_pn"]}
{"id": "C72", "title": "0-RTT packets are decoded when keys are installed", "statement": "With 0-RTT keys installed, every correctly protected 0-RTT packet is decoded to its packet number and frames.", "quantifier": "every packet number of every length, payload and connection", "why_tests_cant": "all packets", "anchors": ["src/packet.rs: PacketZeroRtt::from_stream"]}
{"id": "C73", "title": "Debug and release builds agree", "statement": "Where a debug build does not panic, a release build does the same: in decoding any datagram and over any history of sending. Whatever packets a release build delivers, a debug build delivers as well.", "quantifier": "every datagram, every connection, every history", "why_tests_cant": "compares two builds on all inputs", "anchors": ["src/packet.rs: decode_packets", "src/connection.rs: Connection::get_next_pn"]}
{"id": "C74", "title": "1-RTT packets are decoded when keys are installed", "statement": "With 1-RTT keys installed, every correctly protected 1-RTT packet is decoded to its packet number and frames.", "quantifier": "every packet number of every length, payload and connection", "why_tests_cant": "all packets", "anchors": ["src/packet.rs: PacketOneRtt::from_stream"]}
{"id": "C75", "title": "The algorithms satisfy what is assumed of the libraries", "statement": "SHA-256, HMAC, HKDF, AES-128 and AES-128-GCM as specified in FIPS 180-4, FIPS 198-1, RFC 5869, FIPS 197 and SP 800-38D satisfy the laws other properties rest on; with them the Initial keys of a connection are those of RFC 9001 written out in HMAC, the header protection mask is the AES encryption of the sample, and packets round-trip.", "quantifier": "every key, nonce, associated data and plaintext; every connection", "why_tests_cant": "all inputs of the algorithms", "anchors": ["src/quictls/cipher_suite.rs: TLS13_AES_128_GCM_SHA256", "src/quictls/cipher_suite.rs: hp_mask_aes_128_ecb", "src/quictls/secrets.rs: Secrets::from_initial"]}
{"id": "C76", "title": "The frame parser decides the fate of a genuine packet", "statement": "A correctly protected Initial or Handshake packet is decoded to its header, token, packet number and whatever the frame parser makes of the payload, or fails with the frame parser's error; in both cases exactly the bytes of the packet are consumed.", "quantifier": "every packet built by a peer after any history, and every RFC packet with a four-byte packet number, every payload", "why_tests_cant": "all payloads, also malformed ones", "anchors": ["src/packet.rs: PacketInitial::from_stream", "src/packet.rs: PacketHandshake::from_stream", "src/packet.rs: decode_next_packet"]}
{"id": "C77", "title": "Decoding holds no more than the bytes received", "statement": "Whatever counts and lengths the input declares, the data, tokens, ACK ranges, versions and ids held by decoded frames and packets together number no more than the bytes of the payload or datagram, and the loops driven by declared counts stop when the bytes run out.", "quantifier": "every byte stream, every declared count, every reachable connection", "why_tests_cant": "needs hostile lengths of all kinds", "anchors": ["src/frame.rs: FrameAck::from_datagram", "src/utils.rs: var_bytes_from_stream", "src/packet.rs: decode_packets"]}
{"id": "C78", "title": "Only packets of the connection's version are delivered", "statement": "A connection delivers only packets whose version field is the version of the connection (RFC 9000 section 5.2), and builds only such packets.", "quantifier": "every datagram, every reachable connection", "why_tests_cant": "all version numbers", "anchors": ["src/packet.rs: decode_next_packet", "src/packet.rs: PacketInitial::from_stream", "src/packet.rs: PacketInitial::new"]}
{"id": "C79", "title": "Coalesced packets have one destination id", "statement": "All packets delivered from one datagram have the same destination connection id, which is the id the datagram was routed by (RFC 9000 section 12.2).", "quantifier": "every datagram of any number of packets, every reachable connection, every execution of the socket", "why_tests_cant": "unbounded number of packets, all connection ids", "anchors": ["src/packet.rs: decode_packets", "src/routing.rs: InternalQuicSocket::packets_from_datagram"]}
{"id": "C80", "title": "Servers send no token", "statement": "Servers build no Initial packet with a token and clients deliver no Initial packet with a token (RFC 9000 section 17.2.2).", "quantifier": "every token, every datagram, every history of a connection", "why_tests_cant": "all tokens and histories", "anchors": ["src/packet.rs: PacketInitial::new", "src/packet.rs: PacketInitial::from_stream"]}
{"id": "C81", "title": "Packets with a Length field are decoded from their own bytes alone", "statement": "Whether and how a packet that carries a Length field is decoded depends on its own bytes only, whatever bytes follow in the datagram; no such packet is a proper prefix of another, and decoding a datagram followed by further bytes gives the packets of both.", "quantifier": "every byte stream, every connection whose keys come from the cipher suite, any number of packets", "why_tests_cant": "all continuations of all packets", "anchors": ["src/packet.rs: decode_next_packet", "src/packet.rs: decode_packets"]}
{"id": "C82", "title": "Packet numbers start at 0 and have no gaps", "statement": "The packet numbers a connection gives out in each packet number space are 0, 1, 2, ... in order (RFC 9000 section 12.3).", "quantifier": "every connection, space and history of operations, failed ones included", "why_tests_cant": "unbounded histories", "anchors": ["src/connection.rs: Connection::get_next_pn", "src/packet.rs: PacketInitial::new"]}
{"id": "C83", "title": "Client Initial packets fill 1200-byte datagrams", "statement": "Every Initial packet a client builds serializes to at least 1200 bytes (RFC 9000 section 14.1).", "quantifier": "every client, history, list of frames and token", "why_tests_cant": "all frame lists and histories", "anchors": ["src/packet.rs: PacketInitial::new", "src/packet.rs: PacketInitial::serialize"]}
{"id": "C84", "title": "Initial packets with short destination ids open no connection", "statement": "A datagram whose first packet is an Initial packet with a destination id of less than 8 bytes opens no connection (RFC 9000 section 7.2).", "quantifier": "every datagram, every state of the socket", "why_tests_cant": "all ids and socket states", "anchors": ["src/routing.rs: InternalQuicSocket::accept", "src/packet.rs: LongPacketHeader::from_stream"]}
{"id": "C85", "title": "What the socket holds is bounded by what it received", "statement": "In every reachable state the connections in the table and the datagrams waiting for them together are no more than the datagrams received; the connections are no more than the received datagrams with an Initial header; every waiting datagram was received and has at most 4096 bytes.", "quantifier": "every schedule of any number of threads, unbounded executions", "why_tests_cant": "schedules and execution lengths are unbounded", "anchors": ["src/routing.rs: InternalQuicSocket::accept", "src/routing.rs: InternalQuicSocket::packets_from_datagram"]}
{"id": "C86", "title": "Only authentic Initial packets open connections", "statement": "A datagram opens a connection only if it holds an Initial packet that the new connection can decode (RFC 9000 section 5.2.2, RFC 9001 section 5.2).", "quantifier": "every datagram, every state of the socket, every schedule", "why_tests_cant": "all byte strings", "anchors": ["src/routing.rs: InternalQuicSocket::accept", "src/connection.rs: Connection::new"]}
{"id": "C87", "title": "Only allowed transport parameter values are encoded", "statement": "A transport parameter is encoded only with a value RFC 9000 section 18.2 allows for it.", "quantifier": "every parameter and value", "why_tests_cant": "2^62 values per parameter", "anchors": ["src/transport_parameters.rs: TransportParameter::serialize"]}
{"id": "C88", "title": "Concurrent calls have the effect of calls one after the other", "statement": "Whatever several threads do at the same time, the table of connections and their queues are what some sequence of calls, each made alone, leaves.", "quantifier": "every schedule of any number of threads, unbounded executions", "why_tests_cant": "interleavings are unbounded and tests run one of them", "anchors": ["src/routing.rs: InternalQuicSocket::accept", "src/routing.rs: InternalQuicSocket::drop_connection"]}
{"id": "C89", "title": "Every byte of an accepted packet is authenticated", "statement": "Two Initial packets that are both accepted and whose opening had the same packet number, associated data, ciphertext and tag are the same bytes: no byte of a packet can be changed without changing what the AEAD authenticates.", "quantifier": "every reachable connection, every pair of byte strings", "why_tests_cant": "all byte strings and all changes to them", "anchors": ["src/packet.rs: PacketInitial::from_stream"]}
{"id": "C90", "title": "Buffers are allocated soundly", "statement": "The safe functions that allocate boxed buffers return the requested number of values of the element type or panic; they never run into undefined behaviour and never return uninitialised or invalid values.", "quantifier": "every element type, length and state of the memory", "why_tests_cant": "all types and lengths, exhausted memory", "anchors": ["src/utils.rs: calloc_box_buffer", "src/utils.rs: alloc_box_buffer"]}
{"id": "C91", "title": "No call goes on for ever by itself", "statement": "In every infinite execution, a thread that keeps moving and never ends its call receives datagrams infinitely often or finds the ids it draws taken infinitely often; calls that neither receive nor draw ids end within eight steps of their own.", "quantifier": "every infinite execution of any number of threads", "why_tests_cant": "infinite executions cannot be run", "anchors": ["src/routing.rs: InternalQuicSocket::accept", "src/routing.rs: InternalQuicSocket::recv_new_initial_datagram", "src/routing.rs: InternalQuicSocket::packets_from_datagram", "src/routing.rs: InternalQuicSocket::drop_connection"]}
{"id": "C92", "title": "The logging switch takes effect", "statement": "Once a caller has switched traffic logging on, one line is printed for each datagram received, in order, with the type and destination id of its first packet, and one for each list of packets decoded; no such line is printed while it is off.", "quantifier": "every history of calls, every state of the socket", "why_tests_cant": "histories and datagrams are unbounded; printed output is not tested", "anchors": ["src/interface.rs: QuicSocket::set_log_traffic", "src/routing.rs: InternalQuicSocket::set_log_traffic", "src/routing.rs: InternalQuicSocket::recv_datagram"]}
{"id": "C93", "title": "Re-encoding a parsed payload loses nothing and takes no more bytes", "statement": "Whatever payload was parsed, its frames can be written again, in at most as many bytes, and what is written is parsed as the same frames, STREAM frames and CRYPTO frames at any offset included.", "quantifier": "every payload below 2^62 bytes that parses", "why_tests_cant": "all payloads", "anchors": ["src/frame.rs: deserialize_frames", "src/frame.rs: serialize_frames"]}
{"id": "C94", "title": "Frames are written in the shortest way", "statement": "No RFC 9000 encoding of the same frames as a packet payload is shorter than what is written, and no other encoding is as short.", "quantifier": "every list of frames that can be written and every competing encoding", "why_tests_cant": "quantifies over all other encodings", "anchors": ["src/frame.rs: serialize_frames", "src/frame.rs: Frame::to_bytes"]}
{"id": "C95", "title": "Calls that do not wait for the network end", "statement": "If every thread that can go on goes on some time, and no thread waits for ever for a lock that nobody keeps for ever, then every call of packets_from_datagram, drop_connection and set_log_traffic ends, by returning or by a panic; and every accept that has received a datagram ends, or waits for the next one, or draws an id that is taken.", "quantifier": "every infinite execution of any number of threads under a fair scheduler and starvation-free locks", "why_tests_cant": "liveness: no finite test shows it", "anchors": ["src/routing.rs: InternalQuicSocket::accept", "src/routing.rs: InternalQuicSocket::packets_from_datagram", "src/routing.rs: InternalQuicSocket::drop_connection", "src/routing.rs: InternalQuicSocket::set_log_traffic"]}
{"id": "C96", "title": "An application can release its connections", "statement": "Whatever was called and whatever arrived, every connection of the socket can be released by further calls of the application.", "quantifier": "every history of public calls, every network", "why_tests_cant": "all histories", "anchors": ["src/interface.rs: QuicSocket::accept", "src/interface.rs: QuicSocket::connect", "src/interface.rs: QuicStream", "src/routing.rs: InternalQuicSocket::drop_connection"]}
{"id": "C97", "title": "Every Initial packet accepted is a packet the peer sent", "statement": "Whatever bytes the network delivers, an Initial packet that the decoder accepts has exactly the bytes of an Initial packet that the peer of the connection built and serialized earlier, and its header, token, packet number and decrypted payload bytes are those of that packet; otherwise the bytes contain a forgery: a ciphertext and tag which the AEAD opens under the connection's key with a nonce and associated data for which the peer never sealed them.", "quantifier": "all histories of both ends, all connection ids, both directions, all streams (malformed, reordered, spliced, with transport errors), all places in a datagram, all primitives satisfying the stated laws", "why_tests_cant": "A test can only try a few tampered packets; that every other byte string is rejected unless the AEAD itself is broken is a statement about all byte strings and all histories.", "anchors": ["src/packet.rs: PacketInitial::from_stream", "src/packet.rs: PacketInitial::serialize", "src/packet.rs: decode_next_packet", "src/packet.rs: decode_packets"]}
{"id": "C98", "title": "Malformed payloads are reported with FRAME_ENCODING_ERROR", "statement": "When a packet payload is refused because it is not a sequence of frames (an unknown frame type, a frame cut short, a field out of range), the error carries the transport error code FRAME_ENCODING_ERROR (0x07) that the specification requires in a CONNECTION_CLOSE; and no operation of the program (reading headers, frames and packets, writing frames, parameters and packets, creating connections, routing) labels a failure with the code of a different failure.", "quantifier": "all payloads, streams, connections with any keys, values written, executions of the socket", "why_tests_cant": "A test sees that an error comes back for the malformed inputs it lists, rarely which code it would be reported with; the claim is about every error any input can provoke.", "anchors": ["src/error.rs: to_error_byte", "src/frame.rs: deserialize_frames", "src/frame.rs: deserialize_frame", "src/packet.rs: decode_packets", "src/routing.rs: packets_from_datagram"]}
{"id": "C99", "title": "Decoding and receiving write nothing of their own", "statement": "Reading packets and frames, writing packets and accepting connections with logging off are functions of their inputs: they write nothing to standard output or standard error, and behave the same when these cannot be written.", "quantifier": "all bytes, connections, sockets, sequences of network events, both outputs writable or not", "why_tests_cant": "Test runs capture output and ignore it, and always provide one; whether some input makes a decoder print is a question about all inputs.", "anchors": ["src/utils.rs: var_bytes_from_stream", "src/packet.rs: decode_packets", "src/frame.rs: deserialize_frames", "src/routing.rs: recv_new_initial_datagram", "src/routing.rs: route_datagram", "src/routing.rs: accept"]}
{"id": "C100", "title": "What is decoded does not depend on the width of a pointer", "statement": "On machines with 16-, 32- and 64-bit pointers with memory for the bytes, the same packets and frames are accepted, with the same contents, and the same are refused.", "quantifier": "all bytes, connections, pointer widths up to 64 bits", "why_tests_cant": "Tests run on one machine, with lengths far below 2^32; the lengths on which machines differ are those no test sends.", "anchors": ["src/frame.rs: FrameNewToken::from_datagram", "src/frame.rs: FrameCrypto::from_datagram", "src/packet.rs: PacketInitial::from_stream", "src/packet.rs: decode_packets", "src/utils.rs: var_bytes_from_stream"]}
{"id": "C101", "title": "A log that cannot be written does not disable the socket", "statement": "Whether standard output and standard error can be written or not, no sequence of calls by any number of threads poisons a lock of the socket, so that the socket can go on receiving.", "quantifier": "all interleavings of any number of threads calling accept, packets_from_datagram, drop_connection and set_log_traffic, all datagrams, both outputs writable or not", "why_tests_cant": "Tests always have a standard output; a poisoned lock shows only in what later calls of other threads do.", "anchors": ["src/routing.rs: recv_datagram", "src/routing.rs: packets_from_datagram", "src/routing.rs: set_log_traffic", "src/routing.rs: accept"]}
{"id": "C102", "title": "Formatting a socket does not show its keys", "statement": "The text that formatting a QuicSocket for debugging gives does not depend on key material: sockets that differ only in their header protection keys, initialisation vectors and packet protection keys have the same texts.", "quantifier": "all tables of connections, in any order, all keys of all packet number spaces, all states of the locks", "why_tests_cant": "A test can look for one key in one text; that no key has any influence is a statement about pairs of states.", "anchors": ["src/interface.rs: QuicSocket", "src/routing.rs: InternalQuicSocket", "src/connection.rs: PacketNumberSpaceInfo", "src/quictls/secrets.rs: Secrets", "src/quictls/cipher_suite.rs: QuicTlsCipherSuite"]}
{"id": "C103", "title": "What the socket prints can be read back", "statement": "Whatever peers send, every line the socket prints is a single line of printable ASCII, and the text on standard output, and that on standard error, of any number of calls of any number of threads determines the sequence of lines: the headers received with all their fields, the packets and frames decoded, and the errors. No datagram can forge a line of the log or make two different events look alike.", "quantifier": "all datagrams, sockets, connections, sequences and interleavings of calls, machines", "why_tests_cant": "Tests do not look at the log; that no two of the infinitely many logs coincide cannot be seen on samples.", "anchors": ["src/routing.rs: recv_datagram", "src/routing.rs: packets_from_datagram", "src/routing.rs: recv_new_initial_datagram", "src/utils.rs: var_bytes_from_stream", "src/packet.rs: PacketHeader", "src/packet.rs: Packet", "src/frame.rs: Frame", "src/error.rs: Error"]}
{"id": "C104", "title": "Every protected packet accepted, of any kind, carries what the peer protected", "statement": "Whatever the network does and whichever implementation the peer is: an Initial, Handshake, 0-RTT or 1-RTT packet that is accepted has the first byte, the header, the packet number and the payload of one packet that the peer protected with the key of that kind, and all its bytes if the packet number has four bytes, unless the bytes accepted contain a ciphertext and tag that the AEAD opens although the peer never sealed them.", "quantifier": "all byte streams and datagrams, all connections and keys, all sets of packets protected by the peer with packet numbers of any length", "why_tests_cant": "Tests feed genuine packets or packets with a flipped bit; the claim covers every mixture of parts of packets of different kinds, since 0-RTT and 1-RTT packets share their keys.", "anchors": ["src/packet.rs: decode_next_packet", "src/packet.rs: decode_packets", "src/packet.rs: PacketHandshake::from_stream", "src/packet.rs: PacketZeroRtt::from_stream", "src/packet.rs: PacketOneRtt::from_stream", "src/connection.rs: decrypt_remote_payload"]}
{"id": "C105", "title": "Sockets and streams can be used by several threads", "statement": "A QuicSocket and the QuicStreams accepted from it can be moved to other threads and shared between threads (they are Send and Sync), as the types of std::net that the README takes as the model of the interface.", "quantifier": "all standard libraries before and after Rust 1.72; all types in the place of the receiver of a stream", "why_tests_cant": "A type that is not Send gives no failing test, only programs that do not compile; nobody has written such a program for this crate yet.", "anchors": ["src/interface.rs: QuicSocket", "src/interface.rs: QuicStream", "src/routing.rs: InternalQuicSocket", "src/routing.rs: InternalQuicStream"]}
{"id": "C106", "title": "The hexadecimal dump shows the file", "statement": "The text that prettify_bin.py writes for a file, read as a hexadecimal dump, gives back exactly the bytes of the file; different files have different dumps; a line shows 32 bytes, in two groups of sixteen, the last line the rest.", "quantifier": "all files", "why_tests_cant": "Tests would use a few files; the cases at the ends of groups and lines (lengths around multiples of 16 and 32, odd numbers of groups) are where such scripts lose bytes.", "anchors": ["tools/prettify_bin.py: reformat_bin"]}
{"id": "C107", "title": "No key protects more packets than the AEAD allows", "statement": "In every history of a connection at most 2^23 Initial packets are protected with its key for them, the confidentiality limit that RFC 9001 section 6.6 sets for AEAD_AES_128_GCM.", "quantifier": "all connections, both roles, all histories of any length, all frames and tokens", "why_tests_cant": "No test sends eight million packets on one connection; that every history stays below a limit is a statement about unbounded executions.", "anchors": ["src/connection.rs: get_next_pn", "src/connection.rs: encrypt_local_payload", "src/packet.rs: PacketInitial::new", "src/packet.rs: PacketInitial::serialize"]}
{"id": "C108", "title": "The key phase selects the keys of 1-RTT packets", "statement": "A receiver that holds the keys of one key phase delivers no 1-RTT packet whose Key Phase bit names the other phase (RFC 9001 section 6).", "quantifier": "all connections with application keys, all streams, all 1-RTT packets", "why_tests_cant": "Tests of the crate contain no 1-RTT packet at all; that the bit has no influence is a statement about all packets.", "anchors": ["src/packet.rs: PacketOneRtt::from_stream", "src/packet.rs: ShortPacketHeader", "src/connection.rs: decrypt_remote_payload"]}
{"id": "C109", "title": "Stateless resets are recognised", "statement": "Once a stateless reset token has been delivered in a NEW_CONNECTION_ID frame, a datagram that is a stateless reset with that token (RFC 9000 section 10.3) is classified as one.", "quantifier": "all tokens, all datagrams of at least 21 bytes that end in the token, all connections", "why_tests_cant": "A reset is random bytes but for its end; tests could contain some examples, never all lengths and contents.", "anchors": ["src/packet.rs: ShortPacketHeader::packet_type", "src/packet.rs: next_header_from_stream", "src/packet.rs: PacketType"]}
{"id": "C110", "title": "Packets are routed by connection id, not by address", "statement": "What the socket does with a datagram does not depend on the address it came from (RFC 9000 section 5.1): two histories with the same bytes in the same order have the same results and leave the same ids, connections, queued bytes and printed lines, and each queued datagram keeps its own address.", "quantifier": "all histories of calls, all replacements of addresses, all schedules of any number of threads", "why_tests_cant": "Tests run on one host, where the addresses of a test are few and fixed; independence of the address is a statement about pairs of executions.", "anchors": ["src/routing.rs: recv_datagram", "src/routing.rs: recv_new_initial_datagram", "src/routing.rs: route_datagram", "src/routing.rs: accept", "src/routing.rs: packets_from_datagram"]}
{"id": "C111", "title": "Losses, repetitions and reordering change nothing but what arrives", "statement": "What an arriving datagram yields does not depend on which datagrams arrived before it, how often or in which order: at any time after the connection was created, until it is dropped, every datagram for it yields what it yields on the connection as created; and the queue of a connection decodes, in order of arrival, to exactly what each of the datagrams that arrived yields alone: for a client whose packets have four-byte numbers and readable payloads, the packets it sent.", "quantifier": "all schedules of any number of threads, all sequences of arrivals mixed with datagrams for other connections, all datagrams, authentic or not", "why_tests_cant": "Networks lose, repeat and reorder at will: the orders of arrival are factorially many and the repetitions unbounded.", "anchors": ["src/routing.rs: recv_new_initial_datagram", "src/routing.rs: route_datagram", "src/routing.rs: packets_from_datagram", "src/packet.rs: decode_packets"]}
{"id": "C112", "title": "The bytes of a packet determine the packet, and no packet is sent twice", "statement": "Two protected packets of one kind under the same keys of which one begins the other have the same header, token and packet number bytes, and the same payload if they carry the same number; packets of different kinds never begin each other. So the packets a connection sends can be told apart: a datagram has one reading as a list of packets sent (length fields of frames being right), and packets built at different places of one history never have the same bytes.", "quantifier": "all keys and library functions that satisfy the laws of the AEAD, all headers, tokens, numbers of one to four bytes and payloads, all histories shorter than 2^64 calls", "why_tests_cant": "Uniqueness is a statement about all pairs of packets; a test compares a few.", "anchors": ["src/packet.rs: PacketInitial::new", "src/packet.rs: PacketInitial::serialize", "src/connection.rs: get_next_pn", "src/connection.rs: encrypt_local_payload"]}
{"id": "C113", "title": "Decoding a datagram takes work proportional to its length", "statement": "Decoding the packets of a datagram takes at most ten elementary steps for each byte of the datagram and 75 besides, whatever the bytes are, whatever counts and lengths they announce, and whether decoding succeeds, fails or panics. A step is a call of next on a stream (the datagram, a clone of it, or a decrypted payload), a look at whether a stream has ended, or a byte passed to the AEAD. Reading the frames of a payload takes at most three steps for each byte and three besides. Reading the header, which is all that is done with a datagram before it is known whose it is, never takes more than 517 steps.", "quantifier": "for all streams, reachable connections, build profiles and primitives satisfying the stated laws", "why_tests_cant": "Tests can time some datagrams; they cannot rule out a crafted one that makes a loop run as often as a count in the packet says, that is read again for each packet in it, or whose cost grows with the square of its length.", "anchors": ["src/packet.rs: decode_packets", "src/packet.rs: decode_next_packet", "src/packet.rs: next_header_from_stream", "src/frame.rs: deserialize_frames", "src/utils.rs: var_bytes_from_stream"]}
{"id": "C114", "title": "Sending frames never panics", "statement": "Building an Initial packet from frames on any connection and writing it returns the bytes of a packet or an error, never a panic, for all frames the constructors of the crate make or that were read from a peer.", "quantifier": "all reachable connections, lists of frames, tokens, build profiles", "why_tests_cant": "the failing inputs are a counter value of 2^64 - 1 and lengths above 20, which samples do not meet; the exact outcome for every combination of connection state and frames needs a proof", "anchors": ["src/packet.rs: new", "src/packet.rs: serialize", "src/packet.rs: to_bytes", "src/frame.rs: serialize_frames", "src/connection.rs: get_next_pn", "src/connection.rs: set_scid"]}
{"id": "C115", "title": "Connections do not influence one another", "statement": "What a socket holds for one connection, and what a datagram for it decodes to, depends only on that connection as created and on the datagrams for it that were taken from the network, in their order: whatever else is received, accepted, dropped or decoded changes nothing.", "quantifier": "all pairs of histories and of schedules, all ids", "why_tests_cant": "noninterference compares two executions that differ arbitrarily; tests compare a few", "anchors": ["src/routing.rs: route_datagram", "src/routing.rs: packets_from_datagram", "src/routing.rs: accept", "src/routing.rs: recv_new_initial_datagram"]}
{"id": "C116", "title": "A call that fails leaves things as they were", "statement": "A call that ends with an error or a panic leaves what it was called on as it was: the connection, for building packets; the table of connections with their queues, for routing, decoding and accepting.", "quantifier": "all connections reachable from Connection::new, all frame lists and tokens, all sockets, datagrams, network events and random ids, all primitives, both profiles", "why_tests_cant": "Tests look at the result of a failing call, not at the state it leaves, and the failures come at many points; here the state after every possible call is given.", "anchors": ["src/connection.rs: get_next_pn", "src/packet.rs: PacketInitial::new", "src/packet.rs: PacketHandshake::new", "src/routing.rs: route_datagram", "src/routing.rs: packets_from_datagram", "src/routing.rs: accept"]}
{"id": "C117", "title": "The refusal of a forged packet tells nothing about the keys", "statement": "What is seen when a datagram is refused that nobody with the keys made (the error, or a panic) does not depend on the keys, only on the datagram and on which packet number spaces have keys: removing header protection and packet protection has no side channel (RFC 9001 section 9.5).", "quantifier": "for all datagrams of which nothing opens, connections with keys in any of the spaces, build profiles and primitives satisfying the stated laws", "why_tests_cant": "A test compares the errors of a few datagrams under a few keys; the difference shows only for particular Lengths, and only when two masks differ in two particular bits.", "anchors": ["src/packet.rs: decode_packets", "src/packet.rs: decode_next_packet", "src/connection.rs: decrypt_remote_payload", "src/utils.rs: var_bytes_from_stream"]}
{"id": "C118", "title": "Packets without protection are checked before they are delivered", "statement": "A Version Negotiation packet is delivered only to a client whose own ids it echoes and whose version it does not list, and only if nothing else was delivered from the datagram; a Retry packet whose integrity is not established is discarded without harm.", "quantifier": "every connection in either role, every history, every datagram", "why_tests_cant": "all datagrams: the packets anybody can forge", "anchors": ["src/packet.rs: PacketVersionNegotiation::from_stream, PacketRetry::from_stream, decode_next_packet"]}
{"id": "C119", "title": "Acknowledgements and the end of the connection are heeded", "statement": "An ACK frame is delivered only if the packet it names as the largest was sent, and once a CONNECTION_CLOSE frame was delivered no packet is built any more.", "quantifier": "every life of a connection: any sequence of datagrams received and operations, in any order", "why_tests_cant": "all interleavings of what is received and what is sent", "anchors": ["src/packet.rs: decode_packets, PacketInitial::new", "src/connection.rs: get_next_pn, truncate_pn"]}
{"id": "C120", "title": "Writing a packet takes work proportional to its length", "statement": "Building and writing an Initial packet from a list of frames takes at most twelve elementary steps for each byte of the packet written and 349 besides. If it ends with an error or a panic, it takes at most ten for each byte of data in the frames (counting 16 for each ACK range), 570 for each frame, three for each byte of the token, and 669 besides. A step is a buffer made, a byte written to a buffer, an iteration of a loop over frames or ranges, or a byte passed to the AEAD.", "quantifier": "for all lists of frames, tokens, reachable connections, build profiles and primitives satisfying the stated laws", "why_tests_cant": "Tests can time some packets; they cannot rule out a list of frames for which buffers are copied again for every frame, so that the cost grows with the square of the length.", "anchors": ["src/packet.rs: serialize", "src/packet.rs: new", "src/packet.rs: to_bytes", "src/frame.rs: serialize_frames", "src/frame.rs: to_bytes", "src/utils.rs: encode_var_int", "src/utils.rs: to_var_bytes"]}
{"id": "C121", "title": "A connection is given only datagrams received while it was there", "statement": "A datagram put into the queue of a connection was received while that connection was registered: it was registered before the datagram was received, and between receipt and delivery it was neither dropped nor replaced by another connection of the same id.", "quantifier": "all numbers of threads, all schedules, all datagrams and ids drawn", "why_tests_cant": "The datagram changes hands between two lock acquisitions; the failing schedules put an accept of another thread, or a drop and an accept, between them.", "anchors": ["src/routing.rs: recv_new_initial_datagram", "src/routing.rs: route_datagram", "src/routing.rs: accept", "src/routing.rs: drop_connection"]}
{"id": "C122", "title": "A payload is sealed as RFC 9001 section 5.3 says, and opening is its inverse", "statement": "encrypt_payload returns bytes exactly if the keys have an initialisation vector, associated data is given and the AEAD seals, and then they are the ciphertext followed by the tag, under the vector xored with the 64-bit packet number; decrypt_payload returns a plaintext exactly for the bytes that encrypt_payload returns for it with the same keys, associated data and packet number; without a vector or without associated data both return an error.", "quantifier": "all keys of any length (initialisation vectors of at least 8 bytes, or none), payloads, optional associated data and 64-bit packet numbers", "why_tests_cant": "The test seals one payload under one packet number that touches a single byte of the vector; no caller leaves the associated data or the vector out, so these branches never run.", "anchors": ["src/quictls/secrets.rs: encrypt_payload", "src/quictls/secrets.rs: decrypt_payload", "src/quictls/cipher_suite.rs: encrypt_aes_128_gcm", "src/quictls/cipher_suite.rs: decrypt_aes_128_gcm", "src/quictls/cipher_suite.rs: internal_encrypt_aes_128_gcm", "src/quictls/cipher_suite.rs: internal_decrypt_aes_128_gcm"]}
{"id": "C123", "title": "The keys made from a secret are those of RFC 9001 sections 5.1 and 5.2", "statement": "from_secret returns keys exactly if the library takes the secret and expands the labels, and then they are the expansions of the secret under \"quic hp\", \"quic iv\" and \"quic key\" to 16, 12 and 16 bytes; every secret of at least 32 bytes gives keys and no secret makes it panic. from_initial returns exactly the keys of RFC 9001 section 5.2 for the side and the bytes of the connection id.", "quantifier": "all secrets, connection ids of any number of bytes, both sides", "why_tests_cant": "The tests derive the keys of one connection id; a wrong label, length or order of fields that cancels out between the two sides shows only against the RFC.", "anchors": ["src/quictls/secrets.rs: from_secret", "src/quictls/secrets.rs: from_initial", "src/quictls/cipher_suite.rs: get_key", "src/quictls/cipher_suite.rs: get_hp_secret", "src/quictls/cipher_suite.rs: get_iv_secret", "src/quictls/cipher_suite.rs: hkdf_expand_label_sha256", "src/quictls/cipher_suite.rs: hkdf_extract_sha256"]}
{"id": "C124", "title": "The header protection mask is that of RFC 9001 section 5.4.3", "statement": "get_header_protection_mask reads exactly 16 bytes and returns the first five bytes of AES-ECB of them under the header protection key; what follows the sample makes no difference; fewer than 16 bytes are an error, the stream's own if it has one there; with a key of 16 bytes it never panics.", "quantifier": "all keys, all streams of bytes and errors", "why_tests_cant": "The test makes the mask of one sample that is exactly 16 bytes long.", "anchors": ["src/quictls/secrets.rs: get_header_protection_mask", "src/quictls/cipher_suite.rs: hp_mask", "src/quictls/cipher_suite.rs: hp_mask_aes_128_ecb", "src/utils.rs: var_bytes_from_stream"]}
{"id": "C125", "title": "The state of a connection is known after every history", "statement": "Connection::new makes, for an id of at most 20 bytes, exactly the connection with the Initial keys of RFC 9001 section 5.2 for that id (its own to send, the other side's to receive), no other keys, nothing acknowledged, all packet numbers at 0 and no id of its own; it is never an error and panics exactly beyond 20 bytes. After any history the version, the peer's id, the keys and the acknowledgements are unchanged, the own id is the one set last, and each counter has gone up by the operations that took a number. The connections that can be reached are exactly those. Payloads are sealed and masked with the own keys and opened with the other side's, and in the spaces without keys every such call is an error.", "quantifier": "all ids, versions, sides, histories, both build profiles", "why_tests_cant": "The tests look at one new connection and a few calls; that nothing else of the state ever changes is a statement about all histories.", "anchors": ["src/connection.rs: new", "src/connection.rs: borrow_pn_info", "src/connection.rs: set_scid", "src/connection.rs: get_dcid", "src/connection.rs: get_scid", "src/connection.rs: get_next_pn", "src/connection.rs: encrypt_local_payload", "src/connection.rs: decrypt_remote_payload", "src/connection.rs: get_local_hp_mask", "src/connection.rs: get_remote_hp_mask"]}
{"id": "C126", "title": "A packet is built exactly when its number and the own id allow it, whatever has been acknowledged", "statement": "On every connection value, with anything acknowledged: get_next_pn returns the number after the counter, with four bytes if nothing is acknowledged (and the number is below 2^32), otherwise with the fewest bytes that hold the distance to the number acknowledged, which has to be smaller. PacketInitial::new and PacketHandshake::new succeed exactly if that number is below 2^32 (nothing acknowledged) or less than 2^32 above the one acknowledged, and the connection has an id; the packet then has exactly that number, those bytes, their count in the first byte, version 1, both ids, the given token and frames. They panic exactly if the build checks overflow and the counter is at 2^64 - 1; every other failure is an error.", "quantifier": "all connection values (any acknowledgement, counter, ids), frames, tokens, both build profiles", "why_tests_cant": "The branch for numbers too far from the acknowledged one is never taken by the code as it stands, as nothing records an acknowledgement; no test can reach it through the public functions.", "anchors": ["src/packet.rs: new", "src/packet.rs: from_connection", "src/connection.rs: get_next_pn", "src/connection.rs: truncate_pn"]}
{"id": "C127", "title": "Which packets are accepted, and which inputs panic, is known whatever has been acknowledged", "statement": "On every connection value, with anything acknowledged by the peer: reconstruct_remote_pn returns, for at most four bytes, the bytes themselves if nothing is acknowledged, otherwise the bytes added to the acknowledged number rounded down (or up, if they are not above its upper half) to a multiple of 2, 4, 8 or 16; it is never an error and panics exactly beyond four bytes or, where overflow is checked, on overflow. The Initial, Handshake, 0-RTT and 1-RTT packets accepted are exactly those the AEAD opens under that number. Decoding a packet panics exactly without a complete header, on Retry, on a Length too short for the tag, or if no number can be read; the last never happens in release builds, or if the acknowledged number is below 2^62.", "quantifier": "all connection values (any acknowledgement, any keys or none), streams, both build profiles", "why_tests_cant": "No code records an acknowledgement yet, so no test can reach these branches through the public functions; they are the ones a later change will switch on.", "anchors": ["src/connection.rs: reconstruct_remote_pn", "src/packet.rs: from_stream", "src/packet.rs: decode_next_packet"]}
{"id": "C128", "title": "What becomes of any packet that is written is known, also of packets no constructor makes", "statement": "For every Initial and Handshake packet value (any header byte, version, ids and id lengths, token, packet number, packet number bytes and frames) and every connection value with or without keys: serialize returns exactly the header, token with its shortest length, shortest length, masked number bytes and the AEAD sealing of the frames over header, fields and number, the sample starting 4 minus the announced number length into the sealed payload. Otherwise, in this order: the outcome of the frames; an error for a protected header or without keys; a panic for an id length above 20; an error for fewer than 4 bytes of announced number and payload together, or for more than 4 number bytes.", "quantifier": "all packet values, connection values, installed keys and primitives obeying the laws, within the sizes the AEAD accepts", "why_tests_cant": "The constructors always announce what they write and use valid ids; packets that disagree with themselves come from decoding and from later code, and there are too many of them to list.", "anchors": ["src/packet.rs: PacketInitial::serialize", "src/packet.rs: PacketHandshake::serialize", "src/packet.rs: to_bytes", "src/packet.rs: xor_pn_protection"]}
{"id": "C129", "title": "Packets keep arriving once acknowledgements and received numbers are recorded", "statement": "For all connection values with matching keys: if the sender has recorded that the number a was acknowledged, the receiver has recorded x >= a as the largest number, and the sender builds and writes the packet x + 1 of well-formed frames that the codec returns unchanged, the receiver decodes it to the packet that was built, and stops at its end.", "quantifier": "all recorded numbers, connection values, keys, frames, what follows the packet, both build profiles on each side", "why_tests_cant": "Nothing in the crate records these numbers yet, so end-to-end tests always run with nothing recorded; the code that uses the numbers is there on both sides, each with its own formula.", "anchors": ["src/connection.rs: truncate_pn", "src/connection.rs: reconstruct_remote_pn", "src/packet.rs: decode_next_packet", "src/packet.rs: PacketInitial::serialize"]}
{"id": "C130", "title": "The calls of the public interface end in a result, not a panic", "statement": "For every socket, whatever the network and the random source give: connect and accept of the public interface return what was asked for, return an I/O error, or keep waiting; they do not panic.", "quantifier": "all tables of connections, sequences of datagrams and I/O errors from the network, sequences of random ids", "why_tests_cant": "How accept ends depends on every datagram that arrives before the one it waits for and on the whole table, and on random ids that are in use already; a test sees a few of these sequences.", "anchors": ["src/interface.rs: connect", "src/interface.rs: accept", "src/routing.rs: connect", "src/routing.rs: accept", "src/routing.rs: recv_new_initial_datagram"]}
{"id": "C131", "title": "Packets with few bytes can be sent, whatever was acknowledged", "statement": "For every connection value with keys and writable ids whose next packet number fits a packet, and every non-empty list of frames that can be written: building and writing the packet succeeds, however few bytes the frames are (RFC 9001 section 5.4.2 has the sender pad them for the header protection sample).", "quantifier": "all connection values, recorded acknowledgements, packet numbers, frames, tokens, both build profiles", "why_tests_cant": "As long as nothing is recorded as acknowledged every number takes four bytes and there is always a sample; the failure needs an acknowledgement, a small distance to it and a small payload together.", "anchors": ["src/packet.rs: PacketInitial::serialize", "src/packet.rs: PacketHandshake::serialize", "src/connection.rs: truncate_pn", "src/connection.rs: get_local_hp_mask"]}
{"id": "C132", "title": "A failure of the random source costs the call that asked for an id, and nothing else", "statement": "If the operating system's random source fails while accept draws a connection id (get_connection_id unwraps the error), for whichever threads and however often: that call panics, nothing is registered, the connections there were keep everything and have gained their datagrams, no lock is poisoned, locks exclude as ever and no other thread waits for the dead one. To everybody else the thread is like one that is never scheduled again.", "quantifier": "all sockets, network events, sequences of results of the random source, interleavings of any number of threads", "why_tests_cant": "The random source of a test machine does not fail, and the claim is about what other threads can see at the moment it does.", "anchors": ["src/quictls/utils.rs: get_connection_id", "src/routing.rs: accept"]}
{"id": "C133", "title": "Wherever a thread panics, others are harmed exactly if it held a lock for writing", "statement": "Threads may panic at any point of any call of the public interface, for whatever reason and however often. Then locks still exclude; a lock is poisoned exactly if, at some time in the run, a thread panicked that held it for writing; a thread that waits for a lock waits for one that can go on; every connection in the table has the id it is under; a panic changes neither table, nor log, nor any other thread. From the poisoning on every thread that comes to lock that lock panics, and none waits for it; if threads panic only where they hold nothing for writing, no lock is ever poisoned.", "quantifier": "all interleavings of any number of threads, all sets of points at which they may panic, all positions and numbers of the panics", "why_tests_cant": "The reasons to panic cannot be enumerated, and a test would have to provoke a panic between any two steps of a call, in every interleaving with the others.", "anchors": ["src/routing.rs: accept", "src/routing.rs: drop_connection", "src/routing.rs: set_log_traffic", "src/interface.rs: drop"]}
{"id": "C134", "title": "The work spent on a forged packet tells nothing about the keys", "statement": "RFC 9001 section 9.5: an endpoint must not let the time it takes to remove header protection and packet protection tell the packet number or its length, which are hidden by the header protection key. For two connections that have keys for the same spaces and a datagram whose packets are authentic under neither, the number of bytes gone over in decoding (taken from streams or passed to the AEAD) must be the same.", "quantifier": "all algorithms that obey the laws, all profiles, all pairs of connections, all keys, all datagrams", "why_tests_cant": "Work is not visible to a test as a value, and that it does not depend on the keys is a statement about pairs of runs, over all keys.", "anchors": ["src/packet.rs: decode_next_packet", "src/packet.rs: from_stream", "src/quictls/secrets.rs: decrypt_payload"]}
{"id": "C135", "title": "Calls end, wherever other threads panic", "statement": "Threads may panic at any point of any call and however often, poisoning what they held for writing. If the scheduler is fair and the locks starve nobody, then every call of packets_from_datagram, drop_connection and set_log_traffic ends, by returning or by a panic; accept does too, or comes to wait for the next datagram, or finds the id it has drawn taken; and once the lock of the socket is poisoned no call waits for a datagram.", "quantifier": "all infinite fair interleavings of any number of threads, all sets of points at which they may panic, all positions and numbers of the panics", "why_tests_cant": "That a call ends is a liveness property of infinite executions; no finite test refutes it, and panics between any two steps cannot be provoked one by one.", "anchors": ["src/routing.rs: accept", "src/routing.rs: drop_connection", "src/routing.rs: set_log_traffic", "src/routing.rs: packets_from_datagram"]}
{"id": "C136", "title": "What a packet shows of its payload, it shows through the ciphertext", "statement": "The bytes of a sent Initial or Handshake packet, whether building and writing it succeeds, and the state of the connection afterwards depend on the frames only through the length of the payload and what the AEAD makes of it: for any two payloads of one length there are algorithms, obeying the same laws and differing only in how they seal and open, with which the second is sent as the very bytes with which the first is sent now. The length itself is always shown: the longer of two packets that differ in the payload only is the one with the longer payload.", "quantifier": "all pairs of cryptographic primitives, all connections, all tokens, all frame lists that can be serialized, both build profiles", "why_tests_cant": "That bytes do not depend on an input otherwise than through another function of it is a statement about pairs of runs with different primitives; a test runs one primitive on some inputs.", "anchors": ["src/packet.rs: PacketInitial::serialize", "src/packet.rs: PacketHandshake::serialize", "src/packet.rs: PacketInitial::new", "src/packet.rs: PacketHandshake::new"]}
{"id": "C137", "title": "The packet number spaces do not influence one another", "statement": "What is seen in a packet number space (the numbers given out, the packets built and written, the packets delivered) is determined by the state of the connection in that space, its ids and version, and what happens in that space: keys, counters and operations of the other spaces make no difference.", "quantifier": "all pairs of connections that agree in a space, all histories of operations and datagrams that agree in what concerns the space, all spaces, all primitives", "why_tests_cant": "Non-interference relates pairs of histories of any length; tests run single histories.", "anchors": ["src/connection.rs: Connection::get_next_pn", "src/packet.rs: PacketInitial::new", "src/packet.rs: PacketHandshake::new", "src/packet.rs: decode_packets"]}
{"id": "C138", "title": "A failure of the cryptographic libraries is never taken for an answer, and costs an error, not a panic", "statement": "Whichever of the cryptographic primitives fail on whichever inputs, creating connections, reading datagrams and writing packets succeed only with the results they have when nothing fails, and panic only where they panic when nothing fails.", "quantifier": "all primitives, all ways for them to fail (key derivation, block cipher, sealing, opening, each on any set of inputs), all connections with their histories, all streams and packets, all datagrams to accept, both build profiles", "why_tests_cant": "Failures of OpenSSL or of the HKDF crate (no memory, a provider without the algorithm) do not happen in tests, and which calls unwrap matters only then.", "anchors": ["src/quictls/cipher_suite.rs: hp_mask_aes_128_ecb", "src/quictls/cipher_suite.rs: hkdf_expand_label_sha256", "src/connection.rs: Connection::new", "src/packet.rs: decode_packets", "src/packet.rs: PacketInitial::serialize"]}
{"id": "C139", "title": "A packet does not show its number", "statement": "Whatever the algorithms are, there are algorithms obeying the same laws and deriving the same keys under which the bytes sent for one number and payload are those sent for any other number whose encoding is as long, with any payload as long, by any connection with the same ids: the packet alone tells nothing but lengths.", "quantifier": "all lawful primitives, all connections and pairs of connections with the same ids, all keys, all numbers and payloads of equal lengths, all tokens, Initial and Handshake packets, both build profiles", "why_tests_cant": "A test sees one ciphertext under one algorithm; that the number has no influence outside what the algorithms hide is a statement about all of them.", "anchors": ["src/packet.rs: PacketInitial::serialize", "src/packet.rs: PacketHandshake::serialize", "src/connection.rs: Connection::get_next_pn"]}
{"id": "C140", "title": "Every connection id, side and purpose has a key of its own", "statement": "Two connections hold the same bytes for a purpose (header protection, IV, AEAD key) of a direction exactly if the ids they were made for, the sending sides and the purposes are the same; otherwise HKDF gives the same output for different inputs at the same step of the two derivations.", "quantifier": "all lawful primitives, all pairs of connections with any ids, roles, versions and histories, both directions, all purposes, both build profiles", "why_tests_cant": "Tests compare a few derived keys; that labels, lengths and ids separate all derivations is a statement about all of them, up to collisions of HKDF.", "anchors": ["src/connection.rs: Connection::new", "src/quictls/secrets.rs: Secrets::from_initial", "src/quictls/secrets.rs: Secrets::from_secret", "src/quictls/cipher_suite.rs: hkdf_expand_label_sha256"]}
{"id": "C141", "title": "No key and nonce seal packets of two connections", "statement": "Of two connections that a socket has accepted, neither seals a packet with the key and nonce with which the other seals one.", "quantifier": "all lawful primitives, all sequences of events on the network and random ids, all histories of the two connections, all numbers they issue, both build profiles", "why_tests_cant": "A nonce that is used twice does no visible harm; both packets are decoded.", "anchors": ["src/routing.rs: InternalQuicSocket::accept", "src/connection.rs: Connection::new", "src/connection.rs: Connection::get_next_pn", "src/quictls/secrets.rs: Secrets::encrypt_payload"]}
{"id": "C142", "title": "The error of a stream is what reading it reports", "statement": "The readers take a stream of bytes or errors. For every stream that gives some bytes and then an error: reading a header, a frame, a list of frames, a packet or a list of packets either is done before it comes to the error, and then with the same result whatever would follow, or its result is that very error; a list of frames or packets is never delivered. FALSE for packets: src/packet.rs:776 unwraps the result of the header, so an error that comes within a header ends the process.", "quantifier": "for all primitives, profiles, reachable connections, bytes before the error, errors and continuations of the stream", "why_tests_cant": "the tests read from streams made of byte arrays (make_result_stream), which never give an error but the end", "anchors": ["src/utils.rs: var_bytes_from_stream", "src/packet.rs: decode_next_packet", "src/packet.rs: decode_packets", "src/frame.rs: deserialize_frames"]}
{"id": "C143", "title": "Only the peer takes an Initial packet", "statement": "An Initial packet that a connection writes is taken by the connection for the same id and the other side, at any time, whatever follows it; and by no other connection: one that takes it is for the same id and the other side, or the derivations of the two keys collide at one of their steps, or a different key opens what was sealed. In particular a connection does not take its own packets when they are sent back to it (reflection).", "quantifier": "for all primitives, profiles, pairs of connections (ids, lengths, sides, versions), histories of both, packets sent and streams that begin with them", "why_tests_cant": "the tests decode packets only with the connection they are for", "anchors": ["src/packet.rs: PacketInitial::from_stream", "src/packet.rs: PacketInitial::serialize", "src/connection.rs: Connection::new", "src/quictls/secrets.rs: Secrets::from_initial"]}
{"id": "C144", "title": "Frames are parsed one after the other", "statement": "When a payload parses as a list of frames and has no STREAM frame without a Length field, then the payload followed by more bytes parses as those frames followed by what the further bytes give when parsed alone, failures included.", "quantifier": "for all payloads that parse and all further bytes", "why_tests_cant": "the frame tests parse one frame at a time and nothing after it", "anchors": ["src/frame.rs: deserialize_frames", "src/frame.rs: FrameStream::from_datagram"]}
{"id": "C145", "title": "What is cut off a payload costs only frames at its end", "statement": "If a payload parses as a list of frames, then any beginning of the payload either is an error or parses as a beginning of the list, the last frame of which may be a STREAM frame with the beginning of its data; never as other frames.", "quantifier": "for all payloads that parse and all positions where they are cut", "why_tests_cant": "the frame tests parse whole frames only", "anchors": ["src/frame.rs: deserialize_frames", "src/frame.rs: deserialize_frame"]}
{"id": "C146", "title": "Padding changes no other frames", "statement": "Any number of zero bytes (PADDING frames, RFC 9000 section 19.1) between the frames of a payload changes nothing in the other frames parsed or in the failure reported, unless a frame before them is a STREAM frame without a Length field.", "quantifier": "for all payloads that parse, all numbers of zero bytes and all bytes after them", "why_tests_cant": "the only test of PADDING parses a single frame", "anchors": ["src/frame.rs: deserialize_frames", "src/frame.rs: FrameStream::from_datagram"]}
{"id": "C147", "title": "What is cut off a datagram costs only packets at its end", "statement": "If a connection decodes a datagram into packets and decodes a beginning of it too, then the packets of the beginning are the first ones of the datagram, the last of which may be a Version Negotiation packet with the first of its versions; never other packets. So for what the socket leaves of a datagram that is too long for its buffer.", "quantifier": "for all primitives, profiles, connections after any history, datagrams that decode and positions where they are cut", "why_tests_cant": "no test decodes a datagram that is cut off", "anchors": ["src/packet.rs: decode_packets", "src/packet.rs: decode_next_packet", "src/routing.rs: InternalQuicSocket::recv_datagram"]}
{"id": "C148", "title": "Data handed over are pieces of what was received", "statement": "The data of the frames parsed from a payload (CRYPTO, NEW_TOKEN, STREAM, CONNECTION_CLOSE) are found in the payload whole, in order and without overlap, so that no byte is made up, repeated or moved; the same holds for the frames written and the bytes they are written as, and for the tokens of the packets a connection takes from a datagram and the datagram.", "quantifier": "for all payloads, all frame lists, also frames no constructor makes, all primitives, profiles, connections after any history and datagrams", "why_tests_cant": "all payloads and arrangements of frames", "anchors": ["src/frame.rs: deserialize_frames", "src/frame.rs: serialize_frames", "src/packet.rs: decode_packets"]}
{"id": "C149", "title": "The size of a packet is known before it is written", "statement": "Frames are written with exactly as many bytes as their fields say by the layout of RFC 9000 section 19 with the shortest integers, and an Initial packet of a connection after any history with exactly the bytes of its fields, ids, token, a four-byte packet number, payload and 16-byte tag; so that it is known beforehand whether it fits the datagrams the receiving socket takes.", "quantifier": "for all frame lists, also frames no constructor makes, all primitives, profiles, connections after any history, tokens and own ids", "why_tests_cant": "all field values; the boundaries of the four integer sizes in every field", "anchors": ["src/frame.rs: serialize_frames", "src/frame.rs: Frame::to_bytes", "src/packet.rs: PacketInitial::serialize"]}
{"id": "C150", "title": "An application can fill the datagrams of Initial packets", "statement": "For all well-formed plain frames and every token that make an Initial packet of at most 1200 bytes there is a number of PADDING frames which, appended to the frames, makes the packet 1200 bytes long (1201 in the one case in which its Length field grows just there), and the peer, after any history of both, receives exactly the frames and the padding. (The crate adds no padding itself: C83.)", "quantifier": "for all primitives, profiles, pairs of connections after any histories, own ids, frames and tokens", "why_tests_cant": "all sizes of frames, ids and tokens; no test pads a packet", "anchors": ["src/packet.rs: PacketInitial::new", "src/packet.rs: PacketInitial::serialize", "src/packet.rs: decode_next_packet"]}
{"id": "C151", "title": "What follows cannot mend a malformed payload", "statement": "If the frame parser refuses a payload for what it contains (an unknown frame type or a connection id length outside 1..20) and not for want of bytes, it refuses the payload followed by any bytes, with the same error; so no beginning of a payload that is parsed is refused for what it contains. Conversely a payload refused for want of bytes is parsed once suitable bytes follow, so the payloads that nothing can complete are exactly those refused for what they contain.", "quantifier": "for all payloads, continuations and streams of items", "why_tests_cant": "all payloads and all continuations of any length", "anchors": ["src/frame.rs: deserialize_frames", "src/frame.rs: deserialize_frame", "src/utils.rs: var_int_from_stream"]}
