import Verif.Model.Env
/-
The text that `{:?}` produces, which is what the traffic log prints (src/routing.rs:70, 99 and 145) and what formatting a socket shows.

`Dbg` is a value as `derive(Debug)` presents it to the formatter, `Dbg.render` the text (`core::fmt::builders` without `#`). What is taken from the
Rust documentation: integers are decimal; `bool`, unit variants and `None` are their names; `Vec` is `[a, b]`; tuples and tuple variants are `Name(a, b)`;
structs are `Name { a: x, b: y }`; references, `Arc` and `Box` are transparent; a `RwLock` that is not locked for writing is
`RwLock { data: x, poisoned: false, .. }`, otherwise its data is `<locked>`; the same for `Mutex`. Strings escape quotes, backslashes and line
feeds; Rust escapes more (control characters and some non-ASCII ones), but no string of this crate has those (`C103_log_readable`).
-/
namespace QuicSea

/-- A value as it is shown by `{:?}` (src/routing.rs:70, 99, 145). -/
inductive Dbg where
  /-- nothing at all -/
  | nothing
  /-- an integer -/
  | num (n : Nat)
  /-- a unit variant or a `bool` -/
  | word (w : String)
  /-- a string -/
  | str (s : String)
  /-- a list -/
  | seq (xs : List Dbg)
  /-- a tuple variant, or a tuple when the name is empty -/
  | tup (name : String) (xs : List Dbg)
  /-- a struct; `more` means that it ends in `..` -/
  | struct (name : String) (fields : List (String × Dbg)) (more : Bool)
  /-- a map -/
  | map (entries : List (Dbg × Dbg))
  /-- text that is printed as it is -/
  | raw (text : List Char)

/-- The decimal digits of a number below `10 ^ fuel` (std, for src/routing.rs:70). -/
def decimalLoop : Nat → Nat → List Char
  | 0, _ => []
  | fuel + 1, n => if n < 10 then [Char.ofNat (48 + n)] else decimalLoop fuel (n / 10) ++ [Char.ofNat (48 + n % 10)]
/-- `{}` of an integer (src/utils.rs:437). -/
def decimal (n : Nat) : List Char := decimalLoop (n + 1) n
/-- A character of a string (std, for the messages of src/error.rs:4). -/
def escape (c : Char) : List Char :=
  if c = '"' then ['\\', '"'] else if c = '\\' then ['\\', '\\'] else if c = '\n' then ['\\', 'n'] else [c]

mutual
/-- The text (std, for src/routing.rs:70, 99, 145). -/
def Dbg.render : Dbg → List Char
  | .nothing => []
  | .num n => decimal n
  | .word w => w.toList
  | .str s => '"' :: s.toList.flatMap escape ++ ['"']
  | .seq xs => '[' :: Dbg.renderList xs ++ [']']
  | .tup name xs => name.toList ++ '(' :: Dbg.renderList xs ++ [')']
  | .struct name fields more => name.toList ++ [' ', '{', ' '] ++ Dbg.renderFields fields ++
      (if more then (if fields.isEmpty then [] else [',', ' ']) ++ ['.', '.'] else []) ++ [' ', '}']
  | .map entries => '{' :: Dbg.renderEntries entries ++ ['}']
  | .raw text => text
/-- Elements separated by commas (std, for src/routing.rs:145). -/
def Dbg.renderList : List Dbg → List Char
  | [] => []
  | [x] => x.render
  | x :: y :: xs => x.render ++ [',', ' '] ++ Dbg.renderList (y :: xs)
/-- Fields separated by commas (std, for src/routing.rs:70). -/
def Dbg.renderFields : List (String × Dbg) → List Char
  | [] => []
  | [(n, x)] => n.toList ++ [':', ' '] ++ x.render
  | (n, x) :: y :: xs => n.toList ++ [':', ' '] ++ x.render ++ [',', ' '] ++ Dbg.renderFields (y :: xs)
/-- Entries separated by commas (std, for the table of src/routing.rs:31). -/
def Dbg.renderEntries : List (Dbg × Dbg) → List Char
  | [] => []
  | [(n, x)] => n.render ++ [':', ' '] ++ x.render
  | (n, x) :: y :: xs => n.render ++ [':', ' '] ++ x.render ++ [',', ' '] ++ Dbg.renderEntries (y :: xs)
end

/-- An integer, as in src/packet.rs:16. -/
def dbgInt (x : BitVec w) : Dbg := .num x.toNat
/-- A `bool`, as in src/frame.rs:284. -/
def dbgBool (b : Bool) : Dbg := .word (if b then "true" else "false")
/-- A `Vec`, as in src/packet.rs:217. -/
def dbgVec (f : α → Dbg) (xs : List α) : Dbg := .seq (xs.map f)
/-- A `Vec<u8>`, as in src/packet.rs:214. -/
def dbgBytes (b : Bytes) : Dbg := dbgVec dbgInt b
/-- An `Option`, as in src/frame.rs:73. -/
def dbgOption (f : α → Dbg) : Option α → Dbg
  | none => .word "None"
  | some x => .tup "Some" [f x]

/-- src/utils.rs:6-10. -/
def U160.dbg (x : U160) : Dbg := .struct "U160" [("idx0", dbgInt x.idx0), ("idx1", dbgInt x.idx1)] false

/-- src/error.rs:1-21. -/
def Error.dbg : Error → Dbg
  | .noError => .word "NoError"
  | .internalError msg => .tup "InternalError" [.str msg]
  | .connectionRefused => .word "ConnectionRefused"
  | .flowControlError => .word "FlowControlError"
  | .streamLimitError => .word "StreamLimitError"
  | .streamStateError => .word "StreamStateError"
  | .finalSizeError => .word "FinalSizeError"
  | .frameEncodingError => .word "FrameEncodingError"
  | .transportParameterError => .word "TransportParameterError"
  | .connectionIdLimitError => .word "ConnectionIdLimitError"
  | .protocolViolation => .word "ProtocolViolation"
  | .invalidToken => .word "InvalidToken"
  | .applicationError => .word "ApplicationError"
  | .cryptoBufferExceeded => .word "CryptoBufferExceeded"
  | .keyUpdateError => .word "KeyUpdateError"
  | .aeadLimitReached => .word "AeadLimitReached"
  | .noViablePath => .word "NoViablePath"

/-! ### frame.rs -/

/-- src/frame.rs:8-13. -/
def EcnCounts.dbg (x : EcnCounts) : Dbg :=
  .struct "EcnCounts" [("ect0_count", dbgInt x.ect0Count), ("ect1_count", dbgInt x.ect1Count), ("ecn_ce_count", dbgInt x.ecnCeCount)] false
/-- src/frame.rs:39-43. -/
def AckRange.dbg (x : AckRange) : Dbg := .struct "AckRange" [("gap", dbgInt x.gap), ("ack_range_length", dbgInt x.ackRangeLength)] false
/-- src/frame.rs:66-74. -/
def FrameAck.dbg (x : FrameAck) : Dbg :=
  .struct "FrameAck" [("largest_acknowledged", dbgInt x.largestAcknowledged), ("ack_delay", dbgInt x.ackDelay), ("ack_range_count", dbgInt x.ackRangeCount),
    ("first_ack_range", dbgInt x.firstAckRange), ("ack_range", dbgVec AckRange.dbg x.ackRange), ("ecn_counts", dbgOption EcnCounts.dbg x.ecnCounts)] false
/-- src/frame.rs:131-136. -/
def FrameResetStream.dbg (x : FrameResetStream) : Dbg :=
  .struct "FrameResetStream" [("stream_id", dbgInt x.streamId), ("application_protocol_error_code", dbgInt x.applicationProtocolErrorCode),
    ("final_size", dbgInt x.finalSize)] false
/-- src/frame.rs:170-174. -/
def FrameStopSending.dbg (x : FrameStopSending) : Dbg :=
  .struct "FrameStopSending" [("stream_id", dbgInt x.streamId), ("application_protocol_error_code", dbgInt x.applicationProtocolErrorCode)] false
/-- src/frame.rs:204-209. -/
def FrameCrypto.dbg (x : FrameCrypto) : Dbg :=
  .struct "FrameCrypto" [("offset", dbgInt x.offset), ("length", dbgInt x.length), ("crypto_data", dbgBytes x.cryptoData)] false
/-- src/frame.rs:244-248. -/
def FrameNewToken.dbg (x : FrameNewToken) : Dbg := .struct "FrameNewToken" [("token_length", dbgInt x.tokenLength), ("token", dbgBytes x.token)] false
/-- src/frame.rs:278-285. -/
def FrameStream.dbg (x : FrameStream) : Dbg :=
  .struct "FrameStream" [("stream_id", dbgInt x.streamId), ("offset", dbgInt x.offset), ("length", dbgInt x.length), ("stream_data", dbgBytes x.streamData),
    ("is_fin", dbgBool x.isFin)] false
/-- src/frame.rs:355-358. -/
def FrameMaxData.dbg (x : FrameMaxData) : Dbg := .struct "FrameMaxData" [("maximum_data", dbgInt x.maximumData)] false
/-- src/frame.rs:380-384. -/
def FrameMaxStreamData.dbg (x : FrameMaxStreamData) : Dbg :=
  .struct "FrameMaxStreamData" [("stream_id", dbgInt x.streamId), ("maximum_stream_data", dbgInt x.maximumStreamData)] false
/-- src/frame.rs:414-418. -/
def FrameMaxStreams.dbg (x : FrameMaxStreams) : Dbg :=
  .struct "FrameMaxStreams" [("maximum_streams", dbgInt x.maximumStreams), ("is_unidirectional", dbgBool x.isUnidirectional)] false
/-- src/frame.rs:453-456. -/
def FrameDataBlocked.dbg (x : FrameDataBlocked) : Dbg := .struct "FrameDataBlocked" [("maximum_data", dbgInt x.maximumData)] false
/-- src/frame.rs:478-482. -/
def FrameStreamDataBlocked.dbg (x : FrameStreamDataBlocked) : Dbg :=
  .struct "FrameStreamDataBlocked" [("stream_id", dbgInt x.streamId), ("maximum_stream_data", dbgInt x.maximumStreamData)] false
/-- src/frame.rs:512-516. -/
def FrameStreamsBlocked.dbg (x : FrameStreamsBlocked) : Dbg :=
  .struct "FrameStreamsBlocked" [("maximum_streams", dbgInt x.maximumStreams), ("is_unidirectional_limit", dbgBool x.isUnidirectionalLimit)] false
/-- src/frame.rs:551-558. -/
def FrameNewConnectionId.dbg (x : FrameNewConnectionId) : Dbg :=
  .struct "FrameNewConnectionId" [("sequence_number", dbgInt x.sequenceNumber), ("retire_prior_to", dbgInt x.retirePriorTo), ("length", dbgInt x.length),
    ("connection_id", x.connectionId.dbg), ("stateless_reset_token", dbgInt x.statelessResetToken)] false
/-- src/frame.rs:608-611. -/
def FrameRetireConnectionId.dbg (x : FrameRetireConnectionId) : Dbg := .struct "FrameRetireConnectionId" [("sequence_number", dbgInt x.sequenceNumber)] false
/-- src/frame.rs:633-636. -/
def FramePathChallenge.dbg (x : FramePathChallenge) : Dbg := .struct "FramePathChallenge" [("data", dbgInt x.data)] false
/-- src/frame.rs:654-657. -/
def FramePathResponse.dbg (x : FramePathResponse) : Dbg := .struct "FramePathResponse" [("data", dbgInt x.data)] false
/-- src/frame.rs:675-682. -/
def FrameConnectionClose.dbg (x : FrameConnectionClose) : Dbg :=
  .struct "FrameConnectionClose" [("error_code", dbgInt x.errorCode), ("frame_type", dbgOption dbgInt x.frameType),
    ("reason_phrase_length", dbgInt x.reasonPhraseLength), ("reason_phrase", dbgBytes x.reasonPhrase), ("is_application_error", dbgBool x.isApplicationError)] false
/-- src/frame.rs:746-768. -/
def Frame.dbg : Frame → Dbg
  | .padding => .word "Padding"
  | .ping => .word "Ping"
  | .ack x => .tup "Ack" [x.dbg]
  | .resetStream x => .tup "ResetStream" [x.dbg]
  | .stopSending x => .tup "StopSending" [x.dbg]
  | .crypto x => .tup "Crypto" [x.dbg]
  | .newToken x => .tup "NewToken" [x.dbg]
  | .stream x => .tup "Stream" [x.dbg]
  | .maxData x => .tup "MaxData" [x.dbg]
  | .maxStreamData x => .tup "MaxStreamData" [x.dbg]
  | .maxStreams x => .tup "MaxStreams" [x.dbg]
  | .dataBlocked x => .tup "DataBlocked" [x.dbg]
  | .streamDataBlocked x => .tup "StreamDataBlocked" [x.dbg]
  | .streamsBlocked x => .tup "StreamsBlocked" [x.dbg]
  | .newConnectionId x => .tup "NewConnectionId" [x.dbg]
  | .retireConnectionId x => .tup "RetireConnectionId" [x.dbg]
  | .pathChallenge x => .tup "PathChallenge" [x.dbg]
  | .pathResponse x => .tup "PathResponse" [x.dbg]
  | .connectionClose x => .tup "ConnectionClose" [x.dbg]
  | .handshakeDone => .word "HandshakeDone"

/-! ### packet.rs -/

/-- src/packet.rs:8-12. -/
def VnFields.dbg (x : VnFields) : Dbg :=
  .struct "VersionNegotiationHeaderUnionFields" [("destination_connection_id", dbgBytes x.destinationConnectionId),
    ("source_connection_id", dbgBytes x.sourceConnectionId)] false
/-- src/packet.rs:14-24. -/
def LongPacketHeader.dbg (x : LongPacketHeader) : Dbg :=
  .struct "LongPacketHeader" [("header_byte", dbgInt x.headerByte), ("version", dbgInt x.version),
    ("destination_connection_id_length", dbgInt x.destinationConnectionIdLength), ("destination_connection_id", x.destinationConnectionId.dbg),
    ("source_connection_id_length", dbgInt x.sourceConnectionIdLength), ("source_connection_id", x.sourceConnectionId.dbg),
    ("version_negotiation", dbgOption VnFields.dbg x.versionNegotiation), ("is_protected", dbgBool x.isProtected)] false
/-- src/packet.rs:583-588. -/
def ShortPacketHeader.dbg (x : ShortPacketHeader) : Dbg :=
  .struct "ShortPacketHeader" [("header_byte", dbgInt x.headerByte), ("destination_connection_id", x.destinationConnectionId.dbg),
    ("is_protected", dbgBool x.isProtected)] false
/-- src/packet.rs:707-711. -/
def PacketHeader.dbg : PacketHeader → Dbg
  | .short x => .tup "Short" [x.dbg]
  | .long x => .tup "Long" [x.dbg]
/-- src/packet.rs:178-182. -/
def PacketVersionNegotiation.dbg (x : PacketVersionNegotiation) : Dbg :=
  .struct "PacketVersionNegotiation" [("header", x.header.dbg), ("supported_versions", dbgVec dbgInt x.supportedVersions)] false
/-- src/packet.rs:211-218. -/
def PacketInitial.dbg (x : PacketInitial) : Dbg :=
  .struct "PacketInitial" [("header", x.header.dbg), ("token", dbgBytes x.token), ("packet_number", dbgInt x.packetNumber),
    ("packet_number_bytes", dbgBytes x.packetNumberBytes), ("packet_payload", dbgVec Frame.dbg x.packetPayload)] false
/-- src/packet.rs:344-351. -/
def PacketZeroRtt.dbg (x : PacketZeroRtt) : Dbg :=
  .struct "PacketZeroRtt" [("header", x.header.dbg), ("length", dbgInt x.length), ("packet_number_bytes", dbgBytes x.packetNumberBytes),
    ("packet_number", dbgInt x.packetNumber), ("packet_payload", dbgVec Frame.dbg x.packetPayload)] false
/-- src/packet.rs:397-403. -/
def PacketHandshake.dbg (x : PacketHandshake) : Dbg :=
  .struct "PacketHandshake" [("header", x.header.dbg), ("packet_number_bytes", dbgBytes x.packetNumberBytes), ("packet_number", dbgInt x.packetNumber),
    ("packet_payload", dbgVec Frame.dbg x.packetPayload)] false
/-- src/packet.rs:516-525. -/
def PacketRetry.dbg (x : PacketRetry) : Dbg :=
  .struct "PacketRetry" [("version", dbgInt x.version), ("destination_connection_id_length", dbgInt x.destinationConnectionIdLength),
    ("destination_connection_id", x.destinationConnectionId.dbg), ("source_connection_id_length", dbgInt x.sourceConnectionIdLength),
    ("source_connection_id", x.sourceConnectionId.dbg), ("retry_token", dbgBytes x.retryToken), ("retry_integrity_tag", dbgInt x.retryIntegrityTag)] false
/-- src/packet.rs:663-669. -/
def PacketOneRtt.dbg (x : PacketOneRtt) : Dbg :=
  .struct "PacketOneRtt" [("header", x.header.dbg), ("packet_number_bytes", dbgBytes x.packetNumberBytes), ("packet_number", dbgInt x.packetNumber),
    ("packet_payload", dbgVec Frame.dbg x.packetPayload)] false
/-- src/packet.rs:745-753. -/
def Packet.dbg : Packet → Dbg
  | .versionNegotiation x => .tup "VersionNegotiation" [x.dbg]
  | .initial x => .tup "Initial" [x.dbg]
  | .zeroRtt x => .tup "ZeroRtt" [x.dbg]
  | .handshake x => .tup "Handshake" [x.dbg]
  | .retry x => .tup "Retry" [x.dbg]
  | .oneRtt x => .tup "OneRtt" [x.dbg]

/-! ### what is printed -/

/-- A line of the traffic log (src/routing.rs:70, 99, 145). A panic is never printed. -/
def LogLine.text : LogLine → List Char
  /- src/routing.rs:70 -/
  | .header (.ok h) => (Dbg.tup "Ok" [h.dbg]).render
  | .header (.err e) => (Dbg.tup "Err" [e.dbg]).render
  | .header (.panic _) => []
  /- src/routing.rs:145 -/
  | .packets ps => (dbgVec Packet.dbg ps).render
/-- What a line adds to standard output (`println!` of src/routing.rs:70, 145 and src/utils.rs:437). -/
def Line.stdout : Line → List Char
  /- src/utils.rs:437 -/
  | .failedAt i => ['f', 'a', 'i', 'l', 'e', 'd', ' ', 'a', 't', ':', ' '] ++ decimal i ++ ['\n']
  | .log l => l.text ++ ['\n']
  | .refused _ => []
/-- What a line adds to standard error (src/routing.rs:99). -/
def Line.stderr : Line → List Char
  | .refused e => e.dbg.render ++ ['\n']
  | _ => []

/-! ### connection.rs, secrets.rs, routing.rs, interface.rs -/

/-- src/version.rs:6-9. -/
def Version.dbg : Version → Dbg
  | .v1 => .word "V1"
/-- src/quictls/cipher_suite.rs:24-28: nothing is written. -/
def CipherSuite.dbg (_ : CipherSuite) : Dbg := .nothing
/-- src/quictls/secrets.rs:12-18. -/
def Secrets.dbg (x : Secrets) : Dbg :=
  .struct "Secrets" [("cipher_suite", x.cipherSuite.dbg), ("hp", dbgBytes x.hp), ("iv", dbgOption dbgBytes x.iv), ("key", dbgBytes x.key)] false
/-- src/connection.rs:13-20. -/
def PnInfo.dbg (x : PnInfo) : Dbg :=
  .struct "PacketNumberSpaceInfo" [("largest_remote_ack", dbgOption dbgInt x.largestRemoteAck), ("largest_local_ack", dbgOption dbgInt x.largestLocalAck),
    ("next_pn", dbgInt x.nextPn), ("local_tls_secrets", dbgOption Secrets.dbg x.localTlsSecrets),
    ("remote_tls_secrets", dbgOption Secrets.dbg x.remoteTlsSecrets)] false
/-- A `(U160, usize)`, as in src/connection.rs:64. -/
def dbgCid (x : U160 × Nat) : Dbg := .tup "" [x.1.dbg, .num x.2]
/-- src/connection.rs:58-70. -/
def Connection.dbg (x : Connection) : Dbg :=
  .struct "Connection" [("version", x.version.dbg), ("initial_pn_info", x.initialPnInfo.dbg), ("handshake_pn_info", x.handshakePnInfo.dbg),
    ("application_pn_info", x.applicationPnInfo.dbg), ("dcid", dbgCid x.dcid), ("scid", dbgOption dbgCid x.scid)] false
/-- A lock and what is in it, as in src/routing.rs:18-33. -/
def dbgLock (name : String) (locked poisoned : Bool) (x : Dbg) : Dbg :=
  .struct name [("data", if locked then .raw ['<', 'l', 'o', 'c', 'k', 'e', 'd', '>'] else x), ("poisoned", dbgBool poisoned)] true
/-- src/routing.rs:18-26, when nobody has locked the connection for writing. -/
def StreamState.dbg (x : StreamState) : Dbg :=
  .struct "InternalQuicStream" [("receiver", .struct "Receiver" [] true), ("sender", .struct "Sender" [] true),
    ("connection", dbgLock "RwLock" false false x.connection.dbg)] false
/-- Which locks of src/routing.rs:18-33 are held for writing, and which are poisoned. -/
structure Locks where
  socketLocked : Bool
  socketPoisoned : Bool
  streamsLocked : Bool
  streamsPoisoned : Bool
  logLocked : Bool
  logPoisoned : Bool
/-- src/routing.rs:28-33 and src/interface.rs:6-9. `udp` is the text for the UDP socket; the entries of the `HashMap` come in any order. -/
def Sock.dbg (k : Sock) (l : Locks) (udp : List Char) (entries : List (U160 × StreamState)) : Dbg :=
  .struct "QuicSocket" [("socket", .struct "InternalQuicSocket" [
    ("socket", dbgLock "Mutex" l.socketLocked l.socketPoisoned (.raw udp)),
    ("streams", dbgLock "RwLock" l.streamsLocked l.streamsPoisoned (.map (entries.map fun e => (e.1.dbg, e.2.dbg)))),
    ("log_traffic", dbgLock "RwLock" l.logLocked l.logPoisoned (dbgBool k.logTraffic))] false)] false

example : (Dbg.tup "Ok" [(PacketHeader.short ⟨0x41, ⟨0, 7⟩, true⟩).dbg]).render
    = "Ok(Short(ShortPacketHeader { header_byte: 65, destination_connection_id: U160 { idx0: 0, idx1: 7 }, is_protected: true }))".toList := by decide +kernel
example : (dbgVec Packet.dbg []).render = "[]".toList ∧ (Error.internalError "\"x\"").dbg.render = "InternalError(\"\\\"x\\\"\")".toList := by decide +kernel
example : (dbgLock "RwLock" false true (.num 5)).render = "RwLock { data: 5, poisoned: true, .. }".toList ∧ (Dbg.struct "Sender" [] true).render = "Sender { .. }".toList := by
  decide +kernel

end QuicSea
