import Verif.Model.Routing
/-
The readers as they depend on the machine they run on: the width of `usize`, and standard output and standard error.

`Verif.Model.Utils`, `Frame`, `Packet` and `Routing` describe a 64-bit machine and leave out the diagnostic output. Here are, once more, the functions
of the source that convert a `u64` to `usize` or print, and those that call them. The conversions are all lengths passed to `var_bytes_from_stream`,
which is also the only reader that prints. `Verif.Proofs.Env` compares the two.
-/
namespace QuicSea

/-- Where the program runs: the width of `usize` (`as usize`, for instance src/packet.rs:84) and whether the outputs of src/utils.rs:437-438
and src/routing.rs:70, 99, 145 can be written. -/
structure Env where
  /-- bits of a `usize` -/
  ptr : Nat
  /-- whether writing to standard output succeeds; `println!` panics if it does not -/
  stdout : Bool
  /-- whether writing to standard error succeeds; `eprintln!` panics if it does not -/
  stderr : Bool

/-- Rust `x as usize` for a `u64`, as at src/frame.rs:225. -/
def Env.usize (w : Env) (x : U64) : Nat := x.toNat % 2 ^ w.ptr
/-- Rust `a - b` on `usize`, as at src/packet.rs:272: checked in debug, wrapping in release. -/
def Env.sub (w : Env) (bp : Profile) (a b : Nat) : Out Nat :=
  if b ≤ a then .ok (a - b)
  else match bp with
    | .debug => .panic "attempt to subtract with overflow"
    | .release => .ok (2 ^ w.ptr + a - b)

/-- A reader that may print (src/utils.rs:437): outcome, what is left of the stream, and the lines `failed at: {i}` it printed, as the list of the `i`. -/
def Pr (α : Type u) := Stream → Out α × Stream × List Nat

namespace Pr
/-- `Ok(a)`, as at src/utils.rs:442. -/
def pure (a : α) : Pr α := fun s => (.ok a, s, [])
/-- `let a = m(stream)?; f(a, stream)`, as at src/utils.rs:461-462. -/
def bind (m : Pr α) (f : α → Pr β) : Pr β := fun s =>
  match m s with
  | (.ok a, s', l) => ((f a s').1, (f a s').2.1, l ++ (f a s').2.2)
  | (.err e, s', l) => (.err e, s', l)
  | (.panic w, s', l) => (.panic w, s', l)
/-- Do-notation for it, as in src/utils.rs:457-465. -/
instance : Monad Pr where
  pure := Pr.pure
  bind := Pr.bind
/-- A reader that prints nothing: one that does not call src/utils.rs:426-443. -/
def of (m : Rd α) : Pr α := fun s => ((m s).1, (m s).2, [])
/-- Run a computation that does not touch the stream (for instance src/packet.rs:268). -/
def lift (x : Out α) : Pr α := fun s => (x, s, [])
/-- `stream.clone()`, as at src/packet.rs:775. -/
def cloned : Pr Stream := fun s => (.ok s, s, [])
/-- The outcome and the output of a reader run on another stream, as at src/packet.rs:288. -/
def on (m : Pr α) (other : Stream) : Pr α := fun s => ((m other).1, s, (m other).2.2)
/-- The same, with `.unwrap()`, as at src/packet.rs:776. -/
def onUnwrap (m : Pr α) (other : Stream) : Pr α := fun s => ((m other).1.unwrap, s, (m other).2.2)
end Pr

/-- `stream.next()` of src/utils.rs:432-440: on an error the index is printed (and the output flushed, with `.unwrap()`) before `?` returns it. -/
def nextOrPrint (w : Env) (i : Nat) : Pr U8 := fun s =>
  match nextOr "not enough bytes for var_bytes" s with
  | (.ok b, s') => (.ok b, s', [])
  | (.err e, s') => if w.stdout then (.err e, s', [i]) else (.panic "failed printing to stdout", s', [])
  | (.panic p, s') => (.panic p, s', [])
/-- Loop of src/utils.rs:432-441. -/
def varBytesLoopP (w : Env) : Nat → Nat → Pr Bytes
  | _, 0 => pure []
  | i, n + 1 => do
    let b ← nextOrPrint w i
    let rv ← varBytesLoopP w (i + 1) n
    pure (b :: rv)
/-- src/utils.rs:426-443 `var_bytes_from_stream`, with its output. -/
def varBytesP (w : Env) (n : Nat) : Pr Bytes := varBytesLoopP w 0 n

/-! ### frame.rs -/

/-- src/frame.rs:219-232. -/
def FrameCrypto.fromDatagramP (w : Env) : Pr FrameCrypto := do
  let offset ← Pr.of varIntFromStream
  let length ← Pr.of varIntFromStream
  let cryptoData ← varBytesP w (w.usize (length + offset))
  pure { offset, length, cryptoData }
/-- src/frame.rs:257-267. -/
def FrameNewToken.fromDatagramP (w : Env) : Pr FrameNewToken := do
  let tokenLength ← Pr.of varIntFromStream
  let token ← varBytesP w (w.usize tokenLength)
  pure { tokenLength, token }
/-- src/frame.rs:297-326. -/
def FrameStream.fromDatagramP (w : Env) (typeByte : U8) : Pr FrameStream := do
  let hasOffset : Bool := typeByte &&& 0x04 = 1
  let hasLength : Bool := typeByte &&& 0x02 = 1
  let isFin : Bool := typeByte &&& 0x01 = 1
  let streamId ← Pr.of varIntFromStream
  let offset ← if hasOffset then Pr.of varIntFromStream else pure 0
  let tpLength ← if hasLength then do
      let l ← Pr.of varIntFromStream
      pure (some l)
    else pure none
  let streamData ← match tpLength with
    | some x => varBytesP w (w.usize x)
    | none => Pr.of allBytesFromStream
  pure { streamId, offset, length := BitVec.ofNat 64 streamData.length, streamData, isFin }
/-- src/frame.rs:703-723. -/
def FrameConnectionClose.fromDatagramP (w : Env) (typeByte : U8) : Pr FrameConnectionClose := do
  let isApplicationError : Bool := typeByte &&& 0x1 = 1
  let errorCode ← Pr.of varIntFromStream
  let frameType ← if !isApplicationError then do
      let t ← Pr.of varIntFromStream
      pure (some t)
    else pure none
  let reasonPhraseLength ← Pr.of varIntFromStream
  let reasonPhrase ← varBytesP w (w.usize reasonPhraseLength)
  pure { errorCode, frameType, reasonPhraseLength, reasonPhrase, isApplicationError }
/-- src/frame.rs:803-851. The other frames are read without `var_bytes_from_stream`. -/
def deserializeFrameBodyP (w : Env) (typeByte : U8) : Pr Frame :=
  let t := typeByte.toNat
  if t = 0x06 then do let x ← FrameCrypto.fromDatagramP w; pure (.crypto x)
  else if t = 0x07 then do let x ← FrameNewToken.fromDatagramP w; pure (.newToken x)
  else if 0x08 ≤ t ∧ t ≤ 0x0f then do let x ← FrameStream.fromDatagramP w typeByte; pure (.stream x)
  else if 0x1c ≤ t ∧ t ≤ 0x1d then do let x ← FrameConnectionClose.fromDatagramP w typeByte; pure (.connectionClose x)
  else Pr.of (deserializeFrameBody typeByte)
/-- src/frame.rs:797-852. -/
def deserializeFrameP (w : Env) : Pr Frame := do
  let typeByte ← Pr.of varIntFromStream
  let typeByte : U8 := (typeByte &&& (((1 : U64) <<< 8) - 1)).setWidth 8
  deserializeFrameBodyP w typeByte
/-- Loop of src/frame.rs:860-863, fuelled as `deserializeFramesLoop`. -/
def deserializeFramesLoopP (w : Env) : Nat → Pr (List Frame)
  | _, [] => (.ok [], [], [])
  | 0, s => (.panic "model: out of fuel", s, [])
  | fuel + 1, s => (do
      let f ← deserializeFrameP w
      let fs ← deserializeFramesLoopP w fuel
      pure (f :: fs) : Pr (List Frame)) s
/-- src/frame.rs:854-865 `deserialize_frames`. -/
def deserializeFramesP (w : Env) : Pr (List Frame) := fun s => deserializeFramesLoopP w (s.length + 1) s

/-! ### secrets.rs, connection.rs -/

/-- src/quictls/secrets.rs:92-100. -/
def Secrets.getHeaderProtectionMaskP (w : Env) (s : Secrets) : Pr Mask := do
  let sample ← varBytesP w s.cipherSuite.sampleLen
  Pr.lift (s.cipherSuite.hpMask s.hp sample)
/-- src/connection.rs:145-155. -/
def Connection.getLocalHpMaskP (w : Env) (c : Connection) (sp : PnSpace) : Pr Mask := do
  let s ← Pr.lift (c.localSecrets sp)
  s.getHeaderProtectionMaskP w
/-- src/connection.rs:157-167. -/
def Connection.getRemoteHpMaskP (w : Env) (c : Connection) (sp : PnSpace) : Pr Mask := do
  let s ← Pr.lift (c.remoteSecrets sp)
  s.getHeaderProtectionMaskP w

/-! ### packet.rs -/

/-- src/packet.rs:53-117. `var_bytes_from_stream` reads the connection ids of a Version Negotiation packet; their lengths are bytes. -/
def LongPacketHeader.fromStreamP (w : Env) (headerByte : U8) : Pr LongPacketHeader := do
  let version ← Pr.of u32FromDatagram
  let isVersionNegotiation : Bool := version = VERSION_NEGOTIATION_VERSION_VALUE
  let (versionNegotiation, dcidLen, dcid, scidLen, scid) ←
    (if !isVersionNegotiation then do
      let dcidLen ← Pr.of u8FromDatagram
      if dcidLen.toNat > 20 then Pr.lift (.err (.internalError "invalid destination connection id length"))
      else do
        let dcid ← Pr.of (varU160FromStream dcidLen)
        let scidLen ← Pr.of u8FromDatagram
        if scidLen.toNat > 20 then Pr.lift (.err (.internalError "invalid source connection id length"))
        else do
          let scid ← Pr.of (varU160FromStream scidLen)
          pure (none, dcidLen, dcid, scidLen, scid)
    else do
      let dcidLen ← Pr.of u8FromDatagram
      let destinationConnectionId ← varBytesP w dcidLen.toNat
      let scidLen ← Pr.of u8FromDatagram
      let sourceConnectionId ← varBytesP w scidLen.toNat
      pure (some { destinationConnectionId, sourceConnectionId }, dcidLen, U160.zero, scidLen, U160.zero))
  let rv : LongPacketHeader :=
    { headerByte, version, destinationConnectionIdLength := dcidLen, destinationConnectionId := dcid,
      sourceConnectionIdLength := scidLen, sourceConnectionId := scid, versionNegotiation, isProtected := true }
  let t ← Pr.lift rv.packetType
  let isProtected := match t with
    | .retry => false
    | .versionNegotiation => false
    | _ => true
  pure { rv with isProtected }
/-- src/packet.rs:755-769. -/
def nextHeaderFromStreamP (w : Env) : Pr PacketHeader := do
  let headerByte ← Pr.of (nextOr "no header byte found")
  if headerByte &&& 0x80 = 0x80 then do
    let res ← LongPacketHeader.fromStreamP w headerByte
    pure (.long res)
  else do
    let res ← Pr.of (ShortPacketHeader.fromStream headerByte)
    pure (.short res)
/-- src/packet.rs:185-208. -/
def PacketVersionNegotiation.fromStreamP (w : Env) : Pr PacketVersionNegotiation := do
  let headerByte ← Pr.of u8FromDatagram
  let header ← LongPacketHeader.fromStreamP w headerByte
  let supportedVersionsBytes ← Pr.of allBytesFromStream
  if supportedVersionsBytes.length &&& 0x03 ≠ 0 then
    Pr.lift (.err (.internalError "\"supported versions\" is not qword aligned"))
  else do
    let supportedVersions ← Pr.lift (chunksToU32 supportedVersionsBytes)
    pure { header, supportedVersions }
/-- src/packet.rs:252-297. -/
def PacketInitial.fromStreamP (w : Env) (bp : Profile) (c : Connection) : Pr PacketInitial := do
  let headerByte ← Pr.of u8FromDatagram
  let header ← LongPacketHeader.fromStreamP w headerByte
  let (tokenLength, tokenLengthBytes) ← Pr.of varIntWithBytesFromStream
  let token ← varBytesP w (w.usize tokenLength)
  let (length, lengthBytes) ← Pr.of varIntWithBytesFromStream
  let pnBytesProtected ← varBytesP w 4
  let offsetStream ← Pr.cloned
  let mask ← (c.getRemoteHpMaskP w .initial).on offsetStream
  let header := header.removeProtection mask
  let pnLength ← Pr.lift header.packetNumberLength
  let pnBytesUnprotected ← Pr.lift (xorPnProtection pnBytesProtected mask)
  let packetNumberBytes ← Pr.lift (sliceTo pnBytesUnprotected pnLength)
  let packetNumber ← Pr.lift (c.reconstructRemotePn bp .initial packetNumberBytes)
  let n ← Pr.lift (w.sub bp (w.usize length) pnLength)
  let protectedFrameData ← varBytesP w n
  let headerBytes ← Pr.lift header.toBytes
  let associatedData := headerBytes ++ tokenLengthBytes ++ token ++ lengthBytes ++ packetNumberBytes
  let frameData ← Pr.lift (c.decryptRemotePayload .initial protectedFrameData associatedData packetNumber)
  let packetPayload ← (deserializeFramesP w).on (makeResultStream frameData)
  pure { header, token, packetNumber, packetNumberBytes, packetPayload }
/-- src/packet.rs:355-394. -/
def PacketZeroRtt.fromStreamP (w : Env) (bp : Profile) (c : Connection) : Pr PacketZeroRtt := do
  let headerByte ← Pr.of u8FromDatagram
  let header ← LongPacketHeader.fromStreamP w headerByte
  let (length, lengthBytes) ← Pr.of varIntWithBytesFromStream
  let pnBytesProtected ← varBytesP w 4
  let offsetStream ← Pr.cloned
  let mask ← (c.getRemoteHpMaskP w .application).on offsetStream
  let header := header.removeProtection mask
  let pnLength ← Pr.lift header.packetNumberLength
  let pnBytesUnprotected ← Pr.lift (xorPnProtection pnBytesProtected mask)
  let packetNumberBytes ← Pr.lift (sliceTo pnBytesUnprotected pnLength)
  let packetNumber ← Pr.lift (c.reconstructRemotePn bp .application packetNumberBytes)
  let n ← Pr.lift (w.sub bp (w.usize length) pnLength)
  let protectedFrameData ← varBytesP w n
  let headerBytes ← Pr.lift header.toBytes
  let pnAd ← Pr.lift (sliceTo packetNumberBytes pnLength)
  let associatedData := headerBytes ++ lengthBytes ++ pnAd
  let frameData ← Pr.lift (c.decryptRemotePayload .application protectedFrameData associatedData packetNumber)
  let packetPayload ← (deserializeFramesP w).on (makeResultStream frameData)
  pure { header, length, packetNumberBytes, packetNumber, packetPayload }
/-- src/packet.rs:435-474. -/
def PacketHandshake.fromStreamP (w : Env) (bp : Profile) (c : Connection) : Pr PacketHandshake := do
  let headerByte ← Pr.of u8FromDatagram
  let header ← LongPacketHeader.fromStreamP w headerByte
  let (length, lengthBytes) ← Pr.of varIntWithBytesFromStream
  let pnBytesProtected ← varBytesP w 4
  let offsetStream ← Pr.cloned
  let mask ← (c.getRemoteHpMaskP w .handshake).on offsetStream
  let header := header.removeProtection mask
  let pnLength ← Pr.lift header.packetNumberLength
  let packetNumberBytes ← Pr.lift (xorPnProtection pnBytesProtected mask)
  let packetNumberVec ← Pr.lift (sliceTo packetNumberBytes pnLength)
  let packetNumber ← Pr.lift (c.reconstructRemotePn bp .handshake packetNumberBytes)
  let n ← Pr.lift (w.sub bp (w.usize length) pnLength)
  let protectedFrameData ← varBytesP w n
  let headerBytes ← Pr.lift header.toBytes
  let associatedData := headerBytes ++ lengthBytes ++ packetNumberVec
  let frameData ← Pr.lift (c.decryptRemotePayload .handshake protectedFrameData associatedData packetNumber)
  let packetPayload ← (deserializeFramesP w).on (makeResultStream frameData)
  pure { header, packetNumberBytes := packetNumberVec, packetNumber, packetPayload }
/-- src/packet.rs:673-704. -/
def PacketOneRtt.fromStreamP (w : Env) (bp : Profile) (c : Connection) : Pr PacketOneRtt := do
  let headerByte ← Pr.of u8FromDatagram
  let header ← Pr.of (ShortPacketHeader.fromStream headerByte)
  let pnBytesProtected ← varBytesP w 4
  let offsetStream ← Pr.cloned
  let mask ← (c.getRemoteHpMaskP w .application).on offsetStream
  let header := header.removeProtection mask
  let pnLength ← Pr.lift header.packetNumberLength
  let pnBytesUnprotected ← Pr.lift (xorPnProtection pnBytesProtected mask)
  let packetNumberBytes ← Pr.lift (sliceTo pnBytesUnprotected pnLength)
  let packetNumber ← Pr.lift (c.reconstructRemotePn bp .application packetNumberBytes)
  let protectedFrameData ← Pr.of allBytesFromStream
  let headerBytes ← Pr.lift header.toBytes
  let associatedData := headerBytes ++ packetNumberBytes
  let frameData ← Pr.lift (c.decryptRemotePayload .application protectedFrameData associatedData packetNumber)
  let packetPayload ← (deserializeFramesP w).on (makeResultStream frameData)
  pure { header, packetNumberBytes, packetNumber, packetPayload }
/-- src/packet.rs:771-806. -/
def decodeNextPacketP (w : Env) (bp : Profile) (c : Connection) : Pr Packet := do
  let headerStream ← Pr.cloned
  let header ← (nextHeaderFromStreamP w).onUnwrap headerStream
  match header with
  | .short _ => do
    let res ← PacketOneRtt.fromStreamP w bp c
    pure (.oneRtt res)
  | .long x => do
    let t ← Pr.lift x.packetType
    match t with
    | .handshake => do let res ← PacketHandshake.fromStreamP w bp c; pure (.handshake res)
    | .initial => do let res ← PacketInitial.fromStreamP w bp c; pure (.initial res)
    | .zeroRtt => do let res ← PacketZeroRtt.fromStreamP w bp c; pure (.zeroRtt res)
    | .retry => do let res ← Pr.of PacketRetry.fromStream; pure (.retry res)
    | .versionNegotiation => do let res ← PacketVersionNegotiation.fromStreamP w; pure (.versionNegotiation res)
    | _ => Pr.lift (.panic "internal error: entered unreachable code")
/-- Loop of src/packet.rs:813-815, fuelled as `decodePacketsLoop`. -/
def decodePacketsLoopP (w : Env) (bp : Profile) (c : Connection) : Nat → Pr (List Packet)
  | _, [] => (.ok [], [], [])
  | 0, s => (.panic "model: out of fuel", s, [])
  | fuel + 1, s => (do
      let p ← decodeNextPacketP w bp c
      let ps ← decodePacketsLoopP w bp c fuel
      pure (p :: ps) : Pr (List Packet)) s
/-- src/packet.rs:808-817 `decode_packets`. -/
def decodePacketsP (w : Env) (bp : Profile) (c : Connection) : Pr (List Packet) := fun s => decodePacketsLoopP w bp c (s.length + 1) s

/-! The encoders use `var_bytes_from_stream` for the sample of the header protection. They are written as readers of a stream they do not touch. -/

/-- src/packet.rs:304-341. -/
def PacketInitial.serializeP (w : Env) (p : PacketInitial) (c : Connection) : Pr Bytes := do
  let payloadBytes ← Pr.lift (serializeFrames p.packetPayload false)
  let pnLength ← Pr.lift p.header.packetNumberLength
  let protectedLen ← Pr.lift (c.getLocalProtectedPayloadLen .initial payloadBytes.length)
  let length : U64 := BitVec.ofNat 64 (protectedLen + pnLength)
  let lengthBytes ← Pr.lift (encodeVarInt length)
  let tokenLengthBytes ← Pr.lift (encodeVarInt (BitVec.ofNat 64 p.token.length))
  let headerBytes ← Pr.lift p.header.toBytes
  let associatedData := headerBytes ++ tokenLengthBytes ++ p.token ++ lengthBytes ++ p.packetNumberBytes
  let protectedPayload ← Pr.lift (c.encryptLocalPayload .initial payloadBytes associatedData p.packetNumber)
  let sampleBytes ← Pr.lift (sliceFrom protectedPayload (4 - pnLength))
  let mask ← (c.getLocalHpMaskP w .initial).on (makeResultStream sampleBytes)
  let protectedHeader := p.header.addProtection mask
  let protectedPn ← Pr.lift (xorPnProtection p.packetNumberBytes mask)
  let protectedHeaderBytes ← Pr.lift protectedHeader.toBytes
  pure (protectedHeaderBytes ++ tokenLengthBytes ++ p.token ++ lengthBytes ++ protectedPn ++ protectedPayload)
/-- src/packet.rs:481-513. -/
def PacketHandshake.serializeP (w : Env) (p : PacketHandshake) (c : Connection) : Pr Bytes := do
  let payloadBytes ← Pr.lift (serializeFrames p.packetPayload false)
  let pnLength ← Pr.lift p.header.packetNumberLength
  let protectedLen ← Pr.lift (c.getLocalProtectedPayloadLen .handshake payloadBytes.length)
  let length : U64 := BitVec.ofNat 64 (protectedLen + pnLength)
  let lengthBytes ← Pr.lift (encodeVarInt length)
  let headerBytes ← Pr.lift p.header.toBytes
  let associatedData := headerBytes ++ lengthBytes ++ p.packetNumberBytes
  let protectedPayload ← Pr.lift (c.encryptLocalPayload .handshake payloadBytes associatedData p.packetNumber)
  let sampleBytes ← Pr.lift (sliceFrom protectedPayload (4 - pnLength))
  let mask ← (c.getLocalHpMaskP w .handshake).on (makeResultStream sampleBytes)
  let protectedHeader := p.header.addProtection mask
  let protectedPn ← Pr.lift (xorPnProtection p.packetNumberBytes mask)
  let protectedHeaderBytes ← Pr.lift protectedHeader.toBytes
  pure (protectedHeaderBytes ++ lengthBytes ++ protectedPn ++ protectedPayload)

/-! ### routing.rs -/

/-- A line printed by the socket (src/utils.rs:437; src/routing.rs:70, 99, 145). -/
inductive Line where
  /-- src/utils.rs:437 -/
  | failedAt (i : Nat)
  /-- src/routing.rs:70, 145 -/
  | log (l : LogLine)
  /-- src/routing.rs:99, to standard error -/
  | refused (e : Error)

namespace Sock

/-- src/routing.rs:60-73. -/
def recvDatagramP (w : Env) (k : Sock) : NetEvent → Io Datagram × Sock × List Line
  | .ioError => (.ioErr, k, [])
  | .datagram raw addr =>
    let data := raw.take RECV_BUFFER_LEN
    if k.logTraffic then
      let r := nextHeaderFromStreamP w (makeResultStream data)
      let ls := r.2.2.map Line.failedAt
      match r.1 with
      | .panic p => (.panic p, k, ls)
      | header =>
        if w.stdout then (.ok { data, addr }, { k with printed := k.printed ++ [.header header] }, ls ++ [.log (.header header)])
        else (.panic "failed printing to stdout", k, ls)
    else (.ok { data, addr }, k, [])
/-- src/routing.rs:77-103. -/
def isNewInitialP (w : Env) (k : Sock) (d : Datagram) : Out Bool × List Line :=
  let r := nextHeaderFromStreamP w (makeResultStream d.data)
  let ls := r.2.2.map Line.failedAt
  match r.1 with
  | .ok x =>
    (do
      let packetType ← x.getPacketType
      let dcid := x.getDestinationId
      match packetType with
      | .initial => pure (k.streams dcid).isNone
      | _ => pure false, ls)
  | .err e => if w.stderr then (.ok false, ls ++ [.refused e]) else (.panic "failed printing to stderr", ls)
  | .panic p => (.panic p, ls)
/-- src/routing.rs:111-128. -/
def routeDatagramP (w : Env) (k : Sock) (d : Datagram) : Out Unit × Sock × List Line :=
  let r := nextHeaderFromStreamP w (makeResultStream d.data)
  let ls := r.2.2.map Line.failedAt
  match r.1 with
  | .ok routeHeader =>
    let connectionId := routeHeader.getDestinationId
    match k.streams connectionId with
    | some x => (.ok (), { k with streams := tableInsert k.streams connectionId { x with queue := x.queue ++ [d] } }, ls)
    | none => (.err (.internalError "missing connection"), k, ls)
  | .err e => (.err e, k, ls)
  | .panic p => (.panic p, k, ls)
/-- src/routing.rs:74-110. -/
def recvNewInitialDatagramP (w : Env) (k : Sock) : List NetEvent → Io Datagram × Sock × List NetEvent × List Line
  | [] => (.blocked, k, [], [])
  | e :: net =>
    match k.recvDatagramP w e with
    | (.ok d, k, l1) =>
      match k.isNewInitialP w d with
      | (.ok true, l2) => (.ok d, k, net, l1 ++ l2)
      | (.ok false, l2) =>
        match k.routeDatagramP w d with
        | (.ok (), k, l3) =>
          let r := recvNewInitialDatagramP w k net
          (r.1, r.2.1, r.2.2.1, l1 ++ l2 ++ l3 ++ r.2.2.2)
        | (.err _, k, l3) => (.panic "called `Result::unwrap()` on an `Err` value", k, net, l1 ++ l2 ++ l3)
        | (.panic p, k, l3) => (.panic p, k, net, l1 ++ l2 ++ l3)
      | (.err _, l2) => (.panic "model: isNewInitial has no error outcome", k, net, l1 ++ l2)
      | (.panic p, l2) => (.panic p, k, net, l1 ++ l2)
    | (.ioErr, k, l1) => (.ioErr, k, net, l1)
    | (.panic p, k, l1) => (.panic p, k, net, l1)
    | (.blocked, k, l1) => (.blocked, k, net, l1)
/-- src/routing.rs:130-148. -/
def packetsFromDatagramP (w : Env) (bp : Profile) (k : Sock) (d : Datagram) : Out (List Packet) × Sock × List Line :=
  let stream := makeResultStream d.data
  let r := nextHeaderFromStreamP w stream
  let l1 := r.2.2.map Line.failedAt
  match r.1 with
  | .ok header =>
    match k.streams header.getDestinationId with
    | none => (.err (.internalError "connection not found"), k, l1)
    | some routeStream =>
      let q := decodePacketsP w bp routeStream.connection stream
      let l2 := q.2.2.map Line.failedAt
      match q.1 with
      | .ok rv =>
        if k.logTraffic then
          if w.stdout then (.ok rv, { k with printed := k.printed ++ [.packets rv] }, l1 ++ l2 ++ [.log (.packets rv)])
          else (.panic "failed printing to stdout", k, l1 ++ l2)
        else (.ok rv, k, l1 ++ l2)
      | r => (r, k, l1 ++ l2)
  | .err e => (.err e, k, l1)
  | .panic p => (.panic p, k, l1)
/-- src/routing.rs:157-187. The header of an accepted datagram has been read before (`recv_new_initial_datagram`), without output. -/
def acceptP (w : Env) (P : Prims) (k : Sock) (net : List NetEvent) (rng : List U64) :
    Io U160 × Sock × List NetEvent × List U64 × List Line :=
  let r := k.recvNewInitialDatagramP w net
  match r.1 with
  | .ok d =>
    match newConnectionFor P d with
    | .ok connection =>
      match r.2.1.register (.fromConnection connection) rng with
      | (.ok rv, k, rng) =>
        match k.streams rv with
        | some _ => (.panic "not yet implemented", k, r.2.2.1, rng, r.2.2.2)
        | none => (.panic "called `Option::unwrap()` on a `None` value", k, r.2.2.1, rng, r.2.2.2)
      | (.ioErr, k, rng) => (.ioErr, k, r.2.2.1, rng, r.2.2.2)
      | (.panic p, k, rng) => (.panic p, k, r.2.2.1, rng, r.2.2.2)
      | (.blocked, k, rng) => (.blocked, k, r.2.2.1, rng, r.2.2.2)
    | .err _ => (.panic "model: newConnectionFor has no error outcome", r.2.1, r.2.2.1, rng, r.2.2.2)
    | .panic p => (.panic p, r.2.1, r.2.2.1, rng, r.2.2.2)
  | .ioErr => (.ioErr, r.2.1, r.2.2.1, rng, r.2.2.2)
  | .panic p => (.panic p, r.2.1, r.2.2.1, rng, r.2.2.2)
  | .blocked => (.blocked, r.2.1, r.2.2.1, rng, r.2.2.2)
end Sock

end QuicSea
