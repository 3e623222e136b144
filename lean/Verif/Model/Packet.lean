import Verif.Model.Connection
import Verif.Model.Frame
/-
Model of src/packet.rs.
-/
namespace QuicSea

/-- src/packet.rs:6. -/
def VERSION_NEGOTIATION_VERSION_VALUE : U32 := 0

/-- src/packet.rs:8-12. -/
structure VnFields where
  destinationConnectionId : Bytes
  sourceConnectionId : Bytes
deriving DecidableEq, Repr

/-- src/packet.rs:14-24. -/
structure LongPacketHeader where
  headerByte : U8
  version : U32
  destinationConnectionIdLength : U8
  destinationConnectionId : U160
  sourceConnectionIdLength : U8
  sourceConnectionId : U160
  versionNegotiation : Option VnFields
  isProtected : Bool
deriving DecidableEq, Repr

/-- src/packet.rs:734-743. -/
inductive PacketType where
  | versionNegotiation
  | initial
  | zeroRtt
  | handshake
  | retry
  | oneRtt
  | statelessReset
deriving DecidableEq, Repr

/-- src/packet.rs:26-35 `xor_pn_protection`: at most four bytes, byte `i` is xored with `mask[i + 1]`. -/
def xorPnProtection (pnBytes : Bytes) (mask : Mask) : Out Bytes :=
  if pnBytes.length > 4 then .err (.internalError "too many bytes for packet number")
  else .ok (pnBytes.zipWith (· ^^^ ·) [mask.m1, mask.m2, mask.m3, mask.m4])

namespace LongPacketHeader
/-- src/packet.rs:38. -/
def HEADER_BITS : U8 := 0xc0

/-- src/packet.rs:39-52. -/
def fromConnection (c : Connection) (headerByte : U8) : Out LongPacketHeader := do
  let (destinationConnectionId, destinationConnectionIdLength) := c.getDcid
  let (sourceConnectionId, sourceConnectionIdLength) ← c.getScid
  pure { headerByte, version := c.getVersionField, destinationConnectionId, destinationConnectionIdLength,
         sourceConnectionId, sourceConnectionIdLength, versionNegotiation := none, isProtected := false }

/-- src/packet.rs:161-175 `packet_type`. -/
def packetType (h : LongPacketHeader) : Out PacketType :=
  if h.version = VERSION_NEGOTIATION_VERSION_VALUE then .ok .versionNegotiation
  else
    let typeBits := (h.headerByte &&& (((1 : U8) <<< 6) - 1)) >>> 4
    if typeBits = 0x00 then .ok .initial
    else if typeBits = 0x01 then .ok .zeroRtt
    else if typeBits = 0x02 then .ok .handshake
    else if typeBits = 0x03 then .ok .retry
    else .panic "internal error: entered unreachable code"

/-- src/packet.rs:53-117 `from_stream`. -/
def fromStream (headerByte : U8) : Rd LongPacketHeader := do
  let version ← u32FromDatagram
  let isVersionNegotiation : Bool := version = VERSION_NEGOTIATION_VERSION_VALUE
  let (versionNegotiation, dcidLen, dcid, scidLen, scid) ←
    (if !isVersionNegotiation then do
      let dcidLen ← u8FromDatagram
      if dcidLen.toNat > 20 then Rd.fail (.internalError "invalid destination connection id length")
      else do
        let dcid ← varU160FromStream dcidLen
        let scidLen ← u8FromDatagram
        if scidLen.toNat > 20 then Rd.fail (.internalError "invalid source connection id length")
        else do
          let scid ← varU160FromStream scidLen
          pure (none, dcidLen, dcid, scidLen, scid)
    else do
      let dcidLen ← u8FromDatagram
      let destinationConnectionId ← varBytesFromStream dcidLen.toNat
      let scidLen ← u8FromDatagram
      let sourceConnectionId ← varBytesFromStream scidLen.toNat
      pure (some { destinationConnectionId, sourceConnectionId }, dcidLen, U160.zero, scidLen, U160.zero))
  let rv : LongPacketHeader :=
    { headerByte, version, destinationConnectionIdLength := dcidLen, destinationConnectionId := dcid,
      sourceConnectionIdLength := scidLen, sourceConnectionId := scid, versionNegotiation, isProtected := true }
  let t ← Rd.lift rv.packetType
  let isProtected := match t with
    | .retry => false
    | .versionNegotiation => false
    | _ => true
  pure { rv with isProtected }

/-- src/packet.rs:118-132 `to_bytes` (the version-negotiation ids are not written). -/
def toBytes (h : LongPacketHeader) : Out Bytes := do
  let d ← h.destinationConnectionId.toVarBytes h.destinationConnectionIdLength.toNat
  let s ← h.sourceConnectionId.toVarBytes h.sourceConnectionIdLength.toNat
  pure ([h.headerByte] ++ toBeBytes 4 h.version ++ [h.destinationConnectionIdLength] ++ d
    ++ [h.sourceConnectionIdLength] ++ s)

/-- src/packet.rs:137-142. -/
def removeProtection (h : LongPacketHeader) (mask : Mask) : LongPacketHeader :=
  if h.isProtected then { h with headerByte := h.headerByte ^^^ (mask.m0 &&& 0x0f), isProtected := false } else h

/-- src/packet.rs:144-149. -/
def addProtection (h : LongPacketHeader) (mask : Mask) : LongPacketHeader :=
  if !h.isProtected then { h with headerByte := h.headerByte ^^^ (mask.m0 &&& 0x0f), isProtected := true } else h

/-- src/packet.rs:133-135 `pn_length_from_header_byte`, not called anywhere. The sum is at most 4. -/
def pnLengthFromHeaderByte (headerByte : U8) : U8 := (headerByte &&& 0x03) + 1

/-- src/packet.rs:151-159. -/
def packetNumberLength (h : LongPacketHeader) : Out Nat :=
  if h.isProtected then .err (.internalError "attempted to read protected packet number")
  else .ok ((h.headerByte &&& 0x03).toNat + 1)
end LongPacketHeader

/-- src/packet.rs:178-182. -/
structure PacketVersionNegotiation where
  header : LongPacketHeader
  supportedVersions : List U32
deriving DecidableEq, Repr

/-- `supported_versions_bytes.chunks(4).map(u32::from_datagram)` (src/packet.rs:197-203), stopping at the first error. -/
def chunksToU32 : Bytes → Out (List U32)
  | [] => .ok []
  | a :: b :: c :: d :: rest => do
    let v ← (u32FromDatagram (makeResultStream [a, b, c, d])).1
    let vs ← chunksToU32 rest
    pure (v :: vs)
  | short => do
    let v ← (u32FromDatagram (makeResultStream short)).1
    pure [v]

/-- src/packet.rs:185-208. -/
def PacketVersionNegotiation.fromStream : Rd PacketVersionNegotiation := do
  let headerByte ← u8FromDatagram
  let header ← LongPacketHeader.fromStream headerByte
  let supportedVersionsBytes ← allBytesFromStream
  if supportedVersionsBytes.length &&& 0x03 ≠ 0 then
    Rd.fail (.internalError "\"supported versions\" is not qword aligned")
  else do
    let supportedVersions ← Rd.lift (chunksToU32 supportedVersionsBytes)
    pure { header, supportedVersions }

/-- src/packet.rs:211-218. -/
structure PacketInitial where
  header : LongPacketHeader
  token : Bytes
  packetNumber : U64
  packetNumberBytes : Bytes
  packetPayload : List Frame
deriving DecidableEq, Repr

namespace PacketInitial
/-- src/packet.rs:222. -/
def TYPE_BITS : U8 := 0x00

/-- src/packet.rs:245-247. -/
def newHeaderByte (pnLengthBits : U8) : U8 := LongPacketHeader.HEADER_BITS ||| TYPE_BITS ||| pnLengthBits

/-- src/packet.rs:223-244 `PacketInitial::new`: outcome and the connection afterwards. `validate_payload`
(lines 248-251) always succeeds. -/
def new (bp : Profile) (payload : List Frame) (token : Option Bytes) (c : Connection) :
    Out PacketInitial × Connection :=
  match c.getNextPn bp .initial with
  | (.ok (packetNumber, packetNumberBytes), c) =>
    let pnLength : U8 := BitVec.ofNat 8 packetNumberBytes.length
    (if ¬ (0 < pnLength ∧ pnLength ≤ 4) then .err (.internalError "invalid truncated_pn")
     else do
      let headerByte := newHeaderByte (pnLength - 1)
      let header ← LongPacketHeader.fromConnection c headerByte
      pure { header, token := token.getD [], packetNumber, packetNumberBytes, packetPayload := payload }, c)
  | (.err e, c) => (.err e, c)
  | (.panic w, c) => (.panic w, c)

/-- src/packet.rs:252-297 `PacketInitial::from_stream`. -/
def fromStream (bp : Profile) (c : Connection) : Rd PacketInitial := do
  let headerByte ← u8FromDatagram
  let header ← LongPacketHeader.fromStream headerByte
  let (tokenLength, tokenLengthBytes) ← varIntWithBytesFromStream
  let token ← varBytesFromStream tokenLength.toNat
  let (length, lengthBytes) ← varIntWithBytesFromStream
  let pnBytesProtected ← varBytesFromStream 4
  let offsetStream ← Rd.cloned
  let mask ← Rd.lift (c.getRemoteHpMask .initial offsetStream).1
  let header := header.removeProtection mask
  let pnLength ← Rd.lift header.packetNumberLength
  let pnBytesUnprotected ← Rd.lift (xorPnProtection pnBytesProtected mask)
  let packetNumberBytes ← Rd.lift (sliceTo pnBytesUnprotected pnLength)
  let packetNumber ← Rd.lift (c.reconstructRemotePn bp .initial packetNumberBytes)
  let n ← Rd.lift (subUsize bp length.toNat pnLength)
  let protectedFrameData ← varBytesFromStream n
  let headerBytes ← Rd.lift header.toBytes
  let associatedData := headerBytes ++ tokenLengthBytes ++ token ++ lengthBytes ++ packetNumberBytes
  let frameData ← Rd.lift (c.decryptRemotePayload .initial protectedFrameData associatedData packetNumber)
  let packetPayload ← Rd.lift (deserializeFrames (makeResultStream frameData)).1
  pure { header, token, packetNumber, packetNumberBytes, packetPayload }

/-- src/packet.rs:304-341 `PacketInitial::serialize`. -/
def serialize (p : PacketInitial) (c : Connection) : Out Bytes := do
  let payloadBytes ← serializeFrames p.packetPayload false
  let pnLength ← p.header.packetNumberLength
  let protectedLen ← c.getLocalProtectedPayloadLen .initial payloadBytes.length
  let length : U64 := BitVec.ofNat 64 (protectedLen + pnLength)
  let lengthBytes ← encodeVarInt length
  let tokenLengthBytes ← encodeVarInt (BitVec.ofNat 64 p.token.length)
  let headerBytes ← p.header.toBytes
  let associatedData := headerBytes ++ tokenLengthBytes ++ p.token ++ lengthBytes ++ p.packetNumberBytes
  let protectedPayload ← c.encryptLocalPayload .initial payloadBytes associatedData p.packetNumber
  let sampleBytes ← sliceFrom protectedPayload (4 - pnLength)
  let mask ← (c.getLocalHpMask .initial (makeResultStream sampleBytes)).1
  let protectedHeader := p.header.addProtection mask
  let protectedPn ← xorPnProtection p.packetNumberBytes mask
  let protectedHeaderBytes ← protectedHeader.toBytes
  pure (protectedHeaderBytes ++ tokenLengthBytes ++ p.token ++ lengthBytes ++ protectedPn ++ protectedPayload)
end PacketInitial

/-- src/packet.rs:344-351. -/
structure PacketZeroRtt where
  header : LongPacketHeader
  length : U64
  packetNumberBytes : Bytes
  packetNumber : U64
  packetPayload : List Frame
deriving DecidableEq, Repr

/-- src/packet.rs:355-394. -/
def PacketZeroRtt.fromStream (bp : Profile) (c : Connection) : Rd PacketZeroRtt := do
  let headerByte ← u8FromDatagram
  let header ← LongPacketHeader.fromStream headerByte
  let (length, lengthBytes) ← varIntWithBytesFromStream
  let pnBytesProtected ← varBytesFromStream 4
  let offsetStream ← Rd.cloned
  let mask ← Rd.lift (c.getRemoteHpMask .application offsetStream).1
  let header := header.removeProtection mask
  let pnLength ← Rd.lift header.packetNumberLength
  let pnBytesUnprotected ← Rd.lift (xorPnProtection pnBytesProtected mask)
  let packetNumberBytes ← Rd.lift (sliceTo pnBytesUnprotected pnLength)
  let packetNumber ← Rd.lift (c.reconstructRemotePn bp .application packetNumberBytes)
  let n ← Rd.lift (subUsize bp length.toNat pnLength)
  let protectedFrameData ← varBytesFromStream n
  let headerBytes ← Rd.lift header.toBytes
  let pnAd ← Rd.lift (sliceTo packetNumberBytes pnLength)
  let associatedData := headerBytes ++ lengthBytes ++ pnAd
  let frameData ← Rd.lift (c.decryptRemotePayload .application protectedFrameData associatedData packetNumber)
  let packetPayload ← Rd.lift (deserializeFrames (makeResultStream frameData)).1
  pure { header, length, packetNumberBytes, packetNumber, packetPayload }

/-- src/packet.rs:397-403. -/
structure PacketHandshake where
  header : LongPacketHeader
  packetNumberBytes : Bytes
  packetNumber : U64
  packetPayload : List Frame
deriving DecidableEq, Repr

namespace PacketHandshake
/-- src/packet.rs:407. -/
def TYPE_BITS : U8 := 0x20

/-- src/packet.rs:426-428. -/
def newHeaderByte (pnLengthBits : U8) : U8 := LongPacketHeader.HEADER_BITS ||| TYPE_BITS ||| pnLengthBits

/-- src/packet.rs:409-424 `PacketHandshake::new`. -/
def new (bp : Profile) (payload : List Frame) (c : Connection) : Out PacketHandshake × Connection :=
  match c.getNextPn bp .handshake with
  | (.ok (packetNumber, packetNumberBytes), c) =>
    let pnLength : U8 := BitVec.ofNat 8 packetNumberBytes.length
    (if ¬ (0 < pnLength ∧ pnLength ≤ 4) then .err (.internalError "invalid truncated_pn")
     else do
      let headerByte := newHeaderByte (pnLength - 1)
      let header ← LongPacketHeader.fromConnection c headerByte
      pure { header, packetNumber, packetNumberBytes, packetPayload := payload }, c)
  | (.err e, c) => (.err e, c)
  | (.panic w, c) => (.panic w, c)

/-- src/packet.rs:435-474 `PacketHandshake::from_stream`. Line 451 passes all four unmasked bytes
(`&packet_number_bytes[..]`), not the truncated `packet_number_vec`, to the reconstruction. -/
def fromStream (bp : Profile) (c : Connection) : Rd PacketHandshake := do
  let headerByte ← u8FromDatagram
  let header ← LongPacketHeader.fromStream headerByte
  let (length, lengthBytes) ← varIntWithBytesFromStream
  let pnBytesProtected ← varBytesFromStream 4
  let offsetStream ← Rd.cloned
  let mask ← Rd.lift (c.getRemoteHpMask .handshake offsetStream).1
  let header := header.removeProtection mask
  let pnLength ← Rd.lift header.packetNumberLength
  let packetNumberBytes ← Rd.lift (xorPnProtection pnBytesProtected mask)
  let packetNumberVec ← Rd.lift (sliceTo packetNumberBytes pnLength)
  let packetNumber ← Rd.lift (c.reconstructRemotePn bp .handshake packetNumberBytes)
  let n ← Rd.lift (subUsize bp length.toNat pnLength)
  let protectedFrameData ← varBytesFromStream n
  let headerBytes ← Rd.lift header.toBytes
  let associatedData := headerBytes ++ lengthBytes ++ packetNumberVec
  let frameData ← Rd.lift (c.decryptRemotePayload .handshake protectedFrameData associatedData packetNumber)
  let packetPayload ← Rd.lift (deserializeFrames (makeResultStream frameData)).1
  pure { header, packetNumberBytes := packetNumberVec, packetNumber, packetPayload }

/-- src/packet.rs:481-513 `PacketHandshake::serialize`. -/
def serialize (p : PacketHandshake) (c : Connection) : Out Bytes := do
  let payloadBytes ← serializeFrames p.packetPayload false
  let pnLength ← p.header.packetNumberLength
  let protectedLen ← c.getLocalProtectedPayloadLen .handshake payloadBytes.length
  let length : U64 := BitVec.ofNat 64 (protectedLen + pnLength)
  let lengthBytes ← encodeVarInt length
  let headerBytes ← p.header.toBytes
  let associatedData := headerBytes ++ lengthBytes ++ p.packetNumberBytes
  let protectedPayload ← c.encryptLocalPayload .handshake payloadBytes associatedData p.packetNumber
  let sampleBytes ← sliceFrom protectedPayload (4 - pnLength)
  let mask ← (c.getLocalHpMask .handshake (makeResultStream sampleBytes)).1
  let protectedHeader := p.header.addProtection mask
  let protectedPn ← xorPnProtection p.packetNumberBytes mask
  let protectedHeaderBytes ← protectedHeader.toBytes
  pure (protectedHeaderBytes ++ lengthBytes ++ protectedPn ++ protectedPayload)
end PacketHandshake

/-- src/packet.rs:516-525. -/
structure PacketRetry where
  version : U32
  destinationConnectionIdLength : U8
  destinationConnectionId : U160
  sourceConnectionIdLength : U8
  sourceConnectionId : U160
  retryToken : Bytes
  retryIntegrityTag : U128
deriving DecidableEq, Repr

/-- src/packet.rs:528-533 `PacketRetry::from_stream` is `todo!()`. -/
def PacketRetry.fromStream : Rd PacketRetry := Rd.lift (.panic "not yet implemented")

/-- src/packet.rs:583-588. -/
structure ShortPacketHeader where
  headerByte : U8
  destinationConnectionId : U160
  isProtected : Bool
deriving DecidableEq, Repr

namespace ShortPacketHeader
/-- src/packet.rs:591-601. -/
def fromStream (headerByte : U8) : Rd ShortPacketHeader := do
  let destinationConnectionId ← fixedLenDcidFromStream
  pure { headerByte, destinationConnectionId, isProtected := true }

/-- src/packet.rs:602-610. -/
def spinBit (h : ShortPacketHeader) : Out Bool :=
  if h.isProtected then .err (.internalError "attempting to read protected spin bit")
  else .ok (h.headerByte &&& 0x20 = 0x20)

/-- src/packet.rs:611-619. -/
def reservedBits (h : ShortPacketHeader) : Out U8 :=
  if h.isProtected then .err (.internalError "attempting to read protected reserved bits")
  else .ok ((h.headerByte &&& 0x18) >>> 3)

/-- src/packet.rs:620-628. -/
def keyPhase (h : ShortPacketHeader) : Out Bool :=
  if h.isProtected then .err (.internalError "attempting to read protected key phase")
  else .ok (h.headerByte &&& 0x04 = 0x04)

/-- src/packet.rs:629-637. -/
def packetNumberLength (h : ShortPacketHeader) : Out Nat :=
  if h.isProtected then .err (.internalError "attempting to read protected packet nuber length")
  else .ok ((h.headerByte &&& 0x03).toNat + 1)

/-- src/packet.rs:638-641. -/
def packetType (_ : ShortPacketHeader) : PacketType := .oneRtt

/-- src/packet.rs:642-647. -/
def removeProtection (h : ShortPacketHeader) (mask : Mask) : ShortPacketHeader :=
  if h.isProtected then { h with headerByte := h.headerByte ^^^ (mask.m0 &&& 0x1f), isProtected := false } else h

/-- src/packet.rs:648-653. -/
def addProtection (h : ShortPacketHeader) (mask : Mask) : ShortPacketHeader :=
  if !h.isProtected then { h with headerByte := h.headerByte ^^^ (mask.m0 &&& 0x1f), isProtected := true } else h

/-- src/packet.rs:654-660. -/
def toBytes (h : ShortPacketHeader) : Out Bytes := do
  let d ← h.destinationConnectionId.toVarBytes 8
  pure ([h.headerByte] ++ d)
end ShortPacketHeader

/-- src/packet.rs:663-669. -/
structure PacketOneRtt where
  header : ShortPacketHeader
  packetNumberBytes : Bytes
  packetNumber : U64
  packetPayload : List Frame
deriving DecidableEq, Repr

/-- src/packet.rs:673-704. -/
def PacketOneRtt.fromStream (bp : Profile) (c : Connection) : Rd PacketOneRtt := do
  let headerByte ← u8FromDatagram
  let header ← ShortPacketHeader.fromStream headerByte
  let pnBytesProtected ← varBytesFromStream 4
  let offsetStream ← Rd.cloned
  let mask ← Rd.lift (c.getRemoteHpMask .application offsetStream).1
  let header := header.removeProtection mask
  let pnLength ← Rd.lift header.packetNumberLength
  let pnBytesUnprotected ← Rd.lift (xorPnProtection pnBytesProtected mask)
  let packetNumberBytes ← Rd.lift (sliceTo pnBytesUnprotected pnLength)
  let packetNumber ← Rd.lift (c.reconstructRemotePn bp .application packetNumberBytes)
  let protectedFrameData ← allBytesFromStream
  let headerBytes ← Rd.lift header.toBytes
  let associatedData := headerBytes ++ packetNumberBytes
  let frameData ← Rd.lift (c.decryptRemotePayload .application protectedFrameData associatedData packetNumber)
  let packetPayload ← Rd.lift (deserializeFrames (makeResultStream frameData)).1
  pure { header, packetNumberBytes, packetNumber, packetPayload }

/-- src/packet.rs:707-711. -/
inductive PacketHeader where
  | short (h : ShortPacketHeader)
  | long (h : LongPacketHeader)
deriving DecidableEq, Repr

/-- src/packet.rs:714-719. -/
def PacketHeader.getDestinationId : PacketHeader → U160
  | .short x => x.destinationConnectionId
  | .long x => x.destinationConnectionId

/-- src/packet.rs:720-725. -/
def PacketHeader.getDestinationIdLength : PacketHeader → U8
  | .short _ => 8
  | .long x => x.destinationConnectionIdLength

/-- src/packet.rs:726-731. -/
def PacketHeader.getPacketType : PacketHeader → Out PacketType
  | .short x => .ok x.packetType
  | .long x => x.packetType

/-- src/packet.rs:745-753. -/
inductive Packet where
  | versionNegotiation (p : PacketVersionNegotiation)
  | initial (p : PacketInitial)
  | zeroRtt (p : PacketZeroRtt)
  | handshake (p : PacketHandshake)
  | retry (p : PacketRetry)
  | oneRtt (p : PacketOneRtt)
deriving DecidableEq, Repr

/-- src/packet.rs:755-769. -/
def nextHeaderFromStream : Rd PacketHeader := do
  let headerByte ← nextOr "no header byte found"
  if headerByte &&& 0x80 = 0x80 then do
    let res ← LongPacketHeader.fromStream headerByte
    pure (.long res)
  else do
    let res ← ShortPacketHeader.fromStream headerByte
    pure (.short res)

/-- src/packet.rs:771-806. Line 776 unwraps the header parse. -/
def decodeNextPacket (bp : Profile) (c : Connection) : Rd Packet := do
  let headerStream ← Rd.cloned
  let header ← Rd.lift (nextHeaderFromStream headerStream).1.unwrap
  match header with
  | .short _ => do
    let res ← PacketOneRtt.fromStream bp c
    pure (.oneRtt res)
  | .long x => do
    let t ← Rd.lift x.packetType
    match t with
    | .handshake => do let res ← PacketHandshake.fromStream bp c; pure (.handshake res)
    | .initial => do let res ← PacketInitial.fromStream bp c; pure (.initial res)
    | .zeroRtt => do let res ← PacketZeroRtt.fromStream bp c; pure (.zeroRtt res)
    | .retry => do let res ← PacketRetry.fromStream; pure (.retry res)
    | .versionNegotiation => do let res ← PacketVersionNegotiation.fromStream; pure (.versionNegotiation res)
    | _ => Rd.lift (.panic "internal error: entered unreachable code")

/-- Loop of src/packet.rs:813-815, fuelled like `deserializeFramesLoop`. -/
def decodePacketsLoop (bp : Profile) (c : Connection) : Nat → Rd (List Packet)
  | _, [] => (.ok [], [])
  | 0, s => (.panic "model: out of fuel", s)
  | fuel + 1, s =>
    match decodeNextPacket bp c s with
    | (.ok p, s') =>
      match decodePacketsLoop bp c fuel s' with
      | (.ok ps, s'') => (.ok (p :: ps), s'')
      | r => r
    | (.err e, s') => (.err e, s')
    | (.panic w, s') => (.panic w, s')

/-- src/packet.rs:808-817 `decode_packets`. -/
def decodePackets (bp : Profile) (c : Connection) : Rd (List Packet) :=
  fun s => decodePacketsLoop bp c (s.length + 1) s

/-! Unit test of src/packet.rs:903-911. -/
example : PacketInitial.newHeaderByte 0x3 = 0xc3 := by decide +kernel

end QuicSea
