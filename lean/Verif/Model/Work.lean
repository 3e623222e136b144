import Verif.Model.Routing
/-
The readers once more, counting their work: every call of `next` on a stream (the datagram, a clone of it, or a decrypted payload), every look at whether a stream has
ended, and every byte passed to the AEAD. All loops of the readers take an item from a stream in each iteration. `Verif.Proofs.Work` shows that the readers here give
the results of those of `Verif.Model.Utils`, `Frame` and `Packet`, of which they are copies. Streams are slice iterators (src/utils.rs:487-491), so `clone` copies two pointers.
-/
namespace QuicSea

/-- A reader (for instance src/utils.rs:426-443): outcome, what is left of the stream, and the work done. -/
def Tk (α : Type u) := Stream → Out α × Stream × Nat

namespace Tk
/-- No read, as at src/utils.rs:442. -/
def pure (a : α) : Tk α := fun s => (.ok a, s, 0)
/-- `let a = m?; f(a)`, as at src/utils.rs:461-462. -/
def bind (m : Tk α) (f : α → Tk β) : Tk β := fun s =>
  match m s with
  | (.ok a, s', n) => ((f a s').1, (f a s').2.1, n + (f a s').2.2)
  | (.err e, s', n) => (.err e, s', n)
  | (.panic w, s', n) => (.panic w, s', n)
/-- Do-notation for it, as in src/utils.rs:457-465. -/
instance : Monad Tk where
  pure := Tk.pure
  bind := Tk.bind
/-- Run a computation that does not touch the stream (for instance src/packet.rs:268). -/
def lift (x : Out α) : Tk α := fun s => (x, s, 0)
/-- The same, where the computation goes over `n` bytes, as at src/packet.rs:284. -/
def work (n : Nat) (x : Out α) : Tk α := fun s => (x, s, n)
/-- `stream.clone()`, as at src/packet.rs:775. -/
def cloned : Tk Stream := fun s => (.ok s, s, 0)
/-- `return Err(e)`, as at src/utils.rs:131. -/
def fail (e : Error) : Tk α := fun s => (.err e, s, 0)
/-- A reader run on another stream, as at src/packet.rs:288. -/
def on (m : Tk α) (other : Stream) : Tk α := fun s => ((m other).1, s, (m other).2.2)
/-- The same, with `.unwrap()`, as at src/packet.rs:776. -/
def onUnwrap (m : Tk α) (other : Stream) : Tk α := fun s => ((m other).1.unwrap, s, (m other).2.2)
end Tk

/-- `stream.next()`, as at src/utils.rs:223-225: one call. -/
def nextOrT (msg : String) : Tk U8 := fun s => ((nextOr msg s).1, (nextOr msg s).2, 1)

/-! ### utils.rs -/

/-- Loop filling `bytes[0..size]` (src/utils.rs:150-154 and its copies). -/
def readArrayT (msg : String) : Nat → Tk Bytes
  | 0 => pure []
  | n + 1 => do
    let b ← nextOrT msg
    let bs ← readArrayT msg n
    pure (b :: bs)
/-- src/utils.rs:142-158 `FromDatagram for u8`. -/
def u8FromDatagramT : Tk U8 := do
  let bytes ← readArrayT "not enough bytes for u8" 1
  let (rv, _) ← Tk.lift (decodeU8 bytes)
  pure rv
/-- src/utils.rs:160-230 `FromDatagram` for u16, u32, u64, u128 (four copies). -/
def uintFromDatagramT (size : Nat) (msg : String) : Tk (BitVec (8 * size)) := do
  let bytes ← readArrayT msg size
  let (rv, _) ← Tk.lift (decodeUInt size msg bytes)
  pure rv
/-- src/utils.rs:178-194. -/
def u32FromDatagramT : Tk U32 := uintFromDatagramT 4 "not enough bytes for u32"
/-- src/utils.rs:196-212. -/
def u64FromDatagramT : Tk U64 := uintFromDatagramT 8 "not enough bytes for u64"
/-- src/utils.rs:214-230. -/
def u128FromDatagramT : Tk U128 := uintFromDatagramT 16 "not enough bytes for u128"
/-- Loop body shared by src/utils.rs:241-252 and 411-422. -/
def u160LoopT (msg : String) : Nat → U32 → U128 → Tk U160
  | 0, idx0, idx1 => pure { idx0, idx1 }
  | n + 1, idx0, idx1 => do
    let idx0 := idx0 <<< 8
    let idx0 := idx0 ||| (idx1 >>> 120).setWidth 32
    let idx1 := idx1 &&& (((1 : U128) <<< 120) - 1)
    let idx1 := idx1 <<< 8
    let b ← nextOrT msg
    u160LoopT msg n idx0 (idx1 ||| b.setWidth 128)
/-- src/utils.rs:405-424 `var_u160_from_stream`. -/
def varU160FromStreamT (nBytes : U8) : Tk U160 := u160LoopT "not enough bytes for var160" nBytes.toNat 0 0
/-- Loop of src/utils.rs:358-365. -/
def varIntWithBytesLoopT : Nat → U64 → Bytes → Tk (U64 × Bytes)
  | 0, result, bytes => pure (result, bytes)
  | n + 1, result, bytes => do
    let result := result <<< 8
    let nextByte ← nextOrT "not enough bytes for varint"
    varIntWithBytesLoopT n (result + nextByte.setWidth 64) (bytes ++ [nextByte])
/-- src/utils.rs:347-367 `var_int_with_bytes_from_stream`. -/
def varIntWithBytesFromStreamT : Tk (U64 × Bytes) := do
  let firstByte ← nextOrT "missing first byte for varint"
  let nShifts := (1 <<< (firstByte >>> 6).toNat) - 1
  varIntWithBytesLoopT nShifts ((firstByte &&& 0x3f).setWidth 64) [firstByte]
/-- Loop of src/utils.rs:378-385. -/
def varIntLoopT : Nat → U64 → Tk U64
  | 0, result => pure result
  | n + 1, result => do
    let result := result <<< 8
    let b ← nextOrT "not enough bytes for varint"
    varIntLoopT n (result + b.setWidth 64)
/-- src/utils.rs:369-387 `var_int_from_stream`. -/
def varIntFromStreamT : Tk U64 := do
  let firstByte ← nextOrT "missing first byte for varint"
  let nShifts := (1 <<< (firstByte >>> 6).toNat) - 1
  varIntLoopT nShifts ((firstByte &&& 0x3f).setWidth 64)
/-- src/utils.rs:426-443 `var_bytes_from_stream`. -/
def varBytesFromStreamT : Nat → Tk Bytes
  | 0 => pure []
  | n + 1 => do
    let b ← nextOrT "not enough bytes for var_bytes"
    let rv ← varBytesFromStreamT n
    pure (b :: rv)
/-- src/utils.rs:445-455 `all_bytes_from_stream`; the end of the stream is seen by one more call of `next`. -/
def allBytesFromStreamT : Tk Bytes
  | [] => (.ok [], [], 1)
  | .error e :: s => (.err e, s, 1)
  | .ok b :: s =>
    match allBytesFromStreamT s with
    | (.ok bs, s', n) => (.ok (b :: bs), s', n + 1)
    | (.err e, s', n) => (.err e, s', n + 1)
    | (.panic w, s', n) => (.panic w, s', n + 1)
/-- src/utils.rs:457-465 `fixed_len_dcid_from_stream`. -/
def fixedLenDcidFromStreamT : Tk U160 := do
  let dcid ← u64FromDatagramT
  pure { idx0 := 0, idx1 := dcid.setWidth 128 }

/-! ### frame.rs -/

/-- src/frame.rs:16-28. -/
def EcnCounts.fromDatagramT : Tk EcnCounts := do
  let ect0Count ← varIntFromStreamT
  let ect1Count ← varIntFromStreamT
  let ecnCeCount ← varIntFromStreamT
  pure { ect0Count, ect1Count, ecnCeCount }
/-- src/frame.rs:46-56. -/
def AckRange.fromDatagramT : Tk AckRange := do
  let gap ← varIntFromStreamT
  let ackRangeLength ← varIntFromStreamT
  pure { gap, ackRangeLength }
/-- Loop of src/frame.rs:89-92. -/
def FrameAck.rangesFromDatagramT : Nat → Tk (List AckRange)
  | 0 => pure []
  | n + 1 => do
    let r ← AckRange.fromDatagramT
    let rs ← FrameAck.rangesFromDatagramT n
    pure (r :: rs)
/-- src/frame.rs:80-106. -/
def FrameAck.fromDatagramT (typeByte : U8) : Tk FrameAck := do
  let largestAcknowledged ← varIntFromStreamT
  let ackDelay ← varIntFromStreamT
  let ackRangeCount ← varIntFromStreamT
  let firstAckRange ← varIntFromStreamT
  let ackRange ← FrameAck.rangesFromDatagramT ackRangeCount.toNat
  let ecnCounts ←
    if typeByte &&& 0x1 = 1 then do
      let e ← EcnCounts.fromDatagramT
      pure (some e)
    else pure none
  pure { largestAcknowledged, ackDelay, ackRangeCount, firstAckRange, ackRange, ecnCounts }
/-- src/frame.rs:146-158. -/
def FrameResetStream.fromDatagramT : Tk FrameResetStream := do
  let streamId ← varIntFromStreamT
  let applicationProtocolErrorCode ← varIntFromStreamT
  let finalSize ← varIntFromStreamT
  pure { streamId, applicationProtocolErrorCode, finalSize }
/-- src/frame.rs:183-193. -/
def FrameStopSending.fromDatagramT : Tk FrameStopSending := do
  let streamId ← varIntFromStreamT
  let applicationProtocolErrorCode ← varIntFromStreamT
  pure { streamId, applicationProtocolErrorCode }
/-- src/frame.rs:219-232. -/
def FrameCrypto.fromDatagramT : Tk FrameCrypto := do
  let offset ← varIntFromStreamT
  let length ← varIntFromStreamT
  let totalSize := (length + offset).toNat
  let cryptoData ← varBytesFromStreamT totalSize
  pure { offset, length, cryptoData }
/-- src/frame.rs:257-267. -/
def FrameNewToken.fromDatagramT : Tk FrameNewToken := do
  let tokenLength ← varIntFromStreamT
  let token ← varBytesFromStreamT tokenLength.toNat
  pure { tokenLength, token }
/-- src/frame.rs:297-326. -/
def FrameStream.fromDatagramT (typeByte : U8) : Tk FrameStream := do
  let hasOffset : Bool := typeByte &&& 0x04 = 1
  let hasLength : Bool := typeByte &&& 0x02 = 1
  let isFin : Bool := typeByte &&& 0x01 = 1
  let streamId ← varIntFromStreamT
  let offset ← if hasOffset then varIntFromStreamT else pure 0
  let tpLength ← if hasLength then do
      let l ← varIntFromStreamT
      pure (some l)
    else pure none
  let streamData ← match tpLength with
    | some x => varBytesFromStreamT x.toNat
    | none => allBytesFromStreamT
  pure { streamId, offset, length := BitVec.ofNat 64 streamData.length, streamData, isFin }
/-- src/frame.rs:364-370. -/
def FrameMaxData.fromDatagramT : Tk FrameMaxData := do
  let maximumData ← varIntFromStreamT
  pure { maximumData }
/-- src/frame.rs:393-403. -/
def FrameMaxStreamData.fromDatagramT : Tk FrameMaxStreamData := do
  let streamId ← varIntFromStreamT
  let maximumStreamData ← varIntFromStreamT
  pure { streamId, maximumStreamData }
/-- src/frame.rs:427-437. -/
def FrameMaxStreams.fromDatagramT (typeByte : U8) : Tk FrameMaxStreams := do
  let maximumStreams ← varIntFromStreamT
  let isUnidirectional : Bool := typeByte &&& 0x01 = 1
  pure { maximumStreams, isUnidirectional }
/-- src/frame.rs:462-468. -/
def FrameDataBlocked.fromDatagramT : Tk FrameDataBlocked := do
  let maximumData ← varIntFromStreamT
  pure { maximumData }
/-- src/frame.rs:491-501. -/
def FrameStreamDataBlocked.fromDatagramT : Tk FrameStreamDataBlocked := do
  let streamId ← varIntFromStreamT
  let maximumStreamData ← varIntFromStreamT
  pure { streamId, maximumStreamData }
/-- src/frame.rs:525-535. -/
def FrameStreamsBlocked.fromDatagramT (typeByte : U8) : Tk FrameStreamsBlocked := do
  let maximumStreams ← varIntFromStreamT
  let isUnidirectionalLimit : Bool := typeByte &&& 0x01 = 1
  pure { maximumStreams, isUnidirectionalLimit }
/-- src/frame.rs:575-594. -/
def FrameNewConnectionId.fromDatagramT : Tk FrameNewConnectionId := do
  let sequenceNumber ← varIntFromStreamT
  let retirePriorTo ← varIntFromStreamT
  let length ← u8FromDatagramT
  if 1 > length.toNat ∨ length.toNat > 20 then
    Tk.fail (.internalError "invalid connection id length")
  else do
    let connectionId ← varU160FromStreamT length
    let statelessResetToken ← u128FromDatagramT
    pure { sequenceNumber, retirePriorTo, length, connectionId, statelessResetToken }
/-- src/frame.rs:617-623. -/
def FrameRetireConnectionId.fromDatagramT : Tk FrameRetireConnectionId := do
  let sequenceNumber ← varIntFromStreamT
  pure { sequenceNumber }
/-- src/frame.rs:642-648. -/
def FramePathChallenge.fromDatagramT : Tk FramePathChallenge := do
  let data ← u64FromDatagramT
  pure { data }
/-- src/frame.rs:663-669. -/
def FramePathResponse.fromDatagramT : Tk FramePathResponse := do
  let data ← u64FromDatagramT
  pure { data }
/-- src/frame.rs:703-723. -/
def FrameConnectionClose.fromDatagramT (typeByte : U8) : Tk FrameConnectionClose := do
  let isApplicationError : Bool := typeByte &&& 0x1 = 1
  let errorCode ← varIntFromStreamT
  let frameType ← if !isApplicationError then do
      let t ← varIntFromStreamT
      pure (some t)
    else pure none
  let reasonPhraseLength ← varIntFromStreamT
  let reasonPhrase ← varBytesFromStreamT reasonPhraseLength.toNat
  pure { errorCode, frameType, reasonPhraseLength, reasonPhrase, isApplicationError }
/-- src/frame.rs:803-851: the `match type_byte` of `deserialize_frame`. -/
def deserializeFrameBodyT (typeByte : U8) : Tk Frame :=
  let t := typeByte.toNat
  if t = 0x00 then pure .padding
  else if t = 0x01 then pure .ping
  else if 0x02 ≤ t ∧ t ≤ 0x03 then do let x ← FrameAck.fromDatagramT typeByte; pure (.ack x)
  else if t = 0x04 then do let x ← FrameResetStream.fromDatagramT; pure (.resetStream x)
  else if t = 0x05 then do let x ← FrameStopSending.fromDatagramT; pure (.stopSending x)
  else if t = 0x06 then do let x ← FrameCrypto.fromDatagramT; pure (.crypto x)
  else if t = 0x07 then do let x ← FrameNewToken.fromDatagramT; pure (.newToken x)
  else if 0x08 ≤ t ∧ t ≤ 0x0f then do let x ← FrameStream.fromDatagramT typeByte; pure (.stream x)
  else if t = 0x10 then do let x ← FrameMaxData.fromDatagramT; pure (.maxData x)
  else if t = 0x11 then do let x ← FrameMaxStreamData.fromDatagramT; pure (.maxStreamData x)
  else if 0x12 ≤ t ∧ t ≤ 0x13 then do let x ← FrameMaxStreams.fromDatagramT typeByte; pure (.maxStreams x)
  else if t = 0x14 then do let x ← FrameDataBlocked.fromDatagramT; pure (.dataBlocked x)
  else if t = 0x15 then do let x ← FrameStreamDataBlocked.fromDatagramT; pure (.streamDataBlocked x)
  else if 0x16 ≤ t ∧ t ≤ 0x17 then do let x ← FrameStreamsBlocked.fromDatagramT typeByte; pure (.streamsBlocked x)
  else if t = 0x18 then do let x ← FrameNewConnectionId.fromDatagramT; pure (.newConnectionId x)
  else if t = 0x19 then do let x ← FrameRetireConnectionId.fromDatagramT; pure (.retireConnectionId x)
  else if t = 0x1a then do let x ← FramePathChallenge.fromDatagramT; pure (.pathChallenge x)
  else if t = 0x1b then do let x ← FramePathResponse.fromDatagramT; pure (.pathResponse x)
  else if 0x1c ≤ t ∧ t ≤ 0x1d then do let x ← FrameConnectionClose.fromDatagramT typeByte; pure (.connectionClose x)
  else if t = 0x1e then pure .handshakeDone
  else Tk.fail (.internalError "Invalid type byte")
/-- src/frame.rs:797-852 `deserialize_frame`. -/
def deserializeFrameT : Tk Frame := do
  let typeByte ← varIntFromStreamT
  let typeByte : U8 := (typeByte &&& (((1 : U64) <<< 8) - 1)).setWidth 8
  deserializeFrameBodyT typeByte
/-- Loop of src/frame.rs:860-863, fuelled as `deserializeFramesLoop`: each iteration begins with `peek`. -/
def deserializeFramesLoopT : Nat → Tk (List Frame)
  | _, [] => (.ok [], [], 1)
  | 0, s => (.panic "model: out of fuel", s, 1)
  | fuel + 1, s =>
    match deserializeFrameT s with
    | (.ok f, s', n) =>
      match deserializeFramesLoopT fuel s' with
      | (.ok fs, s'', m) => (.ok (f :: fs), s'', 1 + n + m)
      | (.err e, s'', m) => (.err e, s'', 1 + n + m)
      | (.panic w, s'', m) => (.panic w, s'', 1 + n + m)
    | (.err e, s', n) => (.err e, s', 1 + n)
    | (.panic w, s', n) => (.panic w, s', 1 + n)
/-- src/frame.rs:854-865 `deserialize_frames`. -/
def deserializeFramesT : Tk (List Frame) := fun s => deserializeFramesLoopT (s.length + 1) s

/-! ### secrets.rs, connection.rs -/

/-- src/quictls/secrets.rs:92-100 `Secrets::get_header_protection_mask`. -/
def Secrets.getHeaderProtectionMaskT (s : Secrets) : Tk Mask := do
  let sample ← varBytesFromStreamT s.cipherSuite.sampleLen
  Tk.lift (s.cipherSuite.hpMask s.hp sample)
/-- src/connection.rs:157-167. -/
def Connection.getRemoteHpMaskT (c : Connection) (sp : PnSpace) : Tk Mask := do
  let s ← Tk.lift (c.remoteSecrets sp)
  s.getHeaderProtectionMaskT

/-! ### packet.rs -/

/-- src/packet.rs:53-117 `from_stream`. -/
def LongPacketHeader.fromStreamT (headerByte : U8) : Tk LongPacketHeader := do
  let version ← u32FromDatagramT
  let isVersionNegotiation : Bool := version = VERSION_NEGOTIATION_VERSION_VALUE
  let (versionNegotiation, dcidLen, dcid, scidLen, scid) ←
    (if !isVersionNegotiation then do
      let dcidLen ← u8FromDatagramT
      if dcidLen.toNat > 20 then Tk.fail (.internalError "invalid destination connection id length")
      else do
        let dcid ← varU160FromStreamT dcidLen
        let scidLen ← u8FromDatagramT
        if scidLen.toNat > 20 then Tk.fail (.internalError "invalid source connection id length")
        else do
          let scid ← varU160FromStreamT scidLen
          pure (none, dcidLen, dcid, scidLen, scid)
    else do
      let dcidLen ← u8FromDatagramT
      let destinationConnectionId ← varBytesFromStreamT dcidLen.toNat
      let scidLen ← u8FromDatagramT
      let sourceConnectionId ← varBytesFromStreamT scidLen.toNat
      pure (some { destinationConnectionId, sourceConnectionId }, dcidLen, U160.zero, scidLen, U160.zero))
  let rv : LongPacketHeader :=
    { headerByte, version, destinationConnectionIdLength := dcidLen, destinationConnectionId := dcid,
      sourceConnectionIdLength := scidLen, sourceConnectionId := scid, versionNegotiation, isProtected := true }
  let t ← Tk.lift rv.packetType
  let isProtected := match t with
    | .retry => false
    | .versionNegotiation => false
    | _ => true
  pure { rv with isProtected }
/-- src/packet.rs:591-601. -/
def ShortPacketHeader.fromStreamT (headerByte : U8) : Tk ShortPacketHeader := do
  let destinationConnectionId ← fixedLenDcidFromStreamT
  pure { headerByte, destinationConnectionId, isProtected := true }
/-- src/packet.rs:755-769. -/
def nextHeaderFromStreamT : Tk PacketHeader := do
  let headerByte ← nextOrT "no header byte found"
  if headerByte &&& 0x80 = 0x80 then do
    let res ← LongPacketHeader.fromStreamT headerByte
    pure (.long res)
  else do
    let res ← ShortPacketHeader.fromStreamT headerByte
    pure (.short res)
/-- src/packet.rs:185-208. -/
def PacketVersionNegotiation.fromStreamT : Tk PacketVersionNegotiation := do
  let headerByte ← u8FromDatagramT
  let header ← LongPacketHeader.fromStreamT headerByte
  let supportedVersionsBytes ← allBytesFromStreamT
  if supportedVersionsBytes.length &&& 0x03 ≠ 0 then
    Tk.fail (.internalError "\"supported versions\" is not qword aligned")
  else do
    let supportedVersions ← Tk.work supportedVersionsBytes.length (chunksToU32 supportedVersionsBytes)
    pure { header, supportedVersions }
/-- src/packet.rs:252-297 `PacketInitial::from_stream`. -/
def PacketInitial.fromStreamT (bp : Profile) (c : Connection) : Tk PacketInitial := do
  let headerByte ← u8FromDatagramT
  let header ← LongPacketHeader.fromStreamT headerByte
  let (tokenLength, tokenLengthBytes) ← varIntWithBytesFromStreamT
  let token ← varBytesFromStreamT tokenLength.toNat
  let (length, lengthBytes) ← varIntWithBytesFromStreamT
  let pnBytesProtected ← varBytesFromStreamT 4
  let offsetStream ← Tk.cloned
  let mask ← (c.getRemoteHpMaskT .initial).on offsetStream
  let header := header.removeProtection mask
  let pnLength ← Tk.lift header.packetNumberLength
  let pnBytesUnprotected ← Tk.lift (xorPnProtection pnBytesProtected mask)
  let packetNumberBytes ← Tk.lift (sliceTo pnBytesUnprotected pnLength)
  let packetNumber ← Tk.lift (c.reconstructRemotePn bp .initial packetNumberBytes)
  let n ← Tk.lift (subUsize bp length.toNat pnLength)
  let protectedFrameData ← varBytesFromStreamT n
  let headerBytes ← Tk.lift header.toBytes
  let associatedData := headerBytes ++ tokenLengthBytes ++ token ++ lengthBytes ++ packetNumberBytes
  let frameData ← Tk.work (protectedFrameData.length + associatedData.length) (c.decryptRemotePayload .initial protectedFrameData associatedData packetNumber)
  let packetPayload ← deserializeFramesT.on (makeResultStream frameData)
  pure { header, token, packetNumber, packetNumberBytes, packetPayload }
/-- src/packet.rs:355-394. -/
def PacketZeroRtt.fromStreamT (bp : Profile) (c : Connection) : Tk PacketZeroRtt := do
  let headerByte ← u8FromDatagramT
  let header ← LongPacketHeader.fromStreamT headerByte
  let (length, lengthBytes) ← varIntWithBytesFromStreamT
  let pnBytesProtected ← varBytesFromStreamT 4
  let offsetStream ← Tk.cloned
  let mask ← (c.getRemoteHpMaskT .application).on offsetStream
  let header := header.removeProtection mask
  let pnLength ← Tk.lift header.packetNumberLength
  let pnBytesUnprotected ← Tk.lift (xorPnProtection pnBytesProtected mask)
  let packetNumberBytes ← Tk.lift (sliceTo pnBytesUnprotected pnLength)
  let packetNumber ← Tk.lift (c.reconstructRemotePn bp .application packetNumberBytes)
  let n ← Tk.lift (subUsize bp length.toNat pnLength)
  let protectedFrameData ← varBytesFromStreamT n
  let headerBytes ← Tk.lift header.toBytes
  let pnAd ← Tk.lift (sliceTo packetNumberBytes pnLength)
  let associatedData := headerBytes ++ lengthBytes ++ pnAd
  let frameData ← Tk.work (protectedFrameData.length + associatedData.length) (c.decryptRemotePayload .application protectedFrameData associatedData packetNumber)
  let packetPayload ← deserializeFramesT.on (makeResultStream frameData)
  pure { header, length, packetNumberBytes, packetNumber, packetPayload }
/-- src/packet.rs:435-474 `PacketHandshake::from_stream`. -/
def PacketHandshake.fromStreamT (bp : Profile) (c : Connection) : Tk PacketHandshake := do
  let headerByte ← u8FromDatagramT
  let header ← LongPacketHeader.fromStreamT headerByte
  let (length, lengthBytes) ← varIntWithBytesFromStreamT
  let pnBytesProtected ← varBytesFromStreamT 4
  let offsetStream ← Tk.cloned
  let mask ← (c.getRemoteHpMaskT .handshake).on offsetStream
  let header := header.removeProtection mask
  let pnLength ← Tk.lift header.packetNumberLength
  let packetNumberBytes ← Tk.lift (xorPnProtection pnBytesProtected mask)
  let packetNumberVec ← Tk.lift (sliceTo packetNumberBytes pnLength)
  let packetNumber ← Tk.lift (c.reconstructRemotePn bp .handshake packetNumberBytes)
  let n ← Tk.lift (subUsize bp length.toNat pnLength)
  let protectedFrameData ← varBytesFromStreamT n
  let headerBytes ← Tk.lift header.toBytes
  let associatedData := headerBytes ++ lengthBytes ++ packetNumberVec
  let frameData ← Tk.work (protectedFrameData.length + associatedData.length) (c.decryptRemotePayload .handshake protectedFrameData associatedData packetNumber)
  let packetPayload ← deserializeFramesT.on (makeResultStream frameData)
  pure { header, packetNumberBytes := packetNumberVec, packetNumber, packetPayload }
/-- src/packet.rs:528-533 `PacketRetry::from_stream` is `todo!()`. -/
def PacketRetry.fromStreamT : Tk PacketRetry := Tk.lift (.panic "not yet implemented")
/-- src/packet.rs:673-704. -/
def PacketOneRtt.fromStreamT (bp : Profile) (c : Connection) : Tk PacketOneRtt := do
  let headerByte ← u8FromDatagramT
  let header ← ShortPacketHeader.fromStreamT headerByte
  let pnBytesProtected ← varBytesFromStreamT 4
  let offsetStream ← Tk.cloned
  let mask ← (c.getRemoteHpMaskT .application).on offsetStream
  let header := header.removeProtection mask
  let pnLength ← Tk.lift header.packetNumberLength
  let pnBytesUnprotected ← Tk.lift (xorPnProtection pnBytesProtected mask)
  let packetNumberBytes ← Tk.lift (sliceTo pnBytesUnprotected pnLength)
  let packetNumber ← Tk.lift (c.reconstructRemotePn bp .application packetNumberBytes)
  let protectedFrameData ← allBytesFromStreamT
  let headerBytes ← Tk.lift header.toBytes
  let associatedData := headerBytes ++ packetNumberBytes
  let frameData ← Tk.work (protectedFrameData.length + associatedData.length) (c.decryptRemotePayload .application protectedFrameData associatedData packetNumber)
  let packetPayload ← deserializeFramesT.on (makeResultStream frameData)
  pure { header, packetNumberBytes, packetNumber, packetPayload }
/-- src/packet.rs:771-806. Line 776 unwraps the header parse. -/
def decodeNextPacketT (bp : Profile) (c : Connection) : Tk Packet := do
  let headerStream ← Tk.cloned
  let header ← nextHeaderFromStreamT.onUnwrap headerStream
  match header with
  | .short _ => do
    let res ← PacketOneRtt.fromStreamT bp c
    pure (.oneRtt res)
  | .long x => do
    let t ← Tk.lift x.packetType
    match t with
    | .handshake => do let res ← PacketHandshake.fromStreamT bp c; pure (.handshake res)
    | .initial => do let res ← PacketInitial.fromStreamT bp c; pure (.initial res)
    | .zeroRtt => do let res ← PacketZeroRtt.fromStreamT bp c; pure (.zeroRtt res)
    | .retry => do let res ← PacketRetry.fromStreamT; pure (.retry res)
    | .versionNegotiation => do let res ← PacketVersionNegotiation.fromStreamT; pure (.versionNegotiation res)
    | _ => Tk.lift (.panic "internal error: entered unreachable code")
/-- Loop of src/packet.rs:813-815, fuelled as `decodePacketsLoop`: each iteration begins with `stream.clone().next()`. -/
def decodePacketsLoopT (bp : Profile) (c : Connection) : Nat → Tk (List Packet)
  | _, [] => (.ok [], [], 1)
  | 0, s => (.panic "model: out of fuel", s, 1)
  | fuel + 1, s =>
    match decodeNextPacketT bp c s with
    | (.ok p, s', n) =>
      match decodePacketsLoopT bp c fuel s' with
      | (.ok ps, s'', m) => (.ok (p :: ps), s'', 1 + n + m)
      | (.err e, s'', m) => (.err e, s'', 1 + n + m)
      | (.panic w, s'', m) => (.panic w, s'', 1 + n + m)
    | (.err e, s', n) => (.err e, s', 1 + n)
    | (.panic w, s', n) => (.panic w, s', 1 + n)
/-- src/packet.rs:808-817 `decode_packets`. -/
def decodePacketsT (bp : Profile) (c : Connection) : Tk (List Packet) := fun s => decodePacketsLoopT bp c (s.length + 1) s

end QuicSea
