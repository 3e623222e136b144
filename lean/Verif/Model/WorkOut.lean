import Verif.Model.Work
/-
The writers once more, counting their work: every buffer made, every byte written to one, every iteration of a loop over frames or ranges, and every byte passed to the
AEAD. `Verif.Proofs.WorkOut` shows that the writers here give the results of those of `Verif.Model.Frame` and `Packet`, of which they are copies.
-/
namespace QuicSea

/-- A writer (for instance src/frame.rs:159-167): outcome, and the work done. -/
def Tw (α : Type u) := Out α × Nat

namespace Tw
/-- Nothing written, as at src/frame.rs:116. -/
def pure (a : α) : Tw α := (.ok a, 0)
/-- `let a = m?; f(a)`, as at src/frame.rs:333. -/
def bind (m : Tw α) (f : α → Tw β) : Tw β :=
  match m with
  | (.ok a, n) => ((f a).1, n + (f a).2)
  | (.err e, n) => (.err e, n)
  | (.panic w, n) => (.panic w, n)
/-- Do-notation for it, as in src/utils.rs:498-515. -/
instance : Monad Tw where
  pure := Tw.pure
  bind := Tw.bind
/-- A computation that goes over `n` bytes, as at src/packet.rs:322-327. -/
def work (n : Nat) (x : Out α) : Tw α := (x, n)
/-- `[..].concat()` (src/frame.rs:160-166) or `.flatten().collect()` (src/frame.rs:877): one buffer, to which every byte is written. -/
def cat (parts : List Bytes) : Tw Bytes := (.ok parts.flatten, 1 + parts.flatten.length)
/-- A reader run on a stream of its own, as at src/packet.rs:329. -/
def read (m : Tk α) (s : Stream) : Tw α := ((m s).1, (m s).2.2)
end Tw

/-! ### utils.rs -/

/-- src/utils.rs:498-515 `encode_var_int`: one buffer of at most eight bytes. -/
def encodeVarIntT (x : U64) : Tw Bytes := (encodeVarInt x, match encodeVarInt x with | .ok b => 1 + b.length | _ => 1)
/-- src/utils.rs:33-37 `to_var_bytes`: 20 bytes are written by `to_bytes` and moved by `rotate_left`, and `len` of them are copied. -/
def U160.toVarBytesT (x : U160) (len : Nat) : Tw Bytes := (x.toVarBytes len, match x.toVarBytes len with | .ok b => 41 + b.length | _ => 41)

/-! ### frame.rs -/

/-- src/frame.rs:29-36. -/
def EcnCounts.toBytesT (x : EcnCounts) : Tw Bytes := do
  let a ← encodeVarIntT x.ect0Count
  let b ← encodeVarIntT x.ect1Count
  let c ← encodeVarIntT x.ecnCeCount
  Tw.cat [a, b, c]
/-- src/frame.rs:57-63. -/
def AckRange.toBytesT (x : AckRange) : Tw Bytes := do
  let a ← encodeVarIntT x.gap
  let b ← encodeVarIntT x.ackRangeLength
  Tw.cat [a, b]
/-- Loop of src/frame.rs:110-112. -/
def FrameAck.rangePartsT : List AckRange → Tw (List Bytes)
  | [] => pure []
  | r :: rs => do
    let a ← r.toBytesT
    let as ← FrameAck.rangePartsT rs
    Tw.work 1 (.ok (a :: as))
/-- src/frame.rs:107-128. -/
def FrameAck.toBytesT (x : FrameAck) : Tw Bytes := do
  let parts ← FrameAck.rangePartsT x.ackRange
  let ackRangeBytes ← Tw.cat parts
  let (ecnBytes, typeByte) ←
    match x.ecnCounts with
    | some e => do
      let b ← e.toBytesT
      pure (b, (0x03 : U8))
    | none => pure ([], (0x02 : U8))
  let a ← encodeVarIntT x.largestAcknowledged
  let b ← encodeVarIntT x.ackDelay
  let c ← encodeVarIntT x.ackRangeCount
  let d ← encodeVarIntT x.firstAckRange
  Tw.cat [[typeByte], a, b, c, d, ackRangeBytes, ecnBytes]
/-- src/frame.rs:159-167. -/
def FrameResetStream.toBytesT (x : FrameResetStream) : Tw Bytes := do
  let a ← encodeVarIntT x.streamId
  let b ← encodeVarIntT x.applicationProtocolErrorCode
  let c ← encodeVarIntT x.finalSize
  Tw.cat [[0x04], a, b, c]
/-- src/frame.rs:194-201. -/
def FrameStopSending.toBytesT (x : FrameStopSending) : Tw Bytes := do
  let a ← encodeVarIntT x.streamId
  let b ← encodeVarIntT x.applicationProtocolErrorCode
  Tw.cat [[0x05], a, b]
/-- src/frame.rs:233-241. -/
def FrameCrypto.toBytesT (x : FrameCrypto) : Tw Bytes := do
  let a ← encodeVarIntT x.offset
  let b ← encodeVarIntT x.length
  Tw.cat [[0x06], a, b, x.cryptoData]
/-- src/frame.rs:268-275. -/
def FrameNewToken.toBytesT (x : FrameNewToken) : Tw Bytes := do
  let a ← encodeVarIntT x.tokenLength
  Tw.cat [[0x07], a, x.token]
/-- src/frame.rs:327-352. -/
def FrameStream.toBytesT (x : FrameStream) (includeLen : Bool) : Tw Bytes := do
  let hasOffset : Bool := x.offset ≠ 0
  let typeByte : U8 := 0x08
    ||| (if hasOffset then 0x04 else 0x00)
    ||| (if includeLen then 0x02 else 0x00)
    ||| (if x.isFin then 0x01 else 0x00)
  let streamIdBytes ← encodeVarIntT x.streamId
  let offsetBytes ← if hasOffset then encodeVarIntT x.offset else pure []
  let lenBytes ← if includeLen then encodeVarIntT x.length else pure []
  Tw.cat [[typeByte], streamIdBytes, offsetBytes, lenBytes, x.streamData]
/-- src/frame.rs:371-377. -/
def FrameMaxData.toBytesT (x : FrameMaxData) : Tw Bytes := do
  let a ← encodeVarIntT x.maximumData
  Tw.cat [[0x10], a]
/-- src/frame.rs:404-411. -/
def FrameMaxStreamData.toBytesT (x : FrameMaxStreamData) : Tw Bytes := do
  let a ← encodeVarIntT x.streamId
  let b ← encodeVarIntT x.maximumStreamData
  Tw.cat [[0x11], a, b]
/-- src/frame.rs:438-450. -/
def FrameMaxStreams.toBytesT (x : FrameMaxStreams) : Tw Bytes := do
  let typeByte : U8 := 0x12 ||| (if x.isUnidirectional then 0x01 else 0x00)
  let a ← encodeVarIntT x.maximumStreams
  Tw.cat [[typeByte], a]
/-- src/frame.rs:469-475. -/
def FrameDataBlocked.toBytesT (x : FrameDataBlocked) : Tw Bytes := do
  let a ← encodeVarIntT x.maximumData
  Tw.cat [[0x14], a]
/-- src/frame.rs:502-509. -/
def FrameStreamDataBlocked.toBytesT (x : FrameStreamDataBlocked) : Tw Bytes := do
  let a ← encodeVarIntT x.streamId
  let b ← encodeVarIntT x.maximumStreamData
  Tw.cat [[0x15], a, b]
/-- src/frame.rs:536-548. -/
def FrameStreamsBlocked.toBytesT (x : FrameStreamsBlocked) : Tw Bytes := do
  let typeByte : U8 := 0x16 ||| (if x.isUnidirectionalLimit then 0x01 else 0x00)
  let a ← encodeVarIntT x.maximumStreams
  Tw.cat [[typeByte], a]
/-- src/frame.rs:595-605. -/
def FrameNewConnectionId.toBytesT (x : FrameNewConnectionId) : Tw Bytes := do
  let a ← encodeVarIntT x.sequenceNumber
  let b ← encodeVarIntT x.retirePriorTo
  let c ← x.connectionId.toVarBytesT x.length.toNat
  Tw.cat [[0x18], a, b, [x.length], c, toBeBytes 16 x.statelessResetToken]
/-- src/frame.rs:624-630. -/
def FrameRetireConnectionId.toBytesT (x : FrameRetireConnectionId) : Tw Bytes := do
  let a ← encodeVarIntT x.sequenceNumber
  Tw.cat [[0x19], a]
/-- src/frame.rs:649-651. -/
def FramePathChallenge.toBytesT (x : FramePathChallenge) : Tw Bytes := Tw.cat [[0x1a], toBeBytes 8 x.data]
/-- src/frame.rs:670-672. -/
def FramePathResponse.toBytesT (x : FramePathResponse) : Tw Bytes := Tw.cat [[0x1b], toBeBytes 8 x.data]
/-- src/frame.rs:724-743. -/
def FrameConnectionClose.toBytesT (x : FrameConnectionClose) : Tw Bytes := do
  let typeByte : U8 := 0x1c ||| (if x.isApplicationError then 0x01 else 0x00)
  let frameTypeBytes ← match x.frameType with
    | some t => encodeVarIntT t
    | none => pure []
  let a ← encodeVarIntT x.errorCode
  let b ← encodeVarIntT x.reasonPhraseLength
  Tw.cat [[typeByte], a, frameTypeBytes, b, x.reasonPhrase]
/-- src/frame.rs:771-794 `Frame::to_bytes`. -/
def Frame.toBytesT (isDfEnd : Bool) : Frame → Tw Bytes
  | .padding => Tw.cat [[0x00]]
  | .ping => Tw.cat [[0x01]]
  | .ack x => x.toBytesT
  | .resetStream x => x.toBytesT
  | .stopSending x => x.toBytesT
  | .crypto x => x.toBytesT
  | .newToken x => x.toBytesT
  | .stream x => x.toBytesT (!isDfEnd)
  | .maxData x => x.toBytesT
  | .maxStreamData x => x.toBytesT
  | .maxStreams x => x.toBytesT
  | .dataBlocked x => x.toBytesT
  | .streamDataBlocked x => x.toBytesT
  | .streamsBlocked x => x.toBytesT
  | .newConnectionId x => x.toBytesT
  | .retireConnectionId x => x.toBytesT
  | .pathChallenge x => x.toBytesT
  | .pathResponse x => x.toBytesT
  | .connectionClose x => x.toBytesT
  | .handshakeDone => Tw.cat [[0x1e]]
/-- Loop of src/frame.rs:874-876. -/
def framePartsT (frames : List Frame) (isDfEnd : Bool) : Tw (List Bytes) :=
  match frames with
  | [] => pure []
  | f :: fs => do
    let a ← f.toBytesT (isDfEnd && fs.isEmpty)
    let as ← framePartsT fs isDfEnd
    Tw.work 1 (.ok (a :: as))
/-- src/frame.rs:867-878 `serialize_frames`. -/
def serializeFramesT (frames : List Frame) (isDfEnd : Bool) : Tw Bytes := do
  let parts ← framePartsT frames isDfEnd
  Tw.cat parts

/-! ### connection.rs, packet.rs -/

/-- src/connection.rs:145-155. -/
def Connection.getLocalHpMaskT (c : Connection) (sp : PnSpace) : Tk Mask := do
  let s ← Tk.lift (c.localSecrets sp)
  s.getHeaderProtectionMaskT
/-- src/connection.rs:180-190, src/quictls/secrets.rs:48-69 and src/quictls/cipher_suite.rs:115-132: the nonce is copied and at most eight bytes of it changed; the
AEAD goes over the associated data and the payload, and writes the ciphertext and the tag, which are copied to one buffer. -/
def Connection.encryptLocalPayloadT (c : Connection) (sp : PnSpace) (payload ad : Bytes) (pn : U64) : Tw Bytes :=
  (c.encryptLocalPayload sp payload ad pn, 23 + ad.length + payload.length + match c.encryptLocalPayload sp payload ad pn with
    | .ok out => 2 * out.length
    | _ => 0)
/-- src/packet.rs:118-132 `to_bytes`. -/
def LongPacketHeader.toBytesT (h : LongPacketHeader) : Tw Bytes := do
  let d ← h.destinationConnectionId.toVarBytesT h.destinationConnectionIdLength.toNat
  let s ← h.sourceConnectionId.toVarBytesT h.sourceConnectionIdLength.toNat
  Tw.cat [[h.headerByte], toBeBytes 4 h.version, [h.destinationConnectionIdLength], d, [h.sourceConnectionIdLength], s]
/-- The bytes `self.header.clone()` copies (src/packet.rs:331): the two ids of a Version Negotiation packet, if there are any. -/
def LongPacketHeader.cloned (h : LongPacketHeader) : Nat :=
  match h.versionNegotiation with
  | some x => x.destinationConnectionId.length + x.sourceConnectionId.length
  | none => 0
/-- src/packet.rs:304-341 `PacketInitial::serialize`. -/
def PacketInitial.serializeT (p : PacketInitial) (c : Connection) : Tw Bytes := do
  let payloadBytes ← serializeFramesT p.packetPayload false
  let pnLength ← Tw.work 0 p.header.packetNumberLength
  let protectedLen ← Tw.work 0 (c.getLocalProtectedPayloadLen .initial payloadBytes.length)
  let length : U64 := BitVec.ofNat 64 (protectedLen + pnLength)
  let lengthBytes ← encodeVarIntT length
  let tokenLengthBytes ← encodeVarIntT (BitVec.ofNat 64 p.token.length)
  let headerBytes ← p.header.toBytesT
  let associatedData ← Tw.cat [headerBytes, tokenLengthBytes, p.token, lengthBytes, p.packetNumberBytes]
  let protectedPayload ← c.encryptLocalPayloadT .initial payloadBytes associatedData p.packetNumber
  let sampleBytes ← Tw.work 0 (sliceFrom protectedPayload (4 - pnLength))
  let mask ← Tw.read (c.getLocalHpMaskT .initial) (makeResultStream sampleBytes)
  let protectedHeader := p.header.addProtection mask
  let protectedPn ← Tw.work (p.header.cloned + 2 * p.packetNumberBytes.length) (xorPnProtection p.packetNumberBytes mask)
  let protectedHeaderBytes ← protectedHeader.toBytesT
  Tw.cat [protectedHeaderBytes, tokenLengthBytes, p.token, lengthBytes, protectedPn, protectedPayload]
/-- src/packet.rs:481-513 `PacketHandshake::serialize`. -/
def PacketHandshake.serializeT (p : PacketHandshake) (c : Connection) : Tw Bytes := do
  let payloadBytes ← serializeFramesT p.packetPayload false
  let pnLength ← Tw.work 0 p.header.packetNumberLength
  let protectedLen ← Tw.work 0 (c.getLocalProtectedPayloadLen .handshake payloadBytes.length)
  let length : U64 := BitVec.ofNat 64 (protectedLen + pnLength)
  let lengthBytes ← encodeVarIntT length
  let headerBytes ← p.header.toBytesT
  let associatedData ← Tw.cat [headerBytes, lengthBytes, p.packetNumberBytes]
  let protectedPayload ← c.encryptLocalPayloadT .handshake payloadBytes associatedData p.packetNumber
  let sampleBytes ← Tw.work 0 (sliceFrom protectedPayload (4 - pnLength))
  let mask ← Tw.read (c.getLocalHpMaskT .handshake) (makeResultStream sampleBytes)
  let protectedHeader := p.header.addProtection mask
  let protectedPn ← Tw.work (p.header.cloned + 2 * p.packetNumberBytes.length) (xorPnProtection p.packetNumberBytes mask)
  let protectedHeaderBytes ← protectedHeader.toBytesT
  Tw.cat [protectedHeaderBytes, lengthBytes, protectedPn, protectedPayload]

end QuicSea
