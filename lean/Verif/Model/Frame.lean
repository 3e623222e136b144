import Verif.Model.Utils
/-
Model of src/frame.rs.
-/
namespace QuicSea

/-- src/frame.rs:8-13. -/
structure EcnCounts where
  ect0Count : U64
  ect1Count : U64
  ecnCeCount : U64
deriving DecidableEq, Repr

/-- src/frame.rs:16-28. -/
def EcnCounts.fromDatagram : Rd EcnCounts := do
  let ect0Count ← varIntFromStream
  let ect1Count ← varIntFromStream
  let ecnCeCount ← varIntFromStream
  pure { ect0Count, ect1Count, ecnCeCount }

/-- src/frame.rs:29-36. -/
def EcnCounts.toBytes (x : EcnCounts) : Out Bytes := do
  let a ← encodeVarInt x.ect0Count
  let b ← encodeVarInt x.ect1Count
  let c ← encodeVarInt x.ecnCeCount
  pure (a ++ b ++ c)

/-- src/frame.rs:39-43. -/
structure AckRange where
  gap : U64
  ackRangeLength : U64
deriving DecidableEq, Repr

/-- src/frame.rs:46-56. -/
def AckRange.fromDatagram : Rd AckRange := do
  let gap ← varIntFromStream
  let ackRangeLength ← varIntFromStream
  pure { gap, ackRangeLength }

/-- src/frame.rs:57-63. -/
def AckRange.toBytes (x : AckRange) : Out Bytes := do
  let a ← encodeVarInt x.gap
  let b ← encodeVarInt x.ackRangeLength
  pure (a ++ b)

/-- src/frame.rs:66-74. (`FrameAck::new`, lines 77-79, is `todo!()`.) -/
structure FrameAck where
  largestAcknowledged : U64
  ackDelay : U64
  ackRangeCount : U64
  firstAckRange : U64
  ackRange : List AckRange
  ecnCounts : Option EcnCounts
deriving DecidableEq, Repr

/-- Loop of src/frame.rs:89-92. -/
def FrameAck.rangesFromDatagram : Nat → Rd (List AckRange)
  | 0 => pure []
  | n + 1 => do
    let r ← AckRange.fromDatagram
    let rs ← FrameAck.rangesFromDatagram n
    pure (r :: rs)

/-- src/frame.rs:80-106. -/
def FrameAck.fromDatagram (typeByte : U8) : Rd FrameAck := do
  let largestAcknowledged ← varIntFromStream
  let ackDelay ← varIntFromStream
  let ackRangeCount ← varIntFromStream
  let firstAckRange ← varIntFromStream
  let ackRange ← FrameAck.rangesFromDatagram ackRangeCount.toNat
  let ecnCounts ←
    if typeByte &&& 0x1 = 1 then do
      let e ← EcnCounts.fromDatagram
      pure (some e)
    else pure none
  pure { largestAcknowledged, ackDelay, ackRangeCount, firstAckRange, ackRange, ecnCounts }

/-- src/frame.rs:108-113: encode each range, stop at the first error, flatten. -/
def FrameAck.rangesToBytes : List AckRange → Out Bytes
  | [] => pure []
  | r :: rs => do
    let a ← r.toBytes
    let b ← FrameAck.rangesToBytes rs
    pure (a ++ b)

/-- src/frame.rs:107-128. -/
def FrameAck.toBytes (x : FrameAck) : Out Bytes := do
  let ackRangeBytes ← FrameAck.rangesToBytes x.ackRange
  let (ecnBytes, typeByte) ←
    match x.ecnCounts with
    | some e => do
      let b ← e.toBytes
      pure (b, (0x03 : U8))
    | none => pure ([], (0x02 : U8))
  let a ← encodeVarInt x.largestAcknowledged
  let b ← encodeVarInt x.ackDelay
  let c ← encodeVarInt x.ackRangeCount
  let d ← encodeVarInt x.firstAckRange
  pure ([typeByte] ++ a ++ b ++ c ++ d ++ ackRangeBytes ++ ecnBytes)

/-- src/frame.rs:131-136. -/
structure FrameResetStream where
  streamId : U64
  applicationProtocolErrorCode : U64
  finalSize : U64
deriving DecidableEq, Repr

/-- src/frame.rs:146-158. -/
def FrameResetStream.fromDatagram : Rd FrameResetStream := do
  let streamId ← varIntFromStream
  let applicationProtocolErrorCode ← varIntFromStream
  let finalSize ← varIntFromStream
  pure { streamId, applicationProtocolErrorCode, finalSize }

/-- src/frame.rs:159-167. -/
def FrameResetStream.toBytes (x : FrameResetStream) : Out Bytes := do
  let a ← encodeVarInt x.streamId
  let b ← encodeVarInt x.applicationProtocolErrorCode
  let c ← encodeVarInt x.finalSize
  pure ([0x04] ++ a ++ b ++ c)

/-- src/frame.rs:170-174. -/
structure FrameStopSending where
  streamId : U64
  applicationProtocolErrorCode : U64
deriving DecidableEq, Repr

/-- src/frame.rs:183-193. -/
def FrameStopSending.fromDatagram : Rd FrameStopSending := do
  let streamId ← varIntFromStream
  let applicationProtocolErrorCode ← varIntFromStream
  pure { streamId, applicationProtocolErrorCode }

/-- src/frame.rs:194-201. -/
def FrameStopSending.toBytes (x : FrameStopSending) : Out Bytes := do
  let a ← encodeVarInt x.streamId
  let b ← encodeVarInt x.applicationProtocolErrorCode
  pure ([0x05] ++ a ++ b)

/-- src/frame.rs:204-209. -/
structure FrameCrypto where
  offset : U64
  length : U64
  cryptoData : Bytes
deriving DecidableEq, Repr

/-- src/frame.rs:212-218 `FrameCrypto::new`. -/
def FrameCrypto.new (cryptoData : Bytes) : FrameCrypto :=
  { offset := 0, length := BitVec.ofNat 64 cryptoData.length, cryptoData }

/-- src/frame.rs:219-232. `length + offset` is a `u64` addition of two values below 2^62, so it cannot overflow
(`crypto_total_no_overflow`). -/
def FrameCrypto.fromDatagram : Rd FrameCrypto := do
  let offset ← varIntFromStream
  let length ← varIntFromStream
  let totalSize := (length + offset).toNat
  let cryptoData ← varBytesFromStream totalSize
  pure { offset, length, cryptoData }

/-- src/frame.rs:233-241. -/
def FrameCrypto.toBytes (x : FrameCrypto) : Out Bytes := do
  let a ← encodeVarInt x.offset
  let b ← encodeVarInt x.length
  pure ([0x06] ++ a ++ b ++ x.cryptoData)

/-- src/frame.rs:244-248. -/
structure FrameNewToken where
  tokenLength : U64
  token : Bytes
deriving DecidableEq, Repr

/-- src/frame.rs:251-256 `FrameNewToken::new`. -/
def FrameNewToken.new (token : Bytes) : FrameNewToken :=
  { tokenLength := BitVec.ofNat 64 token.length, token }

/-- src/frame.rs:257-267. -/
def FrameNewToken.fromDatagram : Rd FrameNewToken := do
  let tokenLength ← varIntFromStream
  let token ← varBytesFromStream tokenLength.toNat
  pure { tokenLength, token }

/-- src/frame.rs:268-275. -/
def FrameNewToken.toBytes (x : FrameNewToken) : Out Bytes := do
  let a ← encodeVarInt x.tokenLength
  pure ([0x07] ++ a ++ x.token)

/-- src/frame.rs:278-285. -/
structure FrameStream where
  streamId : U64
  offset : U64
  length : U64
  streamData : Bytes
  isFin : Bool
deriving DecidableEq, Repr

/-- src/frame.rs:288-296 `FrameStream::new`. -/
def FrameStream.new (streamId : U64) (streamData : Bytes) (isFin : Bool) : FrameStream :=
  { streamId, offset := 0, length := BitVec.ofNat 64 streamData.length, streamData, isFin }

/-- src/frame.rs:297-326. In Rust `&` binds tighter than `==`, so the flag tests are `(type_byte & 0x04) == 1` and
`(type_byte & 0x02) == 1`, exactly as written here. -/
def FrameStream.fromDatagram (typeByte : U8) : Rd FrameStream := do
  let hasOffset : Bool := typeByte &&& 0x04 = 1
  let hasLength : Bool := typeByte &&& 0x02 = 1
  let isFin : Bool := typeByte &&& 0x01 = 1
  let streamId ← varIntFromStream
  let offset ← if hasOffset then varIntFromStream else pure 0
  let tpLength ← if hasLength then do
      let l ← varIntFromStream
      pure (some l)
    else pure none
  let streamData ← match tpLength with
    | some x => varBytesFromStream x.toNat
    | none => allBytesFromStream
  pure { streamId, offset, length := BitVec.ofNat 64 streamData.length, streamData, isFin }

/-- src/frame.rs:327-352. -/
def FrameStream.toBytes (x : FrameStream) (includeLen : Bool) : Out Bytes := do
  let hasOffset : Bool := x.offset ≠ 0
  let typeByte : U8 := 0x08
    ||| (if hasOffset then 0x04 else 0x00)
    ||| (if includeLen then 0x02 else 0x00)
    ||| (if x.isFin then 0x01 else 0x00)
  let streamIdBytes ← encodeVarInt x.streamId
  let offsetBytes ← if hasOffset then encodeVarInt x.offset else pure []
  let lenBytes ← if includeLen then encodeVarInt x.length else pure []
  pure ([typeByte] ++ streamIdBytes ++ offsetBytes ++ lenBytes ++ x.streamData)

/-- src/frame.rs:355-358. -/
structure FrameMaxData where
  maximumData : U64
deriving DecidableEq, Repr

/-- src/frame.rs:364-370. -/
def FrameMaxData.fromDatagram : Rd FrameMaxData := do
  let maximumData ← varIntFromStream
  pure { maximumData }

/-- src/frame.rs:371-377. -/
def FrameMaxData.toBytes (x : FrameMaxData) : Out Bytes := do
  let a ← encodeVarInt x.maximumData
  pure ([0x10] ++ a)

/-- src/frame.rs:380-384. -/
structure FrameMaxStreamData where
  streamId : U64
  maximumStreamData : U64
deriving DecidableEq, Repr

/-- src/frame.rs:393-403. -/
def FrameMaxStreamData.fromDatagram : Rd FrameMaxStreamData := do
  let streamId ← varIntFromStream
  let maximumStreamData ← varIntFromStream
  pure { streamId, maximumStreamData }

/-- src/frame.rs:404-411. -/
def FrameMaxStreamData.toBytes (x : FrameMaxStreamData) : Out Bytes := do
  let a ← encodeVarInt x.streamId
  let b ← encodeVarInt x.maximumStreamData
  pure ([0x11] ++ a ++ b)

/-- src/frame.rs:414-418. -/
structure FrameMaxStreams where
  maximumStreams : U64
  isUnidirectional : Bool
deriving DecidableEq, Repr

/-- src/frame.rs:427-437. -/
def FrameMaxStreams.fromDatagram (typeByte : U8) : Rd FrameMaxStreams := do
  let maximumStreams ← varIntFromStream
  let isUnidirectional : Bool := typeByte &&& 0x01 = 1
  pure { maximumStreams, isUnidirectional }

/-- src/frame.rs:438-450. -/
def FrameMaxStreams.toBytes (x : FrameMaxStreams) : Out Bytes := do
  let typeByte : U8 := 0x12 ||| (if x.isUnidirectional then 0x01 else 0x00)
  let a ← encodeVarInt x.maximumStreams
  pure ([typeByte] ++ a)

/-- src/frame.rs:453-456. -/
structure FrameDataBlocked where
  maximumData : U64
deriving DecidableEq, Repr

/-- src/frame.rs:462-468. -/
def FrameDataBlocked.fromDatagram : Rd FrameDataBlocked := do
  let maximumData ← varIntFromStream
  pure { maximumData }

/-- src/frame.rs:469-475. -/
def FrameDataBlocked.toBytes (x : FrameDataBlocked) : Out Bytes := do
  let a ← encodeVarInt x.maximumData
  pure ([0x14] ++ a)

/-- src/frame.rs:478-482. -/
structure FrameStreamDataBlocked where
  streamId : U64
  maximumStreamData : U64
deriving DecidableEq, Repr

/-- src/frame.rs:491-501. -/
def FrameStreamDataBlocked.fromDatagram : Rd FrameStreamDataBlocked := do
  let streamId ← varIntFromStream
  let maximumStreamData ← varIntFromStream
  pure { streamId, maximumStreamData }

/-- src/frame.rs:502-509. -/
def FrameStreamDataBlocked.toBytes (x : FrameStreamDataBlocked) : Out Bytes := do
  let a ← encodeVarInt x.streamId
  let b ← encodeVarInt x.maximumStreamData
  pure ([0x15] ++ a ++ b)

/-- src/frame.rs:512-516. -/
structure FrameStreamsBlocked where
  maximumStreams : U64
  isUnidirectionalLimit : Bool
deriving DecidableEq, Repr

/-- src/frame.rs:525-535. -/
def FrameStreamsBlocked.fromDatagram (typeByte : U8) : Rd FrameStreamsBlocked := do
  let maximumStreams ← varIntFromStream
  let isUnidirectionalLimit : Bool := typeByte &&& 0x01 = 1
  pure { maximumStreams, isUnidirectionalLimit }

/-- src/frame.rs:536-548. -/
def FrameStreamsBlocked.toBytes (x : FrameStreamsBlocked) : Out Bytes := do
  let typeByte : U8 := 0x16 ||| (if x.isUnidirectionalLimit then 0x01 else 0x00)
  let a ← encodeVarInt x.maximumStreams
  pure ([typeByte] ++ a)

/-- src/frame.rs:551-558. -/
structure FrameNewConnectionId where
  sequenceNumber : U64
  retirePriorTo : U64
  length : U8
  connectionId : U160
  statelessResetToken : U128
deriving DecidableEq, Repr

/-- src/frame.rs:561-574 `FrameNewConnectionId::new`. -/
def FrameNewConnectionId.new (sequenceNumber retirePriorTo : U64) (connectionId : U160)
    (statelessResetToken : U128) : FrameNewConnectionId :=
  { sequenceNumber, retirePriorTo, length := 8, connectionId, statelessResetToken }

/-- src/frame.rs:575-594. -/
def FrameNewConnectionId.fromDatagram : Rd FrameNewConnectionId := do
  let sequenceNumber ← varIntFromStream
  let retirePriorTo ← varIntFromStream
  let length ← u8FromDatagram
  if 1 > length.toNat ∨ length.toNat > 20 then
    Rd.fail (.internalError "invalid connection id length")
  else do
    let connectionId ← varU160FromStream length
    let statelessResetToken ← u128FromDatagram
    pure { sequenceNumber, retirePriorTo, length, connectionId, statelessResetToken }

/-- src/frame.rs:595-605. -/
def FrameNewConnectionId.toBytes (x : FrameNewConnectionId) : Out Bytes := do
  let a ← encodeVarInt x.sequenceNumber
  let b ← encodeVarInt x.retirePriorTo
  let c ← x.connectionId.toVarBytes x.length.toNat
  pure ([0x18] ++ a ++ b ++ [x.length] ++ c ++ toBeBytes 16 x.statelessResetToken)

/-- src/frame.rs:608-611. -/
structure FrameRetireConnectionId where
  sequenceNumber : U64
deriving DecidableEq, Repr

/-- src/frame.rs:617-623. -/
def FrameRetireConnectionId.fromDatagram : Rd FrameRetireConnectionId := do
  let sequenceNumber ← varIntFromStream
  pure { sequenceNumber }

/-- src/frame.rs:624-630. -/
def FrameRetireConnectionId.toBytes (x : FrameRetireConnectionId) : Out Bytes := do
  let a ← encodeVarInt x.sequenceNumber
  pure ([0x19] ++ a)

/-- src/frame.rs:633-636. -/
structure FramePathChallenge where
  data : U64
deriving DecidableEq, Repr

/-- src/frame.rs:642-648. -/
def FramePathChallenge.fromDatagram : Rd FramePathChallenge := do
  let data ← u64FromDatagram
  pure { data }

/-- src/frame.rs:649-651. -/
def FramePathChallenge.toBytes (x : FramePathChallenge) : Bytes := [0x1a] ++ toBeBytes 8 x.data

/-- src/frame.rs:654-657. -/
structure FramePathResponse where
  data : U64
deriving DecidableEq, Repr

/-- src/frame.rs:663-669. -/
def FramePathResponse.fromDatagram : Rd FramePathResponse := do
  let data ← u64FromDatagram
  pure { data }

/-- src/frame.rs:670-672. -/
def FramePathResponse.toBytes (x : FramePathResponse) : Bytes := [0x1b] ++ toBeBytes 8 x.data

/-- src/frame.rs:675-682. -/
structure FrameConnectionClose where
  errorCode : U64
  frameType : Option U64
  reasonPhraseLength : U64
  reasonPhrase : Bytes
  isApplicationError : Bool
deriving DecidableEq, Repr

/-- src/frame.rs:685-693 `FrameConnectionClose::new_application_error`. -/
def FrameConnectionClose.newApplicationError (errorCode : U64) (reasonPhrase : Bytes) : FrameConnectionClose :=
  { errorCode, frameType := none, reasonPhraseLength := BitVec.ofNat 64 reasonPhrase.length, reasonPhrase,
    isApplicationError := true }

/-- src/frame.rs:694-702 `FrameConnectionClose::new_error`. -/
def FrameConnectionClose.newError (errorCode frameType : U64) (reasonPhrase : Bytes) : FrameConnectionClose :=
  { errorCode, frameType := some frameType, reasonPhraseLength := BitVec.ofNat 64 reasonPhrase.length, reasonPhrase,
    isApplicationError := false }

/-- src/frame.rs:703-723. -/
def FrameConnectionClose.fromDatagram (typeByte : U8) : Rd FrameConnectionClose := do
  let isApplicationError : Bool := typeByte &&& 0x1 = 1
  let errorCode ← varIntFromStream
  let frameType ← if !isApplicationError then do
      let t ← varIntFromStream
      pure (some t)
    else pure none
  let reasonPhraseLength ← varIntFromStream
  let reasonPhrase ← varBytesFromStream reasonPhraseLength.toNat
  pure { errorCode, frameType, reasonPhraseLength, reasonPhrase, isApplicationError }

/-- src/frame.rs:724-743. -/
def FrameConnectionClose.toBytes (x : FrameConnectionClose) : Out Bytes := do
  let typeByte : U8 := 0x1c ||| (if x.isApplicationError then 0x01 else 0x00)
  let frameTypeBytes ← match x.frameType with
    | some t => encodeVarInt t
    | none => pure []
  let a ← encodeVarInt x.errorCode
  let b ← encodeVarInt x.reasonPhraseLength
  pure ([typeByte] ++ a ++ frameTypeBytes ++ b ++ x.reasonPhrase)

/-- src/frame.rs:746-768. -/
inductive Frame where
  | padding
  | ping
  | ack (x : FrameAck)
  | resetStream (x : FrameResetStream)
  | stopSending (x : FrameStopSending)
  | crypto (x : FrameCrypto)
  | newToken (x : FrameNewToken)
  | stream (x : FrameStream)
  | maxData (x : FrameMaxData)
  | maxStreamData (x : FrameMaxStreamData)
  | maxStreams (x : FrameMaxStreams)
  | dataBlocked (x : FrameDataBlocked)
  | streamDataBlocked (x : FrameStreamDataBlocked)
  | streamsBlocked (x : FrameStreamsBlocked)
  | newConnectionId (x : FrameNewConnectionId)
  | retireConnectionId (x : FrameRetireConnectionId)
  | pathChallenge (x : FramePathChallenge)
  | pathResponse (x : FramePathResponse)
  | connectionClose (x : FrameConnectionClose)
  | handshakeDone
deriving DecidableEq, Repr

/-- src/frame.rs:771-794 `Frame::to_bytes`. -/
def Frame.toBytes (isDfEnd : Bool) : Frame → Out Bytes
  | .padding => pure [0x00]
  | .ping => pure [0x01]
  | .ack x => x.toBytes
  | .resetStream x => x.toBytes
  | .stopSending x => x.toBytes
  | .crypto x => x.toBytes
  | .newToken x => x.toBytes
  | .stream x => x.toBytes (!isDfEnd)
  | .maxData x => x.toBytes
  | .maxStreamData x => x.toBytes
  | .maxStreams x => x.toBytes
  | .dataBlocked x => x.toBytes
  | .streamDataBlocked x => x.toBytes
  | .streamsBlocked x => x.toBytes
  | .newConnectionId x => x.toBytes
  | .retireConnectionId x => x.toBytes
  | .pathChallenge x => pure x.toBytes
  | .pathResponse x => pure x.toBytes
  | .connectionClose x => x.toBytes
  | .handshakeDone => pure [0x1e]

/-- src/frame.rs:803-851: the `match type_byte` of `deserialize_frame`. The ranges `0x02..=0x03` etc. are written as
comparisons, tested in source order. -/
def deserializeFrameBody (typeByte : U8) : Rd Frame :=
  let t := typeByte.toNat
  if t = 0x00 then pure .padding
  else if t = 0x01 then pure .ping
  else if 0x02 ≤ t ∧ t ≤ 0x03 then do let x ← FrameAck.fromDatagram typeByte; pure (.ack x)
  else if t = 0x04 then do let x ← FrameResetStream.fromDatagram; pure (.resetStream x)
  else if t = 0x05 then do let x ← FrameStopSending.fromDatagram; pure (.stopSending x)
  else if t = 0x06 then do let x ← FrameCrypto.fromDatagram; pure (.crypto x)
  else if t = 0x07 then do let x ← FrameNewToken.fromDatagram; pure (.newToken x)
  else if 0x08 ≤ t ∧ t ≤ 0x0f then do let x ← FrameStream.fromDatagram typeByte; pure (.stream x)
  else if t = 0x10 then do let x ← FrameMaxData.fromDatagram; pure (.maxData x)
  else if t = 0x11 then do let x ← FrameMaxStreamData.fromDatagram; pure (.maxStreamData x)
  else if 0x12 ≤ t ∧ t ≤ 0x13 then do let x ← FrameMaxStreams.fromDatagram typeByte; pure (.maxStreams x)
  else if t = 0x14 then do let x ← FrameDataBlocked.fromDatagram; pure (.dataBlocked x)
  else if t = 0x15 then do let x ← FrameStreamDataBlocked.fromDatagram; pure (.streamDataBlocked x)
  else if 0x16 ≤ t ∧ t ≤ 0x17 then do let x ← FrameStreamsBlocked.fromDatagram typeByte; pure (.streamsBlocked x)
  else if t = 0x18 then do let x ← FrameNewConnectionId.fromDatagram; pure (.newConnectionId x)
  else if t = 0x19 then do let x ← FrameRetireConnectionId.fromDatagram; pure (.retireConnectionId x)
  else if t = 0x1a then do let x ← FramePathChallenge.fromDatagram; pure (.pathChallenge x)
  else if t = 0x1b then do let x ← FramePathResponse.fromDatagram; pure (.pathResponse x)
  else if 0x1c ≤ t ∧ t ≤ 0x1d then do let x ← FrameConnectionClose.fromDatagram typeByte; pure (.connectionClose x)
  else if t = 0x1e then pure .handshakeDone
  else Rd.fail (.internalError "Invalid type byte")

/-- src/frame.rs:797-852 `deserialize_frame`. Line 802 is `(type_byte & ((1 << 8) - 1)) as u8` by Rust precedence. -/
def deserializeFrame : Rd Frame := do
  let typeByte ← varIntFromStream
  let typeByte : U8 := (typeByte &&& (((1 : U64) <<< 8) - 1)).setWidth 8
  deserializeFrameBody typeByte

/-- Loop of src/frame.rs:860-863. `fuel` bounds the iterations; with more fuel than stream items it is never
exhausted (`deserializeFrames_eq` in the proofs restates the loop without fuel). -/
def deserializeFramesLoop : Nat → Rd (List Frame)
  | _, [] => (.ok [], [])
  | 0, s => (.panic "model: out of fuel", s)
  | fuel + 1, s =>
    match deserializeFrame s with
    | (.ok f, s') =>
      match deserializeFramesLoop fuel s' with
      | (.ok fs, s'') => (.ok (f :: fs), s'')
      | r => r
    | (.err e, s') => (.err e, s')
    | (.panic w, s') => (.panic w, s')

/-- src/frame.rs:854-865 `deserialize_frames`. The `peekable` adaptor only looks one item ahead; the peeked item is always
consumed by the following `deserialize_frame`. -/
def deserializeFrames : Rd (List Frame) := fun s => deserializeFramesLoop (s.length + 1) s

/-- src/frame.rs:867-878 `serialize_frames`: `is_df_end && idx == frames_len - 1` marks the last frame. Encoding stops at the
first error, as in the source's loop. -/
def serializeFrames (frames : List Frame) (isDfEnd : Bool) : Out Bytes :=
  match frames with
  | [] => pure []
  | f :: fs => do
    let a ← f.toBytes (isDfEnd && fs.isEmpty)
    let b ← serializeFrames fs isDfEnd
    pure (a ++ b)

end QuicSea
