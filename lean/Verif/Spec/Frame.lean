import Verif.Spec.Wire
import Verif.Spec.Cid
import Verif.Model.Frame
/-
RFC 9000 section 19: wire layout of the frames, as a relation between a frame and bytes. Only the data type `Frame` of the model is
used, no model function.
-/
namespace Spec
open QuicSea (Bytes U8 U64 U128 U160 Frame AckRange EcnCounts)

/-- Section 19.3.1: consecutive (Gap, ACK Range Length) pairs. -/
inductive AckRangesWire : List AckRange → Bytes → Prop
  | nil : AckRangesWire [] []
  | cons {r : AckRange} {rs b1 b2 b3} : IsVarInt b1 r.gap.toNat → IsVarInt b2 r.ackRangeLength.toNat → AckRangesWire rs b3 →
      AckRangesWire (r :: rs) (b1 ++ (b2 ++ b3))

/-- Section 19.3.2. -/
def EcnWire (e : EcnCounts) (bs : Bytes) : Prop :=
  ∃ b1 b2 b3, IsVarInt b1 e.ect0Count.toNat ∧ IsVarInt b2 e.ect1Count.toNat ∧ IsVarInt b3 e.ecnCeCount.toNat ∧ bs = b1 ++ (b2 ++ b3)

/-- `FrameBody last f t b`: a frame of type number `t` whose bytes after the type are `b` is the frame `f`. `last` says that nothing follows
the frame in its packet, which is the only place where a STREAM frame without Length field can be. -/
inductive FrameBody (last : Bool) : Frame → Nat → Bytes → Prop
  /-- 19.1 -/
  | padding : FrameBody last .padding 0x00 []
  /-- 19.2 -/
  | ping : FrameBody last .ping 0x01 []
  /-- 19.3, without ECN counts -/
  | ack {x : QuicSea.FrameAck} {b1 b2 b3 b4 b5} : IsVarInt b1 x.largestAcknowledged.toNat → IsVarInt b2 x.ackDelay.toNat →
      IsVarInt b3 x.ackRangeCount.toNat → IsVarInt b4 x.firstAckRange.toNat → AckRangesWire x.ackRange b5 →
      x.ackRangeCount.toNat = x.ackRange.length → x.ecnCounts = none →
      FrameBody last (.ack x) 0x02 (b1 ++ (b2 ++ (b3 ++ (b4 ++ b5))))
  /-- 19.3, with ECN counts -/
  | ackEcn {x : QuicSea.FrameAck} {e b1 b2 b3 b4 b5 b6} : IsVarInt b1 x.largestAcknowledged.toNat → IsVarInt b2 x.ackDelay.toNat →
      IsVarInt b3 x.ackRangeCount.toNat → IsVarInt b4 x.firstAckRange.toNat → AckRangesWire x.ackRange b5 → EcnWire e b6 →
      x.ackRangeCount.toNat = x.ackRange.length → x.ecnCounts = some e →
      FrameBody last (.ack x) 0x03 (b1 ++ (b2 ++ (b3 ++ (b4 ++ (b5 ++ b6)))))
  /-- 19.4 -/
  | resetStream {x : QuicSea.FrameResetStream} {b1 b2 b3} : IsVarInt b1 x.streamId.toNat →
      IsVarInt b2 x.applicationProtocolErrorCode.toNat → IsVarInt b3 x.finalSize.toNat →
      FrameBody last (.resetStream x) 0x04 (b1 ++ (b2 ++ b3))
  /-- 19.5 -/
  | stopSending {x : QuicSea.FrameStopSending} {b1 b2} : IsVarInt b1 x.streamId.toNat →
      IsVarInt b2 x.applicationProtocolErrorCode.toNat → FrameBody last (.stopSending x) 0x05 (b1 ++ b2)
  /-- 19.6: the data are exactly Length bytes -/
  | crypto {x : QuicSea.FrameCrypto} {b1 b2} : IsVarInt b1 x.offset.toNat → IsVarInt b2 x.length.toNat →
      x.cryptoData.length = x.length.toNat → FrameBody last (.crypto x) 0x06 (b1 ++ (b2 ++ x.cryptoData))
  /-- 19.7 -/
  | newToken {x : QuicSea.FrameNewToken} {b1} : IsVarInt b1 x.tokenLength.toNat → x.token.length = x.tokenLength.toNat →
      FrameBody last (.newToken x) 0x07 (b1 ++ x.token)
  /-- 19.8: type bits 0x04 Offset present, 0x02 Length present, 0x01 FIN. An absent offset is 0; an absent length means that the data
  extend to the end of the packet. The structure's length is the number of data bytes in both cases. -/
  | stream {x : QuicSea.FrameStream} {hasOffset hasLength : Bool} {b1 b2 b3} : IsVarInt b1 x.streamId.toNat →
      (if hasOffset then IsVarInt b2 x.offset.toNat else b2 = [] ∧ x.offset = 0) →
      (if hasLength then IsVarInt b3 x.length.toNat else b3 = [] ∧ last = true) →
      x.streamData.length = x.length.toNat →
      FrameBody last (.stream x) (0x08 + (if hasOffset then 4 else 0) + (if hasLength then 2 else 0) + (if x.isFin then 1 else 0))
        (b1 ++ (b2 ++ (b3 ++ x.streamData)))
  /-- 19.9 -/
  | maxData {x : QuicSea.FrameMaxData} {b1} : IsVarInt b1 x.maximumData.toNat → FrameBody last (.maxData x) 0x10 b1
  /-- 19.10 -/
  | maxStreamData {x : QuicSea.FrameMaxStreamData} {b1 b2} : IsVarInt b1 x.streamId.toNat → IsVarInt b2 x.maximumStreamData.toNat →
      FrameBody last (.maxStreamData x) 0x11 (b1 ++ b2)
  /-- 19.11: 0x12 bidirectional, 0x13 unidirectional -/
  | maxStreams {x : QuicSea.FrameMaxStreams} {b1} : IsVarInt b1 x.maximumStreams.toNat →
      FrameBody last (.maxStreams x) (if x.isUnidirectional then 0x13 else 0x12) b1
  /-- 19.12 -/
  | dataBlocked {x : QuicSea.FrameDataBlocked} {b1} : IsVarInt b1 x.maximumData.toNat → FrameBody last (.dataBlocked x) 0x14 b1
  /-- 19.13 -/
  | streamDataBlocked {x : QuicSea.FrameStreamDataBlocked} {b1 b2} : IsVarInt b1 x.streamId.toNat →
      IsVarInt b2 x.maximumStreamData.toNat → FrameBody last (.streamDataBlocked x) 0x15 (b1 ++ b2)
  /-- 19.14: 0x16 bidirectional, 0x17 unidirectional -/
  | streamsBlocked {x : QuicSea.FrameStreamsBlocked} {b1} : IsVarInt b1 x.maximumStreams.toNat →
      FrameBody last (.streamsBlocked x) (if x.isUnidirectionalLimit then 0x17 else 0x16) b1
  /-- 19.15: length 1..20, that many bytes of connection id, 16 bytes of token -/
  | newConnectionId {x : QuicSea.FrameNewConnectionId} {b1 b2 b3 b4} : IsVarInt b1 x.sequenceNumber.toNat →
      IsVarInt b2 x.retirePriorTo.toNat → 1 ≤ x.length.toNat → x.length.toNat ≤ 20 →
      b3.length = x.length.toNat → beNat b3 = cidVal x.connectionId →
      b4.length = 16 → beNat b4 = x.statelessResetToken.toNat →
      FrameBody last (.newConnectionId x) 0x18 (b1 ++ (b2 ++ ([x.length] ++ (b3 ++ b4))))
  /-- 19.16 -/
  | retireConnectionId {x : QuicSea.FrameRetireConnectionId} {b1} : IsVarInt b1 x.sequenceNumber.toNat →
      FrameBody last (.retireConnectionId x) 0x19 b1
  /-- 19.17: 64 bits of data -/
  | pathChallenge {x : QuicSea.FramePathChallenge} {b1} : b1.length = 8 → beNat b1 = x.data.toNat →
      FrameBody last (.pathChallenge x) 0x1a b1
  /-- 19.18 -/
  | pathResponse {x : QuicSea.FramePathResponse} {b1} : b1.length = 8 → beNat b1 = x.data.toNat →
      FrameBody last (.pathResponse x) 0x1b b1
  /-- 19.19, transport error: has the type of the offending frame -/
  | connectionCloseTransport {x : QuicSea.FrameConnectionClose} {t b1 b2 b3} : IsVarInt b1 x.errorCode.toNat → x.frameType = some t →
      IsVarInt b2 t.toNat → IsVarInt b3 x.reasonPhraseLength.toNat → x.reasonPhrase.length = x.reasonPhraseLength.toNat →
      x.isApplicationError = false →
      FrameBody last (.connectionClose x) 0x1c (b1 ++ (b2 ++ (b3 ++ x.reasonPhrase)))
  /-- 19.19, application error -/
  | connectionCloseApp {x : QuicSea.FrameConnectionClose} {b1 b3} : IsVarInt b1 x.errorCode.toNat → x.frameType = none →
      IsVarInt b3 x.reasonPhraseLength.toNat → x.reasonPhrase.length = x.reasonPhraseLength.toNat →
      x.isApplicationError = true →
      FrameBody last (.connectionClose x) 0x1d (b1 ++ (b3 ++ x.reasonPhrase))
  /-- 19.20 -/
  | handshakeDone : FrameBody last .handshakeDone 0x1e []

/-- A frame on the wire: its type as a one-byte integer (section 12.4: the shortest encoding, and all types are below 64), then its body. -/
def FrameWire (last : Bool) (f : Frame) (bs : Bytes) : Prop :=
  ∃ t body, FrameBody last f t body ∧ t < 64 ∧ bs = BitVec.ofNat 8 t :: body

/-- As `FrameWire` but with the type in any variable-length encoding, which a receiver may accept (section 12.4). -/
def FrameWireAnyType (last : Bool) (f : Frame) (bs : Bytes) : Prop :=
  ∃ t tb body, FrameBody last f t body ∧ IsVarInt tb t ∧ bs = tb ++ body

/-- The frames of a whole packet payload, in order. -/
inductive FramesWire : List Frame → Bytes → Prop
  | nil : FramesWire [] []
  | cons {f fs b bs} : FrameWire bs.isEmpty f b → FramesWire fs bs → FramesWire (f :: fs) (b ++ bs)

/-- The variable-length integer fields of a frame. `withLength`: whether a STREAM frame carries its Length. -/
def intFields (withLength : Bool) : Frame → List U64
  | .padding | .ping | .handshakeDone | .pathChallenge _ | .pathResponse _ => []
  | .ack x => [x.largestAcknowledged, x.ackDelay, x.ackRangeCount, x.firstAckRange] ++
      (x.ackRange.flatMap fun r => [r.gap, r.ackRangeLength]) ++
      (match x.ecnCounts with | some e => [e.ect0Count, e.ect1Count, e.ecnCeCount] | none => [])
  | .resetStream x => [x.streamId, x.applicationProtocolErrorCode, x.finalSize]
  | .stopSending x => [x.streamId, x.applicationProtocolErrorCode]
  | .crypto x => [x.offset, x.length]
  | .newToken x => [x.tokenLength]
  | .stream x => [x.streamId, x.offset] ++ (if withLength then [x.length] else [])
  | .maxData x => [x.maximumData]
  | .maxStreamData x => [x.streamId, x.maximumStreamData]
  | .maxStreams x => [x.maximumStreams]
  | .dataBlocked x => [x.maximumData]
  | .streamDataBlocked x => [x.streamId, x.maximumStreamData]
  | .streamsBlocked x => [x.maximumStreams]
  | .newConnectionId x => [x.sequenceNumber, x.retirePriorTo]
  | .retireConnectionId x => [x.sequenceNumber]
  | .connectionClose x => [x.errorCode, x.reasonPhraseLength] ++ (match x.frameType with | some t => [t] | none => [])

/-- Every variable-length integer field can be encoded. -/
def IntsFit (withLength : Bool) (f : Frame) : Prop := ∀ v ∈ intFields withLength f, v.toNat < varIntLimit

/-- The redundant fields of a frame agree with each other: counts and lengths say the true number of ranges and bytes, a connection id has
1..20 bytes and fits in them, the offending frame type is there exactly for transport errors. -/
def Consistent : Frame → Prop
  | .ack x => x.ackRangeCount.toNat = x.ackRange.length
  | .crypto x => x.length.toNat = x.cryptoData.length
  | .newToken x => x.tokenLength.toNat = x.token.length
  | .stream x => x.length.toNat = x.streamData.length
  | .newConnectionId x => 1 ≤ x.length.toNat ∧ x.length.toNat ≤ 20 ∧ cidVal x.connectionId < 256 ^ x.length.toNat
  | .connectionClose x => x.reasonPhraseLength.toNat = x.reasonPhrase.length ∧ x.frameType.isSome = !x.isApplicationError
  | _ => True

/-- Well-formed frame. -/
def WellFormed (f : Frame) : Prop := IntsFit true f ∧ Consistent f

instance (w : Bool) (f : Frame) : Decidable (IntsFit w f) := List.decidableBAll (fun v : U64 => v.toNat < varIntLimit) (intFields w f)
instance (f : Frame) : Decidable (Consistent f) := by cases f <;> unfold Consistent <;> infer_instance
instance (f : Frame) : Decidable (WellFormed f) := inferInstanceAs (Decidable (IntsFit true f ∧ Consistent f))

/-- The bytes of application, token, handshake or reason data in a frame. -/
def dataLen : Frame → Nat
  | .crypto x => x.cryptoData.length
  | .newToken x => x.token.length
  | .stream x => x.streamData.length
  | .connectionClose x => x.reasonPhrase.length
  | _ => 0

end Spec
