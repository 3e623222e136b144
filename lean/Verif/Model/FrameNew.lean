import Verif.Model.Frame
/-
The constructors of src/frame.rs that only fill in the fields, and `FrameAck::new`. The others are in `Verif.Model.Frame`.
-/
namespace QuicSea

/-- src/frame.rs:77-79 `FrameAck::new`: `todo!()`. -/
def FrameAck.new : Out FrameAck := .panic "not yet implemented"
/-- src/frame.rs:139-145. -/
def FrameResetStream.new (streamId applicationProtocolErrorCode finalSize : U64) : FrameResetStream :=
  { streamId, applicationProtocolErrorCode, finalSize }
/-- src/frame.rs:177-182. -/
def FrameStopSending.new (streamId applicationProtocolErrorCode : U64) : FrameStopSending := { streamId, applicationProtocolErrorCode }
/-- src/frame.rs:361-363. -/
def FrameMaxData.new (maximumData : U64) : FrameMaxData := { maximumData }
/-- src/frame.rs:387-392. -/
def FrameMaxStreamData.new (streamId maximumStreamData : U64) : FrameMaxStreamData := { streamId, maximumStreamData }
/-- src/frame.rs:421-426. -/
def FrameMaxStreams.new (maximumStreams : U64) (isUnidirectional : Bool) : FrameMaxStreams := { maximumStreams, isUnidirectional }
/-- src/frame.rs:459-461. -/
def FrameDataBlocked.new (maximumData : U64) : FrameDataBlocked := { maximumData }
/-- src/frame.rs:485-490. -/
def FrameStreamDataBlocked.new (streamId maximumStreamData : U64) : FrameStreamDataBlocked := { streamId, maximumStreamData }
/-- src/frame.rs:519-524. -/
def FrameStreamsBlocked.new (maximumStreams : U64) (isUnidirectionalLimit : Bool) : FrameStreamsBlocked := { maximumStreams, isUnidirectionalLimit }
/-- src/frame.rs:614-616. -/
def FrameRetireConnectionId.new (sequenceNumber : U64) : FrameRetireConnectionId := { sequenceNumber }
/-- src/frame.rs:639-641. -/
def FramePathChallenge.new (data : U64) : FramePathChallenge := { data }
/-- src/frame.rs:660-662. -/
def FramePathResponse.new (data : U64) : FramePathResponse := { data }

/-! Unit test of src/frame.rs:885-1100, all cases, replayed on the model. -/
section Tests
private abbrev pay8 : Bytes := [0x41, 0x41, 0x41, 0x41, 0x41, 0x41, 0x41, 0x41]
private abbrev bad : Bytes := [0x62, 0x61, 0x64, 0x20, 0x74, 0x68, 0x69, 0x6e, 0x67, 0x20, 0x68, 0x61, 0x70, 0x70, 0x65, 0x6e, 0x65, 0x64]
example : serializeFrames [.padding] false = .ok [0x00] := by decide +kernel
example : serializeFrames [.ping] false = .ok [0x01] := by decide +kernel
example : serializeFrames [.ack ⟨2000, 0, 1, 0, [⟨2, 2⟩], none⟩] false = .ok [0x02, 0x47, 0xd0, 0x00, 0x01, 0x00, 0x02, 0x02] := by decide +kernel
example : serializeFrames [.ack ⟨2000, 0, 1, 0, [⟨2, 2⟩], some ⟨0, 0, 0⟩⟩] false = .ok [0x03, 0x47, 0xd0, 0x00, 0x01, 0x00, 0x02, 0x02, 0x00, 0x00, 0x00] := by decide +kernel
example : serializeFrames [.resetStream (.new 0 0 0)] false = .ok [0x04, 0x00, 0x00, 0x00] := by decide +kernel
example : serializeFrames [.stopSending (.new 0 0)] false = .ok [0x05, 0x00, 0x00] := by decide +kernel
example : serializeFrames [.crypto (.new pay8)] false = .ok [0x06, 0x00, 0x08, 0x41, 0x41, 0x41, 0x41, 0x41, 0x41, 0x41, 0x41] := by decide +kernel
example : serializeFrames [.newToken (.new pay8)] false = .ok [0x07, 0x08, 0x41, 0x41, 0x41, 0x41, 0x41, 0x41, 0x41, 0x41] := by decide +kernel
example : serializeFrames [.stream (.new 1 pay8 false)] false = .ok [0x0a, 0x01, 0x08, 0x41, 0x41, 0x41, 0x41, 0x41, 0x41, 0x41, 0x41] := by decide +kernel
example : serializeFrames [.stream (.new 1 pay8 true)] false = .ok [0x0b, 0x01, 0x08, 0x41, 0x41, 0x41, 0x41, 0x41, 0x41, 0x41, 0x41] := by decide +kernel
example : serializeFrames [.maxData (.new 2000)] false = .ok [0x10, 0x47, 0xd0] := by decide +kernel
example : serializeFrames [.maxStreamData (.new 4 2000)] false = .ok [0x11, 0x04, 0x47, 0xd0] := by decide +kernel
example : serializeFrames [.maxStreams (.new 4 false)] false = .ok [0x12, 0x04] := by decide +kernel
example : serializeFrames [.maxStreams (.new 4 true)] false = .ok [0x13, 0x04] := by decide +kernel
example : serializeFrames [.dataBlocked (.new 4)] false = .ok [0x14, 0x04] := by decide +kernel
example : serializeFrames [.streamDataBlocked (.new 4 2000)] false = .ok [0x15, 0x04, 0x47, 0xd0] := by decide +kernel
example : serializeFrames [.streamsBlocked (.new 4 false)] false = .ok [0x16, 0x04] := by decide +kernel
example : serializeFrames [.streamsBlocked (.new 4 true)] false = .ok [0x17, 0x04] := by decide +kernel
example : serializeFrames [.newConnectionId (.new 4 4 .zero 0)] false = .ok [0x18, 0x04, 0x04, 0x08, 0x00, 0x00, 0x00, 0x00, 0x00, 0x00, 0x00, 0x00, 0x00, 0x00, 0x00, 0x00, 0x00, 0x00, 0x00, 0x00, 0x00, 0x00, 0x00, 0x00, 0x00, 0x00, 0x00, 0x00] := by decide +kernel
example : serializeFrames [.retireConnectionId (.new 2)] false = .ok [0x19, 0x02] := by decide +kernel
example : serializeFrames [.pathChallenge (.new 3328591)] false = .ok [0x1a, 0x00, 0x00, 0x00, 0x00, 0x00, 0x32, 0xca, 0x4f] := by decide +kernel
example : serializeFrames [.pathResponse (.new 3328591)] false = .ok [0x1b, 0x00, 0x00, 0x00, 0x00, 0x00, 0x32, 0xca, 0x4f] := by decide +kernel
example : serializeFrames [.connectionClose (.newError 4 0 bad)] false = .ok [0x1c, 0x04, 0x00, 0x12, 0x62, 0x61, 0x64, 0x20, 0x74, 0x68, 0x69, 0x6e, 0x67, 0x20, 0x68, 0x61, 0x70, 0x70, 0x65, 0x6e, 0x65, 0x64] := by decide +kernel
example : serializeFrames [.connectionClose (.newApplicationError 4 bad)] false = .ok [0x1d, 0x04, 0x12, 0x62, 0x61, 0x64, 0x20, 0x74, 0x68, 0x69, 0x6e, 0x67, 0x20, 0x68, 0x61, 0x70, 0x70, 0x65, 0x6e, 0x65, 0x64] := by decide +kernel
example : serializeFrames [.handshakeDone] false = .ok [0x1e] := by decide +kernel
end Tests

end QuicSea
