import Verif.Spec.Wire
import Verif.Spec.Cid
import Verif.Model.Packet
/-
RFC 9000 section 17: packet headers, stated on bytes. Only data types of the model are used, none of its functions.
-/
namespace Spec
open QuicSea

/-- RFC 9000 sections 17.2, 17.2.1-17.2.5, 17.3: kind of packet from the first byte and the version. -/
def packetKind (first : U8) (version : U32) : PacketType :=
  if first.toNat < 128 then .oneRtt
  else if version.toNat = 0 then .versionNegotiation
  else match first.toNat / 16 % 4 with
    | 0 => .initial
    | 1 => .zeroRtt
    | 2 => .handshake
    | _ => .retry

/-- RFC 9001 section 5.4: header protection covers all packets but Version Negotiation and Retry. -/
def protectable : PacketType → Bool
  | .retry => false
  | .versionNegotiation => false
  | _ => true

/-- RFC 9000 section 17.2: first byte, version, destination id with its length, source id with its length. With version 0 (Version
Negotiation) ids are opaque and up to 255 bytes; otherwise they are numbers of at most 20 bytes. -/
def LongFields (h : LongPacketHeader) (bs : Bytes) : Prop :=
  ∃ vb d s, bs = [h.headerByte] ++ vb ++ [h.destinationConnectionIdLength] ++ d ++ [h.sourceConnectionIdLength] ++ s ∧
    vb.length = 4 ∧ beNat vb = h.version.toNat ∧
    d.length = h.destinationConnectionIdLength.toNat ∧ s.length = h.sourceConnectionIdLength.toNat ∧
    if h.version.toNat = 0 then
      h.versionNegotiation = some ⟨d, s⟩ ∧ cidVal h.destinationConnectionId = 0 ∧ cidVal h.sourceConnectionId = 0
    else
      h.versionNegotiation = none ∧ d.length ≤ 20 ∧ s.length ≤ 20 ∧
      beNat d = cidVal h.destinationConnectionId ∧ beNat s = cidVal h.sourceConnectionId

/-- RFC 9000 section 17.3, for 8-byte local connection ids. -/
def ShortFields (h : ShortPacketHeader) (bs : Bytes) : Prop :=
  ∃ d, bs = [h.headerByte] ++ d ∧ d.length = 8 ∧ beNat d = cidVal h.destinationConnectionId

end Spec
