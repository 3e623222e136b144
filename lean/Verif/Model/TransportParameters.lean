import Verif.Model.Utils
/-
Model of src/transport_parameters.rs.
-/
namespace QuicSea

/-- src/transport_parameters.rs:5-11. `Ipv4Addr` is its 4 octets (a `u32`), `Ipv6Addr` its 16 octets (a `u128`). -/
structure PreferredAddress where
  ipv4Address : U32
  ipv4Port : U16
  ipv6Address : U128
  ipv6Port : U16
  connectionId : Bytes
deriving DecidableEq, Repr

/-- src/transport_parameters.rs:14-23. -/
def PreferredAddress.toBytes (x : PreferredAddress) : Bytes :=
  toBeBytes 4 x.ipv4Address ++ toBeBytes 2 x.ipv4Port ++ toBeBytes 16 x.ipv6Address ++ toBeBytes 2 x.ipv6Port
    ++ x.connectionId

/-- src/transport_parameters.rs:26-44. The `[u8; 16]` token is a `u128` (its big-endian value). -/
inductive TransportParameter where
  | originalDestinationConnectionId (x : Bytes)
  | maxIdleTimeout (x : U64)
  | statelessResetToken (x : U128)
  | maxUdpPayloadSize (x : U64)
  | initialMaxData (x : U64)
  | initialMaxStreamDataBidiLocal (x : U64)
  | initialMaxStreamDataBidiRemote (x : U64)
  | initialMaxStreamDataUni (x : U64)
  | initialMaxStreamsBidi (x : U64)
  | initialMaxStreamsUni (x : U64)
  | ackDelayExponent (x : U64)
  | maxAckDelay (x : U64)
  | disableActiveMigration
  | preferredAddress (x : PreferredAddress)
  | activeConnectionIdLimit (x : U64)
  | initialSourceConnectionId (x : Bytes)
  | retrySourceConnectionId (x : Bytes)
deriving DecidableEq, Repr

namespace TransportParameter
/-- src/transport_parameters.rs:47-67. -/
def identifierVal : TransportParameter → U64
  | originalDestinationConnectionId _ => 0x00
  | maxIdleTimeout _ => 0x01
  | statelessResetToken _ => 0x02
  | maxUdpPayloadSize _ => 0x03
  | initialMaxData _ => 0x04
  | initialMaxStreamDataBidiLocal _ => 0x05
  | initialMaxStreamDataBidiRemote _ => 0x06
  | initialMaxStreamDataUni _ => 0x07
  | initialMaxStreamsBidi _ => 0x08
  | initialMaxStreamsUni _ => 0x09
  | ackDelayExponent _ => 0x0a
  | maxAckDelay _ => 0x0b
  | disableActiveMigration => 0x0c
  | preferredAddress _ => 0x0d
  | activeConnectionIdLimit _ => 0x0e
  | initialSourceConnectionId _ => 0x0f
  | retrySourceConnectionId _ => 0x10

/-- src/transport_parameters.rs:70-88: the value bytes. -/
def valueBytes : TransportParameter → Out Bytes
  | originalDestinationConnectionId x => pure x
  | maxIdleTimeout x => encodeVarInt x
  | statelessResetToken x => pure (toBeBytes 16 x)
  | maxUdpPayloadSize x => encodeVarInt x
  | initialMaxData x => encodeVarInt x
  | initialMaxStreamDataBidiLocal x => encodeVarInt x
  | initialMaxStreamDataBidiRemote x => encodeVarInt x
  | initialMaxStreamDataUni x => encodeVarInt x
  | initialMaxStreamsBidi x => encodeVarInt x
  | initialMaxStreamsUni x => encodeVarInt x
  | ackDelayExponent x => encodeVarInt x
  | maxAckDelay x => encodeVarInt x
  | disableActiveMigration => pure []
  | preferredAddress x => pure x.toBytes
  | activeConnectionIdLimit x => encodeVarInt x
  | initialSourceConnectionId x => pure x
  | retrySourceConnectionId x => pure x

/-- src/transport_parameters.rs:68-91 `serialize`. -/
def serialize (p : TransportParameter) : Out Bytes := do
  let identifierBytes ← encodeVarInt p.identifierVal
  let value ← p.valueBytes
  let lengthBytes ← encodeVarInt (BitVec.ofNat 64 value.length)
  pure (identifierBytes ++ lengthBytes ++ value)
end TransportParameter

end QuicSea
