import Verif.Spec.Wire
import Verif.Model.TransportParameters
/-
Independent specification of the transport parameter extension (RFC 9000 section 18) and of the transport error codes
(RFC 9000 section 20.1). Uses only the data types of the model, not its functions.
-/
namespace Spec
open QuicSea (Bytes U8 TransportParameter PreferredAddress Error)

/-- RFC 9000 section 18.2: the integer a parameter carries, if it carries one. -/
def paramInt : TransportParameter → Option Nat
  | .maxIdleTimeout x | .maxUdpPayloadSize x | .initialMaxData x | .initialMaxStreamDataBidiLocal x
  | .initialMaxStreamDataBidiRemote x | .initialMaxStreamDataUni x | .initialMaxStreamsBidi x | .initialMaxStreamsUni x
  | .ackDelayExponent x | .maxAckDelay x | .activeConnectionIdLimit x => some x.toNat
  | _ => none

/-- The number of bytes of the byte strings a parameter carries. -/
def paramBytesLen : TransportParameter → Nat
  | .originalDestinationConnectionId x | .initialSourceConnectionId x | .retrySourceConnectionId x => x.length
  | .preferredAddress x => x.connectionId.length
  | _ => 0

/-- A `Vec<u8>` never has more than `isize::MAX` bytes. -/
def InMemory (p : TransportParameter) : Prop := paramBytesLen p < 2 ^ 63

/-- RFC 9000 section 18.2: the length of the value of a parameter that is not an integer (`preferred_address` as far as
`ParamWire` constrains it: the addresses, the ports and the connection id bytes). -/
def paramRawLen : TransportParameter → Nat
  | .originalDestinationConnectionId x | .initialSourceConnectionId x | .retrySourceConnectionId x => x.length
  | .statelessResetToken _ => 16
  | .preferredAddress x => 24 + x.connectionId.length
  | _ => 0

/-- RFC 9000 section 18.2: `id` and `v` are the id and the value of parameter `p` (the value of `preferred_address` is only
constrained to start with the two addresses and ports here; see `PreferredAddressWire`). -/
def ParamWire (p : TransportParameter) (id : Nat) (v : Bytes) : Prop :=
  match p with
  | .originalDestinationConnectionId x => id = 0 ∧ v = x
  | .maxIdleTimeout x => id = 1 ∧ IsVarInt v x.toNat
  | .statelessResetToken x => id = 2 ∧ v.length = 16 ∧ beNat v = x.toNat
  | .maxUdpPayloadSize x => id = 3 ∧ IsVarInt v x.toNat
  | .initialMaxData x => id = 4 ∧ IsVarInt v x.toNat
  | .initialMaxStreamDataBidiLocal x => id = 5 ∧ IsVarInt v x.toNat
  | .initialMaxStreamDataBidiRemote x => id = 6 ∧ IsVarInt v x.toNat
  | .initialMaxStreamDataUni x => id = 7 ∧ IsVarInt v x.toNat
  | .initialMaxStreamsBidi x => id = 8 ∧ IsVarInt v x.toNat
  | .initialMaxStreamsUni x => id = 9 ∧ IsVarInt v x.toNat
  | .ackDelayExponent x => id = 10 ∧ IsVarInt v x.toNat
  | .maxAckDelay x => id = 11 ∧ IsVarInt v x.toNat
  | .disableActiveMigration => id = 12 ∧ v = []
  | .preferredAddress x => id = 13 ∧ ∃ a4 p4 a6 p6 rest : Bytes, v = a4 ++ p4 ++ a6 ++ p6 ++ rest
      ∧ a4.length = 4 ∧ beNat a4 = x.ipv4Address.toNat ∧ p4.length = 2 ∧ beNat p4 = x.ipv4Port.toNat
      ∧ a6.length = 16 ∧ beNat a6 = x.ipv6Address.toNat ∧ p6.length = 2 ∧ beNat p6 = x.ipv6Port.toNat
  | .activeConnectionIdLimit x => id = 14 ∧ IsVarInt v x.toNat
  | .initialSourceConnectionId x => id = 15 ∧ v = x
  | .retrySourceConnectionId x => id = 16 ∧ v = x

/-- RFC 9000 section 18, figure 21: id, length, value. -/
def ParamTLV (p : TransportParameter) (bs : Bytes) : Prop :=
  ∃ id idb lb v, IsVarInt idb id ∧ IsVarInt lb v.length ∧ bs = idb ++ lb ++ v ∧ ParamWire p id v

/-- RFC 9000 section 18, figure 20: `bs` is the concatenation of (id, value) pairs `l`, each in id, length, value form. -/
inductive TLVs : List (Nat × Bytes) → Bytes → Prop
  | nil : TLVs [] []
  | cons {id v idb lb l bs} : IsVarInt idb id → IsVarInt lb v.length → TLVs l bs → TLVs ((id, v) :: l) (idb ++ lb ++ v ++ bs)

/-- RFC 9000 section 18.2, figure 22: the value of `preferred_address`, with stateless reset token `token`. -/
def PreferredAddressWire (x : PreferredAddress) (token : Bytes) (v : Bytes) : Prop :=
  ∃ (a4 p4 a6 p6 : Bytes) (len : U8), v = a4 ++ p4 ++ a6 ++ p6 ++ [len] ++ x.connectionId ++ token
    ∧ a4.length = 4 ∧ beNat a4 = x.ipv4Address.toNat ∧ p4.length = 2 ∧ beNat p4 = x.ipv4Port.toNat
    ∧ a6.length = 16 ∧ beNat a6 = x.ipv6Address.toNat ∧ p6.length = 2 ∧ beNat p6 = x.ipv6Port.toNat
    ∧ len.toNat = x.connectionId.length ∧ token.length = 16

/-- RFC 9000 section 20.1: the registered transport error codes, by name. -/
def errorCodes : List (String × Nat) :=
  [("NO_ERROR", 0x00), ("INTERNAL_ERROR", 0x01), ("CONNECTION_REFUSED", 0x02), ("FLOW_CONTROL_ERROR", 0x03),
   ("STREAM_LIMIT_ERROR", 0x04), ("STREAM_STATE_ERROR", 0x05), ("FINAL_SIZE_ERROR", 0x06), ("FRAME_ENCODING_ERROR", 0x07),
   ("TRANSPORT_PARAMETER_ERROR", 0x08), ("CONNECTION_ID_LIMIT_ERROR", 0x09), ("PROTOCOL_VIOLATION", 0x0a),
   ("INVALID_TOKEN", 0x0b), ("APPLICATION_ERROR", 0x0c), ("CRYPTO_BUFFER_EXCEEDED", 0x0d), ("KEY_UPDATE_ERROR", 0x0e),
   ("AEAD_LIMIT_REACHED", 0x0f), ("NO_VIABLE_PATH", 0x10)]

/-- The RFC 9000 name of each error of the code. -/
def errorName : Error → String
  | .noError => "NO_ERROR"
  | .internalError _ => "INTERNAL_ERROR"
  | .connectionRefused => "CONNECTION_REFUSED"
  | .flowControlError => "FLOW_CONTROL_ERROR"
  | .streamLimitError => "STREAM_LIMIT_ERROR"
  | .streamStateError => "STREAM_STATE_ERROR"
  | .finalSizeError => "FINAL_SIZE_ERROR"
  | .frameEncodingError => "FRAME_ENCODING_ERROR"
  | .transportParameterError => "TRANSPORT_PARAMETER_ERROR"
  | .connectionIdLimitError => "CONNECTION_ID_LIMIT_ERROR"
  | .protocolViolation => "PROTOCOL_VIOLATION"
  | .invalidToken => "INVALID_TOKEN"
  | .applicationError => "APPLICATION_ERROR"
  | .cryptoBufferExceeded => "CRYPTO_BUFFER_EXCEEDED"
  | .keyUpdateError => "KEY_UPDATE_ERROR"
  | .aeadLimitReached => "AEAD_LIMIT_REACHED"
  | .noViablePath => "NO_VIABLE_PATH"

end Spec
