import Verif.Spec.AutoTraits
/-
The types of the crate, by their fields, for the auto traits `Send` and `Sync` (C105). `recv` stands in the place of the type of the field `receiver` of
`InternalQuicStream`; the code has `Receiver<InternalDatagram>` there.
-/
namespace QuicSea.Types
open Spec (RTy)

/-- `Vec<u8>`, as in src/packet.rs:214. -/
def bytes : RTy := .owned .plain
/-- src/utils.rs:7-10: `u32`, `u128` -/
def u160 : RTy := .data [.plain, .plain]
/-- src/version.rs:6-9 -/
def version : RTy := .data []
/-- src/error.rs:1-21: one variant has a `&'static str` -/
def error : RTy := .data [.plain]
/-- src/quictls/cipher_suite.rs:7-23: `sample_len`, `tag_len`, `key_len`, `iv_len` and five function pointers -/
def cipherSuite : RTy := .data [.plain, .owned .plain, .plain, .owned .plain, .plain, .plain, .plain, .plain, .plain]
/-- src/quictls/secrets.rs:12-18 -/
def secrets : RTy := .data [.shared cipherSuite, bytes, .owned bytes, bytes]
/-- src/connection.rs:13-20 -/
def pnInfo : RTy := .data [.owned .plain, .owned .plain, .plain, .owned secrets, .owned secrets]
/-- src/connection.rs:58-70 -/
def connection : RTy := .data [version, pnInfo, pnInfo, pnInfo, .data [u160, .plain], .owned (.data [u160, .plain])]
/-- src/routing.rs:12-16 -/
def datagram : RTy := .data [bytes, .plain]
/-- src/routing.rs:18-26: `receiver`, `sender`, `connection` -/
def streamWith (recv : RTy) : RTy := .data [recv, .sender datagram, .rwLock connection]
/-- src/routing.rs:28-33: `socket`, `streams`, `log_traffic` -/
def internalWith (recv : RTy) : RTy := .data [.mutex .plain, .rwLock (.hashMap u160 (streamWith recv)), .rwLock .plain]
/-- src/interface.rs:6-9 -/
def socketWith (recv : RTy) : RTy := .data [.arc (internalWith recv)]
/-- src/interface.rs:11-15 -/
def quicStreamWith (recv : RTy) : RTy := .data [.arc (internalWith recv), u160]

/-- src/routing.rs:20 `Receiver<InternalDatagram>` -/
def recv : RTy := .receiver datagram
/-- src/routing.rs:18-26. -/
def internalStream : RTy := streamWith recv
/-- src/routing.rs:28-33. -/
def internalSocket : RTy := internalWith recv
/-- src/interface.rs:6-9. -/
def quicSocket : RTy := socketWith recv
/-- src/interface.rs:11-15. -/
def quicStream : RTy := quicStreamWith recv

/-- src/frame.rs:8-13, 39-43, 66-74 -/
def frameAck : RTy := .data [.plain, .plain, .plain, .plain, .owned (.data [.plain, .plain]), .owned (.data [.plain, .plain, .plain])]
/-- src/frame.rs:746-768, with the structs of lines 131-136, 170-174, 204-209, 244-248, 278-285, 355-358, 380-384, 414-418, 453-456, 478-482, 512-516, 551-558, 608-611,
633-636, 654-657, 675-682, in this order -/
def frame : RTy := .data [frameAck, .data [.plain, .plain, .plain], .data [.plain, .plain], .data [.plain, .plain, bytes], .data [.plain, bytes],
  .data [.plain, .plain, .plain, bytes, .plain], .data [.plain], .data [.plain, .plain], .data [.plain, .plain], .data [.plain], .data [.plain, .plain],
  .data [.plain, .plain], .data [.plain, .plain, .plain, u160, .plain], .data [.plain], .data [.plain], .data [.plain],
  .data [.plain, .owned .plain, .plain, bytes, .plain]]
/-- src/packet.rs:8-24 -/
def longHeader : RTy := .data [.plain, .plain, .plain, u160, .plain, u160, .owned (.data [bytes, bytes]), .plain]
/-- src/packet.rs:583-588 -/
def shortHeader : RTy := .data [.plain, u160, .plain]
/-- src/packet.rs:745-753, with the structs of lines 178-182, 211-218, 344-351, 397-403, 516-525, 663-669, in this order -/
def packet : RTy := .data [.data [longHeader, .owned .plain], .data [longHeader, bytes, .plain, bytes, .owned frame],
  .data [longHeader, .plain, bytes, .plain, .owned frame], .data [longHeader, bytes, .plain, .owned frame],
  .data [.plain, .plain, u160, .plain, u160, bytes, .plain], .data [shortHeader, bytes, .plain, .owned frame]]
/-- src/transport_parameters.rs:4-11, 25-44 -/
def transportParameter : RTy := .data [bytes, .plain, .owned .plain, .data [.plain, .plain, .plain, .plain, bytes]]

end QuicSea.Types
