import Verif.Model.ConnHistory
/-
The life of one connection: datagrams decoded for it (src/packet.rs:808-818, called from src/routing.rs:130-149 with the connection of the table)
between the operations which change it (src/connection.rs, `ConnOp`). `decode_packets` takes `&Connection`, which has no interior mutability, so that the
connection is the same after it.
-/
namespace QuicSea

/-- What can happen to a connection (src/packet.rs:808-818; the operations of `ConnOp`). -/
inductive Happening where
  /-- `decode_packets` of one datagram for this connection. -/
  | receives (bytes : Bytes)
  /-- One operation on the connection. -/
  | does (op : ConnOp)

/-- What comes of it: the value of src/packet.rs:808-818, or that of the operation. -/
inductive Result where
  | delivered (r : Out (List Packet))
  | done (o : ConnOut)

/-- The life of a connection (src/packet.rs:808-818; src/connection.rs:58-70): each thing that happens to it in turn, with what comes of it. -/
def Connection.live (bp : Profile) (c : Connection) : List Happening → List Result × Connection
  | [] => ([], c)
  | .receives bytes :: hs =>
    let rs := c.live bp hs
    (.delivered (decodePackets bp c (makeResultStream bytes)).1 :: rs.1, rs.2)
  | .does op :: hs =>
    let r := c.step bp op
    let rs := r.2.live bp hs
    (.done r.1 :: rs.1, rs.2)

end QuicSea
